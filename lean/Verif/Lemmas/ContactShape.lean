import Verif.Model.Formulation

/-!
# Contacts keep their sizes
-/

set_option linter.unusedSectionVars false

namespace Tsid

variable {K : Type}

/-- Sizes of the pieces of a contact object. -/
structure Contact.Shaped (c : Contact K) : Prop where
  genRows : c.forceGen.rows = Contact.kindMotion c.kind
  genCols : c.forceGen.cols = Contact.kindForce c.kind
  ineqKind : c.forceIneq.kind = .inequality
  ineqRows : c.forceIneq.mat.rows = Contact.kindIneqRows c.kind
  ineqCols : c.forceIneq.mat.cols = Contact.kindForce c.kind
  ineqLb : c.forceIneq.lb.size = Contact.kindIneqRows c.kind
  ineqUb : c.forceIneq.ub.size = Contact.kindIneqRows c.kind
  regKind : c.forceReg.kind = .equality
  regRows : c.forceReg.mat.rows = Contact.kindRegRows c.kind
  regCols : c.forceReg.mat.cols = Contact.kindForce c.kind
  regVec : c.forceReg.vec.size = Contact.kindRegRows c.kind
  regWSize : c.regW.size = Contact.kindRegRows c.kind
  fRefSize : c.fRef.size = Contact.kindRegRows c.kind

/-- Same class, same name. -/
def Contact.SameId (c c' : Contact K) : Prop := c'.kind = c.kind ∧ c'.name = c.name

namespace Contact

variable [Field K] [LinearOrder K] [HasSqrt K]

theorem shaped_new (name : String) (kind : ContactKind) (points : Nat → V3 K) (normal : V3 K)
    (mu fMin fMax : K) : (new name kind points normal mu fMin fMax).Shaped := by
  cases kind <;> constructor <;> rfl

omit [LinearOrder K] [HasSqrt K] in
theorem shaped_updateForceGenerator {c : Contact K} (h : c.Shaped) : (updateForceGenerator c).Shaped := by
  unfold updateForceGenerator
  split
  · next hk =>
    refine { h with genRows := ?_, genCols := ?_ } <;> simp [forceGen6d, hk, kindMotion, kindForce]
  · next hk =>
    refine { h with genRows := ?_, genCols := ?_ } <;> simp only [Mat.identity] <;>
      cases hk' : c.kind <;> simp_all [kindMotion, kindForce]

omit [LinearOrder K] [HasSqrt K] in
theorem shaped_updateForceReg {c : Contact K} (h : c.Shaped) : (updateForceReg c).Shaped := by
  unfold updateForceReg
  split
  · next hk =>
    refine { h with regKind := h.regKind, regRows := ?_, regCols := ?_, regVec := ?_ } <;>
      simp [hk, kindRegRows, kindForce]
  · next hk =>
    refine { h with regKind := h.regKind, regRows := ?_, regCols := ?_, regVec := ?_ } <;>
      dsimp only <;> cases hk' : c.kind <;> simp_all [kindRegRows, kindForce]

theorem shaped_updateForceInequality {c : Contact K} (h : c.Shaped) :
    (updateForceInequality c).Shaped := by
  unfold updateForceInequality
  split
  · next hk =>
    refine { h with ineqKind := h.ineqKind, ineqRows := ?_, ineqCols := ?_, ineqLb := ?_, ineqUb := ?_ } <;>
      simp [hk, kindIneqRows, kindForce, Mat.identity]
  · next hk =>
    refine { h with ineqKind := h.ineqKind, ineqRows := ?_, ineqCols := ?_, ineqLb := ?_, ineqUb := ?_ } <;>
      simp only [frictionMat, frictionLb, frictionUb] <;>
      cases hk' : c.kind <;> simp_all [kindIneqRows, kindForce, kindPoints]

theorem sameId_refl (c : Contact K) : c.SameId c := ⟨rfl, rfl⟩

/-- What is known of the contact object after a setter, whatever the outcome. -/
def Good (c : Contact K) {α : Type} (r : Res (Contact K) α) : Prop :=
  ∀ c', r.state? = some c' → c'.Shaped ∧ c.SameId c'

theorem good_ok {c c' : Contact K} {α : Type} {a : α} (h : c'.Shaped) (h2 : c.SameId c') :
    Good c (.ok c' a) := by
  intro d hd
  simp only [Res.state?, Option.some.injEq] at hd
  subst hd
  exact ⟨h, h2⟩

theorem good_throw {c : Contact K} {α : Type} (h : c.Shaped) :
    Good c (.throw c : Res (Contact K) α) := by
  intro d hd
  simp only [Res.state?, Option.some.injEq] at hd
  subst hd
  exact ⟨h, rfl, rfl⟩

theorem good_ub {c : Contact K} {α : Type} : Good c (.ub : Res (Contact K) α) := by
  intro d hd; simp [Res.state?] at hd

theorem sameId_ineq (c : Contact K) : c.SameId (updateForceInequality c) := by
  unfold updateForceInequality; split <;> exact ⟨rfl, rfl⟩

theorem sameId_reg (c : Contact K) : c.SameId (updateForceReg c) := by
  unfold updateForceReg; split <;> exact ⟨rfl, rfl⟩

theorem sameId_gen (c : Contact K) : c.SameId (updateForceGenerator c) := by
  unfold updateForceGenerator; split <;> exact ⟨rfl, rfl⟩

theorem good_setContactPoints {c : Contact K} (h : c.Shaped) (P : Mat K) :
    Good c (c.setContactPoints P) := by
  unfold setContactPoints
  split
  · split
    · split
      · exact good_ok (shaped_updateForceGenerator { h with })
          (sameId_gen { c with points := fun i => V3.ofFn fun r => P r i })
      · exact good_throw h
    · exact good_throw h
  · exact good_ub

theorem good_setContactNormal {c : Contact K} (h : c.Shaped) (n : Vec K) :
    Good c (c.setContactNormal n) := by
  unfold setContactNormal
  split
  · exact good_ok h (sameId_refl c)
  · split
    · exact good_ok (shaped_updateForceInequality { h with })
        (sameId_ineq { c with normal := V3.ofFn n.get })
    · exact good_throw h

theorem good_setFrictionCoefficient {c : Contact K} (h : c.Shaped) (mu : K) :
    Good c (c.setFrictionCoefficient mu) := by
  unfold setFrictionCoefficient
  split
  · exact good_ok h (sameId_refl c)
  · split
    · exact good_ok (shaped_updateForceInequality { h with }) (sameId_ineq { c with mu := mu })
    · exact good_throw h

theorem good_setMinNormalForce {c : Contact K} (h : c.Shaped) (m : K) :
    Good c (c.setMinNormalForce m) := by
  unfold setMinNormalForce
  split
  · exact good_ok (shaped_updateForceInequality { h with }) (sameId_ineq { c with fMin := m })
  · split
    · exact good_ok { h with ineqLb := h.ineqLb, ineqKind := h.ineqKind, ineqRows := h.ineqRows } ⟨rfl, rfl⟩
    · exact good_throw h

theorem good_setMaxNormalForce {c : Contact K} (h : c.Shaped) (m : K) :
    Good c (c.setMaxNormalForce m) := by
  unfold setMaxNormalForce
  split
  · exact good_ok (shaped_updateForceInequality { h with }) (sameId_ineq { c with fMax := m })
  · split
    · exact good_ok { h with ineqUb := h.ineqUb, ineqKind := h.ineqKind, ineqRows := h.ineqRows } ⟨rfl, rfl⟩
    · exact good_throw h

theorem good_setForceReference {c : Contact K} (h : c.Shaped) (f : Vec K) :
    Good c (c.setForceReference f) := by
  unfold setForceReference
  split
  all_goals
    next hk =>
    split
    · next hf =>
      refine good_ok (shaped_updateForceReg { h with fRefSize := ?_ }) (sameId_reg { c with fRef := f })
      simp [hk, kindRegRows, hf]
    · first | exact good_throw h | exact good_ub

theorem good_setRegularizationWeights {c : Contact K} (h : c.Shaped) (w : Vec K) :
    Good c (c.setRegularizationWeights w) := by
  unfold setRegularizationWeights
  split
  · next hw =>
    exact good_ok (shaped_updateForceReg { h with regWSize := hw }) (sameId_reg { c with regW := w })
  · exact good_ub

end Contact

namespace Formulation

variable [Field K] [LinearOrder K] [HasSqrt K]

omit [Field K] [LinearOrder K] [HasSqrt K] in
theorem void_state? {σ α : Type} (r : Res σ α) : (void r).state? = r.state? := by
  cases r <;> rfl

theorem good_applySet {c : Contact K} (h : c.Shaped) (u : ContactSet K) : Contact.Good c (applySet c u) := by
  intro c' hc
  cases u <;> simp only [applySet, void_state?] at hc
  · exact Contact.good_setContactPoints h _ c' hc
  · exact Contact.good_setContactNormal h _ c' hc
  · exact Contact.good_setFrictionCoefficient h _ c' hc
  · exact Contact.good_setMinNormalForce h _ c' hc
  · exact Contact.good_setMaxNormalForce h _ c' hc
  · exact Contact.good_setForceReference h _ c' hc
  · exact Contact.good_setRegularizationWeights h _ c' hc

end Formulation

end Tsid
