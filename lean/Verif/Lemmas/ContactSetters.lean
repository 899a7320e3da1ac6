import Verif.Lemmas.Friction

/-!
# Contact objects after any history of setter calls
-/

set_option linter.unusedSectionVars false

namespace Tsid.Spec

open Formulation Finset

variable {K : Type} [Field K] [LinearOrder K] [HasSqrt K]

/-- A contact object holds the parameters `p` and what follows from them. -/
structure Holds (nm : String) (kd : ContactKind) (c : Contact K) (p : Params K) : Prop where
  name : c.name = nm
  kind : c.kind = kd
  points : c.points = p.points
  normal : c.normal = p.normal
  mu : c.mu = p.mu
  fMin : c.fMin = p.fMin
  fMax : c.fMax = p.fMax
  fRef : c.fRef = p.fRef
  regW : c.regW = p.regW
  ineq : c.forceIneq = (Contact.new nm kd p.points p.normal p.mu p.fMin p.fMax).forceIneq
  gen : c.forceGen = (Contact.new nm kd p.points p.normal p.mu p.fMin p.fMax).forceGen
  reg : c.forceReg = (Contact.updateForceReg { Contact.new nm kd p.regPoints p.normal p.mu p.fMin p.fMax with
    regW := p.regW
    fRef := p.fRef }).forceReg

theorem holds_new (name : String) (kind : ContactKind) (points : Nat → V3 K) (normal : V3 K) (mu fMin fMax : K) :
    Holds name kind (Contact.new name kind points normal mu fMin fMax)
      (newParams kind points normal mu fMin fMax) := by
  cases kind <;> constructor <;> rfl

theorem holds_set {name : String} {kind : ContactKind} {c c' : Contact K} {p : Params K} (h : Holds name kind c p)
    (u : ContactSet K) (hs : (applySet c u).state? = some c') :
    Holds name kind c' (if (applySet c u).threw then p else p.set c.kind u) ∧
    ((applySet c u).threw = true → c' = c) := by
  obtain ⟨h1, h2, h3, h4, h5, h6, h7, h8, h9, h10, h11, h12⟩ := h
  obtain ⟨cn, ck, cpts, cnor, cmu, cmin, cmax, crw, cfr, cg, ci, cr⟩ := c
  simp only at h1 h2 h3 h4 h5 h6 h7 h8 h9 h10 h11 h12
  subst h1 h2 h3 h4 h5 h6 h7 h8 h9 h10 h11 h12
  cases u with
  | points P =>
    cases ck
    · simp [applySet, Contact.setContactPoints, void, Res.state?] at hs
    · simp only [applySet, Contact.setContactPoints] at hs ⊢
      by_cases e1 : P.rows = 3
      · by_cases e2 : P.cols = 4
        · simp only [e1, e2, if_true, void, Res.state?, Option.some.injEq, Res.threw] at hs ⊢
          subst hs
          refine ⟨?_, by simp⟩
          constructor <;> rfl
        · simp only [e1, e2, if_true, if_false, void, Res.state?, Option.some.injEq, Res.threw] at hs ⊢
          subst hs
          exact ⟨by constructor <;> rfl, fun _ => rfl⟩
      · simp only [e1, if_false, void, Res.state?, Option.some.injEq, Res.threw] at hs ⊢
        subst hs
        exact ⟨by constructor <;> rfl, fun _ => rfl⟩
    · simp [applySet, Contact.setContactPoints, void, Res.state?] at hs
  | normal n =>
    cases ck
    · simp only [applySet, Contact.setContactNormal] at hs ⊢
      by_cases e : n.size = 3
      · simp only [e, if_true, void, Res.state?, Option.some.injEq, Res.threw] at hs ⊢
        subst hs
        exact ⟨by constructor <;> rfl, by simp⟩
      · simp only [e, if_false, void, Res.state?, Option.some.injEq, Res.threw] at hs ⊢
        subst hs
        exact ⟨by constructor <;> rfl, fun _ => rfl⟩
    · simp only [applySet, Contact.setContactNormal] at hs ⊢
      by_cases e : n.size = 3
      · simp only [e, if_true, void, Res.state?, Option.some.injEq, Res.threw] at hs ⊢
        subst hs
        exact ⟨by constructor <;> rfl, by simp⟩
      · simp only [e, if_false, void, Res.state?, Option.some.injEq, Res.threw] at hs ⊢
        subst hs
        exact ⟨by constructor <;> rfl, fun _ => rfl⟩
    · simp only [applySet, Contact.setContactNormal, void, Res.state?, Option.some.injEq, Res.threw] at hs ⊢
      subst hs
      exact ⟨by constructor <;> rfl, by simp⟩
  | friction mu =>
    cases ck
    · simp only [applySet, Contact.setFrictionCoefficient] at hs ⊢
      by_cases e : 0 < mu
      · simp only [e, if_true, void, Res.state?, Option.some.injEq, Res.threw] at hs ⊢
        subst hs
        exact ⟨by constructor <;> rfl, by simp⟩
      · simp only [e, if_false, void, Res.state?, Option.some.injEq, Res.threw] at hs ⊢
        subst hs
        exact ⟨by constructor <;> rfl, fun _ => rfl⟩
    · simp only [applySet, Contact.setFrictionCoefficient] at hs ⊢
      by_cases e : 0 < mu
      · simp only [e, if_true, void, Res.state?, Option.some.injEq, Res.threw] at hs ⊢
        subst hs
        exact ⟨by constructor <;> rfl, by simp⟩
      · simp only [e, if_false, void, Res.state?, Option.some.injEq, Res.threw] at hs ⊢
        subst hs
        exact ⟨by constructor <;> rfl, fun _ => rfl⟩
    · simp only [applySet, Contact.setFrictionCoefficient, void, Res.state?, Option.some.injEq, Res.threw] at hs ⊢
      subst hs
      exact ⟨by constructor <;> rfl, by simp⟩
  | fMin m =>
    have hl : ∀ np : Nat, ∀ a : K, Contact.setLast (Contact.frictionLb np a) m = Contact.frictionLb np m := by
      intro np a
      unfold Contact.setLast Contact.frictionLb
      congr 1
      funext i
      simp only [Nat.add_sub_cancel]
      split <;> rfl
    cases ck
    · simp only [applySet, Contact.setMinNormalForce] at hs ⊢
      split at hs
      · next e =>
        rw [if_pos e]
        simp only [void, Res.state?, Option.some.injEq, Res.threw] at hs ⊢
        subst hs
        refine ⟨?_, by simp⟩
        constructor <;> try rfl
        simp only [Contact.new, Contact.updateForceReg, Contact.updateForceInequality, Contact.updateForceGenerator,
          Params.set, Bool.false_eq_true, if_false, hl]
      · next e =>
        rw [if_neg e]
        simp only [void, Res.state?, Option.some.injEq, Res.threw] at hs ⊢
        subst hs
        exact ⟨by constructor <;> rfl, fun _ => rfl⟩
    · simp only [applySet, Contact.setMinNormalForce] at hs ⊢
      split at hs
      · next e =>
        rw [if_pos e]
        simp only [void, Res.state?, Option.some.injEq, Res.threw] at hs ⊢
        subst hs
        refine ⟨?_, by simp⟩
        constructor <;> try rfl
        simp only [Contact.new, Contact.updateForceReg, Contact.updateForceInequality, Contact.updateForceGenerator,
          Params.set, Bool.false_eq_true, if_false, hl]
      · next e =>
        rw [if_neg e]
        simp only [void, Res.state?, Option.some.injEq, Res.threw] at hs ⊢
        subst hs
        exact ⟨by constructor <;> rfl, fun _ => rfl⟩
    · simp only [applySet, Contact.setMinNormalForce, void, Res.state?, Option.some.injEq, Res.threw] at hs ⊢
      subst hs
      exact ⟨by constructor <;> rfl, by simp⟩
  | fMax m =>
    have hl : ∀ np : Nat, ∀ a : K, Contact.setLast (Contact.frictionUb np a) m = Contact.frictionUb np m := by
      intro np a
      unfold Contact.setLast Contact.frictionUb
      congr 1
      funext i
      simp only [Nat.add_sub_cancel]
      split <;> rfl
    cases ck
    · simp only [applySet, Contact.setMaxNormalForce] at hs ⊢
      split at hs
      · next e =>
        rw [if_pos e]
        simp only [void, Res.state?, Option.some.injEq, Res.threw] at hs ⊢
        subst hs
        refine ⟨?_, by simp⟩
        constructor <;> try rfl
        simp only [Contact.new, Contact.updateForceReg, Contact.updateForceInequality, Contact.updateForceGenerator,
          Params.set, Bool.false_eq_true, if_false, hl]
      · next e =>
        rw [if_neg e]
        simp only [void, Res.state?, Option.some.injEq, Res.threw] at hs ⊢
        subst hs
        exact ⟨by constructor <;> rfl, fun _ => rfl⟩
    · simp only [applySet, Contact.setMaxNormalForce] at hs ⊢
      split at hs
      · next e =>
        rw [if_pos e]
        simp only [void, Res.state?, Option.some.injEq, Res.threw] at hs ⊢
        subst hs
        refine ⟨?_, by simp⟩
        constructor <;> try rfl
        simp only [Contact.new, Contact.updateForceReg, Contact.updateForceInequality, Contact.updateForceGenerator,
          Params.set, Bool.false_eq_true, if_false, hl]
      · next e =>
        rw [if_neg e]
        simp only [void, Res.state?, Option.some.injEq, Res.threw] at hs ⊢
        subst hs
        exact ⟨by constructor <;> rfl, fun _ => rfl⟩
    · simp only [applySet, Contact.setMaxNormalForce, void, Res.state?, Option.some.injEq, Res.threw] at hs ⊢
      subst hs
      exact ⟨by constructor <;> rfl, by simp⟩
  | forceRef f =>
    cases ck <;> simp only [applySet, Contact.setForceReference] at hs ⊢ <;> split at hs
    all_goals first
      | (next e =>
          rw [if_pos e]
          simp only [Res.state?, Option.some.injEq, Res.threw] at hs ⊢
          subst hs
          exact ⟨by constructor <;> rfl, by simp⟩)
      | (next e =>
          rw [if_neg e]
          simp only [Res.state?, Option.some.injEq, Res.threw] at hs ⊢
          subst hs
          exact ⟨by constructor <;> rfl, fun _ => rfl⟩)
      | (simp [Res.state?] at hs)
  | regWeights w =>
    simp only [applySet, Contact.setRegularizationWeights] at hs ⊢
    split at hs
    · next e =>
      rw [if_pos e]
      simp only [Res.state?, Option.some.injEq, Res.threw] at hs ⊢
      subst hs
      refine ⟨?_, by simp⟩
      cases ck <;> constructor <;> rfl
    · simp [Res.state?] at hs

theorem holds_sets {name : String} {kind : ContactKind} : ∀ (us : List (ContactSet K)) (c c' : Contact K)
    (p : Params K), Holds name kind c p → applySets c us = some c' → Holds name kind c' (paramsAfter c p us) := by
  intro us
  induction us with
  | nil =>
    intro c c' p h hs
    simp only [applySets, Option.some.injEq] at hs
    subst hs
    exact h
  | cons u us ih =>
    intro c c' p h hs
    simp only [applySets, paramsAfter] at hs ⊢
    cases hu : (applySet c u).state? with
    | none => rw [hu] at hs; cases hs
    | some d =>
      rw [hu] at hs
      exact ih d c' _ (holds_set h u hu).1 hs

end Tsid.Spec
