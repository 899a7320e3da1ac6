import Verif.Lemmas.Invariant

/-!
# What the assembly writes
-/

set_option linter.unusedSectionVars false

namespace Tsid.Formulation

open Finset

variable {K : Type} [Field K] [LinearOrder K] [HasSqrt K]

/-- Everything the assembly does, cell by cell. -/
structure Assembled (cy : Cycle K) (s s' : State K) : Prop where
  eq : s' = { s with heap := s'.heap, Jc := s'.Jc, hfext := s'.hfext, mass := s.robot.mass cy.M
                     nle := cy.nle, decoded := false }
  torques : sumTorques cy s.nv s.measured (Vec.zero s.nv) = some s'.hfext
  jac : ∃ h1, assembleContacts cy s.contactObj s.nv s.contacts (s.heap, s.Jc) = some (h1, s'.Jc)
  base : baseCell s (s.robot.mass cy.M) cy.nle s'.hfext s'.Jc (s.heap s.baseId) = some (s'.heap s.baseId)
  motions : ∀ tl ∈ s.motions, motionCell cy s.nv tl (s.heap tl.cref) = some (s'.heap tl.cref)
  forces : ∀ tl ∈ s.forces,
    forceCell cy s.nv (fun tid => forceBlock s.contactObj s.contacts s.k (s.assoc tid)) tl
      (s.heap tl.cref) = some (s'.heap tl.cref)
  acts : ∀ tl ∈ s.acts,
    actCell cy s.nv s.k ((s.robot.mass cy.M).bottomRows (s.nv - s.nu))
      ((cy.nle.tail (s.nv - s.nu)).sub (s'.hfext.tail (s.nv - s.nu)))
      (s'.Jc.rightCols (s.nv - s.nu)) tl (s.heap tl.cref) = some (s'.heap tl.cref)
  contacts : ∀ cl ∈ s.contacts,
    contactMotionCell cy s.nv cl (s.heap cl.motion) = some (s'.heap cl.motion) ∧
    contactForceCell s.contactObj s.nv cl (s.heap cl.force) = some (s'.heap cl.force) ∧
    contactRegCell s.contactObj s.nv cl (s.heap cl.reg) = some (s'.heap cl.reg) ∧
    (s.contactObj cl.cid).forceGen.rows = (cy.contactMotion cl.cid).mat.rows
  other : ∀ id, id ∉ refs s → s'.heap id = s.heap id

/-- Pairwise disjointness of the groups of references. -/
theorem refs_disjoint {W : World} {s : State K} (h : Pre W s) :
    (s.baseId ∉ taskRefs s.motions ∧ s.baseId ∉ taskRefs s.forces ∧ s.baseId ∉ taskRefs s.acts ∧
      s.baseId ∉ s.contacts.flatMap crefs) ∧
    ((taskRefs s.motions).Nodup ∧ (taskRefs s.forces).Nodup ∧ (taskRefs s.acts).Nodup ∧
      (s.contacts.flatMap crefs).Nodup) ∧
    (∀ id ∈ taskRefs s.motions, id ∉ taskRefs s.forces ∧ id ∉ taskRefs s.acts ∧
      id ∉ s.contacts.flatMap crefs) ∧
    (∀ id ∈ taskRefs s.forces, id ∉ taskRefs s.acts ∧ id ∉ s.contacts.flatMap crefs) ∧
    (∀ id ∈ taskRefs s.acts, id ∉ s.contacts.flatMap crefs) := by
  have hn := h.nodup
  unfold refs at hn
  rw [List.nodup_cons] at hn
  obtain ⟨hb, hn⟩ := hn
  simp only [List.mem_append, not_or] at hb
  rw [List.nodup_append] at hn
  obtain ⟨m1, hn, m2⟩ := hn
  rw [List.nodup_append] at hn
  obtain ⟨f1, hn, f2⟩ := hn
  rw [List.nodup_append] at hn
  obtain ⟨a1, c1, a2⟩ := hn
  refine ⟨hb, ⟨m1, f1, a1, c1⟩, ?_, ?_, ?_⟩
  · intro id hid
    refine ⟨fun h' => m2 id hid id ?_ rfl, fun h' => m2 id hid id ?_ rfl, fun h' => m2 id hid id ?_ rfl⟩ <;>
      simp [h']
  · intro id hid
    refine ⟨fun h' => f2 id hid id ?_ rfl, fun h' => f2 id hid id ?_ rfl⟩ <;> simp [h']
  · intro id hid h'
    exact a2 id hid id h' rfl

theorem assemble_spec {W : World} {cy : Cycle K} {s s' : State K} (hp : Pre W s)
    (h : assemble cy s = some s') : Assembled cy s s' := by
  obtain ⟨⟨b1, b2, b3, b4⟩, ⟨nm, nf, na, nc⟩, dm, df, da⟩ := refs_disjoint hp
  unfold assemble at h
  dsimp only at h
  split at h
  · cases h
  next h1 Jc hC =>
  split at h
  · cases h
  next hfext hT =>
  split at h
  · cases h
  next h2 hB =>
  split at h
  · cases h
  next h3 hM =>
  split at h
  · cases h
  next h4 hF =>
  split at h
  · cases h
  next h5 hA =>
  cases h
  obtain ⟨c1, c2⟩ := assembleContacts_spec _ _ _ _ _ _ nc hC
  simp only at c1 c2
  rw [assembleBase_local] at hB
  rw [Option.map_eq_some_iff] at hB
  obtain ⟨bc, hbc, hB⟩ := hB
  obtain ⟨m1, m2⟩ := loop_local _ (motionCell cy s.nv) TaskLevel.cref
    (assembleMotion_local cy s.nv) _ _ _ nm hM
  obtain ⟨f1, f2⟩ := loop_local _ (forceCell cy s.nv _) TaskLevel.cref
    (assembleForce_local cy s.nv _) _ _ _ nf hF
  obtain ⟨a1, a2⟩ := loop_local _ (actCell cy s.nv s.k _ _ _) TaskLevel.cref
    (assembleAct_local cy s.nv s.k _ _ _) _ _ _ na hA
  have hb2 : ∀ id, id ≠ s.baseId → h2 id = h1 id := by
    intro id hid
    rw [← hB, Function.update_of_ne hid]
  refine
    { eq := rfl, torques := hT, jac := ⟨h1, hC⟩, base := ?_, motions := ?_, forces := ?_, acts := ?_
      contacts := ?_, other := ?_ }
  · show _ = some (h5 s.baseId)
    rw [a2 _ b3, f2 _ b2, m2 _ b1, ← hB, Function.update_self, ← hbc, c2 _ b4]
  · intro tl htl
    have hin : tl.cref ∈ taskRefs s.motions := List.mem_map_of_mem htl
    obtain ⟨d1, d2, d3⟩ := dm _ hin
    show _ = some (h5 tl.cref)
    rw [a2 _ d2, f2 _ d1, ← m1 tl htl, hb2 _ (fun e => b1 (e ▸ hin)), c2 _ d3]
  · intro tl htl
    have hin : tl.cref ∈ taskRefs s.forces := List.mem_map_of_mem htl
    obtain ⟨d2, d3⟩ := df _ hin
    have d1 : tl.cref ∉ taskRefs s.motions := fun h' => (dm _ h').1 hin
    show _ = some (h5 tl.cref)
    rw [a2 _ d2, ← f1 tl htl, m2 _ d1, hb2 _ (fun e => b2 (e ▸ hin)), c2 _ d3]
  · intro tl htl
    have hin : tl.cref ∈ taskRefs s.acts := List.mem_map_of_mem htl
    have d3 := da _ hin
    have d1 : tl.cref ∉ taskRefs s.motions := fun h' => (dm _ h').2.1 hin
    have d2 : tl.cref ∉ taskRefs s.forces := fun h' => (df _ h').1 hin
    show _ = some (h5 tl.cref)
    rw [← a1 tl htl, f2 _ d2, m2 _ d1, hb2 _ (fun e => b3 (e ▸ hin)), c2 _ d3]
  · intro cl hcl
    have hin : ∀ id ∈ crefs cl, h5 id = h1 id := by
      intro id hid
      have hin : id ∈ s.contacts.flatMap crefs := List.mem_flatMap.2 ⟨cl, hcl, hid⟩
      have d1 : id ∉ taskRefs s.motions := fun h' => (dm _ h').2.2 hin
      have d2 : id ∉ taskRefs s.forces := fun h' => (df _ h').2 hin
      have d3 : id ∉ taskRefs s.acts := fun h' => (da _ h') hin
      rw [a2 _ d3, f2 _ d2, m2 _ d1, hb2 _ (fun e => b4 (e ▸ hin))]
    obtain ⟨e1, e2, e3, e4⟩ := c1 cl hcl
    show _ = some (h5 cl.motion) ∧ _ = some (h5 cl.force) ∧ _ = some (h5 cl.reg) ∧ _
    rw [hin _ (by simp [crefs]), hin _ (by simp [crefs]), hin _ (by simp [crefs])]
    exact ⟨e1, e2, e3, e4⟩
  · intro id hid
    simp only [refs, List.mem_cons, List.mem_append, not_or] at hid
    obtain ⟨i1, i2, i3, i4, i5⟩ := hid
    show h5 id = s.heap id
    rw [a2 _ i4, f2 _ i3, m2 _ i2, hb2 _ i1, c2 _ i5]

/-! ## Shape of the cells after assembly -/

/-- Same name, kind, number of rows and columns, and unused vectors. -/
structure SameShape (c d : Constraint K) : Prop where
  name : d.name = c.name
  kind : d.kind = c.kind
  rows : d.mat.rows = c.mat.rows
  cols : d.mat.cols = c.mat.cols
  eqv : c.kind = .equality → d.lb = c.lb ∧ d.ub = c.ub
  ineqv : c.kind = .inequality → d.vec = c.vec

theorem SameShape.refl (c : Constraint K) : SameShape c c := ⟨rfl, rfl, rfl, rfl, fun _ => ⟨rfl, rfl⟩, fun _ => rfl⟩

theorem motionCell_spec {cy : Cycle K} {nv : Nat} {tl : TaskLevel} {d d' : Constraint K}
    (h : motionCell cy nv tl d = some d') :
    SameShape d d' ∧ (∀ i j, nv ≤ j → d'.mat i j = d.mat i j) := by
  unfold motionCell at h
  dsimp only at h
  split at h
  all_goals
    split at h
    · next hk =>
      rw [Option.map_eq_some_iff] at h
      obtain ⟨A, hA, rfl⟩ := h
      obtain ⟨h1, h2, h3, rfl⟩ := Mat.setCols_some hA
      refine ⟨⟨rfl, rfl, rfl, rfl, ?_, ?_⟩, ?_⟩
      · simp [hk]
      · simp [hk]
      · intro i j hj
        exact if_neg (by omega)
    · cases h

theorem forceCell_spec {cy : Cycle K} {nv : Nat} {blk : Nat → Nat × Nat} {tl : TaskLevel}
    {d d' : Constraint K} (h : forceCell cy nv blk tl d = some d') :
    SameShape d d' ∧ (∀ i j, ¬ (nv + (blk tl.tid).1 ≤ j ∧ j < nv + (blk tl.tid).1 + (blk tl.tid).2) →
      d'.mat i j = d.mat i j) := by
  unfold forceCell at h
  dsimp only at h
  split at h
  all_goals
    split at h
    · next hk =>
      rw [Option.map_eq_some_iff] at h
      obtain ⟨A, hA, rfl⟩ := h
      obtain ⟨h1, h2, h3, rfl⟩ := Mat.setCols_some hA
      refine ⟨⟨rfl, rfl, rfl, rfl, ?_, ?_⟩, ?_⟩
      · simp [hk]
      · simp [hk]
      · intro i j hj
        exact if_neg hj
    · cases h

/-- Two successive block assignments `leftCols(nv)`, `rightCols(k)`. -/
theorem setCols_two {A A1 A2 B C : Mat K} {nv k : Nat} (h1 : A.setCols 0 nv B = some A1)
    (h2 : A1.setCols (A1.cols - k) k C = some A2) :
    A2.rows = A.rows ∧ A2.cols = A.cols ∧ (∀ i j, A.cols ≤ j → A2 i j = A i j) := by
  obtain ⟨p1, p2, p3, rfl⟩ := Mat.setCols_some h1
  obtain ⟨q1, q2, q3, rfl⟩ := Mat.setCols_some h2
  refine ⟨rfl, rfl, ?_⟩
  intro i j hj
  simp only at q3 ⊢
  rw [if_neg (by omega), if_neg (by omega)]

theorem actCell_spec {cy : Cycle K} {nv k : Nat} {Ma : Mat K} {ha : Vec K} {Ja : Mat K} {tl : TaskLevel}
    {d d' : Constraint K} (h : actCell cy nv k Ma ha Ja tl d = some d') :
    SameShape d d' ∧ (∀ i j, d.mat.cols ≤ j → d'.mat i j = d.mat i j) := by
  unfold actCell at h
  dsimp only at h
  split at h
  · split at h
    · next hk =>
      rw [Option.bind_eq_some_iff] at h
      obtain ⟨A1, hA1, h⟩ := h
      rw [Option.map_eq_some_iff] at h
      obtain ⟨A2, hA2, rfl⟩ := h
      obtain ⟨q1, q2, q3⟩ := setCols_two hA1 hA2
      exact ⟨⟨rfl, rfl, q1, q2, fun _ => ⟨rfl, rfl⟩, fun hk' => by simp [hk.2.2] at hk'⟩, q3⟩
    · cases h
  · split at h
    · next hk =>
      rw [Option.bind_eq_some_iff] at h
      obtain ⟨A1, hA1, h⟩ := h
      rw [Option.map_eq_some_iff] at h
      obtain ⟨A2, hA2, rfl⟩ := h
      obtain ⟨q1, q2, q3⟩ := setCols_two hA1 hA2
      exact ⟨⟨rfl, rfl, q1, q2, fun hk' => by simp [hk.2.2.2] at hk', fun _ => rfl⟩, q3⟩
    · cases h
  · split at h
    · next hk =>
      rw [Option.bind_eq_some_iff] at h
      obtain ⟨A1, hA1, h⟩ := h
      rw [Option.map_eq_some_iff] at h
      obtain ⟨A2, hA2, rfl⟩ := h
      obtain ⟨q1, q2, q3⟩ := setCols_two hA1 hA2
      exact ⟨⟨rfl, rfl, q1, q2, fun hk' => by simp [hk.2.2] at hk', fun _ => rfl⟩, q3⟩
    · cases h

theorem baseCell_spec {s : State K} {mass : Mat K} {nle hfext : Vec K} {Jc : Mat K} {d d' : Constraint K}
    (hk : d.kind = .equality) (h : baseCell s mass nle hfext Jc d = some d') :
    SameShape d d' ∧ (∀ i j, d.mat.cols ≤ j → d'.mat i j = d.mat i j) := by
  unfold baseCell at h
  rw [Option.bind_eq_some_iff] at h
  obtain ⟨A1, hA1, h⟩ := h
  rw [Option.map_eq_some_iff] at h
  obtain ⟨A2, hA2, rfl⟩ := h
  obtain ⟨q1, q2, q3⟩ := setCols_two hA1 hA2
  exact ⟨⟨rfl, rfl, q1, q2, fun _ => ⟨rfl, rfl⟩, fun hk' => by simp [hk] at hk'⟩, q3⟩

theorem contactMotionCell_spec {cy : Cycle K} {nv : Nat} {cl : ContactLevel} {d d' : Constraint K}
    (hk : d.kind = .equality) (h : contactMotionCell cy nv cl d = some d') :
    SameShape d d' ∧ (∀ i j, nv ≤ j → d'.mat i j = d.mat i j) := by
  unfold contactMotionCell at h
  rw [Option.map_eq_some_iff] at h
  obtain ⟨A, hA, rfl⟩ := h
  obtain ⟨h1, h2, h3, rfl⟩ := Mat.setCols_some hA
  exact ⟨⟨rfl, rfl, rfl, rfl, fun _ => ⟨rfl, rfl⟩, fun hk' => by simp [hk] at hk'⟩,
    fun i j hj => if_neg (by omega)⟩

theorem contactForceCell_spec {obj : Nat → Contact K} {nv : Nat} {cl : ContactLevel} {d d' : Constraint K}
    (hk : d.kind = .inequality) (h : contactForceCell obj nv cl d = some d') :
    SameShape d d' ∧ (∀ i j, ¬ (nv + cl.index ≤ j ∧ j < nv + cl.index + (obj cl.cid).nForce) →
      d'.mat i j = d.mat i j) := by
  unfold contactForceCell at h
  rw [Option.map_eq_some_iff] at h
  obtain ⟨A, hA, rfl⟩ := h
  obtain ⟨h1, h2, h3, rfl⟩ := Mat.setCols_some hA
  exact ⟨⟨rfl, rfl, rfl, rfl, fun hk' => by simp [hk] at hk', fun _ => rfl⟩, fun i j hj => if_neg hj⟩

theorem contactRegCell_spec {obj : Nat → Contact K} {nv : Nat} {cl : ContactLevel} {d d' : Constraint K}
    (hk : d.kind = .equality) (h : contactRegCell obj nv cl d = some d') :
    SameShape d d' ∧ (∀ i j, ¬ (nv + cl.index ≤ j ∧ j < nv + cl.index + (obj cl.cid).nForce) →
      d'.mat i j = d.mat i j) := by
  unfold contactRegCell at h
  rw [Option.map_eq_some_iff] at h
  obtain ⟨A, hA, rfl⟩ := h
  obtain ⟨h1, h2, h3, rfl⟩ := Mat.setCols_some hA
  exact ⟨⟨rfl, rfl, rfl, rfl, fun _ => ⟨rfl, rfl⟩, fun hk' => by simp [hk] at hk'⟩, fun i j hj => if_neg hj⟩

/-- The assembly changes no name, kind or size. -/
theorem assembled_shape {W : World} {cy : Cycle K} {s s' : State K} (hp : Pre W s)
    (h : Assembled cy s s') (id : Nat) : SameShape (s.heap id) (s'.heap id) := by
  by_cases hid : id ∈ refs s
  · simp only [refs, List.mem_cons, List.mem_append, taskRefs, List.mem_map, List.mem_flatMap] at hid
    rcases hid with rfl | ⟨tl, htl, rfl⟩ | ⟨tl, htl, rfl⟩ | ⟨tl, htl, rfl⟩ | ⟨cl, hcl, hid⟩
    · exact (baseCell_spec hp.baseKind h.base).1
    · exact (motionCell_spec (h.motions tl htl)).1
    · exact (forceCell_spec (h.forces tl htl)).1
    · exact (actCell_spec (h.acts tl htl)).1
    · obtain ⟨e1, e2, e3, -⟩ := h.contacts cl hcl
      obtain ⟨cc, -⟩ := hp.contactCells cl hcl
      simp only [crefs, List.mem_cons, List.not_mem_nil, or_false] at hid
      rcases hid with rfl | rfl | rfl
      · exact (contactMotionCell_spec cc.mKind e1).1
      · exact (contactForceCell_spec cc.fKind e2).1
      · exact (contactRegCell_spec cc.rKind e3).1
  · rw [h.other id hid]; exact SameShape.refl _

/-! ## Contact Jacobian -/

/-- Entries of the contact Jacobian after the loop over the contacts. -/
theorem assembleContacts_jac (cy : Cycle K) (obj : Nat → Contact K) (nv : Nat) :
    ∀ (l : List ContactLevel) (k0 k1 : Nat) (a a' : Asm K), Tiled obj k0 l k1 →
      assembleContacts cy obj nv l a = some a' →
      a'.2.rows = a.2.rows ∧ a'.2.cols = a.2.cols ∧ k0 ≤ k1 ∧
      (l ≠ [] → k1 ≤ a.2.rows) ∧
      (∀ r i, ¬ (k0 ≤ r ∧ r < k1) → a'.2 r i = a.2 r i) ∧
      (∀ cl ∈ l, k0 ≤ cl.index ∧ cl.index + (obj cl.cid).nForce ≤ k1 ∧
        ∀ c i, c < (obj cl.cid).nForce →
        a'.2 (cl.index + c) i =
          ∑ r ∈ range (obj cl.cid).forceGen.rows,
            (obj cl.cid).forceGen r c * (cy.contactMotion cl.cid).mat r i) := by
  intro l
  induction l with
  | nil =>
    intro k0 k1 a a' ht h
    simp only [assembleContacts, Option.some.injEq] at h
    subst h
    simp only [Tiled] at ht
    subst ht
    simp
  | cons cl cls ih =>
    intro k0 k1 a a' ht h
    simp only [Tiled] at ht
    obtain ⟨hidx, ht⟩ := ht
    simp only [assembleContacts] at h
    split at h
    · cases h
    next a1 ha1 =>
    obtain ⟨i1, i2, i3, i4, i5, i6⟩ := ih _ _ a1 a' ht h
    have hJ : a.2.setRows cl.index (obj cl.cid).nForce
        ((obj cl.cid).forceGen.transpose.mul (cy.contactMotion cl.cid).mat) = some a1.2 := by
      unfold assembleContact at ha1
      dsimp only at ha1
      split at ha1
      · cases ha1
      split at ha1
      swap
      · cases ha1
      split at ha1
      · cases ha1
      next Jc hJ =>
      split at ha1
      · cases ha1
      split at ha1
      · cases ha1
      cases ha1
      exact hJ
    obtain ⟨q1, q2, q3, q4⟩ := Mat.setRows_some hJ
    have r1 : a1.2.rows = a.2.rows := by rw [q4]
    have r2 : a1.2.cols = a.2.cols := by rw [q4]
    refine ⟨i1.trans r1, i2.trans r2, by omega, ?_, ?_, ?_⟩
    · intro _
      rcases cls with _ | ⟨d, ds⟩
      · simp only [Tiled] at ht; omega
      · have := i4 (by simp); omega
    · intro r i hr
      rw [i5 r i (by omega), q4]
      exact if_neg (by omega)
    · intro b hb
      rcases List.mem_cons.1 hb with rfl | hb
      · refine ⟨by omega, by omega, ?_⟩
        intro c i hc
        rw [i5 _ _ (by omega), q4]
        show (if _ then _ else _) = _
        rw [if_pos (by omega)]
        simp [Mat.mul, Mat.transpose]
      · obtain ⟨j1, j2, j3⟩ := i6 b hb
        exact ⟨by omega, j2, j3⟩

/-! ## The invariant is preserved -/

theorem tiled_bounds (obj : Nat → Contact K) : ∀ (l : List ContactLevel) (k0 k1 : Nat),
    Tiled obj k0 l k1 → k0 ≤ k1 ∧ ∀ cl ∈ l, k0 ≤ cl.index ∧ cl.index + (obj cl.cid).nForce ≤ k1 := by
  intro l
  induction l with
  | nil => intro k0 k1 h; simp only [Tiled] at h; subst h; simp
  | cons c cs ih =>
    intro k0 k1 h
    simp only [Tiled] at h
    obtain ⟨h1, h2⟩ := h
    obtain ⟨i1, i2⟩ := ih _ _ h2
    refine ⟨by omega, ?_⟩
    intro b hb
    rcases List.mem_cons.1 hb with rfl | hb
    · exact ⟨by omega, by omega⟩
    · obtain ⟨j1, j2⟩ := i2 b hb; exact ⟨by omega, j2⟩

theorem assemble_inv {W : World} {cy : Cycle K} {s s' : State K} (hi : Inv W s)
    (h : assemble cy s = some s') : Inv W s' := by
  have hp := hi.pre
  have ha := assemble_spec hp h
  have hs := assembled_shape hp ha
  have e := ha.eq
  have e_nv : s'.nv = s.nv := by rw [e]
  have e_k : s'.k = s.k := by rw [e]
  have e_hqp : s'.hqp = s.hqp := by rw [e]
  have e_base : s'.baseId = s.baseId := by rw [e]
  have e_m : s'.motions = s.motions := by rw [e]
  have e_f : s'.forces = s.forces := by rw [e]
  have e_a : s'.acts = s.acts := by rw [e]
  have e_c : s'.contacts = s.contacts := by rw [e]
  have e_o : s'.contactObj = s.contactObj := by rw [e]
  have e_nu : s'.nu = s.nu := by rw [e]
  have e_next : s'.next = s.next := by rw [e]
  have e_refs : refs s' = refs s := by rw [refs, refs, e_base, e_m, e_f, e_a, e_c]
  have cell : ∀ tl, TaskCell W s tl → TaskCell W s' tl := by
    intro tl hc
    exact ⟨(hs _).name.trans hc.name, (hs _).kind.trans hc.kind, (hs _).rows.trans hc.rows⟩
  obtain ⟨h1, hjac⟩ := ha.jac
  obtain ⟨j1, j2, j3, j4, j5, j6⟩ := assembleContacts_jac cy s.contactObj s.nv _ _ _ _ _ hi.tiled hjac
  simp only at j1 j2 j5
  refine ⟨?_, ?_, ?_⟩
  · refine
      { len := by rw [e_hqp]; exact hp.len
        nuLe := by rw [e_nu, e_nv]; exact hp.nuLe
        rnv := by rw [e]; exact hp.rnv
        rna := by rw [e]; exact hp.rna
        idsLt := by rw [e_hqp, e_next]; exact hp.idsLt
        noBound := fun id => by rw [(hs id).kind]; exact hp.noBound id
        eqVec := fun id hk => by
          rw [(hs id).kind] at hk
          rw [((hs id).eqv hk).1, ((hs id).eqv hk).2]; exact hp.eqVec id hk
        ineqVec := fun id hk => by
          rw [(hs id).kind] at hk
          rw [(hs id).ineqv hk]; exact hp.ineqVec id hk
        nodup := by rw [e_refs]; exact hp.nodup
        refsLt := by rw [e_refs, e_next]; exact hp.refsLt
        baseName := by rw [e_base, (hs _).name]; exact hp.baseName
        baseKind := by rw [e_base, (hs _).kind]; exact hp.baseKind
        baseRows := by rw [e_base, (hs _).rows, e_nu]; exact hp.baseRows
        motionCells := ?_, forceCells := ?_, actCells := ?_, contactCells := ?_
        shaped := by rw [e_o]; exact hp.shaped }
    · intro tl htl
      rw [e_m] at htl
      obtain ⟨hc, hz⟩ := hp.motionCells tl htl
      refine ⟨cell tl hc, ?_⟩
      intro i j hj
      rw [e_nv] at hj
      rw [(motionCell_spec (ha.motions tl htl)).2 i j hj]
      exact hz i j hj
    · intro tl htl
      rw [e_f] at htl
      obtain ⟨hc, hz⟩ := hp.forceCells tl htl
      refine ⟨cell tl hc, ?_⟩
      intro i j hj
      rw [e_nv] at hj
      rw [(forceCell_spec (ha.forces tl htl)).2 i j (by omega)]
      exact hz i j hj
    · intro tl htl
      rw [e_a] at htl
      exact cell tl (hp.actCells tl htl)
    · intro cl hcl
      rw [e_c] at hcl
      obtain ⟨hc, hz⟩ := hp.contactCells cl hcl
      refine ⟨⟨(hs _).name.trans (by rw [e_o]; exact hc.mName), (hs _).kind.trans hc.mKind,
        (hs _).rows.trans (by rw [e_o]; exact hc.mRows),
        (hs _).name.trans (by rw [e_o]; exact hc.fName), (hs _).kind.trans hc.fKind,
        (hs _).rows.trans (by rw [e_o]; exact hc.fRows),
        (hs _).name.trans (by rw [e_o]; exact hc.rName), (hs _).kind.trans hc.rKind,
        (hs _).rows.trans (by rw [e_o]; exact hc.rRows)⟩, ?_⟩
      intro i j hj
      rw [e_nv] at hj
      rw [(contactMotionCell_spec hc.mKind (ha.contacts cl hcl).1).2 i j hj]
      exact hz i j hj
  · have hz := hi.sized
    refine
      { idsCols := ?_, baseCols := ?_, baseZero := ?_, actZero := ?_, fZero := ?_, rZero := ?_
        jcRows := by rw [j1, e_k]; exact hz.jcRows
        jcCols := by rw [j2, e_nv]; exact hz.jcCols
        jcZero := ?_ }
    · intro id hid
      rw [e_hqp] at hid
      rw [(hs id).cols, e_nv, e_k]; exact hz.idsCols id hid
    · rw [e_base, (hs _).cols, e_nv, e_k]; exact hz.baseCols
    · intro i j hj
      rw [e_nv, e_k] at hj
      rw [e_base, (baseCell_spec hp.baseKind ha.base).2 i j (by rw [hz.baseCols]; exact hj)]
      exact hz.baseZero i j hj
    · intro tl htl hid i j hj
      rw [e_a] at htl
      rw [e_hqp] at hid
      rw [e_nv, e_k] at hj
      rw [(actCell_spec (ha.acts tl htl)).2 i j (by rw [hz.idsCols _ hid]; exact hj)]
      exact hz.actZero tl htl hid i j hj
    · intro cl hcl hid i j hj
      rw [e_c] at hcl
      rw [e_hqp] at hid
      rw [e_nv, e_o] at hj
      obtain ⟨hc, -⟩ := hp.contactCells cl hcl
      rw [(contactForceCell_spec hc.fKind (ha.contacts cl hcl).2.1).2 i j hj]
      exact hz.fZero cl hcl hid i j hj
    · intro cl hcl hid i j hj
      rw [e_c] at hcl
      rw [e_hqp] at hid
      rw [e_nv, e_o] at hj
      obtain ⟨hc, -⟩ := hp.contactCells cl hcl
      rw [(contactRegCell_spec hc.rKind (ha.contacts cl hcl).2.2.1).2 i j hj]
      exact hz.rZero cl hcl hid i j hj
    · intro i j hi'
      rw [e_k] at hi'
      rw [j5 i j (by omega)]
      exact hz.jcZero i j hi'
  · rw [e_c, e_k, e_o]; exact hi.tiled

theorem assemble_forceClean {W : World} {cy : Cycle K} {s s' : State K} (hp : Pre W s)
    (hf : ForceClean s) (h : assemble cy s = some s') : ForceClean s' := by
  have ha := assemble_spec hp h
  have e := ha.eq
  intro tl htl hid i j hj
  have e1 : s'.forces = s.forces := by rw [e]
  have e2 : s'.hqp = s.hqp := by rw [e]
  have e3 : s'.nv = s.nv := by rw [e]
  have e4 : s'.contactObj = s.contactObj := by rw [e]
  have e5 : s'.contacts = s.contacts := by rw [e]
  have e6 : s'.k = s.k := by rw [e]
  have e7 : s'.assoc = s.assoc := by rw [e]
  rw [e1] at htl
  rw [e2] at hid
  rw [e3, e4, e5, e6, e7] at hj
  rw [(forceCell_spec (ha.forces tl htl)).2 i j hj]
  exact hf tl htl hid i j hj

end Tsid.Formulation
