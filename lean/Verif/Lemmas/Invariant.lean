import Verif.Lemmas.Loop
import Verif.Lemmas.ContactShape

/-!
# Structural invariant of the formulation
-/

set_option linter.unusedSectionVars false

namespace Tsid.Formulation

open Finset

variable {K : Type}

/-- Constraint references of a list of tasks. -/
def taskRefs (l : List TaskLevel) : List Nat := l.map TaskLevel.cref

/-- All constraint references held outside the HQP data. -/
def refs (s : State K) : List Nat :=
  s.baseId :: (taskRefs s.motions ++ (taskRefs s.forces ++ (taskRefs s.acts ++ s.contacts.flatMap crefs)))

/-- Contact slices are consecutive, from `k0` to `k1`. -/
def Tiled (obj : Nat → Contact K) : Nat → List ContactLevel → Nat → Prop
  | k0, [], k1 => k0 = k1
  | k0, c :: cs, k1 => c.index = k0 ∧ Tiled obj (k0 + (obj c.cid).nForce) cs k1

/-- Kind of the constraint allocated for a task. -/
def heapKind : Kind → Kind
  | .equality => .equality
  | _ => .inequality

/-- The constraint allocated for a task has its name, kind and rows. -/
structure TaskCell (W : World) (s : State K) (tl : TaskLevel) : Prop where
  name : (s.heap tl.cref).name = (W.task tl.tid).cname
  kind : (s.heap tl.cref).kind = heapKind (W.task tl.tid).kind
  rows : (s.heap tl.cref).mat.rows = (W.task tl.tid).rows

/-- The constraints allocated for a contact have its names, kinds and rows. -/
structure ContactCell (s : State K) (cl : ContactLevel) : Prop where
  mName : (s.heap cl.motion).name = (s.contactObj cl.cid).name ++ "_motion_task"
  mKind : (s.heap cl.motion).kind = .equality
  mRows : (s.heap cl.motion).mat.rows = (s.contactObj cl.cid).nMotion
  fName : (s.heap cl.force).name = (s.contactObj cl.cid).name ++ "_force_constraint"
  fKind : (s.heap cl.force).kind = .inequality
  fRows : (s.heap cl.force).mat.rows = Contact.kindIneqRows (s.contactObj cl.cid).kind
  rName : (s.heap cl.reg).name = (s.contactObj cl.cid).name ++ "_force_reg_task"
  rKind : (s.heap cl.reg).kind = .equality
  rRows : (s.heap cl.reg).mat.rows = Contact.kindRegRows (s.contactObj cl.cid).kind

section
variable [Zero K]

/-- Columns from `n` on are zero. -/
def ZeroFrom (A : Mat K) (n : Nat) : Prop := ∀ i j, n ≤ j → A i j = 0

/-- Columns below `n` are zero. -/
def ZeroBelow (A : Mat K) (n : Nat) : Prop := ∀ i j, j < n → A i j = 0

/-- Columns outside a block are zero. -/
def ZeroOutside (A : Mat K) (j0 n : Nat) : Prop := ∀ i j, ¬ (j0 ≤ j ∧ j < j0 + n) → A i j = 0

/-- The part of the invariant that does not depend on the number of force variables. -/
structure Pre (W : World) (s : State K) : Prop where
  len : s.hqp.length = 2
  nuLe : s.nu ≤ s.nv
  rnv : s.robot.nv = s.nv
  rna : s.robot.na = s.nv - s.nu
  idsLt : ∀ id ∈ hqpIds s.hqp, id < s.next
  noBound : ∀ id, (s.heap id).kind ≠ .bound
  eqVec : ∀ id, (s.heap id).kind = .equality →
    (s.heap id).lb = Constraint.noVec ∧ (s.heap id).ub = Constraint.noVec
  ineqVec : ∀ id, (s.heap id).kind = .inequality → (s.heap id).vec = Constraint.noVec
  nodup : (refs s).Nodup
  refsLt : ∀ id ∈ refs s, id < s.next
  baseName : (s.heap s.baseId).name = "base-dynamics"
  baseKind : (s.heap s.baseId).kind = .equality
  baseRows : (s.heap s.baseId).mat.rows = s.nu
  motionCells : ∀ tl ∈ s.motions, TaskCell W s tl ∧ ZeroFrom (s.heap tl.cref).mat s.nv
  forceCells : ∀ tl ∈ s.forces, TaskCell W s tl ∧ ZeroBelow (s.heap tl.cref).mat s.nv
  actCells : ∀ tl ∈ s.acts, TaskCell W s tl
  contactCells : ∀ cl ∈ s.contacts, ContactCell s cl ∧ ZeroFrom (s.heap cl.motion).mat s.nv
  shaped : ∀ cid, (s.contactObj cid).Shaped

/-- The part of the invariant that depends on the number of force variables. -/
structure Sized (s : State K) : Prop where
  idsCols : ∀ id ∈ hqpIds s.hqp, (s.heap id).mat.cols = s.nv + s.k
  baseCols : (s.heap s.baseId).mat.cols = s.nv + s.k
  baseZero : ZeroFrom (s.heap s.baseId).mat (s.nv + s.k)
  actZero : ∀ tl ∈ s.acts, tl.cref ∈ hqpIds s.hqp → ZeroFrom (s.heap tl.cref).mat (s.nv + s.k)
  fZero : ∀ cl ∈ s.contacts, cl.force ∈ hqpIds s.hqp →
    ZeroOutside (s.heap cl.force).mat (s.nv + cl.index) (s.contactObj cl.cid).nForce
  rZero : ∀ cl ∈ s.contacts, cl.reg ∈ hqpIds s.hqp →
    ZeroOutside (s.heap cl.reg).mat (s.nv + cl.index) (s.contactObj cl.cid).nForce
  jcRows : s.Jc.rows = s.k
  jcCols : s.Jc.cols = s.nv
  jcZero : ∀ i j, s.k ≤ i → s.Jc i j = 0

/-- Structural invariant. -/
structure Inv (W : World) (s : State K) : Prop where
  pre : Pre W s
  sized : Sized s
  tiled : Tiled s.contactObj 0 s.contacts s.k

end

variable [Field K] [LinearOrder K] [HasSqrt K]

/-- Force tasks have no entries outside the columns of the contact they are associated with. -/
def ForceClean (s : State K) : Prop :=
  ∀ tl ∈ s.forces, tl.cref ∈ hqpIds s.hqp →
    ZeroOutside (s.heap tl.cref).mat
      (s.nv + (forceBlock s.contactObj s.contacts s.k (s.assoc tl.tid)).1)
      (forceBlock s.contactObj s.contacts s.k (s.assoc tl.tid)).2

/-! ## Levels -/

omit [Field K] [LinearOrder K] [HasSqrt K] in
theorem mem_hqpIds {hqp : List (List (K × Nat))} {id : Nat} :
    id ∈ hqpIds hqp ↔ ∃ l ∈ hqp, ∃ e ∈ l, e.2 = id := by
  simp only [hqpIds, List.mem_map, List.mem_flatten]
  constructor
  · rintro ⟨e, ⟨l, hl, he⟩, rfl⟩; exact ⟨l, hl, e, he, rfl⟩
  · rintro ⟨l, hl, e, he, rfl⟩; exact ⟨e, ⟨l, hl, he⟩, rfl⟩

omit [Field K] [LinearOrder K] [HasSqrt K] in
theorem pushLevel_some {α : Type} {l l' : List (List α)} {p : Nat} {x : α} (h : pushLevel l p x = some l') :
    p < l.length ∧ l' = l.modify p (fun lv => lv ++ [x]) := by
  unfold pushLevel at h
  split at h
  · next hp => exact ⟨hp, (Option.some.inj h).symm⟩
  · cases h

omit [Field K] [LinearOrder K] [HasSqrt K] in
theorem pushLevel_isSome {α : Type} {l : List (List α)} {p : Nat} {x : α} (h : p < l.length) :
    pushLevel l p x = some (l.modify p (fun lv => lv ++ [x])) := by
  unfold pushLevel; rw [if_pos h]

omit [Field K] [LinearOrder K] [HasSqrt K] in
theorem flatten_modify_perm {α : Type} (x : α) : ∀ (l : List (List α)) (p : Nat), p < l.length →
    (l.modify p (fun lv => lv ++ [x])).flatten.Perm (x :: l.flatten)
  | [], p, h => by simp at h
  | lv :: l, 0, _ => by
    rw [List.modify_zero_cons, List.flatten_cons, List.flatten_cons]
    rw [List.append_assoc]
    exact List.perm_middle
  | lv :: l, p + 1, h => by
    rw [List.modify_succ_cons, List.flatten_cons, List.flatten_cons]
    have h' : p < l.length := by simpa using h
    have := (flatten_modify_perm x l p h').append_left lv
    exact this.trans List.perm_middle

omit [Field K] [LinearOrder K] [HasSqrt K] in
theorem pushLevel_ids {l l' : List (List (K × Nat))} {p : Nat} {x : K × Nat}
    (h : pushLevel l p x = some l') : (hqpIds l').Perm (x.2 :: hqpIds l) := by
  obtain ⟨hp, rfl⟩ := pushLevel_some h
  simpa [hqpIds] using (flatten_modify_perm x l p hp).map Prod.snd

omit [Field K] [LinearOrder K] [HasSqrt K] in
theorem pushLevel_length {α : Type} {l l' : List (List α)} {p : Nat} {x : α}
    (h : pushLevel l p x = some l') : l'.length = l.length := by
  obtain ⟨_, rfl⟩ := pushLevel_some h
  simp

omit [Field K] [LinearOrder K] [HasSqrt K] in
theorem growLevels_push {α : Type} {l l' : List (List α)} {p : Nat} {x : α}
    (h : pushLevel (growLevels l p) p x = some l') : p < l.length ∧ pushLevel l p x = some l' := by
  unfold growLevels at h
  split at h
  · next hp =>
    have := (pushLevel_some h).1
    simp at this
    omega
  · exact ⟨(pushLevel_some h).1, h⟩

/-! ## Resizing -/

omit [LinearOrder K] [HasSqrt K] in
theorem zeroed_mat {c : Constraint K} (h : c.kind ≠ .bound) (r n : Nat) :
    (zeroed c r n).mat = Mat.zero r n := by
  unfold zeroed Constraint.resize
  cases hk : c.kind <;> simp_all

omit [LinearOrder K] [HasSqrt K] in
theorem zeroed_name (c : Constraint K) (r n : Nat) : (zeroed c r n).name = c.name := by
  unfold zeroed Constraint.resize
  cases hk : c.kind <;> simp
  split <;> simp_all
  split at * <;> simp_all
  next h => rw [← h]

omit [LinearOrder K] [HasSqrt K] in
theorem zeroed_kind (c : Constraint K) (r n : Nat) : (zeroed c r n).kind = c.kind := by
  unfold zeroed Constraint.resize
  cases hk : c.kind <;> simp
  split <;> simp_all
  split at * <;> simp_all
  next h => rw [← h]

omit [LinearOrder K] [HasSqrt K] in
theorem zeroed_eqVec {c : Constraint K} (h : c.kind = .equality) (r n : Nat) :
    (zeroed c r n).lb = c.lb ∧ (zeroed c r n).ub = c.ub := by
  unfold zeroed Constraint.resize
  simp [h]

omit [LinearOrder K] [HasSqrt K] in
theorem zeroed_ineqVec {c : Constraint K} (h : c.kind = .inequality) (r n : Nat) :
    (zeroed c r n).vec = c.vec := by
  unfold zeroed Constraint.resize
  simp [h]

omit [Field K] [LinearOrder K] [HasSqrt K] in
theorem rows_eq {c : Constraint K} (h : c.kind ≠ .bound) : c.rows = c.mat.rows := by
  unfold Constraint.rows
  cases hk : c.kind <;> simp_all

omit [LinearOrder K] [HasSqrt K] in
theorem resize_name (s : State K) (id : Nat) : ((resizeHqpData s).heap id).name = (s.heap id).name := by
  unfold resizeHqpData
  dsimp only
  by_cases hb : id = s.baseId
  · subst hb; split <;> simp [zeroed_name]
  · split <;> simp [zeroed_name, Function.update_of_ne hb]

omit [LinearOrder K] [HasSqrt K] in
theorem resize_kind (s : State K) (id : Nat) : ((resizeHqpData s).heap id).kind = (s.heap id).kind := by
  unfold resizeHqpData
  dsimp only
  by_cases hb : id = s.baseId
  · subst hb; split <;> simp [zeroed_kind]
  · split <;> simp [zeroed_kind, Function.update_of_ne hb]

omit [LinearOrder K] [HasSqrt K] in
theorem resize_mat (s : State K) (hnb : ∀ id, (s.heap id).kind ≠ .bound)
    (hbr : (s.heap s.baseId).mat.rows = s.nu) (id : Nat) :
    ((resizeHqpData s).heap id).mat =
      if id ∈ hqpIds s.hqp ∨ id = s.baseId then Mat.zero (s.heap id).mat.rows (s.nv + s.k)
      else (s.heap id).mat := by
  unfold resizeHqpData
  dsimp only
  by_cases hb : id = s.baseId
  · subst hb
    simp only [Function.update_self, or_true, if_true]
    have hk : (zeroed (s.heap s.baseId) s.nu (s.nv + s.k)).kind ≠ .bound := by
      rw [zeroed_kind]; exact hnb _
    split
    · rw [zeroed_mat hk, rows_eq hk, zeroed_mat (hnb _), hbr]; rfl
    · rw [zeroed_mat (hnb _), hbr]
  · simp only [Function.update_of_ne hb, hb, or_false]
    split
    · rw [zeroed_mat (hnb _), rows_eq (hnb _)]
    · rfl

omit [LinearOrder K] [HasSqrt K] in
theorem resize_rows (s : State K) (hnb : ∀ id, (s.heap id).kind ≠ .bound)
    (hbr : (s.heap s.baseId).mat.rows = s.nu) (id : Nat) :
    ((resizeHqpData s).heap id).mat.rows = (s.heap id).mat.rows := by
  rw [resize_mat s hnb hbr]
  split <;> simp [Mat.zero]

omit [LinearOrder K] [HasSqrt K] in
theorem resize_entry (s : State K) (hnb : ∀ id, (s.heap id).kind ≠ .bound)
    (hbr : (s.heap s.baseId).mat.rows = s.nu) (id i j : Nat) :
    ((resizeHqpData s).heap id).mat i j = 0 ∨
      ((resizeHqpData s).heap id).mat i j = (s.heap id).mat i j := by
  rw [resize_mat s hnb hbr]
  split
  · left; rfl
  · right; rfl

omit [LinearOrder K] [HasSqrt K] in
theorem resize_eqVec (s : State K) (h : ∀ id, (s.heap id).kind = .equality →
      (s.heap id).lb = Constraint.noVec ∧ (s.heap id).ub = Constraint.noVec) (id : Nat)
    (hk : ((resizeHqpData s).heap id).kind = .equality) :
    ((resizeHqpData s).heap id).lb = Constraint.noVec ∧
      ((resizeHqpData s).heap id).ub = Constraint.noVec := by
  rw [resize_kind] at hk
  have h0 := h id hk
  unfold resizeHqpData
  dsimp only
  by_cases hb : id = s.baseId
  · subst hb
    have hk' : (zeroed (s.heap s.baseId) s.nu (s.nv + s.k)).kind = .equality := by rw [zeroed_kind, hk]
    simp only [Function.update_self]
    split
    · rw [(zeroed_eqVec hk' _ _).1, (zeroed_eqVec hk' _ _).2, (zeroed_eqVec hk _ _).1,
        (zeroed_eqVec hk _ _).2]
      exact h0
    · rw [(zeroed_eqVec hk _ _).1, (zeroed_eqVec hk _ _).2]; exact h0
  · simp only [Function.update_of_ne hb]
    split
    · rw [(zeroed_eqVec hk _ _).1, (zeroed_eqVec hk _ _).2]; exact h0
    · exact h0

omit [LinearOrder K] [HasSqrt K] in
theorem resize_ineqVec (s : State K) (h : ∀ id, (s.heap id).kind = .inequality →
      (s.heap id).vec = Constraint.noVec) (id : Nat)
    (hk : ((resizeHqpData s).heap id).kind = .inequality) :
    ((resizeHqpData s).heap id).vec = Constraint.noVec := by
  rw [resize_kind] at hk
  have h0 := h id hk
  unfold resizeHqpData
  dsimp only
  by_cases hb : id = s.baseId
  · subst hb
    have hk' : (zeroed (s.heap s.baseId) s.nu (s.nv + s.k)).kind = .inequality := by rw [zeroed_kind, hk]
    simp only [Function.update_self]
    split
    · rw [zeroed_ineqVec hk', zeroed_ineqVec hk]; exact h0
    · rw [zeroed_ineqVec hk]; exact h0
  · simp only [Function.update_of_ne hb]
    split
    · rw [zeroed_ineqVec hk]; exact h0
    · exact h0

omit [LinearOrder K] [HasSqrt K] in
/-- After a resize every constraint of the HQP data (and the base dynamics) is zero and has `nv + k` columns;
everything that does not depend on the number of force variables is kept. -/
theorem resize_pre {W : World} {s : State K} (h : Pre W s) : Pre W (resizeHqpData s) := by
  have hm := resize_mat s h.noBound h.baseRows
  have hr := resize_rows s h.noBound h.baseRows
  have he := resize_entry s h.noBound h.baseRows
  refine
    { len := h.len, nuLe := h.nuLe, rnv := h.rnv, rna := h.rna, idsLt := h.idsLt
      noBound := fun id => by rw [resize_kind]; exact h.noBound id
      eqVec := resize_eqVec s h.eqVec
      ineqVec := resize_ineqVec s h.ineqVec
      nodup := h.nodup, refsLt := h.refsLt
      baseName := (resize_name s _).trans h.baseName
      baseKind := (resize_kind s _).trans h.baseKind
      baseRows := (hr _).trans h.baseRows
      motionCells := ?_, forceCells := ?_, actCells := ?_, contactCells := ?_, shaped := h.shaped }
  · intro tl htl
    obtain ⟨hc, hz⟩ := h.motionCells tl htl
    refine ⟨⟨(resize_name s _).trans hc.name, (resize_kind s _).trans hc.kind, (hr _).trans hc.rows⟩, ?_⟩
    intro i j hj
    rcases he tl.cref i j with h1 | h1 <;> rw [h1]
    exact hz i j hj
  · intro tl htl
    obtain ⟨hc, hz⟩ := h.forceCells tl htl
    refine ⟨⟨(resize_name s _).trans hc.name, (resize_kind s _).trans hc.kind, (hr _).trans hc.rows⟩, ?_⟩
    intro i j hj
    rcases he tl.cref i j with h1 | h1 <;> rw [h1]
    exact hz i j hj
  · intro tl htl
    have hc := h.actCells tl htl
    exact ⟨(resize_name s _).trans hc.name, (resize_kind s _).trans hc.kind, (hr _).trans hc.rows⟩
  · intro cl hcl
    obtain ⟨hc, hz⟩ := h.contactCells cl hcl
    refine ⟨⟨(resize_name s _).trans hc.mName, (resize_kind s _).trans hc.mKind, (hr _).trans hc.mRows,
      (resize_name s _).trans hc.fName, (resize_kind s _).trans hc.fKind, (hr _).trans hc.fRows,
      (resize_name s _).trans hc.rName, (resize_kind s _).trans hc.rKind, (hr _).trans hc.rRows⟩, ?_⟩
    intro i j hj
    rcases he cl.motion i j with h1 | h1 <;> rw [h1]
    exact hz i j hj

omit [LinearOrder K] [HasSqrt K] in
theorem resize_zero {W : World} {s : State K} (h : Pre W s) {id : Nat} (hid : id ∈ hqpIds s.hqp ∨ id = s.baseId)
    (i j : Nat) : ((resizeHqpData s).heap id).mat i j = 0 := by
  rw [resize_mat s h.noBound h.baseRows, if_pos hid]; rfl

omit [LinearOrder K] [HasSqrt K] in
/-- `Sized` after a resize, for whatever contact list. -/
theorem resize_sized {W : World} {s : State K} (h : Pre W s) (cs : List ContactLevel) :
    Sized { resizeHqpData s with contacts := cs } := by
  have hm := resize_mat s h.noBound h.baseRows
  have hz : ∀ id, id ∈ hqpIds s.hqp ∨ id = s.baseId → ∀ i j, ((resizeHqpData s).heap id).mat i j = 0 :=
    fun id hid => resize_zero h hid
  refine
    { idsCols := ?_, baseCols := ?_, baseZero := ?_, actZero := ?_, fZero := ?_, rZero := ?_
      jcRows := rfl, jcCols := rfl, jcZero := fun _ _ _ => rfl }
  · intro id hid
    have hid' : id ∈ hqpIds s.hqp := hid
    show ((resizeHqpData s).heap id).mat.cols = s.nv + s.k
    rw [hm, if_pos (Or.inl hid')]; rfl
  · show ((resizeHqpData s).heap s.baseId).mat.cols = s.nv + s.k
    rw [hm, if_pos (Or.inr rfl)]; rfl
  · intro i j _; exact hz _ (Or.inr rfl) i j
  · intro tl _ hid i j _; exact hz _ (Or.inl hid) i j
  · intro cl _ hid i j _; exact hz _ (Or.inl hid) i j
  · intro cl _ hid i j _; exact hz _ (Or.inl hid) i j

end Tsid.Formulation
