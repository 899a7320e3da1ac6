import Verif.Lemmas.Block

/-!
# The assembly loops touch one heap cell per element
-/

namespace Tsid.Formulation

variable {K : Type}

/-- A loop whose body rewrites only the cell `r a` of the heap, as a function of that cell. -/
theorem loop_local {α C : Type} (f : (Nat → C) → α → Option (Nat → C)) (g : α → C → Option C) (r : α → Nat)
    (hf : ∀ h a, f h a = (g a (h (r a))).map (Function.update h (r a))) :
    ∀ (l : List α) (h h' : Nat → C), (l.map r).Nodup → loop f l h = some h' →
      (∀ a ∈ l, g a (h (r a)) = some (h' (r a))) ∧ (∀ id, id ∉ l.map r → h' id = h id) := by
  intro l
  induction l with
  | nil =>
    intro h h' _ hl
    simp only [loop, Option.some.injEq] at hl
    subst hl
    simp
  | cons a as ih =>
    intro h h' hnd hl
    rw [List.map_cons, List.nodup_cons] at hnd
    simp only [loop] at hl
    rw [hf] at hl
    cases hg : g a (h (r a)) with
    | none => rw [hg] at hl; simp at hl
    | some c =>
      rw [hg] at hl
      simp only [Option.map_some] at hl
      obtain ⟨h1, h2⟩ := ih _ _ hnd.2 hl
      constructor
      · intro b hb
        rcases List.mem_cons.1 hb with rfl | hb
        · rw [hg, h2 _ hnd.1]; simp
        · have hne : r b ≠ r a := by
            intro he
            exact hnd.1 (he ▸ List.mem_map_of_mem hb)
          rw [← h1 b hb, Function.update_of_ne hne]
      · intro id hid
        rw [List.map_cons, List.mem_cons, not_or] at hid
        rw [h2 id hid.2, Function.update_of_ne hid.1]

/-- The loop does not fail if no cell fails. -/
theorem loop_isSome {α C : Type} (f : (Nat → C) → α → Option (Nat → C)) (g : α → C → Option C) (r : α → Nat)
    (hf : ∀ h a, f h a = (g a (h (r a))).map (Function.update h (r a))) :
    ∀ (l : List α) (h : Nat → C), (l.map r).Nodup → (∀ a ∈ l, (g a (h (r a))).isSome) →
      (loop f l h).isSome := by
  intro l
  induction l with
  | nil => intro h _ _; simp [loop]
  | cons a as ih =>
    intro h hnd hs
    rw [List.map_cons, List.nodup_cons] at hnd
    simp only [loop]
    rw [hf]
    obtain ⟨c, hc⟩ := Option.isSome_iff_exists.1 (hs a (by simp))
    rw [hc]
    simp only [Option.map_some]
    apply ih _ hnd.2
    intro b hb
    have hne : r b ≠ r a := by
      intro he
      exact hnd.1 (he ▸ List.mem_map_of_mem hb)
    rw [Function.update_of_ne hne]
    exact hs b (by simp [hb])

variable [Field K]

/-- What `assembleMotion` does to the constraint of the task. -/
def motionCell (cy : Cycle K) (nv : Nat) (tl : TaskLevel) (d : Constraint K) : Option (Constraint K) :=
  let c := cy.motionOut tl.tid
  match c.kind with
  | .equality => if d.kind = .equality then
      (d.mat.setCols 0 nv c.mat).map fun A => { d with mat := A, vec := c.vec } else none
  | .inequality => if d.kind = .inequality then
      (d.mat.setCols 0 nv c.mat).map fun A => { d with mat := A, lb := c.lb, ub := c.ub } else none
  | .bound => if d.kind = .inequality then
      (d.mat.setCols 0 nv (Mat.identity nv)).map fun A => { d with mat := A, lb := c.lb, ub := c.ub } else none

theorem assembleMotion_local (cy : Cycle K) (nv : Nat) (h : Nat → Constraint K) (tl : TaskLevel) :
    assembleMotion cy nv h tl =
      (motionCell cy nv tl (h tl.cref)).map (Function.update h tl.cref) := by
  unfold assembleMotion motionCell
  dsimp only
  split <;> split <;> split <;> simp_all

/-- What `assembleForce` does to the constraint of the task. -/
def forceCell (cy : Cycle K) (nv : Nat) (blk : Nat → Nat × Nat) (tl : TaskLevel) (d : Constraint K) :
    Option (Constraint K) :=
  let c := cy.forceOut tl.tid
  let i0 := nv + (blk tl.tid).1
  let cs := (blk tl.tid).2
  match c.kind with
  | .equality => if d.kind = .equality then
      (d.mat.setCols i0 cs c.mat).map fun A => { d with mat := A, vec := c.vec } else none
  | .inequality => if d.kind = .inequality then
      (d.mat.setCols i0 cs c.mat).map fun A => { d with mat := A, lb := c.lb, ub := c.ub } else none
  | .bound => if d.kind = .inequality then
      (d.mat.setCols i0 cs (Mat.identity cs)).map fun A => { d with mat := A, lb := c.lb, ub := c.ub } else none

theorem assembleForce_local (cy : Cycle K) (nv : Nat) (blk : Nat → Nat × Nat) (h : Nat → Constraint K)
    (tl : TaskLevel) :
    assembleForce cy nv blk h tl =
      (forceCell cy nv blk tl (h tl.cref)).map (Function.update h tl.cref) := by
  unfold assembleForce forceCell
  dsimp only
  split <;> split <;> split <;> simp_all

/-- What `assembleAct` does to the constraint of the task. -/
def actCell (cy : Cycle K) (nv k : Nat) (Ma : Mat K) (ha : Vec K) (Ja : Mat K) (tl : TaskLevel)
    (d : Constraint K) : Option (Constraint K) :=
  let c := cy.actOut tl.tid
  match c.kind with
  | .equality =>
    if c.mat.cols = Ma.rows ∧ c.vec.size = c.mat.rows ∧ d.kind = .equality then
      (d.mat.setCols 0 nv (c.mat.mul Ma)).bind fun A1 =>
        (A1.setCols (A1.cols - k) k (c.mat.neg.mul Ja.transpose)).map fun A2 =>
          { d with mat := A2, vec := c.vec.sub (c.mat.mulVec ha) }
    else none
  | .inequality =>
    if c.mat.cols = Ma.rows ∧ c.lb.size = c.mat.rows ∧ c.ub.size = c.mat.rows ∧ d.kind = .inequality then
      (d.mat.setCols 0 nv (c.mat.mul Ma)).bind fun A1 =>
        (A1.setCols (A1.cols - k) k (c.mat.neg.mul Ja.transpose)).map fun A2 =>
          { d with mat := A2, lb := c.lb.sub (c.mat.mulVec ha), ub := c.ub.sub (c.mat.mulVec ha) }
    else none
  | .bound =>
    if c.lb.size = ha.size ∧ c.ub.size = ha.size ∧ d.kind = .inequality then
      (d.mat.setCols 0 nv Ma).bind fun A1 =>
        (A1.setCols (A1.cols - k) k Ja.transpose.neg).map fun A2 =>
          { d with mat := A2, lb := c.lb.sub ha, ub := c.ub.sub ha }
    else none

theorem assembleAct_local (cy : Cycle K) (nv k : Nat) (Ma : Mat K) (ha : Vec K) (Ja : Mat K)
    (h : Nat → Constraint K) (tl : TaskLevel) :
    assembleAct cy nv k Ma ha Ja h tl =
      (actCell cy nv k Ma ha Ja tl (h tl.cref)).map (Function.update h tl.cref) := by
  unfold assembleAct actCell
  dsimp only
  split <;> split <;> try simp
  all_goals
    split <;> simp_all
    try (split <;> simp_all)

/-- What `assembleBase` does to the base dynamics. -/
def baseCell (s : State K) (mass : Mat K) (nle hfext : Vec K) (Jc : Mat K) (b : Constraint K) :
    Option (Constraint K) :=
  (b.mat.setCols 0 s.nv (mass.topRows s.nu)).bind fun A1 =>
    (A1.setCols (A1.cols - s.k) s.k ((Jc.leftCols s.nu).transpose.neg)).map fun A2 =>
      { b with mat := A2, vec := ((nle.head s.nu).sub (hfext.head s.nu)).neg }

theorem assembleBase_local (s : State K) (mass : Mat K) (nle hfext : Vec K) (Jc : Mat K)
    (h : Nat → Constraint K) :
    assembleBase s mass nle hfext Jc h =
      (baseCell s mass nle hfext Jc (h s.baseId)).map (Function.update h s.baseId) := by
  unfold assembleBase baseCell
  dsimp only
  split <;> simp_all
  split <;> simp_all

/-- Cells of a contact. -/
def contactMotionCell (cy : Cycle K) (nv : Nat) (cl : ContactLevel) (d : Constraint K) :
    Option (Constraint K) :=
  (d.mat.setCols 0 nv (cy.contactMotion cl.cid).mat).map fun A =>
    { d with mat := A, vec := (cy.contactMotion cl.cid).vec }

def contactForceCell (obj : Nat → Contact K) (nv : Nat) (cl : ContactLevel) (d : Constraint K) :
    Option (Constraint K) :=
  (d.mat.setCols (nv + cl.index) (obj cl.cid).nForce (obj cl.cid).forceIneq.mat).map fun A =>
    { d with mat := A, lb := (obj cl.cid).forceIneq.lb, ub := (obj cl.cid).forceIneq.ub }

def contactRegCell (obj : Nat → Contact K) (nv : Nat) (cl : ContactLevel) (d : Constraint K) :
    Option (Constraint K) :=
  (d.mat.setCols (nv + cl.index) (obj cl.cid).nForce (obj cl.cid).forceReg.mat).map fun A =>
    { d with mat := A, vec := (obj cl.cid).forceReg.vec }

/-- References of a contact. -/
def crefs (cl : ContactLevel) : List Nat := [cl.motion, cl.force, cl.reg]

theorem assembleContact_some (cy : Cycle K) (obj : Nat → Contact K) (nv : Nat) (a a' : Asm K)
    (cl : ContactLevel) (hnd : (crefs cl).Nodup) (h : assembleContact cy obj nv a cl = some a') :
    contactMotionCell cy nv cl (a.1 cl.motion) = some (a'.1 cl.motion) ∧
    contactForceCell obj nv cl (a.1 cl.force) = some (a'.1 cl.force) ∧
    contactRegCell obj nv cl (a.1 cl.reg) = some (a'.1 cl.reg) ∧
    (∀ id, id ∉ crefs cl → a'.1 id = a.1 id) ∧
    (obj cl.cid).forceGen.rows = (cy.contactMotion cl.cid).mat.rows ∧
    a.2.setRows cl.index (obj cl.cid).nForce
      ((obj cl.cid).forceGen.transpose.mul (cy.contactMotion cl.cid).mat) = some a'.2 := by
  unfold assembleContact at h
  dsimp only at h
  simp only [crefs, List.nodup_cons, List.mem_cons, List.not_mem_nil, or_false, not_or] at hnd
  obtain ⟨⟨n1, n2⟩, n3, -⟩ := hnd
  split at h
  · cases h
  next A1 hA1 =>
  split at h
  swap
  · cases h
  next hrows =>
  split at h
  · cases h
  next Jc hJ =>
  split at h
  · cases h
  next A2 hA2 =>
  split at h
  · cases h
  next A3 hA3 =>
  have n3' : cl.force ≠ cl.reg := n3
  simp only [Function.update_of_ne (Ne.symm n1), Function.update_of_ne (Ne.symm n2),
    Function.update_of_ne (Ne.symm n3')] at hA2 hA3 h
  cases h
  refine ⟨?_, ?_, ?_, ?_, hrows, hJ⟩
  · simp [contactMotionCell, hA1, Function.update_of_ne n1, Function.update_of_ne n2]
  · simp [contactForceCell, hA2, Function.update_of_ne n3']
  · simp [contactRegCell, hA3]
  · intro id hid
    simp only [crefs, List.mem_cons, List.not_mem_nil, or_false, not_or] at hid
    simp [Function.update_of_ne hid.1, Function.update_of_ne hid.2.1, Function.update_of_ne hid.2.2]

/-- Loop over the contacts: every contact rewrites its three cells and its rows of the Jacobian. -/
theorem assembleContacts_spec (cy : Cycle K) (obj : Nat → Contact K) (nv : Nat) :
    ∀ (l : List ContactLevel) (a a' : Asm K), (l.flatMap crefs).Nodup →
      assembleContacts cy obj nv l a = some a' →
      (∀ cl ∈ l,
        contactMotionCell cy nv cl (a.1 cl.motion) = some (a'.1 cl.motion) ∧
        contactForceCell obj nv cl (a.1 cl.force) = some (a'.1 cl.force) ∧
        contactRegCell obj nv cl (a.1 cl.reg) = some (a'.1 cl.reg) ∧
        (obj cl.cid).forceGen.rows = (cy.contactMotion cl.cid).mat.rows) ∧
      (∀ id, id ∉ l.flatMap crefs → a'.1 id = a.1 id) := by
  intro l
  induction l with
  | nil =>
    intro a a' _ h
    simp only [assembleContacts, Option.some.injEq] at h
    subst h
    simp
  | cons cl cls ih =>
    intro a a' hnd h
    rw [List.flatMap_cons, List.nodup_append] at hnd
    obtain ⟨hn1, hn2, hdisj⟩ := hnd
    simp only [assembleContacts] at h
    split at h
    · cases h
    next a1 ha1 =>
    obtain ⟨i1, i2⟩ := ih a1 a' hn2 h
    obtain ⟨c1, c2, c3, c4, c5, -⟩ := assembleContact_some cy obj nv a a1 cl hn1 ha1
    have hcr : ∀ id ∈ crefs cl, id ∉ cls.flatMap crefs := fun id hid hid' => hdisj id hid id hid' rfl
    constructor
    · intro b hb
      rcases List.mem_cons.1 hb with rfl | hb
      · rw [i2 _ (hcr _ (by simp [crefs])), i2 _ (hcr _ (by simp [crefs])),
          i2 _ (hcr _ (by simp [crefs]))]
        exact ⟨c1, c2, c3, c5⟩
      · have hb' : ∀ id ∈ crefs b, id ∉ crefs cl := by
          intro id hid hid'
          exact hdisj id hid' id (List.mem_flatMap.2 ⟨b, hb, hid⟩) rfl
        have := i1 b hb
        rwa [c4 _ (hb' b.motion (by simp [crefs])), c4 _ (hb' b.force (by simp [crefs])),
          c4 _ (hb' b.reg (by simp [crefs]))] at this
    · intro id hid
      rw [List.flatMap_cons, List.mem_append, not_or] at hid
      rw [i2 id hid.2, c4 id hid.1]

end Tsid.Formulation
