import Verif.Lemmas.Names

/-!
# Coherence of the registrations and the HQP data
-/

set_option linter.unusedSectionVars false

namespace Tsid.Formulation

open Spec

variable {K : Type} [Field K] [LinearOrder K] [HasSqrt K]

/-- A registered item with its constraint objects (a task has one, a contact three). -/
abbrev LItem (K : Type) := Item K × Nat × Nat × Nat

/-- HQP entries of an item at level `lvl`. -/
def ents (lvl : Nat) : LItem K → List (K × Nat)
  | (.task _ _ p w, a, _, _) => if p = lvl then [(w, a)] else []
  | (.contact _ p wm wf, a, b, c) =>
    (if p = lvl then [(wm, a)] else []) ++ (if lvl = 0 then [(1, b)] else []) ++
      (if lvl = 1 then [(wf, c)] else [])

/-- The task level of an item of family `fam`. -/
def taskOf (fam : Family) : LItem K → Option TaskLevel
  | (.task f tid p _, a, _, _) => if f = fam then some ⟨tid, p, a⟩ else none
  | _ => none

/-- The contact level of an item, without its index. -/
def contactOf : LItem K → Option (Nat × Nat × Nat × Nat)
  | (.contact cid _ _ _, a, b, c) => some (cid, a, b, c)
  | _ => none

/-- A contact level without its index. -/
def strip (c : ContactLevel) : Nat × Nat × Nat × Nat := (c.cid, c.motion, c.force, c.reg)

/-- Names of the contact objects. -/
def cnames (s : State K) (cid : Nat) : String := (s.contactObj cid).name

/-- Kinds of the contact objects. -/
def ckinds (s : State K) (cid : Nat) : ContactKind := (s.contactObj cid).kind

/-- Kind of object and name. -/
def key (W : World) (nm : Nat → String) : Item K → Bool × String
  | .task _ tid _ _ => (false, (W.task tid).name)
  | .contact cid _ _ _ => (true, nm cid)

/-- Priority level of a task, or of the motion constraint of a contact. -/
def itemLevel : Item K → Nat
  | .task _ _ p _ => p
  | .contact _ p _ _ => p

/-- The containers of the formulation hold exactly the items `L`. -/
structure Coh (W : World) (s : State K) (L : List (LItem K)) : Prop where
  hqp : s.hqp = [(1, s.baseId) :: L.flatMap (ents 0), L.flatMap (ents 1)]
  motions : s.motions = L.filterMap (taskOf .motion)
  forces : s.forces = L.filterMap (taskOf .force)
  acts : s.acts = L.filterMap (taskOf .actuation)
  contacts : s.contacts.map strip = L.filterMap contactOf
  keys : (L.map fun x => key W (cnames s) x.1).Nodup
  levels : ∀ x ∈ L, itemLevel x.1 < 2

/-- Rows of the level-0 equalities of an item. -/
def eq0 (W : World) (ck : Nat → ContactKind) : Item K → Nat
  | .task _ tid p _ => if (W.task tid).kind = .equality ∧ p = 0 then (W.task tid).rows else 0
  | .contact cid p _ _ => if p = 0 then Contact.kindMotion (ck cid) else 0

/-- Rows of the level-0 inequalities of an item. -/
def in0 (W : World) (ck : Nat → ContactKind) : Item K → Nat
  | .task _ tid p _ => if (W.task tid).kind ≠ .equality ∧ p = 0 then (W.task tid).rows else 0
  | .contact cid _ _ _ => Contact.kindIneqRows (ck cid)

/-- The counters count the level-0 rows of the items, up to an error `o`. -/
def Count (o : Int × Int) (W : World) (s : State K) (L : List (LItem K)) : Prop :=
  s.nEq = s.nu + ((L.map fun x => eq0 W (ckinds s) x.1).sum : Nat) + o.1 ∧
  s.nIn = ((L.map fun x => in0 W (ckinds s) x.1).sum : Nat) + o.2

/-- Names of the constraint objects of an item. -/
def CellNames (W : World) (s : State K) : LItem K → Prop
  | (.task _ tid _ _, a, _, _) => (s.heap a).name = (W.task tid).name
  | (.contact cid _ _ _, a, b, c) =>
    (s.heap a).name = cnames s cid ++ "_motion_task" ∧ (s.heap b).name = cnames s cid ++ "_force_constraint" ∧
    (s.heap c).name = cnames s cid ++ "_force_reg_task"

theorem mem_contactOf {W : World} {s : State K} {L : List (LItem K)} (hc : Coh W s L)
    {cid p : Nat} {wm wf : K} {a b c : Nat} (hx : (Item.contact cid p wm wf, a, b, c) ∈ L) :
    ∃ cl ∈ s.contacts, cl.cid = cid ∧ cl.motion = a ∧ cl.force = b ∧ cl.reg = c := by
  have : (cid, a, b, c) ∈ s.contacts.map strip := by
    rw [hc.contacts, List.mem_filterMap]
    exact ⟨_, hx, rfl⟩
  obtain ⟨cl, hcl, e⟩ := List.mem_map.1 this
  unfold strip at e
  simp only [Prod.mk.injEq] at e
  exact ⟨cl, hcl, e⟩

theorem mem_taskOf {W : World} {s : State K} {L : List (LItem K)} (hi : Inv W s) (hc : Coh W s L)
    {fam : Family} {tid p : Nat} {w : K} {a b c : Nat} (hx : (Item.task fam tid p w, a, b, c) ∈ L) :
    TaskCell W s ⟨tid, p, a⟩ := by
  have key : ∀ f, f = fam → (⟨tid, p, a⟩ : TaskLevel) ∈ L.filterMap (taskOf f) := by
    intro f hf
    rw [List.mem_filterMap]
    exact ⟨_, hx, by simp [taskOf, hf]⟩
  cases fam with
  | motion => exact (hi.pre.motionCells _ (hc.motions ▸ key _ rfl)).1
  | force => exact (hi.pre.forceCells _ (hc.forces ▸ key _ rfl)).1
  | actuation => exact hi.pre.actCells _ (hc.acts ▸ key _ rfl)

theorem cellNames_of {W : World} {s : State K} {L : List (LItem K)} (hw : Hygienic W) (hi : Inv W s)
    (hc : Coh W s L) : ∀ x ∈ L, CellNames W s x := by
  rintro ⟨it, a, b, c⟩ hx
  cases it with
  | task fam tid p w =>
    show (s.heap a).name = _
    rw [(mem_taskOf hi hc hx).name, (hw tid).1]
  | contact cid p wm wf =>
    obtain ⟨cl, hcl, rfl, rfl, rfl, rfl⟩ := mem_contactOf hc hx
    have := (hi.pre.contactCells cl hcl).1
    exact ⟨this.mName, this.fName, this.rName⟩

/-- Names of the entries of an item. -/
def itemNames (W : World) (nm : Nat → String) : Item K → List String
  | .task _ tid _ _ => [(W.task tid).name]
  | .contact cid _ _ _ => [nm cid ++ "_motion_task", nm cid ++ "_force_constraint", nm cid ++ "_force_reg_task"]

theorem ents_perm {W : World} {s : State K} {x : LItem K} (hn : CellNames W s x) (hl : itemLevel x.1 < 2) :
    ((ents 0 x ++ ents 1 x).map (entryName s.heap)).Perm (itemNames W (cnames s) x.1) := by
  obtain ⟨it, a, b, c⟩ := x
  cases it with
  | task fam tid p w =>
    simp only [itemLevel] at hl
    simp only [CellNames] at hn
    have : p = 0 ∨ p = 1 := by omega
    rcases this with rfl | rfl <;> simp [ents, itemNames, entryName, hn]
  | contact cid p wm wf =>
    simp only [itemLevel] at hl
    simp only [CellNames] at hn
    have : p = 0 ∨ p = 1 := by omega
    rcases this with rfl | rfl
    · simp [ents, itemNames, entryName, hn]
    · simp only [ents, itemNames, entryName, hn, if_true, List.map_cons, List.map_nil,
        if_false, Nat.one_ne_zero, zero_ne_one, List.nil_append, List.append_nil, List.cons_append]
      exact List.Perm.swap _ _ _

theorem itemNames_nodup (W : World) (nm : Nat → String) (it : Item K) : (itemNames W nm it).Nodup := by
  cases it with
  | task fam tid p w => simp [itemNames]
  | contact cid p wm wf =>
    simp [itemNames]

theorem itemNames_disjoint {W : World} (hw : Hygienic W) (nm : Nat → String) (it it' : Item K)
    (h : key W nm it ≠ key W nm it') : (itemNames W nm it).Disjoint (itemNames W nm it') := by
  have hres : ∀ tid n, (W.task tid).name ≠ n ++ "_motion_task" ∧ (W.task tid).name ≠ n ++ "_force_constraint" ∧
      (W.task tid).name ≠ n ++ "_force_reg_task" := by
    intro tid n
    have := (hw tid).2
    unfold Reserved at this
    push Not at this
    exact this.2 n
  cases it with
  | task fam tid p w =>
    cases it' with
    | task fam' tid' p' w' =>
      simp only [key, ne_eq, Prod.mk.injEq, true_and] at h
      simp [itemNames, Ne.symm h]
    | contact cid p wm wf =>
      have := hres tid (nm cid)
      simp [itemNames, this]
  | contact cid p wm wf =>
    cases it' with
    | task fam' tid' p' w' =>
      have := hres tid' (nm cid)
      simp only [itemNames, List.disjoint_singleton, List.mem_cons, List.not_mem_nil, or_false]
      tauto
    | contact cid' p' wm' wf' =>
      simp only [key, ne_eq, Prod.mk.injEq, true_and] at h
      have e1 : ∀ s, nm cid ++ s ≠ nm cid' ++ s := fun s e => h (suffix_inj e)
      intro n hn hn'
      simp only [itemNames, List.mem_cons, List.not_mem_nil, or_false] at hn hn'
      rcases hn with rfl | rfl | rfl
      · rcases hn' with e | e | e
        · exact e1 _ e
        · exact motion_ne_force _ _ e
        · exact motion_ne_reg _ _ e
      · rcases hn' with e | e | e
        · exact motion_ne_force _ _ e.symm
        · exact e1 _ e
        · exact force_ne_reg _ _ e
      · rcases hn' with e | e | e
        · exact motion_ne_reg _ _ e.symm
        · exact force_ne_reg _ _ e.symm
        · exact e1 _ e

theorem names_perm {W : World} {s : State K} {L : List (LItem K)} (hw : Hygienic W) (hi : Inv W s)
    (hc : Coh W s L) :
    (s.hqp.flatten.map (entryName s.heap)).Perm
      ("base-dynamics" :: L.flatMap fun x => itemNames W (cnames s) x.1) := by
  rw [hc.hqp]
  simp only [List.flatten_cons, List.flatten_nil, List.append_nil, List.cons_append, List.map_cons]
  have e : entryName s.heap ((1 : K), s.baseId) = "base-dynamics" := hi.pre.baseName
  rw [e]
  apply List.Perm.cons
  refine ((List.flatMap_append_perm L (ents 0) (ents 1)).map _).trans ?_
  rw [List.map_flatMap]
  have hn := cellNames_of hw hi hc
  have hl := hc.levels
  clear hc
  induction L with
  | nil => simp
  | cons a L ih =>
    rw [List.flatMap_cons, List.flatMap_cons]
    refine List.Perm.append (ents_perm (hn a (List.mem_cons_self ..)) (hl a (List.mem_cons_self ..))) ?_
    exact ih (fun x hx => hn x (List.mem_cons_of_mem _ hx)) (fun x hx => hl x (List.mem_cons_of_mem _ hx))

theorem names_nodup {W : World} {s : State K} {L : List (LItem K)} (hw : Hygienic W) (hi : Inv W s)
    (hc : Coh W s L) : (s.hqp.flatten.map (entryName s.heap)).Nodup := by
  rw [(names_perm hw hi hc).nodup_iff, List.nodup_cons]
  constructor
  · intro h
    obtain ⟨x, hx, hn⟩ := List.mem_flatMap.1 h
    obtain ⟨it, a, b, c⟩ := x
    cases it with
    | task fam tid p w =>
      simp only [itemNames, List.mem_singleton] at hn
      exact (hw tid).2 (Or.inl hn.symm)
    | contact cid p wm wf =>
      simp only [itemNames, List.mem_cons, List.not_mem_nil, or_false] at hn
      rcases hn with e | e | e
      · exact motion_ne_base _ e.symm
      · exact force_ne_base _ e.symm
      · exact reg_ne_base _ e.symm
  · rw [List.nodup_flatMap]
    refine ⟨fun x _ => itemNames_nodup W _ x.1, ?_⟩
    have := hc.keys
    rw [List.Nodup, List.pairwise_map] at this
    exact this.imp fun h => itemNames_disjoint hw _ _ _ h

theorem removeFromHqpData_eq {s : State K} (hu : (s.hqp.flatten.map (entryName s.heap)).Nodup) (n : String) :
    removeFromHqpData s n =
      ({ s with hqp := s.hqp.map (List.filter fun e => !named s.heap n e) }, s.hqp.flatten.any (named s.heap n)) := by
  unfold removeFromHqpData
  rw [removeFromLevels_filter s.heap n s.hqp hu]

theorem filter_flatten (p : K × Nat → Bool) (l : List (List (K × Nat))) :
    (l.map (List.filter p)).flatten = l.flatten.filter p := by
  rw [List.filter_flatten]

/-! ## Entries named `n` -/

theorem ents_task_filter {W : World} {s : State K} {x : LItem K} (hn : CellNames W s x)
    {n : String} (hr : ¬ Reserved n) (lvl : Nat) :
    (ents lvl x).filter (fun e => !named s.heap n e) = if x.1.isTask W n = true then [] else ents lvl x := by
  obtain ⟨it, a, b, c⟩ := x
  cases it with
  | task fam tid p w =>
    simp only [CellNames] at hn
    simp only [ents, Item.isTask]
    by_cases hp : p = lvl
    · by_cases e : (W.task tid).name = n <;> simp [hp, named, hn, e]
    · simp [hp]
  | contact cid p wm wf =>
    simp only [CellNames] at hn
    unfold Reserved at hr
    push Not at hr
    have h := hr.2 (cnames s cid)
    simp only [ents, Item.isTask]
    rw [List.filter_eq_self.2]
    · simp
    · intro e he
      simp only [List.mem_append, List.mem_ite_nil_right, List.mem_singleton] at he
      simp only [named, Bool.not_eq_true', beq_eq_false_iff_ne]
      rcases he with (⟨_, rfl⟩ | ⟨_, rfl⟩) | ⟨_, rfl⟩
      · rw [hn.1]; exact h.1.symm
      · rw [hn.2.1]; exact h.2.1.symm
      · rw [hn.2.2]; exact h.2.2.symm

/-- Is the entry one of the three of contact `n`? -/
def ofContact (heap : Nat → Constraint K) (n : String) (e : K × Nat) : Bool :=
  named heap (n ++ "_motion_task") e || named heap (n ++ "_force_constraint") e ||
    named heap (n ++ "_force_reg_task") e

theorem task_not_ofContact {W : World} {s : State K} (hw : Hygienic W) {fam : Family} {tid p : Nat} {w : K}
    {a b c : Nat} (hn : CellNames W s (Item.task fam tid p w, a, b, c)) (w' : K) (n : String) :
    ofContact s.heap n (w', a) = false := by
  simp only [CellNames] at hn
  have := (hw tid).2
  unfold Reserved at this
  push Not at this
  have h := this.2 n
  simp [ofContact, named, hn, h]

theorem ents_contact_filter {W : World} {s : State K} (hw : Hygienic W) {x : LItem K} (hn : CellNames W s x)
    (n : String) (lvl : Nat) :
    (ents lvl x).filter (fun e => !ofContact s.heap n e) =
      if x.1.isContact (cnames s) n = true then [] else ents lvl x := by
  obtain ⟨it, a, b, c⟩ := x
  cases it with
  | task fam tid p w =>
    have := task_not_ofContact hw hn
    simp only [ents, Item.isContact]
    by_cases hp : p = lvl <;> simp [hp, this]
  | contact cid p wm wf =>
    simp only [CellNames] at hn
    simp only [ents, Item.isContact]
    by_cases e : cnames s cid = n
    · rw [List.filter_eq_nil_iff.2]
      · simp [e]
      · intro y hy
        simp only [List.mem_append, List.mem_ite_nil_right, List.mem_singleton] at hy
        subst e
        rcases hy with (⟨_, rfl⟩ | ⟨_, rfl⟩) | ⟨_, rfl⟩ <;> simp [ofContact, named, hn]
    · rw [List.filter_eq_self.2]
      · simp [e]
      · intro y hy
        have e1 : ∀ s', cnames s cid ++ s' ≠ n ++ s' := fun s' h => e (suffix_inj h)
        simp only [List.mem_append, List.mem_ite_nil_right, List.mem_singleton] at hy
        rcases hy with (⟨_, rfl⟩ | ⟨_, rfl⟩) | ⟨_, rfl⟩
        · simp [ofContact, named, hn, e1, motion_ne_force, motion_ne_reg]
        · simp [ofContact, named, hn, e1, force_ne_reg, (motion_ne_force _ _).symm]
        · simp [ofContact, named, hn, e1, (motion_ne_reg _ _).symm, (force_ne_reg _ _).symm]

theorem filter_levels {s : State K} {L : List (LItem K)} (p : K × Nat → Bool) (q : LItem K → Bool)
    (hb : p (1, s.baseId) = true)
    (h : ∀ x ∈ L, ∀ lvl, (ents lvl x).filter p = if q x = true then [] else ents lvl x) :
    [(1, s.baseId) :: L.flatMap (ents 0), L.flatMap (ents 1)].map (List.filter p) =
      [(1, s.baseId) :: (L.filter fun x => !q x).flatMap (ents 0), (L.filter fun x => !q x).flatMap (ents 1)] := by
  simp only [List.map_cons, List.map_nil, List.filter_cons, hb, if_true, List.filter_flatMap]
  rw [flatMap_congr_mem (g := fun x => if q x = true then [] else ents 0 x) (fun x hx => h x hx 0),
    flatMap_congr_mem (g := fun x => if q x = true then [] else ents 1 x) (fun x hx => h x hx 1),
    flatMap_if_nil, flatMap_if_nil]

/-! ## Unique keys -/

theorem key_inj {W : World} {s : State K} {L : List (LItem K)} (hc : Coh W s L) {x y : LItem K} (hx : x ∈ L)
    (hy : y ∈ L) (h : key W (cnames s) x.1 = key W (cnames s) y.1) : x = y :=
  List.inj_on_of_nodup_map hc.keys hx hy h

theorem isTask_key {W : World} {nm : Nat → String} {it : Item K} {n : String} :
    it.isTask W n = true ↔ key W nm it = (false, n) := by
  cases it <;> simp [Item.isTask, key]

theorem isContact_key {W : World} {nm : Nat → String} {it : Item K} {n : String} :
    it.isContact nm n = true ↔ key W nm it = (true, n) := by
  cases it <;> simp [Item.isContact, key]

theorem filter_eq_singleton {α : Type} (p : α → Bool) : ∀ (l : List α) (x : α), l.Nodup → x ∈ l → p x = true →
    (∀ y ∈ l, p y = true → y = x) → l.filter p = [x]
  | [], x, _, hx, _, _ => by simp at hx
  | a :: l, x, hn, hx, hp, hu => by
    rw [List.nodup_cons] at hn
    rw [List.filter_cons]
    rcases List.mem_cons.1 hx with rfl | hx'
    · rw [if_pos hp, List.filter_eq_nil_iff.2]
      intro y hy hpy
      have := hu y (List.mem_cons_of_mem _ hy) hpy
      subst this
      exact hn.1 hy
    · have ha : ¬ p a = true := by
        intro ha
        have := hu a (List.mem_cons_self ..) ha
        subst this
        exact hn.1 hx'
      rw [if_neg ha]
      exact filter_eq_singleton p l x hn.2 hx' hp (fun y hy => hu y (List.mem_cons_of_mem _ hy))

theorem sum_filter_split {α : Type} (f : α → Nat) (p : α → Bool) : ∀ l : List α,
    (l.map f).sum = ((l.filter p).map f).sum + ((l.filter fun x => !p x).map f).sum
  | [] => rfl
  | a :: l => by
    rw [List.filter_cons, List.filter_cons, List.map_cons, List.sum_cons, sum_filter_split f p l]
    by_cases h : p a = true
    · simp [h]; omega
    · rw [Bool.not_eq_true] at h
      simp [h]; omega

theorem L_nodup {W : World} {s : State K} {L : List (LItem K)} (hc : Coh W s L) : L.Nodup :=
  List.Nodup.of_map _ hc.keys

/-- Removing the only item that satisfies `q` from a sum. -/
theorem sum_remove {W : World} {s : State K} {L : List (LItem K)} (hc : Coh W s L) (q : LItem K → Bool)
    (f : LItem K → Nat) {x : LItem K} (hx : x ∈ L) (hq : q x = true) (hu : ∀ y ∈ L, q y = true → y = x) :
    (L.map f).sum = f x + ((L.filter fun x => !q x).map f).sum := by
  rw [sum_filter_split f q L, filter_eq_singleton q L x (L_nodup hc) hx hq hu]
  simp

/-! ## Task lists -/

/-- Does a task level carry this name? -/
def levelNamed (W : World) (n : String) (tl : TaskLevel) : Bool := (W.task tl.tid).name == n

theorem taskOf_filter {W : World} (fam : Family) (n : String) (L : List (LItem K)) :
    (L.filter fun x => !x.1.isTask W n).filterMap (taskOf fam) =
      (L.filterMap (taskOf fam)).filter fun tl => !levelNamed W n tl := by
  rw [List.filter_filterMap, List.filterMap_filter]
  apply filterMap_congr_mem
  rintro ⟨it, a, b, c⟩ _
  cases it with
  | task f tid p w =>
    simp only [taskOf, Item.isTask, levelNamed]
    by_cases hf : f = fam
    · by_cases e : (W.task tid).name = n <;> simp [hf, e, Option.filter]
    · simp [hf]
  | contact cid p wm wf => simp [taskOf, Item.isTask]

theorem contactOf_filter_task {W : World} (n : String) (L : List (LItem K)) :
    (L.filter fun x => !x.1.isTask W n).filterMap contactOf = L.filterMap contactOf := by
  rw [List.filterMap_filter]
  apply filterMap_congr_mem
  rintro ⟨it, a, b, c⟩ _
  cases it <;> simp [contactOf, Item.isTask]

theorem taskOf_filter_contact {nm : Nat → String} (fam : Family) (n : String) (L : List (LItem K)) :
    (L.filter fun x => !x.1.isContact nm n).filterMap (taskOf fam) = L.filterMap (taskOf fam) := by
  rw [List.filterMap_filter]
  apply filterMap_congr_mem
  rintro ⟨it, a, b, c⟩ _
  cases it <;> simp [taskOf, Item.isContact]

theorem taskOf_names {W : World} {s : State K} {L : List (LItem K)} (hc : Coh W s L) (fam : Family) :
    ((L.filterMap (taskOf fam)).map fun tl => (W.task tl.tid).name).Nodup := by
  have h := hc.keys
  clear hc
  induction L with
  | nil => simp
  | cons x L ih =>
    rw [List.map_cons, List.nodup_cons] at h
    obtain ⟨it, a, b, c⟩ := x
    rw [List.filterMap_cons]
    split
    · exact ih h.2
    · next tl htl =>
      rw [List.map_cons, List.nodup_cons]
      refine ⟨?_, ih h.2⟩
      intro hm
      apply h.1
      obtain ⟨tl', htl', e⟩ := List.mem_map.1 hm
      obtain ⟨⟨it', a', b', c'⟩, hx', e'⟩ := List.mem_filterMap.1 htl'
      refine List.mem_map.2 ⟨_, hx', ?_⟩
      cases it with
      | contact _ _ _ _ => simp [taskOf] at htl
      | task f tid p w =>
        cases it' with
        | contact _ _ _ _ => simp [taskOf] at e'
        | task f' tid' p' w' =>
          simp only [taskOf, Option.ite_none_right_eq_some, Option.some.injEq] at htl e'
          obtain ⟨-, rfl⟩ := htl
          obtain ⟨-, rfl⟩ := e'
          simpa [key] using e

theorem erase_filter {W : World} {s : State K} {L : List (LItem K)} (hc : Coh W s L) (fam : Family) (n : String) :
    (L.filterMap (taskOf fam)).eraseP (levelNamed W n) =
      (L.filter fun x => !x.1.isTask W n).filterMap (taskOf fam) := by
  rw [taskOf_filter]
  exact eraseP_eq_filter _ _ (pairwise_of_nodup_map (fun tl : TaskLevel => (W.task tl.tid).name) n _ (taskOf_names hc fam))

theorem filter_self_of_none {W : World} (fam : Family) (n : String) (L : List (LItem K))
    (h : ∀ tl ∈ L.filterMap (taskOf fam), levelNamed W n tl = false) :
    (L.filter fun x => !x.1.isTask W n).filterMap (taskOf fam) = L.filterMap (taskOf fam) := by
  rw [taskOf_filter, List.filter_eq_self]
  intro tl htl
  rw [h tl htl]; rfl

end Tsid.Formulation
