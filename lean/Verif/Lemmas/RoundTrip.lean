import Verif.Lemmas.Lines

/-!
# Adding and removing: calls that succeed, and what they leave behind
-/

set_option linter.unusedSectionVars false

namespace Tsid.Formulation

open Spec

variable {K : Type} [Field K] [LinearOrder K] [HasSqrt K]

theorem tiled_index (obj : Nat → Contact K) : ∀ (l : List ContactLevel) (k0 k1 : Nat), Tiled obj k0 l k1 →
    k1 = k0 + (l.map fun cl => (obj cl.cid).nForce).sum ∧
    ∀ i cl, l[i]? = some cl → cl.index = k0 + ((l.take i).map fun cl => (obj cl.cid).nForce).sum
  | [], k0, k1, h => by
    simp only [Tiled] at h
    subst h
    simp
  | c :: l, k0, k1, h => by
    obtain ⟨h1, h2⟩ := h
    obtain ⟨e1, e2⟩ := tiled_index obj l _ k1 h2
    refine ⟨by rw [e1]; simp; omega, ?_⟩
    intro i cl hcl
    cases i with
    | zero => simp at hcl; subst hcl; simp [h1]
    | succ i =>
      simp only [List.getElem?_cons_succ] at hcl
      rw [e2 i cl hcl]
      simp
      omega

theorem tiled_unique (obj : Nat → Contact K) : ∀ (l l' : List ContactLevel) (k0 k1 k1' : Nat), Tiled obj k0 l k1 →
    Tiled obj k0 l' k1' → l.map strip = l'.map strip → l = l' ∧ k1 = k1'
  | [], [], k0, k1, k1', h, h', _ => by
    simp only [Tiled] at h h'
    exact ⟨rfl, by omega⟩
  | [], c :: l, _, _, _, _, _, e => by simp at e
  | c :: l, [], _, _, _, _, _, e => by simp at e
  | c :: l, c' :: l', k0, k1, k1', h, h', e => by
    simp only [List.map_cons, List.cons.injEq] at e
    obtain ⟨h1, h2⟩ := h
    obtain ⟨h1', h2'⟩ := h'
    obtain ⟨e1, e2⟩ := e
    obtain ⟨cid, index, motion, force, reg⟩ := c
    obtain ⟨cid', index', motion', force', reg'⟩ := c'
    simp only [strip, Prod.mk.injEq] at e1
    obtain ⟨rfl, rfl, rfl, rfl⟩ := e1
    simp only at h1 h1' h2 h2'
    obtain ⟨i1, i2⟩ := tiled_unique obj l l' _ _ _ h2 h2' e2
    rw [h1, h1', i1]
    exact ⟨rfl, i2⟩

theorem entries_of_coh {W : World} {s : State K} {L : List (LItem K)} (hi : Inv W s) (hc : Coh W s L) :
    entries s = Registry.problem W (cnames s) (ckinds s) s.nu ⟨L.map Prod.fst, [], 0, []⟩ := by
  rw [entries_eq (r := ⟨L.map Prod.fst, s.measured, s.t, s.trans.map fun tr => (tr.tEnd, tr.cid)⟩) hi
    ⟨hc, rfl, rfl, rfl, rfl⟩]
  rfl

/-- Two states with the same items have the same registrations and the same lines. -/
structure SameItems (s s' : State K) : Prop where
  entries : entries s' = entries s
  hqp : s'.hqp = s.hqp
  motions : s'.motions = s.motions
  forces : s'.forces = s.forces
  acts : s'.acts = s.acts
  contacts : s'.contacts = s.contacts
  k : s'.k = s.k

theorem sameItems {W : World} {s s' : State K} {L : List (LItem K)} (hi : Inv W s) (hi' : Inv W s') (hc : Coh W s L)
    (hc' : Coh W s' L) (hr : SameRest s s') : SameItems s s' := by
  have ht := hi'.tiled
  rw [hr.obj] at ht
  obtain ⟨c1, c2⟩ := tiled_unique s.contactObj _ _ _ _ _ ht hi.tiled (by rw [hc'.contacts, hc.contacts])
  refine ⟨?_, ?_, ?_, ?_, ?_, c1, c2⟩
  · rw [entries_of_coh hi hc, entries_of_coh hi' hc', hr.names.names, hr.names.kinds, hr.nu]
  · rw [hc.hqp, hc'.hqp, hr.base]
  · rw [hc.motions, hc'.motions]
  · rw [hc.forces, hc'.forces]
  · rw [hc.acts, hc'.acts]

/-- Removing a registered task succeeds. -/
theorem removeTask_ok {nd : Bool} {W : World} {s : State K} {L : List (LItem K)} {n : String} (hw : Hygienic W)
    (hi : Inv W s) (hc : Coh W s L) (hreg : ∃ x ∈ L, x.1.isTask W n = true) :
    ∃ s', removeTask nd W s n = .ok s' true := by
  obtain ⟨x, hx, hn⟩ := hreg
  obtain ⟨it, i⟩ := x
  cases it with
  | contact _ _ _ _ => simp [Item.isTask] at hn
  | task fam tid p w =>
    simp only [Item.isTask, beq_iff_eq] at hn
    have hr : ¬ Reserved n := hn ▸ (hw tid).2
    have hany : (removeFromHqpData s n).2 = true := by
      rw [removeFromHqpData_eq (names_nodup hw hi hc)]
      exact (any_named_iff hw hi hc n).2 (.inr ⟨_, hx, by simp [itemNames, hn]⟩)
    cases h : removeTask nd W s n with
    | ok s' r =>
      have := (removeTask_coh hw hi hc hr h).2.1.2 ⟨_, hx, by simp [Item.isTask, hn]⟩
      exact ⟨s', by rw [this]⟩
    | _ =>
      exfalso
      unfold removeTask at h
      simp only [hany, Bool.not_true, Bool.false_and, Bool.false_eq_true, if_false] at h
      split at h
      · cases h
      · split at h
        · cases h
        · split at h <;> cases h

/-- Removing a task that is not registered: an assertion fails, or nothing happens when assertions are off. -/
theorem removeTask_missing {nd : Bool} {W : World} {s : State K} {L : List (LItem K)} {n : String} (hw : Hygienic W)
    (hi : Inv W s) (hc : Coh W s L) (hr : ¬ Reserved n) (hreg : ¬ ∃ x ∈ L, x.1.isTask W n = true) :
    removeTask nd W s n = if nd = true then .ok s false else .abort := by
  have hany : s.hqp.flatten.any (named s.heap n) = false := by
    rw [Bool.eq_false_iff]
    intro h
    rcases (any_named_iff hw hi hc n).1 h with e | ⟨⟨it, i⟩, hx, hn⟩
    · exact hr (.inl e)
    · cases it with
      | task fam tid p w =>
        simp only [itemNames, List.mem_singleton] at hn
        exact hreg ⟨_, hx, by simp [Item.isTask, hn]⟩
      | contact cid p wm wf =>
        apply hr
        right
        refine ⟨cnames s cid, ?_⟩
        simpa [itemNames] using hn
  have hrem := removeFromHqpData_eq (names_nodup hw hi hc) n
  rw [hany] at hrem
  have hfilter : s.hqp.map (List.filter fun e => !named s.heap n e) = s.hqp := by
    conv_rhs => rw [← List.map_id s.hqp]
    apply List.map_congr_left
    intro l hl
    rw [List.filter_eq_self.2]
    · rfl
    · intro e he
      rw [List.any_eq_false] at hany
      have := hany e (List.mem_flatten.2 ⟨l, hl, he⟩)
      simp only [Bool.not_eq_true] at this
      simp [this]
  rw [hfilter] at hrem
  have hm : ∀ fam, ∀ tl ∈ L.filterMap (taskOf fam), levelNamed W n tl = false := by
    intro fam tl htl
    rw [Bool.eq_false_iff]
    intro hn
    obtain ⟨w, b, c, h1, h2⟩ := exists_isTask htl hn
    exact hreg ⟨_, h1, h2⟩
  have f1 : s.motions.find? (fun l => (W.task l.tid).name == n) = none := by
    rw [List.find?_eq_none]
    intro tl htl
    rw [Bool.not_eq_true]
    exact hm .motion tl (hc.motions ▸ htl)
  have f2 : s.forces.any (fun l => (W.task l.tid).name == n) = false := by
    rw [List.any_eq_false]
    intro tl htl
    rw [Bool.not_eq_true]
    exact hm .force tl (hc.forces ▸ htl)
  have f3 : s.acts.find? (fun l => (W.task l.tid).name == n) = none := by
    rw [List.find?_eq_none]
    intro tl htl
    rw [Bool.not_eq_true]
    exact hm .actuation tl (hc.acts ▸ htl)
  unfold removeTask
  simp only [hrem, f1, f2, f3]
  cases nd <;> simp

/-- Removing a registered contact at once succeeds. -/
theorem removeContactNow_ok {nd : Bool} {W : World} {s : State K} {L : List (LItem K)} {n : String} (hw : Hygienic W)
    (hi : Inv W s) (hc : Coh W s L) (hreg : ∃ x ∈ L, x.1.isContact (cnames s) n = true) :
    ∃ s', removeContactNow nd s n = .ok s' true := by
  obtain ⟨x, hx, hn⟩ := hreg
  obtain ⟨it, a, b, c⟩ := x
  have hiff := fun m => any_named_iff hw hi hc m
  obtain ⟨i1, i2, i3⟩ := mem_itemNames_contact hw (nm := cnames s) (it := it) (n := n)
  have a1 := (hiff _).2 (.inr ⟨_, hx, i1.2 hn⟩)
  have a2 := (hiff _).2 (.inr ⟨_, hx, i2.2 hn⟩)
  have a3 := (hiff _).2 (.inr ⟨_, hx, i3.2 hn⟩)
  obtain ⟨e1, e2, e3, e4⟩ := removeThree (names_nodup hw hi hc) n
  cases it with
  | task _ _ _ _ => simp [Item.isContact] at hn
  | contact cid p wm wf =>
    have hp := motion_level hw hi hc hx
    simp only [Item.isContact, beq_iff_eq] at hn
    rw [hn] at hp
    cases h : removeContactNow nd s n with
    | ok s' r =>
      have := (removeContactNow_coh hw hi hc h).2.1.2 ⟨_, hx, by simp [Item.isContact, hn]⟩
      exact ⟨s', by rw [this]⟩
    | _ =>
      exfalso
      unfold removeContactNow at h
      simp only [hp, e2, e3, e4, a1, a2, a3, Bool.and_self, reduceCtorEq, false_and, and_false, if_false,
        Bool.true_eq_false] at h
      split at h <;> cases h

/-- Removing a contact that is not registered. -/
theorem removeContactNow_missing {nd : Bool} {W : World} {s : State K} {L : List (LItem K)} {n : String}
    (hw : Hygienic W) (hi : Inv W s) (hc : Coh W s L) (hreg : ¬ ∃ x ∈ L, x.1.isContact (cnames s) n = true) :
    removeContactNow nd s n = if nd = true then .ok s false else .abort := by
  have hno : ∀ m, (m = n ++ "_motion_task" ∨ m = n ++ "_force_constraint" ∨ m = n ++ "_force_reg_task") →
      s.hqp.flatten.any (named s.heap m) = false := by
    intro m hm
    rw [Bool.eq_false_iff]
    intro h
    rcases (any_named_iff hw hi hc m).1 h with e | ⟨x, hx, hn⟩
    · rcases hm with rfl | rfl | rfl
      · exact motion_ne_base _ e
      · exact force_ne_base _ e
      · exact reg_ne_base _ e
    · obtain ⟨i1, i2, i3⟩ := mem_itemNames_contact hw (nm := cnames s) (it := x.1) (n := n)
      rcases hm with rfl | rfl | rfl
      · exact hreg ⟨x, hx, i1.1 hn⟩
      · exact hreg ⟨x, hx, i2.1 hn⟩
      · exact hreg ⟨x, hx, i3.1 hn⟩
  have a1 := hno _ (.inl rfl)
  have a2 := hno _ (.inr (.inl rfl))
  have a3 := hno _ (.inr (.inr rfl))
  obtain ⟨e1, e2, e3, e4⟩ := removeThree (names_nodup hw hi hc) n
  have hp : getTaskPriority s (n ++ "_motion_task") = none := by
    unfold getTaskPriority
    rw [List.findIdx?_eq_none_iff]
    intro l hl
    rw [List.any_eq_false] at a1 ⊢
    intro e he
    exact a1 e (List.mem_flatten.2 ⟨l, hl, he⟩)
  have hfilter : s.hqp.map (List.filter fun e => !ofContact s.heap n e) = s.hqp := by
    rw [hqp_without_contact hw hi hc n, List.filter_eq_self.2, hc.hqp]
    intro x hx
    cases hb : x.1.isContact (cnames s) n with
    | true => exact absurd ⟨x, hx, hb⟩ hreg
    | false => rfl
  rw [hfilter] at e1
  have hf : s.contacts.find? (fun c => (s.contactObj c.cid).name == n) = none := by
    have := contact_find hc n
    cases hfd : s.contacts.find? (fun c => (s.contactObj c.cid).name == n) with
    | none => rfl
    | some c =>
      rw [hfd] at this
      exfalso
      have h1 := List.mem_of_find?_eq_some this.symm
      have h2 := List.find?_some this.symm
      obtain ⟨it, hit, e⟩ := List.mem_filterMap.1 h1
      obtain ⟨x, hx, rfl⟩ := List.mem_map.1 hit
      apply hreg
      refine ⟨x, hx, ?_⟩
      cases hx1 : x.1 with
      | task _ _ _ _ => rw [hx1] at e; cases e
      | contact cid p wm wf =>
        rw [hx1] at e
        cases e
        exact h2
  unfold removeContactNow
  cases nd
  · simp [hp]
  · simp only [hp, e1, e2, e3, e4, a1, a2, a3, hf, and_false, if_false, if_true, Bool.true_eq_false, false_and]
    rw [reindex_of_tiled _ _ _ _ hi.tiled]

theorem addCall_step {nd : Bool} {W : World} {s s1 : State K} {fam : Family} {tid p : Nat} {w dur : K} {b : Bool}
    (h : addCall W s fam tid w p dur = .ok s1 b) :
    ∃ o : Op K, (step nd W s o).state? = some s1 := by
  cases fam with
  | motion => exact ⟨.addMotionTask tid w p dur, by simp only [addCall] at h; simp [step, void, h, Res.state?]⟩
  | force => exact ⟨.addForceTask tid w p dur, by simp only [addCall] at h; simp [step, void, h, Res.state?]⟩
  | actuation => exact ⟨.addActuationTask tid w p dur, by simp only [addCall] at h; simp [step, void, h, Res.state?]⟩

theorem addCall_coh {W : World} {s s' : State K} {L : List (LItem K)} {fam : Family} {tid p : Nat} {w dur : K}
    {r : Bool} (hi : Inv W s) (hc : Coh W s L)
    (hf : ∀ tl ∈ s.motions ++ (s.forces ++ s.acts), (W.task tl.tid).name ≠ (W.task tid).name)
    (h : addCall W s fam tid w p dur = .ok s' r) : r = true ∧ AddedTask W s s' L fam tid p w := by
  cases fam with
  | motion => exact addMotionTask_coh hi hc hf h
  | force => exact addForceTask_coh hi hc hf h
  | actuation => exact addActuationTask_coh hi hc hf h

/-- Every count is right up to some offset. -/
theorem count_exists (W : World) (s : State K) (L : List (LItem K)) : ∃ o, Count o W s L :=
  ⟨(s.nEq - (s.nu + ((L.map fun x => eq0 W (ckinds s) x.1).sum : Nat)),
    s.nIn - ((L.map fun x => in0 W (ckinds s) x.1).sum : Nat)), by constructor <;> simp⟩

theorem count_same {W : World} {s s' : State K} {L : List (LItem K)} {o : Int × Int} (hn : SameNames s s')
    (h : Count o W s L) (h' : Count o W s' L) : s'.nEq = s.nEq ∧ s'.nIn = s.nIn := by
  obtain ⟨a1, a2⟩ := h
  obtain ⟨b1, b2⟩ := h'
  rw [hn.kinds, hn.nu] at b1
  rw [hn.kinds] at b2
  exact ⟨b1.trans a1.symm, b2.trans a2.symm⟩

/-- Rows of the lines of an item at level 0. -/
theorem level0_rows (W : World) (nm : Nat → String) (ck : Nat → ContactKind) : ∀ items : List (Item K),
    ((((items.flatMap (Item.entries W nm ck 0)).filter fun e => e.kind = .equality).map Entry.rows).sum =
      (items.map (eq0 W ck)).sum) ∧
    ((((items.flatMap (Item.entries W nm ck 0)).filter fun e => e.kind = .inequality).map Entry.rows).sum =
      (items.map (in0 W ck)).sum)
  | [] => ⟨rfl, rfl⟩
  | it :: l => by
    obtain ⟨h1, h2⟩ := level0_rows W nm ck l
    rw [List.flatMap_cons, List.filter_append, List.filter_append, List.map_append, List.map_append,
      List.sum_append, List.sum_append, h1, h2, List.map_cons, List.map_cons, List.sum_cons, List.sum_cons]
    cases it with
    | task fam tid p w =>
      by_cases hp : p = 0
      · cases hk : (W.task tid).kind <;> simp [Item.entries, eq0, in0, hp, hk, entryKind]
      · simp [Item.entries, eq0, in0, hp]
    | contact cid p wm wf =>
      by_cases hp : p = 0 <;> simp [Item.entries, eq0, in0, hp]

end Tsid.Formulation
