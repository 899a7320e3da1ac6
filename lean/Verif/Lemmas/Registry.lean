import Verif.Lemmas.Coherence

/-!
# Effect of every call on the registrations
-/

set_option linter.unusedSectionVars false

namespace Tsid.Formulation

open Spec

variable {K : Type} [Field K] [LinearOrder K] [HasSqrt K]

/-- The parts of the state that registrations do not touch. -/
structure SameRest (s s' : State K) : Prop where
  obj : s'.contactObj = s.contactObj
  trans : s'.trans = s.trans
  t : s'.t = s.t
  measured : s'.measured = s.measured
  nu : s'.nu = s.nu
  nv : s'.nv = s.nv
  base : s'.baseId = s.baseId

theorem fam_unique {W : World} {s : State K} {L : List (LItem K)} (hc : Coh W s L) {f1 f2 : Family} {n : String}
    {tl1 tl2 : TaskLevel} (h1 : tl1 ∈ L.filterMap (taskOf f1)) (h2 : tl2 ∈ L.filterMap (taskOf f2))
    (n1 : levelNamed W n tl1 = true) (n2 : levelNamed W n tl2 = true) : f1 = f2 := by
  obtain ⟨⟨it1, a1⟩, hx1, e1⟩ := List.mem_filterMap.1 h1
  obtain ⟨⟨it2, a2⟩, hx2, e2⟩ := List.mem_filterMap.1 h2
  cases it1 with
  | contact _ _ _ _ => simp [taskOf] at e1
  | task g1 tid1 p1 w1 =>
    cases it2 with
    | contact _ _ _ _ => simp [taskOf] at e2
    | task g2 tid2 p2 w2 =>
      simp only [taskOf, Option.ite_none_right_eq_some, Option.some.injEq] at e1 e2
      obtain ⟨rfl, rfl⟩ := e1
      obtain ⟨rfl, rfl⟩ := e2
      simp only [levelNamed, beq_iff_eq] at n1 n2
      have := key_inj hc hx1 hx2 (by simp [key, n1, n2])
      simp only [Prod.mk.injEq, Item.task.injEq] at this
      exact this.1.1

theorem exists_isTask {W : World} {fam : Family} {L : List (LItem K)} {n : String} {tl : TaskLevel}
    (h : tl ∈ L.filterMap (taskOf fam)) (hn : levelNamed W n tl = true) :
    ∃ w b c, (Item.task fam tl.tid tl.prio w, tl.cref, b, c) ∈ L ∧
      (Item.task fam tl.tid tl.prio w).isTask W n = true := by
  obtain ⟨⟨it, a, b, c⟩, hx, e⟩ := List.mem_filterMap.1 h
  cases it with
  | contact _ _ _ _ => simp [taskOf] at e
  | task f tid p w =>
    simp only [taskOf, Option.ite_none_right_eq_some, Option.some.injEq] at e
    obtain ⟨rfl, rfl⟩ := e
    exact ⟨w, b, c, hx, by simpa [levelNamed, Item.isTask] using hn⟩

theorem coh_congr {W : World} {s s' : State K} {L : List (LItem K)} (hc : Coh W s L) (h1 : s'.hqp = s.hqp)
    (h2 : s'.baseId = s.baseId) (h3 : s'.motions = s.motions) (h4 : s'.forces = s.forces) (h5 : s'.acts = s.acts)
    (h6 : s'.contacts.map strip = s.contacts.map strip) (h7 : cnames s' = cnames s) : Coh W s' L where
  hqp := by rw [h1, h2]; exact hc.hqp
  motions := by rw [h3]; exact hc.motions
  forces := by rw [h4]; exact hc.forces
  acts := by rw [h5]; exact hc.acts
  contacts := by rw [h6]; exact hc.contacts
  keys := by rw [h7]; exact hc.keys
  levels := hc.levels

/-- Removal of the entries of the task named `n` from the HQP data. -/
theorem hqp_without_task {W : World} {s : State K} {L : List (LItem K)} (hw : Hygienic W) (hi : Inv W s)
    (hc : Coh W s L) {n : String} (hr : ¬ Reserved n) :
    s.hqp.map (List.filter fun e => !named s.heap n e) =
      [(1, s.baseId) :: (L.filter fun x => !x.1.isTask W n).flatMap (ents 0),
        (L.filter fun x => !x.1.isTask W n).flatMap (ents 1)] := by
  rw [hc.hqp]
  apply filter_levels
  · simp only [named, hi.pre.baseName, Bool.not_eq_true', beq_eq_false_iff_ne]
    intro e
    exact hr (Or.inl e.symm)
  · intro x hx lvl
    exact ents_task_filter (cellNames_of hw hi hc x hx) hr lvl

theorem keys_filter {W : World} {s : State K} {L : List (LItem K)} (hc : Coh W s L) (q : LItem K → Bool) :
    ((L.filter q).map fun x => key W (cnames s) x.1).Nodup :=
  (List.filter_sublist.map _).nodup hc.keys

theorem not_reserved_filter_self {W : World} {L : List (LItem K)} {n : String}
    (h : ∀ x ∈ L, x.1.isTask W n = false) : (L.filter fun x => !x.1.isTask W n) = L := by
  rw [List.filter_eq_self]
  intro x hx
  rw [h x hx]; rfl

theorem removeTask_coh {nd : Bool} {W : World} {s s' : State K} {L : List (LItem K)} {n : String} {r : Bool}
    (hw : Hygienic W) (hi : Inv W s) (hc : Coh W s L) (hr : ¬ Reserved n)
    (h : removeTask nd W s n = .ok s' r) :
    Coh W s' (L.filter fun x => !x.1.isTask W n) ∧ (r = true ↔ ∃ x ∈ L, x.1.isTask W n = true) ∧
    SameRest s s' ∧
    (∀ o, Count o W s L → (∀ tl ∈ s.forces, levelNamed W n tl = true → tl.prio ≠ 0) →
      Count o W s' (L.filter fun x => !x.1.isTask W n)) := by
  have hu := names_nodup hw hi hc
  have hq := hqp_without_task hw hi hc hr
  unfold removeTask at h
  rw [removeFromHqpData_eq hu, hq] at h
  have hfold : (fun l : TaskLevel => (W.task l.tid).name == n) = levelNamed W n := rfl
  simp only [hfold] at h
  split at h
  · cases h
  have none_of : ∀ f1 f2 (tl : TaskLevel), tl ∈ L.filterMap (taskOf f1) → levelNamed W n tl = true → f1 ≠ f2 →
      (L.filter fun x => !x.1.isTask W n).filterMap (taskOf f2) = L.filterMap (taskOf f2) := by
    intro f1 f2 tl htl hn hne
    apply filter_self_of_none
    intro tl2 htl2
    by_contra hcon
    rw [Bool.not_eq_false] at hcon
    exact hne (fam_unique hc htl htl2 hn hcon)
  -- effect on the sums of rows
  have hsum : ∀ (f : LItem K → Nat) (x : LItem K), x ∈ L → x.1.isTask W n = true →
      (L.map f).sum = f x + ((L.filter fun x => !x.1.isTask W n).map f).sum := by
    intro f x hx hxt
    apply sum_remove hc (fun x => x.1.isTask W n) f hx hxt
    intro y hy hyt
    exact key_inj hc hy hx (((isTask_key (nm := cnames s)).1 hyt).trans ((isTask_key (nm := cnames s)).1 hxt).symm)
  split at h
  · -- motion task
    next l hfind =>
    have hl := List.mem_of_find?_eq_some hfind
    rw [hc.motions] at hl
    have hn : levelNamed W n l = true := List.find?_some hfind
    obtain ⟨w, b, c, hx, hxt⟩ := exists_isTask hl hn
    have hcell := mem_taskOf hi hc hx
    have e_nb : (s.heap l.cref).kind ≠ .bound := hi.pre.noBound _
    have hrows : (s.heap l.cref).rows = (W.task l.tid).rows := by rw [rows_eq e_nb]; exact hcell.rows
    have hkind : (s.heap l.cref).kind = .equality ↔ (W.task l.tid).kind = .equality := by
      rw [hcell.kind]
      cases hk : (W.task l.tid).kind <;> simp [heapKind]
    cases h
    refine ⟨?_, ⟨fun _ => ⟨_, hx, hxt⟩, fun _ => rfl⟩, ?_, ?_⟩
    · split
      · split
        · exact ⟨rfl, by rw [hc.motions]; exact erase_filter hc _ _,
            by rw [none_of _ .force l hl hn (by decide)]; exact hc.forces,
            by rw [none_of _ .actuation l hl hn (by decide)]; exact hc.acts,
            by rw [contactOf_filter_task]; exact hc.contacts, keys_filter hc _,
            fun x hx => hc.levels x (List.mem_of_mem_filter hx)⟩
        · exact ⟨rfl, by rw [hc.motions]; exact erase_filter hc _ _,
            by rw [none_of _ .force l hl hn (by decide)]; exact hc.forces,
            by rw [none_of _ .actuation l hl hn (by decide)]; exact hc.acts,
            by rw [contactOf_filter_task]; exact hc.contacts, keys_filter hc _,
            fun x hx => hc.levels x (List.mem_of_mem_filter hx)⟩
      · exact ⟨rfl, by rw [hc.motions]; exact erase_filter hc _ _,
          by rw [none_of _ .force l hl hn (by decide)]; exact hc.forces,
          by rw [none_of _ .actuation l hl hn (by decide)]; exact hc.acts,
          by rw [contactOf_filter_task]; exact hc.contacts, keys_filter hc _,
          fun x hx => hc.levels x (List.mem_of_mem_filter hx)⟩
    · split
      · split <;> exact ⟨rfl, rfl, rfl, rfl, rfl, rfl, rfl⟩
      · exact ⟨rfl, rfl, rfl, rfl, rfl, rfl, rfl⟩
    · intro o hcount _
      have c1 := hcount.1
      have c2 := hcount.2
      rw [hsum (fun x => eq0 W (ckinds s) x.1) _ hx hxt] at c1
      rw [hsum (fun x => in0 W (ckinds s) x.1) _ hx hxt] at c2
      generalize hE : (List.map (fun x : LItem K => eq0 W (ckinds s) x.1) (L.filter fun x => !x.1.isTask W n)).sum = E at c1
      generalize hI : (List.map (fun x : LItem K => in0 W (ckinds s) x.1) (L.filter fun x => !x.1.isTask W n)).sum = I at c2
      simp only [eq0, in0] at c1 c2
      by_cases hp : l.prio = 0
      · by_cases hk : (W.task l.tid).kind = .equality
        · simp only [if_pos hp, if_pos (hkind.2 hk), hrows]
          simp only [hp, hk, and_self, if_true, ne_eq, not_true, false_and, if_false] at c1 c2
          constructor
          · show s.nEq - ((W.task l.tid).rows : Int) =
              (s.nu : Int) + ((List.map (fun x : LItem K => eq0 W (ckinds s) x.1) (L.filter fun x => !x.1.isTask W n)).sum : Nat) + o.1
            rw [hE]; omega
          · show s.nIn =
              ((List.map (fun x : LItem K => in0 W (ckinds s) x.1) (L.filter fun x => !x.1.isTask W n)).sum : Nat) + o.2
            rw [hI]; omega
        · simp only [if_pos hp, if_neg (fun h => hk (hkind.1 h)), hrows]
          simp only [hp, hk, ne_eq, not_false_eq_true, and_self, if_true, false_and, if_false] at c1 c2
          constructor
          · show s.nEq =
              (s.nu : Int) + ((List.map (fun x : LItem K => eq0 W (ckinds s) x.1) (L.filter fun x => !x.1.isTask W n)).sum : Nat) + o.1
            rw [hE]; omega
          · show s.nIn - ((W.task l.tid).rows : Int) =
              ((List.map (fun x : LItem K => in0 W (ckinds s) x.1) (L.filter fun x => !x.1.isTask W n)).sum : Nat) + o.2
            rw [hI]; omega
      · simp only [if_neg hp]
        simp only [hp, and_false, if_false] at c1 c2
        constructor
        · show s.nEq =
              (s.nu : Int) + ((List.map (fun x : LItem K => eq0 W (ckinds s) x.1) (L.filter fun x => !x.1.isTask W n)).sum : Nat) + o.1
          rw [hE]; omega
        · show s.nIn =
              ((List.map (fun x : LItem K => in0 W (ckinds s) x.1) (L.filter fun x => !x.1.isTask W n)).sum : Nat) + o.2
          rw [hI]; omega
  next hnomot =>
  have hnomot' : ∀ tl ∈ L.filterMap (taskOf .motion), levelNamed W n tl = false := by
    intro tl htl
    rw [List.find?_eq_none] at hnomot
    have := hnomot tl (by rw [hc.motions]; exact htl)
    rwa [Bool.not_eq_true] at this
  split at h
  · -- force task
    next hany =>
    rw [List.any_eq_true] at hany
    obtain ⟨l, hl', hn⟩ := hany
    have hl : l ∈ L.filterMap (taskOf .force) := by rw [← hc.forces]; exact hl'
    obtain ⟨w, b, c, hx, hxt⟩ := exists_isTask hl hn
    cases h
    refine ⟨?_, ⟨fun _ => ⟨_, hx, hxt⟩, fun _ => rfl⟩, ⟨rfl, rfl, rfl, rfl, rfl, rfl, rfl⟩, ?_⟩
    · exact ⟨rfl, by rw [filter_self_of_none _ _ _ hnomot']; exact hc.motions,
        by rw [hc.forces]; exact erase_filter hc _ _,
        by rw [none_of _ .actuation l hl hn (by decide)]; exact hc.acts,
        by rw [contactOf_filter_task]; exact hc.contacts, keys_filter hc _,
        fun x hx => hc.levels x (List.mem_of_mem_filter hx)⟩
    · intro o hcount hg
      have hp := hg l hl' hn
      have c1 := hcount.1
      have c2 := hcount.2
      rw [hsum (fun x => eq0 W (ckinds s) x.1) _ hx hxt] at c1
      rw [hsum (fun x => in0 W (ckinds s) x.1) _ hx hxt] at c2
      generalize hE : (List.map (fun x : LItem K => eq0 W (ckinds s) x.1) (L.filter fun x => !x.1.isTask W n)).sum = E at c1
      generalize hI : (List.map (fun x : LItem K => in0 W (ckinds s) x.1) (L.filter fun x => !x.1.isTask W n)).sum = I at c2
      simp only [eq0, in0, hp, and_false, if_false] at c1 c2
      constructor
      · show s.nEq =
              (s.nu : Int) + ((List.map (fun x : LItem K => eq0 W (ckinds s) x.1) (L.filter fun x => !x.1.isTask W n)).sum : Nat) + o.1
        rw [hE]; omega
      · show s.nIn =
              ((List.map (fun x : LItem K => in0 W (ckinds s) x.1) (L.filter fun x => !x.1.isTask W n)).sum : Nat) + o.2
        rw [hI]; omega
  next hnoforce =>
  have hnoforce' : ∀ tl ∈ L.filterMap (taskOf .force), levelNamed W n tl = false := by
    intro tl htl
    rw [Bool.not_eq_true, List.any_eq_false] at hnoforce
    have := hnoforce tl (by rw [hc.forces]; exact htl)
    rwa [Bool.not_eq_true] at this
  split at h
  · -- actuation task
    next l hfind =>
    have hl := List.mem_of_find?_eq_some hfind
    rw [hc.acts] at hl
    have hn : levelNamed W n l = true := List.find?_some hfind
    obtain ⟨w, b, c, hx, hxt⟩ := exists_isTask hl hn
    have hcell := mem_taskOf hi hc hx
    have e_nb : (s.heap l.cref).kind ≠ .bound := hi.pre.noBound _
    have hrows : (s.heap l.cref).rows = (W.task l.tid).rows := by rw [rows_eq e_nb]; exact hcell.rows
    have hkind : (s.heap l.cref).kind = .equality ↔ (W.task l.tid).kind = .equality := by
      rw [hcell.kind]
      cases hk : (W.task l.tid).kind <;> simp [heapKind]
    cases h
    refine ⟨?_, ⟨fun _ => ⟨_, hx, hxt⟩, fun _ => rfl⟩, ?_, ?_⟩
    · have fm := filter_self_of_none _ _ _ hnomot'
      have ff := filter_self_of_none _ _ _ hnoforce'
      split
      · split
        · exact ⟨rfl, by rw [fm]; exact hc.motions, by rw [ff]; exact hc.forces,
            by rw [hc.acts]; exact erase_filter hc _ _,
            by rw [contactOf_filter_task]; exact hc.contacts, keys_filter hc _,
            fun x hx => hc.levels x (List.mem_of_mem_filter hx)⟩
        · exact ⟨rfl, by rw [fm]; exact hc.motions, by rw [ff]; exact hc.forces,
            by rw [hc.acts]; exact erase_filter hc _ _,
            by rw [contactOf_filter_task]; exact hc.contacts, keys_filter hc _,
            fun x hx => hc.levels x (List.mem_of_mem_filter hx)⟩
      · exact ⟨rfl, by rw [fm]; exact hc.motions, by rw [ff]; exact hc.forces,
          by rw [hc.acts]; exact erase_filter hc _ _,
          by rw [contactOf_filter_task]; exact hc.contacts, keys_filter hc _,
          fun x hx => hc.levels x (List.mem_of_mem_filter hx)⟩
    · split
      · split <;> exact ⟨rfl, rfl, rfl, rfl, rfl, rfl, rfl⟩
      · exact ⟨rfl, rfl, rfl, rfl, rfl, rfl, rfl⟩
    · intro o hcount _
      have c1 := hcount.1
      have c2 := hcount.2
      rw [hsum (fun x => eq0 W (ckinds s) x.1) _ hx hxt] at c1
      rw [hsum (fun x => in0 W (ckinds s) x.1) _ hx hxt] at c2
      generalize hE : (List.map (fun x : LItem K => eq0 W (ckinds s) x.1) (L.filter fun x => !x.1.isTask W n)).sum = E at c1
      generalize hI : (List.map (fun x : LItem K => in0 W (ckinds s) x.1) (L.filter fun x => !x.1.isTask W n)).sum = I at c2
      simp only [eq0, in0] at c1 c2
      by_cases hp : l.prio = 0
      · by_cases hk : (W.task l.tid).kind = .equality
        · simp only [if_pos hp, if_pos (hkind.2 hk), hrows]
          simp only [hp, hk, and_self, if_true, ne_eq, not_true, false_and, if_false] at c1 c2
          constructor
          · show s.nEq - ((W.task l.tid).rows : Int) =
              (s.nu : Int) + ((List.map (fun x : LItem K => eq0 W (ckinds s) x.1) (L.filter fun x => !x.1.isTask W n)).sum : Nat) + o.1
            rw [hE]; omega
          · show s.nIn =
              ((List.map (fun x : LItem K => in0 W (ckinds s) x.1) (L.filter fun x => !x.1.isTask W n)).sum : Nat) + o.2
            rw [hI]; omega
        · simp only [if_pos hp, if_neg (fun h => hk (hkind.1 h)), hrows]
          simp only [hp, hk, ne_eq, not_false_eq_true, and_self, if_true, false_and, if_false] at c1 c2
          constructor
          · show s.nEq =
              (s.nu : Int) + ((List.map (fun x : LItem K => eq0 W (ckinds s) x.1) (L.filter fun x => !x.1.isTask W n)).sum : Nat) + o.1
            rw [hE]; omega
          · show s.nIn - ((W.task l.tid).rows : Int) =
              ((List.map (fun x : LItem K => in0 W (ckinds s) x.1) (L.filter fun x => !x.1.isTask W n)).sum : Nat) + o.2
            rw [hI]; omega
      · simp only [if_neg hp]
        simp only [hp, and_false, if_false] at c1 c2
        constructor
        · show s.nEq =
              (s.nu : Int) + ((List.map (fun x : LItem K => eq0 W (ckinds s) x.1) (L.filter fun x => !x.1.isTask W n)).sum : Nat) + o.1
          rw [hE]; omega
        · show s.nIn =
              ((List.map (fun x : LItem K => in0 W (ckinds s) x.1) (L.filter fun x => !x.1.isTask W n)).sum : Nat) + o.2
          rw [hI]; omega
  · next hnoact =>
    have hnoact' : ∀ tl ∈ L.filterMap (taskOf .actuation), levelNamed W n tl = false := by
      intro tl htl
      rw [List.find?_eq_none] at hnoact
      have := hnoact tl (by rw [hc.acts]; exact htl)
      rwa [Bool.not_eq_true] at this
    have hnone : ∀ x ∈ L, x.1.isTask W n = false := by
      rintro ⟨it, a, b, c⟩ hx
      cases it with
      | contact _ _ _ _ => rfl
      | task fam tid p w =>
        have hm : (⟨tid, p, a⟩ : TaskLevel) ∈ L.filterMap (taskOf fam) :=
          List.mem_filterMap.2 ⟨_, hx, by simp [taskOf]⟩
        cases fam with
        | motion => exact hnomot' _ hm
        | force => exact hnoforce' _ hm
        | actuation => exact hnoact' _ hm
    cases h
    refine ⟨?_, ?_, ⟨rfl, rfl, rfl, rfl, rfl, rfl, rfl⟩, ?_⟩
    · exact ⟨rfl, by rw [filter_self_of_none _ _ _ hnomot']; exact hc.motions,
        by rw [filter_self_of_none _ _ _ hnoforce']; exact hc.forces,
        by rw [filter_self_of_none _ _ _ hnoact']; exact hc.acts,
        by rw [contactOf_filter_task]; exact hc.contacts, keys_filter hc _,
        fun x hx => hc.levels x (List.mem_of_mem_filter hx)⟩
    · constructor
      · intro e; cases e
      · rintro ⟨x, hx, hxt⟩
        rw [hnone x hx] at hxt; cases hxt
    · intro o hcount _
      rw [not_reserved_filter_self hnone]
      exact hcount

/-! ## Removal of a contact -/

theorem any_named_iff {W : World} {s : State K} {L : List (LItem K)} (hw : Hygienic W) (hi : Inv W s)
    (hc : Coh W s L) (n : String) :
    s.hqp.flatten.any (named s.heap n) = true ↔
      n = "base-dynamics" ∨ ∃ x ∈ L, n ∈ itemNames W (cnames s) x.1 := by
  have h1 : s.hqp.flatten.any (named s.heap n) = true ↔ n ∈ s.hqp.flatten.map (entryName s.heap) := by
    rw [List.any_eq_true, List.mem_map]
    constructor
    · rintro ⟨e, he, hn⟩
      rw [named, beq_iff_eq] at hn
      exact ⟨e, he, hn⟩
    · rintro ⟨e, he, hn⟩
      exact ⟨e, he, by rw [named, beq_iff_eq]; exact hn⟩
  rw [h1, (names_perm hw hi hc).mem_iff, List.mem_cons, List.mem_flatMap]

theorem mem_itemNames_contact {W : World} (hw : Hygienic W) {nm : Nat → String} {it : Item K} {n : String} :
    (n ++ "_motion_task" ∈ itemNames W nm it ↔ it.isContact nm n = true) ∧
    (n ++ "_force_constraint" ∈ itemNames W nm it ↔ it.isContact nm n = true) ∧
    (n ++ "_force_reg_task" ∈ itemNames W nm it ↔ it.isContact nm n = true) := by
  cases it with
  | task fam tid p w =>
    have := (hw tid).2
    unfold Reserved at this
    push Not at this
    have h := this.2 n
    simp [itemNames, Item.isContact, h.1.symm, h.2.1.symm, h.2.2.symm]
  | contact cid p wm wf =>
    have e : ∀ s, n ++ s = nm cid ++ s ↔ nm cid = n := fun s => ⟨fun h => (suffix_inj h).symm, fun h => by rw [h]⟩
    simp only [itemNames, Item.isContact, List.mem_cons, List.not_mem_nil, or_false, beq_iff_eq]
    refine ⟨⟨?_, ?_⟩, ⟨?_, ?_⟩, ⟨?_, ?_⟩⟩
    · rintro (h | h | h)
      · exact (e _).1 h
      · exact absurd h (motion_ne_force _ _)
      · exact absurd h (motion_ne_reg _ _)
    · intro h; exact Or.inl ((e _).2 h)
    · rintro (h | h | h)
      · exact absurd h (motion_ne_force _ _).symm
      · exact (e _).1 h
      · exact absurd h (force_ne_reg _ _)
    · intro h; exact Or.inr (Or.inl ((e _).2 h))
    · rintro (h | h | h)
      · exact absurd h (motion_ne_reg _ _).symm
      · exact absurd h (force_ne_reg _ _).symm
      · exact (e _).1 h
    · intro h; exact Or.inr (Or.inr ((e _).2 h))

theorem reindex_strip (obj : Nat → Contact K) : ∀ (l : List ContactLevel) (k0 : Nat),
    (reindex obj k0 l).map strip = l.map strip
  | [], _ => rfl
  | c :: l, k0 => by
    simp only [reindex, List.map_cons, reindex_strip obj l]
    rfl

theorem contactOf_filter {nm : Nat → String} (n : String) (L : List (LItem K)) :
    (L.filter fun x => !x.1.isContact nm n).filterMap contactOf =
      (L.filterMap contactOf).filter fun q => !(nm q.1 == n) := by
  rw [List.filter_filterMap, List.filterMap_filter]
  apply filterMap_congr_mem
  rintro ⟨it, a, b, c⟩ _
  cases it with
  | task f tid p w => simp [contactOf, Item.isContact]
  | contact cid p wm wf =>
    by_cases e : nm cid = n <;> simp [contactOf, Item.isContact, e, Option.filter]

theorem contact_names_nodup {W : World} {s : State K} {L : List (LItem K)} (hc : Coh W s L) :
    (s.contacts.map fun c => cnames s c.cid).Nodup := by
  have h1 : (s.contacts.map fun c => cnames s c.cid) = (s.contacts.map strip).map fun q => cnames s q.1 := by
    rw [List.map_map]; rfl
  rw [h1, hc.contacts]
  have h := hc.keys
  clear hc h1
  induction L with
  | nil => simp
  | cons x L ih =>
    rw [List.map_cons, List.nodup_cons] at h
    obtain ⟨it, a, b, c⟩ := x
    rw [List.filterMap_cons]
    split
    · exact ih h.2
    · next q hq =>
      rw [List.map_cons, List.nodup_cons]
      refine ⟨?_, ih h.2⟩
      intro hm
      apply h.1
      obtain ⟨q', hq', e⟩ := List.mem_map.1 hm
      obtain ⟨⟨it', a', b', c'⟩, hx', e'⟩ := List.mem_filterMap.1 hq'
      refine List.mem_map.2 ⟨_, hx', ?_⟩
      cases it with
      | task _ _ _ _ => simp [contactOf] at hq
      | contact cid p wm wf =>
        cases it' with
        | task _ _ _ _ => simp [contactOf] at e'
        | contact cid' p' wm' wf' =>
          simp only [contactOf, Option.some.injEq] at hq e'
          subst hq
          subst e'
          simpa [key] using e

theorem eraseP_strip {W : World} {s : State K} {L : List (LItem K)} (hc : Coh W s L) (n : String) :
    (s.contacts.eraseP fun c => cnames s c.cid == n).map strip =
      (L.filter fun x => !x.1.isContact (cnames s) n).filterMap contactOf := by
  rw [contactOf_filter, ← hc.contacts,
    eraseP_eq_filter _ _ (pairwise_of_nodup_map (fun c : ContactLevel => cnames s c.cid) n _ (contact_names_nodup hc)),
    List.filter_map]
  rfl

/-- The motion entry of a registered contact is at level 0 iff its motion priority level is 0. -/
theorem motion_level {W : World} {s : State K} {L : List (LItem K)} (hw : Hygienic W) (hi : Inv W s)
    (hc : Coh W s L) {cid p : Nat} {wm wf : K} {a b c : Nat}
    (hx : (Item.contact cid p wm wf, a, b, c) ∈ L) :
    getTaskPriority s (cnames s cid ++ "_motion_task") = some p := by
  have hu := names_nodup hw hi hc
  have hn := cellNames_of hw hi hc _ hx
  simp only [CellNames] at hn
  have hp := hc.levels _ hx
  simp only [itemLevel] at hp
  unfold getTaskPriority
  rw [hc.hqp] at hu ⊢
  simp only [List.flatten_cons, List.flatten_nil, List.append_nil, List.map_append] at hu
  have hd := (List.nodup_append'.1 hu).2.2
  have hmem : ∀ lvl, p = lvl → (wm, a) ∈ L.flatMap (ents lvl) := by
    intro lvl e
    refine List.mem_flatMap.2 ⟨_, hx, ?_⟩
    simp [ents, e]
  have hnm : named s.heap (cnames s cid ++ "_motion_task") (wm, a) = true := by
    simp [named, hn.1]
  rw [List.findIdx?_cons]
  have : p = 0 ∨ p = 1 := by omega
  rcases this with rfl | rfl
  · have : ((1, s.baseId) :: L.flatMap (ents 0)).any (named s.heap (cnames s cid ++ "_motion_task")) = true := by
      rw [List.any_eq_true]
      exact ⟨_, List.mem_cons_of_mem _ (hmem 0 rfl), hnm⟩
    rw [this]; rfl
  · have h0 : ((1, s.baseId) :: L.flatMap (ents 0)).any (named s.heap (cnames s cid ++ "_motion_task")) = false := by
      rw [List.any_eq_false]
      intro e he hne
      have e1 : entryName s.heap e ∈ List.map (entryName s.heap) ((1, s.baseId) :: L.flatMap (ents 0)) :=
        List.mem_map_of_mem he
      apply hd e1
      rw [named, beq_iff_eq] at hne
      have : entryName s.heap e = entryName s.heap (wm, a) := by unfold entryName; rw [hne, hn.1]
      rw [this]
      exact List.mem_map_of_mem (hmem 1 rfl)
    have h1 : (L.flatMap (ents 1)).any (named s.heap (cnames s cid ++ "_motion_task")) = true := by
      rw [List.any_eq_true]
      exact ⟨_, hmem 1 rfl, hnm⟩
    rw [h0, List.findIdx?_cons, h1]; rfl

theorem removeThree {s : State K} (hu : (s.hqp.flatten.map (entryName s.heap)).Nodup) (n : String) :
    let r1 := removeFromHqpData s (n ++ "_motion_task")
    let r2 := removeFromHqpData r1.1 (n ++ "_force_constraint")
    let r3 := removeFromHqpData r2.1 (n ++ "_force_reg_task")
    r3.1 = { s with hqp := s.hqp.map (List.filter fun e => !ofContact s.heap n e) } ∧
    r1.2 = s.hqp.flatten.any (named s.heap (n ++ "_motion_task")) ∧
    r2.2 = s.hqp.flatten.any (named s.heap (n ++ "_force_constraint")) ∧
    r3.2 = s.hqp.flatten.any (named s.heap (n ++ "_force_reg_task")) := by
  intro r1 r2 r3
  have e1 : r1 = _ := removeFromHqpData_eq hu (n ++ "_motion_task")
  have sub : ∀ (p : K × Nat → Bool), ((s.hqp.flatten.filter p).map (entryName s.heap)).Nodup := fun p =>
    (List.filter_sublist.map _).nodup hu
  have hu1 : (r1.1.hqp.flatten.map (entryName r1.1.heap)).Nodup := by
    rw [e1]
    show (List.map (entryName s.heap) (List.flatten _)).Nodup
    rw [filter_flatten]
    exact sub _
  have e2 : r2 = _ := removeFromHqpData_eq hu1 (n ++ "_force_constraint")
  have hu2 : (r2.1.hqp.flatten.map (entryName r2.1.heap)).Nodup := by
    rw [e2]
    show (List.map (entryName r1.1.heap) (List.flatten _)).Nodup
    rw [filter_flatten]
    exact (List.filter_sublist.map _).nodup hu1
  have e3 : r3 = _ := removeFromHqpData_eq hu2 (n ++ "_force_reg_task")
  have hne : ∀ (m m' : String) (e : K × Nat), m ≠ m' →
      (named s.heap m e = true → named s.heap m' e = false) := by
    intro m m' e hmm h
    rw [named, beq_iff_eq] at h
    rw [named, h, beq_eq_false_iff_ne]
    exact hmm
  have anyf : ∀ (l : List (K × Nat)) (m m' : String), m ≠ m' →
      (l.filter fun e => !named s.heap m e).any (named s.heap m') = l.any (named s.heap m') := by
    intro l m m' hmm
    rw [Bool.eq_iff_iff, List.any_eq_true, List.any_eq_true]
    constructor
    · rintro ⟨e, he, h⟩
      exact ⟨e, List.mem_of_mem_filter he, h⟩
    · rintro ⟨e, he, h⟩
      refine ⟨e, List.mem_filter.2 ⟨he, ?_⟩, h⟩
      rw [hne m' m e hmm.symm h]; rfl
  refine ⟨?_, by rw [e1], ?_, ?_⟩
  · rw [e3]
    show ({ r2.1 with hqp := _ } : State K) = _
    rw [e2]
    show ({ r1.1 with hqp := _ } : State K) = _
    rw [e1]
    show ({ s with hqp := _ } : State K) = _
    congr 1
    simp only [List.map_map]
    apply List.map_congr_left
    intro l _
    simp only [Function.comp_apply, List.filter_filter]
    apply List.filter_congr
    intro e _
    unfold ofContact
    cases named s.heap (n ++ "_motion_task") e <;> cases named s.heap (n ++ "_force_constraint") e <;>
      cases named s.heap (n ++ "_force_reg_task") e <;> rfl
  · rw [e2]
    show r1.1.hqp.flatten.any (named r1.1.heap _) = _
    rw [e1]
    show (List.flatten _).any (named s.heap _) = _
    rw [filter_flatten, anyf _ _ _ (motion_ne_force n n)]
  · rw [e3]
    show r2.1.hqp.flatten.any (named r2.1.heap _) = _
    rw [e2]
    show (List.flatten (r1.1.hqp.map (List.filter fun e => !named r1.1.heap _ e))).any (named r1.1.heap _) = _
    rw [filter_flatten, e1]
    show ((List.flatten (s.hqp.map _)).filter fun e => !named s.heap _ e).any (named s.heap _) = _
    rw [anyf _ _ _ (force_ne_reg n n), filter_flatten, anyf _ _ _ (motion_ne_reg n n)]

theorem hqp_without_contact {W : World} {s : State K} {L : List (LItem K)} (hw : Hygienic W) (hi : Inv W s)
    (hc : Coh W s L) (n : String) :
    s.hqp.map (List.filter fun e => !ofContact s.heap n e) =
      [(1, s.baseId) :: (L.filter fun x => !x.1.isContact (cnames s) n).flatMap (ents 0),
        (L.filter fun x => !x.1.isContact (cnames s) n).flatMap (ents 1)] := by
  rw [hc.hqp]
  apply filter_levels
  · have h1 := (motion_ne_base n).symm
    have h2 := (force_ne_base n).symm
    have h3 := (reg_ne_base n).symm
    simp [ofContact, named, hi.pre.baseName, h1, h2, h3]
  · intro x hx lvl
    exact ents_contact_filter hw (cellNames_of hw hi hc x hx) n lvl

theorem removeContactNow_coh {nd : Bool} {W : World} {s s' : State K} {L : List (LItem K)} {n : String} {r : Bool}
    (hw : Hygienic W) (hi : Inv W s) (hc : Coh W s L) (h : removeContactNow nd s n = .ok s' r) :
    Coh W s' (L.filter fun x => !x.1.isContact (cnames s) n) ∧
    (r = true ↔ ∃ x ∈ L, x.1.isContact (cnames s) n = true) ∧ SameRest s s' ∧
    (∀ o, Count o W s L → Count o W s' (L.filter fun x => !x.1.isContact (cnames s) n)) := by
  have hu := names_nodup hw hi hc
  obtain ⟨e3, a1, a2, a3⟩ := removeThree hu n
  have hq := hqp_without_contact hw hi hc n
  rw [hq] at e3
  have any1 : ∀ m, (m = n ++ "_motion_task" ∨ m = n ++ "_force_constraint" ∨ m = n ++ "_force_reg_task") →
      (s.hqp.flatten.any (named s.heap m) = true ↔ ∃ x ∈ L, x.1.isContact (cnames s) n = true) := by
    intro m hm
    rw [any_named_iff hw hi hc]
    constructor
    · rintro (h | ⟨x, hx, h⟩)
      · rcases hm with rfl | rfl | rfl
        · exact absurd h (motion_ne_base _)
        · exact absurd h (force_ne_base _)
        · exact absurd h (reg_ne_base _)
      · refine ⟨x, hx, ?_⟩
        rcases hm with rfl | rfl | rfl
        · exact (mem_itemNames_contact hw).1.1 h
        · exact (mem_itemNames_contact hw).2.1.1 h
        · exact (mem_itemNames_contact hw).2.2.1 h
    · rintro ⟨x, hx, h⟩
      refine Or.inr ⟨x, hx, ?_⟩
      rcases hm with rfl | rfl | rfl
      · exact (mem_itemNames_contact hw).1.2 h
      · exact (mem_itemNames_contact hw).2.1.2 h
      · exact (mem_itemNames_contact hw).2.2.2 h
  have g1 := any1 _ (Or.inl rfl)
  have g2 := any1 _ (Or.inr (Or.inl rfl))
  have g3 := any1 _ (Or.inr (Or.inr rfl))
  rw [← a1] at g1
  rw [← a2] at g2
  rw [← a3] at g3
  unfold removeContactNow at h
  dsimp only at h e3 g1 g2 g3
  split at h
  · cases h
  split at h
  · cases h
  have hfold : (fun c : ContactLevel => (s.contactObj c.cid).name == n) = fun c => cnames s c.cid == n := rfl
  rw [e3] at h
  simp only [hfold] at h
  split at h
  · next cl hfind =>
    have hcl := List.mem_of_find?_eq_some hfind
    have hnm := List.find?_some hfind
    simp only [beq_iff_eq] at hnm
    have hcm : strip cl ∈ L.filterMap contactOf := by rw [← hc.contacts]; exact List.mem_map_of_mem hcl
    obtain ⟨⟨it, a, b, c⟩, hx, hxe⟩ := List.mem_filterMap.1 hcm
    cases it with
    | task _ _ _ _ => simp [contactOf] at hxe
    | contact cid p wm wf =>
      simp only [contactOf, strip, Option.some.injEq, Prod.mk.injEq] at hxe
      obtain ⟨rfl, rfl, rfl, rfl⟩ := hxe
      have hxt : (Item.contact cl.cid p wm wf).isContact (cnames s) n = true := by simp [Item.isContact, hnm]
      have hex : ∃ x ∈ L, x.1.isContact (cnames s) n = true := ⟨_, hx, hxt⟩
      have hprio := motion_level hw hi hc hx
      rw [hnm] at hprio
      cases h
      refine ⟨?_, ?_, ⟨rfl, rfl, rfl, rfl, rfl, rfl, rfl⟩, ?_⟩
      · refine ⟨rfl, ?_, ?_, ?_, ?_, keys_filter hc _, fun x hx => hc.levels x (List.mem_of_mem_filter hx)⟩
        · rw [taskOf_filter_contact]; exact hc.motions
        · rw [taskOf_filter_contact]; exact hc.forces
        · rw [taskOf_filter_contact]; exact hc.acts
        · show (reindex _ 0 _).map strip = _
          rw [reindex_strip]
          exact eraseP_strip hc n
      · rw [g1.2 hex, g2.2 hex, g3.2 hex]
        simp [hex]
      · intro o hcount
        have c1 := hcount.1
        have c2 := hcount.2
        have hu' : ∀ y ∈ L, y.1.isContact (cnames s) n = true → y = (Item.contact cl.cid p wm wf, cl.motion, cl.force, cl.reg) := by
          intro y hy hyt
          exact key_inj hc hy hx (((isContact_key (W := W)).1 hyt).trans ((isContact_key (W := W)).1 hxt).symm)
        rw [sum_remove hc (fun x => x.1.isContact (cnames s) n) (fun x => eq0 W (ckinds s) x.1) hx hxt hu'] at c1
        rw [sum_remove hc (fun x => x.1.isContact (cnames s) n) (fun x => in0 W (ckinds s) x.1) hx hxt hu'] at c2
        generalize hE : (List.map (fun x : LItem K => eq0 W (ckinds s) x.1) (L.filter fun x => !x.1.isContact (cnames s) n)).sum = E at c1
        generalize hI : (List.map (fun x : LItem K => in0 W (ckinds s) x.1) (L.filter fun x => !x.1.isContact (cnames s) n)).sum = I at c2
        simp only [eq0, in0] at c1 c2
        have hcell := (hi.pre.contactCells cl hcl).1
        have rm : (s.heap cl.motion).rows = Contact.kindMotion (ckinds s cl.cid) := by
          rw [rows_eq (hi.pre.noBound _), hcell.mRows]; rfl
        have rf : (s.heap cl.force).rows = Contact.kindIneqRows (ckinds s cl.cid) := by
          rw [rows_eq (hi.pre.noBound _), hcell.fRows]; rfl
        constructor
        · show (if (decide (getTaskPriority s (n ++ "_motion_task") = some 0)) = true then
            s.nEq - ((s.heap cl.motion).rows : Int) else s.nEq) =
              (s.nu : Int) + ((List.map (fun x : LItem K => eq0 W (ckinds s) x.1) (L.filter fun x => !x.1.isContact (cnames s) n)).sum : Nat) + o.1
          rw [hE, hprio, rm, c1]
          by_cases hp : p = 0
          · simp only [hp, decide_true, if_true]
            omega
          · have : ¬ (some p = some 0) := by simpa using hp
            simp only [hp, this, decide_false, if_false, Bool.false_eq_true]
            omega
        · show s.nIn - ((s.heap cl.force).rows : Int) =
              ((List.map (fun x : LItem K => in0 W (ckinds s) x.1) (L.filter fun x => !x.1.isContact (cnames s) n)).sum : Nat) + o.2
          rw [hI, rf, c2]
          omega
  · next hfind =>
    have hnone : ∀ x ∈ L, x.1.isContact (cnames s) n = false := by
      rintro ⟨it, a, b, c⟩ hx
      cases it with
      | task _ _ _ _ => rfl
      | contact cid p wm wf =>
        obtain ⟨cl, hcl, rfl, -⟩ := mem_contactOf hc hx
        rw [List.find?_eq_none] at hfind
        have := hfind cl hcl
        rwa [Bool.not_eq_true] at this
    have hself : (L.filter fun x => !x.1.isContact (cnames s) n) = L := by
      rw [List.filter_eq_self]
      intro x hx
      rw [hnone x hx]; rfl
    cases h
    refine ⟨?_, ?_, ⟨rfl, rfl, rfl, rfl, rfl, rfl, rfl⟩, ?_⟩
    · refine ⟨rfl, ?_, ?_, ?_, ?_, keys_filter hc _, fun x hx => hc.levels x (List.mem_of_mem_filter hx)⟩
      · rw [taskOf_filter_contact]; exact hc.motions
      · rw [taskOf_filter_contact]; exact hc.forces
      · rw [taskOf_filter_contact]; exact hc.acts
      · show (reindex _ 0 _).map strip = _
        rw [reindex_strip, hself]
        exact hc.contacts
    · constructor
      · intro e; cases e
      · rintro ⟨x, hx, hxt⟩
        rw [hnone x hx] at hxt; cases hxt
    · intro o hcount
      rw [hself]
      exact hcount

end Tsid.Formulation
