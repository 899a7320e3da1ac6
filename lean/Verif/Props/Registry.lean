import Verif.Lemmas.RoundTrip
import Verif.Lemmas.History
import Verif.Example.Tidy

/-!
# C06-C13, C69: registrations and the problem they stand for
-/

set_option linter.unusedSectionVars false

namespace Tsid.Props

open Formulation Spec

variable {K : Type} [Field K] [LinearOrder K] [HasSqrt K]

/-! ## C06 -/

/-- **C06.** In every reachable state the number of variables is `nv` plus the force sizes of the registered
contacts, every constraint of the problem has that many columns, and the force slices of the contacts are
consecutive in registration order. -/
theorem C06_variable_layout {nd : Bool} {W : World} {s : State K} (h : Reachable nd W s) :
    nVar s = s.nv + (s.contacts.map fun cl => (s.contactObj cl.cid).nForce).sum ∧
    (∀ l ∈ problem s, ∀ e ∈ l, e.2.mat.cols = nVar s) ∧
    (∀ i cl, s.contacts[i]? = some cl →
      cl.index = ((s.contacts.take i).map fun cl => (s.contactObj cl.cid).nForce).sum) := by
  have hi := reachable_inv h
  obtain ⟨h1, h2⟩ := tiled_index _ _ _ _ hi.tiled
  refine ⟨?_, ?_, ?_⟩
  · unfold nVar
    omega
  · intro l hl e he
    obtain ⟨l0, hl0, rfl⟩ := List.mem_map.1 hl
    obtain ⟨e0, he0, rfl⟩ := List.mem_map.1 he
    exact hi.sized.idsCols e0.2 (mem_hqpIds.2 ⟨l0, hl0, e0, he0, rfl⟩)
  · intro i cl hcl
    have := h2 i cl hcl
    omega

/-- The demo history ends with two contacts, registered again in the opposite order. -/
example : ∃ s : State ℚ, Reachable false Demo.world s ∧ s.contacts.map (fun c => (c.cid, c.index)) = [(1, 0), (0, 3)] ∧
    nVar s = 14 := by
  obtain ⟨s, -, h, hp⟩ := Demo.afterRun_exists (ops := Demo.history)
    (p := fun s => decide (s.contacts.map (fun c => (c.cid, c.index)) = [(1, 0), (0, 3)] ∧ nVar s = 14))
    (by decide +kernel)
  exact ⟨s, h, of_decide_eq_true hp⟩

/-! ## C69 -/

/-- **C69.** After every history that respects the naming discipline, the problem held by the formulation
consists, level by level and in order, of the base dynamics and the lines of exactly the registered tasks and
contacts, with their current weights; and the measured forces are the registered ones. -/
theorem C69_problem_of_registrations {nd : Bool} {W : World} {robot : Robot K} {obj : Nat → Contact K}
    {assoc : Nat → String} {ops : List (Op K)} {s : State K} (h : TidyRun nd W robot obj assoc ops s) :
    entries s = (registrations nd W robot obj assoc ops).problem W (fun c => (obj c).name) (fun c => (obj c).kind)
      (robot.nv - robot.na) ∧
    s.measured = (registrations nd W robot obj assoc ops).measured := by
  obtain ⟨hi, hn, L, hL, -⟩ := tidy_impl h
  refine ⟨?_, hL.measured⟩
  have e1 : cnames s = fun c => (obj c).name := hn.names
  have e2 : ckinds s = fun c => (obj c).kind := hn.kinds
  have e3 : s.nu = robot.nv - robot.na := hn.nu
  rw [entries_eq hi hL, e1, e2, e3]

/-- **C69, deprecated overload.** `addRigidContact(contact)` is the call with force regularisation weight `1e-5`, motion
weight 1 and motion priority 0: it continues a history as that call does. -/
theorem C69_default_contact [IsStrictOrderedRing K] {nd : Bool} {W : World} {robot : Robot K} {obj : Nat → Contact K} {assoc : Nat → String}
    {ops : List (Op K)} {s s' : State K} {cid : Nat} {b : Bool} (h : TidyRun nd W robot obj assoc ops s)
    (hn : ∀ cl ∈ s.contacts, (s.contactObj cl.cid).name ≠ (s.contactObj cid).name)
    (hs : addRigidContactDefault s cid = .ok s' b) :
    ∃ w : K, 100000 * w = 1 ∧ TidyRun nd W robot obj assoc (ops ++ [.addRigidContact cid w 1 0]) s' := by
  refine ⟨1 / 100000, by norm_num, h.hygienic, h.motors, h.built, ?_, ?_⟩
  · rw [run_append _ _ _ _ h.run]
    unfold addRigidContactDefault at hs
    simp only [run, step, hs]
    rfl
  · rw [along_append _ _ _ _ h.run]
    exact ⟨h.tidy, hn, by split <;> trivial⟩

/-- A contact is added by the deprecated call. -/
example : ∃ s s' b, TidyRun false Demo.world Demo.robot Demo.contacts Demo.assoc [] s ∧ s.contacts = [] ∧
    addRigidContactDefault s 0 = .ok s' b ∧ s'.contacts.length = 1 :=
  ⟨init Demo.robot Demo.contacts Demo.assoc, _, _, ⟨Demo.hygienic, by decide, Demo.contacts_built, rfl, trivial⟩, rfl, rfl, rfl⟩

/-- The demo history respects the discipline; its problem has 7 + 7 lines. -/
example : ∃ s, TidyRun false Demo.world Demo.robot Demo.contacts Demo.assoc Demo.history s ∧
    (entries s).map (List.map Entry.name) =
      [["base-dynamics", "right_force_constraint", "joint-bounds", "torque-bounds", "left_motion_task",
        "left_force_constraint", "capture"],
       ["com", "right_motion_task", "right_force_reg_task", "force", "torque", "force-bound",
        "left_force_reg_task"]] := by
  obtain ⟨s, h, hp⟩ := Demo.tidyAfter_exists (ops := Demo.history)
    (p := fun s => decide ((entries s).map (List.map Entry.name) =
      [["base-dynamics", "right_force_constraint", "joint-bounds", "torque-bounds", "left_motion_task",
        "left_force_constraint", "capture"],
       ["com", "right_motion_task", "right_force_reg_task", "force", "torque", "force-bound",
        "left_force_reg_task"]])) (by decide +kernel)
  exact ⟨s, h, of_decide_eq_true hp⟩

/-! ## C07 -/

/-- **C07 (partial).** `nEq`/`nIn` are the numbers of rows of the equalities/inequalities of level 0, as long as
no force task of level 0 has been removed.  Missing: removal of such a force task, for which the claim is false
(`C07_counters_wrong`). -/
theorem C07_counters_partial {nd : Bool} {W : World} {robot : Robot K} {obj : Nat → Contact K}
    {assoc : Nat → String} {ops : List (Op K)} {s : State K} (h : TidyRun nd W robot obj assoc ops s)
    (hf : Along nd W (KeepsForceRows W) (init robot obj assoc) ops) :
    s.nEq = level0Rows .equality s ∧ s.nIn = level0Rows .inequality s := by
  obtain ⟨hi, hn, L, hL, hk⟩ := tidy_impl h
  obtain ⟨k1, k2⟩ := hk hf
  obtain ⟨r1, r2⟩ := level0_rows W (cnames s) (ckinds s) (L.map Prod.fst)
  have e : (entries s).headD [] = ⟨1, "base-dynamics", .equality, s.nu⟩ ::
      (L.map Prod.fst).flatMap (Item.entries W (cnames s) (ckinds s) 0) := by
    rw [entries_of_coh hi hL.coh]; rfl
  unfold level0Rows
  rw [e]
  simp only [List.filter_cons, decide_true, if_true, List.map_cons, List.sum_cons, r1, reduceCtorEq, decide_false,
    Bool.false_eq_true, if_false, r2, List.map_map]
  simp only [add_zero] at k1 k2
  refine ⟨?_, ?_⟩
  · rw [k1]; push_cast; rfl
  · rw [k2]; rfl

/-- The hypotheses are met by the demo history, with 9 rows of equalities and 17 of inequalities. -/
example : ∃ s, TidyRun false Demo.world Demo.robot Demo.contacts Demo.assoc Demo.history s ∧
    Along false Demo.world (KeepsForceRows Demo.world) (init Demo.robot Demo.contacts Demo.assoc) Demo.history ∧
    s.nEq = 9 ∧ s.nIn = 17 := by
  obtain ⟨s, h, hp⟩ := Demo.tidyAfter_exists (ops := Demo.history)
    (p := fun s => decide (s.nEq = 9 ∧ s.nIn = 17)) (by decide +kernel)
  refine ⟨s, h, ?_, of_decide_eq_true hp⟩
  exact Demo.alongCheck_spec (g := fun s o => match o with
    | .removeTask _ => s.forces.isEmpty
    | _ => true) (fun s o ho => by
      cases o <;> simp only [KeepsForceRows]
      simp only [List.isEmpty_iff] at ho
      simp [ho]) _ _ (by decide +kernel)

/-- **C07 is false in general**: after adding and removing a force task of level 0, `nEq` is too large. -/
theorem C07_counters_wrong : ∃ (ops : List (Op ℚ)) (s : State ℚ),
    TidyRun false Demo.world Demo.robot Demo.contacts Demo.assoc ops s ∧ s.nEq ≠ level0Rows .equality s := by
  obtain ⟨s, h, hp⟩ := Demo.tidyAfter_exists (ops := [.addForceTask 3 1 0 0, .removeTask "force"])
    (p := fun s => decide (s.nEq ≠ level0Rows .equality s)) (by decide +kernel)
  exact ⟨_, s, h, of_decide_eq_true hp⟩

/-! ## C08 -/

/-- **C08 (partial).** Additions at levels 0 and 1 put one line with the given weight at the requested level.
Missing: levels of at least 2, for which every addition is undefined behaviour (`C08_higher_levels`). -/
theorem C08_addition_partial {nd : Bool} {W : World} {s : State K} (h : Reachable nd W s) {p : Nat} (hp : p < 2) :
    (∀ fam tid (w dur : K), 0 ≤ w → 0 ≤ dur → ∃ s', addCall W s fam tid w p dur = .ok s' true ∧
      entries s' = (entries s).modify p (fun l =>
        l ++ [⟨w, (W.task tid).cname, entryKind (W.task tid).kind, (W.task tid).rows⟩])) ∧
    (∀ cid (wf wm : K), ∃ s', addRigidContact s cid wf wm p = .ok s' true ∧
      entries s' = (((entries s).modify p (fun l => l ++
        [⟨wm, (s.contactObj cid).name ++ "_motion_task", .equality, Contact.kindMotion (s.contactObj cid).kind⟩])).modify 0
        (fun l => l ++ [⟨1, (s.contactObj cid).name ++ "_force_constraint", .inequality,
          Contact.kindIneqRows (s.contactObj cid).kind⟩])).modify 1
        (fun l => l ++ [⟨wf, (s.contactObj cid).name ++ "_force_reg_task", .equality,
          Contact.kindRegRows (s.contactObj cid).kind⟩])) := by
  have hi := reachable_inv h
  refine ⟨?_, fun cid wf wm => addRigidContact_entries hi hp⟩
  intro fam tid w dur hw hd
  cases ha : addTask W s tid w p with
  | none => exact absurd ((addTask_none_iff hi.pre.len).1 ha) (by omega)
  | some r =>
    obtain ⟨s1, id⟩ := r
    have he := addTask_entries hi ha
    cases fam with
    | motion =>
      exact ⟨{ s1 with motions := s1.motions ++ [⟨tid, p, id⟩] },
        by simp only [addCall, addMotionTask, if_pos hw, if_pos hd, ha], he⟩
    | force =>
      exact ⟨{ s1 with forces := s1.forces ++ [⟨tid, p, id⟩] },
        by simp only [addCall, addForceTask, if_pos hw, if_pos hd, ha], he⟩
    | actuation =>
      exact ⟨{ s1 with acts := s1.acts ++ [⟨tid, p, id⟩] },
        by simp only [addCall, addActuationTask, if_pos hw, if_pos hd, ha], he⟩

/-- **C08 is false for higher levels**: in every reachable state, adding anything at a level of at least 2 is
undefined behaviour (the hierarchy is not grown far enough). -/
theorem C08_higher_levels {nd : Bool} {W : World} {s : State K} (h : Reachable nd W s) {p : Nat} (hp : 2 ≤ p) :
    (∀ fam tid (w dur : K), 0 ≤ w → 0 ≤ dur → addCall W s fam tid w p dur = .ub) ∧
    (∀ cid (wf wm : K), addRigidContact s cid wf wm p = .ub) := by
  have hi := reachable_inv h
  constructor
  · intro fam tid w dur hw hd
    have ha : addTask W s tid w p = none := (addTask_none_iff hi.pre.len).2 hp
    cases fam
    · simp only [addCall, addMotionTask, if_pos hw, if_pos hd, ha]
    · simp only [addCall, addForceTask, if_pos hw, if_pos hd, ha]
    · simp only [addCall, addActuationTask, if_pos hw, if_pos hd, ha]
  · intro cid wf wm
    unfold addRigidContact
    dsimp only
    have : pushLevel (resizeHqpData { s with k := s.k + (s.contactObj cid).nForce }).hqp p
        (wm, (resizeHqpData { s with k := s.k + (s.contactObj cid).nForce }).next) = none := by
      unfold pushLevel
      rw [if_neg]
      show ¬ p < s.hqp.length
      have := hi.pre.len
      omega
    rw [this]

/-! ## C09 -/

/-- **C09.** Adding a task throws exactly when the weight or the transition duration is negative, and then
nothing at all has changed. -/
theorem C09_rejected_additions (W : World) (s : State K) (fam : Family) (tid p : Nat) (w dur : K) :
    ((∃ s', addCall W s fam tid w p dur = .throw s') ↔ w < 0 ∨ dur < 0) ∧
    (∀ s', addCall W s fam tid w p dur = .throw s' → s' = s) := by
  have key : ∀ r : Res (State K) Bool, (∀ s', r ≠ .throw s') →
      ((∃ s', (if 0 ≤ w then if 0 ≤ dur then r else .throw s else .throw s) = Res.throw s') ↔ w < 0 ∨ dur < 0) ∧
      (∀ s', (if 0 ≤ w then if 0 ≤ dur then r else .throw s else .throw s) = Res.throw s' → s' = s) := by
    intro r hr
    by_cases hw : 0 ≤ w
    · by_cases hd : 0 ≤ dur
      · simp only [if_pos hw, if_pos hd]
        refine ⟨⟨fun ⟨s', h⟩ => absurd h (hr s'), ?_⟩, fun s' h => absurd h (hr s')⟩
        rintro (h | h)
        · exact absurd h (not_lt.2 hw)
        · exact absurd h (not_lt.2 hd)
      · simp only [if_pos hw, if_neg hd]
        exact ⟨⟨fun _ => .inr (not_le.1 hd), fun _ => ⟨s, rfl⟩⟩, fun s' h => by cases h; rfl⟩
    · simp only [if_neg hw]
      exact ⟨⟨fun _ => .inl (not_le.1 hw), fun _ => ⟨s, rfl⟩⟩, fun s' h => by cases h; rfl⟩
  cases fam
  · exact key _ (by intro s' h; split at h <;> cases h)
  · exact key _ (by intro s' h; split at h <;> cases h)
  · exact key _ (by intro s' h; split at h <;> cases h)

/-! ## C10 -/

/-- **C10 (partial), tasks.** Adding a task with a fresh name and removing it restores the problem and all
registrations, and the counters unless it is a force task of level 0.  Missing: the counters in that case
(`C10_counters_wrong`). -/
theorem C10_task_round_trip_partial {nd : Bool} {W : World} {robot : Robot K} {obj : Nat → Contact K}
    {assoc : Nat → String} {ops : List (Op K)} {s s1 : State K} (h : TidyRun nd W robot obj assoc ops s)
    {fam : Family} {tid p : Nat} {w dur : K} {b : Bool}
    (hf : ∀ tl ∈ s.motions ++ (s.forces ++ s.acts), (W.task tl.tid).name ≠ (W.task tid).name)
    (ha : addCall W s fam tid w p dur = .ok s1 b) :
    ∃ s2, removeTask nd W s1 (W.task tid).name = .ok s2 true ∧ entries s2 = entries s ∧ nVar s2 = nVar s ∧
      s2.motions = s.motions ∧ s2.forces = s.forces ∧ s2.acts = s.acts ∧ s2.contacts = s.contacts ∧
      s2.measured = s.measured ∧
      (¬ (fam = .force ∧ p = 0) → s2.nEq = s.nEq ∧ s2.nIn = s.nIn) := by
  obtain ⟨hi, -, L, hL, -⟩ := tidy_impl h
  have hc := hL.coh
  have hw := h.hygienic
  obtain ⟨-, hA⟩ := addCall_coh hi hc hf ha
  obtain ⟨o, ho⟩ := addCall_step (nd := nd) ha
  have hi1 := (step_keeps hi o ho).1
  have hreg : ∃ x ∈ L ++ [((.task fam tid p w : Item K), s.next, 0, 0)], x.1.isTask W (W.task tid).name = true :=
    ⟨_, List.mem_append_right _ (List.mem_singleton.2 rfl), by simp [Item.isTask]⟩
  obtain ⟨s2, hr⟩ := removeTask_ok (nd := nd) hw hi1 hA.coh hreg
  obtain ⟨c1, -, c3, c4⟩ := removeTask_coh hw hi1 hA.coh (hw tid).2 hr
  have hi2 : Formulation.Inv W s2 := (step_keeps (nd := nd) hi1 (.removeTask (W.task tid).name)
    (by simp [step, void, hr, Res.state?])).1
  have hold : ∀ x ∈ L, x.1.isTask W (W.task tid).name = false := by
    intro x hx
    rw [Bool.eq_false_iff]
    intro hn
    obtain ⟨it, i⟩ := x
    cases it with
    | contact _ _ _ _ => simp [Item.isTask] at hn
    | task g tid' p' w' =>
      simp only [Item.isTask, beq_iff_eq] at hn
      apply hf ⟨tid', p', i.1⟩ _ hn
      have hm : (⟨tid', p', i.1⟩ : TaskLevel) ∈ L.filterMap (taskOf g) :=
        List.mem_filterMap.2 ⟨_, hx, by simp [taskOf]⟩
      cases g with
      | motion => exact List.mem_append_left _ (hc.motions ▸ hm)
      | force => exact List.mem_append_right _ (List.mem_append_left _ (hc.forces ▸ hm))
      | actuation => exact List.mem_append_right _ (List.mem_append_right _ (hc.acts ▸ hm))
  have hL' : (L ++ [((.task fam tid p w : Item K), s.next, 0, 0)]).filter
      (fun x => !x.1.isTask W (W.task tid).name) = L := by
    rw [List.filter_append, not_reserved_filter_self hold]
    simp [Item.isTask]
  rw [hL'] at c1 c4
  have hrest : SameRest s s2 := by
    obtain ⟨a1, a2, a3, a4, a5, a6, a7⟩ := hA.rest
    obtain ⟨b1, b2, b3, b4, b5, b6, b7⟩ := c3
    exact ⟨b1.trans a1, b2.trans a2, b3.trans a3, b4.trans a4, b5.trans a5, b6.trans a6, b7.trans a7⟩
  have hsame := sameItems hi hi2 hc c1 hrest
  refine ⟨s2, hr, hsame.entries, ?_, hsame.motions, hsame.forces, hsame.acts, hsame.contacts, hrest.measured, ?_⟩
  · unfold nVar; rw [hsame.k, hrest.nv]
  · intro hnf
    obtain ⟨o, ho⟩ := count_exists W s L
    refine count_same hrest.names ho (c4 o (hA.count o ho) ?_)
    intro tl htl hn hp
    apply hnf
    have htl' := htl
    rw [hA.coh.forces, List.filterMap_append] at htl'
    rcases List.mem_append.1 htl' with hm | hm
    · obtain ⟨w', b', c', h1, h2⟩ := exists_isTask hm hn
      rw [hold _ h1] at h2
      cases h2
    · obtain ⟨x, hx, e⟩ := List.mem_filterMap.1 hm
      rw [List.mem_singleton] at hx
      subst hx
      simp only [taskOf, Option.ite_none_right_eq_some, Option.some.injEq] at e
      obtain ⟨e1, rfl⟩ := e
      exact ⟨e1, hp⟩

/-- **C10, contacts.** Adding a contact with a fresh name and removing it at once restores the problem, all
registrations, the slices of the other contacts and the counters. -/
theorem C10_contact_round_trip {nd : Bool} {W : World} {robot : Robot K} {obj : Nat → Contact K}
    {assoc : Nat → String} {ops : List (Op K)} {s s1 : State K} (h : TidyRun nd W robot obj assoc ops s)
    {cid p : Nat} {wf wm dur : K} {b : Bool}
    (hf : ∀ cl ∈ s.contacts, (s.contactObj cl.cid).name ≠ (s.contactObj cid).name)
    (ha : addRigidContact s cid wf wm p = .ok s1 b) (hd : dur ≤ 0) :
    ∃ s2, removeRigidContact nd s1 (s.contactObj cid).name dur = .ok s2 true ∧ entries s2 = entries s ∧
      nVar s2 = nVar s ∧ s2.motions = s.motions ∧ s2.forces = s.forces ∧ s2.acts = s.acts ∧
      s2.contacts = s.contacts ∧ s2.measured = s.measured ∧ s2.nEq = s.nEq ∧ s2.nIn = s.nIn := by
  obtain ⟨hi, -, L, hL, -⟩ := tidy_impl h
  have hc := hL.coh
  have hw := h.hygienic
  obtain ⟨-, hc1, hr1, hk1⟩ := addRigidContact_coh hi hc hf ha
  have hi1 : Formulation.Inv W s1 := (step_keeps (nd := nd) hi (.addRigidContact cid wf wm p)
    (by simp [step, void, ha, Res.state?])).1
  have hreg : ∃ x ∈ L ++ [((.contact cid p wm wf : Item K), s.next, s.next + 1, s.next + 2)],
      x.1.isContact (cnames s1) (s.contactObj cid).name = true :=
    ⟨_, List.mem_append_right _ (List.mem_singleton.2 rfl), by
      rw [hr1.names.names]; simp [Item.isContact, cnames]⟩
  obtain ⟨s2, hr⟩ := removeContactNow_ok (nd := nd) hw hi1 hc1 hreg
  obtain ⟨c1, -, c3, c4⟩ := removeContactNow_coh hw hi1 hc1 hr
  have hrun : removeRigidContact nd s1 (s.contactObj cid).name dur = .ok s2 true := by
    unfold removeRigidContact
    rw [if_neg (not_lt.2 hd), hr]
  have hi2 : Formulation.Inv W s2 := (step_keeps (nd := nd) hi1 (.removeRigidContact (s.contactObj cid).name dur)
    (by simp [step, void, hrun, Res.state?])).1
  have hold : ∀ x ∈ L, x.1.isContact (cnames s) (s.contactObj cid).name = false := by
    intro x hx
    rw [Bool.eq_false_iff]
    intro hn
    obtain ⟨it, a, b, c⟩ := x
    cases it with
    | task _ _ _ _ => simp [Item.isContact] at hn
    | contact cid' p' wm' wf' =>
      simp only [Item.isContact, beq_iff_eq] at hn
      obtain ⟨cl, hcl, e, -⟩ := mem_contactOf hc hx
      exact hf cl hcl (by rw [e]; exact hn)
  have hL' : (L ++ [((.contact cid p wm wf : Item K), s.next, s.next + 1, s.next + 2)]).filter
      (fun x => !x.1.isContact (cnames s1) (s.contactObj cid).name) = L := by
    rw [hr1.names.names, List.filter_append, List.filter_eq_self.2 (fun x hx => by rw [hold x hx]; rfl)]
    simp [Item.isContact, cnames]
  rw [hL'] at c1 c4
  have hrest : SameRest s s2 := by
    obtain ⟨a1, a2, a3, a4, a5, a6, a7⟩ := hr1
    obtain ⟨b1, b2, b3, b4, b5, b6, b7⟩ := c3
    exact ⟨b1.trans a1, b2.trans a2, b3.trans a3, b4.trans a4, b5.trans a5, b6.trans a6, b7.trans a7⟩
  have hsame := sameItems hi hi2 hc c1 hrest
  obtain ⟨o, ho⟩ := count_exists W s L
  obtain ⟨n1, n2⟩ := count_same hrest.names ho (c4 o (hk1 o ho))
  refine ⟨s2, hrun, hsame.entries, ?_, hsame.motions, hsame.forces, hsame.acts, hsame.contacts, hrest.measured, n1, n2⟩
  unfold nVar; rw [hsame.k, hrest.nv]

/-- The hypotheses of both round trips are met after part of the demo history. -/
example : ∃ s, TidyRun false Demo.world Demo.robot Demo.contacts Demo.assoc (Demo.history.take 11) s ∧
    (∀ tl ∈ s.motions ++ (s.forces ++ s.acts), (Demo.world.task tl.tid).name ≠ (Demo.world.task 5).name) ∧
    (addCall Demo.world s .motion 5 1 0 0).val? = some true ∧
    (∀ cl ∈ s.contacts, (s.contactObj cl.cid).name ≠ (s.contactObj 0).name) ∧
    (addRigidContact s 0 1 1 0).val? = some true ∧ s.contacts.length = 1 := by
  obtain ⟨s, h, hp⟩ := Demo.tidyAfter_exists (ops := Demo.history.take 11)
    (p := fun s => decide (
      (∀ tl ∈ s.motions ++ (s.forces ++ s.acts), (Demo.world.task tl.tid).name ≠ (Demo.world.task 5).name) ∧
      (addCall Demo.world s .motion 5 1 0 0).val? = some true ∧
      (∀ cl ∈ s.contacts, (s.contactObj cl.cid).name ≠ (s.contactObj 0).name) ∧
      (addRigidContact s 0 1 1 0).val? = some true ∧ s.contacts.length = 1)) (by decide +kernel)
  exact ⟨s, h, of_decide_eq_true hp⟩

/-- **C10 is false for the counters of force tasks of level 0.** -/
theorem C10_counters_wrong : ∃ (s s1 s2 : State ℚ),
    TidyRun false Demo.world Demo.robot Demo.contacts Demo.assoc [] s ∧
    addCall Demo.world s .force 3 1 0 0 = .ok s1 true ∧ removeTask false Demo.world s1 "force" = .ok s2 true ∧
    s2.nEq ≠ s.nEq := by
  obtain ⟨s, h, hp⟩ := Demo.tidyAfter_exists (ops := [])
    (p := fun s => match addCall Demo.world s .force 3 1 0 0 with
      | .ok s1 true => match removeTask false Demo.world s1 "force" with
        | .ok s2 true => decide (s2.nEq ≠ s.nEq)
        | _ => false
      | _ => false) (by decide +kernel)
  split at hp
  · next s1 h1 =>
    split at hp
    · next s2 h2 => exact ⟨s, s1, s2, h, h1, h2, of_decide_eq_true hp⟩
    · cases hp
  · cases hp

/-! ## C11 -/

/-- What `removeTask` returns, in every state. -/
theorem removeTask_result {nd : Bool} {W : World} {s s' : State K} {n : String} {b : Bool}
    (h : removeTask nd W s n = .ok s' b) :
    b = true ↔ ∃ tl ∈ s.motions ++ (s.forces ++ s.acts), (W.task tl.tid).name = n := by
  unfold removeTask at h
  dsimp only at h
  have m1 : (removeFromHqpData s n).1.motions = s.motions := rfl
  have m2 : (removeFromHqpData s n).1.forces = s.forces := rfl
  have m3 : (removeFromHqpData s n).1.acts = s.acts := rfl
  rw [m1, m2, m3] at h
  split at h
  · cases h
  · split at h
    · next l hl =>
      cases h
      have h1 := List.mem_of_find?_eq_some hl
      have h2 := List.find?_some hl
      simp only [beq_iff_eq] at h2
      exact ⟨fun _ => ⟨l, List.mem_append_left _ h1, h2⟩, fun _ => rfl⟩
    · next hl =>
      split at h
      · next ha =>
        cases h
        obtain ⟨l, h1, h2⟩ := List.any_eq_true.1 ha
        simp only [beq_iff_eq] at h2
        exact ⟨fun _ => ⟨l, List.mem_append_right _ (List.mem_append_left _ h1), h2⟩, fun _ => rfl⟩
      · next ha =>
        split at h
        · next l hl2 =>
          cases h
          have h1 := List.mem_of_find?_eq_some hl2
          have h2 := List.find?_some hl2
          simp only [beq_iff_eq] at h2
          exact ⟨fun _ => ⟨l, List.mem_append_right _ (List.mem_append_right _ h1), h2⟩, fun _ => rfl⟩
        · next hl2 =>
          cases h
          refine ⟨fun h => (by cases h), ?_⟩
          rintro ⟨tl, htl, hn⟩
          exfalso
          rcases List.mem_append.1 htl with h1 | h1
          · exact List.find?_eq_none.1 hl tl h1 (by simp [hn])
          · rcases List.mem_append.1 h1 with h2 | h2
            · exact ha (List.any_eq_true.2 ⟨tl, h2, by simp [hn]⟩)
            · exact List.find?_eq_none.1 hl2 tl h2 (by simp [hn])

/-- **C11 (partial), tasks.** For tidy histories: removing a registered task returns `true` and takes away
exactly its line; if no such task is registered, the call never returns `true`, and changes nothing (in a build
with assertions it aborts) unless the name is reserved.  Missing: histories that register two tasks of the same
name, for which the claim is false (`C11_duplicate_names`); a reserved name deletes an entry of the formulation
itself (`C11_removeTask_base_dynamics`). -/
theorem C11_removeTask_partial {nd : Bool} {W : World} {robot : Robot K} {obj : Nat → Contact K}
    {assoc : Nat → String} {ops : List (Op K)} {s : State K} (h : TidyRun nd W robot obj assoc ops s) (n : String) :
    let r := registrations nd W robot obj assoc ops
    ((∃ it ∈ r.items, it.isTask W n = true) → ∃ s', removeTask nd W s n = .ok s' true ∧
      entries s' = Registry.problem W (fun c => (obj c).name) (fun c => (obj c).kind) (robot.nv - robot.na)
        { r with items := r.items.filter fun it => !it.isTask W n } ∧
      s'.motions = s.motions.filter (fun tl => !((W.task tl.tid).name == n)) ∧
      s'.forces = s.forces.filter (fun tl => !((W.task tl.tid).name == n)) ∧
      s'.acts = s.acts.filter (fun tl => !((W.task tl.tid).name == n)) ∧
      s'.contacts = s.contacts ∧ nVar s' = nVar s ∧ s'.measured = s.measured) ∧
    ((¬ ∃ it ∈ r.items, it.isTask W n = true) →
      (∀ s', removeTask nd W s n ≠ .ok s' true) ∧
      (¬ Reserved n → removeTask nd W s n = if nd = true then .ok s false else .abort)) := by
  intro r
  obtain ⟨hi, hnm, L, hL, -⟩ := tidy_impl h
  have hc := hL.coh
  have hw := h.hygienic
  have hreg : (∃ it ∈ r.items, it.isTask W n = true) ↔ ∃ x ∈ L, x.1.isTask W n = true := by
    rw [← hL.items]
    constructor
    · rintro ⟨it, hit, h⟩
      obtain ⟨x, hx, rfl⟩ := List.mem_map.1 hit
      exact ⟨x, hx, h⟩
    · rintro ⟨x, hx, h⟩
      exact ⟨x.1, List.mem_map.2 ⟨x, hx, rfl⟩, h⟩
  rw [hreg]
  constructor
  · intro hex
    obtain ⟨s', hs'⟩ := removeTask_ok (nd := nd) hw hi hc hex
    have hr : ¬ Reserved n := by
      obtain ⟨⟨it, i⟩, -, hn⟩ := hex
      cases it with
      | contact _ _ _ _ => simp [Item.isTask] at hn
      | task fam tid p w =>
        simp only [Item.isTask, beq_iff_eq] at hn
        exact hn ▸ (hw tid).2
    obtain ⟨c1, -, c3, -⟩ := removeTask_coh hw hi hc hr hs'
    have hi' : Formulation.Inv W s' := (step_keeps (nd := nd) hi (.removeTask n)
      (by simp [step, void, hs', Res.state?])).1
    have ht := hi'.tiled
    rw [c3.obj] at ht
    obtain ⟨u1, u2⟩ := tiled_unique s.contactObj _ _ _ _ _ ht hi.tiled (by
      rw [c1.contacts, hc.contacts, contactOf_filter_task])
    refine ⟨s', hs', ?_, ?_, ?_, ?_, u1, ?_, c3.measured⟩
    · have e1 : cnames s' = fun c => (obj c).name := c3.names.names.trans hnm.names
      have e2 : ckinds s' = fun c => (obj c).kind := c3.names.kinds.trans hnm.kinds
      have e3 : s'.nu = robot.nv - robot.na := c3.nu.trans hnm.nu
      rw [entries_of_coh hi' c1, map_fst_filter (fun it => !it.isTask W n), hL.items, e1, e2, e3]
      rfl
    · rw [c1.motions, hc.motions, taskOf_filter]; rfl
    · rw [c1.forces, hc.forces, taskOf_filter]; rfl
    · rw [c1.acts, hc.acts, taskOf_filter]; rfl
    · unfold nVar; rw [u2, c3.nv]
  · intro hex
    refine ⟨?_, fun hr => removeTask_missing hw hi hc hr hex⟩
    intro s' hs'
    obtain ⟨tl, htl, hn⟩ := (removeTask_result hs').1 rfl
    apply hex
    have hn' : levelNamed W n tl = true := by simp [levelNamed, hn]
    rcases List.mem_append.1 htl with h1 | h1
    · obtain ⟨w, b, c, q1, q2⟩ := exists_isTask (hc.motions ▸ h1) hn'
      exact ⟨_, q1, q2⟩
    · rcases List.mem_append.1 h1 with h1 | h1
      · obtain ⟨w, b, c, q1, q2⟩ := exists_isTask (hc.forces ▸ h1) hn'
        exact ⟨_, q1, q2⟩
      · obtain ⟨w, b, c, q1, q2⟩ := exists_isTask (hc.acts ▸ h1) hn'
        exact ⟨_, q1, q2⟩

/-- **C11 (partial), contacts.** For tidy histories: removing a registered contact at once returns `true` and
takes away exactly its lines; a contact that is not registered is never reported as removed, and nothing changes
(in a build with assertions the call aborts); a removal with a positive transition duration leaves the problem
as it is.  Missing: histories with two contacts of the same name. -/
theorem C11_removeRigidContact_partial {nd : Bool} {W : World} {robot : Robot K} {obj : Nat → Contact K}
    {assoc : Nat → String} {ops : List (Op K)} {s : State K} (h : TidyRun nd W robot obj assoc ops s) (n : String)
    (dur : K) :
    let r := registrations nd W robot obj assoc ops
    let nm := fun c => (obj c).name
    (dur ≤ 0 → (∃ it ∈ r.items, it.isContact nm n = true) → ∃ s', removeRigidContact nd s n dur = .ok s' true ∧
      entries s' = Registry.problem W nm (fun c => (obj c).kind) (robot.nv - robot.na)
        { r with items := r.items.filter fun it => !it.isContact nm n } ∧
      s'.motions = s.motions ∧ s'.forces = s.forces ∧ s'.acts = s.acts ∧
      s'.contacts.map (fun c => (c.cid, c.motion, c.force, c.reg)) =
        (s.contacts.filter fun c => !((s.contactObj c.cid).name == n)).map (fun c => (c.cid, c.motion, c.force, c.reg)) ∧
      s'.measured = s.measured) ∧
    (dur ≤ 0 → (¬ ∃ it ∈ r.items, it.isContact nm n = true) →
      removeRigidContact nd s n dur = if nd = true then .ok s false else .abort) ∧
    (0 < dur → ∀ s' b, removeRigidContact nd s n dur = .ok s' b →
      (b = true ↔ ∃ it ∈ r.items, it.isContact nm n = true) ∧ s' = { s with trans := s'.trans }) := by
  intro r nm
  obtain ⟨hi, hnm, L, hL, -⟩ := tidy_impl h
  have hc := hL.coh
  have hw := h.hygienic
  have hcn : cnames s = nm := hnm.names
  have hreg : (∃ it ∈ r.items, it.isContact nm n = true) ↔ ∃ x ∈ L, x.1.isContact (cnames s) n = true := by
    rw [← hL.items, hcn]
    constructor
    · rintro ⟨it, hit, h⟩
      obtain ⟨x, hx, rfl⟩ := List.mem_map.1 hit
      exact ⟨x, hx, h⟩
    · rintro ⟨x, hx, h⟩
      exact ⟨x.1, List.mem_map.2 ⟨x, hx, rfl⟩, h⟩
  rw [hreg]
  refine ⟨?_, ?_, ?_⟩
  · intro hd hex
    obtain ⟨s', hs'⟩ := removeContactNow_ok (nd := nd) hw hi hc hex
    obtain ⟨c1, -, c3, -⟩ := removeContactNow_coh hw hi hc hs'
    have hrun : removeRigidContact nd s n dur = .ok s' true := by
      unfold removeRigidContact
      rw [if_neg (not_lt.2 hd), hs']
    have hi' : Formulation.Inv W s' := (step_keeps (nd := nd) hi (.removeRigidContact n dur)
      (by simp [step, void, hrun, Res.state?])).1
    refine ⟨s', hrun, ?_, ?_, ?_, ?_, ?_, c3.measured⟩
    · have e1 : cnames s' = nm := c3.names.names.trans hnm.names
      have e2 : ckinds s' = fun c => (obj c).kind := c3.names.kinds.trans hnm.kinds
      have e3 : s'.nu = robot.nv - robot.na := c3.nu.trans hnm.nu
      rw [entries_of_coh hi' c1, map_fst_filter (fun it => !it.isContact (cnames s) n), hL.items, e1, e2, e3, hcn]
      rfl
    · rw [c1.motions, hc.motions, taskOf_filter_contact]
    · rw [c1.forces, hc.forces, taskOf_filter_contact]
    · rw [c1.acts, hc.acts, taskOf_filter_contact]
    · show s'.contacts.map strip = _
      rw [c1.contacts, contactOf_filter, ← hc.contacts, List.filter_map]
      rfl
  · intro hd hex
    unfold removeRigidContact
    rw [if_neg (not_lt.2 hd)]
    exact removeContactNow_missing hw hi hc hex
  · intro hd s' b hs'
    have hf := contact_find hc n
    have hiff : (∃ x ∈ L, x.1.isContact (cnames s) n = true) ↔
        (((L.map Prod.fst).filterMap Item.cid?).find? (fun c => cnames s c == n)).isSome = true := by
      rw [List.find?_isSome]
      constructor
      · rintro ⟨⟨it, i⟩, hx, hn⟩
        cases it with
        | task _ _ _ _ => simp [Item.isContact] at hn
        | contact cid p wm wf =>
          exact ⟨cid, List.mem_filterMap.2 ⟨_, List.mem_map.2 ⟨_, hx, rfl⟩, rfl⟩, hn⟩
      · rintro ⟨cid, hcid, hn⟩
        obtain ⟨it, hit, e⟩ := List.mem_filterMap.1 hcid
        obtain ⟨⟨it', i⟩, hx, rfl⟩ := List.mem_map.1 hit
        refine ⟨_, hx, ?_⟩
        cases it' with
        | task _ _ _ _ => cases e
        | contact cid' p wm wf =>
          cases e
          exact hn
    rw [hiff, ← hf, Option.isSome_map]
    unfold removeRigidContact at hs'
    rw [if_pos hd] at hs'
    split at hs'
    · next hfd =>
      cases hs'
      exact ⟨by simp [hfd], rfl⟩
    · next c hfd =>
      dsimp only at hs'
      split at hs'
      · cases hs'
      · cases hs'
        exact ⟨by simp [hfd], rfl⟩

/-- The hypotheses are met by the demo history, for the task "force" and the contact "right". -/
example : ∃ s, TidyRun false Demo.world Demo.robot Demo.contacts Demo.assoc Demo.history s ∧
    (∃ s', removeTask false Demo.world s "force" = .ok s' true ∧ (entries s').map List.length = [7, 6]) ∧
    (∃ s', removeRigidContact false s "right" 0 = .ok s' true ∧ (entries s').map List.length = [6, 5]) ∧
    (∃ s', removeRigidContact false s "right" 1 = .ok s' true) := by
  obtain ⟨s, h, hp⟩ := Demo.tidyAfter_exists (ops := Demo.history)
    (p := fun s => (match removeTask false Demo.world s "force" with
        | .ok s' true => decide ((entries s').map List.length = [7, 6])
        | _ => false) && (match removeRigidContact false s "right" 0 with
        | .ok s' true => decide ((entries s').map List.length = [6, 5])
        | _ => false) && (match removeRigidContact false s "right" 1 with
        | .ok _ true => true
        | _ => false)) (by decide +kernel)
  simp only [Bool.and_eq_true] at hp
  obtain ⟨⟨h1, h2⟩, h3⟩ := hp
  refine ⟨s, h, ?_, ?_, ?_⟩
  · split at h1
    · next s' e => exact ⟨s', e, of_decide_eq_true h1⟩
    · cases h1
  · split at h2
    · next s' e => exact ⟨s', e, of_decide_eq_true h2⟩
    · cases h2
  · split at h3
    · next s' e => exact ⟨s', e⟩
    · cases h3

/-- **C11 is false with duplicate names**: the task "com" is added at level 1 and again at level 0; removing it
takes away the line of the second addition but the registration of the first, and `true` is returned. -/
theorem C11_duplicate_names : ∃ (s s' : State ℚ), Reachable false Demo.world s ∧
    s.motions.map TaskLevel.prio = [1, 0] ∧ removeTask false Demo.world s "com" = .ok s' true ∧
    s'.motions.map TaskLevel.prio = [0] ∧
    (entries s').map (List.map Entry.name) = [["base-dynamics"], ["com"]] := by
  obtain ⟨s, -, h, hp⟩ := Demo.afterRun_exists (ops := [.addMotionTask 0 1 1 0, .addMotionTask 0 1 0 0])
    (p := fun s => decide (s.motions.map TaskLevel.prio = [1, 0]) &&
      match removeTask false Demo.world s "com" with
      | .ok s' true => decide (s'.motions.map TaskLevel.prio = [0] ∧
        (entries s').map (List.map Entry.name) = [["base-dynamics"], ["com"]])
      | _ => false) (by decide +kernel)
  simp only [Bool.and_eq_true] at hp
  obtain ⟨h1, h2⟩ := hp
  split at h2
  · next s' e => exact ⟨s, s', h, of_decide_eq_true h1, e, of_decide_eq_true h2⟩
  · cases h2

/-- **Removing the task "base-dynamics"** deletes the base dynamics from the problem of every tidy history, and
returns `false`. -/
theorem C11_removeTask_base_dynamics {nd : Bool} {W : World} {robot : Robot K} {obj : Nat → Contact K}
    {assoc : Nat → String} {ops : List (Op K)} {s : State K} (h : TidyRun nd W robot obj assoc ops s) :
    ∃ s', removeTask nd W s "base-dynamics" = .ok s' false ∧
      entries s' = (entries s).modify 0 List.tail := by
  obtain ⟨hi, -, L, hL, -⟩ := tidy_impl h
  have hc := hL.coh
  have hw := h.hygienic
  have hrem := removeFromHqpData_eq (names_nodup hw hi hc) "base-dynamics"
  rw [(any_named_iff hw hi hc "base-dynamics").2 (.inl rfl)] at hrem
  have hno : ∀ tl ∈ s.motions ++ (s.forces ++ s.acts), (W.task tl.tid).name ≠ "base-dynamics" := by
    intro tl _ e
    exact (hw tl.tid).2 (.inl e)
  obtain ⟨s', b, hs'⟩ : ∃ s' b, removeTask nd W s "base-dynamics" = .ok s' b := by
    unfold removeTask
    simp only [hrem, Bool.not_true, Bool.false_and, Bool.false_eq_true, if_false]
    split
    · exact ⟨_, _, rfl⟩
    · split
      · exact ⟨_, _, rfl⟩
      · split <;> exact ⟨_, _, rfl⟩
  have hb : b = false := by
    rw [Bool.eq_false_iff]
    intro hb
    obtain ⟨tl, h1, h2⟩ := (removeTask_result hs').1 hb
    exact hno tl h1 h2
  subst hb
  refine ⟨s', hs', ?_⟩
  have hs2 : s' = { s with hqp := s.hqp.map (List.filter fun e => !named s.heap "base-dynamics" e) } := by
    have f1 : s.motions.find? (fun l => (W.task l.tid).name == "base-dynamics") = none :=
      List.find?_eq_none.2 fun tl htl => by simp [hno tl (List.mem_append_left _ htl)]
    have f2 : s.forces.any (fun l => (W.task l.tid).name == "base-dynamics") = false :=
      List.any_eq_false.2 fun tl htl => by
        simp [hno tl (List.mem_append_right _ (List.mem_append_left _ htl))]
    have f3 : s.acts.find? (fun l => (W.task l.tid).name == "base-dynamics") = none :=
      List.find?_eq_none.2 fun tl htl => by
        simp [hno tl (List.mem_append_right _ (List.mem_append_right _ htl))]
    unfold removeTask at hs'
    simp only [hrem, Bool.not_true, Bool.false_and, Bool.false_eq_true, if_false, f1, f2, f3] at hs'
    cases hs'
    rfl
  have hbase : named s.heap "base-dynamics" (1, s.baseId) = true := by
    simp [named, hi.pre.baseName]
  have hnd := names_nodup hw hi hc
  have hother : ∀ e ∈ L.flatMap (ents 0) ++ L.flatMap (ents 1), named s.heap "base-dynamics" e = false := by
    intro e he
    rw [Bool.eq_false_iff]
    intro hn
    rw [hc.hqp] at hnd
    simp only [List.flatten_cons, List.flatten_nil, List.append_nil, List.cons_append, List.map_cons,
      List.nodup_cons] at hnd
    apply hnd.1
    refine List.mem_map.2 ⟨e, he, ?_⟩
    simp only [named, beq_iff_eq] at hn
    simp only [entryName]
    rw [hn, hi.pre.baseName]
  have g0 : (L.flatMap (ents 0)).filter (fun e => !named s.heap "base-dynamics" e) = L.flatMap (ents 0) :=
    List.filter_eq_self.2 fun e he => by rw [hother e (List.mem_append_left _ he)]; rfl
  have g1 : (L.flatMap (ents 1)).filter (fun e => !named s.heap "base-dynamics" e) = L.flatMap (ents 1) :=
    List.filter_eq_self.2 fun e he => by rw [hother e (List.mem_append_right _ he)]; rfl
  rw [hs2]
  unfold entries
  simp only [hc.hqp, List.map_cons, List.map_nil, List.filter_cons, hbase, Bool.not_true, Bool.false_eq_true,
    if_false, g0, g1, List.modify_zero_cons, List.tail_cons]

/-! ## C12 -/

/-- Effect of the inner loop of `updateTaskWeight`. -/
theorem setWeight_result (heap : Nat → Constraint K) (n : String) (w : K) : ∀ l : List (K × Nat),
    ((setWeight heap n w l).2 = false ∧ (setWeight heap n w l).1 = l ∧ ∀ e ∈ l, (heap e.2).name ≠ n) ∨
    ((setWeight heap n w l).2 = true ∧ ∃ pre e post, l = pre ++ e :: post ∧
      (setWeight heap n w l).1 = pre ++ (w, e.2) :: post ∧ (heap e.2).name = n ∧ ∀ d ∈ pre, (heap d.2).name ≠ n)
  | [] => .inl ⟨rfl, rfl, by simp⟩
  | a :: l => by
    unfold setWeight
    by_cases ha : named heap n a = true
    · rw [if_pos ha]
      simp only [named, beq_iff_eq] at ha
      exact .inr ⟨rfl, [], a, l, rfl, rfl, ha, by simp⟩
    · rw [if_neg ha]
      simp only [named, beq_iff_eq] at ha
      rcases setWeight_result heap n w l with ⟨h1, h2, h3⟩ | ⟨h1, pre, e, post, h2, h3, h4, h5⟩
      · refine .inl ⟨h1, by simp only [h2], ?_⟩
        intro e he
        rcases List.mem_cons.1 he with rfl | he
        · exact ha
        · exact h3 e he
      · refine .inr ⟨h1, a :: pre, e, post, by rw [h2]; rfl, by simp only [h3]; rfl, h4, ?_⟩
        intro d hd
        rcases List.mem_cons.1 hd with rfl | hd
        · exact ha
        · exact h5 d hd

/-- Effect of the outer loop of `updateTaskWeight`. -/
theorem setWeightLevels_result (heap : Nat → Constraint K) (n : String) (w : K) : ∀ ls : List (List (K × Nat)),
    ((setWeightLevels heap n w ls).2 = false ∧ (setWeightLevels heap n w ls).1 = ls ∧
      ∀ l ∈ ls, ∀ e ∈ l, (heap e.2).name ≠ n) ∨
    ((setWeightLevels heap n w ls).2 = true ∧ ∃ before pre e post later,
      ls = before ++ (pre ++ e :: post) :: later ∧
      (setWeightLevels heap n w ls).1 = before ++ (pre ++ (w, e.2) :: post) :: later ∧
      (heap e.2).name = n ∧ (∀ l ∈ before, ∀ d ∈ l, (heap d.2).name ≠ n) ∧ ∀ d ∈ pre, (heap d.2).name ≠ n)
  | [] => .inl ⟨rfl, rfl, by simp⟩
  | l :: ls => by
    unfold setWeightLevels
    rcases setWeight_result heap n w l with ⟨h1, h2, h3⟩ | ⟨h1, pre, e, post, h2, h3, h4, h5⟩
    · simp only [h1, Bool.false_eq_true, if_false]
      rcases setWeightLevels_result heap n w ls with ⟨g1, g2, g3⟩ | ⟨g1, before, pre, e, post, later, g2, g3, g4, g5, g6⟩
      · refine .inl ⟨g1, by rw [g2], ?_⟩
        intro l' hl'
        rcases List.mem_cons.1 hl' with rfl | hl'
        · exact h3
        · exact g3 l' hl'
      · refine .inr ⟨g1, l :: before, pre, e, post, later, by rw [g2]; rfl, by rw [g3]; rfl, g4, ?_, g6⟩
        intro l' hl'
        rcases List.mem_cons.1 hl' with rfl | hl'
        · exact h3
        · exact g5 l' hl'
    · simp only [h1, if_true]
      exact .inr ⟨trivial, [], pre, e, post, ls, by rw [h2]; rfl, by rw [h3]; rfl, h4, by simp, h5⟩

/-- **C12.** `updateTaskWeight` never fails; it returns `true` iff an entry of that name exists above level 0; then
the weight of the first such entry, and nothing else, becomes `w`; otherwise nothing changes. -/
theorem C12_updateTaskWeight (s : State K) (n : String) (w : K) :
    ∃ s' b, updateTaskWeight s n w = .ok s' b ∧
      (b = true ↔ ∃ l ∈ (problem s).tail, ∃ e ∈ l, e.2.name = n) ∧
      (b = false → s' = s) ∧
      (b = true → ∃ l0 before pre e post later,
        s.hqp = l0 :: before ++ (pre ++ e :: post) :: later ∧
        s' = { s with hqp := l0 :: before ++ (pre ++ (w, e.2) :: post) :: later } ∧
        (s.heap e.2).name = n ∧ (∀ l ∈ before, ∀ d ∈ l, (s.heap d.2).name ≠ n) ∧
        ∀ d ∈ pre, (s.heap d.2).name ≠ n) := by
  unfold updateTaskWeight problem
  cases hq : s.hqp with
  | nil => exact ⟨s, false, rfl, by simp, fun _ => rfl, fun h => by cases h⟩
  | cons l0 ls =>
    refine ⟨_, _, rfl, ?_, ?_, ?_⟩
    · simp only [List.map_cons, List.tail_cons, List.mem_map, exists_exists_and_eq_and]
      rcases setWeightLevels_result s.heap n w ls with ⟨g1, g2, g3⟩ | ⟨g1, before, pre, e, post, later, g2, g3, g4, g5, g6⟩
      · rw [g1]
        refine ⟨fun h => (by cases h), ?_⟩
        rintro ⟨l, hl, e, he, hn⟩
        exact absurd hn (g3 l hl e he)
      · rw [g1]
        refine ⟨fun _ => ⟨pre ++ e :: post, by rw [g2]; simp, e, by simp, g4⟩, fun _ => rfl⟩
    · intro hb
      rcases setWeightLevels_result s.heap n w ls with ⟨g1, g2, g3⟩ | ⟨g1, _⟩
      · rw [g2, ← hq]
      · rw [g1] at hb; cases hb
    · intro hb
      rcases setWeightLevels_result s.heap n w ls with ⟨g1, _⟩ | ⟨g1, before, pre, e, post, later, g2, g3, g4, g5, g6⟩
      · rw [g1] at hb; cases hb
      · exact ⟨l0, before, pre, e, post, later, by rw [g2]; rfl, by rw [g3]; rfl, g4, g5, g6⟩

/-- A non-trivial case: in the demo problem the task "force" gets a new weight, "joint-bounds" (level 0) is not
found. -/
example : ∃ s, TidyRun false Demo.world Demo.robot Demo.contacts Demo.assoc Demo.history s ∧
    (∃ s', updateTaskWeight s "force" 7 = .ok s' true ∧
      ((entries s').map fun l => l.map Entry.weight) = [[1, 1, 1, 1, 1, 1, 1], [1 / 2, 1, 1 / 10, 7, 2, 1, 1 / 5]]) ∧
    (∃ s', updateTaskWeight s "joint-bounds" 7 = .ok s' false) := by
  obtain ⟨s, h, hp⟩ := Demo.tidyAfter_exists (ops := Demo.history)
    (p := fun s => (match updateTaskWeight s "force" 7 with
        | .ok s' true => decide (((entries s').map fun l => l.map Entry.weight) =
            [[1, 1, 1, 1, 1, 1, 1], [1 / 2, 1, 1 / 10, 7, 2, 1, 1 / 5]])
        | _ => false) && (match updateTaskWeight s "joint-bounds" 7 with
        | .ok _ false => true
        | _ => false)) (by decide +kernel)
  simp only [Bool.and_eq_true] at hp
  obtain ⟨h1, h2⟩ := hp
  refine ⟨s, h, ?_, ?_⟩
  · split at h1
    · next s' e => exact ⟨s', e, of_decide_eq_true h1⟩
    · cases h1
  · split at h2
    · next s' e => exact ⟨s', e⟩
    · cases h2

/-! ## C13 -/

/-- **C13 (partial).** For tidy histories `updateRigidContactWeights(n, wf, wm)` returns `true` exactly when the
contact is registered and either no motion weight is requested or its motion constraint is above level 0; if the
motion constraint is above level 0 or no motion weight is requested, exactly the requested weights change.
Missing: a requested motion weight of level 0, which is not set although the level-0 entry exists and the
regularisation weight is changed all the same (`C13_level0_motion`). -/
theorem C13_updateRigidContactWeights_partial {nd : Bool} {W : World} {robot : Robot K} {obj : Nat → Contact K}
    {assoc : Nat → String} {ops : List (Op K)} {s : State K} (h : TidyRun nd W robot obj assoc ops s) (n : String)
    (wf wm : K) :
    let r := registrations nd W robot obj assoc ops
    let nm := fun c => (obj c).name
    ∃ s' b, updateRigidContactWeights s n wf wm = .ok s' b ∧
      (b = true ↔ ∃ cid p wm0 wf0, Item.contact cid p wm0 wf0 ∈ r.items ∧ nm cid = n ∧ (wm < 0 ∨ p ≠ 0)) ∧
      ((∀ cid p wm0 wf0, Item.contact cid p wm0 wf0 ∈ r.items → nm cid = n → wm < 0 ∨ p ≠ 0) →
        entries s' = Registry.problem W nm (fun c => (obj c).kind) (robot.nv - robot.na)
          { r with items := r.items.map (Item.requestContactWeights nm n wf wm) }) := by
  intro r nm
  obtain ⟨hi, hnm, L, hL, -⟩ := tidy_impl h
  have hc := hL.coh
  have hw := h.hygienic
  have hcn : cnames s = nm := hnm.names
  obtain ⟨s', b, hs'⟩ : ∃ s' b, updateRigidContactWeights s n wf wm = .ok s' b := by
    unfold updateRigidContactWeights
    split <;> exact ⟨_, _, rfl⟩
  obtain ⟨c1, c2, c3, -⟩ := updateRigidContactWeights_coh hw hi hc hs'
  have hi' : Formulation.Inv W s' := (step_keeps (nd := nd) hi (.updateRigidContactWeights n wf wm)
    (by simp [step, void, hs', Res.state?])).1
  refine ⟨s', b, hs', ?_, ?_⟩
  · rw [c3, hcn, ← hL.items]
    constructor
    · rintro ⟨cid, p, wm0, wf0, i, hx, h2⟩
      exact ⟨cid, p, wm0, wf0, List.mem_map.2 ⟨_, hx, rfl⟩, h2⟩
    · rintro ⟨cid, p, wm0, wf0, hx, h2⟩
      obtain ⟨⟨it, i⟩, hx, e⟩ := List.mem_map.1 hx
      dsimp only at e
      subst e
      exact ⟨cid, p, wm0, wf0, i, hx, h2⟩
  · intro hreq
    have e1 : cnames s' = nm := c2.names.names.trans hnm.names
    have e2 : ckinds s' = fun c => (obj c).kind := c2.names.kinds.trans hnm.kinds
    have e3 : s'.nu = robot.nv - robot.na := c2.nu.trans hnm.nu
    have e4 : (L.map (onItem (Item.setContactWeights nm n wf wm))).map Prod.fst =
        r.items.map (Item.requestContactWeights nm n wf wm) := by
      rw [← hL.items, List.map_map, List.map_map]
      apply List.map_congr_left
      rintro ⟨it, i⟩ hx
      cases it with
      | task _ _ _ _ => rfl
      | contact cid p wm0 wf0 =>
        have := hreq cid p wm0 wf0 (hL.items ▸ List.mem_map.2 ⟨_, hx, rfl⟩)
        simp only [Function.comp_apply, onItem, Item.setContactWeights, Item.requestContactWeights]
        congr 1
        by_cases hn : nm cid = n
        · rcases this hn with hlt | hp
          · simp [hn, not_le.2 hlt]
          · simp [hn, hp]
        · simp [hn]
    rw [entries_of_coh hi' c1, e1, e2, e3, hcn, e4]
    rfl

/-- Both cases occur in the demo: contact "right" has its motion constraint at level 1, "left" at level 0. -/
example : ∃ s, TidyRun false Demo.world Demo.robot Demo.contacts Demo.assoc Demo.history s ∧
    (∃ s', updateRigidContactWeights s "right" 7 8 = .ok s' true ∧
      ((entries s').map fun l => l.map Entry.weight) = [[1, 1, 1, 1, 1, 1, 1], [1 / 2, 8, 7, 1 / 3, 2, 1, 1 / 5]]) := by
  obtain ⟨s, h, hp⟩ := Demo.tidyAfter_exists (ops := Demo.history)
    (p := fun s => (match updateRigidContactWeights s "right" 7 8 with
        | .ok s' true => decide (((entries s').map fun l => l.map Entry.weight) =
            [[1, 1, 1, 1, 1, 1, 1], [1 / 2, 8, 7, 1 / 3, 2, 1, 1 / 5]])
        | _ => false)) (by decide +kernel)
  refine ⟨s, h, ?_⟩
  split at hp
  · next s' e => exact ⟨s', e, of_decide_eq_true hp⟩
  · cases hp

/-- **C13 is false at level 0**: the requested motion weight is not set, `false` is returned, but the
regularisation weight has been changed. -/
theorem C13_level0_motion : ∃ (s s' : State ℚ),
    TidyRun false Demo.world Demo.robot Demo.contacts Demo.assoc [.addRigidContact 0 (1 / 10) 1 0] s ∧
    updateRigidContactWeights s "left" 7 8 = .ok s' false ∧
    ((entries s').map fun l => l.map Entry.weight) = [[1, 1, 1], [7]] := by
  obtain ⟨s, h, hp⟩ := Demo.tidyAfter_exists (ops := [.addRigidContact 0 (1 / 10) 1 0])
    (p := fun s => (match updateRigidContactWeights s "left" 7 8 with
        | .ok s' false => decide (((entries s').map fun l => l.map Entry.weight) = [[1, 1, 1], [7]])
        | _ => false)) (by decide +kernel)
  split at hp
  · next s' e => exact ⟨s, s', h, e, of_decide_eq_true hp⟩
  · cases hp

end Tsid.Props
