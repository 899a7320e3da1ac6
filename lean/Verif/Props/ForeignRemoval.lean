import Verif.Props.Registry
import Verif.Spec.EndToEnd

/-!
# C11, C65: what `removeTask` does to the entries that are not tasks

The formulation stores the base dynamics and the three constraints of every contact in the same lists as the tasks,
under derived names, and `removeTask` erases by name.
-/

set_option linter.unusedSectionVars false

namespace Tsid.Props

open Formulation Spec

variable {K : Type} [Field K] [LinearOrder K] [HasSqrt K]

/-- A registered contact is one of the items. -/
theorem contact_item {W : World} {s : State K} {L : List (LItem K)} (hc : Coh W s L) {cl : ContactLevel}
    (hcl : cl ∈ s.contacts) : ∃ x ∈ L, x.1.isContact (cnames s) (s.contactObj cl.cid).name = true := by
  have hcm : strip cl ∈ L.filterMap contactOf := by rw [← hc.contacts]; exact List.mem_map_of_mem hcl
  obtain ⟨⟨it, a, b, c⟩, hx, hxe⟩ := List.mem_filterMap.1 hcm
  cases it with
  | task _ _ _ _ => simp [contactOf] at hxe
  | contact cid p wm wf =>
    simp only [contactOf, strip, Option.some.injEq, Prod.mk.injEq] at hxe
    obtain ⟨rfl, -, -, -⟩ := hxe
    exact ⟨_, hx, by simp [Item.isContact, cnames]⟩

/-- No registered task has the name `n`. -/
theorem removeTask_foreign {nd : Bool} {W : World} {s : State K} {n : String}
    (hu : (s.hqp.flatten.map (entryName s.heap)).Nodup)
    (hno : ∀ tl ∈ s.motions ++ (s.forces ++ s.acts), (W.task tl.tid).name ≠ n) :
    removeTask nd W s n =
      if s.hqp.flatten.any (named s.heap n) = false ∧ nd = false then .abort
      else .ok { s with hqp := s.hqp.map (List.filter fun e => !named s.heap n e) } false := by
  have hrem := removeFromHqpData_eq hu n
  have f1 : s.motions.find? (fun l => (W.task l.tid).name == n) = none :=
    List.find?_eq_none.2 fun tl htl => by simp [hno tl (List.mem_append_left _ htl)]
  have f2 : s.forces.any (fun l => (W.task l.tid).name == n) = false :=
    List.any_eq_false.2 fun tl htl => by
      simp [hno tl (List.mem_append_right _ (List.mem_append_left _ htl))]
  have f3 : s.acts.find? (fun l => (W.task l.tid).name == n) = none :=
    List.find?_eq_none.2 fun tl htl => by
      simp [hno tl (List.mem_append_right _ (List.mem_append_right _ htl))]
  unfold removeTask
  simp only [hrem, f1, f2, f3]
  cases nd <;> cases s.hqp.flatten.any (named s.heap n) <;> rfl

/-- **C11, names that are not tasks.** After every tidy history, `removeTask` called with a name that no registered
task has: if the problem has no constraint of that name, an assertion fails or nothing happens; if it has one — the
base dynamics, or the motion, force or regularisation constraint of a contact — then exactly that constraint leaves
the problem, the call reports that nothing was removed, and everything else, the registration of the contact and the
counters included, stays as it was. -/
theorem C11_removeTask_foreign {nd : Bool} {W : World} {robot : Robot K} {obj : Nat → Contact K}
    {assoc : Nat → String} {ops : List (Op K)} {s : State K} (h : TidyRun nd W robot obj assoc ops s) (n : String)
    (hno : ∀ tl ∈ s.motions ++ (s.forces ++ s.acts), (W.task tl.tid).name ≠ n) :
    ((∀ l ∈ entries s, ∀ e ∈ l, e.name ≠ n) → removeTask nd W s n = if nd = true then .ok s false else .abort) ∧
    ((∃ l ∈ entries s, ∃ e ∈ l, e.name = n) → ∃ s', removeTask nd W s n = .ok s' false ∧
      entries s' = (entries s).map (List.filter fun e => !(e.name == n)) ∧
      (entries s').flatten.length + 1 = (entries s).flatten.length ∧
      s' = { s with hqp := s'.hqp }) := by
  obtain ⟨hi, -, L, hL, -⟩ := tidy_impl h
  have hu := names_nodup h.hygienic hi hL.coh
  have hrem := removeTask_foreign (nd := nd) hu hno
  have hany : s.hqp.flatten.any (named s.heap n) = true ↔ ∃ l ∈ entries s, ∃ e ∈ l, e.name = n := by
    rw [List.any_eq_true]
    constructor
    · rintro ⟨e, he, hn⟩
      obtain ⟨l, hl, hel⟩ := List.mem_flatten.1 he
      exact ⟨_, List.mem_map.2 ⟨l, hl, rfl⟩, _, List.mem_map.2 ⟨e, hel, rfl⟩, by simpa [named] using hn⟩
    · rintro ⟨l, hl, e, he, hn⟩
      obtain ⟨l0, hl0, rfl⟩ := List.mem_map.1 hl
      obtain ⟨e0, he0, rfl⟩ := List.mem_map.1 he
      exact ⟨e0, List.mem_flatten.2 ⟨l0, hl0, he0⟩, by simpa [named] using hn⟩
  constructor
  · intro hnone
    have hf : s.hqp.flatten.any (named s.heap n) = false := by
      rw [Bool.eq_false_iff]
      intro hh
      obtain ⟨l, hl, e, he, hn⟩ := hany.1 hh
      exact hnone l hl e he hn
    have hfilter : s.hqp.map (List.filter fun e => !named s.heap n e) = s.hqp := by
      conv_rhs => rw [← List.map_id s.hqp]
      apply List.map_congr_left
      intro l hl
      rw [List.filter_eq_self.2]
      · rfl
      · intro e he
        rw [List.any_eq_false] at hf
        have := hf e (List.mem_flatten.2 ⟨l, hl, he⟩)
        simp only [Bool.not_eq_true] at this
        simp [this]
    rw [hrem, hf, hfilter]
    cases nd <;> simp
  · intro hex
    have ht := hany.2 hex
    have hent : ∀ s' : State K, s' = { s with hqp := s.hqp.map (List.filter fun e => !named s.heap n e) } →
        entries s' = (entries s).map (List.filter fun e => !(e.name == n)) := by
      rintro s' rfl
      unfold entries
      simp only [List.map_map]
      apply List.map_congr_left
      intro l _
      simp only [Function.comp_apply, List.filter_map]
      rfl
    refine ⟨{ s with hqp := s.hqp.map (List.filter fun e => !named s.heap n e) }, by rw [hrem, ht]; simp,
      hent _ rfl, ?_, rfl⟩
    have hlen : ∀ s' : State K, (entries s').flatten.length = s'.hqp.flatten.length := by
      intro s'
      unfold entries
      rw [← List.map_flatten, List.length_map]
    rw [hlen, hlen]
    show (s.hqp.map _).flatten.length + 1 = _
    rw [filter_flatten]
    have hp : s.hqp.flatten.Pairwise (fun a b => ¬ (named s.heap n a = true ∧ named s.heap n b = true)) := by
      have := (List.pairwise_map.1 hu)
      refine this.imp ?_
      rintro a b hab ⟨ha, hb⟩
      simp only [named, beq_iff_eq] at ha hb
      exact hab (ha.trans hb.symm)
    rw [← eraseP_eq_filter _ _ hp, List.length_eraseP, ht, if_pos rfl]
    obtain ⟨e, he, -⟩ := List.any_eq_true.1 ht
    have := List.length_pos_of_mem he
    omega

/-- The constraints of a contact. -/
def contactEntry (n : String) (i : Fin 3) : String :=
  match i with
  | 0 => n ++ "_motion_task"
  | 1 => n ++ "_force_constraint"
  | 2 => n ++ "_force_reg_task"

/-- **A registered contact loses a constraint through `removeTask`.** After every tidy history and for every
registered contact: `removeTask` with the name of the contact and one of the suffixes `_motion_task`,
`_force_constraint`, `_force_reg_task` takes that one constraint out of the problem and returns `false`; the contact
stays registered and the counters of the problem's rows stay as they were.  The contact can then no longer be removed
properly: with assertions `removeRigidContact` aborts, without them it removes the contact and returns `false`. -/
theorem C11_removeTask_contact_entry {nd : Bool} {W : World} {robot : Robot K} {obj : Nat → Contact K}
    {assoc : Nat → String} {ops : List (Op K)} {s : State K} (h : TidyRun nd W robot obj assoc ops s)
    {cl : ContactLevel} (hcl : cl ∈ s.contacts) (i : Fin 3) {dur : K} (hd : dur ≤ 0) :
    let n := (s.contactObj cl.cid).name
    ∃ s', removeTask nd W s (contactEntry n i) = .ok s' false ∧
      entries s' = (entries s).map (List.filter fun e => !(e.name == contactEntry n i)) ∧
      (entries s').flatten.length + 1 = (entries s).flatten.length ∧
      s' = { s with hqp := s'.hqp } ∧
      (nd = false → removeRigidContact nd s' n dur = .abort) ∧
      (nd = true → ∃ s'', removeRigidContact nd s' n dur = .ok s'' false ∧
        ∀ c ∈ s''.contacts, (s.contactObj c.cid).name ≠ n) := by
  intro n
  obtain ⟨hi, -, L, hL, -⟩ := tidy_impl h
  have hc := hL.coh
  have hw := h.hygienic
  have hu := names_nodup hw hi hc
  obtain ⟨x, hx, hxn⟩ := contact_item hc hcl
  have hres : Reserved (contactEntry n i) := by
    refine .inr ⟨n, ?_⟩
    match i with
    | 0 => exact .inl rfl
    | 1 => exact .inr (.inl rfl)
    | 2 => exact .inr (.inr rfl)
  have hno : ∀ tl ∈ s.motions ++ (s.forces ++ s.acts), (W.task tl.tid).name ≠ contactEntry n i := by
    intro tl _ e
    exact (hw tl.tid).2 (e ▸ hres)
  have hany : s.hqp.flatten.any (named s.heap (contactEntry n i)) = true := by
    rw [any_named_iff hw hi hc]
    refine .inr ⟨x, hx, ?_⟩
    match i with
    | 0 => exact (mem_itemNames_contact hw).1.2 hxn
    | 1 => exact (mem_itemNames_contact hw).2.1.2 hxn
    | 2 => exact (mem_itemNames_contact hw).2.2.2 hxn
  have hex : ∃ l ∈ entries s, ∃ e ∈ l, e.name = contactEntry n i := by
    obtain ⟨e, he, hn⟩ := List.any_eq_true.1 hany
    obtain ⟨l, hl, hel⟩ := List.mem_flatten.1 he
    exact ⟨_, List.mem_map.2 ⟨l, hl, rfl⟩, _, List.mem_map.2 ⟨e, hel, rfl⟩, by simpa [named] using hn⟩
  obtain ⟨s', e1, e2, e3, e4⟩ := (C11_removeTask_foreign h (contactEntry n i) hno).2 hex
  have e5 := removeTask_foreign (nd := nd) hu hno
  rw [hany, e1] at e5
  simp only [Bool.true_eq_false, false_and, if_false, Res.ok.injEq, and_true] at e5
  refine ⟨s', e1, e2, e3, e4, ?_⟩
  have hq : s'.hqp = s.hqp.map (List.filter fun e => !named s.heap (contactEntry n i) e) := by rw [e5]
  have hheap : s'.heap = s.heap := by rw [e5]
  have hcs : s'.contacts = s.contacts := by rw [e5]
  have hco : s'.contactObj = s.contactObj := by rw [e5]
  have hu' : (s'.hqp.flatten.map (entryName s'.heap)).Nodup := by
    rw [hq, hheap, filter_flatten]
    exact (List.filter_sublist.map _).nodup hu
  have hgone : s'.hqp.flatten.any (named s'.heap (contactEntry n i)) = false := by
    rw [hq, hheap, filter_flatten, List.any_eq_false]
    intro e he
    have := (List.mem_filter.1 he).2
    simpa using this
  obtain ⟨r0, r1, r2, r3⟩ := removeThree hu' n
  have hall : ((removeFromHqpData s' (n ++ "_motion_task")).2 &&
      (removeFromHqpData (removeFromHqpData s' (n ++ "_motion_task")).1 (n ++ "_force_constraint")).2 &&
      (removeFromHqpData (removeFromHqpData (removeFromHqpData s' (n ++ "_motion_task")).1
        (n ++ "_force_constraint")).1 (n ++ "_force_reg_task")).2) = false := by
    rw [r1, r2, r3]
    match i, hgone with
    | 0, hgone => rw [show s'.hqp.flatten.any (named s'.heap (n ++ "_motion_task")) = false from hgone]; rfl
    | 1, hgone =>
      rw [show s'.hqp.flatten.any (named s'.heap (n ++ "_force_constraint")) = false from hgone, Bool.and_false]
      rfl
    | 2, hgone =>
      rw [show s'.hqp.flatten.any (named s'.heap (n ++ "_force_reg_task")) = false from hgone, Bool.and_false]
  have hrun : removeRigidContact nd s' n dur = removeContactNow nd s' n := by
    unfold removeRigidContact
    rw [if_neg (not_lt.2 hd)]
  rw [hrun]
  constructor
  · intro hnd
    unfold removeContactNow
    dsimp only
    split
    · rfl
    · rw [if_pos ⟨hnd, hall⟩]
  · intro hnd
    have hgo : removeContactNow nd s' n = removeContactNow nd s' n := rfl
    conv_rhs at hgo => unfold removeContactNow
    dsimp only at hgo
    rw [if_neg (by simp [hnd]), if_neg (by simp [hnd]), hall, r0] at hgo
    have hfind : (s.contacts.find? fun c => (s.contactObj c.cid).name == n) ≠ none := by
      intro hh
      exact List.find?_eq_none.1 hh cl hcl (by simp [n])
    dsimp only at hgo
    rw [hcs, hco] at hgo
    split at hgo
    · next c hf =>
      refine ⟨_, hgo, ?_⟩
      intro c' hc' hn'
      have hstrip : strip c' ∈ (reindex s.contactObj 0
          (s.contacts.eraseP fun c => (s.contactObj c.cid).name == n)).map strip :=
        List.mem_map_of_mem hc'
      rw [reindex_strip] at hstrip
      replace hstrip := (eraseP_strip hc n) ▸ hstrip
      obtain ⟨⟨it, a, b, d⟩, hy, hye⟩ := List.mem_filterMap.1 hstrip
      obtain ⟨-, hy2⟩ := List.mem_filter.1 hy
      cases it with
      | task _ _ _ _ => simp [contactOf] at hye
      | contact cid p wm wf =>
        simp only [contactOf, strip, Option.some.injEq, Prod.mk.injEq] at hye
        obtain ⟨rfl, -, -, -⟩ := hye
        simp [Item.isContact, cnames, hn'] at hy2
    · next hf => exact absurd hf hfind

/-- The hypotheses are met by the demo history and its contact "right". -/
example : ∃ s, TidyRun false Demo.world Demo.robot Demo.contacts Demo.assoc Demo.history s ∧
    (∃ cl ∈ s.contacts, (s.contactObj cl.cid).name = "right") ∧
    (∃ s', removeTask false Demo.world s "right_force_constraint" = .ok s' false ∧
      s'.contacts.length = 2 ∧ s'.nIn = s.nIn ∧ level0Rows .inequality s' + 3 = level0Rows .inequality s) := by
  obtain ⟨s, h, hp⟩ := Demo.tidyAfter_exists (ops := Demo.history)
    (p := fun s => (s.contacts.any fun cl => (s.contactObj cl.cid).name == "right") &&
      (match removeTask false Demo.world s "right_force_constraint" with
        | .ok s' false => decide (s'.contacts.length = 2 ∧ s'.nIn = s.nIn ∧
            level0Rows .inequality s' + 3 = level0Rows .inequality s)
        | _ => false)) (by decide +kernel)
  simp only [Bool.and_eq_true] at hp
  obtain ⟨h1, h2⟩ := hp
  refine ⟨s, h, ?_, ?_⟩
  · obtain ⟨cl, hcl, e⟩ := List.any_eq_true.1 h1
    exact ⟨cl, hcl, by simpa using e⟩
  · split at h2
    · next s' e => exact ⟨s', e, of_decide_eq_true h2⟩
    · cases h2

/-- Quantities of a control cycle with unit masses and no nonlinear effects. -/
def looseCycle : Cycle ℚ :=
  { Demo.cycle with
    M := Mat.identity 8
    nle := Vec.zero 8 }

/-- **C65 is false when a contact's constraint is removed as a task.** With the contact "left", whose force
components are limited to 10, `removeTask("left_force_constraint")` leaves a problem with a solution that satisfies
every constraint of level 0, the base dynamics included, and in which the still registered contact "left" carries a
force of 100. -/
theorem C65_removed_force_constraint : ∃ (s0 s : State ℚ) (l0 l1 : List (ℚ × Constraint ℚ)) (x f : Vec ℚ),
    run false Demo.world Demo.start [.addRigidContact 0 (1 / 10) 1 1, .removeTask "left_force_constraint"] = some s0 ∧
    computeProblemData false looseCycle 0 s0 = .ok s () ∧ problem s = [l0, l1] ∧
    l0.map (fun e => e.2.name) = ["base-dynamics"] ∧
    s.contacts.map (fun cl => (s.contactObj cl.cid).name) = ["left"] ∧
    x.size = nVar s ∧ Feasible l0 x ∧
    (getContactForcesOf s "left" x).val? = some f ∧ f.get 0 = 100 ∧ (s.contactObj 0).fMax = 10 ∧
    ¬ WithinLimits (s.contactObj 0) f.get := by
  obtain ⟨s0, s, h0, -, h2, h3⟩ := Demo.after_exists
    (ops := [.addRigidContact 0 (1 / 10) 1 1, .removeTask "left_force_constraint"]) (cy := looseCycle) (t := 0)
    (p := fun s => match problem s with
      | [l0, _] =>
        decide (s.contacts.map (fun cl => (s.contactObj cl.cid).name) = ["left"] ∧ 11 = nVar s ∧
          (s.contactObj 0).fMax = 10 ∧ (s.contactObj 0).kind = .twoFrames ∧ l0.map (fun e => e.2.name) = ["base-dynamics"] ∧
          ∀ e ∈ l0, e.2.kind = .equality ∧
            ∀ i, i < e.2.mat.rows → Spec.row e.2.mat (fun j => if j = 0 ∨ j = 8 then 100 else 0) i = e.2.vec i) &&
        match (getContactForcesOf s "left" ⟨11, fun j => if j = 0 ∨ j = 8 then 100 else 0⟩).val? with
        | some f => decide (f.get 0 = 100)
        | none => false
      | _ => false) (by decide +kernel)
  split at h3
  · next l0 l1 hp =>
    simp only [Bool.and_eq_true] at h3
    obtain ⟨h3, h4⟩ := h3
    obtain ⟨a1, a2, a3, a4, a5, a6⟩ := of_decide_eq_true h3
    split at h4
    · next f hf =>
      have h5 : f.get 0 = 100 := of_decide_eq_true h4
      refine ⟨s0, s, l0, l1, ⟨11, fun j => if j = 0 ∨ j = 8 then 100 else 0⟩, f, h0, h2, hp, a5, a1, a2, ?_, hf, h5, a3, ?_⟩
      · intro e he
        obtain ⟨b1, b2⟩ := a6 e he
        unfold Sat
        rw [b1]
        exact b2
      · unfold WithinLimits
        rw [a4]
        intro hw
        have := (hw 0 (by decide)).2
        rw [h5, a3] at this
        norm_num at this
    · cases h4
  · cases h3

end Tsid.Props
