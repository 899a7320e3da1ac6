import Verif.Lemmas.Transitions
import Verif.Lemmas.History
import Verif.Example.Tidy

/-!
# C19-C21, C71: what the problem of a control cycle depends on
-/

set_option linter.unusedSectionVars false

namespace Tsid.Props

open Formulation Spec

variable {K : Type} [Field K] [LinearOrder K] [HasSqrt K]

/-! ## C71 -/

/-- **C71.** After a successful control cycle, every entry of the problem (weights, names, matrices, vectors and
bounds, level by level and in order) is the one the specification `contents` derives from the registered objects,
the contact objects and the quantities of the cycle. -/
theorem C71_closed_form {nd : Bool} {W : World} {robot : Robot K} {obj : Nat → Contact K} {assoc : Nat → String}
    {ops : List (Op K)} {s0 s : State K} {cy : Cycle K} {t : K} (h : TidyRun nd W robot obj assoc ops s0)
    (hno : Along nd W NoReassociation (init robot obj assoc) ops)
    (hc : computeProblemData nd cy t s0 = .ok s ()) (hs : CycleSizes robot.nv cy) :
    let r := registrations nd W robot obj assoc ops
    let items := (r.expire (fun c => (obj c).name) t).items
    problem s = contents W ⟨robot.nv, robot.nv - robot.na, robot.mass cy.M, s.contactObj, s.assoc, cy⟩ items
      r.measured ∧
    nVar s = robot.nv + nForces s.contactObj (items.filterMap Item.cid?) := by
  intro r items
  obtain ⟨hi, hn, L, hL, -⟩ := tidy_impl h
  obtain ⟨s1, -, -, -, -, his, -⟩ := compute_spec hi hc
  have hrob : s.robot = robot := by
    have e1 : s0.robot = robot := run_robot ops _ _ h.run
    have e2 := step_robot (nd := nd) (W := W) (s := s0) (o := .compute cy t) (s' := s)
      (by simp only [step, hc]; rfl)
    exact e2.trans e1
  have hnv : s.nv = robot.nv := by rw [← his.pre.rnv, hrob]
  have hnu : s.nu = robot.nv - robot.na := by
    have x1 := his.pre.rna
    have x3 := his.pre.nuLe
    rw [hrob] at x1
    omega
  have hcn : cnames s0 = fun c => (obj c).name := hn.names
  obtain ⟨c1, c2, c3⟩ := cycle_contents h.hygienic hi hL (tidy_clean h hno) hc (by rw [hnv]; exact hs)
  rw [hcn] at c1 c3
  refine ⟨?_, ?_⟩
  · rw [c1]
    unfold envOf
    rw [hnv, hnu, hrob]
  · unfold nVar
    rw [c3, hnv]

/-! ## C21 -/

/-- **C21, partial.** Two formulations of the same robot with the same registrations, contact objects, associations and
pending contact breaks, but otherwise arbitrary pasts, return the same problem.  (Missing: histories that re-associate
a registered force task, see `C21_reassociation`.) -/
theorem C21_memoryless_partial {nd : Bool} {W : World} {robot : Robot K} {obj obj' : Nat → Contact K}
    {assoc assoc' : Nat → String} {ops ops' : List (Op K)} {s0 s u0 u : State K} {cy : Cycle K} {t : K}
    (h : TidyRun nd W robot obj assoc ops s0) (h' : TidyRun nd W robot obj' assoc' ops' u0)
    (hno : Along nd W NoReassociation (init robot obj assoc) ops)
    (hno' : Along nd W NoReassociation (init robot obj' assoc') ops')
    (hitems : (registrations nd W robot obj assoc ops).items = (registrations nd W robot obj' assoc' ops').items)
    (hmeas : (registrations nd W robot obj assoc ops).measured =
      (registrations nd W robot obj' assoc' ops').measured)
    (hobj : s0.contactObj = u0.contactObj) (hassoc : s0.assoc = u0.assoc) (htrans : s0.trans = u0.trans)
    (hc : computeProblemData nd cy t s0 = .ok s ()) (hc' : computeProblemData nd cy t u0 = .ok u ())
    (hs : CycleSizes robot.nv cy) :
    problem s = problem u ∧ nVar s = nVar u := by
  obtain ⟨hi, hn, L, hL, -⟩ := tidy_impl h
  obtain ⟨hi', hn', L', hL', -⟩ := tidy_impl h'
  obtain ⟨a1, a2⟩ := C71_closed_form h hno hc hs
  obtain ⟨b1, b2⟩ := C71_closed_form h' hno' hc' hs
  have hr : s0.robot = u0.robot := (run_robot ops _ _ h.run).trans (run_robot ops' _ _ h'.run).symm
  have he := compute_env hi hi' hobj htrans hassoc hr hc hc'
  have eo : s.contactObj = u.contactObj := congrArg Env.obj he
  have ea : s.assoc = u.assoc := congrArg Env.assoc he
  have hnm : (fun c => (obj c).name) = fun c => (obj' c).name := by
    have e1 : cnames s0 = fun c => (obj c).name := hn.names
    have e2 : cnames u0 = fun c => (obj' c).name := hn'.names
    rw [← e1, ← e2]
    unfold cnames
    rw [hobj]
  have hbr : (registrations nd W robot obj assoc ops).breaking =
      (registrations nd W robot obj' assoc' ops').breaking := by
    rw [← hL.breaking, ← hL'.breaking, htrans]
  have hexp : ((registrations nd W robot obj assoc ops).expire (fun c => (obj c).name) t).items =
      ((registrations nd W robot obj' assoc' ops').expire (fun c => (obj' c).name) t).items := by
    unfold Registry.expire
    rw [hbr, hnm]
    split
    · exact hitems
    · simp only [hitems]
  rw [a1, b1, a2, b2, eo, ea, hmeas, hexp]
  exact ⟨rfl, rfl⟩

/-- Histories with the same registrations and associations; in the second the force task has been computed before it
was associated with "left". -/
def freshAssociation : List (Op ℚ) :=
  [.addRigidContact 0 1 1 0, .addRigidContact 1 1 1 0, .setAssociated 3 "left", .addForceTask 3 1 1 0]
def changedAssociation : List (Op ℚ) :=
  [.addRigidContact 0 1 1 0, .addRigidContact 1 1 1 0, .addForceTask 3 1 1 0, .compute Demo.cycle 0, .setAssociated 3 "left"]

/-- C21 is false after a re-association: the columns of the former contact are still in the problem. -/
theorem C21_reassociation : ∃ s0 s u0 u : State ℚ,
    TidyRun false Demo.world Demo.robot Demo.contacts Demo.assoc freshAssociation s0 ∧
    TidyRun false Demo.world Demo.robot Demo.contacts Demo.assoc changedAssociation u0 ∧
    (registrations false Demo.world Demo.robot Demo.contacts Demo.assoc freshAssociation).items =
      (registrations false Demo.world Demo.robot Demo.contacts Demo.assoc changedAssociation).items ∧
    (registrations false Demo.world Demo.robot Demo.contacts Demo.assoc freshAssociation).measured =
      (registrations false Demo.world Demo.robot Demo.contacts Demo.assoc changedAssociation).measured ∧
    s0.contactObj = u0.contactObj ∧ s0.assoc = u0.assoc ∧ s0.trans = u0.trans ∧
    computeProblemData false Demo.cycle 1 s0 = .ok s () ∧ computeProblemData false Demo.cycle 1 u0 = .ok u () ∧
    problem s ≠ problem u := by
  have e : ∀ ops ∈ [freshAssociation, changedAssociation],
      (run false Demo.world Demo.start ops).map (fun s => (s.contactObj, s.assoc, s.trans)) =
        some (Demo.contacts, Function.update Demo.assoc 3 "left", []) := by
    intro ops h
    simp only [List.mem_cons, List.not_mem_nil, or_false] at h
    rcases h with rfl | rfl <;> rfl
  obtain ⟨s0, s, h, hc, hp⟩ := Demo.tidyCycle_exists (ops := freshAssociation) (cy := Demo.cycle) (t := 1)
    (p := fun _ s => decide (((problem s).getD 1 []).getLast?.map (fun e => e.2.mat 1 12) = some 0)) (by decide +kernel)
  obtain ⟨u0, u, h', hc', hp'⟩ := Demo.tidyCycle_exists (ops := changedAssociation) (cy := Demo.cycle) (t := 1)
    (p := fun _ s => decide (((problem s).getD 1 []).getLast?.map (fun e => e.2.mat 1 12) = some 2)) (by decide +kernel)
  have g := e freshAssociation (by simp)
  have g' := e changedAssociation (by simp)
  rw [show run false Demo.world Demo.start freshAssociation = some s0 from h.run] at g
  rw [show run false Demo.world Demo.start changedAssociation = some u0 from h'.run] at g'
  simp only [Option.map_some, Option.some.injEq, Prod.mk.injEq] at g g'
  refine ⟨s0, s, u0, u, h, h', rfl, rfl, g.1.trans g'.1.symm, g.2.1.trans g'.2.1.symm, g.2.2.trans g'.2.2.symm, hc, hc', ?_⟩
  intro hsame
  have k := of_decide_eq_true hp
  have k' := of_decide_eq_true hp'
  rw [hsame, k'] at k
  exact absurd k (by decide)

/-- **C21, repeated calls.** As long as no pending contact break is over, calling `computeProblemData` again with the
same inputs returns the same problem. -/
theorem C21_repeat {nd : Bool} {W : World} {robot : Robot K} {obj : Nat → Contact K} {assoc : Nat → String}
    {ops : List (Op K)} {s0 s s' : State K} {cy : Cycle K} {t : K} (h : TidyRun nd W robot obj assoc ops s0)
    (hno : Along nd W NoReassociation (init robot obj assoc) ops) (hw : ∀ tr ∈ s0.trans, t ≤ tr.tEnd)
    (hc : computeProblemData nd cy t s0 = .ok s ()) (hc' : computeProblemData nd cy t s = .ok s' ())
    (hs : CycleSizes robot.nv cy) :
    problem s' = problem s ∧ nVar s' = nVar s ∧ s'.contactObj = s.contactObj ∧ s'.trans = s.trans := by
  have hst : (step nd W s0 (.compute cy t)).state? = some s := by simp only [step, hc]; rfl
  have hrun : run nd W (init robot obj assoc) (ops ++ [.compute cy t]) = some s := by
    rw [run_append _ _ _ _ h.run]; simp only [run, hst]
  have h2 : TidyRun nd W robot obj assoc (ops ++ [.compute cy t]) s := by
    refine ⟨h.hygienic, h.motors, h.built, hrun, (along_append _ _ _ _ h.run).2 ⟨h.tidy, trivial, ?_⟩⟩
    rw [hst]; trivial
  have hno2 : Along nd W NoReassociation (init robot obj assoc) (ops ++ [.compute cy t]) := by
    refine (along_append _ _ _ _ h.run).2 ⟨hno, trivial, ?_⟩
    rw [hst]; trivial
  obtain ⟨a1, a2⟩ := C71_closed_form h hno hc hs
  obtain ⟨b1, b2⟩ := C71_closed_form h2 hno2 hc' hs
  obtain ⟨hi, -, L, hL, -⟩ := tidy_impl h
  -- the registrations are the same
  have hnone : ∀ l : List (K × Nat), (∀ b ∈ l, t ≤ b.1) → l.find? (fun b => decide (b.1 < t)) = none := by
    intro l hl
    rw [List.find?_eq_none]
    intro b hb
    simpa using hl b hb
  have hbr : ∀ b ∈ (registrations nd W robot obj assoc ops).breaking, t ≤ b.1 := by
    intro b hb
    rw [← hL.breaking] at hb
    obtain ⟨tr, htr, rfl⟩ := List.mem_map.1 hb
    exact hw tr htr
  have hreg : registrations nd W robot obj assoc (ops ++ [.compute cy t]) =
      { registrations nd W robot obj assoc ops with time := t } := by
    have hthr : (step nd W s0 (.compute cy t)).threw = false := by simp only [step, hc]; rfl
    have : registrations nd W robot obj assoc (ops ++ [.compute cy t]) =
        (registrations nd W robot obj assoc ops).next W (fun c => (obj c).name) false (.compute cy t) := by
      unfold registrations Registry.after
      rw [outcomes_append _ _ _ _ h.run, List.foldl_append]
      simp only [outcomes, hst, hthr, List.foldl_cons, List.foldl_nil]
    rw [this]
    generalize registrations nd W robot obj assoc ops = r at hbr
    simp only [Registry.next, Bool.false_eq_true, if_false]
    unfold Registry.expire
    rw [hnone _ hbr]
  have hexp1 : ((registrations nd W robot obj assoc ops).expire (fun c => (obj c).name) t).items =
      (registrations nd W robot obj assoc ops).items := by
    unfold Registry.expire; rw [hnone _ hbr]
  have hexp2 : ((registrations nd W robot obj assoc (ops ++ [.compute cy t])).expire (fun c => (obj c).name) t).items =
      (registrations nd W robot obj assoc ops).items := by
    rw [hreg]
    unfold Registry.expire
    simp only
    rw [hnone _ hbr]
  have hmeas : (registrations nd W robot obj assoc (ops ++ [.compute cy t])).measured =
      (registrations nd W robot obj assoc ops).measured := by rw [hreg]
  -- the contact objects are the same
  obtain ⟨s1, k1, k2⟩ := compute_ok hc
  obtain ⟨u1, l1, l2⟩ := compute_ok hc'
  obtain ⟨w1, w2⟩ := runTransitions_window_ok _ _ _ _ (by exact hw) k1
  rw [runTransitions_window _ _ _ w1 w2] at k1
  simp only [Res.ok.injEq, and_true] at k1
  have f1 := assemble_frame k2
  have o1 : s.contactObj = boundedObj s0.trans t s0.contactObj := by rw [f1.obj, ← k1]
  have t1 : s.trans = s0.trans := by rw [f1.trans, ← k1]
  have as1 : s.assoc = s0.assoc := by rw [f1.assoc, ← k1]
  obtain ⟨v1, v2⟩ := runTransitions_window_ok _ _ _ _ (by rw [t1]; exact hw) l1
  rw [runTransitions_window _ _ _ v1 v2] at l1
  simp only [Res.ok.injEq, and_true] at l1
  have f2 := assemble_frame l2
  have o2 : s'.contactObj = s.contactObj := by
    rw [f2.obj, ← l1]
    simp only
    rw [t1, o1, boundedObj_idem]
  have t2 : s'.trans = s.trans := by rw [f2.trans, ← l1]
  have as2 : s'.assoc = s.assoc := by rw [f2.assoc, ← l1]
  rw [a1, b1, a2, b2, hexp1, hexp2, hmeas, o2, as2]
  exact ⟨rfl, rfl, rfl, t2⟩

/-- The demo history is repeated without change, and two different pasts (a removal and a re-insertion, or none) lead
to the same problem. -/
example : ∃ s0 s s' : State ℚ, TidyRun false Demo.world Demo.robot Demo.contacts Demo.assoc Demo.history s0 ∧
    Along false Demo.world NoReassociation (init Demo.robot Demo.contacts Demo.assoc) Demo.history ∧
    (∀ tr ∈ s0.trans, (5 : ℚ) ≤ tr.tEnd) ∧ computeProblemData false Demo.cycle 5 s0 = .ok s () ∧
    computeProblemData false Demo.cycle 5 s = .ok s' () ∧ CycleSizes 8 Demo.cycle := by
  obtain ⟨s0, s, h, hc, hp⟩ := Demo.tidyCycle_exists (ops := Demo.history) (cy := Demo.cycle) (t := 5)
    (p := fun s0 s => s0.trans.isEmpty && (computeProblemData false Demo.cycle 5 s).isOk) (by decide +kernel)
  simp only [Bool.and_eq_true, List.isEmpty_iff] at hp
  cases hc' : computeProblemData false Demo.cycle 5 s with
  | ok s' u =>
    exact ⟨s0, s, s', h, Demo.alongCheck_spec (fun _ _ => Demo.noReassociation_spec) _ _ (by decide +kernel),
      by simp [hp.1], hc, hc', Demo.cycle_sizes⟩
  | throw s' => rw [hc'] at hp; exact absurd hp.2 (by simp [Res.isOk])
  | abort => rw [hc'] at hp; exact absurd hp.2 (by simp [Res.isOk])
  | ub => rw [hc'] at hp; exact absurd hp.2 (by simp [Res.isOk])

/-! ## C20 -/

/-- **C20.** After every history followed by a successful control cycle, the external force is the sum of the joint
torques of exactly the measured forces registered by the history, and the base dynamics uses it; the decoded torques
use it as well (`C01_equations_of_motion`), and so do the actuation tasks (`C71_closed_form`). -/
theorem C20_external_force {nd : Bool} {W : World} {robot : Robot K} {obj : Nat → Contact K}
    {assoc : Nat → String} {ops : List (Op K)} {s0 s : State K} {cy : Cycle K} {t : K} (hna : robot.na ≤ robot.nv)
    (hobj : ∀ cid, ∃ name kind points normal mu fMin fMax, obj cid = Contact.new name kind points normal mu fMin fMax)
    (hrun : run nd W (init robot obj assoc) ops = some s0) (hc : computeProblemData nd cy t s0 = .ok s ()) :
    s.measured = measuredAfter W ops [] ∧
    (∀ i, s.hfext i = (((measuredAfter W ops []).map cy.torque).map fun v => v i).sum) ∧
    (s.heap s.baseId).kind = .equality ∧
    (∀ i, (s.heap s.baseId).vec i =
      -(cy.nle i - (((measuredAfter W ops []).map cy.torque).map fun v => v i).sum)) := by
  have hi : Formulation.Inv W s0 := reachable_inv ⟨robot, obj, assoc, ops, hna, hobj, hrun⟩
  have hm0 : s0.measured = measuredAfter W ops [] := run_measured ops _ _ hrun
  obtain ⟨s1, k1, k2⟩ := compute_ok hc
  have hi1 := (runTransitions_keeps (nd := nd) _ _ _ s1
    (keeps_misc hi t s0.measured s0.trans s0.decoded s0.dv s0.f s0.tau).1 (by rw [k1]; rfl)).1
  have hA := assemble_spec hi1.pre k2
  have hm1 : s1.measured = measuredAfter W ops [] := by
    rw [← hm0]
    exact runTransitions_measured _ _ { s0 with t := t } s1 (by rw [k1]; rfl)
  obtain ⟨e1, e2⟩ := assembled_env hi1 hA
  have e := hA.eq
  have eb : s.baseId = s1.baseId := by rw [e]
  have em : s.measured = s1.measured := by rw [e]
  have hb := hA.base
  unfold baseCell at hb
  rw [Option.bind_eq_some_iff] at hb
  obtain ⟨A1, hA1, hb⟩ := hb
  rw [Option.map_eq_some_iff] at hb
  obtain ⟨A2, hA2, hb⟩ := hb
  refine ⟨em.trans hm1, ?_, ?_, ?_⟩
  · intro i; rw [e2, hm1]
  · rw [eb, ← hb]; exact hi1.pre.baseKind
  · intro i
    rw [eb, ← hb, e2, hm1]
    rfl

/-- **C20, order.** The order of the measured forces is irrelevant for every entry of the problem. -/
theorem C20_order {W : World} (e : Env K) (items : List (Item K)) {m m' : List Nat} (h : m.Perm m') :
    contents W e items m = contents W e items m' := by
  have hb : bias e m = bias e m' := by
    funext i
    unfold bias
    rw [((h.map e.cy.torque).map fun t => t i).sum_eq]
  have hbase : ∀ cids, baseConstraint e cids m = baseConstraint e cids m' := by
    intro cids; unfold baseConstraint; rw [hb]
  have hact : ∀ cids, actConstraint e cids m = actConstraint e cids m' := by
    intro cids; unfold actConstraint; rw [hb]
  have htask : ∀ cids, taskConstraint W e cids m = taskConstraint W e cids m' := by
    intro cids; unfold taskConstraint; rw [hact]
  have hl : ∀ cids lvl, Item.lines W e cids m lvl = Item.lines W e cids m' lvl := by
    intro cids lvl
    funext it
    cases it <;> simp only [Item.lines, htask]
  unfold contents
  simp only [hbase, hl]

/-- **C20, removal.** `removeMeasuredForce` returns true iff a force of that name is registered, removes the first of
them and changes nothing else. -/
theorem C20_removal (W : World) (s : State K) (n : String) :
    ∃ b, removeMeasuredForce W s n =
      .ok { s with measured := s.measured.eraseP fun m => W.mfName m == n } b ∧
    (b = true ↔ ∃ m ∈ s.measured, W.mfName m = n) ∧
    (b = true → (s.measured.eraseP fun m => W.mfName m == n).length + 1 = s.measured.length) := by
  unfold removeMeasuredForce
  by_cases h : ∃ m ∈ s.measured, W.mfName m = n
  · refine ⟨true, ?_, by simp [h], ?_⟩
    · rw [if_pos (by simpa using h)]
    · intro _
      obtain ⟨m, hm, hn⟩ := h
      have := List.length_eraseP_of_mem (p := fun m => W.mfName m == n) hm (by simpa using hn)
      have := List.length_pos_of_mem hm
      omega
  · refine ⟨false, ?_, by simp [h], by simp⟩
    rw [if_neg (by simpa using h)]
    have : s.measured.eraseP (fun m => W.mfName m == n) = s.measured := by
      apply List.eraseP_of_forall_not
      intro m hm hn
      exact h ⟨m, hm, by simpa using hn⟩
    rw [this]

/-- In the demo history two measured forces act. -/
example : ∃ s0 s : State ℚ, run false Demo.world Demo.start Demo.history = some s0 ∧
    computeProblemData false Demo.cycle 5 s0 = .ok s () ∧ measuredAfter Demo.world Demo.history [] = [0, 1] ∧
    s.hfext 4 = 4 * 1 + 4 * 2 := by
  obtain ⟨s0, s, h, -, hc, hp⟩ := Demo.after_exists (ops := Demo.history) (cy := Demo.cycle) (t := 5)
    (p := fun s => decide (s.hfext 4 = 4 * 1 + 4 * 2)) (by decide +kernel)
  exact ⟨s0, s, h, hc, by decide +kernel, of_decide_eq_true hp⟩

/-! ## C19 -/

theorem addOp_next {nd : Bool} {W : World} {s s' : State K} {fam : Family} {tid p : Nat} {w dur : K}
    (nm : Nat → String) (r : Registry K) (hs : (step nd W s (addOp fam tid w p dur)).state? = some s') :
    r.next W nm (step nd W s (addOp fam tid w p dur)).threw (addOp fam tid w p dur) =
      { r with items := r.items ++ if 0 ≤ w ∧ 0 ≤ dur then [.task fam tid p w] else [] } ∧ Frame s s' := by
  have hp : Plain (addOp fam tid w p dur) := by cases fam <;> trivial
  refine ⟨?_, step_frame hp hs⟩
  have hthr : (step nd W s (addOp fam tid w p dur)).threw = !decide (0 ≤ w ∧ 0 ≤ dur) := by
    cases fam <;> simp only [addOp, step, addMotionTask, addForceTask, addActuationTask] at hs ⊢ <;>
    · by_cases h1 : 0 ≤ w
      · by_cases h2 : 0 ≤ dur
        · simp only [h1, h2, if_true] at hs ⊢
          split
          · next h => rw [h] at hs; cases hs
          · rfl
        · simp [h2, void, Res.threw]
      · simp [h1, void, Res.threw]
  rw [hthr]
  cases fam <;> simp only [addOp, Registry.next] <;> by_cases h : 0 ≤ w ∧ 0 ≤ dur <;> simp [h]

/-- Permuted registrations with the contacts in the same order give the same levels up to a permutation. -/
theorem C19_permuted {W : World} (e : Env K) {items items' : List (Item K)} (measured : List Nat)
    (h : items.Perm items') (hc : items.filterMap Item.cid? = items'.filterMap Item.cid?) :
    List.Forall₂ List.Perm (contents W e items measured) (contents W e items' measured) := by
  unfold contents
  simp only [hc]
  refine List.Forall₂.cons ?_ (List.Forall₂.cons ?_ List.Forall₂.nil)
  · exact (h.flatMap_right _).cons _
  · exact h.flatMap_right _

theorem feasible_perm {l l' : List (K × Constraint K)} (h : l.Perm l') (x : Nat → K) :
    (Feasible l x ↔ Feasible l' x) ∧ cost l x = cost l' x := by
  constructor
  · unfold Feasible
    constructor
    · intro hl e he; exact hl e (h.mem_iff.2 he)
    · intro hl e he; exact hl e (h.mem_iff.1 he)
  · unfold cost
    exact (h.map _).sum_eq

/-- **C19.** Registering two tasks in either order gives the same problem up to a permutation of the entries of each
level: same variables, same feasible points, same cost. -/
theorem C19_task_order {nd : Bool} {W : World} {robot : Robot K} {obj : Nat → Contact K} {assoc : Nat → String}
    {ops : List (Op K)} {s0 s u0 u : State K} {cy : Cycle K} {t : K} {f1 f2 : Family} {tid1 tid2 p1 p2 : Nat}
    {w1 w2 d1 d2 : K}
    (h : TidyRun nd W robot obj assoc (ops ++ [addOp f1 tid1 w1 p1 d1, addOp f2 tid2 w2 p2 d2]) s0)
    (h' : TidyRun nd W robot obj assoc (ops ++ [addOp f2 tid2 w2 p2 d2, addOp f1 tid1 w1 p1 d1]) u0)
    (hno : Along nd W NoReassociation (init robot obj assoc) ops)
    (hc : computeProblemData nd cy t s0 = .ok s ()) (hc' : computeProblemData nd cy t u0 = .ok u ())
    (hs : CycleSizes robot.nv cy) :
    nVar s = nVar u ∧ List.Forall₂ List.Perm (problem s) (problem u) ∧
    ∀ (i : Nat) (x : Nat → K), (Feasible ((problem s).getD i []) x ↔ Feasible ((problem u).getD i []) x) ∧
      cost ((problem s).getD i []) x = cost ((problem u).getD i []) x := by
  obtain ⟨v, hv, r1, -, e1⟩ := tidy_append h
  obtain ⟨v', hv', r2, -, e2⟩ := tidy_append h'
  have hvv : v' = v := by
    have := hv.run.symm.trans hv'.run
    simpa using this.symm
  subst hvv
  have key : ∀ {fa fb : Family} {ta tb pa pb : Nat} {wa wb da db : K} {z : State K},
      run nd W v' [addOp fa ta wa pa da, addOp fb tb wb pb db] = some z → ∀ r : Registry K,
      (r.after W (fun c => (obj c).name) (outcomes nd W v' [addOp fa ta wa pa da, addOp fb tb wb pb db]) =
        { r with items := (r.items ++ if 0 ≤ wa ∧ 0 ≤ da then [.task fa ta pa wa] else []) ++
          if 0 ≤ wb ∧ 0 ≤ db then [.task fb tb pb wb] else [] }) ∧ z.contactObj = v'.contactObj ∧
      z.assoc = v'.assoc ∧ z.trans = v'.trans ∧
      Along nd W NoReassociation v' [addOp fa ta wa pa da, addOp fb tb wb pb db] := by
    intro fa fb ta tb pa pb wa wb da db z hz r
    simp only [run] at hz
    split at hz
    · next z1 hz1 =>
      split at hz
      · next z2 hz2 =>
        simp only [Option.some.injEq] at hz
        subst hz
        obtain ⟨a1, a2⟩ := addOp_next (fun c => (obj c).name) r hz1
        obtain ⟨b1, b2⟩ := addOp_next (fun c => (obj c).name)
          { r with items := r.items ++ if 0 ≤ wa ∧ 0 ≤ da then [.task fa ta pa wa] else [] } hz2
        refine ⟨?_, b2.obj.trans a2.obj, b2.assoc.trans a2.assoc, b2.trans.trans a2.trans, ?_⟩
        · simp only [outcomes, hz1, hz2, Registry.after, List.foldl_cons, List.foldl_nil, a1, b1]
        · have hn : ∀ (q : State K) (f : Family) (a b : Nat) (c d : K), NoReassociation q (addOp f a c b d) := by
            intro q f a b c d; cases f <;> trivial
          refine ⟨hn _ _ _ _ _ _, ?_⟩
          rw [hz1]
          refine ⟨hn _ _ _ _ _ _, ?_⟩
          rw [hz2]
          trivial
      · cases hz
    · cases hz
  obtain ⟨i1, o1, a1, t1, n1⟩ := key r1 (registrations nd W robot obj assoc ops)
  obtain ⟨i2, o2, a2, t2, n2⟩ := key r2 (registrations nd W robot obj assoc ops)
  rw [i1] at e1
  rw [i2] at e2
  obtain ⟨c1, c2⟩ := C71_closed_form h ((along_append _ _ _ _ hv.run).2 ⟨hno, n1⟩) hc hs
  obtain ⟨c1', c2'⟩ := C71_closed_form h' ((along_append _ _ _ _ hv.run).2 ⟨hno, n2⟩) hc' hs
  obtain ⟨hi, -⟩ := tidy_impl h
  obtain ⟨hi', -⟩ := tidy_impl h'
  have hr : s0.robot = u0.robot := (run_robot _ _ _ h.run).trans (run_robot _ _ _ h'.run).symm
  have he := compute_env hi hi' (o1.trans o2.symm) (t1.trans t2.symm) (a1.trans a2.symm) hr hc hc'
  have eo : s.contactObj = u.contactObj := congrArg Env.obj he
  have ea : s.assoc = u.assoc := congrArg Env.assoc he
  -- the items after the cycle
  have hcid : ∀ (f : Family) (tid p : Nat) (w : K) (c : Prop) [Decidable c],
      (if c then [Item.task f tid p w] else []).filterMap Item.cid? = [] := by
    intro f tid p w c _; split <;> rfl
  have hperm : ∀ (l x y : List (Item K)), (l ++ x ++ y).Perm (l ++ y ++ x) := by
    intro l x y
    rw [List.append_assoc, List.append_assoc]
    exact List.perm_append_comm.append_left l
  have hkeep : ∀ (f : Family) (tid p : Nat) (w : K) (c : Prop) [Decidable c] (m : String),
      (if c then [Item.task f tid p w] else []).filter (fun it => !it.isContact (fun c => (obj c).name) m) =
        (if c then [Item.task f tid p w] else []) := by
    intro f tid p w c _ m; split <;> rfl
  have hitems : ((registrations nd W robot obj assoc (ops ++ [addOp f1 tid1 w1 p1 d1, addOp f2 tid2 w2 p2 d2])).expire
        (fun c => (obj c).name) t).items.Perm
      ((registrations nd W robot obj assoc (ops ++ [addOp f2 tid2 w2 p2 d2, addOp f1 tid1 w1 p1 d1])).expire
        (fun c => (obj c).name) t).items ∧
      ((registrations nd W robot obj assoc (ops ++ [addOp f1 tid1 w1 p1 d1, addOp f2 tid2 w2 p2 d2])).expire
        (fun c => (obj c).name) t).items.filterMap Item.cid? =
      ((registrations nd W robot obj assoc (ops ++ [addOp f2 tid2 w2 p2 d2, addOp f1 tid1 w1 p1 d1])).expire
        (fun c => (obj c).name) t).items.filterMap Item.cid? := by
    rw [e1, e2]
    unfold Registry.expire
    simp only
    split
    · refine ⟨hperm _ _ _, ?_⟩
      simp only [List.filterMap_append, hcid, List.append_nil]
    · refine ⟨(hperm _ _ _).filter _, ?_⟩
      simp only [List.filter_append, List.filterMap_append, hkeep, hcid, List.append_nil]
  have hmeas : (registrations nd W robot obj assoc
        (ops ++ [addOp f1 tid1 w1 p1 d1, addOp f2 tid2 w2 p2 d2])).measured =
      (registrations nd W robot obj assoc
        (ops ++ [addOp f2 tid2 w2 p2 d2, addOp f1 tid1 w1 p1 d1])).measured := by
    rw [e1, e2]
  have hp : List.Forall₂ List.Perm (problem s) (problem u) := by
    rw [c1, c1', eo, ea, hmeas]
    exact C19_permuted _ _ hitems.1 hitems.2
  refine ⟨by rw [c2, c2', eo, hitems.2], hp, ?_⟩
  intro i x
  apply feasible_perm
  generalize problem s = A at hp
  generalize problem u = B at hp
  clear hc hc'
  induction hp generalizing i with
  | nil => exact List.Perm.refl _
  | cons hab _ ih =>
    cases i with
    | zero => exact hab
    | succ i => exact ih i

/-- Two orders of a motion task and an actuation bound after two contacts. -/
example : ∃ s0 s u0 u : State ℚ,
    TidyRun false Demo.world Demo.robot Demo.contacts Demo.assoc
      ([.addRigidContact 0 1 1 0, .addRigidContact 3 1 1 1] ++ [addOp .motion 0 1 0 0, addOp .actuation 2 1 0 0]) s0 ∧
    TidyRun false Demo.world Demo.robot Demo.contacts Demo.assoc
      ([.addRigidContact 0 1 1 0, .addRigidContact 3 1 1 1] ++ [addOp .actuation 2 1 0 0, addOp .motion 0 1 0 0]) u0 ∧
    computeProblemData false Demo.cycle 5 s0 = .ok s () ∧ computeProblemData false Demo.cycle 5 u0 = .ok u () ∧
    (problem s).map (List.map fun e => e.2.name) ≠ (problem u).map (List.map fun e => e.2.name) := by
  obtain ⟨s0, s, h, hc, hp⟩ := Demo.tidyCycle_exists
    (ops := [.addRigidContact 0 1 1 0, .addRigidContact 3 1 1 1] ++ [addOp .motion 0 1 0 0, addOp .actuation 2 1 0 0])
    (cy := Demo.cycle) (t := 5) (p := fun _ s => decide ((problem s).map (List.map fun e => e.2.name) =
      [["base-dynamics", "left_motion_task", "left_force_constraint", "sole_force_constraint", "com", "torque-bounds"],
       ["left_force_reg_task", "sole_motion_task", "sole_force_reg_task"]])) (by decide +kernel)
  obtain ⟨u0, u, h', hc', hp'⟩ := Demo.tidyCycle_exists
    (ops := [.addRigidContact 0 1 1 0, .addRigidContact 3 1 1 1] ++ [addOp .actuation 2 1 0 0, addOp .motion 0 1 0 0])
    (cy := Demo.cycle) (t := 5) (p := fun _ s => decide ((problem s).map (List.map fun e => e.2.name) =
      [["base-dynamics", "left_motion_task", "left_force_constraint", "sole_force_constraint", "torque-bounds", "com"],
       ["left_force_reg_task", "sole_motion_task", "sole_force_reg_task"]])) (by decide +kernel)
  refine ⟨s0, s, u0, u, h, h', hc, hc', ?_⟩
  rw [of_decide_eq_true hp, of_decide_eq_true hp']
  decide

end Tsid.Props
