import Verif.Lemmas.Sizes
import Verif.Example.Tidy

/-!
# C70: the assembly stays inside its matrices
-/

set_option linter.unusedSectionVars false

namespace Tsid.Props

open Spec Formulation Finset

variable {K : Type} [Field K] [LinearOrder K] [HasSqrt K]

/-- **C70, partial.** After any history with distinct names, if the constraints handed over for the objects still
registered in this cycle have the announced kinds and sizes, and the contact of every associated force task is still
registered, `computeProblemData` has no undefined behaviour: all its block writes are inside the matrices and of
matching size.  (Missing: force tasks whose contact has been removed, see `C70_orphaned_force_task`.) -/
theorem C70_no_ub_partial {nd : Bool} {W : World} {robot : Robot K} {obj : Nat → Contact K} {assoc : Nat → String}
    {ops : List (Op K)} {s0 : State K} {cy : Cycle K} {t : K} (h : TidyRun nd W robot obj assoc ops s0)
    (hs : CycleSizes robot.nv cy)
    (ht : ∀ m ∈ (registrations nd W robot obj assoc ops).measured, (cy.torque m).size = robot.nv)
    (hf : let items := ((registrations nd W robot obj assoc ops).expire (fun c => (obj c).name) t).items
      ∀ it ∈ items, it.Fits W obj s0.assoc robot.nv robot.na (items.filterMap Item.cid?) cy) :
    (computeProblemData nd cy t s0).isUB = false := by
  obtain ⟨hi, hn, L, hL, -⟩ := tidy_impl h
  have hrob : s0.robot = robot := run_robot ops _ _ h.run
  have hnu := runTransitions_not_ub (nd := nd) s0.trans [] { s0 with t := t }
  unfold computeProblemData
  dsimp only
  cases hr : runTransitions nd [] s0.trans { s0 with t := t } with
  | throw => rfl
  | abort => rfl
  | ub => rw [hr] at hnu; exact hnu
  | ok s1 u =>
    obtain ⟨hi1, n1, e1, e2, e3, L', hc, hL'⟩ := transitions_impl h.hygienic hi hL hr
    have hcn : cnames s0 = fun c => (obj c).name := hn.names
    have hnv : s1.nv = robot.nv := by rw [← hi1.pre.rnv, e3, hrob]
    have hna : s1.nv - s1.nu = robot.na := by rw [← hi1.pre.rna, e3, hrob]
    have key : (assemble cy s1).isSome := by
      refine assemble_fits hi1 hc (hnv ▸ hs) (by rw [e1, hnv]; exact ht) ?_
      rw [hL', hcn, hna, hnv, e2]
      intro it hit
      refine Item.Fits.congr ?_ ?_ (hf it hit)
      · intro c
        have := congrFun (n1.names.trans hn.names) c
        exact this
      · intro c
        have := congrFun (n1.kinds.trans hn.kinds) c
        exact this
    obtain ⟨s2, h2⟩ := Option.isSome_iff_exists.1 key
    dsimp only
    rw [h2]
    rfl

/-- Nothing of a constraint handed over is lost: its rows fill the block. -/
theorem embed_wellFormed {name : String} {kind : Kind} {rows cols j0 n m : Nat} {c : Constraint K}
    (h : FitsOn kind rows m c) : WellFormed (embed name rows cols j0 n c) ∧
    (embed name rows cols j0 n c).mat.cols = cols ∧ (embed name rows cols j0 n c).kind ≠ .bound := by
  obtain ⟨f1, f2, f3, f4⟩ := h
  unfold embed
  unfold WellFormed at f2
  cases hk : c.kind <;> simp only [hk] at f2 <;> refine ⟨?_, rfl, by simp⟩ <;> simp only [WellFormed, block] <;> omega

/-- **C70, result.** Under the same conditions, when `computeProblemData` returns, every constraint of the returned
problem is an equality or an inequality on exactly `nVar()` variables whose vectors have as many rows as its matrix. -/
theorem C70_well_formed {nd : Bool} {W : World} {robot : Robot K} {obj : Nat → Contact K} {assoc : Nat → String}
    {ops : List (Op K)} {s0 s : State K} {cy : Cycle K} {t : K} (h : TidyRun nd W robot obj assoc ops s0)
    (hno : Along nd W NoReassociation (init robot obj assoc) ops)
    (hs : CycleSizes robot.nv cy) (hc : computeProblemData nd cy t s0 = .ok s ())
    (hf : let items := ((registrations nd W robot obj assoc ops).expire (fun c => (obj c).name) t).items
      ∀ it ∈ items, it.Fits W obj s0.assoc robot.nv robot.na (items.filterMap Item.cid?) cy) :
    ∀ l ∈ problem s, ∀ e ∈ l, WellFormed e.2 ∧ e.2.mat.cols = nVar s ∧ e.2.kind ≠ .bound := by
  obtain ⟨hi, hn, L, hL, -⟩ := tidy_impl h
  have hcn : cnames s0 = fun c => (obj c).name := hn.names
  have hrob : s0.robot = robot := run_robot ops _ _ h.run
  obtain ⟨s1, -, -, -, hA, his, -⟩ := compute_spec hi hc
  have hrob1 : s.robot = robot := by
    have e2 := step_robot (nd := nd) (W := W) (s := s0) (o := .compute cy t) (s' := s)
      (by simp only [step, hc]; rfl)
    exact e2.trans hrob
  have hnv : s.nv = robot.nv := by rw [← his.pre.rnv, hrob1]
  have hst : (step nd W s0 (.compute cy t)) = .ok s () := hc
  obtain ⟨n1, -⟩ := step_impl (nd := nd) h.hygienic hi hL (.compute cy t) trivial (s' := s) (by rw [hst]; rfl)
  obtain ⟨c1, -, c3⟩ := cycle_contents h.hygienic hi hL (tidy_clean h hno) hc (by rw [hnv]; exact hs)
  rw [hcn] at c1 c3
  generalize hit : ((registrations nd W robot obj assoc ops).expire (fun c => (obj c).name) t).items = items at *
  have hvar : nVar s = s.nv + nForces s.contactObj (items.filterMap Item.cid?) := by unfold nVar; rw [c3]
  have hfit : ∀ it ∈ items, it.Fits W s.contactObj s.assoc s.nv robot.na (items.filterMap Item.cid?) cy := by
    intro it hi'
    have e : s.assoc = s0.assoc := by
      simp only [computeProblemData] at hc
      cases hr : runTransitions nd [] s0.trans { s0 with t := t } with
      | ok s1' u =>
        obtain ⟨-, -, -, e2, -⟩ := transitions_impl h.hygienic hi hL hr
        rw [hr] at hc
        dsimp only at hc
        cases ha : assemble cy s1' with
        | none => rw [ha] at hc; cases hc
        | some s2 =>
          rw [ha] at hc
          cases hc
          have hi1 := (transitions_impl h.hygienic hi hL hr).1
          rw [(assemble_spec hi1.pre ha).eq]
          exact e2
      | throw => rw [hr] at hc; cases hc
      | abort => rw [hr] at hc; cases hc
      | ub => rw [hr] at hc; cases hc
    rw [e, hnv]
    refine Item.Fits.congr ?_ ?_ (hf it hi')
    · intro c
      exact congrFun (n1.names.trans hn.names) c
    · intro c
      exact congrFun (n1.kinds.trans hn.kinds) c
  have lines : ∀ lvl, ∀ it ∈ items, ∀ e ∈ Item.lines W (envOf s cy) (items.filterMap Item.cid?)
      (registrations nd W robot obj assoc ops).measured lvl it,
      WellFormed e.2 ∧ e.2.mat.cols = nVar s ∧ e.2.kind ≠ .bound := by
    intro lvl it hit e he
    have hF := hfit it hit
    rw [hvar]
    cases it with
    | task fam tid p w =>
      simp only [Item.lines] at he
      split at he
      swap
      · simp at he
      rw [List.mem_singleton] at he
      subst he
      cases fam with
      | motion => exact embed_wellFormed hF
      | force =>
        rcases hF with ⟨e, hF⟩ | ⟨e, cid, hcid, hnm, hF⟩ <;> exact embed_wellFormed hF
      | actuation =>
        obtain ⟨f1, f2, f3, f4⟩ := hF
        simp only [taskConstraint, actConstraint, envOf]
        unfold WellFormed at f2
        cases hk : (cy.actOut tid).kind <;> simp only [hk] at f2 <;> refine ⟨?_, rfl, by simp⟩ <;>
          simp only [WellFormed, sideBySide] <;> omega
    | contact cid p wm wf =>
      have sh := his.pre.shaped cid
      simp only [Item.lines, List.mem_append] at he
      rcases he with (he | he) | he <;> (split at he; swap; · simp at he) <;> rw [List.mem_singleton] at he <;>
        subst he
      · obtain ⟨f1, f2, f3, f4⟩ := hF
        refine ⟨?_, rfl, by simp [contactMotionConstraint]⟩
        rw [WellFormed, f1] at f2
        exact f2.trans f3
      · exact ⟨⟨sh.ineqLb, sh.ineqUb⟩, rfl, by simp [contactForceConstraint]⟩
      · exact ⟨sh.regVec, rfl, by simp [contactRegConstraint]⟩
  intro l hl e he
  rw [c1] at hl
  simp only [contents, List.mem_cons, List.not_mem_nil, or_false] at hl
  rcases hl with rfl | rfl
  · rcases List.mem_cons.1 he with rfl | he
    · exact ⟨rfl, hvar.symm, by simp [baseConstraint]⟩
    · obtain ⟨it, hit, he⟩ := List.mem_flatMap.1 he
      exact lines 0 it hit e he
  · obtain ⟨it, hit, he⟩ := List.mem_flatMap.1 he
    exact lines 1 it hit e he

instance (c : Constraint K) : Decidable (WellFormed c) := by
  unfold WellFormed
  cases c.kind <;> infer_instance

instance (kind : Kind) (rows n : Nat) (c : Constraint K) : Decidable (FitsOn kind rows n c) := by
  unfold FitsOn; infer_instance

instance (W : World) (obj : Nat → Contact K) (assoc : Nat → String) (nv na : Nat) (cids : List Nat) (cy : Cycle K)
    (it : Item K) : Decidable (it.Fits W obj assoc nv na cids cy) := by
  cases it with
  | task fam tid p w => cases fam <;> simp only [Item.Fits] <;> infer_instance
  | contact cid p wm wf => simp only [Item.Fits]; infer_instance

/-- Objects registered at time 5 after the demo history. -/
def demoItems : List (Item ℚ) :=
  ((registrations false Demo.world Demo.robot Demo.contacts Demo.assoc Demo.history).expire
    (fun c => (Demo.contacts c).name) 5).items

/-- The demo history (tasks of every family, two contacts, two measured forces) meets the conditions. -/
example : ∃ s0 s : State ℚ, TidyRun false Demo.world Demo.robot Demo.contacts Demo.assoc Demo.history s0 ∧
    Along false Demo.world NoReassociation (init Demo.robot Demo.contacts Demo.assoc) Demo.history ∧
    CycleSizes 8 Demo.cycle ∧ computeProblemData false Demo.cycle 5 s0 = .ok s () ∧ nVar s = 14 ∧
    (∀ m ∈ (registrations false Demo.world Demo.robot Demo.contacts Demo.assoc Demo.history).measured,
      (Demo.cycle.torque m).size = 8) ∧
    demoItems.length = 9 ∧
    ∀ it ∈ demoItems, it.Fits Demo.world Demo.contacts s0.assoc 8 2 (demoItems.filterMap Item.cid?) Demo.cycle := by
  obtain ⟨s0, s, h, hc, hp⟩ := Demo.tidyCycle_exists (ops := Demo.history) (cy := Demo.cycle) (t := 5)
    (p := fun s0 s => decide (nVar s = 14) && decide (demoItems.length = 9 ∧
      ∀ it ∈ demoItems, it.Fits Demo.world Demo.contacts s0.assoc 8 2 (demoItems.filterMap Item.cid?) Demo.cycle))
    (by decide +kernel)
  simp only [Bool.and_eq_true, decide_eq_true_eq] at hp
  exact ⟨s0, s, h, Demo.alongCheck_spec (fun _ _ => Demo.noReassociation_spec) _ _ (by decide +kernel),
    Demo.cycle_sizes, hc, hp.1, fun _ _ => rfl, hp.2⟩

/-- C70 is false of a force task whose contact has been removed: the columns of the task fall back to those of all
force variables, the matrix of the task does not fit, and the block write is undefined behaviour, although the task,
the remaining contact and all sizes are as announced. -/
theorem C70_orphaned_force_task : ∃ s0 : State ℚ, TidyRun false Demo.world Demo.robot Demo.contacts Demo.assoc
      [.addRigidContact 0 1 1 0, .addRigidContact 1 1 1 0, .addRigidContact 3 1 1 0, .addForceTask 3 1 1 0,
       .compute Demo.cycle 0, .removeRigidContact "right" 0] s0 ∧
    FitsOn (Demo.world.task 3).kind (Demo.world.task 3).rows (Demo.contacts 1).nForce (Demo.cycle.forceOut 3) ∧
    (computeProblemData false Demo.cycle 1 s0).isUB = true := by
  obtain ⟨s, h, hp⟩ := Demo.tidyAfter_exists
    (ops := [.addRigidContact 0 1 1 0, .addRigidContact 1 1 1 0, .addRigidContact 3 1 1 0, .addForceTask 3 1 1 0,
       .compute Demo.cycle 0, .removeRigidContact "right" 0])
    (p := fun s => (computeProblemData false Demo.cycle 1 s).isUB) (by decide +kernel)
  exact ⟨s, h, by decide +kernel, hp⟩

end Tsid.Props
