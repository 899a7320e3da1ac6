import Verif.Spec.Weights
import Verif.Props.SolverCost
import Verif.Props.Cycle
import Verif.Props.Transitions
import Verif.Props.Registry

/-!
# C84: the weights of level 1
-/

set_option linter.unusedSectionVars false

namespace Tsid.Props

open Finset Spec

section Solver

variable {K : Type} [Field K] [LinearOrder K] [IsStrictOrderedRing K]

theorem sqResidual_nonneg (c : Constraint K) (x : Nat → K) : 0 ≤ sqResidual c x :=
  sum_nonneg fun _ _ => mul_self_nonneg _

theorem lsq_split (n : String) {w : K} (x : Nat → K) : ∀ {l : Level K}, (∀ q ∈ l, q.2.name = n → q.1 = w) →
    lsqCost l x = 1 / 2 * (w * taskError n l x) + lsqCost (l.filter fun q => q.2.name ≠ n) x := by
  intro l
  induction l with
  | nil => intro _; simp [lsqCost, taskError]
  | cons q l ih =>
    intro h
    have ih := ih fun q' hq' => h q' (List.mem_cons_of_mem _ hq')
    simp only [lsqCost, taskError] at ih ⊢
    by_cases e : q.2.name = n
    · have hq := h q List.mem_cons_self e
      simp only [e, List.map_cons, List.sum_cons, List.filter_cons, decide_true, ne_eq, not_true, decide_false, if_true,
        Bool.false_eq_true, if_false]
      simp only [ne_eq] at ih
      rw [hq, mul_add, ih]
      ring
    · simp only [e, List.map_cons, List.sum_cons, List.filter_cons, decide_true, ne_eq, decide_false, if_true,
        Bool.false_eq_true, if_false, not_false_eq_true]
      simp only [ne_eq] at ih
      rw [mul_add, ih, mul_add]
      ring

/-- The objective is the weighted error of the task plus what the rest costs. -/
theorem target_split (n : String) (nv : Nat) (reg : Bool) {w : K} (x : Nat → K) {l : Level K}
    (h : ∀ q ∈ l, q.2.name = n → q.1 = w) :
    target nv reg l x = 1 / 2 * (w * taskError n l x) + otherCost n nv reg l x := by
  unfold otherCost target
  rw [lsq_split n x h]
  ring

theorem reweigh_error (n : String) (w : K) (l : Level K) (x : Nat → K) : taskError n (reweigh n w l) x = taskError n l x := by
  unfold taskError reweigh
  rw [List.filter_map, List.map_map]
  rfl

theorem reweigh_other (n : String) (w : K) (nv : Nat) (reg : Bool) (l : Level K) (x : Nat → K) :
    otherCost n nv reg (reweigh n w l) x = otherCost n nv reg l x := by
  have : (reweigh n w l).filter (fun q => q.2.name ≠ n) = l.filter fun q => q.2.name ≠ n := by
    unfold reweigh
    rw [List.filter_map]
    have : ∀ q ∈ l.filter ((fun q : K × Constraint K => decide (q.2.name ≠ n)) ∘ fun q => (if q.2.name = n then w else q.1, q.2)),
        (fun q : K × Constraint K => (if q.2.name = n then w else q.1, q.2)) q = q := by
      intro q hq
      have := (List.mem_filter.1 hq).2
      simp only [Function.comp, ne_eq, decide_not, Bool.not_eq_true', decide_eq_false_iff_not] at this
      simp only [this, if_false]
    rw [List.map_congr_left this, List.map_id']
    rfl
  unfold otherCost
  rw [this]

theorem reweigh_weight (n : String) (w : K) (l : Level K) : ∀ q ∈ reweigh n w l, q.2.name = n → q.1 = w := by
  intro q hq e
  obtain ⟨q', -, rfl⟩ := List.mem_map.1 hq
  exact if_pos e

/-- **C84, monotonicity.** Where the objective of level 1 is minimal after the weight of a task has been raised, the
error of the task is not larger than where it was minimal before, and what the rest costs is not smaller. -/
theorem C84_monotone {l0 l : Level K} {n : String} {nv : Nat} {reg : Bool} {w w' : K} {x x' : Nat → K}
    (hl : ∀ q ∈ l, q.2.name = n → q.1 = w) (hw : w < w') (hx : Optimal (Feasible l0) (target nv reg l) x)
    (hx' : Optimal (Feasible l0) (target nv reg (reweigh n w' l)) x') :
    taskError n l x' ≤ taskError n l x ∧ (0 ≤ w → otherCost n nv reg l x ≤ otherCost n nv reg l x') := by
  have h1 := hx.2 x' hx'.1
  have h2 := hx'.2 x hx.1
  rw [target_split n nv reg _ hl, target_split n nv reg _ hl] at h1
  rw [target_split n nv reg _ (reweigh_weight n w' l), target_split n nv reg _ (reweigh_weight n w' l), reweigh_error,
    reweigh_error, reweigh_other, reweigh_other] at h2
  have h3 : taskError n l x' ≤ taskError n l x := by
    by_contra h
    push Not at h
    have := mul_pos (sub_pos.2 hw) (sub_pos.2 h)
    linarith
  refine ⟨h3, fun h0 => ?_⟩
  have := mul_le_mul_of_nonneg_left h3 h0
  linarith

theorem level_cost_nonneg {l : Level K} (hw : ∀ q ∈ l, 0 ≤ q.1) (x : Nat → K) : 0 ≤ lsqCost l x := by
  unfold lsqCost
  refine mul_nonneg (by norm_num) (List.sum_nonneg fun a ha => ?_)
  obtain ⟨q, hq, rfl⟩ := List.mem_map.1 ha
  exact mul_nonneg (hw q hq) (sqResidual_nonneg _ _)

theorem sqNorm_nonneg (n : Nat) (x : Nat → K) : 0 ≤ sqNorm n x := sum_nonneg fun _ _ => mul_self_nonneg _

theorem target_nonneg {l : Level K} (hw : ∀ q ∈ l, 0 ≤ q.1) (nv : Nat) (reg : Bool) (x : Nat → K) :
    0 ≤ target nv reg l x := by
  have h1 := level_cost_nonneg hw x
  have h2 : (0 : K) ≤ if reg then 1 / 2 * (Solver.defaultReg * sqNorm nv x) else 0 := by
    split
    · exact mul_nonneg (by norm_num) (mul_nonneg defaultReg_pos.le (sqNorm_nonneg _ _))
    · exact le_refl _
  exact add_nonneg h1 h2

/-- **C84, large weights.** Where the objective is minimal, the error of a task exceeds its error at any feasible point
`y` by at most twice what the rest costs at `y`, divided by the weight of the task. -/
theorem C84_penalty {l0 l : Level K} {n : String} {nv : Nat} {reg : Bool} {w : K} {x y : Nat → K} (hw : 0 < w)
    (hp : ∀ q ∈ l, 0 ≤ q.1) (hx : Optimal (Feasible l0) (target nv reg (reweigh n w l)) x) (hy : Feasible l0 y) :
    taskError n l x ≤ taskError n l y + 2 * otherCost n nv reg l y / w := by
  have h := hx.2 y hy
  rw [target_split n nv reg _ (reweigh_weight n w l), target_split n nv reg _ (reweigh_weight n w l), reweigh_error,
    reweigh_error, reweigh_other, reweigh_other] at h
  have h0 : 0 ≤ otherCost n nv reg l x := target_nonneg (fun q hq => hp q (List.mem_filter.1 hq).1) nv reg x
  have h1 : w * (taskError n l x - taskError n l y) ≤ 2 * otherCost n nv reg l y := by linarith
  rw [← sub_le_iff_le_add', le_div_iff₀ hw]
  linarith

/-- **C84, compatible tasks.** If some feasible point achieves all tasks of level 1, then where the objective is
minimal each task of positive weight is achieved; with the regularisation, up to an error of the size of the
regularisation. -/
theorem C84_compatible {l0 l : Level K} {nv : Nat} {x y : Nat → K} (hp : ∀ q ∈ l, 0 ≤ q.1) (hy : Feasible l0 y)
    (hz : ∀ q ∈ l, ∀ k, k < q.2.mat.rows → Spec.residual q.2 y k = 0) :
    (Optimal (Feasible l0) (target nv false l) x →
      ∀ q ∈ l, 0 < q.1 → ∀ k, k < q.2.mat.rows → Spec.residual q.2 x k = 0) ∧
    (Optimal (Feasible l0) (target nv true l) x →
      sqNorm nv x ≤ sqNorm nv y ∧ ∀ q ∈ l, q.1 * sqResidual q.2 x ≤ Solver.defaultReg * (sqNorm nv y - sqNorm nv x)) := by
  have hy0 : lsqCost l y = 0 := by
    unfold lsqCost
    have : (l.map fun q => q.1 * sqResidual q.2 y) = l.map fun _ => (0 : K) := by
      refine List.map_congr_left fun q hq => ?_
      have : sqResidual q.2 y = 0 := sum_eq_zero fun k hk => by rw [hz q hq k (mem_range.1 hk), mul_zero]
      rw [this, mul_zero]
    rw [this]
    simp
  have hmem : ∀ q ∈ l, 1 / 2 * (q.1 * sqResidual q.2 x) ≤ lsqCost l x := by
    intro q hq
    unfold lsqCost
    refine mul_le_mul_of_nonneg_left ?_ (by norm_num)
    refine List.single_le_sum (fun a ha => ?_) _ (List.mem_map.2 ⟨q, hq, rfl⟩)
    obtain ⟨q', hq', rfl⟩ := List.mem_map.1 ha
    exact mul_nonneg (hp q' hq') (sqResidual_nonneg _ _)
  refine ⟨fun hx q hq h0 k hk => ?_, fun hx => ?_⟩
  · have h := hx.2 y hy
    simp only [target, Bool.false_eq_true, if_false, add_zero, hy0] at h
    have h1 := hmem q hq
    have h2 : q.1 * sqResidual q.2 x ≤ 0 := by linarith
    have h3 : sqResidual q.2 x = 0 := by
      refine le_antisymm ?_ (sqResidual_nonneg _ _)
      by_contra hc
      push Not at hc
      exact absurd (mul_pos h0 hc) (not_lt.2 h2)
    have h4 := (sum_eq_zero_iff_of_nonneg fun k _ => mul_self_nonneg (Spec.residual q.2 x k)).1 h3 k (mem_range.2 hk)
    exact mul_self_eq_zero.1 h4
  · have h := hx.2 y hy
    simp only [target, if_true, hy0, zero_add] at h
    have h0 := level_cost_nonneg hp x
    have hd : (0 : K) < Solver.defaultReg := defaultReg_pos
    refine ⟨?_, fun q hq => ?_⟩
    · by_contra hc
      push Not at hc
      have := mul_pos hd (sub_pos.2 hc)
      linarith
    · have h1 := hmem q hq
      linarith

/-- **C84, common factor, partial.** Without the regularisation only the ratios of the weights matter.

Missing: with the regularisation this is false, `C84_scale_regularised`. -/
theorem C84_scale_partial {l0 l : Level K} {nv : Nat} {k : K} (hk : 0 < k) (x : Nat → K) :
    Optimal (Feasible l0) (target nv false (scale k l)) x ↔ Optimal (Feasible l0) (target nv false l) x := by
  have h : ∀ y, target nv false (scale k l) y = k * target nv false l y := by
    intro y
    simp only [target, Bool.false_eq_true, if_false, add_zero, lsqCost, scale, List.map_map]
    have : ((fun q : K × Constraint K => q.1 * sqResidual q.2 y) ∘ fun q : K × Constraint K => (k * q.1, q.2)) =
        fun q : K × Constraint K => k * (q.1 * sqResidual q.2 y) := by funext q; simp only [Function.comp]; ring
    rw [this, List.sum_map_mul_left]
    ring
  simp only [Optimal, h, mul_le_mul_iff_right₀ hk]

/-- A level 0 that everything satisfies, and a task that asks for `x 0 = 1`. -/
def freeLevel : Level ℚ := [(1, ⟨"free", .equality, ⟨1, 1, fun _ _ => 0⟩, ⟨1, fun _ => 0⟩, Constraint.noVec, Constraint.noVec⟩)]
def oneTask (w : ℚ) : Level ℚ := [(w, ⟨"one", .equality, ⟨1, 1, fun _ _ => 1⟩, ⟨1, fun _ => 1⟩, Constraint.noVec, Constraint.noVec⟩)]

theorem free_feasible (x : Nat → ℚ) : Feasible freeLevel x := by
  intro q hq
  simp only [freeLevel, List.mem_singleton] at hq
  subst hq
  intro i _
  simp [row]

theorem oneTask_target (w : ℚ) (x : Nat → ℚ) :
    target 1 true (oneTask w) x = 1 / 2 * (w * ((x 0 - 1) * (x 0 - 1))) + 1 / 2 * (1 / 10 ^ 8 * (x 0 * x 0)) := by
  simp [target, lsqCost, sqResidual, oneTask, Spec.residual, row, sqNorm, Solver.defaultReg]

theorem oneTask_optimal {w : ℚ} (hw : 0 < w) (x : Nat → ℚ) :
    Optimal (Feasible freeLevel) (target 1 true (oneTask w)) x ↔ x 0 = w / (w + 1 / 10 ^ 8) := by
  have hp : 0 < w + 1 / 10 ^ 8 := by positivity
  have key : ∀ y : Nat → ℚ, target 1 true (oneTask w) y =
      1 / 2 * ((w + 1 / 10 ^ 8) * ((y 0 - w / (w + 1 / 10 ^ 8)) * (y 0 - w / (w + 1 / 10 ^ 8)))) +
        1 / 2 * (w - w * w / (w + 1 / 10 ^ 8)) := by
    intro y
    rw [oneTask_target]
    field_simp
    ring
  constructor
  · intro h
    have := h.2 (fun _ => w / (w + 1 / 10 ^ 8)) (free_feasible _)
    rw [key, key, sub_self, mul_zero, mul_zero, mul_zero, zero_add, add_le_iff_nonpos_left] at this
    by_contra hc
    have h2 := mul_self_pos.2 (sub_ne_zero.2 hc)
    have h3 := mul_pos hp h2
    linarith
  · intro h
    refine ⟨free_feasible _, fun y _ => ?_⟩
    rw [key, key, h, sub_self, mul_zero, mul_zero, mul_zero, zero_add, le_add_iff_nonneg_left]
    exact mul_nonneg (by norm_num) (mul_nonneg hp.le (mul_self_nonneg _))

/-- With the regularisation a common factor of the weights changes the solution. -/
theorem C84_scale_regularised : Admissible 1 freeLevel (some (oneTask 1)) ∧ scale 2 (oneTask 1) = oneTask 2 ∧
    (∃ x, Optimal (Feasible freeLevel) (target 1 true (oneTask 1)) x) ∧
    ∀ x, Optimal (Feasible freeLevel) (target 1 true (oneTask 1)) x →
      ¬ Optimal (Feasible freeLevel) (target 1 true (scale 2 (oneTask 1))) x := by
  have e : scale 2 (oneTask 1) = oneTask 2 := by simp [scale, oneTask]
  refine ⟨⟨by simp [freeLevel], ?_, ?_⟩, e, ⟨fun _ => 1 / (1 + 1 / 10 ^ 8), (oneTask_optimal one_pos _).2 rfl⟩, ?_⟩
  · intro q hq
    simp only [freeLevel, List.mem_singleton] at hq
    subst hq
    exact ⟨rfl, rfl⟩
  · intro l hl
    cases hl
    constructor <;> intro q hq <;> simp only [oneTask, List.mem_singleton] at hq <;> subst hq
    · rfl
    · exact ⟨rfl, rfl⟩
  · intro x hx
    rw [e, oneTask_optimal (by norm_num)]
    rw [oneTask_optimal one_pos] at hx
    rw [hx]
    norm_num

/-- The hypotheses of the theorems above are met: raising the weight of the task from 1 to 2. -/
example : (∀ q ∈ oneTask 1, q.2.name = "one" → q.1 = 1) ∧ (1 : ℚ) < 2 ∧ (∀ q ∈ oneTask 1, 0 ≤ q.1) ∧
    (∃ x, Optimal (Feasible freeLevel) (target 1 true (oneTask 1)) x) ∧
    (∃ x, Optimal (Feasible freeLevel) (target 1 true (reweigh "one" 2 (oneTask 1))) x) ∧
    Feasible freeLevel (fun _ => 1) ∧
    (∀ q ∈ oneTask 1, ∀ k, k < q.2.mat.rows → Spec.residual q.2 (fun _ => 1) k = 0) := by
  refine ⟨by simp [oneTask], by norm_num, by simp [oneTask], ⟨fun _ => 1 / (1 + 1 / 10 ^ 8), (oneTask_optimal one_pos _).2 rfl⟩,
    ⟨fun _ => 2 / (2 + 1 / 10 ^ 8), ?_⟩, free_feasible _, ?_⟩
  · have : reweigh "one" 2 (oneTask 1) = oneTask 2 := by simp [reweigh, oneTask]
    rw [this]
    exact (oneTask_optimal two_pos _).2 rfl
  · intro q hq k hk
    simp only [oneTask, List.mem_singleton] at hq
    subst hq
    simp [Spec.residual, row]

end Solver

section Cycle

open Formulation

variable {K : Type} [Field K] [LinearOrder K] [HasSqrt K]

theorem taskConstraint_name (W : World) (e : Env K) (cids measured : List Nat) (fam : Family) (tid : Nat) :
    (taskConstraint W e cids measured fam tid).name = (W.task tid).cname := by
  cases fam
  · simp only [taskConstraint, embed]; split <;> rfl
  · simp only [taskConstraint, embed]; split <;> rfl
  · simp only [taskConstraint, actConstraint]; split <;> rfl

/-- What setting a weight does to the entries of an object. -/
theorem setWeight_lines {W : World} {e : Env K} {nm : Nat → String} (hn : (fun c => (e.obj c).name) = nm)
    (cids measured : List Nat) (n : String) (w : K) (it : Item K) :
    (it.setWeight W nm n w).lines W e cids measured 0 = it.lines W e cids measured 0 ∧
    (it.setWeight W nm n w).lines W e cids measured 1 = reweigh n w (it.lines W e cids measured 1) := by
  subst hn
  cases it with
  | task fam tid p w0 =>
    simp only [Item.setWeight, Item.lines]
    constructor
    · by_cases hp : p = 0
      · simp [hp]
      · simp [hp]
    · by_cases hp : p = 1
      · simp [hp, reweigh, taskConstraint_name]
      · simp [hp, reweigh]
  | contact cid p wm wf =>
    simp only [Item.setWeight, Item.lines]
    constructor
    · by_cases hp : p = 0
      · simp [hp]
      · simp [hp]
    · by_cases hp : p = 1
      · simp [hp, reweigh, contactMotionConstraint, contactRegConstraint]
      · simp [hp, reweigh, contactRegConstraint]

theorem setWeight_cid (W : World) (nm : Nat → String) (n : String) (w : K) (it : Item K) :
    (it.setWeight W nm n w).cid? = it.cid? := by cases it <;> rfl

theorem setWeight_isContact (W : World) (nm : Nat → String) (n : String) (w : K) (m : String) (it : Item K) :
    (it.setWeight W nm n w).isContact nm m = it.isContact nm m := by cases it <;> rfl

/-- **C84, control cycle.** If `updateTaskWeight` is called before a control cycle, then the problem of the cycle is
the one that it would have been otherwise, but for the weight of the entries of that name in level 1. -/
theorem C84_cycle {nd : Bool} {W : World} {robot : Robot K} {obj : Nat → Contact K} {assoc : Nat → String}
    {ops : List (Op K)} {s0 s u0 u : State K} {cy : Cycle K} {t : K} {n : String} {w : K} {b : Bool}
    (h : TidyRun nd W robot obj assoc ops s0) (hno : Along nd W NoReassociation (init robot obj assoc) ops)
    (hu : updateTaskWeight s0 n w = .ok u0 b)
    (hc : computeProblemData nd cy t s0 = .ok s ()) (hc' : computeProblemData nd cy t u0 = .ok u ())
    (hs : CycleSizes robot.nv cy) :
    ∃ l0 l1, problem s = [l0, l1] ∧ problem u = [l0, reweigh n w l1] ∧ nVar u = nVar s := by
  have hst : (step nd W s0 (.updateTaskWeight n w)).state? = some u0 := by simp only [step, hu]; rfl
  have hthr : (step nd W s0 (.updateTaskWeight n w)).threw = false := by simp only [step, hu]; rfl
  have hrun : run nd W (init robot obj assoc) (ops ++ [.updateTaskWeight n w]) = some u0 := by
    rw [run_append _ _ _ _ h.run]; simp only [run, hst]
  have h' : TidyRun nd W robot obj assoc (ops ++ [.updateTaskWeight n w]) u0 :=
    ⟨h.hygienic, h.motors, h.built, hrun, (along_append _ _ _ _ h.run).2 ⟨h.tidy, trivial, by rw [hst]; trivial⟩⟩
  have hno' : Along nd W NoReassociation (init robot obj assoc) (ops ++ [.updateTaskWeight n w]) :=
    (along_append _ _ _ _ h.run).2 ⟨hno, trivial, by rw [hst]; trivial⟩
  have hr : registrations nd W robot obj assoc (ops ++ [.updateTaskWeight n w]) =
      (registrations nd W robot obj assoc ops).next W (fun c => (obj c).name) false (.updateTaskWeight n w) := by
    unfold registrations Registry.after
    rw [outcomes_append _ _ _ _ h.run, List.foldl_append]
    simp only [outcomes, hst, hthr, List.foldl_cons, List.foldl_nil]
  obtain ⟨a1, a2⟩ := C71_closed_form h hno hc hs
  obtain ⟨b1, b2⟩ := C71_closed_form h' hno' hc' hs
  obtain ⟨hi, -⟩ := tidy_impl h
  obtain ⟨hi', -⟩ := tidy_impl h'
  obtain ⟨-, hn, -⟩ := tidy_impl (registrations_compute h hc).1
  have hnm : (fun c => (s.contactObj c).name) = fun c => (obj c).name := hn.names
  obtain ⟨s', b', hup, -, hf, ht⟩ := C12_updateTaskWeight s0 n w
  have hsu : s' = u0 := by rw [hu] at hup; cases hup; rfl
  have hsame : u0.contactObj = s0.contactObj ∧ u0.assoc = s0.assoc ∧ u0.trans = s0.trans ∧ u0.robot = s0.robot := by
    rw [← hsu]
    cases b' with
    | false => rw [hf rfl]; exact ⟨rfl, rfl, rfl, rfl⟩
    | true =>
      obtain ⟨_, _, _, _, _, _, -, e, -⟩ := ht rfl
      rw [e]; exact ⟨rfl, rfl, rfl, rfl⟩
  obtain ⟨e1, e2, e3, e4⟩ := hsame
  have he := compute_env hi hi' e1.symm e3.symm e2.symm e4.symm hc hc'
  have eo : u.contactObj = s.contactObj := (congrArg Env.obj he).symm
  have ea : u.assoc = s.assoc := (congrArg Env.assoc he).symm
  have hitems : ((registrations nd W robot obj assoc (ops ++ [.updateTaskWeight n w])).expire (fun c => (obj c).name) t).items =
      ((registrations nd W robot obj assoc ops).expire (fun c => (obj c).name) t).items.map
        (Item.setWeight W (fun c => (obj c).name) n w) := by
    rw [hr]
    unfold Registry.expire
    simp only [Registry.next]
    split
    · rfl
    · simp only [List.filter_map]
      congr 2
      funext it
      simp only [Function.comp, setWeight_isContact]
  have hmeas : (registrations nd W robot obj assoc (ops ++ [.updateTaskWeight n w])).measured =
      (registrations nd W robot obj assoc ops).measured := by rw [hr]; rfl
  have hcids : ∀ l : List (Item K), (l.map (Item.setWeight W (fun c => (obj c).name) n w)).filterMap Item.cid? =
      l.filterMap Item.cid? := by
    intro l
    rw [List.filterMap_map]
    congr 1
    funext it
    exact setWeight_cid ..
  have key := fun (e : Env K) (hn : (fun c => (e.obj c).name) = fun c => (obj c).name) (cids ms : List Nat) (it : Item K) =>
    setWeight_lines (W := W) hn cids ms n w it
  refine ⟨_, _, a1, ?_, ?_⟩
  · rw [b1, hitems, hmeas, eo, ea]
    simp only [contents, hcids, List.flatMap_map]
    congr 1
    · congr 1
      refine List.flatMap_congr fun it _ => (key _ ?_ _ _ it).1
      exact hnm
    · congr 1
      unfold reweigh
      rw [List.map_flatMap]
      refine List.flatMap_congr fun it _ => (key _ ?_ _ _ it).2
      exact hnm
  · rw [a2, b2, hitems, hcids, eo]

/-- The hypotheses of `C84_cycle` and `C84_raise` are met: the weight of the task "com" is raised from 1 to 3. -/
example : ∃ s0 s u0 u : State ℚ,
    TidyRun false Demo.world Demo.robot Demo.contacts Demo.assoc [.addRigidContact 0 1 1 0, .addMotionTask 0 1 1 0] s0 ∧
    Along false Demo.world NoReassociation (init Demo.robot Demo.contacts Demo.assoc)
      [.addRigidContact 0 1 1 0, .addMotionTask 0 1 1 0] ∧
    updateTaskWeight s0 "com" 3 = .ok u0 true ∧ computeProblemData false Demo.cycle 5 s0 = .ok s () ∧
    computeProblemData false Demo.cycle 5 u0 = .ok u () ∧ CycleSizes 8 Demo.cycle ∧
    (problem s).map (List.map fun e => (e.1, e.2.name)) =
      [[(1, "base-dynamics"), (1, "left_motion_task"), (1, "left_force_constraint")],
       [(1, "left_force_reg_task"), (1, "com")]] ∧
    (problem u).map (List.map fun e => (e.1, e.2.name)) =
      [[(1, "base-dynamics"), (1, "left_motion_task"), (1, "left_force_constraint")],
       [(1, "left_force_reg_task"), (3, "com")]] := by
  obtain ⟨s0, s, h, hc, hp⟩ := Demo.tidyCycle_exists (ops := [.addRigidContact 0 1 1 0, .addMotionTask 0 1 1 0])
    (cy := Demo.cycle) (t := 5) (p := fun s0 s =>
      decide ((problem s).map (List.map fun e => (e.1, e.2.name)) =
        [[(1, "base-dynamics"), (1, "left_motion_task"), (1, "left_force_constraint")],
         [(1, "left_force_reg_task"), (1, "com")]]) &&
      match updateTaskWeight s0 "com" 3 with
      | .ok u0 true => match computeProblemData false Demo.cycle 5 u0 with
        | .ok u _ => decide ((problem u).map (List.map fun e => (e.1, e.2.name)) =
          [[(1, "base-dynamics"), (1, "left_motion_task"), (1, "left_force_constraint")],
           [(1, "left_force_reg_task"), (3, "com")]])
        | _ => false
      | _ => false) (by decide +kernel)
  simp only [Bool.and_eq_true] at hp
  obtain ⟨h1, h2⟩ := hp
  split at h2
  · next u0 hu =>
    split at h2
    · next u _ hc' =>
      exact ⟨s0, s, u0, u, h, Demo.alongCheck_spec (fun _ _ => Demo.noReassociation_spec) _ _ (by decide +kernel), hu, hc,
        hc', Demo.cycle_sizes, of_decide_eq_true h1, of_decide_eq_true h2⟩
    · cases h2
  · cases h2

end Cycle

section Whole

open Formulation

variable {K : Type} [Field K] [LinearOrder K] [IsStrictOrderedRing K] [HasSqrt K]

/-- **C84, as a whole.** Let the weight of the entries of level 1 of a name be `w`, and let it be raised to `w'` by
`updateTaskWeight`.  Whatever back-end solves the problem of the next control cycle (`C48_back_ends` says that what it
is given has the solutions of that problem), the error of those entries is not larger than it would have been. -/
theorem C84_raise {nd : Bool} {W : World} {robot : Robot K} {obj : Nat → Contact K} {assoc : Nat → String}
    {ops : List (Op K)} {s0 s u0 u : State K} {cy : Cycle K} {t : K} {n : String} {w w' : K} {b : Bool}
    (h : TidyRun nd W robot obj assoc ops s0) (hno : Along nd W NoReassociation (init robot obj assoc) ops)
    (hu : updateTaskWeight s0 n w' = .ok u0 b)
    (hc : computeProblemData nd cy t s0 = .ok s ()) (hc' : computeProblemData nd cy t u0 = .ok u ())
    (hs : CycleSizes robot.nv cy) {l0 l1 m0 m1 : Level K} (hp : problem s = [l0, l1]) (hq : problem u = [m0, m1])
    (hw : ∀ q ∈ l1, q.2.name = n → q.1 = w) (hww : w < w') {S S' : (Nat → K) → Prop} {H H' : Mat K} {g g' : Vec K}
    {reg : Bool} (hS : SameOptima S H g (nVar s) reg l0 l1) (hS' : SameOptima S' H' g' (nVar u) reg m0 m1)
    {x x' : Nat → K} (hx : Optimal S (qpCost H g) x) (hx' : Optimal S' (qpCost H' g') x') :
    taskError n l1 x' ≤ taskError n l1 x := by
  obtain ⟨k0, k1, e1, e2, e3⟩ := C84_cycle h hno hu hc hc' hs
  rw [hp] at e1
  rw [hq] at e2
  simp only [List.cons.injEq, and_true] at e1 e2
  obtain ⟨rfl, rfl⟩ := e1
  obtain ⟨rfl, rfl⟩ := e2
  rw [e3] at hS'
  exact (C84_monotone hw hww ((hS x).1 hx) ((hS' x').1 hx')).1

end Whole

end Tsid.Props
