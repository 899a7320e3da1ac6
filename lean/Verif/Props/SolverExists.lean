import Verif.Props.SolverCost
import Mathlib.Topology.Instances.Real.Lemmas
import Mathlib.Topology.Order.Compact
import Mathlib.Topology.Algebra.Monoid
import Mathlib.Topology.Compactness.Compact

/-!
# C45: over the real numbers the regularised problem has a solution
-/

set_option linter.unusedSectionVars false

namespace Tsid.Props

open Finset Spec Solver

theorem continuous_row (A : Mat ℝ) (i : Nat) : Continuous fun x : Nat → ℝ => row A x i := by
  unfold row
  exact continuous_finsetSum _ fun j _ => continuous_const.mul (continuous_apply j)

theorem isClosed_sat (c : Constraint ℝ) : IsClosed {x | Sat c x} := by
  unfold Sat
  cases c.kind <;> simp only [Set.setOf_forall]
  · exact isClosed_iInter fun i => isClosed_iInter fun _ => isClosed_eq (continuous_row _ i) continuous_const
  · refine isClosed_iInter fun i => isClosed_iInter fun _ => ?_
    exact (isClosed_le continuous_const (continuous_row _ i)).inter (isClosed_le (continuous_row _ i) continuous_const)
  · refine isClosed_iInter fun i => isClosed_iInter fun _ => ?_
    exact (isClosed_le continuous_const (continuous_apply i)).inter (isClosed_le (continuous_apply i) continuous_const)

theorem isClosed_feasible (l : Level ℝ) : IsClosed {x | Feasible l x} := by
  unfold Feasible
  simp only [Set.setOf_forall]
  exact isClosed_iInter fun q => isClosed_iInter fun _ => isClosed_sat q.2

theorem continuous_lsqCost (l : Level ℝ) : Continuous fun x => lsqCost l x := by
  unfold lsqCost
  refine continuous_const.mul ?_
  induction l with
  | nil => simpa using continuous_const
  | cons q l ih =>
    simp only [List.map_cons, List.sum_cons]
    refine Continuous.add (continuous_const.mul ?_) ih
    unfold sqResidual
    refine continuous_finsetSum _ fun k _ => ?_
    have : Continuous fun x => Spec.residual q.2 x k := (continuous_row _ k).sub continuous_const
    exact this.mul this

theorem continuous_target (n : Nat) (r : Bool) (l : Level ℝ) : Continuous fun x => target n r l x := by
  unfold target
  refine (continuous_lsqCost l).add ?_
  split
  · refine continuous_const.mul (continuous_const.mul ?_)
    unfold sqNorm
    exact continuous_finsetSum _ fun i _ => (continuous_apply i).mul (continuous_apply i)
  · exact continuous_const

/-- First `n` entries, the others replaced by zero. -/
def trunc (n : Nat) (x : Nat → ℝ) : Nat → ℝ := fun i => if i < n then x i else 0

theorem row_trunc {A : Mat ℝ} {n : Nat} (h : A.cols = n) (x : Nat → ℝ) (i : Nat) : row A (trunc n x) i = row A x i := by
  unfold row trunc
  apply sum_congr rfl
  intro j hj
  rw [mem_range, h] at hj
  simp [hj]

theorem sat_trunc {c : Constraint ℝ} {n : Nat} (hw : WellFormed c) (h : c.cols = n) (x : Nat → ℝ) :
    Sat c (trunc n x) ↔ Sat c x := by
  unfold Sat
  unfold Constraint.cols at h
  unfold WellFormed at hw
  cases hk : c.kind <;> simp only [hk] at h hw ⊢
  · simp only [row_trunc h]
  · simp only [row_trunc h]
  · refine forall_congr' fun i => forall_congr' fun hi => ?_
    unfold trunc
    rw [if_pos (by omega)]

theorem target_trunc {l : Level ℝ} {n : Nat} (he : AllEq l) (h : LevelOK n l) (r : Bool) (x : Nat → ℝ) :
    target n r l (trunc n x) = target n r l x := by
  have h1 : lsqCost l (trunc n x) = lsqCost l x := by
    unfold lsqCost
    congr 2
    apply List.map_congr_left
    intro q hq
    have hc := (h q hq).2
    unfold Constraint.cols at hc
    simp only [he q hq] at hc
    unfold sqResidual Spec.residual
    simp only [row_trunc hc]
  have h2 : sqNorm n (trunc n x) = sqNorm n x := by
    unfold sqNorm trunc
    apply sum_congr rfl
    intro i hi
    rw [mem_range] at hi
    simp [hi]
  unfold target
  rw [h1, h2]

theorem lsqCost_nonneg {l : Level ℝ} (hw : ∀ q ∈ l, 0 ≤ q.1) (x : Nat → ℝ) : 0 ≤ lsqCost l x := by
  unfold lsqCost
  refine mul_nonneg (by norm_num) (List.sum_nonneg ?_)
  intro y hy
  obtain ⟨q, hq, rfl⟩ := List.mem_map.1 hy
  exact mul_nonneg (hw q hq) (sum_nonneg fun k _ => mul_self_nonneg _)

/-- The problem meant has a solution as soon as it is feasible. -/
theorem exists_optimal {n : Nat} {l0 l1 : Level ℝ} (ha : Admissible n l0 (some l1)) (hw : ∀ q ∈ l1, 0 ≤ q.1)
    (hf : ∃ x, Feasible l0 x) : ∃ x, Optimal (Feasible l0) (target n true l1) x := by
  obtain ⟨x0, hx0⟩ := hf
  obtain ⟨_, hl0, hl1⟩ := ha
  obtain ⟨he, hl1⟩ := hl1 l1 rfl
  have htr : ∀ x, Feasible l0 (trunc n x) ↔ Feasible l0 x := fun x =>
    forall_congr' fun q => forall_congr' fun hq => sat_trunc (hl0 q hq).1 (hl0 q hq).2 x
  set f : (Nat → ℝ) → ℝ := fun x => target n true l1 x with hfdef
  set M : ℝ := 2 * f x0 / defaultReg + 1 with hM
  have hpos : (0 : ℝ) < defaultReg := defaultReg_pos
  have hf0 : 0 ≤ f x0 := by
    simp only [hfdef, target, if_true]
    have := lsqCost_nonneg hw x0
    have h2 : 0 ≤ sqNorm n x0 := sum_nonneg fun i _ => mul_self_nonneg _
    have := mul_nonneg hpos.le h2
    linarith
  have hM1 : 1 ≤ M := by
    have : 0 ≤ 2 * f x0 / defaultReg := div_nonneg (by linarith) hpos.le
    linarith
  let box : Set (Nat → ℝ) := Set.univ.pi fun _ => Set.Icc (-M) M
  have hbox : IsCompact box := isCompact_univ_pi fun _ => isCompact_Icc
  have hclosed : IsClosed ({x | Feasible l0 x} ∩ {x | f x ≤ f x0}) :=
    (isClosed_feasible l0).inter (isClosed_le (continuous_target n true l1) continuous_const)
  have hin : ∀ x, f x ≤ f x0 → trunc n x ∈ box := by
    intro x hx i _
    unfold trunc
    split
    · next hi =>
      have h1 := lsqCost_nonneg hw x
      have h2 : x i * x i ≤ sqNorm n x :=
        single_le_sum (f := fun i => x i * x i) (fun j _ => mul_self_nonneg _) (mem_range.2 hi)
      have h3 : lsqCost l1 x + 1 / 2 * (defaultReg * sqNorm n x) ≤ f x0 := by
        simpa [hfdef, target] using hx
      have h4 : x i * x i ≤ 2 * f x0 / defaultReg := by
        rw [le_div_iff₀ hpos]
        have := mul_le_mul_of_nonneg_left h2 hpos.le
        linarith
      have h5 : x i * x i ≤ M * M := by nlinarith
      exact ⟨by nlinarith, by nlinarith⟩
    · exact ⟨by linarith, by linarith⟩
  have hf' : ∀ x, f (trunc n x) = f x := fun x => target_trunc he hl1 true x
  obtain ⟨x, hx, hmin⟩ := (hbox.inter_right hclosed).exists_isMinOn
    ⟨trunc n x0, hin x0 le_rfl, (htr x0).2 hx0, by simp [hf' x0]⟩ (continuous_target n true l1).continuousOn
  refine ⟨x, hx.2.1, fun y hy => ?_⟩
  by_cases hle : f y ≤ f x0
  · have := hmin (show trunc n y ∈ box ∩ ({x | Feasible l0 x} ∩ {x | f x ≤ f x0}) from
      ⟨hin y hle, (htr y).2 hy, by rw [Set.mem_setOf_eq, hf']; exact hle⟩)
    have h' : f x ≤ f (trunc n y) := this
    rw [hf'] at h'
    exact h'
  · exact hx.2.2.trans (not_le.1 hle).le

/-- **C45, existence and uniqueness.** If the constraints handed to the external solver mean level 0 (`C44_feasible_set`,
`C44_rt`, `C46_proxqp`, `C46_osqp`, `C47_qpmad_partial`) and the cost is the regularised one (`C45_cost`), the weights
are not negative and the problem is feasible, then there is exactly one optimal point. -/
theorem C45_solution {n : Nat} {l0 l1 : Level ℝ} (ha : Admissible n l0 (some l1)) (hw : ∀ q ∈ l1, 0 ≤ q.1)
    {S : (Nat → ℝ) → Prop} {H : Mat ℝ} {g : Vec ℝ} (hS : ∀ x, S x ↔ Feasible l0 x)
    (hH : ∃ k, ∀ x, qpCost H g x = target n true l1 x + k) (hf : ∃ x, Feasible l0 x) :
    ∃ x, Optimal S (qpCost H g) x ∧ ∀ y, Optimal S (qpCost H g) y → ∀ i, i < n → y i = x i := by
  obtain ⟨k, hk⟩ := hH
  obtain ⟨x, hx, hmin⟩ := exists_optimal ha hw hf
  have hp : PosDef n H := by
    intro x hx
    refine quad_pos (g := g) (l := l1) (k := -k) (ε := defaultReg) hw defaultReg_pos (fun x => ?_) x hx
    rw [hk, target, if_pos rfl]
    ring
  have hox : Optimal S (qpCost H g) x :=
    ⟨(hS x).2 hx, fun y hy => by rw [hk, hk]; linarith [hmin y ((hS y).1 hy)]⟩
  refine ⟨x, hox, fun y hy => optimal_unique (fun u v hu hv => ?_) hp hy hox⟩
  exact (hS _).2 (feasible_mid ((hS u).1 hu) ((hS v).1 hv))

/-- For instance with eiquadprog, after any history. -/
theorem C45_eiquadprog_solution (nd : Bool) {hist : List (SolverCall ℝ)}
    {s : Solver.State ℝ (EiqRows ℝ)} (hs : retrieves eiq nd Eiq.init hist = some s) (fresh : Nat → Nat → ℝ) (reg : Bool)
    {n : Nat} {l0 l1 : Level ℝ} (ha : Admissible n l0 (some l1)) (hw : ∀ q ∈ l1, 0 ≤ q.1) (hf : ∃ x, Feasible l0 x) :
    ∃ s', retrieve eiq fresh nd s [l0, l1] reg = .ok s' () ∧
      ∃ x, Optimal (EiqSat s'.rows) (qpCost s'.H s'.g) x ∧
        ∀ y, Optimal (EiqSat s'.rows) (qpCost s'.H s'.g) y → ∀ i, i < n → y i = x i := by
  obtain ⟨s', e, hn, hx⟩ := C44_feasible_set (.inl rfl) nd hs fresh reg (ls := [l1]) le_rfl ha
  obtain ⟨_, _, _, k, hk⟩ := (C45_cost nd).1 hist s fresh reg l0 l1 s' hs e
  exact ⟨s', e, C45_solution ha hw hx ⟨k, fun x => by rw [hk, hn]; rfl⟩ hf⟩

/-- A problem that meets the hypotheses. -/
example : Admissible 1 ([(1, ⟨"e", .equality, Mat.identity 1, ⟨1, fun _ => 2⟩, Vec.zero 0, Vec.zero 0⟩)] : Level ℝ)
      (some [(3, ⟨"c", .equality, Mat.identity 1, ⟨1, fun _ => 5⟩, Vec.zero 0, Vec.zero 0⟩)]) ∧
    ∃ x, Feasible ([(1, ⟨"e", .equality, Mat.identity 1, ⟨1, fun _ => 2⟩, Vec.zero 0, Vec.zero 0⟩)] : Level ℝ) x := by
  refine ⟨⟨by simp, ?_, ?_⟩, fun _ => 2, ?_⟩
  · intro q hq
    simp only [List.mem_singleton] at hq
    subst hq
    exact ⟨rfl, rfl⟩
  · intro l hl
    cases hl
    constructor <;> (intro q hq; simp only [List.mem_singleton] at hq; subst hq)
    · rfl
    · exact ⟨rfl, rfl⟩
  · intro q hq
    simp only [List.mem_singleton] at hq
    subst hq
    intro i hi
    obtain rfl : i = 0 := by simp only [Mat.identity] at hi; omega
    simp [row, Mat.identity]

end Tsid.Props
