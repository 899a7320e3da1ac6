import Verif.Lemmas.Solver

/-!
# Convexity of the feasible set and strict convexity of the cost
-/

set_option linter.unusedSectionVars false

namespace Tsid.Spec

open Finset

variable {K : Type} [Field K] [CharZero K] [LinearOrder K] [IsStrictOrderedRing K]

/-- Midpoint of two points. -/
def mid (x y : Nat → K) : Nat → K := fun i => (x i + y i) / 2

theorem row_mid (A : Mat K) (x y : Nat → K) (i : Nat) : row A (mid x y) i = (row A x i + row A y i) / 2 := by
  unfold row mid
  rw [← sum_add_distrib, div_eq_mul_inv, sum_mul]
  exact sum_congr rfl fun j _ => by ring

theorem row_sub (A : Mat K) (x y : Nat → K) (i : Nat) : row A (fun j => x j - y j) i = row A x i - row A y i := by
  unfold row
  rw [← sum_sub_distrib]
  exact sum_congr rfl fun j _ => by ring

theorem sat_mid {c : Constraint K} {x y : Nat → K} (hx : Sat c x) (hy : Sat c y) : Sat c (mid x y) := by
  unfold Sat at *
  cases hk : c.kind <;> simp only [hk] at hx hy ⊢
  · intro i hi
    rw [row_mid, hx i hi, hy i hi]; ring
  · intro i hi
    rw [row_mid]
    have := hx i hi
    have := hy i hi
    constructor <;> linarith
  · intro i hi
    have := hx i hi
    have := hy i hi
    unfold mid
    constructor <;> linarith

theorem feasible_mid {l : Level K} {x y : Nat → K} (hx : Feasible l x) (hy : Feasible l y) : Feasible l (mid x y) :=
  fun q hq => sat_mid (hx q hq) (hy q hq)

theorem qpCost_mid (H : Mat K) (g : Vec K) (x y : Nat → K) :
    qpCost H g x + qpCost H g y - 2 * qpCost H g (mid x y) = 1 / 4 * quad H fun i => x i - y i := by
  unfold qpCost quad
  simp only [row_mid, row_sub]
  have e1 : ∑ i ∈ range H.rows, mid x y i * ((row H x i + row H y i) / 2) =
      1 / 4 * (∑ i ∈ range H.rows, x i * row H x i + ∑ i ∈ range H.rows, y i * row H y i +
        (∑ i ∈ range H.rows, x i * row H y i + ∑ i ∈ range H.rows, y i * row H x i)) := by
    rw [← sum_add_distrib, ← sum_add_distrib, ← sum_add_distrib, mul_sum]
    exact sum_congr rfl fun i _ => by unfold mid; ring
  have e2 : ∑ i ∈ range H.rows, (x i - y i) * (row H x i - row H y i) =
      ∑ i ∈ range H.rows, x i * row H x i + ∑ i ∈ range H.rows, y i * row H y i -
        (∑ i ∈ range H.rows, x i * row H y i + ∑ i ∈ range H.rows, y i * row H x i) := by
    rw [← sum_add_distrib, ← sum_add_distrib, ← sum_sub_distrib]
    exact sum_congr rfl fun i _ => by ring
  have e3 : ∑ i ∈ range g.size, g i * mid x y i =
      1 / 2 * (∑ i ∈ range g.size, g i * x i + ∑ i ∈ range g.size, g i * y i) := by
    rw [← sum_add_distrib, mul_sum]
    exact sum_congr rfl fun i _ => by unfold mid; ring
  rw [e1, e2, e3]
  ring

/-- Points that are optimal over a set closed under midpoints agree where the quadratic form is positive definite. -/
theorem optimal_unique {S : (Nat → K) → Prop} {H : Mat K} {g : Vec K} {n : Nat}
    (hS : ∀ x y, S x → S y → S (mid x y)) (hH : ∀ d : Nat → K, (∃ i, i < n ∧ d i ≠ 0) → 0 < quad H d)
    {x y : Nat → K} (hx : Optimal S (qpCost H g) x) (hy : Optimal S (qpCost H g) y) : ∀ i, i < n → x i = y i := by
  intro i hi
  by_contra hne
  have hp := hH (fun i => x i - y i) ⟨i, hi, sub_ne_zero.2 hne⟩
  have h1 := hx.2 _ (hS x y hx.1 hy.1)
  have h2 := hy.2 _ (hS x y hx.1 hy.1)
  have := qpCost_mid H g x y
  linarith

/-- The quadratic form, from the objective alone. -/
theorem quad_eq (H : Mat K) (g : Vec K) (x : Nat → K) :
    quad H x = qpCost H g x + qpCost H g (fun i => - x i) - 2 * qpCost H g fun _ => 0 := by
  have := qpCost_mid H g x fun i => - x i
  have e : mid x (fun i => - x i) = fun _ => 0 := by funext i; simp [mid]
  have e2 : quad H (fun i => x i - - x i) = 4 * quad H x := by
    unfold quad row
    rw [mul_sum]
    apply sum_congr rfl
    intro i _
    have : ∑ j ∈ range H.cols, H i j * (x j - - x j) = 2 * ∑ j ∈ range H.cols, H i j * x j := by
      rw [mul_sum]; exact sum_congr rfl fun j _ => by ring
    rw [this]; ring
  rw [e, e2] at this
  linarith

theorem sqResidual_even (c : Constraint K) (x : Nat → K) :
    0 ≤ sqResidual c x + sqResidual c (fun i => - x i) - 2 * sqResidual c fun _ => 0 := by
  have : sqResidual c x + sqResidual c (fun i => - x i) - 2 * (sqResidual c fun _ => 0) =
      2 * ∑ k ∈ range c.mat.rows, row c.mat x k * row c.mat x k := by
    unfold sqResidual
    rw [mul_sum, mul_sum, ← sum_add_distrib, ← sum_sub_distrib]
    apply sum_congr rfl
    intro k _
    have e1 : row c.mat (fun i => - x i) k = - row c.mat x k := by
      unfold row; rw [← sum_neg_distrib]; exact sum_congr rfl fun j _ => by ring
    have e2 : row c.mat (fun _ => 0) k = 0 := by unfold row; simp
    simp only [residual, e1, e2]
    ring
  rw [this]
  exact mul_nonneg (by norm_num) (sum_nonneg fun k _ => mul_self_nonneg _)

theorem lsqCost_even {l : Level K} (hw : ∀ q ∈ l, 0 ≤ q.1) (x : Nat → K) :
    0 ≤ lsqCost l x + lsqCost l (fun i => - x i) - 2 * lsqCost l fun _ => 0 := by
  have key : ∀ l : Level K, (∀ q ∈ l, 0 ≤ q.1) → 0 ≤ (l.map fun q => q.1 * sqResidual q.2 x).sum +
      (l.map fun q => q.1 * sqResidual q.2 fun i => - x i).sum -
        2 * (l.map fun q => q.1 * sqResidual q.2 fun _ => 0).sum := by
    intro l
    induction l with
    | nil => intro _; simp
    | cons q l ih =>
      intro hw
      have h1 := ih fun q hq => hw q (by simp [hq])
      have h2 := mul_nonneg (hw q (by simp)) (sqResidual_even q.2 x)
      simp only [List.map_cons, List.sum_cons]
      linarith
  have := key l hw
  unfold lsqCost
  linarith

theorem sqNorm_pos {n : Nat} {x : Nat → K} (h : ∃ i, i < n ∧ x i ≠ 0) : 0 < sqNorm n x := by
  obtain ⟨i, hi, hx⟩ := h
  exact sum_pos' (fun j _ => mul_self_nonneg _) ⟨i, mem_range.2 hi, mul_self_pos.2 hx⟩

theorem sqNorm_neg (n : Nat) (x : Nat → K) : sqNorm n (fun i => - x i) = sqNorm n x := by
  unfold sqNorm; exact sum_congr rfl fun i _ => by ring

/-- The Hessian of a regularised least-squares cost with non-negative weights is positive definite. -/
theorem quad_pos {H : Mat K} {g : Vec K} {l : Level K} {k ε : K} {n : Nat} (hw : ∀ q ∈ l, 0 ≤ q.1) (hε : 0 < ε)
    (h : ∀ x, qpCost H g x = lsqCost l x - k + 1 / 2 * (ε * sqNorm n x)) (x : Nat → K) (hx : ∃ i, i < n ∧ x i ≠ 0) :
    0 < quad H x := by
  rw [quad_eq H g, h, h, h, sqNorm_neg]
  have h1 := lsqCost_even hw x
  have h2 := mul_pos hε (sqNorm_pos hx)
  have h3 : sqNorm n (fun _ => (0 : K)) = 0 := by simp [sqNorm]
  rw [h3]
  linarith

end Tsid.Spec
