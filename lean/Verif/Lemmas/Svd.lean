import Verif.Spec.MathUtils
import Mathlib.Tactic.Ring
import Mathlib.Tactic.Linarith
import Mathlib.Tactic.FieldSimp
import Mathlib.Tactic.LinearCombination
import Mathlib.Tactic.Positivity
import Mathlib.Tactic.Abel

/-!
# Matrices given by a singular value decomposition
-/

set_option linter.unusedSectionVars false

namespace Tsid

open Finset Matrix Spec

variable {K : Type} [Field K]

section algebra
variable {m n k : Type} [Fintype m] [Fintype n] [Fintype k] [DecidableEq k]

theorem core_mul' {U : Matrix m k K} {V : Matrix n k K} {p : Type} [Fintype p] {W : Matrix p k K} (hV : Vᵀ * V = 1)
    (s t : k → K) :
    (U * diagonal s * Vᵀ) * (V * diagonal t * Wᵀ) = U * diagonal (fun l => s l * t l) * Wᵀ := by
  calc (U * diagonal s * Vᵀ) * (V * diagonal t * Wᵀ) = U * diagonal s * (Vᵀ * V) * diagonal t * Wᵀ := by
        simp only [Matrix.mul_assoc]
    _ = U * diagonal (fun l => s l * t l) * Wᵀ := by
        rw [hV, Matrix.mul_one, Matrix.mul_assoc U, Matrix.diagonal_mul_diagonal]

theorem core_transpose (U : Matrix m k K) (V : Matrix n k K) (s : k → K) :
    (U * diagonal s * Vᵀ)ᵀ = V * diagonal s * Uᵀ := by
  simp only [Matrix.transpose_mul, Matrix.transpose_transpose, Matrix.diagonal_transpose, Matrix.mul_assoc]

/-- Moore-Penrose inverse of a matrix with orthonormal factors. -/
theorem core_penrose [LinearOrder K] {U : Matrix m k K} {V : Matrix n k K} (hU : Uᵀ * U = 1) (hV : Vᵀ * V = 1)
    {s t : k → K} (hs : ∀ l, s l * t l * s l = s l) (ht : ∀ l, t l * s l * t l = t l) :
    Penrose (U * diagonal s * Vᵀ) (V * diagonal t * Uᵀ) := by
  have e1 := core_mul' (U := U) (W := U) hV s t
  have e2 := core_mul' (U := V) (W := V) hU t s
  constructor
  · rw [e1, core_mul' hU]; congr 3; funext l; exact hs l
  · rw [e2, core_mul' hV]; congr 3; funext l; exact ht l
  · rw [e1, core_transpose]
  · rw [e2, core_transpose]

/-- The Moore-Penrose inverse is unique. -/
theorem Spec.Penrose.unique [LinearOrder K] {A : Matrix m n K} {X Y : Matrix n m K} (hX : Penrose A X)
    (hY : Penrose A Y) : X = Y := by
  have e1 : A * X = A * Y := by
    calc A * X = (A * Y) * (A * X) := by rw [← Matrix.mul_assoc, hY.axa]
      _ = (A * Y)ᵀ * (A * X)ᵀ := by rw [hY.ax, hX.ax]
      _ = ((A * X) * (A * Y))ᵀ := by rw [Matrix.transpose_mul (A * X)]
      _ = A * Y := by rw [← Matrix.mul_assoc, hX.axa, hY.ax]
  have e2 : X * A = Y * A := by
    calc X * A = (X * A) * (Y * A) := by rw [Matrix.mul_assoc X, ← Matrix.mul_assoc A, hY.axa]
      _ = (X * A)ᵀ * (Y * A)ᵀ := by rw [hX.xa, hY.xa]
      _ = ((Y * A) * (X * A))ᵀ := by rw [Matrix.transpose_mul (Y * A)]
      _ = Y * A := by rw [Matrix.mul_assoc Y, ← Matrix.mul_assoc A, hX.axa, hY.xa]
  calc X = X * A * X := hX.xax.symm
    _ = Y * A * X := by rw [e2]
    _ = Y * A * Y := by rw [Matrix.mul_assoc, e1, Matrix.mul_assoc]
    _ = Y := hY.xax

variable [LinearOrder K] [IsStrictOrderedRing K]

theorem dot_self_nonneg (x : n → K) : 0 ≤ x ⬝ᵥ x := by
  exact Finset.sum_nonneg fun i _ => mul_self_nonneg _

theorem dot_self_eq_zero {x : n → K} (h : x ⬝ᵥ x = 0) : x = 0 := by
  funext i
  have := (Finset.sum_eq_zero_iff_of_nonneg fun i _ => mul_self_nonneg (x i)).1 h i (Finset.mem_univ i)
  exact mul_self_eq_zero.1 this

/-- Regularised least squares around a solution of the normal equations. -/
theorem regularised_expand {A : Matrix m n K} {b : m → K} {damping : K} {x : n → K}
    (h : Aᵀ *ᵥ (A *ᵥ x) + damping ^ 2 • x = Aᵀ *ᵥ b) (y : n → K) :
    regularised A b damping y = regularised A b damping x + ((A *ᵥ (y - x)) ⬝ᵥ (A *ᵥ (y - x)) +
      damping ^ 2 * ((y - x) ⬝ᵥ (y - x))) := by
  obtain ⟨z, rfl⟩ : ∃ z, y = x + z := ⟨y - x, by simp⟩
  have e1 : A *ᵥ (x + z) - b = (A *ᵥ x - b) + A *ᵥ z := by rw [Matrix.mulVec_add]; abel
  have h2 : (A *ᵥ x - b) ⬝ᵥ (A *ᵥ z) + damping ^ 2 * (x ⬝ᵥ z) = 0 := by
    have h3 : (Aᵀ *ᵥ (A *ᵥ x - b) + damping ^ 2 • x) ⬝ᵥ z = 0 := by
      rw [Matrix.mulVec_sub, sub_add_eq_add_sub, h, sub_self, zero_dotProduct]
    rw [add_dotProduct, smul_dotProduct, smul_eq_mul] at h3
    rw [← h3, Matrix.mulVec_transpose, Matrix.dotProduct_mulVec]
  simp only [regularised, add_sub_cancel_left, e1]
  simp only [add_dotProduct, dotProduct_add]
  rw [dotProduct_comm (A *ᵥ z) (A *ᵥ x - b), dotProduct_comm z x]
  linear_combination 2 * h2

theorem regularised_unique {A : Matrix m n K} {b : m → K} {damping : K} (hd : damping ≠ 0) {x : n → K}
    (h : Aᵀ *ᵥ (A *ᵥ x) + damping ^ 2 • x = Aᵀ *ᵥ b) : UniqueMin (regularised A b damping) x := by
  intro y
  have e := regularised_expand h y
  have h1 := dot_self_nonneg (A *ᵥ (y - x))
  have h2 := dot_self_nonneg (y - x)
  have hd2 : 0 < damping ^ 2 := by positivity
  have h3 : 0 ≤ damping ^ 2 * ((y - x) ⬝ᵥ (y - x)) := mul_nonneg hd2.le h2
  refine ⟨by linarith, fun h4 => ?_⟩
  have h5 : damping ^ 2 * ((y - x) ⬝ᵥ (y - x)) = 0 := by linarith
  exact sub_eq_zero.1 (dot_self_eq_zero ((mul_eq_zero.1 h5).resolve_left hd2.ne'))

/-- The damped solution solves the normal equations. -/
theorem core_normal {U : Matrix m k K} {V : Matrix n k K} (hU : Uᵀ * U = 1) (hV : Vᵀ * V = 1) {s t : k → K}
    {damping : K} (hs : ∀ l, s l * s l * t l + damping ^ 2 * t l = s l) (b : m → K) :
    (U * diagonal s * Vᵀ)ᵀ *ᵥ ((U * diagonal s * Vᵀ) *ᵥ ((V * diagonal t * Uᵀ) *ᵥ b)) +
      damping ^ 2 • ((V * diagonal t * Uᵀ) *ᵥ b) = (U * diagonal s * Vᵀ)ᵀ *ᵥ b := by
  rw [core_transpose, Matrix.mulVec_mulVec, core_mul' hU, Matrix.mulVec_mulVec, core_mul' hV, ← Matrix.smul_mulVec,
    ← Matrix.add_mulVec]
  congr 1
  rw [← Matrix.smul_mul, ← Matrix.mul_smul, ← Matrix.add_mul, ← Matrix.mul_add]
  congr 2
  rw [← Matrix.diagonal_smul, Matrix.diagonal_add]
  congr 1
  funext l
  simpa [smul_eq_mul] using hs l

/-- Without damping the pseudo-inverse gives, among the minimisers, the one of least norm. -/
theorem core_least_norm {U : Matrix m k K} {V : Matrix n k K} (hU : Uᵀ * U = 1) (hV : Vᵀ * V = 1) {s t : k → K}
    (hs : ∀ l, s l * s l * t l = s l) (ht : ∀ l, s l = 0 → t l = 0) (b : m → K) (y : n → K)
    (h : regularised (U * diagonal s * Vᵀ) b 0 y =
      regularised (U * diagonal s * Vᵀ) b 0 ((V * diagonal t * Uᵀ) *ᵥ b)) :
    ((V * diagonal t * Uᵀ) *ᵥ b) ⬝ᵥ ((V * diagonal t * Uᵀ) *ᵥ b) ≤ y ⬝ᵥ y := by
  have hn := core_normal hU hV (damping := 0) (s := s) (t := t) (fun l => by simpa using hs l) b
  have e := regularised_expand hn y
  set x := (V * diagonal t * Uᵀ) *ᵥ b with hx
  obtain ⟨z, rfl⟩ : ∃ z, y = x + z := ⟨y - x, by simp⟩
  simp only [add_sub_cancel_left] at e
  have h0 : (U * diagonal s * Vᵀ) *ᵥ z = 0 := by
    apply dot_self_eq_zero
    have : (0 : K) ^ 2 * (z ⬝ᵥ z) = 0 := by simp
    linarith
  have h1 : ∀ l, s l * (Vᵀ *ᵥ z) l = 0 := by
    intro l
    have h2 : Uᵀ *ᵥ ((U * diagonal s * Vᵀ) *ᵥ z) = 0 := by rw [h0, Matrix.mulVec_zero]
    rw [Matrix.mulVec_mulVec, ← Matrix.mul_assoc, ← Matrix.mul_assoc, hU, Matrix.one_mul, ← Matrix.mulVec_mulVec] at h2
    have h3 := congrFun h2 l
    rwa [Matrix.mulVec_diagonal] at h3
  have h4 : diagonal t *ᵥ (Vᵀ *ᵥ z) = 0 := by
    funext l
    rw [Matrix.mulVec_diagonal]
    rcases mul_eq_zero.1 (h1 l) with h5 | h5
    · rw [ht l h5, zero_mul, Pi.zero_apply]
    · rw [h5, mul_zero, Pi.zero_apply]
  have h5 : x ⬝ᵥ z = 0 := by
    rw [dotProduct_comm, hx, Matrix.dotProduct_mulVec, ← Matrix.mulVec_transpose, core_transpose, Matrix.mul_assoc,
      ← Matrix.mulVec_mulVec, ← Matrix.mulVec_mulVec, h4, Matrix.mulVec_zero, zero_dotProduct]
  simp only [add_dotProduct, dotProduct_add]
  rw [dotProduct_comm z x, h5]
  have := dot_self_nonneg z
  linarith

end algebra

variable [LinearOrder K]

theorem orthonormal_mat {r k k' : Nat} {M : Mat K} (h : OrthoCols r k' M) (hk : k ≤ k') :
    (mathlibMat r k M)ᵀ * mathlibMat r k M = 1 := by
  ext a b
  rw [Matrix.mul_apply, Matrix.one_apply]
  simp only [Matrix.transpose_apply, mathlibMat, Matrix.of_apply]
  rw [Fin.sum_univ_eq_sum_range (fun i => M i a * M i b) r, h a b (by omega) (by omega)]
  simp only [Fin.ext_iff]

theorem factor_mat {m n k : Nat} {A U V : Mat K} {s : Nat → K}
    (h : ∀ i j, i < m → j < n → A i j = ∑ l ∈ range k, U i l * s l * V j l) :
    mathlibMat m n A = mathlibMat m k U * diagonal (fun l : Fin k => s l) * (mathlibMat n k V)ᵀ := by
  ext i j
  rw [Matrix.mul_apply]
  simp only [Matrix.mul_diagonal, Matrix.transpose_apply, mathlibMat, Matrix.of_apply]
  rw [h i j i.2 j.2, Fin.sum_univ_eq_sum_range (fun l => U i l * s l * V j l) k]

/-- Counting the singular values above a threshold, in decreasing order. -/
theorem count_sorted {k : Nat} {s : Nat → K} (h : ∀ l l', l ≤ l' → l' < k → s l' ≤ s l) (tol : K) {l : Nat}
    (hl : l < k) : tol < s l ↔ l < ((range k).filter fun l => tol < s l).card := by
  constructor
  · intro h1
    have : range (l + 1) ⊆ (range k).filter fun l => tol < s l := by
      intro a ha
      have := mem_range.1 ha
      exact mem_filter.2 ⟨mem_range.2 (by omega), lt_of_lt_of_le h1 (h a l (by omega) hl)⟩
    have := card_le_card this
    rw [card_range] at this
    omega
  · intro h1
    by_contra h2
    have : ((range k).filter fun l => tol < s l) ⊆ range l := by
      intro a ha
      obtain ⟨h3, h4⟩ := mem_filter.1 ha
      rw [mem_range] at h3 ⊢
      by_contra h5
      exact h2 (lt_of_lt_of_le h4 (h l a (by omega) h3))
    have := card_le_card this
    rw [card_range] at this
    omega

/-- The last columns of a square orthonormal matrix span the null space, if the other singular values are not zero. -/
theorem core_null {m n k r : Nat} {A U V : Mat K} {s : Nat → K} (hk : k ≤ n) (hr : r ≤ k)
    (hU : OrthoCols m k U) (hV : OrthoCols n n V)
    (hA : ∀ i j, i < m → j < n → A i j = ∑ l ∈ range k, U i l * s l * V j l)
    (h1 : ∀ l, l < r → s l ≠ 0) (h0 : ∀ l, r ≤ l → l < k → s l = 0) :
    NullBasis (mathlibMat m n A) (mathlibMat n (n - r) ⟨n, n - r, fun i j => V i (r + j)⟩) := by
  constructor
  · ext a b
    rw [Matrix.mul_apply, Matrix.one_apply]
    simp only [Matrix.transpose_apply, mathlibMat, Matrix.of_apply]
    rw [Fin.sum_univ_eq_sum_range (fun i => V i (r + a) * V i (r + b)) n, hV _ _ (by omega) (by omega)]
    simp only [Fin.ext_iff, Nat.add_left_cancel_iff]
  · ext i j
    rw [Matrix.mul_apply, Matrix.zero_apply]
    simp only [mathlibMat, Matrix.of_apply]
    have e1 : ∀ x : Fin n, A i x * V x (r + j) = ∑ l ∈ range k, U i l * s l * (V x l * V x (r + j)) := by
      intro x
      rw [hA i x i.2 x.2, Finset.sum_mul]
      exact Finset.sum_congr rfl fun l _ => by ring
    rw [Finset.sum_congr rfl fun x _ => e1 x, Finset.sum_comm]
    refine Finset.sum_eq_zero fun l hl => ?_
    rw [mem_range] at hl
    rw [← Finset.mul_sum, Fin.sum_univ_eq_sum_range (fun x => V x l * V x (r + j)) n, hV _ _ (by omega) (by omega)]
    by_cases h2 : l < r
    · rw [if_neg (by omega), mul_zero]
    · rw [h0 l (by omega) hl, mul_zero, zero_mul]
  · intro x hx
    have hVV : (mathlibMat n n V) * (mathlibMat n n V)ᵀ = 1 := mul_eq_one_comm.1 (orthonormal_mat hV le_rfl)
    have hUU := orthonormal_mat hU le_rfl
    set y := (mathlibMat n n V)ᵀ *ᵥ x with hy
    have e1 : x = (mathlibMat n n V) *ᵥ y := by rw [hy, Matrix.mulVec_mulVec, hVV, Matrix.one_mulVec]
    have e2 : ∀ l : Fin n, (l : Nat) < r → y l = 0 := by
      intro l hl
      rw [factor_mat hA, ← Matrix.mulVec_mulVec, ← Matrix.mulVec_mulVec] at hx
      have e3 : (mathlibMat m k U)ᵀ *ᵥ ((mathlibMat m k U) *ᵥ ((diagonal fun l : Fin k => s l) *ᵥ
          ((mathlibMat n k V)ᵀ *ᵥ x))) = 0 := by rw [hx, Matrix.mulVec_zero]
      rw [Matrix.mulVec_mulVec, hUU, Matrix.one_mulVec] at e3
      have e4 := congrFun e3 ⟨l, by omega⟩
      rw [Matrix.mulVec_diagonal] at e4
      exact (mul_eq_zero.1 e4).resolve_left (h1 l hl)
    refine ⟨fun j => y ⟨r + j, by omega⟩, ?_⟩
    funext i
    conv_lhs => rw [e1]
    simp only [Matrix.mulVec, dotProduct, mathlibMat, Matrix.of_apply]
    let g : Nat → K := fun l => if h : l < n then V i l * y ⟨l, h⟩ else 0
    have e5 : ∑ l : Fin n, V i l * y l = ∑ l ∈ range n, g l := by
      rw [← Fin.sum_univ_eq_sum_range]
      exact Finset.sum_congr rfl fun l _ => by simp only [g, l.2, dif_pos]
    have e6 : ∑ j : Fin (n - r), V i (r + j) * y ⟨r + j, by omega⟩ = ∑ j ∈ range (n - r), g (r + j) := by
      rw [← Fin.sum_univ_eq_sum_range (fun j => g (r + j))]
      exact Finset.sum_congr rfl fun j _ => by
        have : r + (j : Nat) < n := by omega
        simp only [g, this, dif_pos]
    rw [e5, e6]
    conv_lhs => rw [show n = r + (n - r) by omega, Finset.sum_range_add]
    rw [Finset.sum_eq_zero, zero_add]
    intro l hl
    rw [mem_range] at hl
    have h2 : l < n := by omega
    simp only [g, h2, dif_pos, e2 ⟨l, h2⟩ hl, mul_zero]

end Tsid
