import Verif.Spec.Contact
import Mathlib.Tactic.LinearCombination
import Mathlib.Tactic.Linarith
import Mathlib.Tactic.FieldSimp
import Mathlib.Tactic.Positivity
import Mathlib.LinearAlgebra.Matrix.NonsingularInverse
import Mathlib.LinearAlgebra.Matrix.Notation

/-!
# Algebra of contact forces
-/

set_option linter.unusedSectionVars false

namespace Tsid

open Finset Spec

variable {K : Type} [Field K]

theorem sum_triples (g : Nat → K) : ∀ np : Nat,
    ∑ c ∈ range (3 * np), g c = ∑ j ∈ range np, (g (3 * j) + g (3 * j + 1) + g (3 * j + 2)) := by
  intro np
  induction np with
  | zero => simp
  | succ np ih =>
    rw [show 3 * (np + 1) = 3 * np + 1 + 1 + 1 by omega, sum_range_succ, sum_range_succ, sum_range_succ, ih,
      sum_range_succ]
    ring

/-- Parseval's identity in an orthonormal frame. -/
theorem parseval {a b c : V3 K} (h : Orthonormal a b c) (f : V3 K) :
    a.dot f * a.dot f + b.dot f * b.dot f + c.dot f * c.dot f = f.dot f := by
  obtain ⟨h1, h2, h3, h4, h5, h6⟩ := h
  let M : Matrix (Fin 3) (Fin 3) K := !![a.x, a.y, a.z; b.x, b.y, b.z; c.x, c.y, c.z]
  have hM : M * M.transpose = 1 := by
    simp only [V3.dot] at h1 h2 h3 h4 h5 h6
    ext i j
    fin_cases i <;> fin_cases j <;>
      simp [M, Matrix.mul_apply, Fin.sum_univ_three, Matrix.transpose_apply, Matrix.of_apply] <;>
      first
        | linear_combination h1 | linear_combination h2 | linear_combination h3
        | linear_combination h4 | linear_combination h5 | linear_combination h6
  have hM' : M.transpose * M = 1 := mul_eq_one_comm.1 hM
  have g : ∀ i j, (M.transpose * M) i j = (1 : Matrix (Fin 3) (Fin 3) K) i j := fun i j => by rw [hM']
  have g00 := g 0 0
  have g11 := g 1 1
  have g22 := g 2 2
  have g01 := g 0 1
  have g02 := g 0 2
  have g12 := g 1 2
  simp [M, Matrix.mul_apply, Fin.sum_univ_three, Matrix.transpose_apply, Matrix.of_apply] at g00 g11 g22 g01 g02 g12
  simp only [V3.dot]
  linear_combination f.x * f.x * g00 + f.y * f.y * g11 + f.z * f.z * g22 + 2 * f.x * f.y * g01 +
    2 * f.x * f.z * g02 + 2 * f.y * f.z * g12

/-- Squared length of the tangential component. -/
theorem tangential_sq {a b n : V3 K} (h : Orthonormal a b n) (f : V3 K) :
    (tangential n f).dot (tangential n f) = a.dot f * a.dot f + b.dot f * b.dot f := by
  have hp := parseval h f
  have h3 := h.2.2.1
  unfold tangential
  simp only [V3.dot, V3.smul] at hp h3 ⊢
  show (f.x - _) * (f.x - _) + (f.y - _) * (f.y - _) + (f.z - _) * (f.z - _) = _
  linear_combination (n.x * f.x + n.y * f.y + n.z * f.z) * (n.x * f.x + n.y * f.y + n.z * f.z) * h3 - hp

namespace Contact

variable [LinearOrder K] [HasSqrt K]

theorem row_friction (np : Nat) (n : V3 K) (mu : K) (f : Nat → K) {i q : Nat} (hi : i < np) (hq : q < 4) :
    row (frictionMat np n mu) f (4 * i + q) = (frictionRow n mu q).dot (cornerForce f i) := by
  unfold row frictionMat
  dsimp only
  rw [sum_triples, sum_eq_single i]
  · have h1 : ¬ 4 * i + q = 4 * np := by omega
    have h2 : (4 * i + q) / 4 = i := by omega
    have h3 : (4 * i + q) % 4 = q := by omega
    have a1 : 3 * i / 3 = i := by omega
    have a2 : (3 * i + 1) / 3 = i := by omega
    have a3 : (3 * i + 2) / 3 = i := by omega
    have b1 : 3 * i % 3 = 0 := by omega
    have b2 : (3 * i + 1) % 3 = 1 := by omega
    have b3 : (3 * i + 2) % 3 = 2 := by omega
    simp only [h1, h2, h3, a1, a2, a3, b1, b2, b3, if_true, if_false, V3.get, V3.dot, cornerForce]
  · intro j _ hj
    have h1 : ¬ 4 * i + q = 4 * np := by omega
    have h2 : (4 * i + q) / 4 = i := by omega
    have a1 : ¬ 3 * j / 3 = i := by omega
    have a2 : ¬ (3 * j + 1) / 3 = i := by omega
    have a3 : ¬ (3 * j + 2) / 3 = i := by omega
    simp only [h1, h2, a1, a2, a3, if_false]
    ring
  · intro h
    exact absurd (mem_range.2 hi) h

theorem row_normal (np : Nat) (n : V3 K) (mu : K) (f : Nat → K) :
    row (frictionMat np n mu) f (4 * np) = ∑ i ∈ range np, n.dot (cornerForce f i) := by
  unfold row frictionMat
  dsimp only
  rw [sum_triples]
  apply sum_congr rfl
  intro i _
  have b1 : 3 * i % 3 = 0 := by omega
  have b2 : (3 * i + 1) % 3 = 1 := by omega
  have b3 : (3 * i + 2) % 3 = 2 := by omega
  simp only [if_true, b1, b2, b3, V3.get, V3.dot, cornerForce]

variable [IsStrictOrderedRing K]

theorem pyramid_rows (n : V3 K) (mu : K) (f : V3 K) :
    (∀ q, q < 4 → -(10 ^ 10) ≤ (frictionRow n mu q).dot f ∧ (frictionRow n mu q).dot f ≤ 0) ↔
      Pyramid n (tangent1 n) (tangent2 n) mu f ∧ BelowLimit n (tangent1 n) (tangent2 n) mu f := by
  have e0 : (frictionRow n mu 0).dot f = -(tangent1 n).dot f - mu * n.dot f := by
    simp only [frictionRow, V3.dot, V3.smul]; show (-_ - _) * _ + (-_ - _) * _ + (-_ - _) * _ = _; ring
  have e1 : (frictionRow n mu 1).dot f = (tangent1 n).dot f - mu * n.dot f := by
    simp only [frictionRow, V3.dot, V3.smul]; show (_ - _) * _ + (_ - _) * _ + (_ - _) * _ = _; ring
  have e2 : (frictionRow n mu 2).dot f = -(tangent2 n).dot f - mu * n.dot f := by
    simp only [frictionRow, V3.dot, V3.smul]; show (-_ - _) * _ + (-_ - _) * _ + (-_ - _) * _ = _; ring
  have e3 : (frictionRow n mu 3).dot f = (tangent2 n).dot f - mu * n.dot f := by
    simp only [frictionRow, V3.dot, V3.smul]; show (_ - _) * _ + (_ - _) * _ + (_ - _) * _ = _; ring
  unfold Pyramid BelowLimit
  constructor
  · intro h
    have h0 := h 0 (by omega)
    have h1 := h 1 (by omega)
    have h2 := h 2 (by omega)
    have h3 := h 3 (by omega)
    rw [e0] at h0
    rw [e1] at h1
    rw [e2] at h2
    rw [e3] at h3
    refine ⟨⟨abs_le.2 ⟨by linarith, by linarith⟩, abs_le.2 ⟨by linarith, by linarith⟩⟩, ?_, ?_⟩
    · rcases abs_cases ((tangent1 n).dot f) with ⟨e, -⟩ | ⟨e, -⟩ <;> rw [e] <;> linarith
    · rcases abs_cases ((tangent2 n).dot f) with ⟨e, -⟩ | ⟨e, -⟩ <;> rw [e] <;> linarith
  · rintro ⟨⟨p1, p2⟩, l1, l2⟩ q hq
    have a1 := le_abs_self ((tangent1 n).dot f)
    have a2 := neg_le_abs ((tangent1 n).dot f)
    have a3 := le_abs_self ((tangent2 n).dot f)
    have a4 := neg_le_abs ((tangent2 n).dot f)
    obtain rfl | rfl | rfl | rfl : q = 0 ∨ q = 1 ∨ q = 2 ∨ q = 3 := by omega
    · rw [e0]; constructor <;> linarith
    · rw [e1]; constructor <;> linarith
    · rw [e2]; constructor <;> linarith
    · rw [e3]; constructor <;> linarith

/-- The friction constraint, read point by point. -/
theorem sat_friction {np : Nat} {n : V3 K} {mu fMin fMax : K} {name : String} {vec : Vec K} (f : Nat → K) :
    Sat ⟨name, .inequality, frictionMat np n mu, vec, frictionLb np fMin, frictionUb np fMax⟩ f ↔
      (∀ i, i < np → Pyramid n (tangent1 n) (tangent2 n) mu (cornerForce f i) ∧
        BelowLimit n (tangent1 n) (tangent2 n) mu (cornerForce f i)) ∧
      fMin ≤ ∑ i ∈ range np, n.dot (cornerForce f i) ∧ ∑ i ∈ range np, n.dot (cornerForce f i) ≤ fMax := by
  unfold Sat
  dsimp only
  have hr : (frictionMat np n mu).rows = 4 * np + 1 := rfl
  rw [hr]
  constructor
  · intro h
    constructor
    · intro i hi
      rw [← pyramid_rows]
      intro q hq
      have := h (4 * i + q) (by omega)
      rw [row_friction np n mu f hi hq] at this
      simpa only [frictionLb, frictionUb, show ¬ 4 * i + q = 4 * np by omega, if_false] using this
    · have := h (4 * np) (by omega)
      rw [row_normal] at this
      simpa only [frictionLb, frictionUb, if_true] using this
  · rintro ⟨h1, h2⟩ r hr
    by_cases e : r = 4 * np
    · subst e
      rw [row_normal]
      simpa only [frictionLb, frictionUb, if_true] using h2
    · have hi : r / 4 < np := by omega
      have hq : r % 4 < 4 := by omega
      have er : r = 4 * (r / 4) + r % 4 := by omega
      have := (pyramid_rows n mu (cornerForce f (r / 4))).2 (h1 _ hi) (r % 4) hq
      rw [← row_friction np n mu f hi hq, ← er] at this
      simpa only [frictionLb, frictionUb, e, if_false] using this

variable [LawfulSqrt K]

theorem norm_sq (a : V3 K) : a.norm * a.norm = a.dot a := by
  refine LawfulSqrt.sq_sqrt _ ?_
  unfold V3.dot
  nlinarith [mul_self_nonneg a.x, mul_self_nonneg a.y, mul_self_nonneg a.z]

theorem normalized_unit {a : V3 K} (h : 0 < a.dot a) : a.normalized.dot a.normalized = 1 := by
  have hn : a.norm ≠ 0 := by
    intro e
    have := norm_sq a
    rw [e] at this
    simp at this
    exact absurd this.symm h.ne'
  have h2 := norm_sq a
  unfold V3.normalized
  rw [if_pos h]
  simp only [V3.dot] at h2 ⊢
  field_simp
  linear_combination -h2

theorem normalized_dot {a b : V3 K} (h : 0 < a.dot a) : a.normalized.dot b = a.dot b / a.norm := by
  unfold V3.normalized
  rw [if_pos h]
  simp only [V3.dot]
  ring

theorem dot_comm (a b : V3 K) : a.dot b = b.dot a := by unfold V3.dot; ring

theorem rawT1_pos {n : V3 K} (h : n.dot n = 1) : 0 < (rawT1 n).dot (rawT1 n) := by
  have hs := norm_sq (n.cross V3.unitX)
  have h0 : 0 ≤ (n.cross V3.unitX).norm := LawfulSqrt.sqrt_nonneg _
  simp only [V3.dot, V3.cross, V3.unitX] at hs h
  unfold rawT1
  dsimp only
  split
  · next hlt =>
    have : (n.cross V3.unitX).norm * (n.cross V3.unitX).norm < 1 / 100000 * (1 / 100000) :=
      mul_self_lt_mul_self h0 hlt
    simp only [V3.cross, V3.unitX] at this
    simp only [V3.dot, V3.cross, V3.unitY]
    nlinarith
  · next hge =>
    push Not at hge
    have : 1 / 100000 * (1 / 100000) ≤ (n.cross V3.unitX).norm * (n.cross V3.unitX).norm :=
      mul_self_le_mul_self (by norm_num) hge
    simp only [V3.dot]
    simp only [V3.cross, V3.unitX] at this ⊢
    nlinarith

theorem rawT1_orth (n : V3 K) : n.dot (rawT1 n) = 0 := by
  unfold rawT1
  dsimp only
  split <;> simp only [V3.dot, V3.cross, V3.unitX, V3.unitY] <;> ring

/-- The tangents and a unit normal are orthonormal. -/
theorem tangents_orthonormal {n : V3 K} (h : n.dot n = 1) : Orthonormal (tangent1 n) (tangent2 n) n := by
  have p1 := rawT1_pos h
  have o1 := rawT1_orth n
  have e2 : (n.cross (rawT1 n)).dot (n.cross (rawT1 n)) = (rawT1 n).dot (rawT1 n) := by
    have : (n.cross (rawT1 n)).dot (n.cross (rawT1 n)) =
        n.dot n * (rawT1 n).dot (rawT1 n) - n.dot (rawT1 n) * n.dot (rawT1 n) := by
      simp only [V3.dot, V3.cross]; ring
    rw [this, h, o1]; ring
  have p2 : 0 < (n.cross (rawT1 n)).dot (n.cross (rawT1 n)) := by rw [e2]; exact p1
  refine ⟨normalized_unit p1, normalized_unit p2, h, ?_, ?_, ?_⟩
  · unfold tangent1 tangent2
    rw [normalized_dot p1, dot_comm, normalized_dot p2]
    have : (n.cross (rawT1 n)).dot (rawT1 n) = 0 := by simp only [V3.dot, V3.cross]; ring
    rw [this]; simp
  · unfold tangent1
    rw [normalized_dot p1, dot_comm, o1]; simp
  · unfold tangent2
    rw [normalized_dot p2]
    have : (n.cross (rawT1 n)).dot n = 0 := by simp only [V3.dot, V3.cross]; ring
    rw [this]; simp

end Contact

end Tsid
