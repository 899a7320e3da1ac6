import Verif.Spec.Quaternion
import Verif.Lemmas.Geometry
import Mathlib.Tactic.LinearCombination
import Mathlib.Tactic.Linarith
import Mathlib.Tactic.FieldSimp

/-!
# C98: poses with quaternions
-/

set_option linter.unusedSectionVars false

namespace Tsid.Props

open Spec
open scoped Quaternion

variable {K : Type} [Field K]

/-- The equations between the entries of a rotation: rows and columns have length one, every entry is its cofactor. -/
structure RotEntries (a b c d e f g h i : K) : Prop where
  r0 : a * a + b * b + c * c = 1
  r1 : d * d + e * e + f * f = 1
  r2 : g * g + h * h + i * i = 1
  c0 : a * a + d * d + g * g = 1
  c1 : b * b + e * e + h * h = 1
  c2 : c * c + f * f + i * i = 1
  r01 : a * d + b * e + c * f = 0
  r02 : a * g + b * h + c * i = 0
  r12 : d * g + e * h + f * i = 0
  c01 : a * b + d * e + g * h = 0
  c02 : a * c + d * f + g * i = 0
  c12 : b * c + e * f + h * i = 0
  ka : a = e * i - f * h
  kb : b = f * g - d * i
  kc : c = d * h - e * g
  kd : d = c * h - b * i
  ke : e = a * i - c * g
  kf : f = b * g - a * h
  kg : g = b * f - c * e
  kh : h = c * d - a * f
  ki : i = a * e - b * d

theorem entries_of {R : M3 K} (h : IsRotation R) :
    RotEntries R.c0.x R.c1.x R.c2.x R.c0.y R.c1.y R.c2.y R.c0.z R.c1.z R.c2.z := by
  obtain ⟨⟨h1, h2⟩, hd⟩ := h
  simp only [M3.mul, M3.transpose, M3.mulVec, M3.one, M3.mk.injEq, V3.mk.injEq] at h1 h2
  obtain ⟨⟨a1, a2, a3⟩, ⟨a4, a5, a6⟩, a7, a8, a9⟩ := h1
  obtain ⟨⟨b1, b2, b3⟩, ⟨b4, b5, b6⟩, b7, b8, b9⟩ := h2
  simp only [det3] at hd
  generalize R.c0.x = a at *
  generalize R.c1.x = b at *
  generalize R.c2.x = c at *
  generalize R.c0.y = d at *
  generalize R.c1.y = e at *
  generalize R.c2.y = f at *
  generalize R.c0.z = g at *
  generalize R.c1.z = h at *
  generalize R.c2.z = i at *
  constructor
  all_goals first
    | linear_combination b1
    | linear_combination b5
    | linear_combination b9
    | linear_combination a1
    | linear_combination a5
    | linear_combination a9
    | linear_combination b2
    | linear_combination b3
    | linear_combination b6
    | linear_combination a2
    | linear_combination a3
    | linear_combination a6
    | skip
  · linear_combination (-a) * hd + (e * i - f * h) * a1 + (f * g - d * i) * a2 + (d * h - e * g) * a3
  · linear_combination (-b) * hd + (e * i - f * h) * a2 + (f * g - d * i) * a5 + (d * h - e * g) * a6
  · linear_combination (-c) * hd + (e * i - f * h) * a3 + (f * g - d * i) * a6 + (d * h - e * g) * a9
  · linear_combination (-d) * hd + (c * h - b * i) * a1 + (a * i - c * g) * a2 + (b * g - a * h) * a3
  · linear_combination (-e) * hd + (c * h - b * i) * a2 + (a * i - c * g) * a5 + (b * g - a * h) * a6
  · linear_combination (-f) * hd + (c * h - b * i) * a3 + (a * i - c * g) * a6 + (b * g - a * h) * a9
  · linear_combination (-g) * hd + (b * f - c * e) * a1 + (c * d - a * f) * a2 + (a * e - b * d) * a3
  · linear_combination (-h) * hd + (b * f - c * e) * a2 + (c * d - a * f) * a5 + (a * e - b * d) * a6
  · linear_combination (-i) * hd + (b * f - c * e) * a3 + (c * d - a * f) * a6 + (a * e - b * d) * a9

/-- The matrix of a quaternion. -/
structure MatrixOf (x y z w a b c d e f g h i : K) : Prop where
  n : w * w + x * x + y * y + z * z = 1
  a : a = w * w + x * x - y * y - z * z
  b : b = 2 * (x * y - w * z)
  c : c = 2 * (x * z + w * y)
  d : d = 2 * (x * y + w * z)
  e : e = w * w - x * x + y * y - z * z
  f : f = 2 * (y * z - w * x)
  g : g = 2 * (x * z - w * y)
  h : h = 2 * (y * z + w * x)
  i : i = w * w - x * x - y * y + z * z

theorem branch_w {a b c d e f g h i t : K} (E : RotEntries a b c d e f g h i) (ht : 4 * (t * t) * (a + e + i + 1) = 1) :
    MatrixOf ((h - f) * t) ((c - g) * t) ((d - b) * t) ((a + e + i + 1) * t) a b c d e f g h i := by
  obtain ⟨r0, r1, r2, c0, c1, c2, r01, r02, r12, c01, c02, c12, ka, kb, kc, kd, ke, kf, kg, kh, ki⟩ := E
  constructor <;> grind

theorem branch_x {a b c d e f g h i t : K} (E : RotEntries a b c d e f g h i) (ht : 4 * (t * t) * (a - e - i + 1) = 1) :
    MatrixOf ((a - e - i + 1) * t) ((d + b) * t) ((g + c) * t) ((h - f) * t) a b c d e f g h i := by
  obtain ⟨r0, r1, r2, c0, c1, c2, r01, r02, r12, c01, c02, c12, ka, kb, kc, kd, ke, kf, kg, kh, ki⟩ := E
  constructor <;> grind

theorem branch_y {a b c d e f g h i t : K} (E : RotEntries a b c d e f g h i) (ht : 4 * (t * t) * (e - i - a + 1) = 1) :
    MatrixOf ((b + d) * t) ((e - i - a + 1) * t) ((h + f) * t) ((c - g) * t) a b c d e f g h i := by
  obtain ⟨r0, r1, r2, c0, c1, c2, r01, r02, r12, c01, c02, c12, ka, kb, kc, kd, ke, kf, kg, kh, ki⟩ := E
  constructor <;> grind

theorem branch_z {a b c d e f g h i t : K} (E : RotEntries a b c d e f g h i) (ht : 4 * (t * t) * (i - a - e + 1) = 1) :
    MatrixOf ((c + g) * t) ((f + h) * t) ((i - a - e + 1) * t) ((d - b) * t) a b c d e f g h i := by
  obtain ⟨r0, r1, r2, c0, c1, c2, r01, r02, r12, c01, c02, c12, ka, kb, kc, kd, ke, kf, kg, kh, ki⟩ := E
  constructor <;> grind

/-- A quaternion with the matrix `R` represents `R`. -/
theorem represents_of {R : M3 K} {q : ℍ[K]}
    (h : MatrixOf q.imI q.imJ q.imK q.re R.c0.x R.c1.x R.c2.x R.c0.y R.c1.y R.c2.y R.c0.z R.c1.z R.c2.z) :
    Represents q R := by
  constructor
  · ext
    · simp only [Quaternion.re_mul, Quaternion.re_star, Quaternion.imI_star, Quaternion.imJ_star, Quaternion.imK_star,
        Quaternion.re_one]
      linear_combination h.n
    all_goals
      simp only [Quaternion.imI_mul, Quaternion.imJ_mul, Quaternion.imK_mul, Quaternion.re_star, Quaternion.imI_star,
        Quaternion.imJ_star, Quaternion.imK_star, Quaternion.imI_one, Quaternion.imJ_one, Quaternion.imK_one]
      ring
  · intro v
    have e0 : (imaginary v).re = 0 := rfl
    have e1 : (imaginary v).imI = v.x := rfl
    have e2 : (imaginary v).imJ = v.y := rfl
    have e3 : (imaginary v).imK = v.z := rfl
    have f0 : (imaginary (R.mulVec v)).re = 0 := rfl
    have f1 : (imaginary (R.mulVec v)).imI = R.c0.x * v.x + R.c1.x * v.y + R.c2.x * v.z := rfl
    have f2 : (imaginary (R.mulVec v)).imJ = R.c0.y * v.x + R.c1.y * v.y + R.c2.y * v.z := rfl
    have f3 : (imaginary (R.mulVec v)).imK = R.c0.z * v.x + R.c1.z * v.y + R.c2.z * v.z := rfl
    ext <;> simp only [Quaternion.re_mul, Quaternion.imI_mul, Quaternion.imJ_mul, Quaternion.imK_mul, Quaternion.re_star,
      Quaternion.imI_star, Quaternion.imJ_star, Quaternion.imK_star, e0, e1, e2, e3, f0, f1, f2, f3]
    · ring
    · rw [h.a, h.b, h.c]; ring
    · rw [h.d, h.e, h.f]; ring
    · rw [h.g, h.h, h.i]; ring

variable [LinearOrder K] [IsStrictOrderedRing K] [HasSqrt K] [LawfulSqrt K]

/-- The factor `0.5 / sqrt(D)`. -/
theorem half_over_sqrt {D : K} (hD : 0 < D) :
    4 * ((1 / 2 / sqrt D) * (1 / 2 / sqrt D)) * D = 1 ∧ 1 / 2 * sqrt D = D * (1 / 2 / sqrt D) := by
  have h := LawfulSqrt.sq_sqrt D hD.le
  have hne : sqrt D ≠ 0 := by
    intro e; rw [e] at h; linarith
  constructor
  · rw [show 4 * ((1 / 2 / sqrt D) * (1 / 2 / sqrt D)) * D = D / (sqrt D * sqrt D) by field_simp; norm_num]
    rw [h, div_self hD.ne']
  · field_simp
    linear_combination h

/-- Eigen's conversion gives a unit quaternion that represents the rotation. -/
theorem ofRot_represents {R : M3 K} (hR : IsRotation R) :
    Represents (⟨(Quat.ofRot R).w, (Quat.ofRot R).x, (Quat.ofRot R).y, (Quat.ofRot R).z⟩ : ℍ[K]) R := by
  have E := entries_of hR
  apply represents_of
  simp only [Quat.ofRot, Quat.largest, M3.get, V3.get]
  split
  · next ht =>
    obtain ⟨h1, h2⟩ := half_over_sqrt (D := R.c0.x + R.c1.y + R.c2.z + 1) (by linarith)
    rw [h2]
    exact branch_w E h1
  · next ht =>
    push Not at ht
    by_cases h01 : R.c0.x < R.c1.y
    · rw [if_pos h01]
      by_cases h12 : R.c1.y < R.c2.z
      · simp only [h12, if_true]
        obtain ⟨h1, h2⟩ := half_over_sqrt (D := R.c2.z - R.c0.x - R.c1.y + 1) (by linarith)
        rw [h2]
        exact branch_z E h1
      · simp only [h12, if_false]
        obtain ⟨h1, h2⟩ := half_over_sqrt (D := R.c1.y - R.c2.z - R.c0.x + 1) (by linarith)
        rw [h2]
        exact branch_y E h1
    · rw [if_neg h01]
      by_cases h02 : R.c0.x < R.c2.z
      · simp only [h02, if_true]
        obtain ⟨h1, h2⟩ := half_over_sqrt (D := R.c2.z - R.c0.x - R.c1.y + 1) (by linarith)
        rw [h2]
        exact branch_z E h1
      · simp only [h02, if_false]
        obtain ⟨h1, h2⟩ := half_over_sqrt (D := R.c0.x - R.c1.y - R.c2.z + 1) (by linarith)
        rw [h2]
        exact branch_x E h1

/-- **C98.** For every placement with a proper rotation and every vector with seven coefficients, `SE3ToXYZQUAT` writes
the translation and a unit quaternion, imaginary part first, that represents the rotation. -/
theorem C98_xyzquat (M : SE3 K) (old : Vec K) (h : old.size = 7) (hR : IsRotation M.rot) :
    ∃ v, M.toXYZQUAT old = some v ∧ v.size = 7 ∧ (⟨v 0, v 1, v 2⟩ : V3 K) = M.trans ∧
      Represents (quatOf v.get) M.rot := by
  refine ⟨_, by rw [SE3.toXYZQUAT, if_pos h], rfl, rfl, ?_⟩
  exact ofRot_represents hR

/-- **C98, other sizes.** It throws exactly when the vector does not have seven coefficients. -/
theorem C98_sizes (M : SE3 K) (v : Vec K) : M.toXYZQUAT v = none ↔ v.size ≠ 7 := by
  unfold SE3.toXYZQUAT; by_cases h : v.size = 7 <;> simp [h]

/-- **C98, nothing is lost.** Placements with the same vector are equal. -/
theorem C98_injective {M N : SE3 K} {old v : Vec K} (hM : IsRotation M.rot) (hN : IsRotation N.rot)
    (h1 : M.toXYZQUAT old = some v) (h2 : N.toXYZQUAT old = some v) : M = N := by
  have h : old.size = 7 := by
    by_contra h
    rw [(C98_sizes M old).2 h] at h1; cases h1
  obtain ⟨v1, e1, -, t1, r1⟩ := C98_xyzquat M old h hM
  obtain ⟨v2, e2, -, t2, r2⟩ := C98_xyzquat N old h hN
  rw [h1] at e1; cases e1
  rw [h2] at e2; cases e2
  have hrot : ∀ u, M.rot.mulVec u = N.rot.mulVec u := by
    intro u
    have := (r1.2 u).symm.trans (r2.2 u)
    exact V3.ext (congrArg (fun q : ℍ[K] => q.imI) this) (congrArg (fun q : ℍ[K] => q.imJ) this)
      (congrArg (fun q : ℍ[K] => q.imK) this)
  have hx := hrot ⟨1, 0, 0⟩
  have hy := hrot ⟨0, 1, 0⟩
  have hz := hrot ⟨0, 0, 1⟩
  simp only [M3.mulVec, mul_one, mul_zero, add_zero, zero_add] at hx hy hz
  have : M.rot = N.rot := M3.ext hx hy hz
  cases M; cases N
  simp only at this t1 t2
  rw [this, ← t1, ← t2]

/-- **C98, the sign.** A quaternion and its negative represent the same rotation; what is written has a positive real
part if the trace is positive. -/
theorem C98_sign {R : M3 K} (h : 0 < R.c0.x + R.c1.y + R.c2.z) : 0 < (Quat.ofRot R).w := by
  simp only [Quat.ofRot, M3.get, V3.get]
  rw [if_pos h]
  have h1 := LawfulSqrt.sq_sqrt (R.c0.x + R.c1.y + R.c2.z + 1) (by linarith)
  have h2 := LawfulSqrt.sqrt_nonneg (R.c0.x + R.c1.y + R.c2.z + 1)
  have : sqrt (R.c0.x + R.c1.y + R.c2.z + 1) ≠ 0 := by
    intro e; rw [e] at h1; linarith
  have := lt_of_le_of_ne h2 this.symm
  show 0 < 1 / 2 * sqrt (R.c0.x + R.c1.y + R.c2.z + 1)
  linarith

/-- A half turn about `z` and a third of a turn about the diagonal. -/
example : ((⟨⟨⟨-1, 0, 0⟩, ⟨0, -1, 0⟩, ⟨0, 0, 1⟩⟩, ⟨5, 6, 7⟩⟩ : SE3 ℚ).toXYZQUAT (Vec.zero 7)).map Vec.toList
      = some [5, 6, 7, 0, 0, 1, 0] ∧
    ((⟨⟨⟨0, 1, 0⟩, ⟨0, 0, 1⟩, ⟨1, 0, 0⟩⟩, ⟨5, 6, 7⟩⟩ : SE3 ℚ).toXYZQUAT (Vec.zero 7)).map Vec.toList
      = some [5, 6, 7, 1 / 2, 1 / 2, 1 / 2, 1 / 2] := by
  refine ⟨by decide +kernel, by decide +kernel⟩

/-- They are proper rotations. -/
example : IsRotation (⟨⟨-1, 0, 0⟩, ⟨0, -1, 0⟩, ⟨0, 0, 1⟩⟩ : M3 ℚ) ∧ IsRotation (⟨⟨0, 1, 0⟩, ⟨0, 0, 1⟩, ⟨1, 0, 0⟩⟩ : M3 ℚ) := by
  refine ⟨⟨⟨?_, ?_⟩, ?_⟩, ⟨?_, ?_⟩, ?_⟩ <;> decide +kernel

/-- **C98 needs a proper rotation.** For the reflection `diag(1, 1, -1)`, which is orthogonal, the quaternion written does
not have length one. -/
theorem C98_reflection (t : V3 K) (old : Vec K) (h : old.size = 7) :
    (⟨⟨1, 0, 0⟩, ⟨0, 1, 0⟩, ⟨0, 0, -1⟩⟩ : M3 K).Orthogonal ∧
    ∃ v, (⟨⟨⟨1, 0, 0⟩, ⟨0, 1, 0⟩, ⟨0, 0, -1⟩⟩, t⟩ : SE3 K).toXYZQUAT old = some v ∧ v 3 = 0 ∧ v 4 = 0 ∧ v 5 = 0 ∧
      v 6 * v 6 = 1 / 2 := by
  refine ⟨⟨by simp [M3.mul, M3.mulVec, M3.transpose, M3.one], by simp [M3.mul, M3.mulVec, M3.transpose, M3.one]⟩,
    _, by rw [SE3.toXYZQUAT, if_pos h], ?_⟩
  have h1 := LawfulSqrt.sq_sqrt (1 + 1 + -1 + 1 : K) (by norm_num)
  simp only [Quat.ofRot, M3.get, V3.get, Quat.coeff]
  norm_num
  norm_num at h1
  linear_combination (1 / 4) * h1

end Tsid.Props
