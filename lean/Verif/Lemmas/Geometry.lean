import Mathlib.Tactic.LinearCombination
import Mathlib.Algebra.BigOperators.Ring.Finset
import Verif.Spec.CartesianTasks

/-!
# Rotations, poses and their errors
-/

set_option linter.unusedSectionVars false

namespace Tsid

open Spec Finset

variable {K : Type} [Field K]

theorem V3.add_def (a b : V3 K) : a + b = ⟨a.x + b.x, a.y + b.y, a.z + b.z⟩ := rfl
theorem V3.sub_def (a b : V3 K) : a - b = ⟨a.x - b.x, a.y - b.y, a.z - b.z⟩ := rfl
theorem V3.neg_def (a : V3 K) : -a = ⟨-a.x, -a.y, -a.z⟩ := rfl
theorem V3.zero_def : (0 : V3 K) = ⟨0, 0, 0⟩ := rfl
theorem Motion.sub_def (a b : Motion K) : a - b = ⟨a.lin - b.lin, a.ang - b.ang⟩ := rfl
theorem Motion.add_def (a b : Motion K) : a + b = ⟨a.lin + b.lin, a.ang + b.ang⟩ := rfl
theorem Motion.zero_def : (0 : Motion K) = ⟨⟨0, 0, 0⟩, ⟨0, 0, 0⟩⟩ := rfl

theorem V3.get_sub (a b : V3 K) (i : Nat) : (a - b).get i = a.get i - b.get i := by
  rw [V3.sub_def]
  match i with
  | 0 => rfl
  | 1 => rfl
  | 2 => rfl
  | _ + 3 => simp [V3.get]

theorem V3.get_add (a b : V3 K) (i : Nat) : (a + b).get i = a.get i + b.get i := by
  rw [V3.add_def]
  match i with
  | 0 => rfl
  | 1 => rfl
  | 2 => rfl
  | _ + 3 => simp [V3.get]

theorem Motion.get_sub (a b : Motion K) (i : Nat) : (a - b).get i = a.get i - b.get i := by
  rw [Motion.sub_def]
  unfold Motion.get
  split <;> exact V3.get_sub _ _ _

theorem Motion.get_add (a b : Motion K) (i : Nat) : (a + b).get i = a.get i + b.get i := by
  rw [Motion.add_def]
  unfold Motion.get
  split <;> exact V3.get_add _ _ _

/-- Motions with equal coefficients are equal. -/
theorem Motion.ext_get {a b : Motion K} (h : ∀ i, i < 6 → a.get i = b.get i) : a = b := by
  obtain ⟨⟨a0, a1, a2⟩, ⟨a3, a4, a5⟩⟩ := a
  obtain ⟨⟨b0, b1, b2⟩, ⟨b3, b4, b5⟩⟩ := b
  have h0 := h 0 (by omega)
  have h1 := h 1 (by omega)
  have h2 := h 2 (by omega)
  have h3 := h 3 (by omega)
  have h4 := h 4 (by omega)
  have h5 := h 5 (by omega)
  simp only [Motion.get, V3.get] at h0 h1 h2 h3 h4 h5
  simp at h0 h1 h2 h3 h4 h5
  simp [h0, h1, h2, h3, h4, h5]

theorem V3.ext_get {a b : V3 K} (h : ∀ i, i < 3 → a.get i = b.get i) : a = b := by
  obtain ⟨a0, a1, a2⟩ := a
  obtain ⟨b0, b1, b2⟩ := b
  have h0 := h 0 (by omega)
  have h1 := h 1 (by omega)
  have h2 := h 2 (by omega)
  simp only [V3.get] at h0 h1 h2
  simp [h0, h1, h2]

/-- A placement without translation only rotates. -/
theorem act_rot (R : M3 K) (m : Motion K) : SE3.act ⟨R, 0⟩ m = rotate R m := by
  simp only [SE3.act, rotate, V3.cross, V3.zero_def, V3.add_def, zero_mul, sub_self, add_zero]

theorem actInv_rot (R : M3 K) (m : Motion K) : SE3.actInv ⟨R, 0⟩ m = rotate R.transpose m := by
  simp only [SE3.actInv, rotate, V3.cross, V3.zero_def, V3.sub_def, zero_mul, sub_self, sub_zero]

theorem mulVec_sub (R : M3 K) (a b : V3 K) : R.mulVec (a - b) = R.mulVec a - R.mulVec b := by
  simp only [M3.mulVec, V3.sub_def, V3.mk.injEq]
  refine ⟨?_, ?_, ?_⟩ <;> ring

theorem mulVec_add (R : M3 K) (a b : V3 K) : R.mulVec (a + b) = R.mulVec a + R.mulVec b := by
  simp only [M3.mulVec, V3.add_def, V3.mk.injEq]
  refine ⟨?_, ?_, ?_⟩ <;> ring

theorem rotate_sub (R : M3 K) (a b : Motion K) : rotate R (a - b) = rotate R a - rotate R b := by
  simp only [rotate, Motion.sub_def, mulVec_sub]

theorem rotate_add (R : M3 K) (a b : Motion K) : rotate R (a + b) = rotate R a + rotate R b := by
  simp only [rotate, Motion.add_def, mulVec_add]

theorem mulVec_mulVec (A B : M3 K) (v : V3 K) : A.mulVec (B.mulVec v) = (A.mul B).mulVec v := by
  simp only [M3.mulVec, M3.mul, V3.mk.injEq]
  refine ⟨?_, ?_, ?_⟩ <;> ring

theorem one_mulVec (v : V3 K) : (M3.one : M3 K).mulVec v = v := by
  simp [M3.mulVec, M3.one]

theorem mul_transpose_mulVec {R : M3 K} (h : R.Orthogonal) (v : V3 K) : R.mulVec (R.transpose.mulVec v) = v := by
  rw [mulVec_mulVec, h.2, one_mulVec]

theorem transpose_mulVec_mul {R : M3 K} (h : R.Orthogonal) (v : V3 K) : R.transpose.mulVec (R.mulVec v) = v := by
  rw [mulVec_mulVec, h.1, one_mulVec]

theorem rotate_transpose {R : M3 K} (h : R.Orthogonal) (m : Motion K) : rotate R (rotate R.transpose m) = m := by
  simp only [rotate, mul_transpose_mulVec h]

theorem transpose_rotate {R : M3 K} (h : R.Orthogonal) (m : Motion K) : rotate R.transpose (rotate R m) = m := by
  simp only [rotate, transpose_mulVec_mul h]

/-- `errorInSE3` in terms of positions and rotations. -/
theorem error_eq (log3 : M3 K → V3 K) (M N : SE3 K) : SE3.error log3 M N = localError log3 M N := by
  simp only [SE3.error, SE3.inverse, SE3.mul, localError, Motion.mk.injEq, and_true, mulVec_sub]
  simp only [V3.add_def, V3.sub_def, V3.neg_def, V3.mk.injEq]
  refine ⟨?_, ?_, ?_⟩ <;> ring

theorem rotate_localError (log3 : M3 K → V3 K) {M : SE3 K} (h : M.rot.Orthogonal) (N : SE3 K) :
    rotate M.rot (localError log3 M N) = worldError log3 M N := by
  simp only [rotate, localError, worldError, mul_transpose_mulVec h]

/-- Coefficients of an acceleration. -/
theorem motionAcc_get (nv : Nat) (jac : Nat → Motion K) (d : Motion K) (a : Nat → K) {i : Nat} (hi : i < 6) :
    (motionAcc nv jac d a).get i = ∑ c ∈ range nv, (jac c).get i * a c + d.get i := by
  rcases i with _ | _ | _ | _ | _ | _ | i
  · simp [motionAcc, Motion.get, V3.get]
  · simp [motionAcc, Motion.get, V3.get]
  · simp [motionAcc, Motion.get, V3.get]
  · simp [motionAcc, Motion.get, V3.get]
  · simp [motionAcc, Motion.get, V3.get]
  · simp [motionAcc, Motion.get, V3.get]
  · omega

theorem pointAcc_get (nv : Nat) (jac : Nat → V3 K) (d : V3 K) (a : Nat → K) {i : Nat} (hi : i < 3) :
    (pointAcc nv jac d a).get i = ∑ c ∈ range nv, (jac c).get i * a c + d.get i := by
  rcases i with _ | _ | _ | i
  · simp [pointAcc, V3.get]
  · simp [pointAcc, V3.get]
  · simp [pointAcc, V3.get]
  · omega

/-- Rotating the acceleration is rotating the columns of the Jacobian and the drift. -/
theorem rotate_motionAcc (R : M3 K) (nv : Nat) (jac : Nat → Motion K) (d : Motion K) (a : Nat → K) :
    rotate R (motionAcc nv jac d a) = motionAcc nv (fun c => rotate R (jac c)) (rotate R d) a := by
  simp only [rotate, motionAcc, M3.mulVec, Motion.mk.injEq, V3.mk.injEq, add_mul, sum_add_distrib]
  refine ⟨⟨?_, ?_, ?_⟩, ?_, ?_, ?_⟩ <;>
    · simp only [mul_add, mul_sum, mul_assoc]
      ring

end Tsid
