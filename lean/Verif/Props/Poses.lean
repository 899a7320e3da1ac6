import Verif.Spec.Poses
import Verif.Lemmas.CartesianRuns

/-!
# C54, C55, C62: poses as vectors, pose errors, constant trajectories
-/

set_option linter.unusedSectionVars false

namespace Tsid.Props

open Spec

variable {K : Type} [Field K]

/-! ## C54 -/

/-- **C54, pose to vector and back**; the content of the vector before the call does not matter. -/
theorem C54_pose_vector_pose (M : SE3 K) (old : Vec K) (h : old.size = 12) :
    ∃ v, M.toVector old = some v ∧ v.size = 12 ∧ SE3.ofVector v = some M := by
  refine ⟨⟨12, _⟩, by rw [SE3.toVector, if_pos h], rfl, ?_⟩
  simp [SE3.ofVector, SE3.ofCoeffs, M3.get, V3.get]

/-- **C54, vector to pose and back.** -/
theorem C54_vector_pose_vector (v old : Vec K) (hv : v.size = 12) (h : old.size = 12) :
    ∃ M w, SE3.ofVector v = some M ∧ M.toVector old = some w ∧ w.size = 12 ∧ ∀ i, i < 12 → w i = v i := by
  refine ⟨_, ⟨12, _⟩, by rw [SE3.ofVector, if_pos hv], by rw [SE3.toVector, if_pos h], rfl, fun i hi => ?_⟩
  rcases i with _ | _ | _ | _ | _ | _ | _ | _ | _ | _ | _ | _ | i
  all_goals first
    | omega
    | simp [SE3.ofCoeffs, M3.get, V3.get]

/-- **C54, other sizes.** Both functions throw exactly when the vector does not have 12 coefficients. -/
theorem C54_sizes (v : Vec K) (M : SE3 K) :
    (SE3.ofVector v = none ↔ v.size ≠ 12) ∧ (M.toVector v = none ↔ v.size ≠ 12) := by
  constructor
  · unfold SE3.ofVector; by_cases h : v.size = 12 <;> simp [h]
  · unfold SE3.toVector; by_cases h : v.size = 12 <;> simp [h]

/-- **C54, through a trajectory.** A pose given to a constant trajectory, at construction or later, and passed on to an
SE3 task by any query becomes the reference of the task, at rest.  `vectorToSE3` reads the same pose from the
sample. -/
theorem C54_reference [LinearOrder K] [FloorRing K] (s : SE3Task K) (m0 : Sample K) (M : SE3 K) (q : TrajQuery K) :
    ∃ m s', SE3Constant.setReference m0 M = .ok m () ∧ SE3Constant.newWith M = .ok m () ∧
      SE3.ofVector (q.answer m).pos = some M ∧ s.setReference (q.answer m) = .ok s' () ∧
      s'.mRef = M ∧ s'.vRef = ⟨⟨0, 0, 0⟩, ⟨0, 0, 0⟩⟩ ∧ s'.aRef = ⟨⟨0, 0, 0⟩, ⟨0, 0, 0⟩⟩ ∧ s'.rows = s.rows ∧
      s'.kp = s.kp ∧ s'.kd = s.kd := by
  obtain ⟨v, h1, h2, h3⟩ := C54_pose_vector_pose M (Sample.zero 12 6 : Sample K).pos rfl
  have h4 : SE3.ofCoeffs v.get = M := by
    rw [SE3.ofVector, if_pos h2] at h3; exact Option.some.inj h3
  have hq : q.answer ({ Sample.zero 12 6 with pos := v } : Sample K) = { Sample.zero 12 6 with pos := v } := by
    cases q <;> rfl
  refine ⟨{ Sample.zero 12 6 with pos := v },
    { s with ref := { Sample.zero 12 6 with pos := v }, mRef := M, vRef := ⟨⟨0, 0, 0⟩, ⟨0, 0, 0⟩⟩,
             aRef := ⟨⟨0, 0, 0⟩, ⟨0, 0, 0⟩⟩ },
    by simp only [SE3Constant.setReference, h1],
    by simp only [SE3Constant.newWith, SE3Constant.setReference, h1], by rw [hq]; exact h3, ?_, rfl, rfl, rfl, rfl, rfl,
    rfl⟩
  rw [hq]
  unfold SE3Task.setReference
  rw [if_pos h2, if_pos ⟨rfl, rfl⟩, h4]
  rfl

/-- The vector of a pose: the translation, then the columns of the rotation. -/
example : (SE3.toVector (⟨⟨⟨0, 1, 0⟩, ⟨-1, 0, 0⟩, ⟨0, 0, 1⟩⟩, ⟨1, 2, 3⟩⟩ : SE3 ℚ) (Vec.zero 12)).map Vec.toList =
    some [1, 2, 3, 0, 1, 0, -1, 0, 0, 0, 0, 1] := by decide +kernel

/-! ## C55 -/

theorem det3_mul (A B : M3 K) :
    det3 (A.mul B).c0 (A.mul B).c1 (A.mul B).c2 = det3 A.c0 A.c1 A.c2 * det3 B.c0 B.c1 B.c2 := by
  simp only [det3, M3.mul, M3.mulVec]
  ring

theorem det3_transpose (A : M3 K) : det3 A.transpose.c0 A.transpose.c1 A.transpose.c2 = det3 A.c0 A.c1 A.c2 := by
  simp only [det3, M3.transpose]
  ring

theorem M3.mul_assoc' (A B C : M3 K) : (A.mul B).mul C = A.mul (B.mul C) := by
  simp only [M3.mul, M3.mulVec, M3.mk.injEq, V3.mk.injEq]
  refine ⟨⟨?_, ?_, ?_⟩, ⟨?_, ?_, ?_⟩, ?_, ?_, ?_⟩ <;> ring

theorem M3.one_mul' (A : M3 K) : M3.one.mul A = A := by
  simp [M3.mul, M3.mulVec, M3.one]

theorem M3.mul_one' (A : M3 K) : A.mul M3.one = A := by
  simp [M3.mul, M3.mulVec, M3.one]

theorem M3.transpose_mul' (A B : M3 K) : (A.mul B).transpose = B.transpose.mul A.transpose := by
  simp only [M3.mul, M3.mulVec, M3.transpose, M3.mk.injEq, V3.mk.injEq]
  refine ⟨⟨?_, ?_, ?_⟩, ⟨?_, ?_, ?_⟩, ?_, ?_, ?_⟩ <;> ring

theorem M3.transpose_transpose' (A : M3 K) : A.transpose.transpose = A := rfl

/-- The relative rotation of two rotations is a rotation. -/
theorem isRotation_rel {A B : M3 K} (ha : IsRotation A) (hb : IsRotation B) : IsRotation (A.transpose.mul B) := by
  obtain ⟨⟨a1, a2⟩, a3⟩ := ha
  obtain ⟨⟨b1, b2⟩, b3⟩ := hb
  refine ⟨⟨?_, ?_⟩, ?_⟩
  · rw [M3.transpose_mul', M3.transpose_transpose', M3.mul_assoc', ← M3.mul_assoc' A, a2, M3.one_mul', b1]
  · rw [M3.transpose_mul', M3.transpose_transpose', M3.mul_assoc', ← M3.mul_assoc' B, b2, M3.one_mul', a1]
  · rw [det3_mul, det3_transpose, a3, b3, one_mul]

/-- **C55.** For a faithful logarithm the pose error is zero iff the poses are equal. -/
theorem C55_zero_iff {log3 : M3 K → V3 K} (hl : LogFaithful log3) (M N : SE3 K) (hM : IsRotation M.rot)
    (hN : IsRotation N.rot) : SE3.error log3 M N = ⟨⟨0, 0, 0⟩, ⟨0, 0, 0⟩⟩ ↔ M = N := by
  rw [error_eq]
  unfold localError
  constructor
  · intro h
    obtain ⟨h1, h2⟩ := Motion.mk.inj h
    rw [hl _ (isRotation_rel hM hN)] at h2
    have hrot : M.rot = N.rot := by
      have := congrArg (fun X => M.rot.mul X) h2
      simp only [← M3.mul_assoc', hM.1.2, M3.one_mul', M3.mul_one'] at this
      exact this.symm
    have htr : M.trans = N.trans := by
      have h3 := congrArg (fun x => M.rot.mulVec x) h1
      simp only [mul_transpose_mulVec hM.1] at h3
      rw [V3.sub_def] at h3
      simp only [M3.mulVec, mul_zero, add_zero, V3.mk.injEq, sub_eq_zero] at h3
      obtain ⟨e1, e2, e3⟩ := h3
      cases hm : M.trans with
      | mk a b c =>
        cases hn : N.trans with
        | mk a' b' c' =>
          rw [hm, hn] at e1 e2 e3
          simp only at e1 e2 e3
          rw [e1, e2, e3]
    cases M; cases N
    simp only at hrot htr
    rw [hrot, htr]
  · rintro rfl
    rw [hM.1.1, (hl _ ⟨⟨by simp [M3.mul, M3.mulVec, M3.one, M3.transpose], by
      simp [M3.mul, M3.mulVec, M3.one, M3.transpose]⟩, by simp [det3, M3.one]⟩).2 rfl]
    simp [V3.sub_def, M3.mulVec]

/-- **C55, linear part.** Rotated to the world, the linear part of the error is the difference of the positions; and
the error is expressed in the axes of the first pose. -/
theorem C55_linear (log3 : M3 K → V3 K) (M N : SE3 K) (h : M.rot.Orthogonal) :
    M.rot.mulVec (SE3.error log3 M N).lin = N.trans - M.trans := by
  rw [error_eq]
  exact mul_transpose_mulVec h _

/-- Both hypotheses of `C55_zero_iff` are met by a quarter turn and a logarithm that is zero at the identity only. -/
example : LogFaithful (fun R : M3 ℚ => if R = M3.one then (⟨0, 0, 0⟩ : V3 ℚ) else ⟨0, 0, 1⟩) ∧
    IsRotation (⟨⟨0, 1, 0⟩, ⟨-1, 0, 0⟩, ⟨0, 0, 1⟩⟩ : M3 ℚ) ∧
    SE3.error (fun R : M3 ℚ => if R = M3.one then (⟨0, 0, 0⟩ : V3 ℚ) else ⟨0, 0, 1⟩)
      ⟨⟨⟨0, 1, 0⟩, ⟨-1, 0, 0⟩, ⟨0, 0, 1⟩⟩, ⟨1, 0, 0⟩⟩ ⟨M3.one, ⟨1, 2, 0⟩⟩ = ⟨⟨2, 0, 0⟩, ⟨0, 0, 1⟩⟩ := by
  refine ⟨fun R _ => ?_, ⟨⟨by decide +kernel, by decide +kernel⟩, by decide +kernel⟩, by decide +kernel⟩
  by_cases h : R = M3.one
  · simp [h]
  · simp [h]

/-! ## C62 -/

/-- **C62, vectors.** After any history of reference changes and queries, every query, at any time, delivers the last
reference at rest; the trajectory has ended and reports the size of the reference. -/
theorem C62_euclidian (x : Vec K) (os : List (EuclidianConstant.Op K)) :
    ∃ m, runOps EuclidianConstant.step (EuclidianConstant.newWith x) os = some m ∧
      (∀ q : TrajQuery K, ∃ r, EuclidianConstant.step m (.query q) = .ok m (some r) ∧
        AtRest (lastVec x os).size (lastVec x os) r) ∧
      EuclidianConstant.size m = (lastVec x os).size ∧ trajEnded m = true := by
  have key : ∀ (os : List (EuclidianConstant.Op K)) (x : Vec K) (m0 : Sample K),
      AtRest x.size x m0 → ∃ m, runOps EuclidianConstant.step m0 os = some m ∧
        AtRest (lastVec x os).size (lastVec x os) m := by
    intro os
    induction os with
    | nil => intro x m0 h; exact ⟨m0, rfl, h⟩
    | cons o os ih =>
      intro x m0 h
      cases o with
      | setReference r =>
        exact ih r _ ⟨rfl, fun _ _ => rfl, rfl, fun _ _ => rfl, rfl, fun _ _ => rfl⟩
      | query q => exact ih x m0 h
  obtain ⟨m, h1, h2⟩ := key os x (EuclidianConstant.newWith x)
    ⟨rfl, fun _ _ => rfl, rfl, fun _ _ => rfl, rfl, fun _ _ => rfl⟩
  refine ⟨m, h1, fun q => ⟨q.answer m, rfl, ?_⟩, h2.posSize, rfl⟩
  cases q <;> exact h2

/-- **C62, poses.** The same for poses; derivatives have size 6. -/
theorem C62_se3 (M : SE3 K) (os : List (SE3Constant.Op K)) :
    ∃ m0 m, SE3Constant.newWith M = .ok m0 () ∧ runOps SE3Constant.step m0 os = some m ∧
      (∀ q : TrajQuery K, ∃ r x, SE3Constant.step m (.query q) = .ok m (some r) ∧ AtRest 6 x r ∧
        SE3.ofVector x = some (lastPose M os)) ∧
      SE3Constant.size m = 6 ∧ trajEnded m = true := by
  have set : ∀ (m : Sample K) (M : SE3 K), ∃ m' x, SE3Constant.setReference m M = .ok m' () ∧ AtRest 6 x m' ∧
      SE3.ofVector x = some M := by
    intro m M
    obtain ⟨v, h1, h2, h3⟩ := C54_pose_vector_pose M (Sample.zero 12 6 : Sample K).pos rfl
    exact ⟨{ Sample.zero 12 6 with pos := v }, v, by simp only [SE3Constant.setReference, h1],
      ⟨rfl, fun _ _ => rfl, rfl, fun _ _ => rfl, rfl, fun _ _ => rfl⟩, h3⟩
  have key : ∀ (os : List (SE3Constant.Op K)) (M : SE3 K) (x : Vec K) (m0 : Sample K),
      AtRest 6 x m0 → SE3.ofVector x = some M → ∃ m y, runOps SE3Constant.step m0 os = some m ∧ AtRest 6 y m ∧
        SE3.ofVector y = some (lastPose M os) := by
    intro os
    induction os with
    | nil => intro M x m0 h h'; exact ⟨m0, x, rfl, h, h'⟩
    | cons o os ih =>
      intro M x m0 h h'
      cases o with
      | setReference N =>
        obtain ⟨m', y, e1, e2, e3⟩ := set m0 N
        obtain ⟨m, z, r1, r2, r3⟩ := ih N y m' e2 e3
        exact ⟨m, z, by simp only [runOps, SE3Constant.step, e1, Res.state?]; exact r1, r2, r3⟩
      | query q => exact ih M x m0 h h'
  obtain ⟨m0, x, e1, e2, e3⟩ := set SE3Constant.new M
  obtain ⟨m, y, r1, r2, r3⟩ := key os M x m0 e2 e3
  refine ⟨m0, m, e1, r1, fun q => ⟨q.answer m, y, rfl, ?_, r3⟩, rfl, rfl⟩
  cases q <;> exact r2

/-- A history: the reference is changed between queries. -/
example : ((runOps EuclidianConstant.step (EuclidianConstant.newWith (Vec.ofList [1, 2]))
    [.query (.at 3), .setReference (Vec.ofList [(5 : ℚ), 6, 7]), .query .next]).map
      fun m => ((TrajQuery.at 9).answer m).pos.toList) = some [5, 6, 7] := by decide +kernel

/-- Beyond C62: before a reference is given, a pose trajectory delivers the zero matrix as rotation, which is not a
rotation, over any field. -/
theorem C62_se3_without_reference (q : TrajQuery K) :
    ∃ M, SE3.ofVector (q.answer (SE3Constant.new : Sample K)).pos = some M ∧ ¬ M.rot.Orthogonal := by
  have hq : q.answer (SE3Constant.new : Sample K) = SE3Constant.new := by cases q <;> rfl
  refine ⟨_, by rw [hq, SE3.ofVector, if_pos (show (SE3Constant.new : Sample K).pos.size = 12 from rfl)], ?_⟩
  rintro ⟨h, -⟩
  simp [SE3.ofCoeffs, SE3Constant.new, Sample.zero, Vec.zero, M3.mul, M3.mulVec, M3.transpose, M3.one] at h

end Tsid.Props
