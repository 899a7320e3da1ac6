import Verif.Spec.Robot
import Verif.Lemmas.Geometry
import Verif.Lemmas.Frame
import Verif.Props.Dynamics
import Verif.Props.Poses

/-!
# C52, C53, C66, C74: mass matrix, world-oriented frame quantities, the robot of the formulation, frame kinematics
-/

set_option linter.unusedSectionVars false

namespace Tsid.Props

open Spec Finset

variable {K : Type} [Field K]

/-! ## C52 -/

/-- What holds of a robot between two calls. -/
structure MotorInv (nv na : Nat) (p : Motors K) (r : Robot K) : Prop where
  nvEq : r.nv = nv
  naEq : r.na = na
  rotor : r.rotor = p.rotor
  gear : r.gear = p.gear
  rotorSize : p.rotor.size = na
  gearSize : p.gear.size = na
  mdSize : r.md.size = na
  md : ∀ i, i < na → r.md i = p.gear i ^ 2 * p.rotor i

theorem motorInv_new {nv : Nat} {root : RootJoint} {r : Robot K} (h : Robot.new nv root = some r) :
    MotorInv nv (motorCount nv root) (Motors.fresh (motorCount nv root)) r ∧ motorCount nv root ≤ nv := by
  cases root with
  | fixedBase =>
    cases h
    exact ⟨⟨rfl, rfl, rfl, rfl, rfl, rfl, rfl, fun i _ => by simp [Vec.zero, Motors.fresh]⟩, le_refl _⟩
  | floatingBase =>
    simp only [Robot.new] at h
    by_cases h6 : 6 ≤ nv
    · rw [if_pos h6] at h
      cases h
      exact ⟨⟨rfl, rfl, rfl, rfl, rfl, rfl, rfl, fun i _ => by simp [Vec.zero, Motors.fresh]⟩, Nat.sub_le _ _⟩
    · rw [if_neg h6] at h; cases h

theorem motorInv_step {nv na : Nat} {p : Motors K} {r : Robot K} (hi : MotorInv nv na p r) (o : Robot.Op K) :
    ∃ r', (r.step o).state? = some r' ∧ MotorInv nv na (p.after na o) r' := by
  cases o with
  | setRotor v =>
    simp only [Robot.step, Robot.setRotor, Motors.after, hi.rotor, hi.rotorSize]
    by_cases h : v.size = na
    · simp only [h, if_true]
      refine ⟨_, rfl, hi.nvEq, hi.naEq, rfl, hi.gear, h, hi.gearSize, ?_, fun i _ => ?_⟩
      · simp only [Robot.updateMd, hi.gear, hi.gearSize]
      · simp only [Robot.updateMd, hi.gear]; ring
    · simp only [h, if_false]
      exact ⟨_, rfl, hi⟩
  | setGear v =>
    simp only [Robot.step, Robot.setGear, Motors.after, hi.gear, hi.gearSize]
    by_cases h : v.size = na
    · simp only [h, if_true]
      refine ⟨_, rfl, hi.nvEq, hi.naEq, hi.rotor, rfl, hi.rotorSize, h, ?_, fun i _ => ?_⟩
      · simp only [Robot.updateMd, h]
      · simp only [Robot.updateMd, hi.rotor]; ring
    · simp only [h, if_false]
      exact ⟨_, rfl, hi⟩
  | mass M => exact ⟨r, rfl, hi⟩

theorem motorInv_run {nv na : Nat} (os : List (Robot.Op K)) {p : Motors K} {r : Robot K} (hi : MotorInv nv na p r) :
    ∃ r', runOps Robot.step r os = some r' ∧ MotorInv nv na (p.afterAll na os) r' := by
  induction os generalizing p r with
  | nil => exact ⟨r, rfl, hi⟩
  | cons o os ih =>
    obtain ⟨r1, h1, i1⟩ := motorInv_step hi o
    obtain ⟨r2, h2, i2⟩ := ih i1
    exact ⟨r2, by rw [runOps, h1]; exact h2, i2⟩

theorem mass_entry {nv na : Nat} {p : Motors K} {r : Robot K} (hi : MotorInv nv na p r) (hna : na ≤ nv) {M : Mat K}
    (hr : M.rows = nv) {i j : Nat} (h : i < nv) : r.mass M i j = inertia nv na p M.get i j := by
  simp only [Robot.mass, inertia, hr, hi.naEq]
  by_cases hc : i = j ∧ nv - na ≤ i
  · rw [if_pos hc, if_pos hc, hi.md _ (by omega)]
  · rw [if_neg hc, if_neg hc]

/-- **C52.** After any history of `rotor_inertias`, `gear_ratios` (of any size; rejected calls included) and `mass`
calls, `mass` returns the inertia of the bodies with the reflected inertia of the last accepted parameters added once,
on the diagonal of the actuated joints; it is symmetric whenever the inertia of the bodies is. -/
theorem C52_mass {nv : Nat} {root : RootJoint} {r0 : Robot K} (h0 : Robot.new nv root = some r0)
    (os : List (Robot.Op K)) :
    ∃ r, runOps Robot.step r0 os = some r ∧ ∀ M : Mat K, M.rows = nv → M.cols = nv →
      (r.mass M).rows = nv ∧ (r.mass M).cols = nv ∧
      (∀ i j, i < nv → j < nv → r.mass M i j =
        inertia nv (motorCount nv root)
          ((Motors.fresh (motorCount nv root)).afterAll (motorCount nv root) os) M.get i j) ∧
      ((∀ i j, i < nv → j < nv → M i j = M j i) → ∀ i j, i < nv → j < nv → r.mass M i j = r.mass M j i) := by
  obtain ⟨hi, hna⟩ := motorInv_new h0
  obtain ⟨r, hr, hi⟩ := motorInv_run os hi
  refine ⟨r, hr, fun M h1 h2 => ⟨h1, h2, fun i j hi' _ => mass_entry hi hna h1 hi', fun hs i j h3 h4 => ?_⟩⟩
  simp only [Robot.mass]
  by_cases hij : i = j
  · rw [hij]
  · rw [if_neg (fun h => hij h.1), if_neg (fun h => hij h.1.symm)]
    exact hs i j h3 h4

/-- **C52, repeated calls.** Calls of `mass` do not change what later calls return. -/
theorem C52_repeat (r : Robot K) (M N : Mat K) : runOps Robot.step r [.mass M, .mass N] = some r := rfl

/-- **C52, symmetry.** `computeAllTerms` completes the upper triangle, the only one Pinocchio fills in (whatever is in
the other): the result is symmetric, and it is the inertia of the bodies if the upper triangle is. -/
theorem C52_symmetrise (M : Mat K) :
    (∀ i j, Robot.symmetrise M i j = Robot.symmetrise M j i) ∧
    ∀ S : Nat → Nat → K, (∀ i j, S i j = S j i) → (∀ i j, i ≤ j → j < M.cols → M i j = S i j) →
      ∀ i j, i < M.cols → j < M.cols → Robot.symmetrise M i j = S i j := by
  constructor
  · intro i j
    simp only [Robot.symmetrise]
    by_cases h : j < i
    · rw [if_pos h, if_neg (by omega)]
    · by_cases h' : i < j
      · rw [if_neg h, if_pos h']
      · have : i = j := by omega
        rw [this]
  · intro S hs hm i j hi hj
    simp only [Robot.symmetrise]
    by_cases h : j < i
    · rw [if_pos h, hm _ _ h.le hi, hs]
    · rw [if_neg h, hm _ _ (by omega) hj]

/-- A robot with a floating base and two motors. -/
example : ((Robot.new 8 .floatingBase : Option (Robot ℚ)).bind fun r0 =>
    (runOps Robot.step r0 [.setGear (Vec.ofList [2, 3]), .setRotor (Vec.ofList [5, 7]), .setRotor (Vec.ofList [1]),
      .mass (Mat.zero 8 8), .setRotor (Vec.ofList [5, 1])]).map fun r =>
        (r.mass ⟨8, 8, fun i j => if i = j then 100 else 1⟩).toLists.map fun row => row.drop 5) =
    some [[1, 1, 1], [1, 1, 1], [1, 1, 1], [1, 1, 1], [1, 1, 1], [100, 1, 1], [1, 120, 1], [1, 1, 109]] := by
  decide +kernel

/-! ## C53 -/

/-- **C53, what holds.** The angular part is rotated; the linear part is rotated and the cross product of the
uninitialised translation with the rotated angular part is added.  So the result is the rotated motion iff this
product vanishes, for instance when the memory happens to contain zeros or the frame does not turn. -/
theorem C53_partial (garbage : V3 K) (M : SE3 K) (m : Motion K) :
    ∃ x, Robot.rotationOnly garbage (some M) (some m) = some x ∧ x.ang = M.rot.mulVec m.ang ∧
      x.lin = M.rot.mulVec m.lin + garbage.cross (M.rot.mulVec m.ang) ∧
      (x = rotate M.rot m ↔ garbage.cross (M.rot.mulVec m.ang) = ⟨0, 0, 0⟩) ∧
      (garbage = ⟨0, 0, 0⟩ ∨ m.ang = ⟨0, 0, 0⟩ → x = rotate M.rot m) := by
  have key : (⟨M.rot.mulVec m.lin + garbage.cross (M.rot.mulVec m.ang), M.rot.mulVec m.ang⟩ : Motion K) =
      rotate M.rot m ↔ garbage.cross (M.rot.mulVec m.ang) = ⟨0, 0, 0⟩ := by
    simp only [rotate, V3.add_def, Motion.mk.injEq, and_true]
    constructor
    · intro h
      have h1 := congrArg V3.x h
      have h2 := congrArg V3.y h
      have h3 := congrArg V3.z h
      simp only at h1 h2 h3
      have e : garbage.cross (M.rot.mulVec m.ang) = ⟨(garbage.cross (M.rot.mulVec m.ang)).x,
        (garbage.cross (M.rot.mulVec m.ang)).y, (garbage.cross (M.rot.mulVec m.ang)).z⟩ := rfl
      rw [e]
      simp only [V3.mk.injEq]
      exact ⟨by linear_combination h1, by linear_combination h2, by linear_combination h3⟩
    · intro h
      rw [h]
      simp
  refine ⟨_, rfl, rfl, rfl, key, ?_⟩
  rintro (h | h)
  · refine key.2 ?_
    rw [h]
    simp [V3.cross]
  · refine key.2 ?_
    rw [h]
    simp [V3.cross, M3.mulVec]

/-- **C53, the functions.** The three functions apply this to the position of the frame and to the velocity, the
acceleration and the classical acceleration, and throw for the same frame indices. -/
theorem C53_functions_partial (garbage : V3 K) (frames : List (Robot.Frame K)) (d : Robot.JointData K) (i : Nat) :
    (i < frames.length → ∃ M v a c, Robot.framePosition frames d i = some M ∧
      Robot.frameVelocity frames d i = some v ∧ Robot.frameAcceleration frames d i = some a ∧
      Robot.frameClassicAcceleration frames d i = some c ∧
      (garbage = ⟨0, 0, 0⟩ → Robot.frameVelocityWorld garbage frames d i = some (rotate M.rot v) ∧
        Robot.frameAccelerationWorld garbage frames d i = some (rotate M.rot a) ∧
        Robot.frameClassicAccelerationWorld garbage frames d i = some (rotate M.rot c))) ∧
    (frames.length ≤ i → Robot.frameVelocityWorld garbage frames d i = none ∧
      Robot.frameAccelerationWorld garbage frames d i = none ∧
      Robot.frameClassicAccelerationWorld garbage frames d i = none) := by
  constructor
  · intro h
    have hf : frames[i]? = some frames[i] := List.getElem?_eq_getElem h
    refine ⟨_, _, _, _, by rw [Robot.framePosition, hf], by rw [Robot.frameVelocity, hf],
      by rw [Robot.frameAcceleration, hf], by rw [Robot.frameClassicAcceleration, hf], fun hg => ?_⟩
    subst hg
    refine ⟨?_, ?_, ?_⟩
    · simp only [Robot.frameVelocityWorld, Robot.framePosition, Robot.frameVelocity, hf, Robot.rotationOnly]
      exact congrArg some (act_rot _ _)
    · simp only [Robot.frameAccelerationWorld, Robot.framePosition, Robot.frameAcceleration, hf, Robot.rotationOnly]
      exact congrArg some (act_rot _ _)
    · simp only [Robot.frameClassicAccelerationWorld, Robot.framePosition, Robot.frameClassicAcceleration, hf,
        Robot.rotationOnly]
      exact congrArg some (act_rot _ _)
  · intro h
    have hf : frames[i]? = none := List.getElem?_eq_none h
    simp only [Robot.frameVelocityWorld, Robot.frameAccelerationWorld, Robot.frameClassicAccelerationWorld,
      Robot.framePosition, Robot.rotationOnly, hf, and_self]

/-- **C53 fails in general**: whenever the frame turns, some content of the uninitialised memory makes the result differ
from the rotated motion. -/
theorem C53_uninitialised (M : SE3 K) (h : M.rot.Orthogonal) (m : Motion K) (hm : m.ang ≠ ⟨0, 0, 0⟩) :
    ∃ garbage x, Robot.rotationOnly garbage (some M) (some m) = some x ∧ x ≠ rotate M.rot m := by
  have hw : M.rot.mulVec m.ang ≠ ⟨0, 0, 0⟩ := by
    intro e
    apply hm
    have := transpose_mulVec_mul h m.ang
    rw [e] at this
    rw [← this]
    simp [M3.mulVec]
  have : ∃ g : V3 K, g.cross (M.rot.mulVec m.ang) ≠ ⟨0, 0, 0⟩ := by
    by_contra hn
    push Not at hn
    apply hw
    have h1 := hn ⟨1, 0, 0⟩
    have h2 := hn ⟨0, 1, 0⟩
    simp [V3.cross] at h1 h2
    cases hv : M.rot.mulVec m.ang with
    | mk a b c =>
      rw [hv] at h1 h2
      simp only at h1 h2
      rw [h1.2, h2.1, h2.2]
  obtain ⟨g, hg⟩ := this
  obtain ⟨x, e, -, -, hx, -⟩ := C53_partial g M m
  exact ⟨g, x, e, fun hh => hg (hx.1 hh)⟩

/-- A frame that turns about the vertical while the uninitialised translation is (1, 0, 0): the reported linear
velocity is (0, -1, 0) instead of 0. -/
example : Robot.frameVelocityWorld (⟨1, 0, 0⟩ : V3 ℚ) [⟨0, ⟨M3.one, 0⟩⟩]
    ⟨fun _ => ⟨M3.one, 0⟩, fun _ => ⟨0, ⟨0, 0, 1⟩⟩, fun _ => 0⟩ 0 = some ⟨⟨0, -1, 0⟩, ⟨0, 0, 1⟩⟩ := by decide +kernel

/-! ## C74 -/

/-- Rotations preserve cross products. -/
theorem mulVec_cross {R : M3 K} (h : IsRotation R) (a b : V3 K) :
    (R.mulVec a).cross (R.mulVec b) = R.mulVec (a.cross b) := by
  -- the cofactor matrix of a rotation is the rotation itself
  obtain ⟨⟨h1, h2⟩, hd⟩ := h
  obtain ⟨⟨r00, r10, r20⟩, ⟨r01, r11, r21⟩, ⟨r02, r12, r22⟩⟩ := R
  obtain ⟨a0, a1, a2⟩ := a
  obtain ⟨b0, b1, b2⟩ := b
  simp only [M3.mul, M3.mulVec, M3.transpose, M3.one, M3.mk.injEq, V3.mk.injEq, det3] at h1 h2 hd
  obtain ⟨⟨q00, q10, q20⟩, ⟨q01, q11, q21⟩, q02, q12, q22⟩ := h2
  -- cofactors
  have c00 : r11 * r22 - r12 * r21 = r00 := by
    linear_combination r00 * hd - (r11 * r22 - r12 * r21) * q00 - (r02 * r21 - r01 * r22) * q10 - (r01 * r12 - r02 * r11) * q20
  have c10 : r02 * r21 - r01 * r22 = r10 := by
    linear_combination r10 * hd - (r11 * r22 - r12 * r21) * q01 - (r02 * r21 - r01 * r22) * q11 - (r01 * r12 - r02 * r11) * q21
  have c20 : r01 * r12 - r02 * r11 = r20 := by
    linear_combination r20 * hd - (r11 * r22 - r12 * r21) * q02 - (r02 * r21 - r01 * r22) * q12 - (r01 * r12 - r02 * r11) * q22
  have c01 : r12 * r20 - r10 * r22 = r01 := by
    linear_combination r01 * hd - (r12 * r20 - r10 * r22) * q00 - (r00 * r22 - r02 * r20) * q10 - (r02 * r10 - r00 * r12) * q20
  have c11 : r00 * r22 - r02 * r20 = r11 := by
    linear_combination r11 * hd - (r12 * r20 - r10 * r22) * q01 - (r00 * r22 - r02 * r20) * q11 - (r02 * r10 - r00 * r12) * q21
  have c21 : r02 * r10 - r00 * r12 = r21 := by
    linear_combination r21 * hd - (r12 * r20 - r10 * r22) * q02 - (r00 * r22 - r02 * r20) * q12 - (r02 * r10 - r00 * r12) * q22
  have c02 : r10 * r21 - r11 * r20 = r02 := by
    linear_combination r02 * hd - (r10 * r21 - r11 * r20) * q00 - (r01 * r20 - r00 * r21) * q10 - (r00 * r11 - r01 * r10) * q20
  have c12 : r01 * r20 - r00 * r21 = r12 := by
    linear_combination r12 * hd - (r10 * r21 - r11 * r20) * q01 - (r01 * r20 - r00 * r21) * q11 - (r00 * r11 - r01 * r10) * q21
  have c22 : r00 * r11 - r01 * r10 = r22 := by
    linear_combination r22 * hd - (r10 * r21 - r11 * r20) * q02 - (r01 * r20 - r00 * r21) * q12 - (r00 * r11 - r01 * r10) * q22
  simp only [V3.cross, M3.mulVec, V3.mk.injEq]
  refine ⟨?_, ?_, ?_⟩
  · linear_combination (a1 * b2 - a2 * b1) * c00 + (a2 * b0 - a0 * b2) * c01 + (a0 * b1 - a1 * b0) * c02
  · linear_combination (a1 * b2 - a2 * b1) * c10 + (a2 * b0 - a0 * b2) * c11 + (a0 * b1 - a1 * b0) * c12
  · linear_combination (a1 * b2 - a2 * b1) * c20 + (a2 * b0 - a0 * b2) * c21 + (a0 * b1 - a1 * b0) * c22

/-- **C74.** Of a frame that sits at `p` on a joint: the position is the origin of the joint plus `p` in the axes of the
joint; the velocity, seen in the axes of the joint, is `v + ω × p`; the classical acceleration is
`a + α × p + ω × (v + ω × p)` where `(v, ω)` and `(a, α)` are the velocity and the spatial acceleration of the joint. -/
theorem C74_frame (frames : List (Robot.Frame K)) (d : Robot.JointData K) (i : Nat) (f : Robot.Frame K)
    (hf : frames[i]? = some f) (hr : IsRotation f.placement.rot) :
    ∃ M v a, Robot.framePosition frames d i = some M ∧ Robot.frameVelocity frames d i = some v ∧
      Robot.frameClassicAcceleration frames d i = some a ∧
      M.trans = (d.oMi f.parent).trans + (d.oMi f.parent).rot.mulVec f.placement.trans ∧
      M.rot = (d.oMi f.parent).rot.mul f.placement.rot ∧
      f.placement.rot.mulVec v.lin = (d.v f.parent).lin + (d.v f.parent).ang.cross f.placement.trans ∧
      f.placement.rot.mulVec v.ang = (d.v f.parent).ang ∧
      f.placement.rot.mulVec a.lin = (d.a f.parent).lin + (d.a f.parent).ang.cross f.placement.trans +
        (d.v f.parent).ang.cross ((d.v f.parent).lin + (d.v f.parent).ang.cross f.placement.trans) ∧
      f.placement.rot.mulVec a.ang = (d.a f.parent).ang := by
  refine ⟨_, _, _, by rw [Robot.framePosition, hf], by rw [Robot.frameVelocity, hf],
    by rw [Robot.frameClassicAcceleration, hf], rfl, rfl, ?_, ?_, ?_, ?_⟩
  · simp only [SE3.actInv, mul_transpose_mulVec hr.1]
    simp only [V3.sub_def, V3.add_def, V3.cross, V3.mk.injEq]
    refine ⟨?_, ?_, ?_⟩ <;> ring
  · simp only [SE3.actInv, mul_transpose_mulVec hr.1]
  · simp only [SE3.actInv, mulVec_add, mul_transpose_mulVec hr.1, ← mulVec_cross hr]
    simp only [V3.sub_def, V3.add_def, V3.cross, V3.mk.injEq]
    refine ⟨?_, ?_, ?_⟩ <;> ring
  · simp only [SE3.actInv, mul_transpose_mulVec hr.1]

/-- **C74, spatial acceleration.** `frameAcceleration` is `a + α × p` seen in the axes of the joint; the classical
acceleration differs from it by the product of the angular and the linear velocity of the frame. -/
theorem C74_acceleration (frames : List (Robot.Frame K)) (d : Robot.JointData K) (i : Nat) (f : Robot.Frame K)
    (hf : frames[i]? = some f) (hr : IsRotation f.placement.rot) :
    ∃ v a c, Robot.frameVelocity frames d i = some v ∧ Robot.frameAcceleration frames d i = some a ∧
      Robot.frameClassicAcceleration frames d i = some c ∧
      f.placement.rot.mulVec a.lin = (d.a f.parent).lin + (d.a f.parent).ang.cross f.placement.trans ∧
      f.placement.rot.mulVec a.ang = (d.a f.parent).ang ∧ c.lin = a.lin + v.ang.cross v.lin ∧ c.ang = a.ang := by
  refine ⟨f.placement.actInv (d.v f.parent), f.placement.actInv (d.a f.parent),
    ⟨(f.placement.actInv (d.a f.parent)).lin + (f.placement.actInv (d.v f.parent)).ang.cross
      (f.placement.actInv (d.v f.parent)).lin, (f.placement.actInv (d.a f.parent)).ang⟩,
    by rw [Robot.frameVelocity, hf], by rw [Robot.frameAcceleration, hf],
    by rw [Robot.frameClassicAcceleration, hf], ?_, ?_, rfl, rfl⟩
  · simp only [SE3.actInv, mul_transpose_mulVec hr.1]
    simp only [V3.sub_def, V3.add_def, V3.cross, V3.mk.injEq]
    refine ⟨?_, ?_, ?_⟩ <;> ring
  · simp only [SE3.actInv, mul_transpose_mulVec hr.1]

/-- The joint of the example below speeds up at rate 3: spatial acceleration 3 across. -/
example : Robot.frameAcceleration (K := ℚ) [⟨0, ⟨⟨⟨0, 1, 0⟩, ⟨-1, 0, 0⟩, ⟨0, 0, 1⟩⟩, ⟨1, 0, 0⟩⟩⟩]
    ⟨fun _ => ⟨M3.one, 0⟩, fun _ => ⟨0, ⟨0, 0, 2⟩⟩, fun _ => ⟨0, ⟨0, 0, 3⟩⟩⟩ 0 = some ⟨⟨3, 0, 0⟩, ⟨0, 0, 3⟩⟩ := by
  decide +kernel

/-- **C74, indices.** The frame functions throw iff there is no frame with the index. -/
theorem C74_throws (frames : List (Robot.Frame K)) (d : Robot.JointData K) (i : Nat) :
    (Robot.framePosition frames d i = none ↔ frames.length ≤ i) ∧
    (Robot.frameVelocity frames d i = none ↔ frames.length ≤ i) ∧
    (Robot.frameAcceleration frames d i = none ↔ frames.length ≤ i) ∧
    (Robot.frameClassicAcceleration frames d i = none ↔ frames.length ≤ i) := by
  rw [← List.getElem?_eq_none_iff]
  simp only [Robot.framePosition, Robot.frameVelocity, Robot.frameAcceleration, Robot.frameClassicAcceleration]
  cases frames[i]? <;> simp

/-- A frame one metre along the arm of a joint that turns at speed 2: velocity 2 across, acceleration 4 inwards. -/
example :
    let frames : List (Robot.Frame ℚ) := [⟨0, ⟨⟨⟨0, 1, 0⟩, ⟨-1, 0, 0⟩, ⟨0, 0, 1⟩⟩, ⟨1, 0, 0⟩⟩⟩]
    let d : Robot.JointData ℚ := ⟨fun _ => ⟨M3.one, 0⟩, fun _ => ⟨0, ⟨0, 0, 2⟩⟩, fun _ => 0⟩
    Robot.frameVelocity frames d 0 = some ⟨⟨2, 0, 0⟩, ⟨0, 0, 2⟩⟩ ∧
    Robot.frameClassicAcceleration frames d 0 = some ⟨⟨0, 4, 0⟩, ⟨0, 0, 0⟩⟩ := by decide +kernel

/-! ## C66 -/

variable [LinearOrder K] [IsStrictOrderedRing K] [HasSqrt K]

/-- The robot held by the formulation never changes, whatever is done to the robot of the user. -/
theorem program_robot {nd : Bool} {W : World} (os : List (RobotProgram.Op K)) {s s' : RobotProgram.State K}
    (h : RobotProgram.run nd W s os = some s') : s'.form.robot = s.form.robot := by
  induction os generalizing s with
  | nil => cases h; rfl
  | cons o os ih =>
    rw [RobotProgram.run] at h
    cases hs : (RobotProgram.step nd W s o).state? with
    | none => rw [hs] at h; cases h
    | some s1 =>
      rw [hs] at h
      rw [ih h]
      cases o with
      | robot o =>
        simp only [RobotProgram.step] at hs
        cases hr : s.robot.step o <;> rw [hr] at hs <;> simp only [Res.state?] at hs <;> cases hs <;> rfl
      | form o =>
        simp only [RobotProgram.step] at hs
        cases hr : Formulation.step nd W s.form o <;> rw [hr] at hs <;> simp only [Res.state?] at hs
        · cases hs
          exact Formulation.step_robot (by rw [hr]; rfl)
        · cases hs
          exact Formulation.step_robot (by rw [hr]; rfl)
        · cases hs
        · cases hs

/-- The part of a history that concerns the formulation. -/
def formOps : List (RobotProgram.Op K) → List (Formulation.Op K)
  | [] => []
  | .robot _ :: os => formOps os
  | .form o :: os => o :: formOps os

/-- The part of a history that concerns the robot of the user. -/
def robotOps : List (RobotProgram.Op K) → List (Robot.Op K)
  | [] => []
  | .robot o :: os => o :: robotOps os
  | .form _ :: os => robotOps os

/-- The two parts of a history do not influence each other. -/
theorem program_split {nd : Bool} {W : World} (os : List (RobotProgram.Op K)) {s s' : RobotProgram.State K}
    (h : RobotProgram.run nd W s os = some s') :
    Formulation.run nd W s.form (formOps os) = some s'.form ∧
    runOps Robot.step s.robot (robotOps os) = some s'.robot := by
  induction os generalizing s with
  | nil => cases h; exact ⟨rfl, rfl⟩
  | cons o os ih =>
    rw [RobotProgram.run] at h
    cases hs : (RobotProgram.step nd W s o).state? with
    | none => rw [hs] at h; cases h
    | some s1 =>
      rw [hs] at h
      obtain ⟨i1, i2⟩ := ih h
      cases o with
      | robot o =>
        simp only [RobotProgram.step] at hs
        simp only [formOps, robotOps, runOps]
        cases hr : s.robot.step o <;> rw [hr] at hs <;> simp only [Res.state?] at hs <;> cases hs <;>
          exact ⟨i1, i2⟩
      | form o =>
        simp only [RobotProgram.step] at hs
        simp only [formOps, robotOps, Formulation.run]
        cases hr : Formulation.step nd W s.form o <;> rw [hr] at hs <;> simp only [Res.state?] at hs <;> cases hs <;>
          exact ⟨i1, i2⟩

/-- **C66, what the code does.** After any interleaving of calls on the robot and on the formulation, the equations of
motion of the next cycle use the motor parameters the robot had *when the formulation was created*. -/
theorem C66_creation_partial {nd : Bool} {W : World} {nv : Nat} {root : RootJoint} {r00 r0 : Robot K}
    {pre : List (Robot.Op K)} {obj : Nat → Contact K} {assoc : Nat → String} {os : List (RobotProgram.Op K)}
    {s : RobotProgram.State K} {form : State K} {cy : Cycle K} {t : K}
    (h0 : Robot.new nv root = some r00) (hpre : runOps Robot.step r00 pre = some r0)
    (hobj : ∀ cid, ∃ name kind points normal mu fMin fMax, obj cid = Contact.new name kind points normal mu fMin fMax)
    (hrun : RobotProgram.run nd W (RobotProgram.init r0 obj assoc) os = some s)
    (hc : Formulation.computeProblemData nd cy t s.form = .ok form ()) (hs : CycleSizes form.nv cy)
    (x : Vec K) (hx : x.size = Formulation.nVar form) :
    ∃ (m : Mat K) (dv f tau : Vec K),
      (Formulation.getAccelerations form x).val? = some dv ∧ (Formulation.getContactForces form x).val? = some f ∧
      (Formulation.getActuatorForces form x).val? = some tau ∧
      (∀ i j, i < nv → j < nv → m i j = inertia nv (motorCount nv root)
        ((Motors.fresh (motorCount nv root)).afterAll (motorCount nv root) pre) cy.M.get i j) ∧
      (Sat (form.heap form.baseId) x.get ↔
        EquationsOfMotion form.nv form.nu m cy.nle (contactPairs cy form) (form.measured.map cy.torque) dv f tau) := by
  obtain ⟨hi, hna⟩ := motorInv_new h0
  obtain ⟨r1, hr1, hi⟩ := motorInv_run pre hi
  rw [hpre] at hr1; cases hr1
  have hreach : Reachable nd W s.form :=
    ⟨r0, obj, assoc, formOps os, by rw [hi.naEq, hi.nvEq]; exact hna, hobj, (program_split os hrun).1⟩
  obtain ⟨dv, f, tau, e1, e2, e3, -, -, -, heom⟩ := C01_equations_of_motion hreach hc hs x hx
  have hrob : form.robot = r0 := by
    have h1 : form.robot = s.form.robot :=
      Formulation.step_robot (nd := nd) (W := W) (o := .compute cy t) (by simp only [Formulation.step, hc, Res.state?])
    rw [h1, program_robot os hrun]
    rfl
  refine ⟨form.robot.mass cy.M, dv, f, tau, e1, e2, e3, fun i j h1 h2 => ?_, heom⟩
  rw [hrob]
  refine mass_entry hi hna ?_ h1
  have : form.nv = nv := by
    obtain ⟨-, -, -, -, -, h2, -⟩ := Formulation.compute_spec (Formulation.reachable_inv hreach) hc
    rw [← h2.pre.rnv, hrob, hi.nvEq]
  rw [hs.1, this]

/-- **C66, when it holds.** After any interleaving of calls, the mass matrix of the formulation is the one of the
user's robot iff the reflected inertia of every motor is still the one at the creation of the formulation. -/
theorem C66_partial {nd : Bool} {W : World} {nv : Nat} {root : RootJoint} {r00 r0 : Robot K}
    {pre : List (Robot.Op K)} {obj : Nat → Contact K} {assoc : Nat → String} {os : List (RobotProgram.Op K)}
    {s : RobotProgram.State K}
    (h0 : Robot.new nv root = some r00) (hpre : runOps Robot.step r00 pre = some r0)
    (hrun : RobotProgram.run nd W (RobotProgram.init r0 obj assoc) os = some s) :
    let na := motorCount nv root
    let created := (Motors.fresh na).afterAll na pre
    let current := created.afterAll na (robotOps os)
    (∀ M : Mat K, M.rows = nv → M.cols = nv → ∀ i j, i < nv → j < nv →
      s.robot.mass M i j = inertia nv na current M.get i j ∧
      s.form.robot.mass M i j = inertia nv na created M.get i j) ∧
    ((∀ M : Mat K, M.rows = nv → M.cols = nv → ∀ i j, i < nv → j < nv →
      s.form.robot.mass M i j = s.robot.mass M i j) ↔
      ∀ k, k < na → created.gear k ^ 2 * created.rotor k = current.gear k ^ 2 * current.rotor k) := by
  intro na created current
  obtain ⟨hi, hna⟩ := motorInv_new h0
  obtain ⟨r1, hr1, hi⟩ := motorInv_run pre hi
  rw [hpre] at hr1; cases hr1
  obtain ⟨r2, hr2, hi2⟩ := motorInv_run (robotOps os) hi
  have hu := (program_split os hrun).2
  rw [show (RobotProgram.init r0 obj assoc).robot = r0 from rfl, hr2] at hu
  cases hu
  have hf : s.form.robot = r0 := (program_robot os hrun).trans rfl
  have e1 : ∀ M : Mat K, M.rows = nv → M.cols = nv → ∀ i j, i < nv → j < nv →
      s.robot.mass M i j = inertia nv na current M.get i j ∧
      s.form.robot.mass M i j = inertia nv na created M.get i j :=
    fun M h1 _ i j h2 _ => ⟨mass_entry hi2 hna h1 h2, by rw [hf]; exact mass_entry hi hna h1 h2⟩
  refine ⟨e1, fun h k hk => ?_, fun h M h1 h2 i j h3 h4 => ?_⟩
  · have hk' : k < motorCount nv root := hk
    have hl : nv - na + k < nv := by omega
    have h := h (Mat.zero nv nv) rfl rfl (nv - na + k) (nv - na + k) hl hl
    rw [(e1 _ rfl rfl _ _ hl hl).1, (e1 _ rfl rfl _ _ hl hl).2] at h
    have hs : nv - na + k - (nv - na) = k := by omega
    simpa [inertia, Mat.zero, hs] using h
  · rw [(e1 M h1 h2 i j h3 h4).1, (e1 M h1 h2 i j h3 h4).2]
    simp only [inertia]
    by_cases hc : i = j ∧ nv - na ≤ i
    · rw [if_pos hc, if_pos hc, h (i - (nv - na)) (by omega)]
    · rw [if_neg hc, if_neg hc]

/-- The program of the witness: a formulation is created, then the gear ratios of the robot are changed from 3 to 1. -/
def staleProgram : List (RobotProgram.Op ℚ) :=
  [.robot (.setGear (Vec.ofList [1, 1])), .form (.addMotionTask 0 1 1 0)]

/-- What `staleProgram` shows: mass matrix of the user's robot, of the formulation, and the torque of the first motor
that the formulation decodes from a unit acceleration of that motor. -/
def staleOutcome : Option (ℚ × ℚ × ℚ) :=
  match RobotProgram.run false Demo.world (RobotProgram.init Demo.robot Demo.contacts Demo.assoc) staleProgram with
  | some s =>
    match Formulation.computeProblemData false Demo.cycle 0 s.form with
    | .ok form _ =>
      (Formulation.getActuatorForces form ⟨8, fun i => if i = 6 then 1 else 0⟩).val?.map fun tau =>
        (s.robot.mass Demo.cycle.M 6 6, form.robot.mass Demo.cycle.M 6 6, tau 0)
    | _ => none
  | none => none

/-- **C66 fails**: the robot of the user has inertia 4 + 1 at the first motor; the formulation goes on with 4 + 9, and
the torque it returns for a unit acceleration is 13 + 7 instead of 5 + 7. -/
theorem C66_stale : staleOutcome = some (5, 13, 20) := by decide +kernel

/-- The robot of the witness arises from the constructor and two setter calls, and the program runs. -/
example : (∃ r00 : Robot ℚ, Robot.new 8 .floatingBase = some r00 ∧ (runOps Robot.step r00
      [.setRotor (Vec.ofList [1, 1]), .setGear (Vec.ofList [3, 3])]).map (fun r => (r.nv, r.na, r.rotor.toList,
        r.gear.toList, r.md.toList)) = some (8, 2, [1, 1], [3, 3], [9, 9])) ∧
    (Demo.robot.rotor.toList, Demo.robot.gear.toList, Demo.robot.md.toList) = ([1, 1], [3, 3], [9, 9]) := by
  refine ⟨⟨_, rfl, ?_⟩, ?_⟩ <;> decide +kernel

end Tsid.Props
