import Mathlib.Tactic.Ring
import Mathlib.Tactic.LinearCombination
import Mathlib.Algebra.BigOperators.Ring.Finset
import Verif.Spec.MeasuredForce
import Verif.Lemmas.Geometry

/-!
# Measured forces (C76)
-/

set_option linter.unusedSectionVars false

namespace Tsid.Props

open Spec Finset

variable {K : Type} [Field K]

/-- Columns that the frame does not depend on stay zero. -/
private def Clean6 (s : Measured6D K) : Prop := ∀ c, s.supp c = false → s.J c = 0

private theorem act_zero (R : M3 K) : (⟨R, 0⟩ : SE3 K).act 0 = 0 := by
  simp [SE3.act, M3.mulVec, V3.cross, V3.add_def, V3.zero_def, Motion.zero_def]

private theorem act_rot (R : M3 K) (m : Motion K) : (⟨R, 0⟩ : SE3 K).act m = ⟨R.mulVec m.lin, R.mulVec m.ang⟩ := by
  simp [SE3.act, V3.cross, V3.add_def, V3.zero_def]

private theorem run6 (nv : Nat) (supp : Nat → Bool) (ops : List (Measured6D.Op K)) :
    ∀ s : Measured6D K, s.nv = nv → s.supp = supp → Clean6 s →
      let s' := ops.foldl Measured6D.step s
      s'.nv = nv ∧ s'.supp = supp ∧ Clean6 s' ∧ s'.fext = lastWrench ops s.fext ∧ s'.loc = lastAxes6 ops s.loc := by
  induction ops with
  | nil => exact fun s h1 h2 h3 => ⟨h1, h2, h3, rfl, rfl⟩
  | cons o os ih =>
    intro s h1 h2 h3
    cases o with
    | setForce f => exact ih { s with fext := f } h1 h2 h3
    | useLocalFrame b => exact ih { s with loc := b } h1 h2 h3
    | compute k =>
      refine ih (s.compute k).1 h1 h2 ?_
      intro c hc
      have hc' : s.supp c = false := hc
      show (if s.loc = false then fun c => k.rotOnly.act (k.writeLocal s.supp s.J c)
        else k.writeLocal s.supp s.J) c = 0
      have h0 : k.writeLocal s.supp s.J c = 0 := by
        unfold FrameJac.writeLocal
        rw [hc', if_neg (by decide)]
        exact h3 c hc'
      by_cases hl : s.loc = false
      · rw [if_pos hl, h0]; exact act_zero _
      · rw [if_neg hl]; exact h0

private theorem run3 (nv : Nat) (supp : Nat → Bool) (ops : List (Measured3D.Op K)) :
    ∀ s : Measured3D K, s.nv = nv → s.supp = supp →
      let s' := ops.foldl Measured3D.step s
      s'.nv = nv ∧ s'.supp = supp ∧ s'.fext = lastForce ops s.fext ∧ s'.loc = lastAxes3 ops s.loc := by
  induction ops with
  | nil => exact fun s h1 h2 => ⟨h1, h2, rfl, rfl⟩
  | cons o os ih =>
    intro s h1 h2
    cases o with
    | setForce f => exact ih { s with fext := f } h1 h2
    | useLocalFrame b => exact ih { s with loc := b } h1 h2
    | compute k => exact ih (s.compute k).1 h1 h2

/-- The torques computed by a wrench object. -/
private theorem torque6 (nv : Nat) (supp : Nat → Bool) (ops : List (Measured6D.Op K)) (k : FrameJac K) :
    ((Measured6D.run nv supp ops).compute k).2.size = nv ∧
    ∀ c, ((Measured6D.run nv supp ops).compute k).2 c =
      if supp c = true then
        powerOf (lastWrench ops 0).lin (lastWrench ops 0).ang (inAxes (lastAxes6 ops true) k.pose.rot (k.col c).lin)
          (inAxes (lastAxes6 ops true) k.pose.rot (k.col c).ang)
      else 0 := by
  obtain ⟨h1, h2, h3, h4, h5⟩ := run6 nv supp ops (Measured6D.new nv supp) rfl rfl (fun _ _ => rfl)
  have e4 : (Measured6D.run nv supp ops).fext = lastWrench ops 0 := h4
  have e5 : (Measured6D.run nv supp ops).loc = lastAxes6 ops true := h5
  refine ⟨h1, fun c => ?_⟩
  show Measured6D.pair ((if (Measured6D.run nv supp ops).loc = false then
    fun c => k.rotOnly.act (k.writeLocal (Measured6D.run nv supp ops).supp (Measured6D.run nv supp ops).J c)
    else k.writeLocal (Measured6D.run nv supp ops).supp (Measured6D.run nv supp ops).J) c)
      (Measured6D.run nv supp ops).fext = _
  have e2 : (Measured6D.run nv supp ops).supp = supp := h2
  rw [e4, e5, e2]
  generalize lastWrench ops 0 = f
  have hJ : supp c = false → (Measured6D.run nv supp ops).J c = 0 := by
    intro h
    exact h3 c (by rw [show (List.foldl Measured6D.step (Measured6D.new nv supp) ops).supp = supp from h2]; exact h)
  by_cases hs : supp c = true
  · rw [if_pos hs]
    have hw : k.writeLocal supp (Measured6D.run nv supp ops).J c = k.col c := by
      unfold FrameJac.writeLocal; rw [if_pos hs]
    cases hl : lastAxes6 ops true with
    | true =>
      rw [if_neg (by decide), hw]
      simp only [inAxes, if_true, Measured6D.pair, powerOf, V3.dot]
      ring
    | false =>
      rw [if_pos rfl]
      show Measured6D.pair (k.rotOnly.act (k.writeLocal supp (Measured6D.run nv supp ops).J c)) f = _
      rw [hw, FrameJac.rotOnly, act_rot]
      simp only [inAxes, Bool.false_eq_true, if_false, Measured6D.pair, powerOf, V3.dot]
      ring
  · rw [if_neg hs]
    have hs' : supp c = false := by cases h : supp c <;> simp_all
    have hw : k.writeLocal supp (Measured6D.run nv supp ops).J c = 0 := by
      unfold FrameJac.writeLocal; rw [if_neg hs]; exact hJ hs'
    cases hl : lastAxes6 ops true with
    | true =>
      rw [if_neg (by decide), hw]
      simp [Measured6D.pair, V3.dot, Motion.zero_def]
    | false =>
      rw [if_pos rfl]
      show Measured6D.pair (k.rotOnly.act (k.writeLocal supp (Measured6D.run nv supp ops).J c)) f = _
      rw [hw, FrameJac.rotOnly, act_zero]
      simp [Measured6D.pair, V3.dot, Motion.zero_def]

private theorem torque3 (nv : Nat) (supp : Nat → Bool) (ops : List (Measured3D.Op K)) (k : FrameJac K) :
    ((Measured3D.run nv supp ops).compute k).2.size = nv ∧
    ∀ c, ((Measured3D.run nv supp ops).compute k).2 c =
      if supp c = true then
        (lastForce ops 0).dot (inAxes (lastAxes3 ops true) k.pose.rot (k.col c).lin)
      else 0 := by
  obtain ⟨h1, h2, h4, h5⟩ := run3 nv supp ops (Measured3D.new nv supp) rfl rfl
  have e4 : (Measured3D.run nv supp ops).fext = lastForce ops 0 := h4
  have e5 : (Measured3D.run nv supp ops).loc = lastAxes3 ops true := h5
  have e2 : (Measured3D.run nv supp ops).supp = supp := h2
  refine ⟨h1, fun c => ?_⟩
  show V3.dot ((if (Measured3D.run nv supp ops).loc = false then
    fun c => (k.rotOnly.act (k.writeLocal (Measured3D.run nv supp ops).supp (fun _ => 0) c)).lin
    else fun c => (k.writeLocal (Measured3D.run nv supp ops).supp (fun _ => 0) c).lin) c)
      (Measured3D.run nv supp ops).fext = _
  rw [e4, e5, e2]
  generalize lastForce ops 0 = f
  by_cases hs : supp c = true
  · have hw : k.writeLocal supp (fun _ => 0) c = k.col c := by
      unfold FrameJac.writeLocal; rw [if_pos hs]
    rw [if_pos hs]
    cases hl : lastAxes3 ops true with
    | true =>
      rw [if_neg (by decide), hw]
      simp only [inAxes, if_true, V3.dot]
      ring
    | false =>
      rw [if_pos rfl]
      show V3.dot (k.rotOnly.act (k.writeLocal supp (fun _ => 0) c)).lin f = _
      rw [hw, FrameJac.rotOnly, act_rot]
      simp only [inAxes, Bool.false_eq_true, if_false, V3.dot]
      ring
  · have hw : k.writeLocal supp (fun _ => 0) c = 0 := by
      unfold FrameJac.writeLocal; rw [if_neg hs]
    rw [if_neg hs]
    cases hl : lastAxes3 ops true with
    | true =>
      rw [if_neg (by decide), hw]
      simp [V3.dot, Motion.zero_def]
    | false =>
      rw [if_pos rfl]
      show V3.dot (k.rotOnly.act (k.writeLocal supp (fun _ => 0) c)).lin f = _
      rw [hw, FrameJac.rotOnly, act_zero]
      simp [V3.dot, Motion.zero_def]

private theorem sum_filter_ite (nv : Nat) (supp : Nat → Bool) (g v : Nat → K) :
    ∑ c ∈ range nv, (if supp c = true then g c else 0) * v c =
      ∑ c ∈ (range nv).filter (fun c => supp c = true), g c * v c := by
  rw [sum_filter]
  refine sum_congr rfl fun c _ => ?_
  split
  · rfl
  · exact zero_mul _

/-- C76: after every history of calls on a wrench object, the joint torques it computes deliver, for every joint
velocity, the power of the last measured wrench on the velocity of the frame, force and velocity being taken in the axes
chosen last (axes of the frame or of the world). -/
theorem C76_wrench_power (nv : Nat) (supp : Nat → Bool) (ops : List (Measured6D.Op K)) (k : FrameJac K) (v : Nat → K) :
    ((Measured6D.run nv supp ops).compute k).2.size = nv ∧
    ∑ c ∈ range nv, ((Measured6D.run nv supp ops).compute k).2 c * v c =
      powerOf (lastWrench ops 0).lin (lastWrench ops 0).ang
        (inAxes (lastAxes6 ops true) k.pose.rot (frameTwist nv supp k v).lin)
        (inAxes (lastAxes6 ops true) k.pose.rot (frameTwist nv supp k v).ang) := by
  obtain ⟨h1, h2⟩ := torque6 nv supp ops k
  refine ⟨h1, ?_⟩
  simp only [h2]
  rw [sum_filter_ite]
  generalize lastWrench ops 0 = f
  cases lastAxes6 ops true with
  | true =>
    simp only [powerOf, inAxes, if_true, frameTwist, V3.dot, mul_sum, ← sum_add_distrib]
    exact sum_congr rfl fun c _ => by ring
  | false =>
    simp only [powerOf, inAxes, Bool.false_eq_true, if_false, frameTwist, M3.mulVec, V3.dot, mul_sum, ← sum_add_distrib]
    exact sum_congr rfl fun c _ => by ring

/-- C76 for a measured force without moment. -/
theorem C76_force_power (nv : Nat) (supp : Nat → Bool) (ops : List (Measured3D.Op K)) (k : FrameJac K) (v : Nat → K) :
    ((Measured3D.run nv supp ops).compute k).2.size = nv ∧
    ∑ c ∈ range nv, ((Measured3D.run nv supp ops).compute k).2 c * v c =
      (lastForce ops 0).dot (inAxes (lastAxes3 ops true) k.pose.rot (frameTwist nv supp k v).lin) := by
  obtain ⟨h1, h2⟩ := torque3 nv supp ops k
  refine ⟨h1, ?_⟩
  simp only [h2]
  rw [sum_filter_ite]
  generalize lastForce ops 0 = f
  cases lastAxes3 ops true with
  | true =>
    simp only [inAxes, if_true, frameTwist, V3.dot, mul_sum, ← sum_add_distrib]
    exact sum_congr rfl fun c _ => by ring
  | false =>
    simp only [inAxes, Bool.false_eq_true, if_false, frameTwist, M3.mulVec, V3.dot, mul_sum, ← sum_add_distrib]
    exact sum_congr rfl fun c _ => by ring

/-- C76: joints the frame does not depend on get no torque. -/
theorem C76_unrelated_joints (nv : Nat) (supp : Nat → Bool) (c : Nat) (hc : supp c = false) (k : FrameJac K) :
    (∀ ops : List (Measured6D.Op K), ((Measured6D.run nv supp ops).compute k).2 c = 0) ∧
    (∀ ops : List (Measured3D.Op K), ((Measured3D.run nv supp ops).compute k).2 c = 0) := by
  constructor
  · intro ops
    rw [(torque6 nv supp ops k).2 c, if_neg (by rw [hc]; decide)]
  · intro ops
    rw [(torque3 nv supp ops k).2 c, if_neg (by rw [hc]; decide)]

private theorem dot_rot {R : M3 K} (hR : R.Orthogonal) (a b : V3 K) : (R.mulVec a).dot (R.mulVec b) = a.dot b := by
  obtain ⟨h, -⟩ := hR
  have e00 := congrArg (fun m : M3 K => m.c0.x) h
  have e01 := congrArg (fun m : M3 K => m.c1.x) h
  have e02 := congrArg (fun m : M3 K => m.c2.x) h
  have e11 := congrArg (fun m : M3 K => m.c1.y) h
  have e12 := congrArg (fun m : M3 K => m.c2.y) h
  have e22 := congrArg (fun m : M3 K => m.c2.z) h
  simp only [M3.mul, M3.transpose, M3.mulVec, M3.one] at e00 e01 e02 e11 e12 e22
  simp only [M3.mulVec, V3.dot]
  linear_combination a.x * b.x * e00 + (a.x * b.y + a.y * b.x) * e01 + (a.x * b.z + a.z * b.x) * e02 +
    a.y * b.y * e11 + (a.y * b.z + a.z * b.y) * e12 + a.z * b.z * e22

/-- C76: one wrench, given in the axes of the frame or in the axes of the world, has the same joint torques, whatever
was called before. -/
theorem C76_axes_agree (nv : Nat) (supp : Nat → Bool) (ops ops' : List (Measured6D.Op K)) (k : FrameJac K)
    (hR : k.pose.rot.Orthogonal) (f : Motion K) (c : Nat) :
    ((Measured6D.run nv supp (ops ++ [.useLocalFrame true, .setForce f])).compute k).2 c =
      ((Measured6D.run nv supp (ops' ++ [.useLocalFrame false,
        .setForce ⟨k.pose.rot.mulVec f.lin, k.pose.rot.mulVec f.ang⟩])).compute k).2 c := by
  have hw : ∀ (os : List (Measured6D.Op K)) (b : Bool) (g g0 : Motion K),
      lastWrench (os ++ [.useLocalFrame b, .setForce g]) g0 = g := by
    intro os b g
    induction os with
    | nil => intro g0; rfl
    | cons o os ih => intro g0; cases o <;> exact ih _
  have ha : ∀ (os : List (Measured6D.Op K)) (b b0 : Bool) (g : Motion K),
      lastAxes6 (os ++ [.useLocalFrame b, .setForce g]) b0 = b := by
    intro os b b0 g
    induction os generalizing b0 with
    | nil => rfl
    | cons o os ih => cases o <;> exact ih _
  rw [(torque6 nv supp _ k).2 c, (torque6 nv supp _ k).2 c, hw, hw, ha, ha]
  by_cases hs : supp c = true
  · rw [if_pos hs, if_pos hs]
    simp only [powerOf, inAxes, if_true, Bool.false_eq_true, if_false]
    rw [dot_rot hR, dot_rot hR]
  · rw [if_neg hs, if_neg hs]

/-- Non-vacuity: a quarter turn about `z`, a frame that depends on joints 0 and 2 of three, used first in world axes and
then in the axes of the frame: the torques are those of the second mode. -/
example :
    let k : FrameJac ℚ := ⟨⟨⟨⟨0, 1, 0⟩, ⟨-1, 0, 0⟩, ⟨0, 0, 1⟩⟩, ⟨5, 6, 7⟩⟩,
      fun c => if c = 0 then ⟨⟨1, 0, 0⟩, ⟨0, 0, 1⟩⟩ else ⟨⟨0, 2, 0⟩, ⟨1, 0, 0⟩⟩⟩
    let supp : Nat → Bool := fun c => c != 1
    let s := Measured6D.run 3 supp [.setForce ⟨⟨3, 4, 0⟩, ⟨0, 0, 2⟩⟩, .useLocalFrame false, .compute k]
    ((s.compute k).2.toList = [6, 0, -6] ∧
      (((s.step (.useLocalFrame true)).compute k).2.toList = [5, 0, 8])) ∧ k.pose.rot.Orthogonal := by
  refine ⟨?_, ?_⟩
  · decide +kernel
  · constructor <;> decide +kernel

end Tsid.Props
