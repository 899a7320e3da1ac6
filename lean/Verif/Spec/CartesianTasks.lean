import Verif.Spec.Tasks
import Verif.Model.CartesianTasks

/-!
# What the Cartesian tasks ask for

The accelerations of frames and of the centre of mass as functions of the joint accelerations, and the PD laws of the
tasks in terms of positions and rotations.
-/

namespace Tsid.Spec

open Finset

variable {K : Type} [Field K]

/-- Both parts of a motion rotated: local axes to world axes when `R` is the rotation of the frame. -/
def rotate (R : M3 K) (m : Motion K) : Motion K := ⟨R.mulVec m.lin, R.mulVec m.ang⟩

/-- The joint accelerations `a` produce this motion acceleration: the sum of the columns of the Jacobian weighted by
`a`, plus the drift. -/
def motionAcc (nv : Nat) (jac : Nat → Motion K) (drift : Motion K) (a : Nat → K) : Motion K :=
  ⟨⟨∑ c ∈ range nv, (jac c).lin.x * a c + drift.lin.x, ∑ c ∈ range nv, (jac c).lin.y * a c + drift.lin.y,
    ∑ c ∈ range nv, (jac c).lin.z * a c + drift.lin.z⟩,
   ⟨∑ c ∈ range nv, (jac c).ang.x * a c + drift.ang.x, ∑ c ∈ range nv, (jac c).ang.y * a c + drift.ang.y,
    ∑ c ∈ range nv, (jac c).ang.z * a c + drift.ang.z⟩⟩

/-- The same for a point. -/
def pointAcc (nv : Nat) (jac : Nat → V3 K) (drift : V3 K) (a : Nat → K) : V3 K :=
  ⟨∑ c ∈ range nv, (jac c).x * a c + drift.x, ∑ c ∈ range nv, (jac c).y * a c + drift.y,
   ∑ c ∈ range nv, (jac c).z * a c + drift.z⟩

/-- Error of the pose `M` with respect to `N` in the axes of `M`: the vector to the target and the rotation vector of
the relative rotation. -/
def localError (log3 : M3 K → V3 K) (M N : SE3 K) : Motion K :=
  ⟨M.rot.transpose.mulVec (N.trans - M.trans), log3 (M.rot.transpose.mul N.rot)⟩

/-- The same error in world axes: the linear part is the difference of the positions. -/
def worldError (log3 : M3 K → V3 K) (M N : SE3 K) : Motion K :=
  ⟨N.trans - M.trans, M.rot.mulVec (log3 (M.rot.transpose.mul N.rot))⟩

/-! ## One frame -/

/-- The settings of an SE3 task: the reference is a pose with a velocity and an acceleration in world axes. -/
structure FrameSettings (K : Type) where
  mask : Vec K
  kp : Vec K
  kd : Vec K
  pose : SE3 K
  vel : Motion K
  acc : Motion K
  loc : Bool

/-- Settings of a new task. -/
def FrameSettings.fresh : FrameSettings K :=
  ⟨⟨6, fun _ => 1⟩, Vec.zero 6, Vec.zero 6, ⟨M3.one, ⟨0, 0, 0⟩⟩, ⟨⟨0, 0, 0⟩, ⟨0, 0, 0⟩⟩, ⟨⟨0, 0, 0⟩, ⟨0, 0, 0⟩⟩, true⟩

/-- Settings after one call. -/
def FrameSettings.after (p : FrameSettings K) : SE3Task.Op K → FrameSettings K
  | .setMask _ m => { p with mask := m }
  | .setKp k => if k.size = 6 then { p with kp := k } else p
  | .setKd k => if k.size = 6 then { p with kd := k } else p
  | .setReference r =>
    if r.pos.size = 12 then
      { p with
        pose := ⟨⟨⟨r.pos 3, r.pos 4, r.pos 5⟩, ⟨r.pos 6, r.pos 7, r.pos 8⟩, ⟨r.pos 9, r.pos 10, r.pos 11⟩⟩,
          ⟨r.pos 0, r.pos 1, r.pos 2⟩⟩
        vel := ⟨⟨r.vel 0, r.vel 1, r.vel 2⟩, ⟨r.vel 3, r.vel 4, r.vel 5⟩⟩
        acc := ⟨⟨r.acc 0, r.acc 1, r.acc 2⟩, ⟨r.acc 3, r.acc 4, r.acc 5⟩⟩ }
    else p
  | .setReferencePose M =>
    { p with pose := M, vel := ⟨⟨0, 0, 0⟩, ⟨0, 0, 0⟩⟩, acc := ⟨⟨0, 0, 0⟩, ⟨0, 0, 0⟩⟩ }
  | .useLocalFrame b => { p with loc := b }
  | .compute _ => p

/-- Settings after a history of calls. -/
def FrameSettings.afterAll (p : FrameSettings K) : List (SE3Task.Op K) → FrameSettings K
  | [] => p
  | o :: os => afterAll (p.after o) os

/-- Masks are 0/1 masks of size 6 and references have derivatives of size 6. -/
def FrameSettings.Good : SE3Task.Op K → Prop
  | .setMask _ m => ValidMask 6 m
  | .setReference r => r.pos.size = 12 → r.vel.size = 6 ∧ r.acc.size = 6
  | _ => True

/-- Axis `i` of the acceleration the PD law asks for. -/
def FrameSettings.law (log3 : M3 K → V3 K) (p : FrameSettings K) (k : FrameKin K) (i : Nat) : K :=
  if p.loc then
    (rotate k.pose.rot.transpose p.acc).get i + p.kp i * (localError log3 k.pose p.pose).get i +
      p.kd i * ((rotate k.pose.rot.transpose p.vel).get i - k.vel.get i)
  else
    p.acc.get i + p.kp i * (worldError log3 k.pose p.pose).get i +
      p.kd i * (p.vel.get i - (rotate k.pose.rot k.vel).get i)

/-- Axis `i` of the acceleration of the frame, in the axes of the task. -/
def FrameSettings.achieved (p : FrameSettings K) (nv : Nat) (k : FrameKin K) (a : Nat → K) (i : Nat) : K :=
  if p.loc then (motionAcc nv k.jac k.drift a).get i else (rotate k.pose.rot (motionAcc nv k.jac k.drift a)).get i

/-! ## Two frames -/

/-- The settings of a two-frames task. -/
structure PairSettings (K : Type) where
  mask : Vec K
  kp : Vec K
  kd : Vec K

/-- Settings of a new task. -/
def PairSettings.fresh : PairSettings K := ⟨⟨6, fun _ => 1⟩, Vec.zero 6, Vec.zero 6⟩

/-- Settings after one call. -/
def PairSettings.after (p : PairSettings K) : TwoFrames.Op K → PairSettings K
  | .setMask _ m => { p with mask := m }
  | .setKp k => { p with kp := k }
  | .setKd k => { p with kd := k }
  | .compute _ _ => p

/-- Settings after a history of calls. -/
def PairSettings.afterAll (p : PairSettings K) : List (TwoFrames.Op K) → PairSettings K
  | [] => p
  | o :: os => afterAll (p.after o) os

/-- Masks are 0/1 masks of size 6 and gains have size 6. -/
def PairSettings.Good : TwoFrames.Op K → Prop
  | .setMask _ m => ValidMask 6 m
  | .setKp k => k.size = 6
  | .setKd k => k.size = 6
  | _ => True

/-- Axis `i` (world axes) of the relative acceleration the PD law asks for: towards the second frame. -/
def PairSettings.law (log3 : M3 K → V3 K) (p : PairSettings K) (k1 k2 : FrameKin K) (i : Nat) : K :=
  p.kp i * (worldError log3 k1.pose k2.pose).get i +
    p.kd i * ((rotate k2.pose.rot k2.vel).get i - (rotate k1.pose.rot k1.vel).get i)

/-- Axis `i` (world axes) of the acceleration of the first frame minus that of the second. -/
def relativeAcc (nv : Nat) (k1 k2 : FrameKin K) (a : Nat → K) (i : Nat) : K :=
  (rotate k1.pose.rot (motionAcc nv k1.jac k1.drift a)).get i -
    (rotate k2.pose.rot (motionAcc nv k2.jac k2.drift a)).get i

/-! ## Centre of mass -/

/-- The settings of a centre-of-mass task. -/
structure ComSettings (K : Type) where
  mask : Vec K
  kp : V3 K
  kd : V3 K
  pos : Nat → K
  vel : Nat → K
  acc : Nat → K

/-- Settings of a new task. -/
def ComSettings.fresh : ComSettings K :=
  ⟨⟨3, fun _ => 1⟩, ⟨0, 0, 0⟩, ⟨0, 0, 0⟩, fun _ => 0, fun _ => 0, fun _ => 0⟩

/-- Settings after one call. -/
def ComSettings.after (p : ComSettings K) : ComTask.Op K → ComSettings K
  | .setMask _ m => if m.size = 3 then { p with mask := m } else p
  | .setKp k => if k.size = 3 then { p with kp := ⟨k 0, k 1, k 2⟩ } else p
  | .setKd k => if k.size = 3 then { p with kd := ⟨k 0, k 1, k 2⟩ } else p
  | .setReference r => { p with pos := r.pos.get, vel := r.vel.get, acc := r.acc.get }
  | .compute _ => p

/-- Settings after a history of calls. -/
def ComSettings.afterAll (p : ComSettings K) : List (ComTask.Op K) → ComSettings K
  | [] => p
  | o :: os => afterAll (p.after o) os

/-- Masks of size 3 are 0/1 masks and references have size 3. -/
def ComSettings.Good : ComTask.Op K → Prop
  | .setMask _ m => m.size = 3 → ValidMask 3 m
  | .setReference r => r.pos.size = 3 ∧ r.vel.size = 3 ∧ r.acc.size = 3
  | _ => True

/-- Axis `i` of the acceleration the PD law asks for. -/
def ComSettings.law (p : ComSettings K) (k : ComKin K) (i : Nat) : K :=
  p.acc i + p.kp.get i * (p.pos i - k.pos.get i) + p.kd.get i * (p.vel i - k.vel.get i)

/-! ## Angular momentum -/

/-- The settings of an angular-momentum task: the momentum and its derivative. -/
structure AmSettings (K : Type) where
  kp : V3 K
  mom : Nat → K
  dmom : Nat → K

/-- Settings of a new task. -/
def AmSettings.fresh : AmSettings K := ⟨⟨0, 0, 0⟩, fun _ => 0, fun _ => 0⟩

/-- Settings after one call. -/
def AmSettings.after (p : AmSettings K) : AmTask.Op K → AmSettings K
  | .setKp k => if k.size = 3 then { p with kp := ⟨k 0, k 1, k 2⟩ } else p
  | .setReference r => { p with mom := r.pos.get, dmom := r.vel.get }
  | _ => p

/-- Settings after a history of calls. -/
def AmSettings.afterAll (p : AmSettings K) : List (AmTask.Op K) → AmSettings K
  | [] => p
  | o :: os => afterAll (p.after o) os

/-- References have size 3, momentum matrices have six rows and a column per velocity. -/
def AmSettings.Good (nv : Nat) : AmTask.Op K → Prop
  | .setReference r => r.pos.size = 3 ∧ r.vel.size = 3
  | .compute v A _ => v.size = nv ∧ A.rows = 6 ∧ A.cols = nv
  | _ => True

/-- Axis `i` of the angular part of `A x`. -/
def angularMomentum (A : Mat K) (x : Nat → K) (i : Nat) : K := ∑ c ∈ range A.cols, A (3 + i) c * x c

/-- Axis `i` of the momentum derivative the law asks for when the velocity is `v`. -/
def AmSettings.law (p : AmSettings K) (A : Mat K) (v : Nat → K) (i : Nat) : K :=
  p.dmom i + p.kp.get i * (p.mom i - angularMomentum A v i)

/-! ## Point contacts -/

/-- The settings of the motion task of a point contact: three gains each, a pose, and the axes. -/
structure PointSettings (K : Type) where
  kp : V3 K
  kd : V3 K
  pose : SE3 K
  loc : Bool

/-- Settings of a new contact. -/
def PointSettings.fresh : PointSettings K := ⟨⟨0, 0, 0⟩, ⟨0, 0, 0⟩, ⟨M3.one, ⟨0, 0, 0⟩⟩, true⟩

/-- Settings after one call. -/
def PointSettings.after (p : PointSettings K) : PointMotion.Op K → PointSettings K
  | .setKp _ k => if k.size = 3 then { p with kp := ⟨k 0, k 1, k 2⟩ } else p
  | .setKd _ k => if k.size = 3 then { p with kd := ⟨k 0, k 1, k 2⟩ } else p
  | .setReference M => { p with pose := M }
  | .useLocalFrame b => { p with loc := b }
  | .compute _ => p

/-- Settings after a history of calls. -/
def PointSettings.afterAll (p : PointSettings K) : List (PointMotion.Op K) → PointSettings K
  | [] => p
  | o :: os => afterAll (p.after o) os

/-- Axis `i` of the acceleration asked of the contact point. -/
def PointSettings.law (p : PointSettings K) (k : FrameKin K) (i : Nat) : K :=
  if p.loc then
    p.kp.get i * (k.pose.rot.transpose.mulVec (p.pose.trans - k.pose.trans)).get i - p.kd.get i * k.vel.lin.get i
  else p.kp.get i * (p.pose.trans - k.pose.trans).get i - p.kd.get i * (k.pose.rot.mulVec k.vel.lin).get i

/-- Axis `i` of the acceleration of the contact point. -/
def PointSettings.achieved (p : PointSettings K) (nv : Nat) (k : FrameKin K) (a : Nat → K) (i : Nat) : K :=
  if p.loc then (motionAcc nv k.jac k.drift a).lin.get i
  else (k.pose.rot.mulVec (motionAcc nv k.jac k.drift a).lin).get i

/-- The gains of the motion task of a two-frames contact. -/
structure PairGains (K : Type) where
  kp : V3 K
  kd : V3 K

/-- Gains after one call. -/
def PairGains.after (p : PairGains K) : PairMotion.Op K → PairGains K
  | .setKp _ k => { p with kp := ⟨k 0, k 1, k 2⟩ }
  | .setKd _ k => { p with kd := ⟨k 0, k 1, k 2⟩ }
  | .compute _ _ => p

/-- Gains after a history of calls. -/
def PairGains.afterAll (p : PairGains K) : List (PairMotion.Op K) → PairGains K
  | [] => p
  | o :: os => afterAll (p.after o) os

/-- Gains have size 3. -/
def PairGains.Good : PairMotion.Op K → Prop
  | .setKp _ k => k.size = 3
  | .setKd _ k => k.size = 3
  | _ => True

/-- Axis `i` (world axes) of the relative acceleration asked of the two points. -/
def PairGains.law (p : PairGains K) (k1 k2 : FrameKin K) (i : Nat) : K :=
  p.kp.get i * (k2.pose.trans - k1.pose.trans).get i +
    p.kd.get i * ((k2.pose.rot.mulVec k2.vel.lin).get i - (k1.pose.rot.mulVec k1.vel.lin).get i)

end Tsid.Spec
