import Verif.Spec.Tasks
import Verif.Model.JointTasks

/-!
# What the joint-space tasks ask for
-/

namespace Tsid.Spec

variable {K : Type}

/-! ## Velocity and acceleration bounds -/

/-- The settings of a bounds task: time step, velocity limits, acceleration limits. -/
structure BoundSettings (K : Type) where
  dt : K
  vLb : Vec K
  vUb : Vec K
  aLb : Vec K
  aUb : Vec K

/-- Settings after one call: accepted arguments replace the old ones, others change nothing. -/
def BoundSettings.after [Field K] [LinearOrder K] (na : Nat) (p : BoundSettings K) :
    JointBounds.Op K → BoundSettings K
  | .setTimeStep dt => if 0 < dt then { p with dt := dt } else p
  | .setVelocityBounds l u => if l.size = na ∧ u.size = na then { p with vLb := l, vUb := u } else p
  | .setAccelerationBounds l u => if l.size = na ∧ u.size = na then { p with aLb := l, aUb := u } else p
  | .setMask _ => p
  | .compute _ => p

/-- Settings after a history of calls. -/
def BoundSettings.afterAll [Field K] [LinearOrder K] (na : Nat) (p : BoundSettings K) :
    List (JointBounds.Op K) → BoundSettings K
  | [] => p
  | o :: os => afterAll na (p.after na o) os

/-- Settings of a new task: no limit is tighter than `1e10`. -/
def BoundSettings.fresh [Field K] (na : Nat) (dt : K) : BoundSettings K :=
  ⟨dt, ⟨na, fun _ => -10000000000⟩, ⟨na, fun _ => 10000000000⟩, ⟨na, fun _ => -10000000000⟩,
    ⟨na, fun _ => 10000000000⟩⟩

/-- The acceleration `a` of the robot moving with velocity `v` respects the settings: each actuated joint is within
its acceleration limits, its velocity one time step later is within its velocity limits, and the components of the
floating base are at most `1e10`. -/
def BoundSettings.Respected [Field K] [LinearOrder K] (nv na : Nat) (p : BoundSettings K) (v a : Nat → K) : Prop :=
  (∀ i, i < nv - na → |a i| ≤ 10000000000) ∧
  ∀ j, j < na →
    (p.aLb j ≤ a (nv - na + j) ∧ a (nv - na + j) ≤ p.aUb j) ∧
    (p.vLb j ≤ v (nv - na + j) + p.dt * a (nv - na + j) ∧ v (nv - na + j) + p.dt * a (nv - na + j) ≤ p.vUb j)

/-! ## Posture -/

/-- The settings of a posture task. -/
structure PostureSettings (K : Type) where
  mask : Vec K
  kp : Vec K
  kd : Vec K
  ref : Sample K

/-- Settings after one call, when the masks that are passed are admissible or of a wrong size. -/
def PostureSettings.after [Field K] (R : PostureRobot K) (p : PostureSettings K) :
    Posture.Op K → PostureSettings K
  | .setMask m => if m.size = R.na then { p with mask := m } else p
  | .setKp k => if k.size = R.na then { p with kp := k } else p
  | .setKd k => if k.size = R.na then { p with kd := k } else p
  | .setReference r =>
    if r.pos.size = R.nqa ∧ r.vel.size = R.na ∧ r.acc.size = R.na then { p with ref := r } else p
  | .compute _ _ => p

/-- Settings after a history of calls. -/
def PostureSettings.afterAll [Field K] (R : PostureRobot K) (p : PostureSettings K) :
    List (Posture.Op K) → PostureSettings K
  | [] => p
  | o :: os => afterAll R (p.after R o) os

/-- The masks passed in a call are admissible or have a wrong size. -/
def PostureSettings.GoodMask [Zero K] [One K] (na : Nat) : Posture.Op K → Prop
  | .setMask m => m.size = na → ValidMask na m
  | _ => True

/-- Settings of a new task. -/
def PostureSettings.fresh [Field K] (R : PostureRobot K) : PostureSettings K :=
  ⟨⟨R.na, fun _ => 1⟩, Vec.zero R.na, Vec.zero R.na, ⟨Vec.zero R.nqa, Vec.zero R.na, Vec.zero R.na⟩⟩

/-- The full configuration the reference stands for: the neutral one with its last `nqa` entries replaced. -/
def PostureSettings.target (R : PostureRobot K) (p : PostureSettings K) : Vec K :=
  ⟨R.neutral.size, fun i => if i < R.neutral.size - R.nqa then R.neutral i else p.ref.pos (i - (R.neutral.size - R.nqa))⟩

/-- The acceleration the PD law asks of joint `j` when the robot is in `q` with velocity `v`. -/
def PostureSettings.law [Field K] (R : PostureRobot K) (p : PostureSettings K) (q v : Vec K) (j : Nat) : K :=
  p.ref.acc j - p.kp j * (R.difference (p.target R) q) (R.nv - R.na + j) - p.kd j * (v (R.nv - R.na + j) - p.ref.vel j)

/-! ## Actuation -/

/-- The settings of a torque equality task. -/
structure TorqueSettings (K : Type) where
  mask : Vec K
  ref : Vec K
  weights : Vec K

/-- Settings after one call, when the masks that are passed are admissible or of a wrong size. -/
def TorqueSettings.after [Field K] (na : Nat) (p : TorqueSettings K) : ActEq.Op K → TorqueSettings K
  | .mask m => if m.size = na then { p with mask := m } else p
  | .setReference r => if r.size = na then { p with ref := r } else p
  | .setWeights w => if w.size = na then { p with weights := w } else p

/-- Settings after a history of calls. -/
def TorqueSettings.afterAll [Field K] (na : Nat) (p : TorqueSettings K) : List (ActEq.Op K) → TorqueSettings K
  | [] => p
  | o :: os => afterAll na (p.after na o) os

/-- Settings of a new task. -/
def TorqueSettings.fresh [Field K] (na : Nat) : TorqueSettings K := ⟨⟨na, fun _ => 1⟩, Vec.zero na, ⟨na, fun _ => 1⟩⟩

/-- The masks passed in a call are admissible or have a wrong size. -/
def TorqueSettings.GoodMask [Zero K] [One K] (na : Nat) : ActEq.Op K → Prop
  | .mask m => m.size = na → ValidMask na m
  | _ => True

/-- The settings of a torque bounds task; the bounds are those of the selected joints, one after the other. -/
structure TorqueLimits (K : Type) where
  mask : Vec K
  lower : Vec K
  upper : Vec K

/-- Settings after one call: a new mask sets the bounds to zero; bounds are accepted when there is one for each
selected joint. -/
def TorqueLimits.after [Field K] [DecidableEq K] (na : Nat) (p : TorqueLimits K) : ActBounds.Op K → TorqueLimits K
  | .mask m => if m.size = na then ⟨m, Vec.zero (countSelected m na), Vec.zero (countSelected m na)⟩ else p
  | .setBounds l u =>
    if l.size = countSelected p.mask na ∧ u.size = countSelected p.mask na then { p with lower := l, upper := u } else p

/-- Settings after a history of calls. -/
def TorqueLimits.afterAll [Field K] [DecidableEq K] (na : Nat) (p : TorqueLimits K) :
    List (ActBounds.Op K) → TorqueLimits K
  | [] => p
  | o :: os => afterAll na (p.after na o) os

/-- Settings of a new task. -/
def TorqueLimits.fresh [Field K] (na : Nat) : TorqueLimits K := ⟨⟨na, fun _ => 1⟩, Vec.zero na, Vec.zero na⟩

/-- The masks passed in a call are admissible or have a wrong size. -/
def TorqueLimits.GoodMask [Zero K] [One K] (na : Nat) : ActBounds.Op K → Prop
  | .mask m => m.size = na → ValidMask na m
  | _ => True

end Tsid.Spec
