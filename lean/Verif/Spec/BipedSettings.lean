import Verif.Spec.Biped
import Verif.Spec.Exceptions

/-!
# What the tasks of `TsidBiped` should ask for, and the sizes it should be given
-/

namespace Tsid.Spec

open Biped Finset

variable {K : Type} [Field K] [LinearOrder K] [FloorRing K] [HasSqrt K]

/-- The vectors of the configuration file, the limits of the model and the reference configuration have the sizes that the
robot wants: a gain and limits for each motor, and a value for each motor after the seven of the floating base. -/
structure Sized (cf : Conf K) (R : PostureRobot K) (q : Vec K) : Prop where
  gains : cf.gains.size = R.na
  torque : cf.tauMax.size = R.na
  speed : cf.vMax.size = R.na
  joints : q.size - 7 = R.nqa
  motors : q.size - 7 = R.na

/-- Position, velocity and acceleration of the centre of mass that were asked for last (the latest call comes first); at the
beginning the origin of the world. -/
def comGoal : List (Call K) → V3 K × V3 K × V3 K
  | [] => (⟨0, 0, 0⟩, ⟨0, 0, 0⟩, ⟨0, 0, 0⟩)
  | .setCom pos vel acc :: _ => (pos, vel, acc)
  | _ :: cs => comGoal cs

/-- The centre of pressure that was asked for last. -/
def copGoal : List (Call K) → V3 K
  | [] => ⟨0, 0, 0⟩
  | .setCop p :: _ => p
  | _ :: cs => copGoal cs

/-- Critical damping. -/
def critical (k : K) : K := 2 * sqrt k

/-- What the tasks of the class ask for after the calls `cs`; `q'` is the reference configuration on the ground. -/
structure AsConfigured (cf : Conf K) (R : PostureRobot K) (q' : Vec K) (cs : List (Call K)) (ops : List (Program.Op K)) :
    Prop where
  /-- The centre of mass follows its goal with the gains of the configuration file. -/
  com : ∀ k i, i < 3 → ((ComSettings.fresh (K := K)).afterAll ((taskCalls 0 ops).filterMap com?)).law k i =
    (comGoal cs.reverse).2.2.get i + cf.kpCom * ((comGoal cs.reverse).1.get i - k.pos.get i) +
      critical cf.kpCom * ((comGoal cs.reverse).2.1.get i - k.vel.get i)
  /-- The centre of pressure is the one asked for last, on a horizontal ground. -/
  cop : (CopSettings.fresh (K := K)).afterAll ((taskCalls 1 ops).filterMap cop?) = ⟨copGoal cs.reverse, ⟨0, 0, 1⟩⟩
  /-- The angular momentum about the horizontal axes is damped, that about the vertical left alone. -/
  am : ∀ A v, let p := (AmSettings.fresh (K := K)).afterAll ((taskCalls 2 ops).filterMap am?)
    p.law A v 0 = -(cf.kpAm * angularMomentum A v 0) ∧ p.law A v 1 = -(cf.kpAm * angularMomentum A v 1) ∧ p.law A v 2 = 0
  /-- The joints return to the reference configuration, each with its own gain. -/
  posture : ∀ q v j, let p := (PostureSettings.fresh R).afterAll R ((taskCalls 3 ops).filterMap posture?)
    p.mask = cf.mask ∧ p.law R q v j =
      -(cf.kpPosture * cf.gains j * (R.difference ⟨R.neutral.size, fun i =>
          if i < R.neutral.size - R.nqa then R.neutral i else q' (i - (R.neutral.size - R.nqa) + 7)⟩ q) (R.nv - R.na + j)) -
        critical (cf.kpPosture * cf.gains j) * v (R.nv - R.na + j)
  /-- The gains of the tasks of the feet, in the axes of the feet. -/
  foot : ∀ f : Foot, let p := (FrameSettings.fresh (K := K)).afterAll ((taskCalls f.tid ops).filterMap se3?)
    p.loc = true ∧ ∀ i, p.mask i = 1 ∧ p.kp i = cf.kpFoot ∧ p.kd i = critical cf.kpFoot
  /-- The torques are limited in both directions. -/
  torque : let p := (TorqueLimits.fresh (K := K) R.na).afterAll R.na ((taskCalls 6 ops).filterMap actBounds?)
    ∀ i, p.mask i = 1 ∧ p.lower i = -cf.tauMax i ∧ p.upper i = cf.tauMax i
  /-- The joints may have, one time step later, velocities up to the limits; accelerations are not limited. -/
  speed : let p := (BoundSettings.fresh (K := K) R.na cf.dt).afterAll R.na ((taskCalls 7 ops).filterMap jointBounds?)
    p.dt = cf.dt ∧ ∀ i, p.vLb i = -cf.vMax i ∧ p.vUb i = cf.vMax i ∧ p.aLb i = -10000000000 ∧ p.aUb i = 10000000000

end Tsid.Spec
