import Verif.Model.Attributes

/-!
# What a getter should return

Specification: the value set by the last call that was accepted.  `assigned` says which value a call sets, `none` for
calls that set something else; it is written here from the names and the arguments of the setters alone.
-/

namespace Tsid.Spec.Attributes

variable {σ ω α V K : Type}

/-- The value after a history of calls from the state `s`, if it was `v` before: every call that is accepted sets it to
the value assigned, if any; a call that throws sets nothing.  After the end of the program nothing is set. -/
def lastAccepted (step : σ → ω → Res σ α) (assigned : ω → Option V) : V → σ → List ω → V
  | v, _, [] => v
  | v, s, o :: os =>
    match step s o with
    | .ok s' _ => lastAccepted step assigned ((assigned o).getD v) s' os
    | .throw s' => lastAccepted step assigned v s' os
    | _ => v

/-- The last value passed to a setter, accepted or not. -/
def lastPassed (assigned : ω → Option V) (v : V) (ops : List ω) : V := ops.foldl (fun v o => (assigned o).getD v) v

/-- After every history of calls that satisfy `P` and that the program survives, reading yields the value last
accepted (the value `v` before the first). -/
def Reads (P : ω → Prop) (step : σ → ω → Res σ α) (assigned : ω → Option (List (List K)))
    (read : σ → Reading K) (s : σ) (v : List (List K)) : Prop :=
  ∀ ops, (∀ o ∈ ops, P o) → ∀ s', runOps step s ops = some s' → read s' = .value (lastAccepted step assigned v s ops)

/-- The entries of a sample. -/
def parts (r : Sample K) : List (List K) := [r.pos.toList, r.vel.toList, r.acc.toList]

/-- The coefficients of a placement: translation, then the columns of the rotation. -/
def coeffs (M : SE3 K) : List K :=
  [M.trans.x, M.trans.y, M.trans.z, M.rot.c0.x, M.rot.c0.y, M.rot.c0.z, M.rot.c1.x, M.rot.c1.y, M.rot.c1.z,
    M.rot.c2.x, M.rot.c2.y, M.rot.c2.z]

/-- A task for one frame. -/
def se3 [Zero K] : SE3Attr → SE3Task.Op K → Option (List (List K))
  | .kp, .setKp k => some [k.toList]
  | .kd, .setKd k => some [k.toList]
  | .mask, .setMask _ m => some [m.toList]
  | .reference, .setReference r => some (parts r)
  | .reference, .setReferencePose M => some [coeffs M, List.replicate 6 0, List.replicate 6 0]
  | _, _ => none

/-- A task for two frames. -/
def twoFrames : GainAttr → TwoFrames.Op K → Option (List (List K))
  | .kp, .setKp k => some [k.toList]
  | .kd, .setKd k => some [k.toList]
  | .mask, .setMask _ m => some [m.toList]
  | _, _ => none

/-- The task for the centre of mass. -/
def com : SE3Attr → ComTask.Op K → Option (List (List K))
  | .kp, .setKp k => some [k.toList]
  | .kd, .setKd k => some [k.toList]
  | .mask, .setMask _ m => some [m.toList]
  | .reference, .setReference r => some (parts r)
  | _, _ => none

/-- The task for the angular momentum. -/
def am : SE3Attr → AmTask.Op K → Option (List (List K))
  | .kp, .setKp k => some [k.toList]
  | .kd, .setKd k => some [k.toList]
  | .mask, .setMask m => some [m.toList]
  | .reference, .setReference r => some (parts r)
  | _, _ => none

/-- The gains of a point contact. -/
def pointGains : Bool → PointMotion.Op K → Option (List (List K))
  | false, .setKp _ k => some [k.toList]
  | true, .setKd _ k => some [k.toList]
  | _, _ => none

/-- The gains of a contact between two frames. -/
def pairGains : Bool → PairMotion.Op K → Option (List (List K))
  | false, .setKp _ k => some [k.toList]
  | true, .setKd _ k => some [k.toList]
  | _, _ => none

/-- The posture task. -/
def posture : SE3Attr → Posture.Op K → Option (List (List K))
  | .kp, .setKp k => some [k.toList]
  | .kd, .setKd k => some [k.toList]
  | .mask, .setMask m => some [m.toList]
  | .reference, .setReference r => some (parts r)
  | _, _ => none

/-- The actuation bounds. -/
def actBounds : ActAttr → ActBounds.Op K → Option (List (List K))
  | .mask, .mask m => some [m.toList]
  | .lower, .setBounds l _ => some [l.toList]
  | .upper, .setBounds _ u => some [u.toList]
  | _, _ => none

/-- The actuation bounds, if setting a mask is taken to set the bounds of all selected joints to zero. -/
def actBoundsReset [Zero K] [One K] [DecidableEq K] : ActAttr → ActBounds.Op K → Option (List (List K))
  | .mask, .mask m => some [m.toList]
  | .lower, .setBounds l _ => some [l.toList]
  | .upper, .setBounds _ u => some [u.toList]
  | .lower, .mask m => some [List.replicate (m.toList.count 1) 0]
  | .upper, .mask m => some [List.replicate (m.toList.count 1) 0]
  | _, _ => none

/-- The actuation equality. -/
def actEq : ActEqAttr → ActEq.Op K → Option (List (List K))
  | .mask, .mask m => some [m.toList]
  | .reference, .setReference r => some [r.toList]
  | .weights, .setWeights w => some [w.toList]
  | _, _ => none

/-- The velocity and acceleration limits. -/
def jointBounds : BoundsAttr → JointBounds.Op K → Option (List (List K))
  | .velLower, .setVelocityBounds l _ => some [l.toList]
  | .velUpper, .setVelocityBounds _ u => some [u.toList]
  | .accLower, .setAccelerationBounds l _ => some [l.toList]
  | .accUpper, .setAccelerationBounds _ u => some [u.toList]
  | _, _ => none

/-- The position, velocity and acceleration limits. -/
def limits : LimitsAttr → PosVelAcc.Op K → Option (List (List K))
  | .posLower, .setPositionBounds l _ => some [l.toList]
  | .posUpper, .setPositionBounds _ u => some [u.toList]
  | .vel, .setVelocityBounds u => some [u.toList]
  | .acc, .setAccelerationBounds u => some [u.toList]
  | .mask, .setMask m => some [m.toList]
  | .inheritedMask, .setMask m => some [m.toList]
  | _, _ => none

/-- The force-tracking task. -/
def force : ForceAttr → ForceTask.Op K → Option (List (List K))
  | .kp, .setKp k => some [k.toList]
  | .kd, .setKd k => some [k.toList]
  | .ki, .setKi k => some [k.toList]
  | .leak, .setLeakRate l => some [[l]]
  | .reference, .setReference r => some (parts r)
  | .external, .setExternalForce f => some (parts f)
  | _, _ => none

/-- The centre-of-pressure task. -/
def cop : CopTask.Op K → Option (List (List K))
  | .setReference p => some [[p.x, p.y, p.z]]
  | _ => none

/-- The limits of the normal force of a contact. -/
def normalForce : Bool → Formulation.ContactSet K → Option (List (List K))
  | false, .fMin m => some [[m]]
  | true, .fMax m => some [[m]]
  | _, _ => none

/-- The measured wrench: force, then moment. -/
def wrench : Measured6D.Op K → Option (List (List K))
  | .setForce f => some [[f.lin.x, f.lin.y, f.lin.z, f.ang.x, f.ang.y, f.ang.z]]
  | _ => none

/-- Rotor inertias and gear ratios. -/
def motors : Bool → Robot.Op K → Option (List (List K))
  | false, .setRotor v => some [v.toList]
  | true, .setGear v => some [v.toList]
  | _, _ => none

/-- A trajectory sample. -/
def sample [Zero K] : SampleAttr → Sample.Op K → Option (List (List K))
  | .value, .setValue v => some [v.toList]
  | .value, .setPose M => some [coeffs M]
  | .value, .resize n _ => some [List.replicate n 0]
  | .derivative, .setDerivative v => some [v.toList]
  | .derivative, .resize _ d => some [List.replicate d 0]
  | .second, .setSecond v => some [v.toList]
  | .second, .resize _ d => some [List.replicate d 0]
  | _, _ => none

/-- A mask has the entries 0 and 1. -/
def ZeroOne [Zero K] [One K] (m : Vec K) : Prop := ∀ i < m.size, m i = 0 ∨ m i = 1

/-! ## Restrictions and values of new objects -/

/-- The restriction under which a setting of a frame task is read correctly: the getter of the reference also returns a
sample that was rejected because of its size. -/
def se3Calls : SE3Attr → SE3Task.Op K → Prop
  | .reference, .setReference r => r.pos.size = 12
  | _, _ => True

/-- The values of a new task. -/
def se3Initial [Zero K] [One K] (np n : Nat) : SE3Attr → List (List K)
  | .kp => [List.replicate n 0]
  | .kd => [List.replicate n 0]
  | .mask => [List.replicate n 1]
  | .reference => [List.replicate np 0, List.replicate n 0, List.replicate n 0]

/-- The values of a new task with gains. -/
def gainInitial [Zero K] [One K] (n : Nat) : GainAttr → List (List K)
  | .kp => [List.replicate n 0]
  | .kd => [List.replicate n 0]
  | .mask => [List.replicate n 1]

/-- The values of a new angular-momentum task: the mask is empty. -/
def amInitial [Zero K] [One K] : SE3Attr → List (List K)
  | .mask => [[]]
  | a => se3Initial 3 3 a

/-- The restriction under which the mask of a posture task is the one last accepted: a mask with the right size and
other entries than 0 and 1 is rejected after it has been stored. -/
def postureCalls [Zero K] [One K] : SE3Attr → Posture.Op K → Prop
  | .mask, .setMask m => ZeroOne m
  | _, _ => True

/-- The values of a new posture task. -/
def postureInitial [Zero K] [One K] (nqa na : Nat) : SE3Attr → List (List K)
  | .kp => [List.replicate na 0]
  | .kd => [List.replicate na 0]
  | .mask => [List.replicate na 1]
  | .reference => [List.replicate nqa 0, List.replicate na 0, List.replicate na 0]

/-- The masks that are stored: those of the right size. -/
def postureStored (na : Nat) : Posture.Op K → Option (List (List K))
  | .setMask m => if m.size = na then some [m.toList] else none
  | _ => none

/-- Masks with the entries 0 and 1. -/
def actMasks [Zero K] [One K] : ActBounds.Op K → Prop
  | .mask m => ZeroOne m
  | _ => True

/-- The values of new actuation bounds. -/
def actInitial [Zero K] [One K] (na : Nat) : ActAttr → List (List K)
  | .mask => [List.replicate na 1]
  | _ => [List.replicate na 0]

/-- Masks with the entries 0 and 1. -/
def actEqMasks [Zero K] [One K] : ActEqAttr → ActEq.Op K → Prop
  | .mask, .mask m => ZeroOne m
  | _, _ => True

/-- The values of a new actuation equality. -/
def actEqInitial [Zero K] [One K] (na : Nat) : ActEqAttr → List (List K)
  | .reference => [List.replicate na 0]
  | _ => [List.replicate na 1]

/-- The limits of a new task: none, written as `± 1e10`. -/
def boundsInitial [Field K] (na : Nat) : BoundsAttr → List (List K)
  | .velLower => [List.replicate na (-10000000000)]
  | .velUpper => [List.replicate na 10000000000]
  | .accLower => [List.replicate na (-10000000000)]
  | .accUpper => [List.replicate na 10000000000]

/-- Masks with the entries 0 and 1. -/
def limitMasks [Zero K] [One K] : LimitsAttr → PosVelAcc.Op K → Prop
  | .mask, .setMask m => ZeroOne m
  | _, _ => True

/-- The values of new combined limits. -/
def limitsInitial [Field K] (na : Nat) : LimitsAttr → List (List K)
  | .posLower => [List.replicate na (-10000000000)]
  | .posUpper => [List.replicate na 10000000000]
  | .vel => [List.replicate na 10000000000]
  | .acc => [List.replicate na 10000000000]
  | .mask => [List.replicate na 1]
  | .inheritedMask => [List.replicate na 1]

/-- The values of a new force-tracking task: no gains, leak rate 1/20. -/
def forceInitial [Field K] : ForceAttr → List (List K)
  | .leak => [[1 / 20]]
  | .reference => [List.replicate 6 0, List.replicate 6 0, List.replicate 6 0]
  | .external => [List.replicate 6 0, List.replicate 6 0, List.replicate 6 0]
  | _ => [[]]

/-- The values of a new sample. -/
def sampleInitial [Zero K] (n d : Nat) : SampleAttr → List (List K)
  | .value => [List.replicate n 0]
  | _ => [List.replicate d 0]

end Tsid.Spec.Attributes
