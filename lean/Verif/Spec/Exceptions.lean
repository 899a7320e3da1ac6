import Verif.Spec.Static
import Verif.Spec.ProgramText

/-!
# Which calls of a program end with an exception

The messages of the exceptions in the sources: the size of a vector is wrong, a time step, weight, duration, friction
coefficient or normal force is out of its range.  Again only the text of the program is looked at.
-/

namespace Tsid.Spec

open Formulation

variable {K : Type}

section
variable [Field K] [LinearOrder K] [FloorRing K] [HasSqrt K]

/-- A task refuses the call.  `calls` are the earlier calls on the task; they matter for the bounds of an actuation task,
which are those of the selected joints. -/
def TaskDecl.Refuses (R : PostureRobot K) (calls : List (TaskCall K)) : TaskDecl K → TaskCall K → Prop
  | .se3 _, .se3 (.setKp k) | .se3 _, .se3 (.setKd k) => k.size ≠ 6
  | .se3 _, .se3 (.setReference r) => r.pos.size ≠ 12
  | .com, .com (.setMask _ k) | .com, .com (.setKp k) | .com, .com (.setKd k) => k.size ≠ 3
  | .am, .am (.setKp k) | .am, .am (.setKd k) => k.size ≠ 3
  | .capture _ _, .capture (.setX lo hi) | .capture _ _, .capture (.setY lo hi) => hi < lo
  | .posture, .posture (.setMask k) | .posture, .posture (.setKp k) | .posture, .posture (.setKd k) => k.size ≠ R.na
  | .posture, .posture (.setReference r) => r.pos.size ≠ R.nqa ∨ r.vel.size ≠ R.na ∨ r.acc.size ≠ R.na
  | .jointBounds _, .jointBounds (.setTimeStep dt) => dt ≤ 0
  | .jointBounds _, .jointBounds (.setVelocityBounds l u) => l.size ≠ R.na ∨ u.size ≠ R.na
  | .jointBounds _, .jointBounds (.setAccelerationBounds l u) => l.size ≠ R.na ∨ u.size ≠ R.na
  | .posVelAcc _, .posVelAcc (.setTimeStep dt) => dt ≤ 0
  | .posVelAcc _, .posVelAcc (.setPositionBounds l u) => l.size ≠ R.na ∨ u.size ≠ R.na
  | .posVelAcc _, .posVelAcc (.setVelocityBounds u) => u.size ≠ R.na
  | .posVelAcc _, .posVelAcc (.setAccelerationBounds u) => u.size ≠ R.na
  | .posVelAcc _, .posVelAcc (.setMask m) => m.size ≠ R.na
  | .actBounds, .actBounds (.mask m) => m.size ≠ R.na
  | .actBounds, .actBounds (.setBounds l u) =>
    let n := countSelected ((TorqueLimits.fresh (K := K) R.na).afterAll R.na (calls.filterMap actBounds?)).mask R.na
    l.size ≠ n ∨ u.size ≠ n
  | .actEq, .actEq (.mask m) => m.size ≠ R.na
  | .actEq, .actEq (.setReference r) => r.size ≠ R.na
  | .actEq, .actEq (.setWeights w) => w.size ≠ R.na
  | .force _ _ _, .force (.setKp k) | .force _ _ _, .force (.setKd k) | .force _ _ _, .force (.setKi k) => k.size ≠ 6
  | _, _ => False

/-- The motion task of a contact refuses the call. -/
def ContactDecl.Refuses : ContactDecl → ContactCall K → Prop
  | .point _, .point (.setKp _ k) | .point _, .point (.setKd _ k) => k.size ≠ 3
  | .sixD _, .setKp k | .sixD _, .setKd k => k.size ≠ 6
  | _, _ => False

/-- A contact of a class with these limits refuses the call. -/
def ForceLimits.Refuses (kind : ContactKind) (p : ForceLimits K) : ContactSet K → Prop
  | .points P => P.rows ≠ 3 ∨ P.cols ≠ 4
  | .normal n => kind ≠ .twoFrames ∧ n.size ≠ 3
  | .friction mu => kind ≠ .twoFrames ∧ mu ≤ 0
  | .fMin m => kind ≠ .twoFrames ∧ (m ≤ 0 ∨ p.fMax < m)
  | .fMax m => kind ≠ .twoFrames ∧ m < p.fMin
  | .forceRef f => kind = .point ∧ f.size ≠ 3
  | .regWeights _ => False

/-- The call ends with an exception when it follows the text. -/
def Setup.Refuses (S : Setup K) (E : Program.Env K) (ops : List (Program.Op K)) : Program.Op K → Prop
  | .task tid c => (S.decl tid).Refuses E.robot (taskCalls tid ops) c
  | .motion cid c => (S.cdecl cid).Refuses c
  | .form (.addMotionTask _ w _ d) | .form (.addForceTask _ w _ d) | .form (.addActuationTask _ w _ d) => w < 0 ∨ d < 0
  | .form (.setContact cid u) => (S.limitsOf ops cid).Refuses (S.obj cid).kind u
  | _ => False

/-- Runs a program in which no exception is caught: `none` if a call does not return. -/
def uncaught (E : Program.Env K) : Program.State K → List (Program.Op K) → Option (Program.State K)
  | s, [] => some s
  | s, o :: os =>
    match Program.step E s o with
    | .ok s' _ => uncaught E s' os
    | _ => none

/-- No call of the text is refused. -/
def Unrefused (E : Program.Env K) (S : Setup K) (ops : List (Program.Op K)) : Prop :=
  ∀ pre o post, ops = pre ++ o :: post → ¬ S.Refuses E pre o

end

end Tsid.Spec
