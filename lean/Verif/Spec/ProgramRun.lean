import Verif.Spec.ProgramProgress

/-!
# Programs that use every object as its class demands

Conditions on the text of a program: every call fits the class of the object it is made on, its arguments have the right
sizes, and the control cycles happen when they may.
-/

namespace Tsid.Spec

open Formulation

variable {K : Type}

/-- The family of a task: by which method it is added. -/
def TaskDecl.family : TaskDecl K → Family
  | .force _ _ _ | .cop => .force
  | .actBounds | .actEq => .actuation
  | _ => .motion

section
variable [Field K] [LinearOrder K]

/-- The calls a user may make on a task: masks are 0/1 masks of the right size, samples and states of the robot have the
right sizes; force tasks are computed by the formulation only, and their contact is changed by `associate`. -/
def TaskDecl.Accepts (R : PostureRobot K) : TaskDecl K → TaskCall K → Prop
  | .se3 _, .se3 o => FrameSettings.Good o
  | .twoFrames _ _, .twoFrames o => PairSettings.Good o
  | .com, .com o => ComSettings.Good o
  | .am, .am o => AmSettings.Good R.nv o
  | .capture _ _, .capture _ => True
  | .posture, .posture o => PostureSettings.GoodMask R.na o ∧ ∀ q v, o = .compute q v → v.size = R.nv
  | .jointBounds _, .jointBounds o => ∀ v, o = .compute v → R.na ≤ v.size
  | .posVelAcc _, .posVelAcc o =>
    GoodMask R.na o ∧ KeepsTimeStep o ∧ ∀ q v, o = .compute q v → R.na ≤ q.size ∧ R.na ≤ v.size
  | .actBounds, .actBounds o => TorqueLimits.GoodMask R.na o
  | .actEq, .actEq o => TorqueSettings.GoodMask R.na o
  | .force _ _ _, .force o =>
    (∀ c n, o ≠ .setAssociatedContact c n) ∧ (∀ gen, o ≠ .compute gen) ∧ ∀ gen names, o ≠ .compute5 gen names
  | .cop, .cop o => (∀ g cs, o ≠ .compute g cs) ∧ ∀ g cs, o ≠ .compute5 g cs
  | _, _ => False

/-- The calls a user may make on the motion task of a contact: the gains of a contact between two frames have size 3. -/
def ContactDecl.Accepts : ContactDecl → ContactCall K → Prop
  | .point _, .point _ => True
  | .sixD _, .setKp _ | .sixD _, .setKd _ | .sixD _, .setReference _ => True
  | .pair _ _, .pair o => PairGains.Good o
  | _, .computeMotion _ => True
  | _, _ => False

/-- The calls a user may make on a measured force. -/
def MeasuredDecl.Accepts : MeasuredDecl → MeasuredCall K → Prop
  | .wrench _ _, .wrench _ => True
  | .force _ _, .force _ => True
  | _, _ => False

end

/-- The setters of a contact of a class, and the sizes of their arguments: only a surface contact has contact points; a
force reference of a wrong size is rejected by a point contact only. -/
def Takes (k : ContactKind) : ContactSet K → Prop
  | .points _ => k = .sixD
  | .forceRef f => k = .point ∨ f.size = Contact.kindRegRows k
  | .regWeights w => w.size = Contact.kindRegRows k
  | _ => True

section
variable [Field K] [LinearOrder K] [FloorRing K] [HasSqrt K]

/-- What is registered after a program, before the next cycle. -/
def Setup.registered (S : Setup K) (E : Program.Env K) (W : World) (ops : List (Program.Op K)) : Registry K :=
  registrations E.ndebug W S.robot S.obj (fun tid => (S.task tid).assoc) (formCalls E S.start ops)

/-- The calls of the formulation that may follow the program `ops`: there are two priority levels, a task is added to its
family, and a solution has a value for every variable. -/
def Setup.MayCall (S : Setup K) (E : Program.Env K) (W : World) (ops : List (Program.Op K)) : Formulation.Op K → Prop
  | .addMotionTask tid _ p _ => (S.decl tid).family = .motion ∧ p < 2
  | .addForceTask tid _ p _ => (S.decl tid).family = .force ∧ p < 2
  | .addActuationTask tid _ p _ => (S.decl tid).family = .actuation ∧ p < 2
  | .addRigidContact _ _ _ p => p < 2
  | .setContact cid u => Takes (S.obj cid).kind u
  | .decode x => S.robot.nv + nForces S.obj ((S.registered E W ops).items.filterMap Item.cid?) ≤ x.size
  | .compute _ _ | .setAssociated _ _ => False
  | _ => True

/-- The calls that may follow the program `ops`. -/
def Setup.May (S : Setup K) (E : Program.Env K) (W : World) (ops : List (Program.Op K)) : Program.Op K → Prop
  | .task tid c => (S.decl tid).Accepts E.robot c
  | .associate tid cid n => (∃ dt c n', S.decl tid = .force dt c n') ∧ (S.obj cid).name = n
  | .motion cid c => (S.cdecl cid).Accepts c
  | .measured mid c => (S.mdecl mid).Accepts c
  | .form o => S.MayCall E W ops o
  | .compute w t => SnapshotOk E.robot.nv w ∧ MayCycle E W S ops w t

/-- An orderly program every call of which may follow the calls before it.  Nothing is assumed about its run. -/
structure WellTyped (E : Program.Env K) (W : World) (S : Setup K) (ops : List (Program.Op K)) : Prop where
  names : ∀ tid, (W.task tid).name = E.name tid
  mfNames : W.mfName = E.mfName
  hygienic : Hygienic W
  nv : E.robot.nv = S.robot.nv
  na : E.robot.na = S.robot.na
  motors : S.robot.na ≤ S.robot.nv
  nqa : E.robot.nqa ≤ E.robot.neutral.size
  difference : ∀ a b, (E.robot.difference a b).size = E.robot.nv
  contacts : ∀ cid, ∃ name kind points normal mu fMin fMax, S.obj cid = Contact.new name kind points normal mu fMin fMax
  built : ∀ tid, (S.decl tid).Built E.robot (E.name tid) (S.task tid)
  builtContact : ∀ cid, (S.cdecl cid).Built S.robot.nv (S.obj cid).name (S.motion cid)
  builtMeasured : ∀ mid, (S.mdecl mid).Built S.robot.nv (S.measured mid)
  orderly : EveryCall E (Orderly E W) S.start ops
  may : ∀ pre o post, ops = pre ++ o :: post → S.May E W pre o

end

end Tsid.Spec
