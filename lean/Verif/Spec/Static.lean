import Verif.Spec.ProgramRun
import Verif.Spec.Builds

/-!
# Checking a program by reading it

Conditions on the text of a program alone: what is registered is computed from the text, and no state of the program
occurs in the conditions.
-/

namespace Tsid.Spec

open Formulation

variable {K : Type}

section
variable [Field K] [LinearOrder K]

/-- Calls that throw whatever happened before: a task is added with a negative weight or duration. -/
def refused : Formulation.Op K → Bool
  | .addMotionTask _ w _ d | .addForceTask _ w _ d | .addActuationTask _ w _ d => decide (w < 0 ∨ d < 0)
  | _ => false

/-- The registrations after one more call, for programs that remove contacts at once. -/
def Registry.read (W : World) (nm : Nat → String) (r : Registry K) : Program.Op K → Registry K
  | .form o => r.next W nm (refused o) o
  | .compute _ t => { r with time := t }
  | _ => r

/-- The registrations after a text. -/
def Registry.readAll (W : World) (nm : Nat → String) (ops : List (Program.Op K)) : Registry K :=
  ops.foldl (Registry.read W nm) Registry.empty

end

section
variable [Field K] [LinearOrder K] [FloorRing K] [HasSqrt K]

/-- What the text says is registered. -/
def Setup.noted (S : Setup K) (W : World) (ops : List (Program.Op K)) : Registry K :=
  Registry.readAll W (fun c => (S.obj c).name) ops

/-- Joint limits are added with all joints selected. -/
def TaskDecl.Whole (R : PostureRobot K) (calls : List (TaskCall K)) : TaskDecl K → Prop
  | .posVelAcc _ =>
    ∀ i, i < R.na → ((LimitSettings.fresh (K := K) R.na).afterAll R.na (calls.filterMap posVelAcc?)).mask i = 1
  | _ => True

/-- A task of this family may be added after the text: there are two levels, its name is not in use, and its constraint
has the kind and the number of rows that `W` announces. -/
structure Setup.Addable (S : Setup K) (E : Program.Env K) (W : World) (ops : List (Program.Op K)) (fam : Family)
    (tid p : Nat) : Prop where
  family : (S.decl tid).family = fam
  level : p < 2
  fresh : ¬ (S.noted W ops).hasTask W (W.task tid).name
  kind : (W.task tid).kind = (S.decl tid).kind
  rows : (W.task tid).rows = (S.decl tid).rows E.robot (taskCalls tid ops)
  whole : (S.decl tid).Whole E.robot (taskCalls tid ops)

/-- The calls of the formulation that may follow the text.  In a debug build only what is registered is removed. -/
def Setup.FineCall (S : Setup K) (E : Program.Env K) (W : World) (ops : List (Program.Op K)) : Formulation.Op K → Prop
  | .addMotionTask tid _ p _ => S.Addable E W ops .motion tid p
  | .addForceTask tid _ p _ => S.Addable E W ops .force tid p
  | .addActuationTask tid _ p _ => S.Addable E W ops .actuation tid p
  | .addRigidContact cid _ _ p => p < 2 ∧ ¬ (S.noted W ops).hasContact (fun c => (S.obj c).name) (S.obj cid).name
  | .removeTask n => ¬ Reserved n ∧ (E.ndebug = false → (S.noted W ops).hasTask W n)
  | .removeRigidContact n dur =>
    dur ≤ 0 ∧ (E.ndebug = false → (S.noted W ops).hasContact (fun c => (S.obj c).name) n)
  | .setContact cid u => Takes (S.obj cid).kind u
  | .decode x => S.robot.nv + nForces S.obj ((S.noted W ops).items.filterMap Item.cid?) ≤ x.size
  | .removeFromHqpData _ | .compute _ _ | .setAssociated _ _ => False
  | _ => True

/-- The calls that may follow the text. -/
def Setup.Fine (S : Setup K) (E : Program.Env K) (W : World) (ops : List (Program.Op K)) : Program.Op K → Prop
  | .task tid c => (S.decl tid).Accepts E.robot c
  | .associate tid cid n => (∃ dt c n', S.decl tid = .force dt c n') ∧ (S.obj cid).name = n ∧
    ∀ fam p k, .task fam tid p k ∉ (S.noted W ops).items
  | .motion cid c => (S.cdecl cid).Accepts c
  | .measured mid c => (S.mdecl mid).Accepts c
  | .form o => S.FineCall E W ops o
  | .compute w _ => SnapshotOk E.robot.nv w ∧ E.robot.na ≤ w.q.size ∧
    ∀ fam tid p k, .task fam tid p k ∈ (S.noted W ops).items →
      (W.task tid).kind = (S.decl tid).kind ∧ (W.task tid).rows = (S.decl tid).rows E.robot (taskCalls tid ops) ∧
      (S.decl tid).Supported E.robot S.obj ((S.noted W ops).items.filterMap Item.cid?) (taskCalls tid ops)

/-- What the user constructs: names are distinct from those the formulation uses, the objects come from the constructors
of their classes. -/
structure Declared (E : Program.Env K) (W : World) (S : Setup K) : Prop where
  names : ∀ tid, (W.task tid).name = E.name tid
  mfNames : W.mfName = E.mfName
  hygienic : Hygienic W
  nv : E.robot.nv = S.robot.nv
  na : E.robot.na = S.robot.na
  motors : S.robot.na ≤ S.robot.nv
  nqa : E.robot.nqa ≤ E.robot.neutral.size
  difference : ∀ a b, (E.robot.difference a b).size = E.robot.nv
  contacts : ∀ cid, ∃ name kind points normal mu fMin fMax, S.obj cid = Contact.new name kind points normal mu fMin fMax
  classes : ∀ cid, (S.cdecl cid).kind = (S.obj cid).kind
  built : ∀ tid, (S.decl tid).Built E.robot (E.name tid) (S.task tid)
  builtContact : ∀ cid, (S.cdecl cid).Built S.robot.nv (S.obj cid).name (S.motion cid)
  builtMeasured : ∀ mid, (S.mdecl mid).Built S.robot.nv (S.measured mid)

/-- Every call of the text may follow the calls before it. -/
def Checked (E : Program.Env K) (W : World) (S : Setup K) (ops : List (Program.Op K)) : Prop :=
  ∀ pre o post, ops = pre ++ o :: post → S.Fine E W pre o

end

end Tsid.Spec
