import Verif.Spec.Program
import Verif.Spec.Sizes

/-!
# When a program may run a control cycle

Kind and number of rows of the constraint of every task, read off the text of the program, and the conditions under
which the classes can be computed.
-/

namespace Tsid.Spec

open Formulation

variable {K : Type}

/-- The kind of the constraint of a task. -/
def TaskDecl.kind : TaskDecl K → Kind
  | .capture _ _ | .posVelAcc _ | .actBounds => .inequality
  | .jointBounds _ => .bound
  | _ => .equality

/-- The class of a contact. -/
def ContactDecl.kind : ContactDecl → ContactKind
  | .point _ => .point
  | .sixD _ => .sixD
  | .pair _ _ => .twoFrames

section
variable [Field K] [LinearOrder K] [FloorRing K] [HasSqrt K]

/-- The number of rows of the constraint of a task after the calls in the text: the axes that the last mask selects, if
the class has a mask. -/
def TaskDecl.rows (R : PostureRobot K) (calls : List (TaskCall K)) : TaskDecl K → Nat
  | .se3 _ => countSelected ((FrameSettings.fresh (K := K)).afterAll (calls.filterMap se3?)).mask 6
  | .twoFrames _ _ => countSelected ((PairSettings.fresh (K := K)).afterAll (calls.filterMap pair?)).mask 6
  | .com => countSelected ((ComSettings.fresh (K := K)).afterAll (calls.filterMap com?)).mask 3
  | .am => 3
  | .capture _ _ => 2
  | .posture => countSelected ((PostureSettings.fresh R).afterAll R (calls.filterMap posture?)).mask R.na
  | .jointBounds _ => R.nv
  | .posVelAcc _ => R.na
  | .actBounds => countSelected ((TorqueLimits.fresh (K := K) R.na).afterAll R.na (calls.filterMap actBounds?)).mask R.na
  | .actEq => countSelected ((TorqueSettings.fresh (K := K) R.na).afterAll R.na (calls.filterMap actEq?)).mask R.na
  | .force _ _ _ => 6
  | .cop => 3

/-- What some classes need to be computed: joint limits act on all joints; a force task has its gains, and its contact is
a surface contact that is registered; a centre-of-pressure task meets no contact between two frames. -/
def TaskDecl.Supported (R : PostureRobot K) (obj : Nat → Contact K) (cids : List Nat) (calls : List (TaskCall K)) :
    TaskDecl K → Prop
  | .posVelAcc _ =>
    ∀ i, i < R.na → ((LimitSettings.fresh (K := K) R.na).afterAll R.na (calls.filterMap posVelAcc?)).mask i = 1
  | .force _ contact cname =>
    let cid := lastContact (calls.filterMap force?) contact
    let n := lastName (calls.filterMap force?) cname
    n ≠ "" ∧ cid ∈ cids ∧ (obj cid).name = n ∧ (obj cid).kind = .sixD ∧
      ((ForceSettings.fresh (K := K) cname).afterAll (calls.filterMap force?)).Ready
  | .cop => ∀ cid ∈ cids, (obj cid).kind ≠ .twoFrames
  | _ => True

/-- A cycle at time `t` may follow the program: the configuration has at least the actuated joints, and the registered
tasks have the kinds and numbers of rows they had when they were added. -/
structure MayCycle (E : Program.Env K) (W : World) (S : Setup K) (ops : List (Program.Op K)) (w : Snapshot K) (t : K) :
    Prop where
  q : E.robot.na ≤ w.q.size
  classes : ∀ cid, (S.cdecl cid).kind = (S.obj cid).kind
  announced : ∀ fam tid p k, .task fam tid p k ∈ (S.registry E W ops t).items →
    (W.task tid).kind = (S.decl tid).kind ∧ (W.task tid).rows = (S.decl tid).rows E.robot (taskCalls tid ops)
  supported : ∀ fam tid p k, .task fam tid p k ∈ (S.registry E W ops t).items →
    (S.decl tid).Supported E.robot S.obj ((S.registry E W ops t).items.filterMap Item.cid?) (taskCalls tid ops)

end

end Tsid.Spec
