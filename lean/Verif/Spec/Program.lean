import Verif.Model.Program
import Verif.Spec.EndToEnd
import Verif.Spec.CartesianTasks
import Verif.Spec.JointTasks
import Verif.Spec.PosVelAcc
import Verif.Spec.ForceTasks
import Verif.Spec.MeasuredForce
import Verif.Lemmas.PosVelAccRun

/-!
# What the text of a program promises

The settings of every object are read off the calls in the text of the program; what the solution must satisfy follows
from these settings and from the state of the robot in the current cycle.
-/

namespace Tsid.Spec

open Finset Formulation

variable {K : Type}

/-! ## What the user constructs -/

/-- A task as it is constructed; the names of the constructors are those of the classes. -/
inductive TaskDecl (K : Type) where
  | se3 (frame : Nat)
  | twoFrames (frame1 frame2 : Nat)
  | com
  | am
  | capture (gravity : V3 K) (dt : K)
  | posture
  | jointBounds (dt : K)
  | posVelAcc (dt : K)
  | actBounds
  | actEq
  | force (dt : K) (contact : Nat) (cname : String)
  | cop

/-- The motion task of a contact. -/
inductive ContactDecl where
  | point (frame : Nat)
  | sixD (frame : Nat)
  | pair (frame1 frame2 : Nat)

/-- A measured force: its frame and the joints that move the frame. -/
inductive MeasuredDecl where
  | wrench (frame : Nat) (supp : Nat → Bool)
  | force (frame : Nat) (supp : Nat → Bool)

section
variable [Field K] [LinearOrder K] [FloorRing K] [HasSqrt K]

/-- The object results from the constructor, whatever uninitialised memory contains. -/
def TaskDecl.Built (R : PostureRobot K) (name : String) : TaskDecl K → TaskObj K → Prop
  | .se3 fr, o => ∃ g s, SE3Task.new g name R.nv true = .ok s () ∧ o = .se3 fr s
  | .twoFrames f1 f2, o => ∃ g s, TwoFrames.new g name R.nv = .ok s () ∧ o = .twoFrames f1 f2 s
  | .com, o => ∃ g s, ComTask.new g name R.nv = .ok s () ∧ o = .com s
  | .am, o => ∃ g, o = .am (AmTask.new g name R.nv)
  | .capture gravity dt, o => ∃ d, o = .capture (CaptureTask.new name R.nv gravity dt d)
  | .posture, o => ∃ s, Posture.new R name = .ok s () ∧ o = .posture s
  | .jointBounds dt, o => ∃ s, JointBounds.new name R.nv R.na dt = some s ∧ o = .jointBounds s
  | .posVelAcc dt, o => ∃ s, PosVelAcc.new name R.nv R.na dt = some s ∧ o = .posVelAcc s
  | .actBounds, o => ∃ s, ActBounds.new name R.na = .ok s () ∧ o = .actBounds s
  | .actEq, o => ∃ s, ActEq.new name R.na = .ok s () ∧ o = .actEq s
  | .force dt c cname, o => o = .force (ForceTask.new name dt c cname)
  | .cop, o => o = .cop (CopTask.new name)

/-- The same for the motion task of a contact. -/
def ContactDecl.Built (nv : Nat) (name : String) : ContactDecl → ContactMotion K → Prop
  | .point fr, o => ∃ g g' s, PointMotion.new g g' name nv true = .ok s () ∧ o = .point fr s
  | .sixD fr, o => ∃ g s, SE3Task.new g name nv true = .ok s () ∧ o = .sixD fr s
  | .pair f1 f2, o => ∃ g g' s, PairMotion.new g g' name nv = .ok s () ∧ o = .pair f1 f2 s

/-- The same for a measured force. -/
def MeasuredDecl.Built (nv : Nat) : MeasuredDecl → MeasuredObj K → Prop
  | .wrench fr supp, o => o = .wrench fr (Measured6D.new nv supp)
  | .force fr supp, o => o = .force fr (Measured3D.new nv supp)

end

/-! ## The calls in the text of a program -/

/-- The calls on one task. -/
def taskCalls (tid : Nat) : List (Program.Op K) → List (TaskCall K)
  | [] => []
  | .task i c :: os => if i = tid then c :: taskCalls tid os else taskCalls tid os
  | .associate i cid n :: os =>
    if i = tid then .force (.setAssociatedContact cid n) :: taskCalls tid os else taskCalls tid os
  | _ :: os => taskCalls tid os

/-- The calls on the motion task of one contact. -/
def contactCalls (cid : Nat) : List (Program.Op K) → List (ContactCall K)
  | [] => []
  | .motion i c :: os => if i = cid then c :: contactCalls cid os else contactCalls cid os
  | _ :: os => contactCalls cid os

/-- The calls on one measured force. -/
def measuredCalls (mid : Nat) : List (Program.Op K) → List (MeasuredCall K)
  | [] => []
  | .measured i c :: os => if i = mid then c :: measuredCalls mid os else measuredCalls mid os
  | _ :: os => measuredCalls mid os

/-- The states of the robot in the cycles of a program. -/
def snapshots : List (Program.Op K) → List (Snapshot K)
  | [] => []
  | .compute w _ :: os => w :: snapshots os
  | _ :: os => snapshots os

/-! ### Calls by class -/

/-- A call on a task of one frame. -/
def se3? : TaskCall K → Option (SE3Task.Op K) | .se3 o => some o | _ => none
/-- A call on a task of two frames. -/
def pair? : TaskCall K → Option (TwoFrames.Op K) | .twoFrames o => some o | _ => none
/-- A call on a centre-of-mass task. -/
def com? : TaskCall K → Option (ComTask.Op K) | .com o => some o | _ => none
/-- A call on an angular-momentum task. -/
def am? : TaskCall K → Option (AmTask.Op K) | .am o => some o | _ => none
/-- A call on a capture-point task. -/
def capture? : TaskCall K → Option (CaptureTask.Op K) | .capture o => some o | _ => none
/-- A call on a posture task. -/
def posture? : TaskCall K → Option (Posture.Op K) | .posture o => some o | _ => none
/-- A call on a task of velocity and acceleration bounds. -/
def jointBounds? : TaskCall K → Option (JointBounds.Op K) | .jointBounds o => some o | _ => none
/-- A call on a task of joint limits. -/
def posVelAcc? : TaskCall K → Option (PosVelAcc.Op K) | .posVelAcc o => some o | _ => none
/-- A call on a task of torque bounds. -/
def actBounds? : TaskCall K → Option (ActBounds.Op K) | .actBounds o => some o | _ => none
/-- A call on a task of torques. -/
def actEq? : TaskCall K → Option (ActEq.Op K) | .actEq o => some o | _ => none
/-- A call on a force task. -/
def force? : TaskCall K → Option (ForceTask.Op K) | .force o => some o | _ => none
/-- A call on a centre-of-pressure task. -/
def cop? : TaskCall K → Option (CopTask.Op K) | .cop o => some o | _ => none

/-- A call on the motion task of a point contact. -/
def point? : ContactCall K → Option (PointMotion.Op K) | .point o => some o | _ => none
/-- A call on the motion task of a surface contact. -/
def sixD? : ContactCall K → Option (SE3Task.Op K)
  | .setKp k => some (.setKp k)
  | .setKd k => some (.setKd k)
  | .setReference M => some (.setReferencePose M)
  | _ => none
/-- A call on the motion task of a contact between two frames. -/
def gains? : ContactCall K → Option (PairMotion.Op K) | .pair o => some o | _ => none
/-- A call on a measured wrench. -/
def wrench? : MeasuredCall K → Option (Measured6D.Op K) | .wrench o => some o | _ => none
/-- A call on a measured force. -/
def pointForce? : MeasuredCall K → Option (Measured3D.Op K) | .force o => some o | _ => none

/-! ## Admissible arguments -/

section
variable [Field K] [LinearOrder K]

/-- Masks are 0/1 masks, samples have the right sizes, and the joint limits keep their time step. -/
def GoodCall (R : PostureRobot K) : TaskCall K → Prop
  | .se3 o => FrameSettings.Good o
  | .twoFrames o => PairSettings.Good o
  | .com o => ComSettings.Good o
  | .am o => AmSettings.Good R.nv o
  | .posture o => PostureSettings.GoodMask R.na o ∧ ∀ q v, o = .compute q v → v.size = R.nv
  | .posVelAcc o => GoodMask R.na o ∧ KeepsTimeStep o
  | .actBounds o => TorqueLimits.GoodMask R.na o
  | .actEq o => TorqueSettings.GoodMask R.na o
  | _ => True

/-- The gains of contacts between two frames have size 3. -/
def GoodContactCall : ContactCall K → Prop
  | .pair o => PairGains.Good o
  | _ => True

/-- The sizes pinocchio guarantees, and rotation matrices. -/
structure SnapshotOk (nv : Nat) (w : Snapshot K) : Prop where
  v : w.v.size = nv
  mRows : w.M.rows = nv
  mCols : w.M.cols = nv
  nle : w.nle.size = nv
  agRows : w.Ag.rows = 6
  agCols : w.Ag.cols = nv
  rot : ∀ fr, (w.frame fr).pose.rot.Orthogonal

end

/-! ## The law of a task -/

/-- The contact of a force task: the one of the constructor, or the one associated last. -/
def lastContact : List (ForceTask.Op K) → Nat → Nat
  | [], c => c
  | .setAssociatedContact c _ :: os, _ => lastContact os c
  | _ :: os, c => lastContact os c

/-- The name of the contact of a force task. -/
def lastName : List (ForceTask.Op K) → String → String
  | [], n => n
  | .setAssociatedContact _ n :: os, _ => lastName os n
  | _ :: os, n => lastName os n

section
variable [Field K] [LinearOrder K] [FloorRing K] [HasSqrt K]

/-- What a task demands of the vector `y` (accelerations, contact forces or torques) in a cycle: `x` is what it reads in
this cycle, `calls` are the calls on it in the text of the program; the integral of a force task depends on the cycles
in which it was computed, hence on all calls `hist` it has received before; `o` is the object after the cycle, from
which the bounds that a task of joint limits keeps from earlier cycles are taken. -/
def TaskDecl.Demands (E : Program.Env K) (x : TaskObj.Ctx K) (calls hist : List (TaskCall K)) (o : TaskObj K)
    (y : Nat → K) : TaskDecl K → Prop
  | .se3 fr =>
    let p := (FrameSettings.fresh (K := K)).afterAll (calls.filterMap se3?)
    ∀ i, Selects p.mask i → p.achieved E.robot.nv (x.w.frame fr) y i = p.law E.log3 (x.w.frame fr) i
  | .twoFrames f1 f2 =>
    let p := (PairSettings.fresh (K := K)).afterAll (calls.filterMap pair?)
    ∀ i, Selects p.mask i →
      relativeAcc E.robot.nv (x.w.frame f1) (x.w.frame f2) y i = p.law E.log3 (x.w.frame f1) (x.w.frame f2) i
  | .com =>
    let p := (ComSettings.fresh (K := K)).afterAll (calls.filterMap com?)
    ∀ i, Selects p.mask i → (pointAcc E.robot.nv x.w.com.jac x.w.com.drift y).get i = p.law x.w.com i
  | .am =>
    let p := (AmSettings.fresh (K := K)).afterAll (calls.filterMap am?)
    ∀ i, i < 3 → angularMomentum x.w.Ag y i + x.w.dh.get i = p.law x.w.Ag x.w.v.get i
  | .capture gravity dt =>
    let p := (CaptureSettings.fresh (K := K)).afterAll (calls.filterMap capture?)
    let a := fun i => ∑ j ∈ range E.robot.nv, (x.w.com.jac j).get i * y j + x.w.com.drift.get i
    0 < dt → 0 < gravity.norm → 0 < x.w.com.pos.z → ∀ ω, 0 < ω → ω ^ 2 = gravity.norm / x.w.com.pos.z →
      ∀ i, i < 2 → p.lo i + p.margin i ≤ nextCapture ω dt x.w.com.pos x.w.com.vel a i ∧
        nextCapture ω dt x.w.com.pos x.w.com.vel a i ≤ p.hi i - p.margin i
  | .posture =>
    let p := (PostureSettings.fresh E.robot).afterAll E.robot (calls.filterMap posture?)
    ∀ j, Selects p.mask j → y (E.robot.nv - E.robot.na + j) = p.law E.robot x.w.q x.w.v j
  | .jointBounds dt =>
    let p := (BoundSettings.fresh E.robot.na dt).afterAll E.robot.na (calls.filterMap jointBounds?)
    p.Respected E.robot.nv E.robot.na x.w.v.get y
  | .posVelAcc dt =>
    let p := (LimitSettings.fresh (K := K) E.robot.na).afterAll E.robot.na (calls.filterMap posVelAcc?)
    (∀ i, i < E.robot.na → p.mask i = 1) → ∀ j, j < E.robot.na →
      let q := x.w.q (x.w.q.size - E.robot.na + j)
      let dq := x.w.v (E.robot.nv - E.robot.na + j)
      let ddq := y (E.robot.nv - E.robot.na + j)
      (∀ s', o = .posVelAcc s' → ∃ b, Allows (s'.lower dq j) (s'.upper dq j) b) →
      (p.impPos = true → Admits (p.qMin j) (p.qMax j) q dq → StaysInside (p.qMin j) (p.qMax j) (2 * dt) q dq ddq) ∧
      (p.impVel = true → -p.dqMax j ≤ velAt dq ddq (2 * dt) ∧ velAt dq ddq (2 * dt) ≤ p.dqMax j) ∧
      (p.impVia = true → 0 ≤ p.ddqMax j →
        StoppableAbove (p.qMax j) (p.ddqMax j) (posAt q dq ddq (2 * dt)) (velAt dq ddq (2 * dt)) ∧
        StoppableBelow (p.qMin j) (p.ddqMax j) (posAt q dq ddq (2 * dt)) (velAt dq ddq (2 * dt))) ∧
      (p.impAcc = true → -p.ddqMax j ≤ ddq ∧ ddq ≤ p.ddqMax j)
  | .actBounds =>
    let p := (TorqueLimits.fresh (K := K) E.robot.na).afterAll E.robot.na (calls.filterMap actBounds?)
    ∀ i, Selects p.mask i → p.lower (countSelected p.mask i) ≤ y i ∧ y i ≤ p.upper (countSelected p.mask i)
  | .actEq =>
    let p := (TorqueSettings.fresh (K := K) E.robot.na).afterAll E.robot.na (calls.filterMap actEq?)
    ∀ i, Selects p.mask i → p.weights i * y i = p.weights i * p.ref i
  | .force dt contact cname =>
    let p := (ForceSettings.fresh (K := K) cname).afterAll (hist.filterMap force?)
    let gen := (x.obj (lastContact (calls.filterMap force?) contact)).forceGen
    ∀ i, i < gen.rows → ∑ j ∈ range gen.cols, gen i j * y j = p.law dt i
  | .cop =>
    let p := (CopSettings.fresh (K := K)).afterAll (calls.filterMap cop?)
    ∀ axes : CopContact K → M3 K, (∀ c ∈ x.cop, c.contact.kind ≠ .twoFrames) →
      (∀ c ∈ x.cop, (axes c).transpose.mulVec p.normal = p.normal) →
      let l := pressures p.normal axes 0 x.cop y
      (∀ i, i < 3 → (l.map fun q => q.force * (q.point.get i - p.ref.get i)).sum = 0) ∧
      (totalForce l ≠ 0 → centreOfPressure l = p.ref)

/-- What the motion task of a contact demands of the accelerations `y`. -/
def ContactDecl.Demands (E : Program.Env K) (w : Snapshot K) (calls : List (ContactCall K)) (y : Nat → K) :
    ContactDecl → Prop
  | .point fr =>
    let p := (PointSettings.fresh (K := K)).afterAll (calls.filterMap point?)
    ∀ i, i < 3 → p.achieved E.robot.nv (w.frame fr) y i = p.law (w.frame fr) i
  | .sixD fr =>
    let p := (FrameSettings.fresh (K := K)).afterAll (calls.filterMap sixD?)
    ∀ i, i < 6 → p.achieved E.robot.nv (w.frame fr) y i = p.law E.log3 (w.frame fr) i
  | .pair f1 f2 =>
    let p := (⟨⟨0, 0, 0⟩, ⟨0, 0, 0⟩⟩ : PairGains K).afterAll (calls.filterMap gains?)
    ∀ i, i < 3 → relativeAcc E.robot.nv (w.frame f1) (w.frame f2) y i = p.law (w.frame f1) (w.frame f2) i

/-- The matrix `J` of a contact maps joint velocities to the velocity of the contact, in the axes of its motion task. -/
def ContactDecl.Moves (E : Program.Env K) (w : Snapshot K) (calls : List (ContactCall K)) (J : Mat K) :
    ContactDecl → Prop
  | .point fr =>
    let p := (PointSettings.fresh (K := K)).afterAll (calls.filterMap point?)
    J.rows = 3 ∧ J.cols = E.robot.nv ∧ ∀ i, i < 3 → ∀ v : Nat → K,
      row J v i = p.achieved E.robot.nv { w.frame fr with drift := 0 } v i
  | .sixD fr =>
    let p := (FrameSettings.fresh (K := K)).afterAll (calls.filterMap sixD?)
    J.rows = 6 ∧ J.cols = E.robot.nv ∧ ∀ i, i < 6 → ∀ v : Nat → K,
      row J v i = p.achieved E.robot.nv { w.frame fr with drift := 0 } v i
  | .pair f1 f2 =>
    J.rows = 3 ∧ J.cols = E.robot.nv ∧ ∀ i, i < 3 → ∀ v : Nat → K,
      row J v i = relativeAcc E.robot.nv { w.frame f1 with drift := 0 } { w.frame f2 with drift := 0 } v i

/-- The torques `τ` that a measured force contributes deliver its power, for every joint velocity. -/
def MeasuredDecl.Contributes (nv : Nat) (w : Snapshot K) (calls : List (MeasuredCall K)) (τ : Vec K) :
    MeasuredDecl → Prop
  | .wrench fr supp =>
    let f := lastWrench (calls.filterMap wrench?) 0
    let loc := lastAxes6 (calls.filterMap wrench?) true
    let k : FrameJac K := ⟨(w.frame fr).pose, (w.frame fr).jac⟩
    τ.size = nv ∧ ∀ v : Nat → K, ∑ c ∈ range nv, τ c * v c =
      powerOf f.lin f.ang (inAxes loc k.pose.rot (frameTwist nv supp k v).lin)
        (inAxes loc k.pose.rot (frameTwist nv supp k v).ang)
  | .force fr supp =>
    let f := lastForce (calls.filterMap pointForce?) 0
    let loc := lastAxes3 (calls.filterMap pointForce?) true
    let k : FrameJac K := ⟨(w.frame fr).pose, (w.frame fr).jac⟩
    τ.size = nv ∧ ∀ v : Nat → K, ∑ c ∈ range nv, τ c * v c =
      f.dot (inAxes loc k.pose.rot (frameTwist nv supp k v).lin)

end

/-! ## Orderly programs -/

section
variable [Field K] [LinearOrder K] [FloorRing K] [HasSqrt K]

/-- A condition on every call of a program, evaluated in the state in which the call is made. -/
def EveryCall (E : Program.Env K) (G : Program.State K → Program.Op K → Prop) :
    Program.State K → List (Program.Op K) → Prop
  | _, [] => True
  | s, o :: os =>
    G s o ∧ match (Program.step E s o).state? with
      | some s' => EveryCall E G s' os
      | none => True

/-- When a task is added, its constraint has the name, kind and number of rows `W` says. -/
def Announced (E : Program.Env K) (W : World) (s : Program.State K) : Formulation.Op K → Prop
  | .addMotionTask tid _ _ _ | .addForceTask tid _ _ _ | .addActuationTask tid _ _ _ =>
    (Program.world E s).task tid = W.task tid
  | _ => True

/-- The discipline of a program: names of registered objects are distinct, entries are not removed behind the
formulation's back, tasks have the announced sizes when they are added, registered force tasks keep their contact. -/
def Orderly (E : Program.Env K) (W : World) (s : Program.State K) : Program.Op K → Prop
  | .form o => Tidy W s.form o ∧ Announced E W s o
  | .associate tid _ n => NoReassociation s.form (.setAssociated tid n)
  | _ => True

/-- The calls that a control cycle makes on one object. -/
def repeatCalls (E : Program.Env K) (x : TaskObj.Ctx K) : Nat → TaskObj K → List (TaskCall K)
  | 0, _ => []
  | n + 1, o =>
    match o.cycleCall x with
    | none => []
    | some c => c :: match o.call E c with
      | .ok o' _ => repeatCalls E x n o'
      | _ => []

/-- What the tasks read in a cycle, when the formulation is in state `f` after the transitions. -/
def ctx (E : Program.Env K) (w : Snapshot K) (f : Tsid.State K) : TaskObj.Ctx K :=
  ⟨w, f.contacts, f.contactObj, fun cid => (w.frame (E.contactFrame cid)).pose⟩

/-- The tasks that are computed in a cycle. -/
def computed (f : Tsid.State K) : List Nat := (f.motions ++ (f.forces ++ f.acts)).map TaskLevel.tid

/-- The calls that one call of a program makes on a task. -/
def received (E : Program.Env K) (s : Program.State K) (tid : Nat) : Program.Op K → List (TaskCall K)
  | .task i c => if i = tid then [c] else []
  | .associate i cid n => if i = tid then [.force (.setAssociatedContact cid n)] else []
  | .compute w t =>
    match Formulation.runTransitions E.ndebug [] s.form.trans { s.form with t := t } with
    | .ok f _ => repeatCalls E (ctx E w f) ((computed f).count tid) (s.task tid)
    | _ => []
  | _ => []

/-- All calls that a task receives during a program: those of the user and those of the formulation. -/
def history (E : Program.Env K) : Program.State K → List (Program.Op K) → Nat → List (TaskCall K)
  | _, [], _ => []
  | s, o :: os, tid =>
    received E s tid o ++ match (Program.step E s o).state? with
      | some s' => history E s' os tid
      | none => []

/-- The constraints of a cycle, as the formulation receives them. -/
def cycleOf (E : Program.Env K) (w : Snapshot K) (t : K) (s : Program.State K) : Cycle K :=
  match Formulation.runTransitions E.ndebug [] s.form.trans { s.form with t := t } with
  | .ok f _ =>
    match Program.computeObjects E w f s with
    | some s' => Program.cycle w s'
    | none => Program.cycle w s
  | _ => Program.cycle w s

/-- The call on the formulation that a call of a program amounts to. -/
def formCall (E : Program.Env K) (s : Program.State K) : Program.Op K → List (Formulation.Op K)
  | .form o => [o]
  | .associate tid _ n => [.setAssociated tid n]
  | .compute w t => [.compute (cycleOf E w t s) t]
  | _ => []

/-- The calls on the formulation during a program. -/
def formCalls (E : Program.Env K) : Program.State K → List (Program.Op K) → List (Formulation.Op K)
  | _, [] => []
  | s, o :: os =>
    formCall E s o ++ match (Program.step E s o).state? with
      | some s' => formCalls E s' os
      | none => []

/-- What is constructed at the beginning of a program. -/
structure Setup (K : Type) where
  robot : Robot K
  obj : Nat → Contact K
  decl : Nat → TaskDecl K
  cdecl : Nat → ContactDecl
  mdecl : Nat → MeasuredDecl
  task : Nat → TaskObj K
  motion : Nat → ContactMotion K
  measured : Nat → MeasuredObj K

/-- The state after the constructors. -/
def Setup.start (S : Setup K) : Program.State K := Program.init S.robot S.obj S.task S.motion S.measured

/-- An orderly program that ends in state `s`. -/
structure GoodProgram (E : Program.Env K) (W : World) (S : Setup K) (ops : List (Program.Op K))
    (s : Program.State K) : Prop where
  names : ∀ tid, (W.task tid).name = E.name tid
  mfNames : W.mfName = E.mfName
  hygienic : Hygienic W
  nv : E.robot.nv = S.robot.nv
  na : E.robot.na = S.robot.na
  motors : S.robot.na ≤ S.robot.nv
  nqa : E.robot.nqa ≤ E.robot.neutral.size
  difference : ∀ a b, (E.robot.difference a b).size = E.robot.nv
  contacts : ∀ cid, ∃ name kind points normal mu fMin fMax, S.obj cid = Contact.new name kind points normal mu fMin fMax
  built : ∀ tid, (S.decl tid).Built E.robot (E.name tid) (S.task tid)
  builtContact : ∀ cid, (S.cdecl cid).Built S.robot.nv (S.obj cid).name (S.motion cid)
  builtMeasured : ∀ mid, (S.mdecl mid).Built S.robot.nv (S.measured mid)
  run : Program.run E S.start ops = some s
  orderly : EveryCall E (Orderly E W) S.start ops
  args : ∀ tid, ∀ c ∈ taskCalls tid ops, GoodCall E.robot c
  contactArgs : ∀ cid, ∀ c ∈ contactCalls cid ops, GoodContactCall c
  cycles : ∀ w ∈ snapshots ops, SnapshotOk E.robot.nv w

/-- What is registered when a cycle at time `t` follows the program. -/
def Setup.registry (S : Setup K) (E : Program.Env K) (W : World) (ops : List (Program.Op K)) (t : K) : Registry K :=
  (registrations E.ndebug W S.robot S.obj (fun tid => (S.task tid).assoc) (formCalls E S.start ops)).expire
    (fun c => (S.obj c).name) t

/-- What the text of the program promises about the vector `x` that the solver returns after the cycle that led to
state `s`: `w` is the state of the robot in this cycle. -/
structure Kept (E : Program.Env K) (W : World) (S : Setup K) (ops : List (Program.Op K)) (w : Snapshot K) (t : K)
    (s : Program.State K) (x : Vec K) : Prop where
  dynamics : ∃ dv f tau, (getAccelerations s.form x).val? = some dv ∧ (getContactForces s.form x).val? = some f ∧
    (getActuatorForces s.form x).val? = some tau ∧
    EquationsOfMotion S.robot.nv (S.robot.nv - S.robot.na) (S.robot.mass w.M) w.nle
      (((S.registry E W ops t).items.filterMap Item.cid?).map fun c =>
        ((s.motion c).con.mat, (s.form.contactObj c).forceGen))
      ((S.registry E W ops t).measured.map fun m => (s.measured m).tau) dv f tau
  jacobian : ∀ cid ∈ (S.registry E W ops t).items.filterMap Item.cid?,
    (S.cdecl cid).Moves E w (contactCalls cid ops) (s.motion cid).con.mat
  measured : ∀ m ∈ (S.registry E W ops t).measured,
    (S.mdecl m).Contributes S.robot.nv w (measuredCalls m ops) (s.measured m).tau
  motion : ∀ tid k, .task .motion tid 0 k ∈ (S.registry E W ops t).items →
    ∃ dv, (getAccelerations s.form x).val? = some dv ∧
      (S.decl tid).Demands E (ctx E w s.form) (taskCalls tid ops) (history E S.start ops tid) (s.task tid) dv
  actuation : ∀ tid k, .task .actuation tid 0 k ∈ (S.registry E W ops t).items →
    ∃ tau, (getActuatorForces s.form x).val? = some tau ∧
      (S.decl tid).Demands E (ctx E w s.form) (taskCalls tid ops) (history E S.start ops tid) (s.task tid) tau
  cop : ∀ tid k, .task .force tid 0 k ∈ (S.registry E W ops t).items → S.decl tid = .cop →
    ∃ f, (getContactForces s.form x).val? = some f ∧
      (S.decl tid).Demands E (ctx E w s.form) (taskCalls tid ops) (history E S.start ops tid) (s.task tid) f
  force : ∀ tid k dt contact cname, .task .force tid 0 k ∈ (S.registry E W ops t).items →
    S.decl tid = .force dt contact cname → lastName ((taskCalls tid ops).filterMap force?) cname ≠ "" →
    (∃ cid ∈ (S.registry E W ops t).items.filterMap Item.cid?,
      (S.obj cid).name = lastName ((taskCalls tid ops).filterMap force?) cname) →
    ∃ f, (getContactForcesOf s.form (lastName ((taskCalls tid ops).filterMap force?) cname) x).val? = some f ∧
      (S.decl tid).Demands E (ctx E w s.form) (taskCalls tid ops) (history E S.start ops tid) (s.task tid) f
  contactMotion : ∀ cid wm wf, .contact cid 0 wm wf ∈ (S.registry E W ops t).items →
    ∃ dv, (getAccelerations s.form x).val? = some dv ∧ (S.cdecl cid).Demands E w (contactCalls cid ops) dv
  contactForce : ∀ cid p wm wf, .contact cid p wm wf ∈ (S.registry E W ops t).items →
    ((s.form.contactObj cid).kind ≠ .twoFrames →
      (s.form.contactObj cid).normal.dot (s.form.contactObj cid).normal = 1) →
    ∃ f, (getContactForcesOf s.form (S.obj cid).name x).val? = some f ∧ WithinLimits (s.form.contactObj cid) f

end

end Tsid.Spec
