import Verif.Model.Formulation
import Verif.Model.CartesianTasks
import Verif.Model.PosVelAcc
import Verif.Model.ForceTasks
import Verif.Model.MeasuredForce

/-!
# Whole programs

A user program owns task objects, contacts and measured forces, calls their setters, and registers them in a
formulation, which holds references to them; `computeProblemData` calls `compute` of the registered objects.  Here the
formulation and the objects are one state, so that the constraints of a control cycle are no longer inputs.

What pinocchio computes for a configuration and a velocity (`RobotWrapper::computeAllTerms`, `/repo/src/robots/robot-wrapper.cpp`
92-104) is an input of every control cycle.
-/

namespace Tsid

/-- The task objects, one constructor for each class; the frames of the Cartesian tasks are fixed by their constructors
(`task-se3-equality.cpp` 23-25, `task-two-frames-equality.cpp` 25-28). -/
inductive TaskObj (K : Type) where
  | se3 (frame : Nat) (s : SE3Task K)
  | twoFrames (frame1 frame2 : Nat) (s : TwoFrames K)
  | com (s : ComTask K)
  | am (s : AmTask K)
  | capture (s : CaptureTask K)
  | posture (s : Posture K)
  | jointBounds (s : JointBounds K)
  | posVelAcc (s : PosVelAcc K)
  | actBounds (s : Masked K)
  | actEq (s : ActEq K)
  | force (s : ForceTask K)
  | cop (s : CopTask K)

/-- Calls of the methods of the task objects. -/
inductive TaskCall (K : Type) where
  | se3 (o : SE3Task.Op K)
  | twoFrames (o : TwoFrames.Op K)
  | com (o : ComTask.Op K)
  | am (o : AmTask.Op K)
  | capture (o : CaptureTask.Op K)
  | posture (o : Posture.Op K)
  | jointBounds (o : JointBounds.Op K)
  | posVelAcc (o : PosVelAcc.Op K)
  | actBounds (o : ActBounds.Op K)
  | actEq (o : ActEq.Op K)
  | force (o : ForceTask.Op K)
  | cop (o : CopTask.Op K)

/-- What the objects read in one control cycle: configuration, velocity, mass matrix, nonlinear effects, kinematics of
the frames and of the centre of mass, momentum matrix and momentum drift; `garbage` is the content of memory that is
allocated and not initialised. -/
structure Snapshot (K : Type) where
  q : Vec K
  v : Vec K
  M : Mat K
  nle : Vec K
  frame : Nat → FrameKin K
  com : ComKin K
  Ag : Mat K
  dh : V3 K
  garbage : Nat → Nat → K

/-- The motion task inside a contact object (`contact-6d.hpp` 97, `contact-point.hpp` 98,
`contact-two-frame-positions.hpp` 89). -/
inductive ContactMotion (K : Type) where
  | point (frame : Nat) (s : SE3Task K)
  | sixD (frame : Nat) (s : SE3Task K)
  | pair (frame1 frame2 : Nat) (s : TwoFrames K)

/-- The calls of a contact object that reach its motion task.  A `Contact6d` passes gains and reference on unchanged
(`contact-6d.cpp` 135-136, 199). -/
inductive ContactCall (K : Type) where
  | point (o : PointMotion.Op K)
  | setKp (k : Vec K)
  | setKd (k : Vec K)
  | setReference (M : SE3 K)
  | pair (o : PairMotion.Op K)
  | computeMotion (w : Snapshot K)

/-- A measured force and the frame it is measured at. -/
inductive MeasuredObj (K : Type) where
  | wrench (frame : Nat) (s : Measured6D K)
  | force (frame : Nat) (s : Measured3D K)

/-- Calls of the methods of the measured forces. -/
inductive MeasuredCall (K : Type) where
  | wrench (o : Measured6D.Op K)
  | force (o : Measured3D.Op K)

namespace Program

/-- What does not change during a program: the build flag, pinocchio's `log3`, sizes and neutral configuration of the
robot, names of the tasks and of the measured forces, and the frame of each contact. -/
structure Env (K : Type) where
  ndebug : Bool
  log3 : M3 K → V3 K
  robot : PostureRobot K
  name : Nat → String
  mfName : Nat → String
  contactFrame : Nat → Nat

/-- The formulation and the objects of the user. -/
structure State (K : Type) where
  form : Tsid.State K
  task : Nat → TaskObj K
  motion : Nat → ContactMotion K
  measured : Nat → MeasuredObj K

end Program

namespace TaskObj
variable {K : Type}

/-- `getConstraint()`. -/
def con : TaskObj K → Constraint K
  | .se3 _ s => s.rows.con
  | .twoFrames _ _ s => s.rows.con
  | .com s => s.rows.con
  | .am s => s.con
  | .capture s => s.con
  | .posture s => s.m.con
  | .jointBounds s => s.con
  | .posVelAcc s => s.m.con
  | .actBounds s => s.con
  | .actEq s => s.m.con
  | .force s => s.con
  | .cop s => s.con

/-- `getAssociatedContactName()`: `task-contact-force-equality.cpp` 58-60; empty for a `TaskCopEquality`
(`task-cop-equality.cpp` 28-30). -/
def assoc : TaskObj K → String
  | .force s => s.cname
  | _ => ""

/-- The three families: `TaskMotion`, `TaskContactForce`, `TaskActuation`. -/
def isMotion : TaskObj K → Bool
  | .se3 _ _ | .twoFrames _ _ _ | .com _ | .am _ | .capture _ | .posture _ | .jointBounds _ | .posVelAcc _ => true
  | _ => false

/-- A `TaskContactForce`. -/
def isForce : TaskObj K → Bool
  | .force _ | .cop _ => true
  | _ => false

/-- A `TaskActuation`. -/
def isActuation : TaskObj K → Bool
  | .actBounds _ | .actEq _ => true
  | _ => false

/-- What a call does to the object inside. -/
def lift {σ α : Type} (f : σ → TaskObj K) : Res σ α → Res (TaskObj K) Unit
  | .ok s _ => .ok (f s) ()
  | .throw s => .throw (f s)
  | .abort => .abort
  | .ub => .ub

variable [Field K] [LinearOrder K] [FloorRing K] [HasSqrt K]

/-- A method is called.  Calling a method of another class is a type error; the model answers with undefined
behaviour. -/
def call (E : Program.Env K) : TaskObj K → TaskCall K → Res (TaskObj K) Unit
  | .se3 fr s, .se3 o => lift (.se3 fr) (s.step E.log3 o)
  | .twoFrames f1 f2 s, .twoFrames o => lift (.twoFrames f1 f2) (s.step E.ndebug E.log3 o)
  | .com s, .com o => lift .com (s.step o)
  | .am s, .am o => lift .am (s.step o)
  | .capture s, .capture o => lift .capture (s.step o)
  | .posture s, .posture o => lift .posture (s.step E.robot o)
  | .jointBounds s, .jointBounds o => lift .jointBounds (s.step o)
  | .posVelAcc s, .posVelAcc o => lift .posVelAcc (s.step o)
  | .actBounds s, .actBounds o => lift .actBounds (ActBounds.step E.robot.na s o)
  | .actEq s, .actEq o => lift .actEq (s.step E.robot.na o)
  | .force s, .force o => lift .force (s.step o)
  | .cop s, .cop o => lift .cop (s.step o)
  | _, _ => .ub

/-- What a task reads in one control cycle: the snapshot, and the contacts of the formulation. -/
structure Ctx (K : Type) where
  w : Snapshot K
  contacts : List ContactLevel
  obj : Nat → Contact K
  poses : Nat → SE3 K

/-- The contact list as the centre-of-pressure task sees it. -/
def Ctx.cop (x : Ctx K) : List (CopContact K) :=
  x.contacts.map fun cl => ⟨x.obj cl.cid, cl.index, x.poses cl.cid⟩

/-- The names of the listed contacts. -/
def Ctx.names (x : Ctx K) : List String := x.contacts.map fun cl => (x.obj cl.cid).name

/-- The method call that the formulation makes on a task in a control cycle: `accforce.cpp` 316, 351,
374. -/
def cycleCall (x : Ctx K) : TaskObj K → Option (TaskCall K)
  | .se3 fr _ => some (.se3 (.compute (x.w.frame fr)))
  | .twoFrames f1 f2 _ => some (.twoFrames (.compute (x.w.frame f1) (x.w.frame f2)))
  | .com _ => some (.com (.compute x.w.com))
  | .am _ => some (.am (.compute x.w.v x.w.Ag x.w.dh))
  | .capture _ => some (.capture (.compute x.w.com))
  | .posture _ => some (.posture (.compute x.w.q x.w.v))
  | .jointBounds _ => some (.jointBounds (.compute x.w.v))
  | .posVelAcc _ => some (.posVelAcc (.compute x.w.q x.w.v))
  | .actBounds _ => none
  | .actEq _ => none
  | .force s => some (.force (.compute5 (x.obj s.contact).forceGen x.names))
  | .cop _ => some (.cop (.compute5 x.w.garbage x.cop))

/-- `compute` in a control cycle; the actuation tasks return their constraint as it is (`task-actuation-bounds.cpp` 72-75,
`task-actuation-equality.cpp` 93-97).  `none`: undefined behaviour, or an exception (which would leave the formulation
half updated; not modelled). -/
def compute (E : Program.Env K) (x : Ctx K) (o : TaskObj K) : Option (TaskObj K) :=
  match o.cycleCall x with
  | none => some o
  | some c =>
    match o.call E c with
    | .ok o' _ => some o'
    | _ => none

end TaskObj

namespace ContactMotion
variable {K : Type}

/-- `getMotionConstraint()`: `contact-6d.cpp` 227-229, `contact-point.cpp` 210-212,
`contact-two-frame-positions.cpp` 169-171. -/
def con : ContactMotion K → Constraint K
  | .point _ s => s.rows.con
  | .sixD _ s => s.rows.con
  | .pair _ _ s => s.rows.con

/-- What a call does to the object inside. -/
def lift {σ α : Type} (f : σ → ContactMotion K) : Res σ α → Res (ContactMotion K) Unit
  | .ok s _ => .ok (f s) ()
  | .throw s => .throw (f s)
  | .abort => .abort
  | .ub => .ub

variable [Field K] [LinearOrder K] [FloorRing K]

/-- A method of a contact that concerns its motion task is called; `computeMotionTask`: `contact-6d.cpp` 201-206,
`contact-point.cpp` 182-187, `contact-two-frame-positions.cpp` 140-143. -/
def call (E : Program.Env K) : ContactMotion K → ContactCall K → Res (ContactMotion K) Unit
  | .point fr s, .point o => lift (.point fr) (PointMotion.step E.log3 s o)
  | .point fr s, .computeMotion w => lift (.point fr) (s.compute E.log3 (w.frame fr))
  | .sixD fr s, .setKp k => lift (.sixD fr) (s.setKp k)
  | .sixD fr s, .setKd k => lift (.sixD fr) (s.setKd k)
  | .sixD fr s, .setReference M => lift (.sixD fr) (s.setReferencePose M)
  | .sixD fr s, .computeMotion w => lift (.sixD fr) (s.compute E.log3 (w.frame fr))
  | .pair f1 f2 s, .pair o => lift (.pair f1 f2) (PairMotion.step E.ndebug E.log3 s o)
  | .pair f1 f2 s, .computeMotion w => lift (.pair f1 f2) (s.compute E.log3 (w.frame f1) (w.frame f2))
  | _, _ => .ub

/-- `computeMotionTask` in a control cycle: `accforce.cpp` 273-274. -/
def compute (E : Program.Env K) (w : Snapshot K) (m : ContactMotion K) : Option (ContactMotion K) :=
  match m.call E (.computeMotion w) with
  | .ok m' _ => some m'
  | _ => none

end ContactMotion

namespace MeasuredObj
variable {K : Type} [Field K]

/-- A method is called. -/
def call : MeasuredObj K → MeasuredCall K → Res (MeasuredObj K) Unit
  | .wrench fr s, .wrench o => .ok (.wrench fr (s.step o)) ()
  | .force fr s, .force o => .ok (.force fr (s.step o)) ()
  | _, _ => .ub

/-- What a measured force reads about its frame. -/
def kin (w : Snapshot K) (fr : Nat) : FrameJac K := ⟨(w.frame fr).pose, (w.frame fr).jac⟩

/-- `computeJointTorques`. -/
def compute (w : Snapshot K) : MeasuredObj K → MeasuredObj K
  | .wrench fr s => .wrench fr (s.compute (kin w fr)).1
  | .force fr s => .force fr (s.compute (kin w fr)).1

/-- The member `m_computedTorques`, which `computeJointTorques` returns. -/
def tau : MeasuredObj K → Vec K
  | .wrench _ s => s.tau
  | .force _ s => s.tau

end MeasuredObj

namespace Program
variable {K : Type}

/-- `f` is called for the objects listed, one after the other. -/
def each {α : Type} (f : α → Option α) : List Nat → (Nat → α) → Option (Nat → α)
  | [], o => some o
  | i :: is, o =>
    match f (o i) with
    | some a => each f is (Function.update o i a)
    | none => none

/-- What the formulation reads from the objects when a task is added or removed, and the names. -/
def world (E : Env K) (s : State K) : World :=
  ⟨fun tid => ⟨E.name tid, (s.task tid).con.name, (s.task tid).con.kind, (s.task tid).con.rows⟩, E.mfName⟩

variable [Field K] [LinearOrder K] [FloorRing K] [HasSqrt K]

/-- The objects after the calls a control cycle makes on them, in the state `f` that the formulation has after the
transitions: contacts (`accforce.cpp` 270-274), measured forces (296-298), motion tasks (315-316), force tasks
(331-351), actuation tasks (373-374).  The calls on different objects do not influence each other. -/
def computeObjects (E : Env K) (w : Snapshot K) (f : Tsid.State K) (s : State K) : Option (State K) :=
  match each (ContactMotion.compute E w) (f.contacts.map ContactLevel.cid) s.motion with
  | none => none
  | some motion =>
    match each (fun m => some (MeasuredObj.compute w m)) f.measured s.measured with
    | none => none
    | some measured =>
      match each (TaskObj.compute E ⟨w, f.contacts, f.contactObj, fun cid => (w.frame (E.contactFrame cid)).pose⟩)
          ((f.motions ++ (f.forces ++ f.acts)).map TaskLevel.tid) s.task with
      | none => none
      | some task => some ⟨f, task, motion, measured⟩

/-- What the formulation gets from the objects. -/
def cycle (w : Snapshot K) (s : State K) : Cycle K :=
  { M := w.M, nle := w.nle
    motionOut := fun tid => (s.task tid).con
    forceOut := fun tid => (s.task tid).con
    actOut := fun tid => (s.task tid).con
    contactMotion := fun cid => (s.motion cid).con
    torque := fun mid => (s.measured mid).tau }

/-- `computeProblemData(time, q, v)`: `accforce.cpp` 243-401.  The computations of the objects come before the
assembly: in the code they are interleaved with it, but they do not read what it writes. -/
def compute (E : Env K) (w : Snapshot K) (t : K) (s : State K) : Res (State K) Unit :=
  match Formulation.runTransitions E.ndebug [] s.form.trans { s.form with t := t } with
  | .ok f _ =>
    match computeObjects E w f s with
    | none => .ub
    | some s' =>
      match Formulation.assemble (cycle w s') f with
      | some f' => .ok { s' with form := f' } ()
      | none => .ub
  | .throw f => .throw { s with form := f }
  | .abort => .abort
  | .ub => .ub

/-- The calls of a program.  `setAssociatedContact` of a force task takes a contact object, of which it uses the name
as well. -/
inductive Op (K : Type) where
  | task (tid : Nat) (c : TaskCall K)
  | associate (tid cid : Nat) (cname : String)
  | motion (cid : Nat) (c : ContactCall K)
  | measured (mid : Nat) (c : MeasuredCall K)
  | form (o : Formulation.Op K)
  | compute (w : Snapshot K) (t : K)

/-- The class of a task object decides by which method it can be added; `computeProblemData` and
`setAssociatedContact` have constructors of their own. -/
def typed (s : State K) : Formulation.Op K → Bool
  | .addMotionTask tid _ _ _ => (s.task tid).isMotion
  | .addForceTask tid _ _ _ => (s.task tid).isForce
  | .addActuationTask tid _ _ _ => (s.task tid).isActuation
  | .compute _ _ => false
  | .setAssociated _ _ => false
  | _ => true

/-- Is it the call that changes the associated contact? -/
def isAssociate : TaskCall K → Bool
  | .force (.setAssociatedContact _ _) => true
  | _ => false

/-- One call. -/
def step (E : Env K) (s : State K) : Op K → Res (State K) Unit
  | .task tid c =>
    if isAssociate c then .ub
    else
      match (s.task tid).call E c with
      | .ok o _ => .ok { s with task := Function.update s.task tid o } ()
      | .throw o => .throw { s with task := Function.update s.task tid o }
      | .abort => .abort
      | .ub => .ub
  | .associate tid cid cname =>
    if (s.form.contactObj cid).name = cname then
      match (s.task tid).call E (.force (.setAssociatedContact cid cname)) with
      | .ok o _ =>
        .ok { s with
              task := Function.update s.task tid o
              form := { s.form with assoc := Function.update s.form.assoc tid cname } } ()
      | _ => .ub
    else .ub
  | .motion cid c =>
    match (s.motion cid).call E c with
    | .ok o _ => .ok { s with motion := Function.update s.motion cid o } ()
    | .throw o => .throw { s with motion := Function.update s.motion cid o }
    | .abort => .abort
    | .ub => .ub
  | .measured mid c =>
    match (s.measured mid).call c with
    | .ok o _ => .ok { s with measured := Function.update s.measured mid o } ()
    | .throw o => .throw { s with measured := Function.update s.measured mid o }
    | .abort => .abort
    | .ub => .ub
  | .form o =>
    if typed s o then
      match Formulation.step E.ndebug (world E s) s.form o with
      | .ok f _ => .ok { s with form := f } ()
      | .throw f => .throw { s with form := f }
      | .abort => .abort
      | .ub => .ub
    else .ub
  | .compute w t => compute E w t s

/-- A history of calls, exceptions being caught by the caller. -/
def run (E : Env K) : State K → List (Op K) → Option (State K)
  | s, [] => some s
  | s, o :: os =>
    match (step E s o).state? with
    | some s' => run E s' os
    | none => none

/-- A program starts with objects and a formulation: `robot` is what the formulation copies. -/
def init (robot : Robot K) (obj : Nat → Contact K) (task : Nat → TaskObj K) (motion : Nat → ContactMotion K)
    (measured : Nat → MeasuredObj K) : State K :=
  ⟨Formulation.init robot obj fun tid => (task tid).assoc, task, motion, measured⟩

end Program

end Tsid
