import Verif.Model.ForceTasks
import Verif.Model.JointTasks
import Verif.Model.PosVelAcc
import Verif.Model.MeasuredForce
import Verif.Model.Robot
import Verif.Model.Formulation

/-!
# Getters of what setters set

The methods and the Python attributes of tasks, contacts, robots and trajectory samples that read a setting back:
`/repo/src/tasks/*.cpp`, `/repo/src/contacts/*.cpp`, `/repo/src/robots/robot-wrapper.cpp`,
`/repo/include/tsid/trajectories/trajectory-base.hpp`, and their Python counterparts in
`/repo/include/tsid/bindings/python`.  Getters of quantities that `compute` computes are with the tasks.

The Python setters (`setKp`, `setMask`, …) hand their argument to the setter of C++ without change, so that a history of
Python calls is a history of C++ calls; only the setters of a `TrajectorySample` have checks of their own
(`Sample.stepPython`).
-/

namespace Tsid

/-- Who reads: a method in C++, or the attribute of the Python class. -/
inductive Reader where
  | cpp
  | python
deriving DecidableEq, Repr

/-- What reading yields: one or several lists of numbers, Python's `None`, or an error because there is no such
attribute. -/
inductive Reading (K : Type) where
  | value (l : List (List K))
  | none
  | absent

namespace Reading
variable {K : Type}

/-- A vector. -/
def vec (v : Vec K) : Reading K := .value [v.toList]

/-- A number. -/
def num (x : K) : Reading K := .value [[x]]

/-- A `Vector3`. -/
def v3 (v : V3 K) : Reading K := .value [[v.x, v.y, v.z]]

/-- A trajectory sample. -/
def sample (r : Sample K) : Reading K := .value [r.pos.toList, r.vel.toList, r.acc.toList]

/-- Something that only C++ can read. -/
def cppOnly (R : Reader) (r : Reading K) : Reading K :=
  match R with
  | .cpp => r
  | .python => .absent

end Reading

variable {K : Type}

/-! ## Frames -/

/-- Settings of a task for one frame. -/
inductive SE3Attr where
  | kp | kd | mask | reference
deriving DecidableEq, Repr

/-- `Kp()`, `Kd()`, `getMask()`, `getReference()`: `task-se3-equality.cpp` 62-64, 100, `task-motion.cpp` 20.  Python:
`tasks/task-se3-equality.hpp` 77-92, 148-149, 159: the attribute `mask` calls `static void getMask(TaskSE3& self)`,
which returns nothing. -/
def SE3Task.read (R : Reader) (s : SE3Task K) : SE3Attr → Reading K
  | .kp => .vec s.kp
  | .kd => .vec s.kd
  | .mask => match R with
    | .cpp => .vec s.rows.mask
    | .python => .none
  | .reference => .cppOnly R (.sample s.ref)

/-- Settings with gains and a mask. -/
inductive GainAttr where
  | kp | kd | mask
deriving DecidableEq, Repr

/-- `Kp()`, `Kd()`, `getMask()`: `task-two-frames-equality.cpp` 65-67, `task-motion.cpp` 20.  Python:
`tasks/task-two-frames-equality.hpp` 60-75, 119-120, 127: as for one frame. -/
def TwoFrames.read (R : Reader) (s : TwoFrames K) : GainAttr → Reading K
  | .kp => .vec s.kp
  | .kd => .vec s.kd
  | .mask => match R with
    | .cpp => .vec s.rows.mask
    | .python => .none

/-- `Kp()`, `Kd()`, `getMask()`, `getReference()` of a `TaskComEquality`: `task-com-equality.cpp` 43-45, 61,
`task-motion.cpp` 20.  Python: `tasks/task-com-equality.hpp` 75-95, 146-156. -/
def ComTask.read (R : Reader) (s : ComTask K) : SE3Attr → Reading K
  | .kp => .v3 s.kp
  | .kd => .v3 s.kd
  | .mask => .vec s.rows.mask
  | .reference => .cppOnly R (.sample s.ref)

/-- `Kp()`, `Kd()`, `getMask()`, `getReference()` of a `TaskAMEquality`: `task-angular-momentum-equality.cpp` 33-35, 51,
`task-motion.cpp` 20.  Python: `tasks/task-am-equality.hpp` 66-73, 126-127 (no mask). -/
def AmTask.read (R : Reader) (s : AmTask K) : SE3Attr → Reading K
  | .kp => .v3 s.kp
  | .kd => .v3 s.kd
  | .mask => .cppOnly R (.vec s.mask)
  | .reference => .cppOnly R (.sample s.ref)

/-- `Kp()`, `Kd()` of a `ContactPoint`: `contact-point.cpp` 103-111.  Python: `contacts/contact-point.hpp`.  (Those of a
`Contact6d`, `contact-6d.cpp` 133-134, are those of its motion task.) -/
def PointMotion.read (_ : Reader) (s : SE3Task K) (kd : Bool) : Reading K :=
  .vec (if kd then PointMotion.kd3 s else PointMotion.kp3 s)

/-- `Kp()`, `Kd()` of a `ContactTwoFramePositions`: `contact-two-frame-positions.cpp` 90-98.  Python:
`contacts/contact-two-frame-positions.hpp`. -/
def PairMotion.read (_ : Reader) (s : TwoFrames K) (kd : Bool) : Reading K :=
  .vec (if kd then s.kd.head 3 else s.kp.head 3)

/-! ## Joints -/

/-- `Kp()`, `Kd()`, `mask()`, `getReference()` of a `TaskJointPosture`: `task-joint-posture.cpp` 26, 58-60, 93.  Python:
`tasks/task-joint-posture.hpp` 50-54, 80-90, 125-127, 153-154. -/
def Posture.read (R : Reader) (s : Posture K) : SE3Attr → Reading K
  | .kp => .vec s.kp
  | .kd => .vec s.kd
  | .mask => .vec s.m.mask
  | .reference => .cppOnly R (.sample s.ref)

/-- Settings of the actuation bounds. -/
inductive ActAttr where
  | mask | lower | upper
deriving DecidableEq, Repr

/-- `mask()`, `getLowerBounds()`, `getUpperBounds()`: `task-actuation-bounds.cpp` 21, 46-52.  Python:
`tasks/task-actuation-bounds.hpp` 42-62, 84-95. -/
def ActBounds.read (_ : Reader) (s : Masked K) : ActAttr → Reading K
  | .mask => .vec s.mask
  | .lower => .vec s.con.lb
  | .upper => .vec s.con.ub

/-- Settings of the actuation equality. -/
inductive ActEqAttr where
  | mask | reference | weights
deriving DecidableEq, Repr

/-- `mask()`, `getReference()`, `getWeightVector()`: `task-actuation-equality.cpp` 22, 67, 85-87.  Python:
`tasks/task-actuation-equality.hpp` 59-78, 109-125. -/
def ActEq.read (_ : Reader) (s : ActEq K) : ActEqAttr → Reading K
  | .mask => .vec s.m.mask
  | .reference => .vec s.ref
  | .weights => .vec s.weights

/-- Limits of velocities and accelerations. -/
inductive BoundsAttr where
  | velLower | velUpper | accLower | accUpper
deriving DecidableEq, Repr

/-- `getVelocityLowerBounds()` etc.: `task-joint-bounds.cpp` 38-48.  Python: `tasks/task-joint-bounds.hpp` 93-104. -/
def JointBounds.read (_ : Reader) (s : JointBounds K) : BoundsAttr → Reading K
  | .velLower => .vec s.vLb
  | .velUpper => .vec s.vUb
  | .accLower => .vec s.aLb
  | .accUpper => .vec s.aUb

/-- Settings of the combined limits.  `mask` is read by `mask()`, `inheritedMask` by `getMask()`. -/
inductive LimitsAttr where
  | posLower | posUpper | vel | acc | mask | inheritedMask
deriving DecidableEq, Repr

/-- `getPositionLowerBounds()` etc., `mask()`: `task-joint-posVelAcc-bounds.cpp` 96, 127-141.  `getMask()` is inherited
(`task-motion.cpp` 20) and returns `TaskMotion::m_mask`, which the class hides behind a member of the same name
(`/repo/include/tsid/tasks/task-joint-posVelAcc-bounds.hpp` 115, `task-motion.hpp` 53) and never assigns: it stays
empty.  Python: `tasks/task-joint-posVelAcc-bounds.hpp` 83-103, 127-138 (no mask). -/
def PosVelAcc.read [Zero K] (R : Reader) (s : PosVelAcc K) : LimitsAttr → Reading K
  | .posLower => .vec s.qMin
  | .posUpper => .vec s.qMax
  | .vel => .vec s.dqMax
  | .acc => .vec s.ddqMax
  | .mask => .cppOnly R (.vec s.m.mask)
  | .inheritedMask => .cppOnly R (.vec (Vec.zero 0))

/-- `hasMask()`, inherited: `task-motion.cpp` 18, for a `TaskJointPosVelAccBounds`. -/
def PosVelAcc.hasMask [Zero K] (_ : PosVelAcc K) : Bool := decide (0 < (Vec.zero 0 : Vec K).size)

/-! ## Forces -/

/-- Settings of the force-tracking task. -/
inductive ForceAttr where
  | kp | kd | ki | leak | reference | external
deriving DecidableEq, Repr

/-- `Kp()`, `Kd()`, `Ki()`, `getLeakRate()`, `getReference()`, `getExternalForce()`:
`task-contact-force-equality.cpp` 31-36, 76-79, 85-88.  Python: `tasks/task-contact-force-equality.hpp` 57-72, 111-122:
the attribute `Ki` (65-68) is bound to the function `Kd`. -/
def ForceTask.read (R : Reader) (s : ForceTask K) : ForceAttr → Reading K
  | .kp => .vec s.kp
  | .kd => .vec s.kd
  | .ki => match R with
    | .cpp => .vec s.ki
    | .python => .vec s.kd
  | .leak => .num s.leak
  | .reference => .cppOnly R (.sample s.ref)
  | .external => .cppOnly R (.sample s.fext)

/-- `getReference()` of a `TaskCopEquality`: `task-cop-equality.cpp` 83 (not in Python). -/
def CopTask.read (R : Reader) (s : CopTask K) : Reading K := .cppOnly R (.v3 s.ref)

/-- `getMinNormalForce()`, `getMaxNormalForce()`: `contact-6d.cpp` 222-223, `contact-point.cpp` 203-204,
`contact-two-frame-positions.cpp` 162-163.  Python: `contacts/contact-6d.hpp` etc. -/
def Contact.read (_ : Reader) (c : Contact K) (max : Bool) : Reading K := .num (if max then c.fMax else c.fMin)

/-- `getMeasuredContactForce()`: `/repo/src/contacts/measured-6d-wrench.cpp` 55-57.  Python:
`contacts/measured-6d-wrench.hpp` 55-59, 86-89. -/
def Measured6D.read (_ : Reader) (s : Measured6D K) : Reading K :=
  .value [[s.fext.lin.x, s.fext.lin.y, s.fext.lin.z, s.fext.ang.x, s.fext.ang.y, s.fext.ang.z]]

/-! ## Robots and samples -/

/-- `rotor_inertias()`, `gear_ratios()`: `robot-wrapper.cpp` 106-107.  Python: `robots/robot-wrapper.hpp` 66-67,
128-133. -/
def Robot.read (_ : Reader) (r : Robot K) (gear : Bool) : Reading K := .vec (if gear then r.gear else r.rotor)

/-- Parts of a trajectory sample. -/
inductive SampleAttr where
  | value | derivative | second
deriving DecidableEq, Repr

/-- `getValue()`, `getDerivative()`, `getSecondDerivative()`: `trajectory-base.hpp` 42-44.  Python:
`trajectories/trajectory-base.hpp` 36-39, 101-109. -/
def Sample.read (_ : Reader) (s : Sample K) : SampleAttr → Reading K
  | .value => .vec s.pos
  | .derivative => .vec s.vel
  | .second => .vec s.acc

/-- The calls on a trajectory sample; `setPose` exists in Python only. -/
inductive Sample.Op (K : Type) where
  | setValue (v : Vec K)
  | setDerivative (v : Vec K)
  | setSecond (v : Vec K)
  | setPose (M : SE3 K)
  | resize (n d : Nat)

/-- One call in C++: `trajectory-base.hpp` 45-64.  A program that calls `setPose` does not compile. -/
def Sample.stepCpp [Zero K] (s : Sample K) : Sample.Op K → Res (Sample K) Unit
  | .setValue v => .ok { s with pos := v } ()
  | .setDerivative v => .ok { s with vel := v } ()
  | .setSecond v => .ok { s with acc := v } ()
  | .setPose _ => .abort
  | .resize n d => .ok (Sample.zero n d) ()

/-- One call in Python: `trajectories/trajectory-base.hpp` 73-100; the sizes are checked by `assert`, and that of the
value once more by `SE3ToVector`. -/
def Sample.stepPython [Field K] (nd : Bool) (s : Sample K) : Sample.Op K → Res (Sample K) Unit
  | .setValue v => if s.pos.size = v.size ∨ nd = true then .ok { s with pos := v } () else .abort
  | .setDerivative v => if s.vel.size = v.size ∨ nd = true then .ok { s with vel := v } () else .abort
  | .setSecond v => if s.acc.size = v.size ∨ nd = true then .ok { s with acc := v } () else .abort
  | .setPose M =>
    match M.toVector s.pos with
    | some p => .ok { s with pos := p } ()
    | none => if nd then .throw s else .abort
  | .resize n d => .ok (Sample.zero n d) ()

/-- One call on a measured wrench, as a call that always returns: `measured-6d-wrench.cpp` 31-61. -/
def Measured6D.stepRes [Field K] (s : Measured6D K) (o : Measured6D.Op K) : Res (Measured6D K) Unit := .ok (s.step o) ()

end Tsid
