import Verif.Model.PosVelAcc
import Verif.Model.ForceTasks

/-!
# `dim()` of the tasks

`CartRows.dim` (`Model/CartesianTasks.lean`) and `Masked.dim` (`Model/Mask.lean`) are the ones that sum the mask;
`PosVelAcc.dim` is in `Model/PosVelAcc.lean`.  Here are the ones that return a constant or a size of the robot.
-/

namespace Tsid

variable {K : Type}

/-- `dim()`: `/repo/src/tasks/task-joint-posture.cpp` 56. -/
def Posture.dim [Field K] [LinearOrder K] [FloorRing K] (s : Posture K) : Int := s.m.dim

/-- `dim()`: `/repo/src/tasks/task-actuation-equality.cpp` 51. -/
def ActEq.dim [Field K] [LinearOrder K] [FloorRing K] (s : ActEq K) : Int := s.m.dim

/-- `dim()`: `/repo/src/tasks/task-joint-bounds.cpp` 36. -/
def JointBounds.dim (s : JointBounds K) : Nat := s.nv

/-- `dim()`: `/repo/src/tasks/task-angular-momentum-equality.cpp` 28-31. -/
def AmTask.dim (_ : AmTask K) : Nat := 3

/-- `dim()`: `/repo/src/tasks/task-cop-equality.cpp` 26. -/
def CopTask.dim (_ : CopTask K) : Nat := 3

/-- `dim()`: `/repo/src/tasks/task-contact-force-equality.cpp` 29. -/
def ForceTask.dim (_ : ForceTask K) : Nat := 6

/-- `dim()`: `/repo/src/tasks/task-capture-point-inequality.cpp` 30, 48: `m_dim` is set to 2 in the constructor and not
assigned again. -/
def CaptureTask.dim (_ : CaptureTask K) : Nat := 2

end Tsid
