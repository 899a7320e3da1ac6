import Verif.Model.Formulation

/-!
# A robot and a formulation built from it

`InverseDynamicsFormulationBase` stores the robot it is given by value: member `RobotWrapper m_robot`
(`/repo/include/tsid/formulations/inverse-dynamics-formulation-base.hpp` 157), initialised by `m_robot(robot)`
(`/repo/src/formulations/inverse-dynamics-formulation-base.cpp` 18).  The calls of the user go to their own robot or to
the formulation.
-/

namespace Tsid

namespace RobotProgram
variable {K : Type} [Field K] [LinearOrder K] [HasSqrt K]

/-- The robot of the user and the formulation. -/
structure State (K : Type) where
  robot : Robot K
  form : Tsid.State K

/-- The formulation is created. -/
def init (robot : Robot K) (obj : Nat → Contact K) (assoc : Nat → String) : State K :=
  ⟨robot, Formulation.init robot obj assoc⟩

/-- Calls on the robot of the user or on the formulation. -/
inductive Op (K : Type) where
  | robot (o : Robot.Op K)
  | form (o : Formulation.Op K)

/-- One call. -/
def step (ndebug : Bool) (W : World) (s : State K) : Op K → Res (State K) Unit
  | .robot o =>
    match s.robot.step o with
    | .ok r _ => .ok { s with robot := r } ()
    | .throw r => .throw { s with robot := r }
    | .abort => .abort
    | .ub => .ub
  | .form o =>
    match Formulation.step ndebug W s.form o with
    | .ok f _ => .ok { s with form := f } ()
    | .throw f => .throw { s with form := f }
    | .abort => .abort
    | .ub => .ub

/-- A history of calls. -/
def run (ndebug : Bool) (W : World) : State K → List (Op K) → Option (State K)
  | s, [] => some s
  | s, o :: os =>
    match (step ndebug W s o).state? with
    | some s' => run ndebug W s' os
    | none => none

end RobotProgram

end Tsid
