import Verif.Spec.Formulation
import Verif.Model.Mask
import Verif.Model.Python

/-!
# What the Python interface is meant to do
-/

namespace Tsid.Spec

open Formulation Python

variable {K : Type} [Field K] [LinearOrder K] [HasSqrt K]

/-- A Python program in the middle of its execution: it has built a formulation and made a finite number of calls;
contact objects come from their constructors. -/
def PyReachable (nd : Bool) (W : World) (s : Session K) : Prop :=
  ∃ (robot : Robot K) (obj : Nat → Contact K) (assoc : Nat → String) (cs : List (Call K)),
    robot.na ≤ robot.nv ∧
    (∀ cid, ∃ name kind points normal mu fMin fMax, obj cid = Contact.new name kind points normal mu fMin fMax) ∧
    runOps (Session.step nd W) ⟨init robot obj assoc, []⟩ cs = some s

/-- The calls that neither start a new cycle nor add a contact nor take one away at once. -/
def Quiet : Call K → Prop
  | .computeProblemData _ _ | .addRigidContactDeprecated _ | .addRigidContact _ _ | .addRigidContactLevel _ _ _ _ => False
  | .removeRigidContact _ dur => 0 < dur
  | _ => True

/-- The C++ call a Python call stands for: the method of the same name, where a parameter that Python leaves out has the
default of `/repo/include/tsid/formulations/inverse-dynamics-formulation-acc-force.hpp` 65-74 (weight of the motion
task 1 and level 0 for a new contact, -1 for an unchanged weight of the motion task); the deprecated overload gives a
regularisation weight of `1e-5`.  The methods that return values decode the solution. -/
def meant : Call K → Op K
  | .addMotionTask tid w p dur => .addMotionTask tid w p dur
  | .addForceTask tid w p dur => .addForceTask tid w p dur
  | .addActuationTask tid w p dur => .addActuationTask tid w p dur
  | .updateTaskWeight n w => .updateTaskWeight n w
  | .updateRigidContactWeights n wf => .updateRigidContactWeights n wf (-1)
  | .updateRigidContactWeightsMotion n wf wm => .updateRigidContactWeights n wf wm
  | .addRigidContactDeprecated cid => .addRigidContact cid (1 / 100000) 1 0
  | .addRigidContact cid wf => .addRigidContact cid wf 1 0
  | .addRigidContactLevel cid wf wm level => .addRigidContact cid wf wm level
  | .removeTask n _ => .removeTask n
  | .removeRigidContact n dur => .removeRigidContact n dur
  | .removeFromHqpData n => .removeFromHqpData n
  | .addMeasuredForce m => .addMeasuredForce m
  | .computeProblemData cy t => .compute cy t
  | .getActuatorForces x | .getAccelerations x | .getContactForces x | .getContactForce _ x | .checkContact _ x =>
    .decode x
  | .setContact cid u => .setContact cid u

end Tsid.Spec
