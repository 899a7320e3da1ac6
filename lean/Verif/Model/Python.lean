import Verif.Model.Formulation

/-!
# The Python interface

`/repo/include/tsid/bindings/python/`: the static functions behind the methods of the Python classes.  Left out:
argument conversion by Boost.Python and eigenpy (except the conversion of an integer to `bool`), and the methods that
only forward a getter or a setter of a C++ object.
-/

namespace Tsid.Python

open Formulation

/-! ## The formulation -/

/-- A problem held by Python (`HQPDatas`, `/repo/include/tsid/bindings/python/utils/container.hpp` 76-125): a copy of
the levels with their weights, whose entries point to the constraints of the formulation (shared pointers). -/
abbrev Held (K : Type) := List (List (K × Nat))

/-- The methods of the class `InvDynPythonVisitor`
(`/repo/include/tsid/bindings/python/formulations/formulation.hpp` 50-134), and the setters of the contacts. -/
inductive Call (K : Type) where
  | addMotionTask (tid : Nat) (w : K) (p : Nat) (dur : K)
  | addForceTask (tid : Nat) (w : K) (p : Nat) (dur : K)
  | addActuationTask (tid : Nat) (w : K) (p : Nat) (dur : K)
  | updateTaskWeight (name : String) (w : K)
  | updateRigidContactWeights (name : String) (wf : K)
  | updateRigidContactWeightsMotion (name : String) (wf wm : K)
  | addRigidContactDeprecated (cid : Nat)
  | addRigidContact (cid : Nat) (wf : K)
  | addRigidContactLevel (cid : Nat) (wf wm : K) (level : Nat)
  | removeTask (name : String) (dur : K)
  | removeRigidContact (name : String) (dur : K)
  | removeFromHqpData (name : String)
  | addMeasuredForce (mid : Nat)
  | computeProblemData (cy : Cycle K) (t : K)
  | getActuatorForces (x : Vec K)
  | getAccelerations (x : Vec K)
  | getContactForces (x : Vec K)
  | getContactForce (name : String) (x : Vec K)
  | checkContact (name : String) (x : Vec K)
  | setContact (cid : Nat) (u : ContactSet K)

/-- What a method returns. -/
inductive Value (K : Type) where
  | none
  | bool (b : Bool)
  | vec (v : Vec K)
  | problem (h : Held K)

variable {K : Type}

/-- Wrap the result of a call. -/
def wrap {σ α β : Type} (f : α → β) : Res σ α → Res σ β
  | .ok s a => .ok s (f a)
  | .throw s => .throw s
  | .abort => .abort
  | .ub => .ub

/-- The parameter `const bool priority_level` of `addRigidContact…WithPriorityLevel` (`formulation.hpp` 209-213,
218-222, 229-233), passed on as an `unsigned int`. -/
def levelOf (level : Nat) : Nat := if level = 0 then 0 else 1

/-- `checkContact(name, sol)`: `formulation.hpp` 270-275. -/
def checkContact [Field K] (s : State K) (name : String) (x : Vec K) : Res (State K) Bool :=
  wrap (fun f => decide (0 < f.size)) (getContactForcesOf s name x)

/-- One method of the formulation: `formulation.hpp` 139-284. -/
def call [Field K] [LinearOrder K] [HasSqrt K] (nd : Bool) (W : World) (s : State K) :
    Call K → Res (State K) (Value K)
  | .addMotionTask tid w p dur => wrap .bool (Formulation.addMotionTask W s tid w p dur)
  | .addForceTask tid w p dur => wrap .bool (Formulation.addForceTask W s tid w p dur)
  | .addActuationTask tid w p dur => wrap .bool (Formulation.addActuationTask W s tid w p dur)
  | .updateTaskWeight n w => wrap .bool (Formulation.updateTaskWeight s n w)
  | .updateRigidContactWeights n wf => wrap .bool (Formulation.updateRigidContactWeights s n wf (-1))
  | .updateRigidContactWeightsMotion n wf wm => wrap .bool (Formulation.updateRigidContactWeights s n wf wm)
  | .addRigidContactDeprecated cid => wrap .bool (Formulation.addRigidContact s cid (1 / 100000) 1 0)
  | .addRigidContact cid wf => wrap .bool (Formulation.addRigidContact s cid wf 1 0)
  | .addRigidContactLevel cid wf wm level => wrap .bool (Formulation.addRigidContact s cid wf wm (levelOf level))
  | .removeTask n _ => wrap .bool (Formulation.removeTask nd W s n)
  | .removeRigidContact n dur => wrap .bool (Formulation.removeRigidContact nd s n dur)
  | .removeFromHqpData n => .ok (Formulation.removeFromHqpData s n).1 (.bool (Formulation.removeFromHqpData s n).2)
  | .addMeasuredForce m => wrap .bool (Formulation.addMeasuredForce s m)
  | .computeProblemData cy t =>
    match Formulation.computeProblemData nd cy t s with
    | .ok s' _ => .ok s' (.problem s'.hqp)
    | .throw s' => .throw s'
    | .abort => .abort
    | .ub => .ub
  | .getActuatorForces x => wrap .vec (Formulation.getActuatorForces s x)
  | .getAccelerations x => wrap .vec (Formulation.getAccelerations s x)
  | .getContactForces x => wrap .vec (Formulation.getContactForces s x)
  | .getContactForce n x => wrap .vec (getContactForcesOf s n x)
  | .checkContact n x => wrap .bool (checkContact s n x)
  | .setContact cid u => wrap (fun _ => .none) (Formulation.step nd W s (.setContact cid u))

/-- A Python program between two calls: the formulation, and the problems it holds, oldest first. -/
structure Session (K : Type) where
  f : State K
  held : List (Held K)

/-- One call of a Python program, which keeps the problems it gets. -/
def Session.step [Field K] [LinearOrder K] [HasSqrt K] (nd : Bool) (W : World) (s : Session K) (c : Call K) :
    Res (Session K) Unit :=
  match call nd W s.f c with
  | .ok f (.problem h) => .ok ⟨f, s.held ++ [h]⟩ ()
  | .ok f _ => .ok { s with f := f } ()
  | .throw f => .throw { s with f := f }
  | .abort => .abort
  | .ub => .ub

/-- What a solver gets when Python passes it a held problem (`solver_helper`,
`/repo/include/tsid/bindings/python/solvers/solver-HQP-eiquadprog.hpp`): the constraints as they are now. -/
def Session.read (s : Session K) (h : Held K) : List (List (K × Constraint K)) :=
  h.map fun l => l.map fun e => (e.1, s.f.heap e.2)

/-! ## Constraints handed out by tasks and contacts -/

/-- The Python classes whose methods `compute`, `getConstraint`, `computeMotionTask`, … return a constraint
(`/repo/include/tsid/bindings/python/tasks/*.hpp`, `contacts/*.hpp`). -/
inductive Source where
  | comEquality | se3Equality | twoFramesEquality | amEquality | posture | actuationEquality | contactForceEquality
  | copEquality | contactMotion | contactRegularization
  | contactCone | actuationBounds
  | jointBounds
  | posVelAccBounds
deriving DecidableEq, Repr

/-- Class of the member the constraint lives in: `/repo/include/tsid/tasks/task-*.hpp` (`m_constraint`),
`/repo/include/tsid/contacts/contact-{6d,point,two-frame-positions}.hpp`. -/
def Source.kind : Source → Kind
  | .contactCone | .actuationBounds | .posVelAccBounds => .inequality
  | .jointBounds => .bound
  | _ => .equality

/-- The constraint Python gets, built from name, matrix, right-hand side or bounds of the original; `none`: the
constructor throws.  `task-joint-posVelAcc-bounds.hpp` 106-124 and `task-joint-bounds.hpp` 77-92 build a
`ConstraintBound`, `contact-*.hpp` (`computeForceTask`) and `task-actuation-bounds.hpp` 70-83 a
`ConstraintInequality`, all others a `ConstraintEquality`. -/
def Source.copy [Zero K] [One K] (o : Source) (c : Constraint K) : Option (Constraint K) :=
  match o with
  | .jointBounds | .posVelAccBounds => Constraint.newBound c.name c.lb c.ub
  | .contactCone | .actuationBounds => Constraint.newIneq c.name c.mat c.lb c.ub
  | _ => Constraint.newEq c.name c.mat c.vec

end Tsid.Python
