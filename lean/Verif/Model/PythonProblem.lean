import Verif.Model.Constraint
import Verif.Model.Solver

/-!
# Problems put together by hand in Python

`ConstraintLevels` and `HQPDatas` of `/repo/include/tsid/bindings/python/utils/container.hpp`, the classes of constraints
of `/repo/include/tsid/bindings/python/constraint/`, as they are used in `/repo/tests/python/test_Solvers.py`.

Boost.Python turns a constraint held by Python into a shared pointer to the same object, so lists of constraints refer to
objects; an object is the number of objects of its class that were made before.  Left out: printing, and the conversion
of arguments.
-/

namespace Tsid.Python

variable {K : Type}

/-- The methods that change a constraint (`constraint-equality.hpp` 47-79, `constraint-inequality.hpp` 47-82,
`constraint-bound.hpp` 47-72). -/
inductive ConCall (K : Type) where
  | setMatrix (A : Mat K)
  | setVector (b : Vec K)
  | setLowerBound (lb : Vec K)
  | setUpperBound (ub : Vec K)
  | resize (r c : Nat)

/-- Forget what a method returns. -/
def forget {σ α : Type} : Res σ α → Res σ Unit
  | .ok s _ => .ok s ()
  | .throw s => .throw s
  | .abort => .abort
  | .ub => .ub

/-- One method; the Python class of bounds has no `setMatrix` (an exception). -/
def ConCall.apply [Zero K] [One K] (nd : Bool) (c : Constraint K) : ConCall K → Res (Constraint K) Unit
  | .setMatrix A => if c.kind = .bound then .throw c else forget (c.setMatrix A)
  | .setVector b => forget (c.setVector nd b)
  | .setLowerBound lb => forget (c.setLowerBound nd lb)
  | .setUpperBound ub => forget (c.setUpperBound nd ub)
  | .resize r k => c.resize r k

/-- The constructors of the three classes (`constraint-equality.hpp` 36-43, `constraint-inequality.hpp` 36-44,
`constraint-bound.hpp` 36-43); the one with a name only makes empty members, as sizes zero do. -/
inductive Maker (K : Type) where
  | eq (name : String) (A : Mat K) (b : Vec K)
  | ineq (name : String) (A : Mat K) (lb ub : Vec K)
  | bound (name : String) (lb ub : Vec K)
  | eqZero (name : String) (r c : Nat)
  | ineqZero (name : String) (r c : Nat)
  | boundZero (name : String) (n : Nat)

/-- The new object, or an exception. -/
def Maker.make [Zero K] [One K] : Maker K → Option (Constraint K)
  | .eq n A b => Constraint.newEq n A b
  | .ineq n A lb ub => Constraint.newIneq n A lb ub
  | .bound n lb ub => Constraint.newBound n lb ub
  | .eqZero n r c => some (Constraint.mkEq n r c)
  | .ineqZero n r c => some (Constraint.mkIneq n r c)
  | .boundZero n k => some (Constraint.mkBound n k)

/-- The objects of a program: constraints, levels (weights and constraints) and problems (lists of levels), with the
number of objects made so far. -/
structure Hand (K : Type) where
  cons : Nat → Constraint K
  nCons : Nat
  level : Nat → List (K × Nat)
  nLevels : Nat
  problem : Nat → List (List (K × Nat))
  nProblems : Nat

/-- Nothing yet. -/
def Hand.init [Zero K] : Hand K := ⟨fun _ => Constraint.mkEq "" 0 0, 0, fun _ => [], 0, fun _ => [], 0⟩

/-- The calls of a program. -/
inductive HandCall (K : Type) where
  | make (m : Maker K)
  | set (i : Nat) (c : ConCall K)
  | newLevel
  | append (l : Nat) (w : K) (i : Nat)
  | newProblem
  | appendLevel (d l : Nat)
  | resize (d n : Nat)

/-- `std::vector::resize(n)` of the list of levels: cut off, or filled up with empty levels. -/
def resized {α : Type} (l : List (List α)) (n : Nat) : List (List α) := l.take n ++ List.replicate (n - l.length) []

/-- One call.  A variable that does not exist is an exception of Python.
* `append`: `container.hpp` 57-74;
* `resize` of a problem: line 85;
* `append` of a level to a problem: lines 112-114 (a copy of the list of the level). -/
def Hand.step [Zero K] [One K] (nd : Bool) (s : Hand K) : HandCall K → Res (Hand K) Unit
  | .make m =>
    match m.make with
    | some c => .ok { s with cons := Function.update s.cons s.nCons c, nCons := s.nCons + 1 } ()
    | none => .throw s
  | .set i u =>
    if i < s.nCons then
      match u.apply nd (s.cons i) with
      | .ok c _ => .ok { s with cons := Function.update s.cons i c } ()
      | .throw c => .throw { s with cons := Function.update s.cons i c }
      | .abort => .abort
      | .ub => .ub
    else .throw s
  | .newLevel => .ok { s with nLevels := s.nLevels + 1 } ()
  | .append l w i =>
    if l < s.nLevels ∧ i < s.nCons then .ok { s with level := Function.update s.level l (s.level l ++ [(w, i)]) } ()
    else .throw s
  | .newProblem => .ok { s with nProblems := s.nProblems + 1 } ()
  | .appendLevel d l =>
    if d < s.nProblems ∧ l < s.nLevels then
      .ok { s with problem := Function.update s.problem d (s.problem d ++ [s.level l]) } ()
    else .throw s
  | .resize d n =>
    if d < s.nProblems then .ok { s with problem := Function.update s.problem d (resized (s.problem d) n) } ()
    else .throw s

/-- A program whose exceptions are caught. -/
def Hand.run [Zero K] [One K] (nd : Bool) : Hand K → List (HandCall K) → Option (Hand K)
  | s, [] => some s
  | s, o :: os =>
    match (Hand.step nd s o).state? with
    | some s' => Hand.run nd s' os
    | none => none

/-- What a solver gets when it is passed problem `d` (`solver_helper`, `solver-HQP-eiquadprog.hpp` 70-77): the
constraints as they are now. -/
def Hand.read (s : Hand K) (d : Nat) : List (Level K) :=
  (s.problem d).map fun l => l.map fun e => (e.1, s.cons e.2)

end Tsid.Python
