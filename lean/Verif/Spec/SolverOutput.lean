import Verif.Model.SolverOutput
import Verif.Spec.Solver

/-!
# What is expected of `solve`
-/

namespace Tsid.Spec

open Finset Solve

variable {K R C : Type} [Field K]

/-- A call of `solve`, with the external solver, or of `resize`; contents of new memory. -/
inductive SolveCall (K R C : Type) where
  | solve (fresh : Nat → Nat → K) (freshI : Nat → Int) (problem : HQPData K)
      (engine : Solver.State K R → Vec K → Answer C K)
  | resize (fresh : Nat → Nat → K) (freshI : Nat → Int) (n neq nin : Nat)

/-- One call. -/
def SolveCall.run (D : Driver K R C) (ndebug : Bool) (s : Object K R) : SolveCall K R C → Res (Object K R) Unit
  | .solve fresh freshI p engine => Solve.solve D fresh freshI ndebug engine s p
  | .resize fresh freshI n neq nin => Solve.resize D fresh freshI ndebug s n neq nin

/-- The object after a history of calls, exceptions being caught by the caller. -/
def solves (D : Driver K R C) (ndebug : Bool) : Object K R → List (SolveCall K R C) → Option (Object K R)
  | s, [] => some s
  | s, c :: h => match (c.run D ndebug s).state? with
    | some s' => solves D ndebug s' h
    | none => none

/-- An external solver that answers with a vector of the right size. -/
def SizedEngine (engine : Solver.State K R → Vec K → Answer C K) : Prop :=
  ∀ st x, x.size = st.n → (engine st x).x.size = st.n

/-- The external solver of the call does so. -/
def SolveCall.Sized : SolveCall K R C → Prop
  | .solve _ _ _ engine => SizedEngine engine
  | .resize .. => True

/-- An external solver that keeps its promises: the solution has the right size, and in case of success it is optimal
for the data, the objective is its cost, and the array of active constraints begins with the equalities. -/
structure Sound [LE K] (Sat : R → (Nat → K) → Prop) (Success : Answer C K → Prop)
    (engine : Solver.State K R → Vec K → Answer C K) : Prop where
  size : SizedEngine engine
  optimal : ∀ st x, Success (engine st x) → Optimal (Sat st.rows) (qpCost st.H st.g) (engine st x).x
  objective : ∀ st x, Success (engine st x) → (engine st x).objective = .num (qpCost st.H st.g (engine st x).x)
  active : ∀ st x, Success (engine st x) → st.neq ≤ (engine st x).activeSize ∧
    (engine st x).activeSize ≤ (engine st x).active.length

/-- The output holds a solution of the problem `l0`, `l1` in `n` variables: status, size and optimality. -/
structure Solved [LE K] (n : Nat) (reg : Bool) (l0 l1 : Level K) (o : Output K) : Prop where
  status : o.status = .optimal
  size : o.x.size = n
  optimal : Optimal (Feasible l0) (target n reg l1) o.x

/-- The vector handed to the external solver, in a call that leads from `s` to `s'`. -/
def start (D : Driver K R C) (fresh : Nat → Nat → K) (freshI : Nat → Int) (s s' : Object K R) : Vec K :=
  (D.resized fresh freshI s.st s'.st s.out).x

/-- However an object was used before, `solve` accepts the problem `l0`, `l1` in `n` variables; its output has `n`
variables, whatever the external solver answers, and holds a solution if the external solver succeeds, in which case
`Obj` relates the solution and `getObjectiveValue`. -/
def SolvesProblem [LE K] (D : Driver K R C) (ndebug : Bool) (s0 : Object K R) (Sat : R → (Nat → K) → Prop)
    (Success : Answer C K → Prop) (n : Nat) (reg : Bool) (l0 l1 : Level K) (Obj : Vec K → Objective K → Prop) : Prop :=
  ∀ hist s, (∀ c ∈ hist, c.Sized) → solves D ndebug s0 hist = some s →
    ∀ fresh freshI engine, Sound Sat Success engine →
      ∃ s', solve D fresh freshI ndebug engine s [l0, l1] = .ok s' () ∧ s'.st.n = n ∧
        (start D fresh freshI s s').size = n ∧ s'.out.x.size = n ∧
        (Success (engine s'.st (start D fresh freshI s s')) →
          Solved n reg l0 l1 s'.out ∧ Obj s'.out.x (getObjectiveValue D s'))

/-- The objective reported is the cost of level 1 without its constant part. -/
def CostOf (n : Nat) (reg : Bool) (l1 : Level K) (x : Vec K) (v : Objective K) : Prop :=
  v = .num (target n reg l1 x - dropped l1)

/-- However an object was used before, its output has as many variables as the last problem that got to `resize`. -/
def KeepsSize (D : Driver K R C) (ndebug : Bool) (s0 : Object K R) : Prop :=
  ∀ hist s, (∀ c ∈ hist, c.Sized) → solves D ndebug s0 hist = some s → s.out.x.size = s.st.n

open Classical in
/-- An external solver that always finds an optimal point if there is one. -/
noncomputable def ideal [LE K] (Sat : R → (Nat → K) → Prop) (yes no : C) (st : Solver.State K R) (_ : Vec K) :
    Answer C K :=
  if h : ∃ x, Optimal (Sat st.rows) (qpCost st.H st.g) x then
    ⟨yes, ⟨st.n, h.choose⟩, ⟨st.neq, fun _ => 0⟩, List.replicate st.neq 0, st.neq, 1, .num (qpCost st.H st.g h.choose)⟩
  else ⟨no, ⟨st.n, fun _ => 0⟩, Vec.zero 0, [], 0, 0, .plusInfinity⟩

end Tsid.Spec
