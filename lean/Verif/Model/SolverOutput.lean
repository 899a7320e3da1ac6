import Verif.Model.Solver
import Verif.Model.SolverSettings

/-!
# Solver back-ends: `solve` as a whole, and its output

Model of `HQPOutput` (`/repo/include/tsid/solvers/solver-HQP-output.hpp`) and of what `solve` of the back-ends writes
into it: `solver-HQP-eiquadprog.cpp` 207-265, `solver-HQP-eiquadprog-fast.cpp` 157-222,
`solver-HQP-eiquadprog-rt.hxx` 51-210, `solver-proxqp.cpp` 165-233, `solver-osqp.cpp` 177-263,
`solver-HQP-qpmad.cpp` 137-197.

* The external solver is a function from the data handed to it, and the vector that it may write to, to an answer.
  It is an argument of `solve`, over which all theorems quantify; so every call may meet another one.
* The contents of new memory are the arguments `fresh` and `freshI`.
* The checks of the constraints in a build without `NDEBUG`, which only print, are left out.
* When a call throws after `resize`, or the user calls `resize`, `getObjectiveValue` of a ProxQP object, which has been replaced, is not modelled:
  the value is the one of the last answer.
-/

namespace Tsid.Solve

open Solver Status

/-- `HQPOutput` (`solver-HQP-output.hpp` 31-42); a vector of integers is the list of its entries. -/
structure Output (K : Type) where
  status : HQPStatus
  x : Vec K
  lambda : Vec K
  activeSet : List Int
  iterations : Int

/-- `HQPOutput()` (`solver-HQP-output.hpp` 44): status and iterations are not initialised. -/
def Output.new {K : Type} [Zero K] (status : HQPStatus) (iterations : Int) : Output K :=
  ⟨status, Vec.zero 0, Vec.zero 0, [], iterations⟩

/-- `v.resize(n)` of Eigen, which keeps a vector of that size as it is. -/
def resizeTo {K : Type} (fresh : Nat → Nat → K) (v : Vec K) (n : Nat) : Vec K :=
  if v.size = n then v else ⟨n, fresh n⟩

/-- `v.resize(n)` for a vector of integers. -/
def resizeInts (freshI : Nat → Int) (v : List Int) (n : Nat) : List Int :=
  if v.length = n then v else (List.range n).map freshI

/-- `HQPOutput::resize` (`solver-HQP-output.hpp` 50-54). -/
def Output.resize {K : Type} (fresh : Nat → Nat → K) (freshI : Nat → Int) (o : Output K) (nVars nEq nIn : Nat) :
    Output K :=
  { o with
    x := resizeTo fresh o.x nVars
    lambda := resizeTo fresh o.lambda (nEq + nIn)
    activeSet := resizeInts freshI o.activeSet nIn }

/-- A value of type `double` returned as objective. -/
inductive Objective (K : Type)
  | num (v : K)
  | plusInfinity
  | minusInfinity
  | nan

/-- What `==` with infinity sees of it. -/
def Objective.shape {K : Type} : Objective K → ObjValue
  | .num _ => .finite
  | .plusInfinity => .plusInfinity
  | .minusInfinity => .minusInfinity
  | .nan => .nan

/-- Answer of an external solver: return code, solution, multipliers, array of active constraints and number of its
entries in use, iterations, objective.  Solvers that do not provide one of them leave it unused. -/
structure Answer (C K : Type) where
  code : C
  x : Vec K
  multipliers : Vec K
  active : List Int
  activeSize : Nat
  iterations : Int
  objective : Objective K

/-- What the classes do around the external solver, besides `retrieveQPData`. -/
structure Driver (K R C : Type) where
  /-- `retrieveQPData` -/
  backend : Backend K R
  /-- default of its argument `hessianRegularization`, which `solve` uses -/
  reg : Bool
  /-- what `resize` does to `m_output`, from the members before and after it -/
  resized : (Nat → Nat → K) → (Nat → Int) → State K R → State K R → Output K → Output K
  /-- the statements after the call of the external solver; `none`: undefined behaviour -/
  write : State K R → Answer C K → Output K → Option (Output K)
  /-- `getObjectiveValue` -/
  objective : Objective K → Objective K

/-- A solver object: members of `retrieveQPData`, `m_output`, and the objective kept by the object or by the external
solver. -/
structure Object (K R : Type) where
  st : State K R
  out : Output K
  objValue : Objective K

/-- `solve(problemData)`; `engine` is the external solver. -/
def solve {K R C : Type} [Field K] (D : Driver K R C) (fresh : Nat → Nat → K) (freshI : Nat → Int) (ndebug : Bool)
    (engine : State K R → Vec K → Answer C K) (s : Object K R) (p : HQPData K) : Res (Object K R) Unit :=
  match retrieve D.backend fresh ndebug s.st p D.reg with
  | .ok st _ =>
    let out := D.resized fresh freshI s.st st s.out
    let a := engine st out.x
    match D.write st a out with
    | some out' => .ok ⟨st, out', a.objective⟩ ()
    | none => .ub
  | .throw st => .throw ⟨st, D.resized fresh freshI s.st st s.out, s.objValue⟩
  | .abort => .abort
  | .ub => .ub

/-- `resize(n, neq, nin)`, called by the user. -/
def resize {K R C : Type} (D : Driver K R C) (fresh : Nat → Nat → K) (freshI : Nat → Int) (ndebug : Bool)
    (s : Object K R) (n neq nin : Nat) : Res (Object K R) Unit :=
  match D.backend.resize fresh ndebug s.st n neq nin with
  | .ok st _ => .ok ⟨st, D.resized fresh freshI s.st st s.out, s.objValue⟩ ()
  | .throw st => .throw ⟨st, D.resized fresh freshI s.st st s.out, s.objValue⟩
  | .abort => .abort
  | .ub => .ub

/-- `getObjectiveValue()`. -/
def getObjectiveValue {K R C : Type} (D : Driver K R C) (s : Object K R) : Objective K := D.objective s.objValue

/-- `if (resizeVar) m_output.x.resize(n);`: `solver-HQP-eiquadprog.cpp` 49-56, `solver-proxqp.cpp` 55-62,
`solver-osqp.cpp` 58-65, `solver-HQP-qpmad.cpp` 44-56. -/
def resizeX {K R : Type} (fresh : Nat → Nat → K) (_ : Nat → Int) (old new : State K R) (o : Output K) : Output K :=
  if new.n ≠ old.n then { o with x := resizeTo fresh o.x new.n } else o

/-- `solver-HQP-eiquadprog-fast.cpp` 53-64. -/
def Fast.resized {K R : Type} (fresh : Nat → Nat → K) (freshI : Nat → Int) (old new : State K R) (o : Output K) :
    Output K :=
  let o := resizeX fresh freshI old new o
  if new.n ≠ old.n ∨ new.neq ≠ old.neq ∨ new.nin ≠ old.nin then o.resize fresh freshI new.n new.neq (2 * new.nin) else o

/-- `getActiveSet().segment(m_neq, getActiveSetSize() - m_neq)`; `none`: outside of the array. -/
def activeInequalities {C K : Type} (neq : Nat) (a : Answer C K) : Option (List Int) :=
  if neq ≤ a.activeSize ∧ a.activeSize ≤ a.active.length then some ((a.active.drop neq).take (a.activeSize - neq))
  else none

/-- `solver-HQP-eiquadprog.cpp` 223-231: `m_output.x` is written by the external solver; the active set goes to members
that nothing reads. -/
def Eiq.write {K R : Type} (_ : State K R) (a : Answer Unit K) (o : Output K) : Option (Output K) :=
  some { o with
    x := a.x
    status := Status.eiq a.objective.shape o.status }

/-- `solver-HQP-eiquadprog-fast.cpp` 167-215, `solver-HQP-eiquadprog-rt.hxx` 148-202. -/
def Fast.write {K R : Type} (st : State K R) (a : Answer FastCode K) (o : Output K) : Option (Output K) :=
  let o := { o with x := a.x }
  if a.code = .optimal then
    match activeInequalities st.neq a with
    | some act => some { o with
        status := .optimal
        lambda := a.multipliers
        iterations := a.iterations
        activeSet := act }
    | none => none
  else some { o with status := Status.fast a.code o.status }

/-- `solver-proxqp.cpp` 182-226; `multipliers` is `results.y`. -/
def Prox.write {K R : Type} (_ : State K R) (a : Answer ProxCode K) (o : Output K) : Option (Output K) :=
  if a.code = .solved then
    some { o with
      x := a.x
      status := .optimal
      lambda := a.multipliers
      iterations := a.iterations
      activeSet := o.activeSet.map fun _ => 0 }
  else some { o with status := Status.prox a.code o.status }

/-- `solver-osqp.cpp` 211-258. -/
def Osqp.write {K R : Type} (_ : State K R) (a : Answer OsqpCode K) (o : Output K) : Option (Output K) :=
  if a.code = .solved then
    some { o with
      x := a.x
      status := .optimal
      lambda := a.multipliers }
  else some { o with status := Status.osqp a.code o.status }

/-- `solver-HQP-qpmad.cpp` 146-158: `m_output.x` is written by the external solver. -/
def Mad.write {K R : Type} (_ : State K R) (a : Answer MadCode K) (o : Output K) : Option (Output K) :=
  some { o with
    x := a.x
    status := Status.mad a.code o.status }

variable {K : Type} [Field K]

/-- `SolverHQuadProg`; `getObjectiveValue`: `solver-HQP-eiquadprog.cpp` 265. -/
def eiq : Driver K (EiqRows K) Unit := ⟨Solver.eiq, true, resizeX, Eiq.write, id⟩

/-- `SolverHQuadProgFast`; `getObjectiveValue`: `solver-HQP-eiquadprog-fast.cpp` 220-222. -/
def fast : Driver K (EiqRows K) FastCode := ⟨Solver.fast, true, Fast.resized, Fast.write, id⟩

/-- `SolverHQuadProgRT`, whose `resize` only checks the sizes; `getObjectiveValue`: `-rt.hxx` 207-210. -/
def rt : Driver K (EiqRows K) FastCode := ⟨Solver.rt, true, fun _ _ _ _ o => o, Fast.write, id⟩

/-- `SolverProxQP`; `getObjectiveValue`: `solver-proxqp.cpp` 231-233. -/
def prox : Driver K (ProxRows K) ProxCode := ⟨Solver.prox, false, resizeX, Prox.write, id⟩

/-- `SolverOSQP`; `getObjectiveValue`: `solver-osqp.cpp` 263. -/
def osqp : Driver K (OsqpRows K) OsqpCode := ⟨Solver.osqp, false, resizeX, Osqp.write, id⟩

/-- `SolverHQpmad`; `getObjectiveValue`: `solver-HQP-qpmad.cpp` 194-197. -/
def mad [LinearOrder K] : Driver K (MadRows K) MadCode := ⟨Solver.mad, true, resizeX, Mad.write, fun _ => .plusInfinity⟩

/-- A new object of `SolverHQuadProg` or `SolverHQuadProgFast`; status, iterations and objective are not
initialised. -/
def Eiq.init (status : HQPStatus) (iterations : Int) (v : Objective K) : Object K (EiqRows K) :=
  ⟨Solver.Eiq.init, Output.new status iterations, v⟩

/-- A new `SolverHQuadProgRT<nVars, nEqCon, nIneqCon>` (`-rt.hxx` 23-31). -/
def Rt.init (fresh : Nat → Nat → K) (freshI : Nat → Int) (nVars nEq nIn : Nat) (status : HQPStatus) (iterations : Int)
    (v : Objective K) : Object K (EiqRows K) :=
  ⟨Solver.Rt.init fresh nVars nEq nIn, (Output.new status iterations).resize fresh freshI nVars nEq (2 * nIn), v⟩

/-- A new `SolverProxQP`. -/
def Prox.init (status : HQPStatus) (iterations : Int) (v : Objective K) : Object K (ProxRows K) :=
  ⟨Solver.Prox.init, Output.new status iterations, v⟩

/-- A new `SolverOSQP`. -/
def Osqp.init (status : HQPStatus) (iterations : Int) (v : Objective K) : Object K (OsqpRows K) :=
  ⟨Solver.Osqp.init, Output.new status iterations, v⟩

/-- A new `SolverHQpmad`; `m_has_bounds` is not initialised either. -/
def Mad.init (hasBounds : Bool) (status : HQPStatus) (iterations : Int) (v : Objective K) : Object K (MadRows K) :=
  ⟨Solver.Mad.init hasBounds, Output.new status iterations, v⟩

end Tsid.Solve
