import Mathlib.Algebra.Field.Defs
import Mathlib.Data.List.Basic

/-!
# Solver back-ends: settings, statuses, factory

Model of `/repo/src/solvers/solver-HQP-base.cpp`, of the setters and of the part of `resize` that concerns settings
in `solver-proxqp.cpp`, `solver-osqp.cpp`, `solver-HQP-eiquadprog-fast.cpp` and `solver-HQP-eiquadprog-rt.hxx`, of the
way `solve` turns the return code of the external solver into a status, and of `solver-HQP-factory.{cpp,hxx}`.

* Settings are stored and copied only, so their type `K` is arbitrary.
* `unsigned int` arguments fit in `int`.
* External behaviour that is assumed: a new ProxQP object has the default settings of ProxQP (the argument `dflt`);
  `initSolver` of OSQP takes a copy of the settings, which is the one used by `solveProblem`.
-/

namespace Tsid.Settings

/-! ## Base class -/

/-- `SolverHQPBase` (`include/tsid/solvers/solver-HQP-base.hpp` 80-83). -/
structure Base (K : Type) where
  useWarmStart : Bool
  maxIter : Nat
  maxTime : K

/-- `SolverHQPBase::SolverHQPBase` (`src/solvers/solver-HQP-base.cpp` 16-21). -/
def Base.init {K : Type} [NatCast K] : Base K := ⟨true, 1000, (100 : Nat)⟩

/-- `SolverHQPBase::setMaximumIterations` (`solver-HQP-base.cpp` 23-27): new state and result. -/
def Base.setMaximumIterations {K : Type} (b : Base K) (k : Nat) : Base K × Bool :=
  if k = 0 then (b, false) else ({ b with maxIter := k }, true)

/-- `SolverHQPBase::setMaximumTime` (`solver-HQP-base.cpp` 29-33). -/
def Base.setMaximumTime {K : Type} [Zero K] [LE K] [DecidableLE K] (b : Base K) (t : K) : Base K × Bool :=
  if t ≤ 0 then (b, false) else ({ b with maxTime := t }, true)

/-! ## eiquadprog-fast and eiquadprog-rt -/

/-- What concerns the maximum number of iterations: that of the base class, and that of the external solver. -/
structure Fast (K : Type) where
  base : Base K
  engine : Nat

/-- `SolverHQuadProgFast::setMaximumIterations` (`solver-HQP-eiquadprog-fast.cpp` 224-227; the same in
`solver-HQP-eiquadprog-rt.hxx` 212-217). `accept` says which arguments `setMaxIter` of the external solver accepts. -/
def Fast.setMaximumIterations {K : Type} (accept : Nat → Bool) (s : Fast K) (k : Nat) : Fast K × Bool :=
  ({ base := (s.base.setMaximumIterations k).1
     engine := if accept k then k else s.engine }, accept k)

/-! ## ProxQP -/

/-- Settings of ProxQP, as kept by `SolverProxQP` and by the external solver (`solver-proxqp.hpp`). -/
structure ProxOpts (K : Type) where
  maxIter : Nat
  muIn : K
  muEq : K
  rho : K
  epsAbs : K
  epsRel : K
  verbose : Bool
  deriving DecidableEq

/-- `SolverProxQP`: sizes, settings kept by the object (`m_maxIter`, `m_muIn`, ...), settings of `m_solver`. -/
structure Prox (K : Type) where
  n : Nat
  neq : Nat
  nin : Nat
  kept : ProxOpts K
  engine : ProxOpts K

/-- Setters of `SolverProxQP` and `resize`. -/
inductive ProxOp (K : Type)
  | maxIter (k : Nat)
  | muIn (v : K)
  | muEq (v : K)
  | rho (v : K)
  | epsAbs (v : K)
  | epsRel (v : K)
  | verbose (b : Bool)
  | resize (n neq nin : Nat)

/-- `SolverProxQP::SolverProxQP` (`solver-proxqp.cpp` 14-28); `initial` are the settings kept then. -/
def Prox.init {K : Type} (dflt initial : ProxOpts K) : Prox K := ⟨0, 0, 0, initial, dflt⟩

/-- Initial settings (`solver-proxqp.cpp` 22-27, `solver-HQP-base.cpp` 18). -/
def Prox.initial {K : Type} [DivisionRing K] : ProxOpts K :=
  ⟨1000, 1 / 10, 1 / 10 ^ 3, 1 / 10 ^ 6, 1 / 10 ^ 5, 0, false⟩

/-- `SolverProxQP::setMaximumIterations` (`solver-proxqp.cpp` 235-239); the result is `true`. -/
def Prox.setMaximumIterations {K : Type} (s : Prox K) (k : Nat) : Prox K :=
  { s with
    kept := { s.kept with maxIter := if k = 0 then s.kept.maxIter else k }
    engine := { s.engine with maxIter := k } }

/-- `SolverProxQP::setMuInequality` (`solver-proxqp.cpp` 241-244). -/
def Prox.setMuIn {K : Type} (s : Prox K) (v : K) : Prox K :=
  { s with
    kept := { s.kept with muIn := v }
    engine := { s.engine with muIn := v } }

/-- `SolverProxQP::setMuEquality` (`solver-proxqp.cpp` 245-248). -/
def Prox.setMuEq {K : Type} (s : Prox K) (v : K) : Prox K :=
  { s with
    kept := { s.kept with muEq := v }
    engine := { s.engine with muEq := v } }

/-- `SolverProxQP::setRho` (`solver-proxqp.cpp` 249-252). -/
def Prox.setRho {K : Type} (s : Prox K) (v : K) : Prox K :=
  { s with
    kept := { s.kept with rho := v }
    engine := { s.engine with rho := v } }

/-- `SolverProxQP::setEpsilonAbsolute` (`solver-proxqp.cpp` 253-256). -/
def Prox.setEpsAbs {K : Type} (s : Prox K) (v : K) : Prox K :=
  { s with
    kept := { s.kept with epsAbs := v }
    engine := { s.engine with epsAbs := v } }

/-- `SolverProxQP::setEpsilonRelative` (`solver-proxqp.cpp` 257-260). -/
def Prox.setEpsRel {K : Type} (s : Prox K) (v : K) : Prox K :=
  { s with
    kept := { s.kept with epsRel := v }
    engine := { s.engine with epsRel := v } }

/-- `SolverProxQP::setVerbose` (`solver-proxqp.cpp` 261-264). -/
def Prox.setVerbose {K : Type} (s : Prox K) (b : Bool) : Prox K :=
  { s with
    kept := { s.kept with verbose := b }
    engine := { s.engine with verbose := b } }

/-- `SolverProxQP::resize` (`solver-proxqp.cpp` 34-82), the part on settings. -/
def Prox.resize {K : Type} (ndebug : Bool) (dflt : ProxOpts K) (s : Prox K) (n neq nin : Nat) : Prox K :=
  let changed := n ≠ s.n ∨ neq ≠ s.neq ∨ nin ≠ s.nin
  let s := { s with
    n := n
    neq := neq
    nin := nin }
  if changed then
    let s := { s with engine := dflt }
    let s := s.setMaximumIterations s.kept.maxIter
    let s := s.setMuIn s.kept.muIn
    let s := s.setMuEq s.kept.muEq
    let s := s.setRho s.kept.rho
    let s := s.setEpsAbs s.kept.epsAbs
    let s := s.setEpsRel s.kept.epsRel
    let s := s.setVerbose s.kept.verbose
    if ndebug then s else s.setVerbose true
  else s

/-- One call. -/
def Prox.step {K : Type} (ndebug : Bool) (dflt : ProxOpts K) (s : Prox K) : ProxOp K → Prox K
  | .maxIter k => s.setMaximumIterations k
  | .muIn v => s.setMuIn v
  | .muEq v => s.setMuEq v
  | .rho v => s.setRho v
  | .epsAbs v => s.setEpsAbs v
  | .epsRel v => s.setEpsRel v
  | .verbose b => s.setVerbose b
  | .resize n neq nin => s.resize ndebug dflt n neq nin

/-- `SolverHQPBase::getMaximumIterations` (`solver-HQP-base.hpp` 70). -/
def Prox.getMaximumIterations {K : Type} (s : Prox K) : Nat := s.kept.maxIter

/-! ## OSQP -/

/-- Settings of OSQP (`solver-osqp.hpp`). -/
structure OsqpOpts (K : Type) where
  maxIter : Nat
  sigma : K
  alpha : K
  rho : K
  epsAbs : K
  epsRel : K
  verbose : Bool
  deriving DecidableEq

/-- `SolverOSQP`: sizes, settings kept by the object, `m_solver.settings()`, and the copy taken by `initSolver`
(`none`: not initialised). -/
structure Osqp (K : Type) where
  n : Nat
  neq : Nat
  nin : Nat
  kept : OsqpOpts K
  engine : OsqpOpts K
  work : Option (OsqpOpts K)

/-- Setters of `SolverOSQP`, `resize`, and the end of `solve`. -/
inductive OsqpOp (K : Type)
  | maxIter (k : Nat)
  | sigma (v : K)
  | alpha (v : K)
  | rho (v : K)
  | epsAbs (v : K)
  | epsRel (v : K)
  | verbose (b : Bool)
  | resize (n neq nin : Nat)
  /-- lines 189-208 of `solve`; `again`: an update of the matrices made the external solver initialise again. -/
  | solve (again : Bool)

/-- `SolverOSQP::SolverOSQP` (`solver-osqp.cpp` 14-27). -/
def Osqp.init {K : Type} (dflt initial : OsqpOpts K) : Osqp K := ⟨0, 0, 0, initial, dflt, none⟩

/-- Initial settings (`solver-osqp.cpp` 20-25, `solver-HQP-base.cpp` 18). -/
def Osqp.initial {K : Type} [DivisionRing K] : OsqpOpts K :=
  ⟨1000, 1 / 10 ^ 6, 16 / 10, 1 / 10, 1 / 10 ^ 5, 0, false⟩

/-- `SolverOSQP::setMaximumIterations` (`solver-osqp.cpp` 265-269); the result is `true`. -/
def Osqp.setMaximumIterations {K : Type} (s : Osqp K) (k : Nat) : Osqp K :=
  { s with
    kept := { s.kept with maxIter := if k = 0 then s.kept.maxIter else k }
    engine := { s.engine with maxIter := k } }

/-- `SolverOSQP::setSigma` (`solver-osqp.cpp` 271-274). -/
def Osqp.setSigma {K : Type} (s : Osqp K) (v : K) : Osqp K :=
  { s with
    kept := { s.kept with sigma := v }
    engine := { s.engine with sigma := v } }

/-- `SolverOSQP::setAlpha` (`solver-osqp.cpp` 275-278). -/
def Osqp.setAlpha {K : Type} (s : Osqp K) (v : K) : Osqp K :=
  { s with
    kept := { s.kept with alpha := v }
    engine := { s.engine with alpha := v } }

/-- `SolverOSQP::setRho` (`solver-osqp.cpp` 280-283). -/
def Osqp.setRho {K : Type} (s : Osqp K) (v : K) : Osqp K :=
  { s with
    kept := { s.kept with rho := v }
    engine := { s.engine with rho := v } }

/-- `SolverOSQP::setEpsilonAbsolute` (`solver-osqp.cpp` 284-287). -/
def Osqp.setEpsAbs {K : Type} (s : Osqp K) (v : K) : Osqp K :=
  { s with
    kept := { s.kept with epsAbs := v }
    engine := { s.engine with epsAbs := v } }

/-- `SolverOSQP::setEpsilonRelative` (`solver-osqp.cpp` 288-291). -/
def Osqp.setEpsRel {K : Type} (s : Osqp K) (v : K) : Osqp K :=
  { s with
    kept := { s.kept with epsRel := v }
    engine := { s.engine with epsRel := v } }

/-- `SolverOSQP::setVerbose` (`solver-osqp.cpp` 292-295). -/
def Osqp.setVerbose {K : Type} (s : Osqp K) (b : Bool) : Osqp K :=
  { s with
    kept := { s.kept with verbose := b }
    engine := { s.engine with verbose := b } }

/-- `SolverOSQP::resize` (`solver-osqp.cpp` 48-93), the part on settings; `clearSolver` (72-77) drops the copy. -/
def Osqp.resize {K : Type} (ndebug : Bool) (s : Osqp K) (n neq nin : Nat) : Osqp K :=
  let changed := n ≠ s.n ∨ neq ≠ s.neq ∨ nin ≠ s.nin
  let s := { s with
    n := n
    neq := neq
    nin := nin }
  if changed then
    let s := { s with work := none }
    let s := if ndebug then s else s.setVerbose true
    let s := s.setMaximumIterations s.kept.maxIter
    let s := s.setSigma s.kept.sigma
    let s := s.setAlpha s.kept.alpha
    let s := s.setRho s.kept.rho
    let s := s.setEpsAbs s.kept.epsAbs
    let s := s.setEpsRel s.kept.epsRel
    s.setVerbose s.kept.verbose
  else s

/-- `if (!m_solver.isInitialized()) m_solver.initSolver();` (`solver-osqp.cpp` 205-207), or the external solver
initialises itself again in an update. -/
def Osqp.solve {K : Type} (s : Osqp K) (again : Bool) : Osqp K :=
  if s.work.isNone = true ∨ again = true then { s with work := some s.engine } else s

/-- One call. -/
def Osqp.step {K : Type} (ndebug : Bool) (s : Osqp K) : OsqpOp K → Osqp K
  | .maxIter k => s.setMaximumIterations k
  | .sigma v => s.setSigma v
  | .alpha v => s.setAlpha v
  | .rho v => s.setRho v
  | .epsAbs v => s.setEpsAbs v
  | .epsRel v => s.setEpsRel v
  | .verbose b => s.setVerbose b
  | .resize n neq nin => s.resize ndebug n neq nin
  | .solve again => s.solve again

/-- `SolverHQPBase::getMaximumIterations` (`solver-HQP-base.hpp` 70). -/
def Osqp.getMaximumIterations {K : Type} (s : Osqp K) : Nat := s.kept.maxIter

end Tsid.Settings

namespace Tsid.Status

/-! ## Statuses -/

/-- `HQPStatus` (`include/tsid/solvers/fwd.hpp` 61-68). -/
inductive HQPStatus
  | unknown
  | optimal
  | infeasible
  | unbounded
  | maxIterReached
  | error
  deriving DecidableEq

/-- Value returned by `solve_quadprog` of eiquadprog, as far as `==` sees it. -/
inductive ObjValue
  | finite
  | plusInfinity
  | minusInfinity
  | nan
  deriving DecidableEq

/-- Return codes of eiquadprog-fast (and, under other names, of eiquadprog-rt). -/
inductive FastCode
  | optimal
  | infeasible
  | unbounded
  | maxIterReached
  | redundantEqualities
  deriving DecidableEq

/-- Return codes of ProxQP; `other`: any code not named in the code modelled. -/
inductive ProxCode
  | solved
  | primalInfeasible
  | maxIterReached
  | dualInfeasible
  | other (k : Nat)
  deriving DecidableEq

/-- Return codes of OSQP; `other`: any code not named in the code modelled. -/
inductive OsqpCode
  | solved
  | primalInfeasible
  | maxIterReached
  | dualInfeasible
  | solvedInaccurate
  | other (k : Nat)
  deriving DecidableEq

/-- Return codes of qpmad. -/
inductive MadCode
  | ok
  | other (k : Nat)
  deriving DecidableEq

/-- `solver-HQP-eiquadprog.cpp` 228-231; the second argument is the status of the previous call. -/
def eiq (v : ObjValue) (_old : HQPStatus) : HQPStatus := if v = .plusInfinity then .infeasible else .optimal

/-- `solver-HQP-eiquadprog-fast.cpp` 172-215, `solver-HQP-eiquadprog-rt.hxx` 160-202. -/
def fast (c : FastCode) (old : HQPStatus) : HQPStatus :=
  if c = .optimal then .optimal
  else if c = .unbounded then .infeasible
  else if c = .maxIterReached then .maxIterReached
  else if c = .redundantEqualities then .error
  else old

/-- `solver-proxqp.cpp` 184-226. -/
def prox (c : ProxCode) (old : HQPStatus) : HQPStatus :=
  if c = .solved then .optimal
  else if c = .primalInfeasible then .infeasible
  else if c = .maxIterReached then .maxIterReached
  else if c = .dualInfeasible then .infeasible
  else old

/-- `solver-osqp.cpp` 213-258. -/
def osqp (c : OsqpCode) (_old : HQPStatus) : HQPStatus :=
  if c = .solved then .optimal
  else if c = .primalInfeasible then .infeasible
  else if c = .maxIterReached then .maxIterReached
  else if c = .dualInfeasible then .infeasible
  else if c = .solvedInaccurate then .maxIterReached
  else .unknown

/-- `solver-HQP-qpmad.cpp` 155-158. -/
def mad (c : MadCode) (_old : HQPStatus) : HQPStatus := if c ≠ .ok then .infeasible else .optimal

/-- `m_output.status` after a sequence of calls of `solve`; `none`: the call threw before the external solver ran
(`retrieveQPData`), and left the status as it was. -/
def after {C : Type} (f : C → HQPStatus → HQPStatus) (s : HQPStatus) : List (Option C) → HQPStatus
  | [] => s
  | none :: l => after f s l
  | some c :: l => after f (f c s) l

end Tsid.Status

namespace Tsid.Factory

/-! ## Factory -/

/-- Preprocessor symbols of the build (`include/tsid/solvers/fwd.hpp` 40-55). -/
structure Build where
  qpmad : Bool
  proxsuite : Bool
  osqp : Bool
  qpoases : Bool

/-- Names of `SolverHQP` (`include/tsid/solvers/fwd.hpp` 36-56). -/
inductive SolverType
  | eiquadprog
  | eiquadprogFast
  | eiquadprogRt
  | qpmad
  | proxqp
  | osqp
  | oases
  deriving DecidableEq

/-- Classes of the solvers. -/
inductive SolverClass
  | SolverHQuadProg
  | SolverHQuadProgFast
  | SolverHQuadProgRT (nVars nEqCon nIneqCon : Nat)
  | SolverHQpmad
  | SolverProxQP
  | SolverOSQP
  deriving DecidableEq

/-- Is the name declared in the build (`include/tsid/solvers/fwd.hpp` 36-56)? -/
def declared (b : Build) : SolverType → Bool
  | .eiquadprog | .eiquadprogFast | .eiquadprogRt => true
  | .qpmad => b.qpmad
  | .proxqp => b.proxsuite
  | .osqp => b.osqp
  | .oases => b.qpoases

/-- With `QPOASES_FOUND`, `solver-HQP-factory.cpp` 21-23 and 47-49 refer to a header that does not exist and to a name
that is not declared. -/
def compiles (b : Build) : Bool := !b.qpoases

/-- `SolverHQPFactory::createNewSolver` (`solver-HQP-factory.cpp` 28-53): class of the object, `none` for the
exception. -/
def createNewSolver (b : Build) (t : SolverType) : Option SolverClass :=
  if t = .eiquadprog then some .SolverHQuadProg
  else if t = .eiquadprogFast then some .SolverHQuadProgFast
  else if b.qpmad = true ∧ t = .qpmad then some .SolverHQpmad
  else if b.proxsuite = true ∧ t = .proxqp then some .SolverProxQP
  else if b.osqp = true ∧ t = .osqp then some .SolverOSQP
  else none

/-- `SolverHQPFactory::createNewSolver<nVars, nEqCon, nIneqCon>` (`solver-HQP-factory.hxx` 27-35). -/
def createNewSolverRt (nVars nEqCon nIneqCon : Nat) (t : SolverType) : Option SolverClass :=
  if t = .eiquadprogRt then some (.SolverHQuadProgRT nVars nEqCon nIneqCon) else none

end Tsid.Factory
