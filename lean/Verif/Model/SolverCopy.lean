import Verif.Model.Solver
import Verif.Model.SolverSettings

/-!
# Copies of a `SolverOSQP`

The copy constructor of `SolverOSQP` (`/repo/src/solvers/solver-osqp.cpp` 29-42).  It copies the sizes and its own
settings, but neither `m_qpData` nor `m_solver` nor the members of `SolverHQPBase` other than the name.  The other
back-ends have the copy constructor of the compiler, if any.
-/

namespace Tsid

/-- `SolverOSQP(const SolverOSQP& other)`: `solver-osqp.cpp` 32-34 (sizes); the matrices are empty. -/
def Solver.Osqp.copy {K : Type} [Zero K] (s : Solver.State K (Solver.OsqpRows K)) :
    Solver.State K (Solver.OsqpRows K) :=
  ⟨s.n, s.neq, s.nin, ⟨Mat.zero 0 0, Vec.zero 0, Vec.zero 0, 0⟩, Mat.zero 0 0, Vec.zero 0⟩

/-- `SolverOSQP(const SolverOSQP& other)`: `solver-osqp.cpp` 30-40 (settings), `solver-HQP-base.cpp` 16-21; the external
solver is new and has its own defaults. -/
def Settings.Osqp.copy {K : Type} (dflt : Settings.OsqpOpts K) (s : Settings.Osqp K) : Settings.Osqp K :=
  ⟨s.n, s.neq, s.nin, { s.kept with maxIter := 1000 }, dflt, none⟩

end Tsid
