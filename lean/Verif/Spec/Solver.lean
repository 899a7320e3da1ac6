import Verif.Model.Solver
import Verif.Spec.Constraint

/-!
# What a quadratic program means

Feasibility and cost of a two-level problem, and of the data in the conventions of the external solvers.
-/

namespace Tsid.Spec

open Finset

variable {K : Type} [Field K]

/-- The constraints of a level are well formed, and have `n` variables. -/
def LevelOK (n : Nat) (l : Level K) : Prop := ∀ q ∈ l, WellFormed q.2 ∧ q.2.cols = n

/-- The constraints of a level are equalities. -/
def AllEq (l : Level K) : Prop := ∀ q ∈ l, q.2.kind = .equality

/-- Is there a bound among the constraints? -/
def hasBound (l : Level K) : Prop := ∃ q ∈ l, q.2.kind = .bound

/-- Problems that the back-ends are meant for: one or two levels, the first not empty, with constraints of `n`
variables, and equalities only in the second. -/
def Admissible (n : Nat) (l0 : Level K) (l1 : Option (Level K)) : Prop :=
  l0 ≠ [] ∧ LevelOK n l0 ∧ ∀ l, l1 = some l → AllEq l ∧ LevelOK n l

/-- eiquadprog: `CE x + ce0 = 0`, `CI x + ci0 >= 0` (`solver-HQP-eiquadprog.cpp` 219-222). -/
def EiqSat [LE K] (r : Solver.EiqRows K) (x : Nat → K) : Prop :=
  (∀ i, i < r.CE.rows → row r.CE x i + r.ce0 i = 0) ∧ ∀ i, i < r.CI.rows → 0 ≤ row r.CI x i + r.ci0 i

/-- ProxQP: `A x = b`, `l <= C x <= u`. -/
def ProxSat [LE K] (r : Solver.ProxRows K) (x : Nat → K) : Prop :=
  (∀ i, i < r.CE.rows → row r.CE x i = r.ce0 i) ∧
    ∀ i, i < r.CI.rows → r.lb i ≤ row r.CI x i ∧ row r.CI x i ≤ r.ub i

/-- OSQP: `l <= A x <= u`. -/
def OsqpSat [LE K] (r : Solver.OsqpRows K) (x : Nat → K) : Prop :=
  ∀ i, i < r.CI.rows → r.lb i ≤ row r.CI x i ∧ row r.CI x i ≤ r.ub i

/-- qpmad: `cl <= C x <= cu`, and `lb <= x <= ub` if the bounds are passed. -/
def MadSat [LE K] (r : Solver.MadRows K) (x : Nat → K) : Prop :=
  (∀ i, i < r.C.rows → r.cl i ≤ row r.C x i ∧ row r.C x i ≤ r.cu i) ∧
    (r.hasBounds = true → ∀ i, i < r.lb.size → r.lb i ≤ x i ∧ x i ≤ r.ub i)

/-- The same data for eiquadprog. -/
def EiqSame (r t : Solver.EiqRows K) : Prop :=
  r.CE.Same t.CE ∧ r.ce0.Same t.ce0 ∧ r.CI.Same t.CI ∧ r.ci0.Same t.ci0

/-- The same data for ProxQP. -/
def ProxSame (r t : Solver.ProxRows K) : Prop :=
  r.CE.Same t.CE ∧ r.ce0.Same t.ce0 ∧ r.CI.Same t.CI ∧ r.lb.Same t.lb ∧ r.ub.Same t.ub

/-- The same data for OSQP. -/
def OsqpSame (r t : Solver.OsqpRows K) : Prop := r.CI.Same t.CI ∧ r.lb.Same t.lb ∧ r.ub.Same t.ub

/-- The same data for qpmad; the bounds are not passed when there are none. -/
def MadSame (r t : Solver.MadRows K) : Prop :=
  r.C.Same t.C ∧ r.cl.Same t.cl ∧ r.cu.Same t.cu ∧ r.hasBounds = t.hasBounds ∧
    (r.hasBounds = true → r.lb.Same t.lb ∧ r.ub.Same t.ub)

/-- Objective of a quadratic program: `1/2 x' H x + g' x`. -/
def qpCost (H : Mat K) (g : Vec K) (x : Nat → K) : K :=
  1 / 2 * ∑ i ∈ range H.rows, x i * row H x i + ∑ i ∈ range g.size, g i * x i

/-- Quadratic form of a square matrix. -/
def quad (H : Mat K) (x : Nat → K) : K := ∑ i ∈ range H.rows, x i * row H x i

/-- Squared norm of the residual of an equality. -/
def sqResidual (c : Constraint K) (x : Nat → K) : K := ∑ k ∈ range c.mat.rows, residual c x k * residual c x k

/-- Weighted least-squares cost of a level: half the weighted sum of the squared residuals. -/
def lsqCost (l : Level K) (x : Nat → K) : K := 1 / 2 * (l.map fun q => q.1 * sqResidual q.2 x).sum

/-- Squared norm of the right-hand sides, the constant that a quadratic program drops. -/
def dropped (l : Level K) : K := lsqCost l fun _ => 0

/-- Squared norm of the first `n` entries. -/
def sqNorm (n : Nat) (x : Nat → K) : K := ∑ i ∈ range n, x i * x i

/-- A point of a set at which the objective is minimal. -/
def Optimal [LE K] (S : (Nat → K) → Prop) (f : (Nat → K) → K) (x : Nat → K) : Prop := S x ∧ ∀ y, S y → f x ≤ f y

/-- What a user can do with the data of a back-end: `retrieveQPData`, also as a part of `solve`, and `resize`; `fresh`
is the content of new memory. -/
inductive SolverCall (K : Type) where
  | retrieve (fresh : Nat → Nat → K) (p : HQPData K) (reg : Bool)
  | resize (fresh : Nat → Nat → K) (n neq nin : Nat)

/-- One call. -/
def SolverCall.run {R : Type} (B : Solver.Backend K R) (ndebug : Bool) (s : Solver.State K R) :
    SolverCall K → Res (Solver.State K R) Unit
  | .retrieve fresh p reg => Solver.retrieve B fresh ndebug s p reg
  | .resize fresh n neq nin => B.resize fresh ndebug s n neq nin

/-- States of a back-end after a history of calls, exceptions being caught by the caller. -/
def retrieves {R : Type} (B : Solver.Backend K R) (ndebug : Bool) :
    Solver.State K R → List (SolverCall K) → Option (Solver.State K R)
  | s, [] => some s
  | s, c :: h => match (c.run B ndebug s).state? with
    | some s' => retrieves B ndebug s' h
    | none => none

/-- Objective meant by level 1: weighted least squares plus the regularisation. -/
def target (n : Nat) (reg : Bool) (l : Level K) (x : Nat → K) : K :=
  lsqCost l x + if reg then 1 / 2 * (Solver.defaultReg * sqNorm n x) else 0

/-- However an object of a back-end was used before, the cost that it assembles is the one meant by level 1, up to a
constant. -/
def AssemblesCost {R : Type} (B : Solver.Backend K R) (ndebug : Bool) (s0 : Solver.State K R) : Prop :=
  ∀ hist s fresh reg l0 l1 s', retrieves B ndebug s0 hist = some s →
    Solver.retrieve B fresh ndebug s [l0, l1] reg = .ok s' () →
    s'.H.rows = s'.n ∧ s'.H.cols = s'.n ∧ s'.g.size = s'.n ∧
    ∃ k, ∀ x, qpCost s'.H s'.g x = target s'.n (B.reg reg) l1 x + k

/-- Positive definite on the first `n` entries. -/
def PosDef [LT K] (n : Nat) (H : Mat K) : Prop := ∀ x : Nat → K, (∃ i, i < n ∧ x i ≠ 0) → 0 < quad H x

end Tsid.Spec
