import Verif.Model.Constraint

/-!
# What a constraint means

Mathematical meaning of the three kinds of constraints, as documented in
`/repo/include/tsid/math/constraint-base.hpp` 29-36: `A x = b`, `lb ≤ A x ≤ ub`, `lb ≤ x ≤ ub`.
-/

namespace Tsid.Spec

open Finset

variable {K : Type}

/-- Row `i` of `A x`. -/
def row [NonUnitalNonAssocSemiring K] (A : Mat K) (x : Nat → K) (i : Nat) : K :=
  ∑ j ∈ range A.cols, A i j * x j

/-- `x` satisfies the constraint exactly. -/
def Sat [NonUnitalNonAssocSemiring K] [LE K] (c : Constraint K) (x : Nat → K) : Prop :=
  match c.kind with
  | .equality => ∀ i, i < c.mat.rows → row c.mat x i = c.vec i
  | .inequality => ∀ i, i < c.mat.rows → c.lb i ≤ row c.mat x i ∧ row c.mat x i ≤ c.ub i
  | .bound => ∀ i, i < c.lb.size → c.lb i ≤ x i ∧ x i ≤ c.ub i

/-- `x` satisfies every constraint of a level, a list of weighted constraints. -/
def Feasible [NonUnitalNonAssocSemiring K] [LE K] (l : List (K × Constraint K)) (x : Nat → K) : Prop :=
  ∀ e ∈ l, Sat e.2 x

/-- Residual of row `i` of an equality. -/
def residual [Field K] (c : Constraint K) (x : Nat → K) (i : Nat) : K := row c.mat x i - c.vec i

/-- An entry `d` read at `x` says what `c` says at `y`: same feasibility, and same residuals for equalities. -/
def SaysSame [Field K] [LE K] (d : Constraint K) (x : Nat → K) (c : Constraint K) (y : Nat → K) : Prop :=
  (Sat d x ↔ Sat c y) ∧
  (c.kind = .equality → d.kind = .equality ∧ d.mat.rows = c.mat.rows ∧
    ∀ i, i < d.mat.rows → residual d x i = residual c y i)

/-- The sizes that belong together agree. -/
def WellFormed (c : Constraint K) : Prop :=
  match c.kind with
  | .equality => c.vec.size = c.mat.rows
  | .inequality => c.lb.size = c.mat.rows ∧ c.ub.size = c.mat.rows
  | .bound => c.lb.size = c.ub.size ∧ c.mat.rows = c.lb.size ∧ c.mat.cols = c.lb.size

end Tsid.Spec
