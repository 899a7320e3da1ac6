import Verif.Model.MathUtils
import Mathlib.Data.Matrix.Mul
import Mathlib.LinearAlgebra.Matrix.NonsingularInverse

/-!
# What the linear-algebra helpers promise

Contract of a singular value decomposition, the four Penrose conditions, regularised least squares and bases of null
spaces, stated with Mathlib's matrices.
-/

namespace Tsid.Spec

open Finset Matrix

variable {K : Type} [Field K] [LinearOrder K]

/-- The entries of a model matrix as a matrix of Mathlib. -/
def mathlibMat (m n : Nat) (A : Mat K) : Matrix (Fin m) (Fin n) K := Matrix.of fun i j => A i j

/-- The coefficients of a model vector as a vector of Mathlib. -/
def mathlibVec (n : Nat) (v : Vec K) : Fin n → K := fun i => v i

/-- The first `k` columns of `M` (with `r` rows) have length one and are orthogonal. -/
def OrthoCols (r k : Nat) (M : Mat K) : Prop :=
  ∀ a b, a < k → b < k → ∑ i ∈ range r, M i a * M i b = if a = b then 1 else 0

/-- Contract of `JacobiSVD`: sizes, orthonormal columns, non-negative singular values in decreasing order, the count of
those that are not zero, and the factorisation. -/
structure IsSvd (A : Mat K) (o : SvdOptions) (d : SvdData K) : Prop where
  rows : d.rows = A.rows
  cols : d.cols = A.cols
  options : d.options = o
  uRows : d.U.rows = A.rows
  vRows : d.V.rows = A.cols
  size : d.sv.size = min A.rows A.cols
  uCols : d.U.cols = if o.fullU = true then A.rows else min A.rows A.cols
  vCols : d.V.cols = if o.fullV = true then A.cols else min A.rows A.cols
  uOrth : OrthoCols A.rows d.U.cols d.U
  vOrth : OrthoCols A.cols d.V.cols d.V
  nonneg : ∀ l, l < d.sv.size → 0 ≤ d.sv l
  sorted : ∀ l l', l ≤ l' → l' < d.sv.size → d.sv l' ≤ d.sv l
  count : d.nonzero ≤ d.sv.size
  nonzero : ∀ l, l < d.sv.size → (l < d.nonzero ↔ d.sv l ≠ 0)
  factor : ∀ i j, i < A.rows → j < A.cols → A i j = ∑ l ∈ range d.sv.size, d.U i l * d.sv l * d.V j l

/-- The four Penrose conditions: `X` is the Moore-Penrose inverse of `A`. -/
structure Penrose {m n : Type} [Fintype m] [Fintype n] (A : Matrix m n K) (X : Matrix n m K) : Prop where
  axa : A * X * A = A
  xax : X * A * X = X
  ax : (A * X)ᵀ = A * X
  xa : (X * A)ᵀ = X * A

/-- The regularised residual `|A x - b|² + damping² |x|²`. -/
def regularised {m n : Type} [Fintype m] [Fintype n] (A : Matrix m n K) (b : m → K) (damping : K) (x : n → K) : K :=
  (A *ᵥ x - b) ⬝ᵥ (A *ᵥ x - b) + damping ^ 2 * (x ⬝ᵥ x)

/-- `x` is the unique minimiser of `f`. -/
def UniqueMin {X : Type} (f : X → K) (x : X) : Prop := ∀ y, f x ≤ f y ∧ (f y = f x → y = x)

/-- The columns of `N` are orthonormal and span the null space of `A`. -/
structure NullBasis {m n k : Type} [Fintype m] [Fintype n] [Fintype k] [DecidableEq k] (A : Matrix m n K)
    (N : Matrix n k K) : Prop where
  orth : Nᵀ * N = 1
  inside : A * N = 0
  span : ∀ x : n → K, A *ᵥ x = 0 → ∃ c : k → K, x = N *ᵥ c

/-- Only the singular values above `tol` are kept: the matrix that `pseudoInverse` inverts. -/
def truncated (A : Mat K) (d : SvdData K) (tol : K) : Mat K :=
  ⟨A.rows, A.cols, fun i j => ∑ l ∈ range d.sv.size, d.U i l * (if tol < d.sv l then d.sv l else 0) * d.V j l⟩

end Tsid.Spec
