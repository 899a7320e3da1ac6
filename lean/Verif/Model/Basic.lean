import Mathlib.Algebra.BigOperators.Group.Finset.Basic
import Mathlib.Algebra.BigOperators.Intervals
import Mathlib.Algebra.Order.Field.Basic
import Mathlib.Algebra.Field.Rat
import Mathlib.Algebra.Order.Ring.Rat

/-!
# Dynamic vectors and matrices, outcomes of operations

Eigen's `VectorXd` / `MatrixXd` (`/repo/include/tsid/math/fwd.hpp`, lines 28-46: `Vector`, `Matrix`,
`RefVector`, `ConstRefVector`, ...) are modelled by a size and an entry function over an arbitrary
scalar type `K`.  Entries outside the size carry no meaning: every theorem only speaks about entries
inside the size.  `double` is replaced by an arbitrary (ordered) field: rounding is not modelled.
-/

namespace Tsid

open Finset

/-- Outcome of a call on an object with state `σ`:
* `ok s a`   – normal return with new state and result,
* `throw s`  – `std::invalid_argument` thrown by `PINOCCHIO_CHECK_INPUT_ARGUMENT`, `s` is the state left behind,
* `abort`    – a failed `assert` in a build without `NDEBUG`,
* `ub`       – undefined behaviour (out-of-bounds access, Eigen size mismatch, bad cast). -/
inductive Res (σ α : Type) where
  | ok (s : σ) (a : α)
  | throw (s : σ)
  | abort
  | ub

namespace Res
variable {σ α : Type}

/-- The state after the call, if there is one. -/
def state? : Res σ α → Option σ
  | ok s _ => some s
  | throw s => some s
  | abort => none
  | ub => none

/-- The returned value, if the call returned normally. -/
def val? : Res σ α → Option α
  | ok _ a => some a
  | _ => none

/-- The call is undefined behaviour. -/
def isUB : Res σ α → Bool
  | ub => true
  | _ => false

/-- The call throws. -/
def isThrow : Res σ α → Bool
  | throw _ => true
  | _ => false

/-- The call hits a failing `assert`. -/
def isAbort : Res σ α → Bool
  | abort => true
  | _ => false

/-- The call returns normally. -/
def isOk : Res σ α → Bool
  | ok _ _ => true
  | _ => false

end Res

/-- Eigen `VectorXd`. -/
structure Vec (K : Type) where
  size : Nat
  get : Nat → K

instance (K : Type) : CoeFun (Vec K) (fun _ => Nat → K) := ⟨Vec.get⟩

/-- Eigen `MatrixXd`. -/
structure Mat (K : Type) where
  rows : Nat
  cols : Nat
  get : Nat → Nat → K

instance (K : Type) : CoeFun (Mat K) (fun _ => Nat → Nat → K) := ⟨Mat.get⟩

namespace Vec
variable {K : Type}

/-- Two vectors that Eigen cannot distinguish. -/
def Same (a b : Vec K) : Prop := a.size = b.size ∧ ∀ i, i < a.size → a i = b i

/-- Coefficient list of a vector (used by examples and to compare results). -/
def toList (a : Vec K) : List K := (List.range a.size).map a.get

/-- Vector from a list of coefficients. -/
def ofList [Zero K] (l : List K) : Vec K := ⟨l.length, fun i => l.getD i 0⟩

/-- `Vector::Zero(n)` / `setZero(n)`. -/
def zero [Zero K] (n : Nat) : Vec K := ⟨n, fun _ => 0⟩

/-- `v.head(n)`; Eigen requires `n ≤ v.size()`. -/
def head (v : Vec K) (n : Nat) : Vec K := ⟨n, v.get⟩

/-- `v.tail(n)`; Eigen requires `n ≤ v.size()`. -/
def tail (v : Vec K) (n : Nat) : Vec K := ⟨n, fun i => v (v.size - n + i)⟩

/-- `v.segment(i0, n)`; Eigen requires `i0 + n ≤ v.size()`. -/
def segment (v : Vec K) (i0 n : Nat) : Vec K := ⟨n, fun i => v (i0 + i)⟩

/-- Sum of two vectors of equal size. -/
def add [Add K] (a b : Vec K) : Vec K := ⟨a.size, fun i => a i + b i⟩

/-- Difference of two vectors of equal size. -/
def sub [Sub K] (a b : Vec K) : Vec K := ⟨a.size, fun i => a i - b i⟩

/-- Opposite vector. -/
def neg [Neg K] (a : Vec K) : Vec K := ⟨a.size, fun i => - a i⟩

/-- Product by a scalar. -/
def smul [Mul K] (c : K) (a : Vec K) : Vec K := ⟨a.size, fun i => c * a i⟩

/-- Dot product over the size of the first argument. -/
def dot [NonUnitalNonAssocSemiring K] (a b : Vec K) : K := ∑ i ∈ range a.size, a i * b i

end Vec

namespace Mat
variable {K : Type}

/-- Two matrices that Eigen cannot distinguish. -/
def Same (A B : Mat K) : Prop :=
  A.rows = B.rows ∧ A.cols = B.cols ∧ ∀ i j, i < A.rows → j < A.cols → A i j = B i j

/-- Rows of a matrix as lists (used by examples). -/
def toLists (A : Mat K) : List (List K) :=
  (List.range A.rows).map fun i => (List.range A.cols).map fun j => A i j

/-- Matrix from its rows. -/
def ofLists [Zero K] (c : Nat) (l : List (List K)) : Mat K :=
  ⟨l.length, c, fun i j => (l.getD i []).getD j 0⟩

/-- `Matrix::Zero(r,c)` / `setZero(r,c)`. -/
def zero [Zero K] (r c : Nat) : Mat K := ⟨r, c, fun _ _ => 0⟩

/-- `Matrix::Identity(n,n)`. -/
def identity [Zero K] [One K] (n : Nat) : Mat K := ⟨n, n, fun i j => if i = j then 1 else 0⟩

/-- `A.transpose()`. -/
def transpose (A : Mat K) : Mat K := ⟨A.cols, A.rows, fun i j => A j i⟩

/-- `-A`. -/
def neg [Neg K] (A : Mat K) : Mat K := ⟨A.rows, A.cols, fun i j => - A i j⟩

/-- Matrix product; Eigen requires `A.cols() == B.rows()`. -/
def mul [NonUnitalNonAssocSemiring K] (A B : Mat K) : Mat K :=
  ⟨A.rows, B.cols, fun i j => ∑ l ∈ range A.cols, A i l * B l j⟩

/-- Matrix-vector product; Eigen requires `A.cols() == x.size()`. -/
def mulVec [NonUnitalNonAssocSemiring K] (A : Mat K) (x : Vec K) : Vec K :=
  ⟨A.rows, fun i => ∑ j ∈ range A.cols, A i j * x j⟩

/-- `A.topRows(n)`. -/
def topRows (A : Mat K) (n : Nat) : Mat K := ⟨n, A.cols, A.get⟩

/-- `A.bottomRows(n)`. -/
def bottomRows (A : Mat K) (n : Nat) : Mat K := ⟨n, A.cols, fun i j => A (A.rows - n + i) j⟩

/-- `A.leftCols(n)`. -/
def leftCols (A : Mat K) (n : Nat) : Mat K := ⟨A.rows, n, A.get⟩

/-- `A.rightCols(n)`. -/
def rightCols (A : Mat K) (n : Nat) : Mat K := ⟨A.rows, n, fun i j => A i (A.cols - n + j)⟩

/-- `A.middleCols(j0, n) = B` (`leftCols`/`rightCols` are the cases `j0 = 0` and `j0 = cols - n`).
`none` when the sizes do not agree: Eigen's assertion fails, or memory outside the matrix is accessed. -/
def setCols (A : Mat K) (j0 n : Nat) (B : Mat K) : Option (Mat K) :=
  if B.rows = A.rows ∧ B.cols = n ∧ j0 + n ≤ A.cols then
    some ⟨A.rows, A.cols, fun i j => if j0 ≤ j ∧ j < j0 + n then B i (j - j0) else A i j⟩
  else none

/-- `A.middleRows(i0, n) = B`; `none` when the sizes do not agree. -/
def setRows (A : Mat K) (i0 n : Nat) (B : Mat K) : Option (Mat K) :=
  if B.rows = n ∧ B.cols = A.cols ∧ i0 + n ≤ A.rows then
    some ⟨A.rows, A.cols, fun i j => if i0 ≤ i ∧ i < i0 + n then B (i - i0) j else A i j⟩
  else none

end Mat

end Tsid
