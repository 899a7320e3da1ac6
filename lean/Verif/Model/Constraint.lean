import Verif.Model.Basic
import Verif.Model.Sqrt

/-!
# Constraints

Model of `ConstraintBase`, `ConstraintEquality`, `ConstraintInequality`, `ConstraintBound`
(`/repo/src/math/constraint-{base,equality,inequality,bound}.cpp` and headers).
-/

namespace Tsid

open Finset

/-- The three concrete constraint classes
(`/repo/include/tsid/math/constraint-{equality,inequality,bound}.hpp`). -/
inductive Kind where
  | equality
  | inequality
  | bound
deriving DecidableEq, Repr

/-- A constraint object.  `vec` is `m_b` of `ConstraintEquality`; `lb`, `ub` are `m_lb`, `m_ub` of
`ConstraintInequality` and `ConstraintBound`; the fields a class does not have are never read for it
(`/repo/include/tsid/math/constraint-base.hpp` 70-73, `constraint-equality.hpp`, ...). -/
structure Constraint (K : Type) where
  name : String
  kind : Kind
  mat : Mat K
  vec : Vec K
  lb : Vec K
  ub : Vec K

namespace Constraint
variable {K : Type}

/-- `rows()`: `constraint-equality.cpp` 38-41, `constraint-inequality.cpp` 30-34 (rows of the matrix),
`constraint-bound.cpp` 29-32 (rows of the lower bound). -/
def rows (c : Constraint K) : Nat :=
  match c.kind with
  | .bound => c.lb.size
  | _ => c.mat.rows

/-- `cols()`: `constraint-equality.cpp` 43-45, `constraint-inequality.cpp` 36-38,
`constraint-bound.cpp` 34-37. -/
def cols (c : Constraint K) : Nat :=
  match c.kind with
  | .bound => c.lb.size
  | _ => c.mat.cols

/-- Default value of unused vectors. -/
def noVec [Zero K] : Vec K := Vec.zero 0

/-- `ConstraintEquality(name, rows, cols)`: `constraint-equality.cpp` 26-29,
`constraint-base.cpp` 13-15 (`m_A` is set to zero). -/
def mkEq [Zero K] (name : String) (r c : Nat) : Constraint K :=
  ⟨name, .equality, Mat.zero r c, Vec.zero r, noVec, noVec⟩

/-- `ConstraintInequality(name, rows, cols)`: `constraint-inequality.cpp` 13-18. -/
def mkIneq [Zero K] (name : String) (r c : Nat) : Constraint K :=
  ⟨name, .inequality, Mat.zero r c, noVec, Vec.zero r, Vec.zero r⟩

/-- `ConstraintBound(name, size)`: `constraint-bound.cpp` 13-17. -/
def mkBound [Zero K] [One K] (name : String) (n : Nat) : Constraint K :=
  ⟨name, .bound, Mat.identity n, noVec, Vec.zero n, Vec.zero n⟩

/-- `ConstraintEquality(name, A, b)`: `constraint-equality.cpp` 31-36; throws when the rows differ. -/
def newEq [Zero K] (name : String) (A : Mat K) (b : Vec K) : Option (Constraint K) :=
  if A.rows = b.size then some ⟨name, .equality, A, b, noVec, noVec⟩ else none

/-- `ConstraintInequality(name, A, lb, ub)`: `constraint-inequality.cpp` 20-28. -/
def newIneq [Zero K] (name : String) (A : Mat K) (lb ub : Vec K) : Option (Constraint K) :=
  if A.rows = lb.size then
    if A.rows = ub.size then some ⟨name, .inequality, A, noVec, lb, ub⟩ else none
  else none

/-- `ConstraintBound(name, lb, ub)`: `constraint-bound.cpp` 19-27. -/
def newBound [Zero K] [One K] (name : String) (lb ub : Vec K) : Option (Constraint K) :=
  if lb.size = ub.size then some ⟨name, .bound, Mat.identity lb.size, noVec, lb, ub⟩ else none

/-- `resize(r, c)`: `constraint-equality.cpp` 47-50, `constraint-inequality.cpp` 40-44,
`constraint-bound.cpp` 39-44 (throws when `r ≠ c`, before any modification). -/
def resize [Zero K] [One K] (s : Constraint K) (r c : Nat) : Res (Constraint K) Unit :=
  match s.kind with
  | .equality => .ok { s with mat := Mat.zero r c, vec := Vec.zero r } ()
  | .inequality => .ok { s with mat := Mat.zero r c, lb := Vec.zero r, ub := Vec.zero r } ()
  | .bound =>
    if r = c then .ok { s with mat := Mat.identity r, lb := Vec.zero r, ub := Vec.zero r } ()
    else .throw s

/-- `setMatrix(A)`: `constraint-base.cpp` 26-33; throws on a size mismatch, before any modification. -/
def setMatrix (s : Constraint K) (A : Mat K) : Res (Constraint K) Bool :=
  if s.mat.cols = A.cols then
    if s.mat.rows = A.rows then .ok { s with mat := A } true else .throw s
  else .throw s

/-- `setVector(b)`: `constraint-equality.cpp` 76-79; on the two other classes `assert(false)` and
`return false` (`constraint-inequality.cpp` 64-67, `constraint-bound.cpp` 64-67).
`ndebug` is the build flag. -/
def setVector (ndebug : Bool) (s : Constraint K) (b : Vec K) : Res (Constraint K) Bool :=
  match s.kind with
  | .equality => .ok { s with vec := b } true
  | _ => if ndebug then .ok s false else .abort

/-- `setLowerBound(lb)`: `constraint-inequality.cpp` 68-71, `constraint-bound.cpp` 68-71,
`constraint-equality.cpp` 80-83. -/
def setLowerBound (ndebug : Bool) (s : Constraint K) (lb : Vec K) : Res (Constraint K) Bool :=
  match s.kind with
  | .equality => if ndebug then .ok s false else .abort
  | _ => .ok { s with lb := lb } true

/-- `setUpperBound(ub)`: `constraint-inequality.cpp` 72-75, `constraint-bound.cpp` 72-75,
`constraint-equality.cpp` 84-87. -/
def setUpperBound (ndebug : Bool) (s : Constraint K) (ub : Vec K) : Res (Constraint K) Bool :=
  match s.kind with
  | .equality => if ndebug then .ok s false else .abort
  | _ => .ok { s with ub := ub } true

/-- Euclidean norm of a vector (`Eigen::norm`). -/
def norm [NonUnitalNonAssocSemiring K] [HasSqrt K] (v : Vec K) : K :=
  sqrt (∑ i ∈ range v.size, v i * v i)

/-- `checkConstraint(x, tol)`: `constraint-equality.cpp` 89-91, `constraint-inequality.cpp` 77-80,
`constraint-bound.cpp` 77-80 (which looks at `x` itself, not at the matrix).
Eigen requires `x.size() == cols()`. -/
def checkConstraint [Field K] [LinearOrder K] [HasSqrt K] (c : Constraint K) (x : Vec K) (tol : K) :
    Bool :=
  match c.kind with
  | .equality => decide (norm ((c.mat.mulVec x).sub c.vec) < tol)
  | .inequality =>
    (List.range c.mat.rows).all (fun i => decide ((c.mat.mulVec x) i ≤ c.ub i + tol)) &&
    (List.range c.mat.rows).all (fun i => decide ((c.mat.mulVec x) i ≥ c.lb i - tol))
  | .bound =>
    (List.range x.size).all (fun i => decide (x i ≤ c.ub i + tol)) &&
    (List.range x.size).all (fun i => decide (x i ≥ c.lb i - tol))

end Constraint

end Tsid
