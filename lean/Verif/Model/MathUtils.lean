import Verif.Model.Basic

/-!
# Linear-algebra helpers

`/repo/src/math/utils.cpp` 43-189: damped solutions, pseudo-inverses and bases of null spaces from a singular value
decomposition.  `Eigen::JacobiSVD::compute` is external: a parameter `svd` that maps a matrix and the computation options
to a decomposition; theorems assume the contract `Spec.IsSvd` of the decomposition it returns.  Divisions are those of
the field: division by zero (NaN or infinity in `double`) is excluded by the hypotheses of the theorems.
-/

namespace Tsid

open Finset

/-- `computationOptions` of `JacobiSVD::compute`, the four bits tsid can pass. -/
structure SvdOptions where
  fullU : Bool
  thinU : Bool
  fullV : Bool
  thinV : Bool
deriving DecidableEq

/-- `computationOptions == 0`. -/
def SvdOptions.none? (o : SvdOptions) : Bool := !(o.fullU || o.thinU || o.fullV || o.thinV)

/-- `Eigen::JacobiSVD`: `matrixU()`, `matrixV()`, `singularValues()`, `nonzeroSingularValues()`, `rows()`, `cols()`. -/
structure SvdData (K : Type) where
  rows : Nat
  cols : Nat
  options : SvdOptions
  U : Mat K
  V : Mat K
  sv : Vec K
  nonzero : Nat

namespace SvdData

/-- `matrixU()` and `matrixV()` may be called (they assert that the matrices were computed). -/
def hasUV {K : Type} (d : SvdData K) : Bool :=
  (d.options.fullU || d.options.thinU) && (d.options.fullV || d.options.thinV)

end SvdData

namespace MathUtils
variable {K : Type} [Field K] [LinearOrder K]

/-- `solveWithDampingFromSvd(svd, b, sol, damping)`: `utils.cpp` 43-59.  `sol` is an `Eigen::Ref`, it cannot be
resized. -/
def solveWithDampingFromSvd (d : SvdData K) (b sol : Vec K) (damping : K) : Res (Vec K) Unit :=
  if d.rows ≠ b.size then .abort
  else if d.hasUV = true ∧ d.nonzero ≤ d.U.cols ∧ d.nonzero ≤ d.V.cols ∧ d.nonzero ≤ d.sv.size ∧
      d.U.rows = b.size ∧ sol.size = d.V.rows then
    let d2 := damping * damping
    let tmp : Nat → K := fun l => ∑ i ∈ range b.size, d.U i l * b i
    let tmp' : Nat → K := fun l => tmp l * (d.sv l / (d.sv l * d.sv l + d2))
    .ok ⟨sol.size, fun j => ∑ l ∈ range d.nonzero, d.V j l * tmp' l⟩ ()
  else .ub

/-- `svdSolveWithDamping(A, b, sol, damping)`: `utils.cpp` 61-68. -/
def svdSolveWithDamping (svd : Mat K → SvdOptions → SvdData K) (A : Mat K) (b sol : Vec K) (damping : K) :
    Res (Vec K) Unit :=
  if A.rows ≠ b.size then .abort
  else solveWithDampingFromSvd (svd A ⟨false, true, false, true⟩) b sol damping

/-- `nullSpaceBasisFromDecomposition(svd, int rank, double* basis, rows, cols)`: `utils.cpp` 179-189.  `cap` is the
number of `double`s the caller allocated; the result is the matrix written, with `rows` and `cols`. -/
def nullSpaceBasis (d : SvdData K) (rank : Int) (cap : Nat) : Res Unit (Mat K) :=
  if (d.options.fullV || d.options.thinV) = true ∧ 0 ≤ rank ∧ rank ≤ d.V.cols ∧ d.V.rows = d.V.cols ∧
      d.V.cols * (d.V.cols - rank.toNat) ≤ cap then
    .ok () ⟨d.V.cols, d.V.cols - rank.toNat, fun i j => d.V i (rank.toNat + j)⟩
  else .ub

/-- The rank counted by `nullSpaceBasisFromDecomposition` and `pseudoInverse`: singular values above a positive
tolerance (`utils.cpp` 102-110 and 169-174). -/
def rankAbove (d : SvdData K) (tol : K) : Nat :=
  ((range d.sv.size).filter fun l => 0 < tol ∧ tol < d.sv l).card

/-- `nullSpaceBasisFromDecomposition(svd, double tolerance, …)`: `utils.cpp` 163-177. -/
def nullSpaceBasisTol (d : SvdData K) (tol : K) (cap : Nat) : Res Unit (Mat K) :=
  nullSpaceBasis d (rankAbove d tol) cap

/-- The product `V.leftCols(k) * t.asDiagonal() * U.leftCols(k).adjoint()` assigned to the `Eigen::Ref` `Apinv`
(`utils.cpp` 113-115 and 151-153). -/
def assemblePinv (d : SvdData K) (t : Nat → K) (Apinv : Mat K) : Res (Mat K) Unit :=
  if d.hasUV = true ∧ d.sv.size ≤ d.U.cols ∧ d.sv.size ≤ d.V.cols ∧ Apinv.rows = d.V.rows ∧ Apinv.cols = d.U.rows then
    .ok ⟨Apinv.rows, Apinv.cols, fun i j => ∑ l ∈ range d.sv.size, d.V i l * t l * d.U j l⟩ ()
  else .ub

/-- `pseudoInverse(A, svd, Apinv, tolerance, nullSpaceBasis, rows, cols, options)`: `utils.cpp` 88-122; the state is
`Apinv`, `buffer` the capacity of `nullSpaceBasisOfA` (`none` for a null pointer).  The overloads of lines 70-86 pass a
null pointer. -/
def pseudoInverse (svd : Mat K → SvdOptions → SvdData K) (A : Mat K) (tol : K) (buffer : Option Nat) (o : SvdOptions)
    (Apinv : Mat K) : Res (Mat K) (Option (Mat K)) :=
  if o.none? = true then .ok Apinv none
  else
    let d := svd A o
    match assemblePinv d (fun l => if 0 < tol ∧ tol < d.sv l then 1 / d.sv l else 0) Apinv with
    | .ok X _ =>
      match buffer with
      | some cap =>
        if o.fullV = true then
          match nullSpaceBasis d (rankAbove d tol) cap with
          | .ok _ N => .ok X (some N)
          | _ => .ub
        else .ok X none
      | none => .ok X none
    | _ => .ub

/-- `dampedPseudoInverse(A, svd, Apinv, tolerance, damping, options, nullSpaceBasis, rows, cols)`: `utils.cpp`
124-161.  The rank counts the singular values above the tolerance, whatever its sign. -/
def dampedPseudoInverse (svd : Mat K → SvdOptions → SvdData K) (A : Mat K) (tol damping : K) (buffer : Option Nat)
    (o : SvdOptions) (Apinv : Mat K) : Res (Mat K) (Option (Mat K)) :=
  if o.none? = true then .ok Apinv none
  else
    let d := svd A o
    let d2 := damping * damping
    let rank := ((range d.sv.size).filter fun l => tol < d.sv l).card
    match assemblePinv d (fun l => d.sv l / (d.sv l * d.sv l + d2)) Apinv with
    | .ok X _ =>
      match buffer with
      | some cap =>
        if o.fullV = true then
          match nullSpaceBasis d rank cap with
          | .ok _ N => .ok X (some N)
          | _ => .ub
        else .ok X none
      | none => .ok X none
    | _ => .ub

end MathUtils

end Tsid
