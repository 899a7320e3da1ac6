import Verif.Model.Basic

/-!
# Matrix files and special values

Templates of `/repo/include/tsid/math/utils.hpp` 124-176: `isFinite`, `is_nan`, `writeMatrixToFile`,
`readMatrixFromFile`.

Files are lists of bytes.  A matrix is its sizes and the bytes of its coefficients in memory order; `Index` has eight bytes
in little-endian order, a scalar `sz` bytes.  Nothing in the repository instantiates the two file templates: `data()` is
modelled as the one of the matrix type behind `MatrixBase`; `resize` is called on a `MatrixBase`, i.e. it is
`DenseBase::resize`, which asserts that the sizes do not change and does nothing.
-/

namespace Tsid

/-- A byte. -/
abbrev Byte := Fin 256

/-- Bytes of an integer of `k` bytes in memory. -/
def toBytes : Nat → Nat → List Byte
  | 0, _ => []
  | k + 1, n => ⟨n % 256, Nat.mod_lt _ (by decide)⟩ :: toBytes k (n / 256)

/-- The integer with the given bytes in memory. -/
def ofBytes : List Byte → Nat
  | [] => 0
  | b :: l => b.val + 256 * ofBytes l

/-- A matrix of scalars in memory. -/
structure MemMat where
  rows : Nat
  cols : Nat
  data : List Byte
deriving DecidableEq

/-- `std::ifstream`: bytes left and `failbit`. -/
structure InStream where
  rest : List Byte
  failed : Bool

/-- `in.read(buf, n)`: fills the buffer; at the end of the file the bytes that are left are stored and the stream fails;
a failed stream stores nothing.  The result is the content of the buffer. -/
def InStream.read (s : InStream) (buf : List Byte) : List Byte × InStream :=
  if s.failed = true then (buf, s)
  else if buf.length ≤ s.rest.length then (s.rest.take buf.length, ⟨s.rest.drop buf.length, false⟩)
  else (s.rest ++ buf.drop s.rest.length, ⟨[], true⟩)

/-- `writeMatrixToFile`: `utils.hpp` 137-152.  `canOpen` tells whether the file can be opened, `written` how many bytes
reach the disk (failures of `write` and `close` are not looked at).  The result is the content of the file, if it was
opened, and the returned value. -/
def writeMatrixToFile (canOpen : Bool) (written : Nat) (M : MemMat) : Option (List Byte) × Bool :=
  if canOpen = true then (some ((toBytes 8 M.rows ++ toBytes 8 M.cols ++ M.data).take written), true)
  else (none, false)

/-- `readMatrixFromFile`: `utils.hpp` 157-176; `file` is `none` if it cannot be opened, the state is the matrix. -/
def readMatrixFromFile (file : Option (List Byte)) (M : MemMat) : Res MemMat Bool :=
  match file with
  | none => .ok M false
  | some bytes =>
    let r1 := InStream.read ⟨bytes, false⟩ (toBytes 8 0)
    let r2 := r1.2.read (toBytes 8 0)
    if ofBytes r1.1 = M.rows ∧ ofBytes r2.1 = M.cols then
      .ok { M with data := (r2.2.read M.data).1 } true
    else .ub

/-- A floating-point value: finite, infinite or not a number. -/
inductive FP (K : Type) where
  | fin (x : K)
  | inf (neg : Bool)
  | nan
deriving DecidableEq

namespace FP
variable {K : Type}

/-- IEEE subtraction; overflow of finite operands does not matter here (`x - x` only). -/
def sub [Sub K] : FP K → FP K → FP K
  | fin x, fin y => fin (x - y)
  | fin _, inf b => inf (!b)
  | inf a, fin _ => inf a
  | inf a, inf b => if a = b then nan else inf a
  | _, _ => nan

/-- IEEE equality. -/
def eq [DecidableEq K] : FP K → FP K → Bool
  | fin x, fin y => x = y
  | inf a, inf b => a = b
  | _, _ => false

end FP

/-- All coefficients of a matrix pass a test: `(…).all()`. -/
def Mat.allEntries {α : Type} (A : Mat α) (p : α → Bool) : Bool :=
  (List.range A.rows).all fun i => (List.range A.cols).all fun j => p (A i j)

/-- `isFinite(x)`: `utils.hpp` 124-127. -/
def isFiniteMat {K : Type} [Sub K] [DecidableEq K] (A : Mat (FP K)) : Bool :=
  A.allEntries fun x => (x.sub x).eq (x.sub x)

/-- `is_nan(x)`: `utils.hpp` 129-132. -/
def isNanMat {K : Type} [DecidableEq K] (A : Mat (FP K)) : Bool := A.allEntries fun x => x.eq x

end Tsid
