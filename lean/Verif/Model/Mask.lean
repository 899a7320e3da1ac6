import Mathlib.Algebra.Order.Floor.Ring
import Mathlib.Data.Rat.Floor
import Verif.Model.Constraint

/-!
# Masks of the joint-space tasks

`TaskJointPosture::setMask` (`/repo/src/tasks/task-joint-posture.cpp` 34-54),
`TaskJointPosVelAccBounds::setMask` (`/repo/src/tasks/task-joint-posVelAcc-bounds.cpp` 104-123),
`TaskActuationBounds::mask` (`/repo/src/tasks/task-actuation-bounds.cpp` 23-42) and
`TaskActuationEquality::mask` (`/repo/src/tasks/task-actuation-equality.cpp` 24-49) are four copies of the same loop;
they differ in the number of columns, the column offset and the value written.  They share one transcription here.
-/

namespace Tsid

open Finset

/-- A history of calls: every call starts in the state the previous one left behind; exceptions are caught by the
caller and the state left behind by the exception is used further. `none`: the program ended. -/
def runOps {σ op α : Type} (step : σ → op → Res σ α) : σ → List op → Option σ
  | s, [] => some s
  | s, o :: os =>
    match (step s o).state? with
    | none => none
    | some s' => runOps step s' os

/-- `static_cast<Vector::Index>(x)`, `(int)x` for a `double`: rounds towards zero.  (Values that do not fit the
integer type are undefined behaviour in C++; not modelled.) -/
def trunc {K : Type} [Field K] [LinearOrder K] [FloorRing K] (x : K) : Int := if 0 ≤ x then ⌊x⌋ else ⌈x⌉

/-- `m.sum()`. -/
def Vec.sum {K : Type} [AddCommMonoid K] (v : Vec K) : K := ∑ i ∈ range v.size, v i

/-- `S(r, c) = x`; the caller checks the indices. -/
def Mat.set {K : Type} (S : Mat K) (r c : Nat) (x : K) : Mat K :=
  ⟨S.rows, S.cols, fun i j => if i = r ∧ j = c then x else S i j⟩

/-- The members `m_mask`, `m_activeAxes`, `m_constraint` (e.g. `task-joint-posture.hpp` 72-80).
An entry `none` of `axes` is uninitialised memory. -/
structure Masked (K : Type) where
  mask : Vec K
  axes : List (Option Nat)
  con : Constraint K

/-- `VectorXi::resize(n)`: keeps the contents when the size does not change, otherwise the new memory is not
initialised. -/
def resizeAxes (axes : List (Option Nat)) (n : Nat) : List (Option Nat) :=
  if axes.length = n then axes else List.replicate n none

/-- The loop over the entries of the mask (`task-joint-posture.cpp` 43-51): the remaining indices, the matrix `S`, the
active axes and the counter `j`.  Writing row `j` of a matrix with fewer rows is undefined behaviour; an entry other
than 0 and 1 throws and leaves the axes written so far. -/
def maskLoop {K : Type} [Zero K] [One K] [DecidableEq K] (m : Vec K) (off : Nat) (w : Nat → K) :
    List Nat → Mat K → List (Option Nat) → Nat → Res (List (Option Nat)) (Mat K)
  | [], S, axes, _ => .ok axes S
  | i :: is, S, axes, j =>
    if m i = 0 then maskLoop m off w is S axes j
    else if m i = 1 then
      if j < S.rows ∧ off + i < S.cols then
        maskLoop m off w is (S.set j (off + i) (w i)) (axes.set j (some i)) (j + 1)
      else .ub
    else .throw axes

namespace Masked
variable {K : Type} [Field K] [LinearOrder K] [FloorRing K]

/-- `setMask(m)`: `task-joint-posture.cpp` 34-54.  `na` is the required size, `cols` the number of columns of the
constraint, `off` the column of the first joint, `w` the value written for a joint (1 except in
`TaskActuationEquality`).  The members are modified in the order of the code: the mask and the axes before the
entries are checked, the constraint at the end (`resize` sets the vector or the bounds to zero). -/
def setMask (na cols off : Nat) (w : Nat → K) (s : Masked K) (m : Vec K) : Res (Masked K) Unit :=
  if m.size = na then
    let dim := trunc m.sum
    if dim < 0 then .ub
    else
      match maskLoop m off w (List.range m.size) (Mat.zero dim.toNat cols) (resizeAxes s.axes dim.toNat) 0 with
      | .throw axes => .throw { s with mask := m, axes := axes }
      | .ok axes S =>
        match s.con.resize dim.toNat cols with
        | .ok c _ =>
          match c.setMatrix S with
          | .ok c' _ => .ok ⟨m, axes, c'⟩ ()
          | .throw c' => .throw ⟨m, axes, c'⟩
          | _ => .ub
        | .throw c => .throw ⟨m, axes, c⟩
        | _ => .ub
      | _ => .ub
  else .throw s

/-- `dim()`: `task-joint-posture.cpp` 56, `task-actuation-bounds.cpp` 44, `task-actuation-equality.cpp` 51. -/
def dim (s : Masked K) : Int := trunc s.mask.sum

end Masked

/-- The loops `for i: m_constraint.vector()(i) = a(m_activeAxes(i))` (e.g. `task-joint-posture.cpp` 136-137), which
write distinct entries; `na` is the size of `a`.  `none`: an index out of range, or an uninitialised axis. -/
def fillVec {K : Type} (na : Nat) (a : Nat → K) (axes : List (Option Nat)) (v : Vec K) : Option (Vec K) :=
  if axes.length ≤ v.size ∧ axes.all (fun o => match o with | some i => decide (i < na) | none => false) = true then
    some ⟨v.size, fun k => match axes[k]? with | some (some i) => a i | _ => v k⟩
  else none

end Tsid
