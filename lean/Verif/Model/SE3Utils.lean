import Verif.Model.Basic
import Verif.Model.Geometry

/-!
# Poses as vectors, pose errors

`SE3ToVector`, `vectorToSE3`, `errorInSE3` (`/repo/src/math/utils.cpp` 18-41).  pinocchio's logarithm `log3` of a
rotation is a parameter.
-/

namespace Tsid

namespace SE3
variable {K : Type} [Field K]

/-- pinocchio `SE3::inverse()`. -/
def inverse (M : SE3 K) : SE3 K := ⟨M.rot.transpose, -(M.rot.transpose.mulVec M.trans)⟩

/-- pinocchio product of two placements. -/
def mul (M N : SE3 K) : SE3 K := ⟨M.rot.mul N.rot, M.trans + M.rot.mulVec N.trans⟩

/-- `SE3::setIdentity()`. -/
def one : SE3 K := ⟨M3.one, 0⟩

/-- `SE3ToVector(M, vec)`: `utils.cpp` 18-24; `none`: throws.  The translation, then the nine coefficients of the
rotation in memory order, which is column by column. -/
def toVector (M : SE3 K) (vec : Vec K) : Option (Vec K) :=
  if vec.size = 12 then
    some ⟨12, fun i => if i < 3 then M.trans.get i else M.rot.get ((i - 3) % 3) ((i - 3) / 3)⟩
  else none

/-- The placement read from 12 coefficients: `utils.cpp` 29-31, `task-se3-equality.cpp` 84-85. -/
def ofCoeffs (f : Nat → K) : SE3 K :=
  ⟨⟨⟨f 3, f 4, f 5⟩, ⟨f 6, f 7, f 8⟩, ⟨f 9, f 10, f 11⟩⟩, ⟨f 0, f 1, f 2⟩⟩

/-- `vectorToSE3(vec, M)`: `utils.cpp` 26-32; `none`: throws. -/
def ofVector (vec : Vec K) : Option (SE3 K) := if vec.size = 12 then some (ofCoeffs vec.get) else none

/-- `errorInSE3(M, Mdes, error)`: `utils.cpp` 34-41. -/
def error (log3 : M3 K → V3 K) (M Mdes : SE3 K) : Motion K :=
  let E := M.inverse.mul Mdes
  ⟨E.trans, log3 E.rot⟩

end SE3

end Tsid
