import Verif.Model.SE3Utils

/-!
# Poses with quaternions

`SE3ToXYZQUAT` (`/repo/src/math/utils.cpp` 11-16).  The conversion of a rotation matrix into a quaternion is Eigen's
(`Eigen/src/Geometry/Quaternion.h`, `quaternionbase_assign_impl<Other,3,3>::run`); Eigen is not part of the
repository, so `Quat.ofRot` is written from its documented algorithm.
-/

namespace Tsid

/-- `Eigen::Quaterniond`; the order of the fields is that of `coeffs()`. -/
structure Quat (K : Type) where
  x : K
  y : K
  z : K
  w : K
deriving DecidableEq, Repr

namespace Quat
variable {K : Type} [Field K] [LinearOrder K] [HasSqrt K]

/-- The branch for a non-positive trace; `(i, j, k)` is `(0,1,2)`, `(1,2,0)` or `(2,0,1)`: the coefficients `i`, `j`,
`k` of the vector part, and `w`. -/
def largest (R : M3 K) (i j k : Nat) : K × K × K × K :=
  let r := sqrt (R.get i i - R.get j j - R.get k k + 1)
  let t := 1 / 2 / r
  (1 / 2 * r, (R.get j i + R.get i j) * t, (R.get k i + R.get i k) * t, (R.get k j - R.get j k) * t)

/-- Constructor from a matrix: the algorithm of Shoemake as Eigen implements it. -/
def ofRot (R : M3 K) : Quat K :=
  let tr := R.get 0 0 + R.get 1 1 + R.get 2 2
  if 0 < tr then
    let r := sqrt (tr + 1)
    let t := 1 / 2 / r
    ⟨(R.get 2 1 - R.get 1 2) * t, (R.get 0 2 - R.get 2 0) * t, (R.get 1 0 - R.get 0 1) * t, 1 / 2 * r⟩
  else
    let i := if R.get 0 0 < R.get 1 1 then 1 else 0
    let i := if R.get i i < R.get 2 2 then 2 else i
    match i with
    | 0 => let c := largest R 0 1 2; ⟨c.1, c.2.1, c.2.2.1, c.2.2.2⟩
    | 1 => let c := largest R 1 2 0; ⟨c.2.2.1, c.1, c.2.1, c.2.2.2⟩
    | _ => let c := largest R 2 0 1; ⟨c.2.1, c.2.2.1, c.1, c.2.2.2⟩

/-- `coeffs()`. -/
def coeff (q : Quat K) : Nat → K
  | 0 => q.x
  | 1 => q.y
  | 2 => q.z
  | _ => q.w

end Quat

/-- `SE3ToXYZQUAT(M, xyzQuat)`: `utils.cpp` 11-16; `none`: throws. -/
def SE3.toXYZQUAT {K : Type} [Field K] [LinearOrder K] [HasSqrt K] (M : SE3 K) (vec : Vec K) : Option (Vec K) :=
  if vec.size = 7 then some ⟨7, fun i => if i < 3 then M.trans.get i else (Quat.ofRot M.rot).coeff (i - 3)⟩ else none

end Tsid
