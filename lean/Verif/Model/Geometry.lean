import Mathlib.Algebra.Order.Field.Basic
import Mathlib.Tactic.Ring
import Verif.Model.Sqrt

/-!
# Small fixed-size vectors

`Eigen::Vector3d`, 3x3 matrices, and the pinocchio types `SE3` and `Motion` used by contacts and tasks
(`/repo/include/tsid/math/fwd.hpp` 27-29).  Only their algebra is modelled.
-/

namespace Tsid

/-- `Eigen::Vector3d`. -/
@[ext] structure V3 (K : Type) where
  x : K
  y : K
  z : K
deriving DecidableEq, Repr

namespace V3
variable {K : Type}

/-- Coefficient access `v(i)`. -/
def get [Zero K] (v : V3 K) (i : Nat) : K :=
  match i with
  | 0 => v.x
  | 1 => v.y
  | 2 => v.z
  | _ => 0

/-- Vector with the coefficients `f 0, f 1, f 2`. -/
def ofFn (f : Nat → K) : V3 K := ⟨f 0, f 1, f 2⟩

section
variable [Field K]
instance : Zero (V3 K) := ⟨⟨0, 0, 0⟩⟩
instance : Add (V3 K) := ⟨fun a b => ⟨a.x + b.x, a.y + b.y, a.z + b.z⟩⟩
instance : Sub (V3 K) := ⟨fun a b => ⟨a.x - b.x, a.y - b.y, a.z - b.z⟩⟩
instance : Neg (V3 K) := ⟨fun a => ⟨-a.x, -a.y, -a.z⟩⟩

/-- Product by a scalar. -/
def smul (c : K) (a : V3 K) : V3 K := ⟨c * a.x, c * a.y, c * a.z⟩

/-- `a.dot(b)`. -/
def dot (a b : V3 K) : K := a.x * b.x + a.y * b.y + a.z * b.z

/-- `a.cross(b)`. -/
def cross (a b : V3 K) : V3 K :=
  ⟨a.y * b.z - a.z * b.y, a.z * b.x - a.x * b.z, a.x * b.y - a.y * b.x⟩

/-- `Vector3::UnitX()`. -/
def unitX : V3 K := ⟨1, 0, 0⟩

/-- `Vector3::UnitY()`. -/
def unitY : V3 K := ⟨0, 1, 0⟩

/-- `a.norm()`. -/
def norm [HasSqrt K] (a : V3 K) : K := sqrt (dot a a)

/-- `a.normalize()`: Eigen divides by the norm when the squared norm is positive and leaves a zero
vector alone. -/
def normalized [LinearOrder K] [HasSqrt K] (a : V3 K) : V3 K :=
  if 0 < dot a a then ⟨a.x / norm a, a.y / norm a, a.z / norm a⟩ else a
end

end V3

/-- 3x3 matrix given by its columns (Eigen stores matrices column by column). -/
@[ext] structure M3 (K : Type) where
  c0 : V3 K
  c1 : V3 K
  c2 : V3 K
deriving DecidableEq, Repr

namespace M3
variable {K : Type}

/-- Coefficient access `M(i,j)`. -/
def get [Zero K] (m : M3 K) (i j : Nat) : K :=
  match j with
  | 0 => m.c0.get i
  | 1 => m.c1.get i
  | 2 => m.c2.get i
  | _ => 0

section
variable [Field K]

/-- Matrix-vector product. -/
def mulVec (m : M3 K) (v : V3 K) : V3 K :=
  ⟨m.c0.x * v.x + m.c1.x * v.y + m.c2.x * v.z,
   m.c0.y * v.x + m.c1.y * v.y + m.c2.y * v.z,
   m.c0.z * v.x + m.c1.z * v.y + m.c2.z * v.z⟩

/-- Transposed matrix. -/
def transpose (m : M3 K) : M3 K :=
  ⟨⟨m.c0.x, m.c1.x, m.c2.x⟩, ⟨m.c0.y, m.c1.y, m.c2.y⟩, ⟨m.c0.z, m.c1.z, m.c2.z⟩⟩

/-- Matrix product. -/
def mul (a b : M3 K) : M3 K := ⟨a.mulVec b.c0, a.mulVec b.c1, a.mulVec b.c2⟩

/-- Identity matrix. -/
def one : M3 K := ⟨⟨1, 0, 0⟩, ⟨0, 1, 0⟩, ⟨0, 0, 1⟩⟩

/-- `pinocchio::skew(v)`: the matrix of `v × ·`. -/
def skew (v : V3 K) : M3 K := ⟨⟨0, v.z, -v.y⟩, ⟨-v.z, 0, v.x⟩, ⟨v.y, -v.x, 0⟩⟩

/-- Rotation matrices: orthogonal with determinant one is what pinocchio maintains; only the
orthogonality is needed here. -/
def Orthogonal (m : M3 K) : Prop := mul (transpose m) m = one ∧ mul m (transpose m) = one
end

end M3

/-- `pinocchio::Motion`: linear and angular part. -/
@[ext] structure Motion (K : Type) where
  lin : V3 K
  ang : V3 K
deriving DecidableEq, Repr

namespace Motion
variable {K : Type}

/-- Coefficient `i` of `toVector()`: linear part first. -/
def get [Zero K] (m : Motion K) (i : Nat) : K :=
  if i < 3 then m.lin.get i else m.ang.get (i - 3)

section
variable [Field K]
instance : Zero (Motion K) := ⟨⟨0, 0⟩⟩
instance : Add (Motion K) := ⟨fun a b => ⟨a.lin + b.lin, a.ang + b.ang⟩⟩
instance : Sub (Motion K) := ⟨fun a b => ⟨a.lin - b.lin, a.ang - b.ang⟩⟩
instance : Neg (Motion K) := ⟨fun a => ⟨-a.lin, -a.ang⟩⟩
end

end Motion

/-- `pinocchio::SE3`: rotation and translation. -/
@[ext] structure SE3 (K : Type) where
  rot : M3 K
  trans : V3 K
deriving DecidableEq, Repr

namespace SE3
variable {K : Type} [Field K]

/-- `M.act(m)` on a `Motion`: rotate both parts and add `t × (R ω)` to the linear part
(pinocchio `SE3::act`). -/
def act (M : SE3 K) (m : Motion K) : Motion K :=
  ⟨M.rot.mulVec m.lin + M.trans.cross (M.rot.mulVec m.ang), M.rot.mulVec m.ang⟩

/-- `M.actInv(m)` on a `Motion` (pinocchio `SE3::actInv`). -/
def actInv (M : SE3 K) (m : Motion K) : Motion K :=
  ⟨M.rot.transpose.mulVec (m.lin - M.trans.cross m.ang), M.rot.transpose.mulVec m.ang⟩

/-- `M.act(p)` on a point. -/
def actPoint (M : SE3 K) (p : V3 K) : V3 K := M.rot.mulVec p + M.trans

/-- `M.actInv(N)` on a placement: `M⁻¹ N`. -/
def actInvSE3 (M N : SE3 K) : SE3 K :=
  ⟨M.rot.transpose.mul N.rot, M.rot.transpose.mulVec (N.trans - M.trans)⟩

end SE3

end Tsid
