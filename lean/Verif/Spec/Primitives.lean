import Mathlib.LinearAlgebra.Matrix.Notation
import Mathlib.LinearAlgebra.CrossProduct
import Mathlib.LinearAlgebra.Matrix.NonsingularInverse
import Verif.Model.Geometry

/-!
# The types of Mathlib that the model's small vectors and matrices stand for

Many specifications share the vector and matrix operations of the model.  Here they are related to Mathlib, so that
these operations are not taken on trust.
-/

namespace Tsid.Spec

open Matrix

variable {K : Type} [Field K]

/-- Three numbers as a vector of Mathlib. -/
def arr3 (v : V3 K) : Fin 3 → K := ![v.x, v.y, v.z]

/-- A 3x3 matrix as a matrix of Mathlib. -/
def arr33 (m : M3 K) : Matrix (Fin 3) (Fin 3) K :=
  !![m.c0.x, m.c1.x, m.c2.x; m.c0.y, m.c1.y, m.c2.y; m.c0.z, m.c1.z, m.c2.z]

/-- The homogeneous matrix of a placement. -/
def hom (M : SE3 K) : Matrix (Fin 4) (Fin 4) K :=
  !![M.rot.c0.x, M.rot.c1.x, M.rot.c2.x, M.trans.x;
     M.rot.c0.y, M.rot.c1.y, M.rot.c2.y, M.trans.y;
     M.rot.c0.z, M.rot.c1.z, M.rot.c2.z, M.trans.z;
     0, 0, 0, 1]

/-- The homogeneous coordinates of a point. -/
def homPoint (p : V3 K) : Fin 4 → K := ![p.x, p.y, p.z, 1]

/-- The matrix of a spatial velocity: the velocity of the point `p` is `ω × p + v`. -/
def twist (m : Motion K) : Matrix (Fin 4) (Fin 4) K :=
  !![0, -m.ang.z, m.ang.y, m.lin.x;
     m.ang.z, 0, -m.ang.x, m.lin.y;
     -m.ang.y, m.ang.x, 0, m.lin.z;
     0, 0, 0, 0]

end Tsid.Spec
