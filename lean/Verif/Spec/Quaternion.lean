import Verif.Model.Quaternion
import Verif.Spec.Poses
import Mathlib.Algebra.Quaternion

/-!
# Rotations and quaternions
-/

namespace Tsid.Spec

variable {K : Type} [Field K]

open scoped Quaternion

/-- The vector `v` as an imaginary quaternion. -/
def imaginary (v : V3 K) : ℍ[K] := ⟨0, v.x, v.y, v.z⟩

/-- The quaternion whose imaginary part is in the entries 3, 4, 5 of `x`, and whose real part is in entry 6. -/
def quatOf (x : Nat → K) : ℍ[K] := ⟨x 6, x 3, x 4, x 5⟩

/-- The unit quaternion `q` stands for the rotation `R`: conjugation by `q` is `R`. -/
def Represents (q : ℍ[K]) (R : M3 K) : Prop :=
  q * star q = 1 ∧ ∀ v : V3 K, q * imaginary v * star q = imaginary (R.mulVec v)

end Tsid.Spec
