import Mathlib.Algebra.Order.Field.Basic
import Mathlib.Data.Rat.Sqrt
import Mathlib.Analysis.Real.Sqrt

/-!
# Square roots

`std::sqrt`, `.norm()` and `.normalize()` of the C++ code take the root from the class `HasSqrt`.
Theorems that need its algebra assume `LawfulSqrt`, which `ℝ` satisfies.  The rational instance is only
used to evaluate examples on perfect squares (there it is exact); it is *not* lawful.
-/

namespace Tsid

/-- A square-root function on the scalars (`std::sqrt`). -/
class HasSqrt (K : Type) where
  sqrt : K → K

export HasSqrt (sqrt)

/-- What `sqrt` must satisfy in exact arithmetic. -/
class LawfulSqrt (K : Type) [Field K] [LinearOrder K] [HasSqrt K] : Prop where
  sqrt_nonneg : ∀ x : K, 0 ≤ sqrt x
  sq_sqrt : ∀ x : K, 0 ≤ x → sqrt x * sqrt x = x

noncomputable instance : HasSqrt ℝ := ⟨Real.sqrt⟩

instance : LawfulSqrt ℝ where
  sqrt_nonneg := Real.sqrt_nonneg
  sq_sqrt := fun _ h => Real.mul_self_sqrt h

instance : HasSqrt ℚ := ⟨Rat.sqrt⟩

end Tsid
