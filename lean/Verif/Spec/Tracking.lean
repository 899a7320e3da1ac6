import Mathlib.Analysis.SpecialFunctions.Exp
import Mathlib.Analysis.Calculus.Deriv.Basic

/-!
# Motions in continuous time and vanishing errors
-/

namespace Tsid.Spec

open Set Filter

/-- `v` is the derivative of `x` from time 0 on. -/
def Flows (x v : ℝ → ℝ) : Prop := ∀ t, 0 ≤ t → HasDerivWithinAt x (v t) (Ici 0) t

/-- A guaranteed rate of decay of a damped oscillator with stiffness `kp` and damping `kd`. -/
noncomputable def rate (kp kd : ℝ) : ℝ := 2 / 3 * (kp * kd / (2 * kp + kd ^ 2))

/-- The error `e` and its derivative `de` decay exponentially, hence tend to zero. -/
def Vanishes (kp kd : ℝ) (e de : ℝ → ℝ) : Prop :=
  (∀ t, 0 ≤ t → kp * e t ^ 2 + de t ^ 2 ≤ 3 * (kp * e 0 ^ 2 + de 0 ^ 2) * Real.exp (-rate kp kd * t)) ∧
  Tendsto e atTop (nhds 0) ∧ Tendsto de atTop (nhds 0)

end Tsid.Spec
