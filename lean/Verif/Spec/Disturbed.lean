import Verif.Spec.ControlLoop
import Mathlib.Algebra.BigOperators.Group.Finset.Basic
import Mathlib.Data.Real.Basic

/-!
# Motions that are not quite as prescribed

The robot is not accelerated exactly as the solution says, or not uniformly; references are not piecewise quadratic.
-/

namespace Tsid.Spec

open Finset

/-- Position `x` and velocity `v` at the beginning of the periods of length `h` differ at the end of period `n` by at most
`δ n` from what the constant acceleration `a n` would give. -/
def Disturbed (h : ℝ) (δ x v a : ℕ → ℝ) : Prop :=
  ∀ n, |x (n + 1) - (x n + h * v n + h ^ 2 / 2 * a n)| ≤ δ n ∧ |v (n + 1) - (v n + h * a n)| ≤ δ n

/-- The same for a quantity with rate `d n` in period `n`. -/
def DisturbedRate (h : ℝ) (δ x d : ℕ → ℝ) : Prop := ∀ n, |x (n + 1) - (x n + h * d n)| ≤ δ n

/-- What is left of the quantities `f` after `n` periods if in every period everything shrinks by the factor `r`. -/
noncomputable def faded (r : ℝ) (f : ℕ → ℝ) (n : ℕ) : ℝ := ∑ k ∈ range n, r ^ (n - 1 - k) * f k

/-- The error `e` and its rate `de`: the initial error dies out, and disturbances `δ` are forgotten, geometrically. -/
def Forgets (C r G : ℝ) (δ e de : ℕ → ℝ) : Prop :=
  ∀ n, e n ^ 2 + de n ^ 2 ≤ C * (e 0 ^ 2 + de 0 ^ 2) * r ^ n + G * faded r (fun k => δ k ^ 2) n

end Tsid.Spec
