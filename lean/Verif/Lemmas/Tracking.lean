import Mathlib.Analysis.Calculus.Deriv.MeanValue
import Mathlib.Analysis.SpecialFunctions.ExpDeriv
import Mathlib.Analysis.SpecialFunctions.Exp
import Verif.Spec.Tracking

/-!
# Damped oscillators and first-order lags
-/

namespace Tsid

open Set Filter Spec

/-- A function whose derivative is at most `-l` times itself decays exponentially. -/
theorem exp_decay {W W' : ℝ → ℝ} {l : ℝ} (hd : ∀ t, 0 ≤ t → HasDerivWithinAt W (W' t) (Ici 0) t)
    (hl : ∀ t, 0 ≤ t → W' t ≤ -l * W t) {t : ℝ} (ht : 0 ≤ t) : W t ≤ W 0 * Real.exp (-l * t) := by
  have hG : ∀ t, 0 ≤ t → HasDerivWithinAt (fun t => W t * Real.exp (l * t))
      (W' t * Real.exp (l * t) + W t * (Real.exp (l * t) * l)) (Ici 0) t := by
    intro t ht
    have h1 : HasDerivAt (fun t => Real.exp (l * t)) (Real.exp (l * t) * l) t := by
      have := ((hasDerivAt_id t).const_mul l).exp
      simpa using this
    exact (hd t ht).mul h1.hasDerivWithinAt
  have hanti : AntitoneOn (fun t => W t * Real.exp (l * t)) (Ici 0) := by
    refine antitoneOn_of_deriv_nonpos (convex_Ici 0) (fun t ht => (hG t ht).continuousWithinAt) ?_ ?_
    · intro t ht
      rw [interior_Ici] at ht
      exact ((hG t ht.le).hasDerivAt (Ici_mem_nhds ht)).differentiableAt.differentiableWithinAt
    · intro t ht
      rw [interior_Ici] at ht
      rw [((hG t ht.le).hasDerivAt (Ici_mem_nhds ht)).deriv]
      have h1 := hl t ht.le
      have h2 : 0 < Real.exp (l * t) := Real.exp_pos _
      nlinarith [mul_le_mul_of_nonneg_right h1 h2.le]
  have h := hanti (mem_Ici.2 (le_refl 0)) (mem_Ici.2 ht) ht
  simp only [mul_zero, Real.exp_zero, mul_one] at h
  have h2 : 0 < Real.exp (-l * t) := Real.exp_pos _
  have h3 := mul_le_mul_of_nonneg_right h h2.le
  rwa [mul_assoc, ← Real.exp_add, show l * t + -l * t = 0 by ring, Real.exp_zero, mul_one] at h3

theorem rate_pos {kp kd : ℝ} (hp : 0 < kp) (hd : 0 < kd) : 0 < rate kp kd := by
  unfold rate; positivity

/-- Positions and velocities of a damped oscillator decay exponentially. -/
theorem oscillator_decay {kp kd : ℝ} (hp : 0 < kp) (hd : 0 < kd) {e v a : ℝ → ℝ}
    (h1 : ∀ t, 0 ≤ t → HasDerivWithinAt e (v t) (Ici 0) t) (h2 : ∀ t, 0 ≤ t → HasDerivWithinAt v (a t) (Ici 0) t)
    (ha : ∀ t, 0 ≤ t → a t = -kp * e t - kd * v t) {t : ℝ} (ht : 0 ≤ t) :
    kp * e t ^ 2 + v t ^ 2 ≤ 3 * (kp * e 0 ^ 2 + v 0 ^ 2) * Real.exp (-rate kp kd * t) := by
  obtain ⟨ε, hε⟩ : ∃ ε, ε = kp * kd / (2 * kp + kd ^ 2) := ⟨_, rfl⟩
  have hr : rate kp kd = 2 / 3 * ε := by rw [hε]; rfl
  have hden : 0 < 2 * kp + kd ^ 2 := by positivity
  have hε0 : 0 < ε := by rw [hε]; positivity
  have hmul : ε * (2 * kp + kd ^ 2) = kp * kd := by rw [hε]; field_simp
  have hεd : 2 * ε ≤ kd := by
    by_contra hc
    push Not at hc
    nlinarith [mul_pos hε0 (sq_pos_of_pos hd), mul_pos hp (sub_pos.2 hc)]
  have hεp : 4 * ε ^ 2 ≤ kp := by
    have hx : 4 * (kp * kd) ^ 2 ≤ kp * (2 * kp + kd ^ 2) ^ 2 := by
      have := mul_nonneg hp.le (sq_nonneg (2 * kp - kd ^ 2))
      nlinarith [mul_pos (mul_pos hp hp) (sq_pos_of_pos hd)]
    rw [← hmul] at hx
    have h3 : (4 * ε ^ 2) * (2 * kp + kd ^ 2) ^ 2 ≤ kp * (2 * kp + kd ^ 2) ^ 2 := by nlinarith
    exact le_of_mul_le_mul_right h3 (by positivity)
  have hW : ∀ t, 0 ≤ t → HasDerivWithinAt (fun t => v t ^ 2 / 2 + kp * e t ^ 2 / 2 + ε * (e t * v t))
      (v t * a t + kp * (e t * v t) + ε * (v t * v t + e t * a t)) (Ici 0) t := by
    intro t ht
    have d1 : HasDerivWithinAt (fun t => v t ^ 2 / 2) (v t * a t) (Ici 0) t := by
      have := ((h2 t ht).mul (h2 t ht)).div_const 2
      refine (this.congr_deriv (by ring)).congr_of_eventuallyEq (Eventually.of_forall fun t => ?_) ?_ <;>
        simp only [Pi.mul_apply] <;> ring
    have d2 : HasDerivWithinAt (fun t => kp * e t ^ 2 / 2) (kp * (e t * v t)) (Ici 0) t := by
      have := (((h1 t ht).mul (h1 t ht)).const_mul kp).div_const 2
      refine (this.congr_deriv (by ring)).congr_of_eventuallyEq (Eventually.of_forall fun t => ?_) ?_ <;>
        simp only [Pi.mul_apply] <;> ring
    have d3 : HasDerivWithinAt (fun t => ε * (e t * v t)) (ε * (v t * v t + e t * a t)) (Ici 0) t :=
      ((h1 t ht).mul (h2 t ht)).const_mul ε
    exact (d1.add d2).add d3
  have hlow : ∀ x y : ℝ, (kp * x ^ 2 + y ^ 2) / 4 ≤ y ^ 2 / 2 + kp * x ^ 2 / 2 + ε * (x * y) := by
    intro x y
    nlinarith [sq_nonneg (y + 2 * ε * x), mul_le_mul_of_nonneg_right hεp (sq_nonneg x)]
  have hupp : ∀ x y : ℝ, y ^ 2 / 2 + kp * x ^ 2 / 2 + ε * (x * y) ≤ 3 / 4 * (kp * x ^ 2 + y ^ 2) := by
    intro x y
    nlinarith [sq_nonneg (y - 2 * ε * x), mul_le_mul_of_nonneg_right hεp (sq_nonneg x)]
  have hdec := exp_decay (l := rate kp kd) hW (fun t ht => by
    show _ ≤ -rate kp kd * (v t ^ 2 / 2 + kp * e t ^ 2 / 2 + ε * (e t * v t))
    rw [ha t ht, hr]
    have h3 := hupp (e t) (v t)
    have h4 := mul_le_mul_of_nonneg_left h3 hε0.le
    have h5 : 0 ≤ ε * (kp * e t + kd * v t) ^ 2 := mul_nonneg hε0.le (sq_nonneg _)
    have h6 : v t * (-kp * e t - kd * v t) + kp * (e t * v t) + ε * (v t * v t + e t * (-kp * e t - kd * v t)) ≤
        -(ε / 2) * (kp * e t ^ 2 + v t ^ 2) := by
      -- multiply by 2 kp
      have h7 : 0 ≤ 2 * kp * (-(ε / 2) * (kp * e t ^ 2 + v t ^ 2) -
          (v t * (-kp * e t - kd * v t) + kp * (e t * v t) + ε * (v t * v t + e t * (-kp * e t - kd * v t)))) := by
        have e1 : 2 * kp * (-(ε / 2) * (kp * e t ^ 2 + v t ^ 2) -
          (v t * (-kp * e t - kd * v t) + kp * (e t * v t) + ε * (v t * v t + e t * (-kp * e t - kd * v t)))) =
          ε * (kp * e t + kd * v t) ^ 2 + (2 * kp * kd - 3 * kp * ε - ε * kd ^ 2) * v t ^ 2 := by ring
        rw [e1]
        have h8 : 0 ≤ 2 * kp * kd - 3 * kp * ε - ε * kd ^ 2 := by nlinarith [mul_le_mul_of_nonneg_left hεd hp.le]
        positivity
      by_contra hc
      push Not at hc
      nlinarith
    linarith) ht
  have h3 := hlow (e t) (v t)
  have h4 := hupp (e 0) (v 0)
  have h5 : 0 < Real.exp (-rate kp kd * t) := Real.exp_pos _
  have h6 := mul_le_mul_of_nonneg_right h4 h5.le
  nlinarith

/-- The error of a first-order lag. -/
theorem lag_decay {kp : ℝ} {e d : ℝ → ℝ} (h1 : ∀ t, 0 ≤ t → HasDerivWithinAt e (d t) (Ici 0) t)
    (ha : ∀ t, 0 ≤ t → d t = -kp * e t) {t : ℝ} (ht : 0 ≤ t) : e t = e 0 * Real.exp (-kp * t) := by
  apply le_antisymm
  · exact exp_decay h1 (fun t ht => (ha t ht).le) ht
  · have := exp_decay (W := fun t => -e t) (W' := fun t => -d t) (l := kp) (fun t ht => (h1 t ht).neg)
      (fun t ht => by rw [ha t ht]; linarith) ht
    linarith

/-- A bound that decays exponentially forces the limit zero. -/
theorem tendsto_of_decay {e : ℝ → ℝ} {kp C l : ℝ} (hp : 0 < kp) (hl : 0 < l)
    (h : ∀ t, 0 ≤ t → kp * e t ^ 2 ≤ C * Real.exp (-l * t)) : Tendsto e atTop (nhds 0) := by
  have h1 : Tendsto (fun t => C / kp * Real.exp (-l * t)) atTop (nhds 0) := by
    have : Tendsto (fun t : ℝ => Real.exp (-l * t)) atTop (nhds 0) := by
      refine Real.tendsto_exp_atBot.comp ?_
      exact tendsto_id.const_mul_atTop_of_neg (by linarith)
    simpa using this.const_mul (C / kp)
  have h2 : Tendsto (fun t => e t ^ 2) atTop (nhds 0) := by
    refine squeeze_zero' (Eventually.of_forall fun t => sq_nonneg _) ?_ h1
    filter_upwards [eventually_ge_atTop 0] with t ht
    have := h t ht
    rw [div_mul_eq_mul_div, le_div_iff₀ hp]
    linarith
  have h3 : Tendsto (fun t => |e t|) atTop (nhds 0) := by
    have := h2.sqrt
    simpa [Real.sqrt_sq_eq_abs] using this
  exact (tendsto_zero_iff_abs_tendsto_zero _).2 h3

/-- An error that obeys a PD law vanishes. -/
theorem vanishes {kp kd : ℝ} (hp : 0 < kp) (hd : 0 < kd) {e v a : ℝ → ℝ} (h1 : Flows e v) (h2 : Flows v a)
    (ha : ∀ t, 0 ≤ t → a t = -kp * e t - kd * v t) : Vanishes kp kd e v := by
  have hdec : ∀ t, 0 ≤ t → kp * e t ^ 2 + v t ^ 2 ≤ 3 * (kp * e 0 ^ 2 + v 0 ^ 2) * Real.exp (-rate kp kd * t) :=
    fun t ht => oscillator_decay hp hd h1 h2 ha ht
  refine ⟨hdec, tendsto_of_decay (C := 3 * (kp * e 0 ^ 2 + v 0 ^ 2)) hp (rate_pos hp hd) fun t ht => ?_,
    tendsto_of_decay (C := 3 * (kp * e 0 ^ 2 + v 0 ^ 2)) one_pos (rate_pos hp hd) fun t ht => ?_⟩
  · exact le_trans (by nlinarith [sq_nonneg (v t)]) (hdec t ht)
  · exact le_trans (by nlinarith [mul_nonneg hp.le (sq_nonneg (e t))]) (hdec t ht)

end Tsid
