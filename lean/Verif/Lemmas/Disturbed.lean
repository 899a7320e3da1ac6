import Verif.Spec.Disturbed
import Verif.Lemmas.Sampled

/-!
# Sampled second-order systems with disturbances
-/

namespace Tsid

open Filter Spec Finset

theorem faded_zero (r : ℝ) (f : ℕ → ℝ) : faded r f 0 = 0 := by simp [faded]

theorem faded_succ (r : ℝ) (f : ℕ → ℝ) (n : ℕ) : faded r f (n + 1) = r * faded r f n + f n := by
  unfold faded
  rw [sum_range_succ, mul_sum]
  congr 1
  · refine sum_congr rfl fun k hk => ?_
    have := mem_range.1 hk
    rw [show n + 1 - 1 - k = (n - 1 - k) + 1 by omega, pow_succ]; ring
  · simp

theorem faded_nonneg {r : ℝ} (hr : 0 ≤ r) {f : ℕ → ℝ} (hf : ∀ k, 0 ≤ f k) (n : ℕ) : 0 ≤ faded r f n :=
  sum_nonneg fun k _ => mul_nonneg (pow_nonneg hr _) (hf k)

/-- Bounded quantities leave a bounded rest. -/
theorem faded_le {r : ℝ} (hr : 0 ≤ r) (h1 : r < 1) {f : ℕ → ℝ} {B : ℝ} (hf : ∀ k, f k ≤ B) (hB : 0 ≤ B) (n : ℕ) :
    faded r f n ≤ B / (1 - r) := by
  have h2 : 0 < 1 - r := by linarith
  induction n with
  | zero => rw [faded_zero]; positivity
  | succ n ih =>
    rw [faded_succ]
    have e : B / (1 - r) = r * (B / (1 - r)) + B := by field_simp; ring
    rw [e]
    exact add_le_add (mul_le_mul_of_nonneg_left ih hr) (hf n)

/-- Quantities that vanish leave a rest that vanishes. -/
theorem faded_tendsto {r : ℝ} (hr : 0 ≤ r) (h1 : r < 1) {f : ℕ → ℝ} (h0 : ∀ k, 0 ≤ f k) (hf : Tendsto f atTop (nhds 0)) :
    Tendsto (faded r f) atTop (nhds 0) := by
  have h2 : 0 < 1 - r := by linarith
  rw [Metric.tendsto_atTop]
  intro ε hε
  -- from N on the quantities are small
  obtain ⟨N, hN⟩ := (Metric.tendsto_atTop.1 hf) (ε * (1 - r) / 2) (by positivity)
  have hsmall : ∀ k, N ≤ k → f k ≤ ε * (1 - r) / 2 := by
    intro k hk
    have := hN k hk
    rw [Real.dist_eq, sub_zero, abs_of_nonneg (h0 k)] at this
    exact this.le
  have key : ∀ m, faded r f (N + m) ≤ r ^ m * faded r f N + ε / 2 := by
    intro m
    induction m with
    | zero => simp; linarith
    | succ m ih =>
      rw [← add_assoc, faded_succ, pow_succ]
      have := mul_le_mul_of_nonneg_left ih hr
      have := hsmall (N + m) (by omega)
      nlinarith
  obtain ⟨M, hM⟩ := (Metric.tendsto_atTop.1 ((tendsto_pow_atTop_nhds_zero_of_lt_one hr h1).mul_const (faded r f N)))
    (ε / 2) (by positivity)
  refine ⟨N + M, fun n hn => ?_⟩
  obtain ⟨m, rfl⟩ : ∃ m, n = N + m := ⟨n - N, by omega⟩
  have h3 := hM m (by omega)
  rw [zero_mul, Real.dist_eq, sub_zero, abs_of_nonneg (mul_nonneg (pow_nonneg hr m) (faded_nonneg hr h0 N))] at h3
  rw [Real.dist_eq, sub_zero, abs_of_nonneg (faded_nonneg hr h0 _)]
  linarith [key m]

/-- A quadratic form that shrinks along a recurrence of order two that meets Jury's conditions. -/
theorem jury_form {T D : ℝ} (h1 : D < 1) (h2 : 0 < 1 - T + D) (h3 : 0 < 1 + T + D) :
    ∃ p q s l L ρ : ℝ, 0 < l ∧ 0 ≤ ρ ∧ ρ < 1 ∧
      (∀ x y, l * (x ^ 2 + y ^ 2) ≤ p * x ^ 2 + 2 * q * (x * y) + s * y ^ 2) ∧
      (∀ x y, p * x ^ 2 + 2 * q * (x * y) + s * y ^ 2 ≤ L * (x ^ 2 + y ^ 2)) ∧
      ∀ x y, p * y ^ 2 + 2 * q * (y * (T * y - D * x)) + s * (T * y - D * x) ^ 2 ≤
        ρ * (p * x ^ 2 + 2 * q * (x * y) + s * y ^ 2) := by
  have hD : 0 < 1 + D := by linarith
  obtain ⟨c, hc⟩ : ∃ c, c = (1 - D) * ((1 - T + D) * (1 + T + D)) := ⟨_, rfl⟩
  have hc0 : 0 < c := by rw [hc]; exact mul_pos (by linarith) (mul_pos h2 h3)
  obtain ⟨P, hP⟩ : ∃ P, P = (1 + D) * D ^ 2 + c / 2 := ⟨_, rfl⟩
  obtain ⟨V, hV⟩ : ∃ V : ℝ → ℝ → ℝ, V = fun x y => P * x ^ 2 + 2 * (-(T * D)) * (x * y) + (1 + D) * y ^ 2 := ⟨_, rfl⟩
  have step : ∀ x y, V y (T * y - D * x) = V x y - c / 2 * (x ^ 2 + y ^ 2) := by
    intro x y
    rw [hV, hP, hc]; ring
  obtain ⟨L, hL⟩ : ∃ L, L = P + |T * D| + (1 + D) + c := ⟨_, rfl⟩
  have hP0 : 0 < P := by rw [hP]; positivity
  have hL0 : 0 < L := by rw [hL]; positivity
  have upper : ∀ x y, V x y ≤ L * (x ^ 2 + y ^ 2) := by
    intro x y
    have hxy : -(2 * (T * D) * (x * y)) ≤ |T * D| * (x ^ 2 + y ^ 2) := by
      rcases abs_cases (T * D) with ⟨e, -⟩ | ⟨e, h⟩
      · rw [e]; nlinarith [mul_nonneg (e ▸ abs_nonneg (T * D)) (sq_nonneg (x + y))]
      · rw [e]; nlinarith [mul_nonneg (by linarith : 0 ≤ -(T * D)) (sq_nonneg (x - y))]
    rw [hV, hL]
    simp only
    nlinarith [mul_nonneg hP0.le (sq_nonneg y), mul_nonneg hD.le (sq_nonneg x), mul_nonneg hc0.le (sq_nonneg x),
      mul_nonneg hc0.le (sq_nonneg y)]
  have nonneg : ∀ x y, 0 ≤ V x y := by
    intro x y
    rw [hV]
    simp only
    have e : (1 + D) * (P * x ^ 2 + 2 * (-(T * D)) * (x * y) + (1 + D) * y ^ 2) =
        ((1 + D) * y - T * D * x) ^ 2 + (D ^ 2 * ((1 - T + D) * (1 + T + D)) + (1 + D) * (c / 2)) * x ^ 2 := by
      rw [hP]; ring
    have : 0 ≤ (1 + D) * (P * x ^ 2 + 2 * (-(T * D)) * (x * y) + (1 + D) * y ^ 2) := by
      rw [e]
      have := mul_pos h2 h3
      positivity
    exact nonneg_of_mul_nonneg_right this hD
  have lower : ∀ x y, c / 2 * (x ^ 2 + y ^ 2) ≤ V x y := by
    intro x y
    have := nonneg y (T * y - D * x)
    rw [step] at this
    linarith
  have hcL : c / (2 * L) ≤ 1 := by
    rw [div_le_one (by positivity), hL]
    have : 0 ≤ |T * D| := abs_nonneg _
    linarith
  have hcp : 0 < c / (2 * L) := by positivity
  have shrink : ∀ x y, V y (T * y - D * x) ≤ (1 - c / (2 * L)) * V x y := by
    intro x y
    rw [step]
    have h5 : c / (2 * L) * V x y ≤ c / (2 * L) * (L * (x ^ 2 + y ^ 2)) := mul_le_mul_of_nonneg_left (upper x y) hcp.le
    have h6 : c / (2 * L) * (L * (x ^ 2 + y ^ 2)) = c / 2 * (x ^ 2 + y ^ 2) := by field_simp
    linarith
  subst hV
  exact ⟨P, -(T * D), 1 + D, c / 2, L, 1 - c / (2 * L), by positivity, by linarith, by linarith, lower, upper, shrink⟩

/-- A sampled error with a proportional-derivative law and disturbances. -/
theorem disturbed_rate {h kp kd : ℝ} (hh : 0 < h) (hp : 0 < kp) (h1 : h * kp < 2 * kd) (h2 : h * kd < 2) :
    ∃ C r G : ℝ, 0 ≤ C ∧ 0 ≤ r ∧ r < 1 ∧ 0 ≤ G ∧ ∀ δ e v : ℕ → ℝ,
      Disturbed h δ e v (fun n => -kp * e n - kd * v n) → Forgets C r G δ e v := by
  have hA : 0 < h ^ 2 * kp := by positivity
  have hB : h ^ 2 * kp < 2 * (h * kd) := by nlinarith
  obtain ⟨T, hT⟩ : ∃ T, T = 2 - h ^ 2 * kp / 2 - h * kd := ⟨_, rfl⟩
  obtain ⟨D, hD⟩ : ∃ D, D = 1 + h ^ 2 * kp / 2 - h * kd := ⟨_, rfl⟩
  obtain ⟨p, q, s, l, L, ρ, hl, r0, r1, lower, upper, shrink⟩ := jury_form (T := T) (D := D)
    (by rw [hD]; linarith) (by rw [hT, hD]; linarith) (by rw [hT, hD]; linarith)
  have hL : 0 < L := by
    have := (lower 1 0).trans (upper 1 0)
    norm_num at this
    linarith
  obtain ⟨V, hV⟩ : ∃ V : ℝ → ℝ → ℝ, V = fun x y => p * x ^ 2 + 2 * q * (x * y) + s * y ^ 2 := ⟨_, rfl⟩
  have lower : ∀ x y, l * (x ^ 2 + y ^ 2) ≤ V x y := by rw [hV]; exact lower
  have upper : ∀ x y, V x y ≤ L * (x ^ 2 + y ^ 2) := by rw [hV]; exact upper
  have shrink : ∀ x y, V y (T * y - D * x) ≤ ρ * V x y := by rw [hV]; exact shrink
  have nonneg : ∀ x y, 0 ≤ V x y := fun x y => le_trans (by positivity) (lower x y)
  obtain ⟨ε, hε⟩ : ∃ ε, ε = (1 - ρ) / 2 := ⟨_, rfl⟩
  have hε0 : 0 < ε := by rw [hε]; linarith
  have young : ∀ x y a b, V (x + a) (y + b) ≤ (1 + ε) * V x y + (1 + 1 / ε) * V a b := by
    intro x y a b
    have := nonneg (ε * x - a) (ε * y - b)
    have e : (1 + ε) * V x y + (1 + 1 / ε) * V a b - V (x + a) (y + b) = 1 / ε * V (ε * x - a) (ε * y - b) := by
      rw [hV]; field_simp; ring
    have : 0 ≤ 1 / ε * V (ε * x - a) (ε * y - b) := mul_nonneg (by positivity) this
    linarith
  obtain ⟨r, hr⟩ : ∃ r, r = (1 + ε) * ρ := ⟨_, rfl⟩
  have hr0 : 0 ≤ r := by rw [hr]; positivity
  have hr1 : r < 1 := by rw [hr, hε]; nlinarith
  obtain ⟨B, hB'⟩ : ∃ B, B = (1 + 1 / ε) * (L * (2 + h ^ 2 / 2)) := ⟨_, rfl⟩
  have hB0 : 0 ≤ B := by rw [hB']; positivity
  obtain ⟨M, hM⟩ : ∃ M, M = 2 * (1 + 1 / h ^ 2) / l := ⟨_, rfl⟩
  have hM0 : 0 < M := by rw [hM]; positivity
  refine ⟨M * (L * (2 * (1 + h ^ 2))), r, M * B, by positivity, hr0, hr1, by positivity, fun δ e v hs n => ?_⟩
  have key : ∀ n, V (e n - h * v n / 2) (e n + h * v n / 2) ≤
      V (e 0 - h * v 0 / 2) (e 0 + h * v 0 / 2) * r ^ n + B * faded r (fun k => δ k ^ 2) n := by
    intro n
    induction n with
    | zero => simp [faded_zero]
    | succ n ih =>
      obtain ⟨a1, a2⟩ := hs n
      obtain ⟨d1, hd1⟩ : ∃ d1, d1 = e (n + 1) - (e n + h * v n + h ^ 2 / 2 * (-kp * e n - kd * v n)) := ⟨_, rfl⟩
      obtain ⟨d2, hd2⟩ : ∃ d2, d2 = v (n + 1) - (v n + h * (-kp * e n - kd * v n)) := ⟨_, rfl⟩
      rw [← hd1] at a1
      rw [← hd2] at a2
      have s1 : d1 ^ 2 ≤ δ n ^ 2 := sq_le_sq' (by linarith [(abs_le.1 a1).1]) (abs_le.1 a1).2
      have s2 : d2 ^ 2 ≤ δ n ^ 2 := sq_le_sq' (by linarith [(abs_le.1 a2).1]) (abs_le.1 a2).2
      have x1 : e (n + 1) - h * v (n + 1) / 2 = (e n + h * v n / 2) + (d1 - h * d2 / 2) := by
        rw [hd1, hd2]; ring
      have x2 : e (n + 1) + h * v (n + 1) / 2 =
          (T * (e n + h * v n / 2) - D * (e n - h * v n / 2)) + (d1 + h * d2 / 2) := by
        rw [hd1, hd2, hT, hD]; ring
      rw [x1, x2, faded_succ]
      have y1 := young (e n + h * v n / 2) (T * (e n + h * v n / 2) - D * (e n - h * v n / 2)) (d1 - h * d2 / 2) (d1 + h * d2 / 2)
      have y2 := mul_le_mul_of_nonneg_left (shrink (e n - h * v n / 2) (e n + h * v n / 2)) (by linarith : 0 ≤ 1 + ε)
      have y3 : V (d1 - h * d2 / 2) (d1 + h * d2 / 2) ≤ L * (2 + h ^ 2 / 2) * δ n ^ 2 := by
        refine (upper _ _).trans ?_
        rw [mul_assoc]
        refine mul_le_mul_of_nonneg_left ?_ hL.le
        nlinarith [mul_le_mul_of_nonneg_left s2 (sq_nonneg h)]
      have y4 := mul_le_mul_of_nonneg_left y3 (by positivity : 0 ≤ 1 + 1 / ε)
      have y5 := mul_le_mul_of_nonneg_left ih hr0
      have y6 : (1 + ε) * (ρ * V (e n - h * v n / 2) (e n + h * v n / 2)) = r * V (e n - h * v n / 2) (e n + h * v n / 2) := by
        rw [hr]; ring
      have y7 : (1 + 1 / ε) * (L * (2 + h ^ 2 / 2) * δ n ^ 2) = B * δ n ^ 2 := by rw [hB']; ring
      rw [y6] at y2
      rw [y7] at y4
      calc _ ≤ _ := y1
        _ ≤ r * V (e n - h * v n / 2) (e n + h * v n / 2) + B * δ n ^ 2 := add_le_add y2 y4
        _ ≤ r * (V (e 0 - h * v 0 / 2) (e 0 + h * v 0 / 2) * r ^ n + B * faded r (fun k => δ k ^ 2) n) + B * δ n ^ 2 := by
            linarith
        _ = _ := by rw [pow_succ]; ring
  have h5 : ∀ x y : ℝ, x ^ 2 + y ^ 2 ≤ M * V (x - h * y / 2) (x + h * y / 2) := by
    intro x y
    have := mul_le_mul_of_nonneg_left (lower (x - h * y / 2) (x + h * y / 2)) hM0.le
    refine le_trans ?_ this
    have e3 : M * (l * ((x - h * y / 2) ^ 2 + (x + h * y / 2) ^ 2)) =
        x ^ 2 + y ^ 2 + (3 * x ^ 2 + h ^ 2 * y ^ 2 + 4 * x ^ 2 / h ^ 2) := by rw [hM]; field_simp; ring
    rw [e3]
    have : 0 ≤ 3 * x ^ 2 + h ^ 2 * y ^ 2 + 4 * x ^ 2 / h ^ 2 := by positivity
    linarith
  have h6 : V (e 0 - h * v 0 / 2) (e 0 + h * v 0 / 2) ≤ L * (2 * (1 + h ^ 2)) * (e 0 ^ 2 + v 0 ^ 2) := by
    refine (upper _ _).trans ?_
    rw [mul_assoc]
    refine mul_le_mul_of_nonneg_left ?_ hL.le
    nlinarith [mul_nonneg (sq_nonneg h) (sq_nonneg (v 0)), mul_nonneg (sq_nonneg h) (sq_nonneg (e 0)), sq_nonneg (v 0)]
  have h7 : 0 ≤ r ^ n := pow_nonneg hr0 n
  calc e n ^ 2 + v n ^ 2 ≤ M * V (e n - h * v n / 2) (e n + h * v n / 2) := h5 _ _
    _ ≤ M * (L * (2 * (1 + h ^ 2)) * (e 0 ^ 2 + v 0 ^ 2) * r ^ n + B * faded r (fun k => δ k ^ 2) n) := by
        refine mul_le_mul_of_nonneg_left ((key n).trans ?_) hM0.le
        linarith [mul_le_mul_of_nonneg_right h6 h7]
    _ = _ := by ring

end Tsid
