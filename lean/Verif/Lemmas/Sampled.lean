import Verif.Spec.ControlLoop
import Mathlib.Tactic.Linarith
import Mathlib.Tactic.FieldSimp
import Mathlib.Tactic.Positivity
import Mathlib.Tactic.Ring
import Mathlib.Topology.Instances.Real.Lemmas
import Mathlib.Analysis.Real.Sqrt
import Mathlib.Analysis.SpecificLimits.Normed

/-!
# Sampled second-order systems
-/

namespace Tsid

open Filter Spec

/-- A recurrence of order two decays geometrically if its coefficients meet Jury's conditions. -/
theorem jury {T D : ℝ} (h1 : D < 1) (h2 : 0 < 1 - T + D) (h3 : 0 < 1 + T + D) :
    ∃ C r : ℝ, 0 ≤ r ∧ r < 1 ∧ ∀ z : ℕ → ℝ, (∀ n, z (n + 2) = T * z (n + 1) - D * z n) →
      ∀ n, z n ^ 2 + z (n + 1) ^ 2 ≤ C * (z 0 ^ 2 + z 1 ^ 2) * r ^ n := by
  have hD : 0 < 1 + D := by linarith
  obtain ⟨c, hc⟩ : ∃ c, c = (1 - D) * ((1 - T + D) * (1 + T + D)) := ⟨_, rfl⟩
  have hc0 : 0 < c := by rw [hc]; exact mul_pos (by linarith) (mul_pos h2 h3)
  obtain ⟨P, hP⟩ : ∃ P, P = (1 + D) * D ^ 2 + c / 2 := ⟨_, rfl⟩
  obtain ⟨V, hV⟩ : ∃ V : ℝ → ℝ → ℝ, V = fun x y => P * x ^ 2 - 2 * (T * D) * (x * y) + (1 + D) * y ^ 2 := ⟨_, rfl⟩
  -- one step
  have step : ∀ x y, V y (T * y - D * x) = V x y - c / 2 * (x ^ 2 + y ^ 2) := by
    intro x y
    rw [hV, hP, hc]; ring
  obtain ⟨L, hL⟩ : ∃ L, L = P + |T * D| + (1 + D) + c := ⟨_, rfl⟩
  have hP0 : 0 < P := by rw [hP]; positivity
  have hL0 : 0 < L := by rw [hL]; positivity
  have upper : ∀ x y, V x y ≤ L * (x ^ 2 + y ^ 2) := by
    intro x y
    have hxy : -(2 * (T * D) * (x * y)) ≤ |T * D| * (x ^ 2 + y ^ 2) := by
      rcases abs_cases (T * D) with ⟨e, -⟩ | ⟨e, h⟩
      · rw [e]; nlinarith [mul_nonneg (e ▸ abs_nonneg (T * D)) (sq_nonneg (x + y))]
      · rw [e]; nlinarith [mul_nonneg (by linarith : 0 ≤ -(T * D)) (sq_nonneg (x - y))]
    rw [hV, hL]
    simp only
    nlinarith [mul_nonneg hP0.le (sq_nonneg y), mul_nonneg hD.le (sq_nonneg x), mul_nonneg hc0.le (sq_nonneg x),
      mul_nonneg hc0.le (sq_nonneg y)]
  have nonneg : ∀ x y, 0 ≤ V x y := by
    intro x y
    rw [hV]
    simp only
    have e : (1 + D) * (P * x ^ 2 - 2 * (T * D) * (x * y) + (1 + D) * y ^ 2) =
        ((1 + D) * y - T * D * x) ^ 2 + (D ^ 2 * ((1 - T + D) * (1 + T + D)) + (1 + D) * (c / 2)) * x ^ 2 := by
      rw [hP]; ring
    have : 0 ≤ (1 + D) * (P * x ^ 2 - 2 * (T * D) * (x * y) + (1 + D) * y ^ 2) := by
      rw [e]
      have := mul_pos h2 h3
      positivity
    exact nonneg_of_mul_nonneg_right this hD
  have lower : ∀ x y, c / 2 * (x ^ 2 + y ^ 2) ≤ V x y := by
    intro x y
    have := nonneg y (T * y - D * x)
    rw [step] at this
    linarith
  have hcL : c / (2 * L) ≤ 1 := by
    rw [div_le_one (by positivity), hL]
    have : 0 ≤ |T * D| := abs_nonneg _
    linarith
  have hcp : 0 < c / (2 * L) := by positivity
  refine ⟨2 * L / c, 1 - c / (2 * L), by linarith, by linarith, fun z hz n => ?_⟩
  have key : ∀ n, V (z n) (z (n + 1)) ≤ V (z 0) (z 1) * (1 - c / (2 * L)) ^ n := by
    intro n
    induction n with
    | zero => simp
    | succ n ih =>
      rw [hz n, step, pow_succ (1 - c / (2 * L)) n, ← mul_assoc]
      have h4 : V (z n) (z (n + 1)) - c / 2 * (z n ^ 2 + z (n + 1) ^ 2) ≤
          V (z n) (z (n + 1)) * (1 - c / (2 * L)) := by
        have := upper (z n) (z (n + 1))
        have h5 : c / (2 * L) * V (z n) (z (n + 1)) ≤ c / (2 * L) * (L * (z n ^ 2 + z (n + 1) ^ 2)) :=
          mul_le_mul_of_nonneg_left this (by positivity)
        have h6 : c / (2 * L) * (L * (z n ^ 2 + z (n + 1) ^ 2)) = c / 2 * (z n ^ 2 + z (n + 1) ^ 2) := by
          field_simp
        linarith
      exact h4.trans (mul_le_mul_of_nonneg_right ih (by linarith))
  have hr : 0 ≤ (1 - c / (2 * L)) ^ n := pow_nonneg (by linarith) n
  have h7 := (lower (z n) (z (n + 1))).trans ((key n).trans (mul_le_mul_of_nonneg_right (upper (z 0) (z 1)) hr))
  have h8 : z n ^ 2 + z (n + 1) ^ 2 = 2 / c * (c / 2 * (z n ^ 2 + z (n + 1) ^ 2)) := by field_simp
  rw [h8]
  calc 2 / c * (c / 2 * (z n ^ 2 + z (n + 1) ^ 2))
      ≤ 2 / c * (L * (z 0 ^ 2 + z 1 ^ 2) * (1 - c / (2 * L)) ^ n) := mul_le_mul_of_nonneg_left h7 (by positivity)
    _ = 2 * L / c * (z 0 ^ 2 + z 1 ^ 2) * (1 - c / (2 * L)) ^ n := by ring

/-- A sampled error with a proportional-derivative law: constant and rate depend on the gains and the period only. -/
theorem sampled_rate {h kp kd : ℝ} (hh : 0 < h) (hp : 0 < kp) (h1 : h * kp < 2 * kd) (h2 : h * kd < 2) :
    ∃ C r : ℝ, 0 ≤ r ∧ r < 1 ∧ ∀ e v : ℕ → ℝ, Sampled h e v (fun n => -kp * e n - kd * v n) →
      ∀ n, e n ^ 2 + v n ^ 2 ≤ C * (e 0 ^ 2 + v 0 ^ 2) * r ^ n := by
  have hA : 0 < h ^ 2 * kp := by positivity
  have hB : h ^ 2 * kp < 2 * (h * kd) := by nlinarith
  obtain ⟨C, r, hr0, hr1, hC⟩ := jury (T := 2 - h ^ 2 * kp / 2 - h * kd) (D := 1 + h ^ 2 * kp / 2 - h * kd)
    (by linarith) (by linarith) (by linarith)
  obtain ⟨M, hM⟩ : ∃ M, M = 1 + h ^ 2 := ⟨_, rfl⟩
  have hM1 : 1 ≤ M := by rw [hM]; nlinarith
  have hM0 : 0 < M := by linarith
  have hN : 0 < 2 * (1 + 1 / h ^ 2) := by positivity
  have hC0 : 0 ≤ C := by
    have := hC (fun n => 0) (by simp) 0
    by_contra hneg
    push Not at hneg
    -- a motion with z 0 = 1
    let z : ℕ → ℝ × ℝ := fun n => Nat.rec (1, 0) (fun _ p => (p.2, (2 - h ^ 2 * kp / 2 - h * kd) * p.2 -
      (1 + h ^ 2 * kp / 2 - h * kd) * p.1)) n
    have := hC (fun n => (z n).1) (fun n => rfl) 0
    simp only [pow_zero, mul_one] at this
    have e0 : (z 0).1 = 1 := rfl
    have e1 : (z 1).1 = 0 := rfl
    rw [show (0 + 1 : ℕ) = 1 from rfl, e0, e1] at this
    linarith
  refine ⟨2 * (1 + 1 / h ^ 2) * (C * (2 * M)), r, hr0, hr1, fun e v hs n => ?_⟩
  -- the point between two samples
  have hz := hC (fun n => e n - h * v n / 2) (by
    intro n
    obtain ⟨a1, a2⟩ := hs n
    obtain ⟨b1, b2⟩ := hs (n + 1)
    simp only [b1, b2, a1, a2]
    ring) n
  obtain ⟨a1, a2⟩ := hs n
  obtain ⟨c1, c2⟩ := hs 0
  simp only [zero_add] at c1 c2
  simp only [a1, a2, c1, c2, zero_add] at hz
  have e1 : (e n - h * v n / 2) ^ 2 + (e n + h * v n + h ^ 2 / 2 * (-kp * e n - kd * v n) -
      h * (v n + h * (-kp * e n - kd * v n)) / 2) ^ 2 = 2 * e n ^ 2 + h ^ 2 * v n ^ 2 / 2 := by ring
  have e2 : (e 0 - h * v 0 / 2) ^ 2 + (e 0 + h * v 0 + h ^ 2 / 2 * (-kp * e 0 - kd * v 0) -
      h * (v 0 + h * (-kp * e 0 - kd * v 0)) / 2) ^ 2 = 2 * e 0 ^ 2 + h ^ 2 * v 0 ^ 2 / 2 := by ring
  rw [e1, e2] at hz
  have hrn : 0 ≤ r ^ n := pow_nonneg hr0 n
  have h3 : C * (2 * e 0 ^ 2 + h ^ 2 * v 0 ^ 2 / 2) * r ^ n ≤ C * (2 * M * (e 0 ^ 2 + v 0 ^ 2)) * r ^ n := by
    apply mul_le_mul_of_nonneg_right _ hrn
    apply mul_le_mul_of_nonneg_left _ hC0
    rw [hM]
    nlinarith [mul_nonneg (sq_nonneg h) (sq_nonneg (v 0)), mul_nonneg (sq_nonneg h) (sq_nonneg (e 0)), sq_nonneg (v 0)]
  have h5 : e n ^ 2 + v n ^ 2 ≤ 2 * (1 + 1 / h ^ 2) * (2 * e n ^ 2 + h ^ 2 * v n ^ 2 / 2) := by
    have e3 : 2 * (1 + 1 / h ^ 2) * (2 * e n ^ 2 + h ^ 2 * v n ^ 2 / 2) =
        e n ^ 2 + v n ^ 2 + (3 * e n ^ 2 + h ^ 2 * v n ^ 2 + 4 * e n ^ 2 / h ^ 2) := by field_simp; ring
    rw [e3]
    have : 0 ≤ 3 * e n ^ 2 + h ^ 2 * v n ^ 2 + 4 * e n ^ 2 / h ^ 2 := by positivity
    linarith
  calc e n ^ 2 + v n ^ 2 ≤ 2 * (1 + 1 / h ^ 2) * (2 * e n ^ 2 + h ^ 2 * v n ^ 2 / 2) := h5
    _ ≤ 2 * (1 + 1 / h ^ 2) * (C * (2 * M * (e 0 ^ 2 + v 0 ^ 2)) * r ^ n) :=
        mul_le_mul_of_nonneg_left (hz.trans h3) hN.le
    _ = 2 * (1 + 1 / h ^ 2) * (C * (2 * M)) * (e 0 ^ 2 + v 0 ^ 2) * r ^ n := by ring

/-- A geometric bound on the squares gives convergence. -/
theorem tendsto_of_geometric {e v : ℕ → ℝ} {C r : ℝ} (h0 : 0 ≤ r) (h1 : r < 1)
    (h : ∀ n, e n ^ 2 + v n ^ 2 ≤ C * r ^ n) : Tendsto e atTop (nhds 0) := by
  have hs : Tendsto (fun n => e n ^ 2) atTop (nhds 0) := by
    refine squeeze_zero (fun n => sq_nonneg _) (fun n => ?_)
      (by simpa using (tendsto_pow_atTop_nhds_zero_of_lt_one h0 h1).const_mul C)
    have := h n
    nlinarith [sq_nonneg (v n)]
  have := hs.sqrt
  simp only [Real.sqrt_sq_eq_abs, Real.sqrt_zero] at this
  exact (tendsto_zero_iff_abs_tendsto_zero _).2 this

/-- The error of a sampled motion with a proportional-derivative law dies out. -/
theorem sampled_dies {h kp kd : ℝ} (hh : 0 < h) (hp : 0 < kp) (h1 : h * kp < 2 * kd) (h2 : h * kd < 2)
    {e v a : ℕ → ℝ} (hs : Sampled h e v a) (ha : ∀ n, a n = -kp * e n - kd * v n) : DiesOut e v := by
  obtain ⟨C, r, r0, r1, hC⟩ := sampled_rate hh hp h1 h2
  have e1 : a = fun n => -kp * e n - kd * v n := funext ha
  rw [e1] at hs
  have hb := hC e v hs
  refine ⟨⟨_, r, r0, r1, hb⟩, tendsto_of_geometric r0 r1 hb, tendsto_of_geometric r0 r1 (fun n => (add_comm (v n ^ 2) (e n ^ 2)).trans_le (hb n))⟩

/-- The same with respect to a reference that is sampled in the same way. -/
theorem sampled_tracks {h kp kd : ℝ} (hh : 0 < h) (hp : 0 < kp) (h1 : h * kp < 2 * kd) (h2 : h * kd < 2)
    {x v a xr vr ar : ℕ → ℝ} (hs : Sampled h x v a) (hr : Sampled h xr vr ar)
    (ha : ∀ n, a n = ar n + kp * (xr n - x n) + kd * (vr n - v n)) :
    DiesOut (fun n => x n - xr n) (fun n => v n - vr n) := by
  refine sampled_dies hh hp h1 h2 (a := fun n => a n - ar n) (fun n => ?_) fun n => ?_
  · obtain ⟨a1, a2⟩ := hs n
    obtain ⟨b1, b2⟩ := hr n
    simp only [a1, a2, b1, b2]
    exact ⟨by ring, by ring⟩
  · simp only [ha n]; ring

/-- A sampled quantity with a proportional law. -/
theorem lag_dies {h kp : ℝ} (h1 : 0 < h * kp) (h2 : h * kp < 2) {x d xr dr : ℕ → ℝ} (hs : SampledRate h x d)
    (hr : SampledRate h xr dr) (hd : ∀ n, d n = dr n + kp * (xr n - x n)) :
    (∀ n, x n - xr n = (1 - h * kp) ^ n * (x 0 - xr 0)) ∧ Tendsto (fun n => x n - xr n) atTop (nhds 0) := by
  have key : ∀ n, x n - xr n = (1 - h * kp) ^ n * (x 0 - xr 0) := by
    intro n
    induction n with
    | zero => simp
    | succ n ih =>
      rw [hs n, hr n, hd n, pow_succ, mul_comm ((1 - h * kp) ^ n), mul_assoc, ← ih]
      ring
  refine ⟨key, ?_⟩
  have e1 : (fun n => x n - xr n) = fun n => (1 - h * kp) ^ n * (x 0 - xr 0) := funext key
  rw [e1]
  have : Tendsto (fun n => (1 - h * kp) ^ n) atTop (nhds 0) :=
    tendsto_pow_atTop_nhds_zero_of_abs_lt_one (abs_lt.2 ⟨by linarith, by linarith⟩)
  simpa using this.mul_const (x 0 - xr 0)

/-- Solutions of the sampled law from any initial state. -/
noncomputable def pdMotion (h kp kd e0 v0 : ℝ) : ℕ → ℝ × ℝ
  | 0 => (e0, v0)
  | n + 1 =>
    let p := pdMotion h kp kd e0 v0 n
    (p.1 + h * p.2 + h ^ 2 / 2 * (-kp * p.1 - kd * p.2), p.2 + h * (-kp * p.1 - kd * p.2))

theorem pdMotion_sampled (h kp kd e0 v0 : ℝ) :
    Sampled h (fun n => (pdMotion h kp kd e0 v0 n).1) (fun n => (pdMotion h kp kd e0 v0 n).2)
      (fun n => -kp * (pdMotion h kp kd e0 v0 n).1 - kd * (pdMotion h kp kd e0 v0 n).2) :=
  fun _ => ⟨rfl, rfl⟩

/-- The conditions on gains and period cannot be weakened. -/
theorem sampled_sharp {h kp kd : ℝ} (hh : 0 < h) (hbad : 2 * kd ≤ h * kp ∨ 2 ≤ h * kd) :
    ∃ e v : ℕ → ℝ, Sampled h e v (fun n => -kp * e n - kd * v n) ∧ ¬ (Tendsto e atTop (nhds 0) ∧ Tendsto v atTop (nhds 0)) := by
  rcases hbad with hb | hb
  · -- two motions: the area they span does not shrink
    by_contra hno
    push Not at hno
    have p := pdMotion_sampled h kp kd 1 0
    have q := pdMotion_sampled h kp kd 0 1
    obtain ⟨p1, p2⟩ := hno _ _ p
    obtain ⟨q1, q2⟩ := hno _ _ q
    have key : ∀ n, (1 : ℝ) ≤ (pdMotion h kp kd 1 0 n).1 * (pdMotion h kp kd 0 1 n).2 -
        (pdMotion h kp kd 1 0 n).2 * (pdMotion h kp kd 0 1 n).1 := by
      intro n
      induction n with
      | zero => simp [pdMotion]
      | succ n ih =>
        obtain ⟨a1, a2⟩ := p n
        obtain ⟨b1, b2⟩ := q n
        simp only at a1 a2 b1 b2
        rw [a1, a2, b1, b2]
        have hD : 0 ≤ h * (h * kp - 2 * kd) / 2 := by
          have : 0 ≤ h * kp - 2 * kd := by linarith
          positivity
        generalize (pdMotion h kp kd 1 0 n).1 = x1 at *
        generalize (pdMotion h kp kd 1 0 n).2 = x2 at *
        generalize (pdMotion h kp kd 0 1 n).1 = y1 at *
        generalize (pdMotion h kp kd 0 1 n).2 = y2 at *
        have e : (x1 + h * x2 + h ^ 2 / 2 * (-kp * x1 - kd * x2)) * (y2 + h * (-kp * y1 - kd * y2)) -
            (x2 + h * (-kp * x1 - kd * x2)) * (y1 + h * y2 + h ^ 2 / 2 * (-kp * y1 - kd * y2)) =
            (1 + h * (h * kp - 2 * kd) / 2) * (x1 * y2 - x2 * y1) := by ring
        rw [e]
        nlinarith
    have hl := (p1.mul q2).sub (p2.mul q1)
    simp only [mul_zero, sub_zero] at hl
    have := ge_of_tendsto' hl key
    linarith
  · -- a motion that changes its sign in every period and does not shrink
    obtain ⟨T, hT⟩ : ∃ T, T = 2 - h ^ 2 * kp / 2 - h * kd := ⟨_, rfl⟩
    obtain ⟨D, hD⟩ : ∃ D, D = 1 + h ^ 2 * kp / 2 - h * kd := ⟨_, rfl⟩
    have hTD : 1 + T + D ≤ 0 := by rw [hT, hD]; linarith
    have hdisc : (T + 2) ^ 2 ≤ T ^ 2 - 4 * D := by nlinarith
    obtain ⟨z, hz⟩ : ∃ z, z = (T - Real.sqrt (T ^ 2 - 4 * D)) / 2 := ⟨_, rfl⟩
    have hroot : z ^ 2 = T * z - D := by
      have := Real.sq_sqrt (le_trans (sq_nonneg _) hdisc)
      rw [hz]
      nlinarith
    have hz1 : z ≤ -1 := by
      have : T + 2 ≤ Real.sqrt (T ^ 2 - 4 * D) := Real.le_sqrt_of_sq_le hdisc
      rw [hz]; linarith
    refine ⟨fun n => z ^ n * (1 + z) / 2, fun n => z ^ n * (z - 1) / h, fun n => ?_, fun hno => ?_⟩
    · have hq : h ^ 2 * kp * (1 + z) / 2 + h * kd * (z - 1) = 2 * z - 1 - z ^ 2 := by
        rw [hroot, hT, hD]; ring
      have h0 : h ≠ 0 := hh.ne'
      have hacc : h ^ 2 * (-kp * (z ^ n * (1 + z) / 2) - kd * (z ^ n * (z - 1) / h)) =
          z ^ n * (z ^ 2 - 2 * z + 1) := by
        have : h ^ 2 * (-kp * (z ^ n * (1 + z) / 2) - kd * (z ^ n * (z - 1) / h)) =
            -z ^ n * (h ^ 2 * kp * (1 + z) / 2 + h * kd * (z - 1)) := by field_simp; ring
        rw [this, hq]; ring
      have hacc' : h * (-kp * (z ^ n * (1 + z) / 2) - kd * (z ^ n * (z - 1) / h)) =
          z ^ n * (z ^ 2 - 2 * z + 1) / h := by
        rw [← hacc]; field_simp
      refine ⟨?_, ?_⟩
      · simp only
        rw [show h ^ 2 / 2 * (-kp * (z ^ n * (1 + z) / 2) - kd * (z ^ n * (z - 1) / h)) =
          h ^ 2 * (-kp * (z ^ n * (1 + z) / 2) - kd * (z ^ n * (z - 1) / h)) / 2 by ring, hacc,
          show h * (z ^ n * (z - 1) / h) = z ^ n * (z - 1) by field_simp]
        ring
      · simp only
        rw [hacc']
        field_simp
        ring
    · have hl := (hno.1.sub ((hno.2.mul_const h).div_const 2))
      simp only [zero_mul, zero_div, sub_zero] at hl
      have e : (fun n : ℕ => z ^ n * (1 + z) / 2 - z ^ n * (z - 1) / h * h / 2) = fun n => z ^ n := by
        funext n
        rw [div_mul_cancel₀ _ hh.ne']
        ring
      rw [e] at hl
      have habs := hl.abs
      rw [abs_zero] at habs
      have := ge_of_tendsto' habs (b := 1) fun n => by
        rw [abs_pow]
        exact one_le_pow₀ (by rw [abs_of_neg (by linarith)]; linarith)
      linarith

end Tsid
