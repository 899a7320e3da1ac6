import Verif.Props.JointControl
import Mathlib.Analysis.SpecificLimits.Normed

/-!
# The loop of the exercise on joint space control
-/

set_option linter.unusedSectionVars false

namespace Tsid.Props

open Spec Finset Formulation Program Filter Topology

section
variable {K : Type} [Field K] [LinearOrder K] [FloorRing K] [HasSqrt K] [IsStrictOrderedRing K] [LawfulSqrt K]
variable {cf : JointControl.Conf K} {kin : Vec K → Vec K → Snapshot K} {E : Program.Env K} {W : World} {S : Setup K} {q v : Vec K}

theorem jointTime_eq (dt : K) (i : Nat) : JointControl.timeAt dt i = i * dt := by
  induction i with
  | zero => simp [JointControl.timeAt]
  | succ i ih => rw [JointControl.timeAt, ih]; push_cast; ring

/-- **C114, the loop.** The loop of the exercise runs without exceptions if the sizes are right, for any number of steps and whatever
accelerations the solver finds.  Step `i` happens at time `i dt` and asks the joints to be on the sinusoid around the initial
configuration; the velocities add up, and every configuration is integrated with the mean of the velocities before and after the
step. -/
theorem C114_loop (hB : IsJointArm cf kin E W S) (hv : v.size = E.robot.nv) (hs : JointSized E.robot q)
    {integrate : Vec K → Vec K → Vec K} (hI : ∀ a u, (integrate a u).size = a.size) (dv : Nat → Vec K) (sn cn : K → K)
    (amp phi twoPiF : Vec K) (N : Nat) :
    let x := JointControl.states integrate cf.dt q v dv
    let L := JointControl.loop (JointControl.wave sn cn q amp phi twoPiF) cf.dt (fun i => (x i).1) (fun i => (x i).2) N
    (∃ s, uncaught E S.start (JointControl.text cf kin E.robot.nv q v L) = some s) ∧ L.length = N ∧
    (∀ (i : Nat) (s : JointControl.Step K), L[i]? = some s → s.t = i * cf.dt ∧ s.q = (x i).1 ∧ s.v = (x i).2 ∧
      ∀ k, s.ref.pos k = q k + amp k * sn (twoPiF k * (i * cf.dt) + phi k) ∧
        s.ref.vel k = twoPiF k * amp k * cn (twoPiF k * (i * cf.dt) + phi k) ∧
        s.ref.acc k = -(twoPiF k ^ 2 * amp k * sn (twoPiF k * (i * cf.dt) + phi k))) ∧
    (∀ i k, (x i).2 k = v k + cf.dt * ∑ j ∈ range i, dv j k) ∧
    ∀ i, ∃ u : Vec K, (x (i + 1)).1 = integrate (x i).1 u ∧ u.size = E.robot.nv ∧
      ∀ k, u k = cf.dt * (((x i).2 k + (x (i + 1)).2 k) / 2) := by
  intro x L
  have hz : ∀ i, (x i).2.size = E.robot.nv ∧ (x i).1.size = q.size := by
    intro i
    induction i with
    | zero => exact ⟨hv, rfl⟩
    | succ i ih => exact ⟨ih.1, (hI _ _).trans ih.2⟩
  have hmem : ∀ s ∈ L, ProperJoint E.robot s ∧ ProperRef E.robot s.ref := by
    intro s hm
    simp only [L, JointControl.loop, List.mem_map, List.mem_range] at hm
    obtain ⟨i, hi, rfl⟩ := hm
    exact ⟨⟨(hz i).1, by rw [(hz i).2]; exact hs.motors.ge⟩, hs.joints, hs.motors, hs.motors⟩
  refine ⟨(C114_exceptions hB hv hs.motors.ge fun s h => (hmem s h).1).2 ⟨hs, fun s h => (hmem s h).2⟩, by simp [L, JointControl.loop],
    fun i s h => ?_, fun i k => ?_, fun i => ?_⟩
  · simp only [L, JointControl.loop, List.getElem?_map, Option.map_eq_some_iff] at h
    obtain ⟨j, hj, rfl⟩ := h
    obtain rfl : j = i := by
      rw [List.getElem?_eq_some_iff] at hj
      obtain ⟨_, h⟩ := hj
      simpa using h.symm
    refine ⟨jointTime_eq _ _, rfl, rfl, fun k => ?_⟩
    simp only [jointTime_eq]
    refine ⟨rfl, rfl, ?_⟩
    show -(_ * (_ * _)) * _ = _
    ring
  · induction i with
    | zero => simp [x, JointControl.states]
    | succ i ih =>
      rw [sum_range_succ, mul_add, ← add_assoc, ← ih]
      rfl
  · refine ⟨_, rfl, (hz i).1, fun k => ?_⟩
    show cf.dt * ((x i).2 k + 1 / 2 * cf.dt * dv i k) = cf.dt * (((x i).2 k + ((x i).2 k + cf.dt * dv i k)) / 2)
    ring

end

/-- **C114, the reference.** Velocity and acceleration of the reference of the joints are the derivatives of its position. -/
theorem C114_reference (q amp phi twoPiF : Vec ℝ) (t : ℝ) (i : Nat) :
    HasDerivAt (fun t => (JointControl.wave Real.sin Real.cos q amp phi twoPiF t).pos i)
      ((JointControl.wave Real.sin Real.cos q amp phi twoPiF t).vel i) t ∧
    HasDerivAt (fun t => (JointControl.wave Real.sin Real.cos q amp phi twoPiF t).vel i)
      ((JointControl.wave Real.sin Real.cos q amp phi twoPiF t).acc i) t := by
  have ph : HasDerivAt (fun t => twoPiF i * t + phi i) (twoPiF i) t := by
    simpa using ((hasDerivAt_id t).const_mul (twoPiF i)).add_const (phi i)
  constructor
  · exact ((ph.sin.const_mul (amp i)).const_add (q i)).congr_deriv (by
      show _ = twoPiF i * amp i * Real.cos (twoPiF i * t + phi i)
      ring)
  · exact (ph.cos.const_mul (twoPiF i * amp i)).congr_deriv (by
      show _ = -(twoPiF i * (twoPiF i * amp i)) * Real.sin (twoPiF i * t + phi i)
      ring)

/-- A linear recursion of second order converges to zero if it satisfies the criterion of Schur and Cohn. -/
theorem second_order {T P : ℝ} (h1 : 0 < 1 - T + P) (h2 : 0 < 1 + T + P) (h3 : P < 1) {e : Nat → ℝ}
    (hrec : ∀ n, e (n + 2) = T * e (n + 1) - P * e n) : Tendsto e atTop (𝓝 0) := by
  rcases lt_or_ge (T ^ 2) (4 * P) with hneg | hpos
  · -- complex roots: a positive definite form shrinks by the factor `P`
    have hP : 0 < P := by nlinarith [sq_nonneg T]
    have hV : ∀ n, e (n + 1) ^ 2 - T * e (n + 1) * e n + P * e n ^ 2 = P ^ n * (e 1 ^ 2 - T * e 1 * e 0 + P * e 0 ^ 2) := by
      intro n
      induction n with
      | zero => simp
      | succ n ih =>
        rw [pow_succ' P n, mul_assoc P, ← ih, hrec n]
        ring
    have hd : 0 < P - T ^ 2 / 4 := by linarith
    have hlim : Tendsto (fun n => P ^ n * (e 1 ^ 2 - T * e 1 * e 0 + P * e 0 ^ 2) / (P - T ^ 2 / 4)) atTop (𝓝 0) := by
      have := ((tendsto_pow_atTop_nhds_zero_of_lt_one hP.le h3).mul_const (e 1 ^ 2 - T * e 1 * e 0 + P * e 0 ^ 2)).div_const
        (P - T ^ 2 / 4)
      simpa using this
    have hsq : Tendsto (fun n => e n ^ 2) atTop (𝓝 0) := by
      refine squeeze_zero (fun n => sq_nonneg _) (fun n => ?_) hlim
      rw [le_div_iff₀ hd, ← hV n]
      nlinarith [sq_nonneg (e (n + 1) - T / 2 * e n)]
    have := hsq.sqrt
    rw [Real.sqrt_zero] at this
    exact (tendsto_zero_iff_abs_tendsto_zero e).2 (this.congr fun n => Real.sqrt_sq_eq_abs _)
  obtain ⟨D, hD0, hD⟩ : ∃ D : ℝ, 0 ≤ D ∧ D * D = T ^ 2 - 4 * P :=
    ⟨Real.sqrt (T ^ 2 - 4 * P), Real.sqrt_nonneg _, Real.mul_self_sqrt (by linarith)⟩
  have hlt1 : D < 2 - T := by
    refine lt_of_pow_lt_pow_left₀ 2 (by linarith) ?_
    have : (2 - T) ^ 2 - D ^ 2 = 4 * (1 - T + P) := by rw [sq D, hD]; ring
    linarith
  have hlt2 : D < 2 + T := by
    refine lt_of_pow_lt_pow_left₀ 2 (by linarith) ?_
    have : (2 + T) ^ 2 - D ^ 2 = 4 * (1 + T + P) := by rw [sq D, hD]; ring
    linarith
  have hu : ∀ n, e (n + 1) - (T - D) / 2 * e n = ((T + D) / 2) ^ n * (e 1 - (T - D) / 2 * e 0) := by
    intro n
    induction n with
    | zero => simp
    | succ n ih =>
      rw [pow_succ', mul_assoc, ← ih, hrec n]
      linear_combination (-(1 / 4) * e n) * hD
  have a1 : |(T + D) / 2| < 1 := abs_lt.2 ⟨by linarith, by linarith⟩
  rcases hD0.eq_or_lt with rfl | hD0
  · -- a double root
    simp only [sub_zero, add_zero] at hu a1
    generalize T / 2 = r at hu a1
    generalize e 1 - r * e 0 = c at hu
    have key : ∀ n, e (n + 1) = r ^ n * (r * e 0 + (n + 1) * c) := by
      intro n
      induction n with
      | zero => have := hu 0; simp at this ⊢; linarith
      | succ n ih =>
        have := hu (n + 1)
        rw [ih] at this
        push_cast
        linear_combination this
    refine (tendsto_add_atTop_iff_nat 1).1 ?_
    have l1 := (tendsto_pow_atTop_nhds_zero_of_abs_lt_one a1).mul_const (r * e 0 + c)
    have l2 := (tendsto_self_mul_const_pow_of_abs_lt_one a1).mul_const c
    have := l1.add l2
    simp only [zero_mul, add_zero] at this
    refine this.congr fun n => ?_
    rw [key n]
    ring
  -- two real roots
  have hw : ∀ n, e (n + 1) - (T + D) / 2 * e n = ((T - D) / 2) ^ n * (e 1 - (T + D) / 2 * e 0) := by
    intro n
    induction n with
    | zero => simp
    | succ n ih =>
      rw [pow_succ', mul_assoc, ← ih, hrec n]
      linear_combination (-(1 / 4) * e n) * hD
  have a2 : |(T - D) / 2| < 1 := abs_lt.2 ⟨by linarith, by linarith⟩
  have t1 := (tendsto_pow_atTop_nhds_zero_of_abs_lt_one a1).mul_const (e 1 - (T - D) / 2 * e 0)
  have t2 := (tendsto_pow_atTop_nhds_zero_of_abs_lt_one a2).mul_const (e 1 - (T + D) / 2 * e 0)
  have := (t1.sub t2).div_const D
  simp only [zero_mul, sub_zero, zero_div] at this
  refine this.congr fun n => ?_
  rw [← hu n, ← hw n]
  field_simp
  ring

/-- Errors of position (times the square root of the gain) and velocity under the discrete control law. -/
theorem pd_converges {σ h : ℝ} (hσ : 0 < σ) (h0 : 0 < h) (h4 : h < 4) (h1 : σ * h < 1)
    {e v : Nat → ℝ} (he : ∀ n, e (n + 1) = e n + h * v n - σ * h ^ 2 / 2 * (e n + 2 * v n))
    (hv : ∀ n, v (n + 1) = v n - σ * h * (e n + 2 * v n)) : Tendsto e atTop (𝓝 0) ∧ Tendsto v atTop (𝓝 0) := by
  have hσh0 : 0 < σ * h := mul_pos hσ h0
  have te : Tendsto e atTop (𝓝 0) := by
    refine second_order (T := 2 - σ * h ^ 2 / 2 - 2 * σ * h) (P := 1 - 2 * σ * h + σ * h ^ 2 / 2) ?_ ?_ ?_ fun n => ?_
    · have : 0 < σ * h * h := mul_pos hσh0 h0
      linarith
    · linarith
    · nlinarith
    · rw [he (n + 1), hv n, he n]
      ring
  refine ⟨te, ?_⟩
  have te1 := te.comp (tendsto_add_atTop_nat 1)
  have hne : h * (1 - σ * h) ≠ 0 := (mul_pos h0 (by linarith)).ne'
  have := (te1.sub (te.const_mul (1 - σ * h ^ 2 / 2))).div_const (h * (1 - σ * h))
  simp only [mul_zero, sub_zero, zero_div] at this
  refine this.congr fun n => ?_
  simp only [Function.comp]
  rw [he n, div_eq_iff hne]
  ring

theorem share_pos {cf : JointControl.Conf ℝ} {reg : Bool} (hw : 0 < cf.w) : 0 < share reg cf := by
  unfold share
  cases reg
  · simp
  · simp only [if_true]
    positivity

/-- **C114, the controller is stable.** If the configurations form a vector space, the reference is constant and the solver succeeds
in every step, then the joints converge to the reference and come to rest, provided that `share dt √kp < 1` and `dt √kp < 4`; the second condition
follows from the first unless the regularisation outweighs the task. -/
theorem C114_converges {cf : JointControl.Conf ℝ} {kin : Vec ℝ → Vec ℝ → Snapshot ℝ} {E : Program.Env ℝ} {W : World} {S : Setup ℝ}
    {q v : Vec ℝ} {r : Sample ℝ} (hB : IsJointArm cf kin E W S) {reg : Bool}
    (hr : ∀ j, r.vel j = 0 ∧ r.acc j = 0) (hdiff : ∀ a b j, E.robot.difference a b j = b j - a j)
    {integrate : Vec ℝ → Vec ℝ → Vec ℝ} (hI : ∀ a u j, integrate a u j = a j + u j) {dv : Nat → Vec ℝ}
    (hdv : ∀ i j, j < S.robot.nv → dv i j = share reg cf * desired cf E r
      (kin (JointControl.states integrate cf.dt q v dv i).1 (JointControl.states integrate cf.dt q v dv i).2) j)
    (hw : 0 < cf.w) (hk : 0 < cf.kp) (hdt : 0 < cf.dt) (h1 : share reg cf * (cf.dt * Real.sqrt cf.kp) < 1)
    (h4 : cf.dt * Real.sqrt cf.kp < 4)
    {j : Nat} (hj : j < S.robot.nv) :
    Tendsto (fun i => (JointControl.states integrate cf.dt q v dv i).1 j) atTop (𝓝 (r.pos j)) ∧
    Tendsto (fun i => (JointControl.states integrate cf.dt q v dv i).2 j) atTop (𝓝 0) := by
  have hs0 : 0 < Real.sqrt cf.kp := Real.sqrt_pos.2 hk
  have hss : Real.sqrt cf.kp * Real.sqrt cf.kp = cf.kp := Real.mul_self_sqrt hk.le
  have hσ := share_pos (reg := reg) hw
  generalize share reg cf = σ at *
  have hcrit : critical cf.kp = 2 * Real.sqrt cf.kp := rfl
  generalize Real.sqrt cf.kp = s at *
  have ha : ∀ i, dv i j = -σ * s * (s * ((JointControl.states integrate cf.dt q v dv i).1 j - r.pos j) +
      2 * (JointControl.states integrate cf.dt q v dv i).2 j) := by
    intro i
    rw [hdv i j hj]
    unfold desired
    rw [hB.config, hB.velocity, hdiff, (hr j).1, (hr j).2, hcrit, ← hss]
    ring
  have hstep1 : ∀ i, (JointControl.states integrate cf.dt q v dv (i + 1)).1 j =
      (JointControl.states integrate cf.dt q v dv i).1 j +
        cf.dt * ((JointControl.states integrate cf.dt q v dv i).2 j + 1 / 2 * cf.dt * dv i j) := fun i => hI _ _ _
  have hstep2 : ∀ i, (JointControl.states integrate cf.dt q v dv (i + 1)).2 j =
      (JointControl.states integrate cf.dt q v dv i).2 j + cf.dt * dv i j := fun i => rfl
  obtain ⟨t1, t2⟩ := pd_converges (e := fun i => s * ((JointControl.states integrate cf.dt q v dv i).1 j - r.pos j))
    (v := fun i => (JointControl.states integrate cf.dt q v dv i).2 j) hσ (mul_pos hdt hs0) h4 h1
    (fun n => by
      rw [hstep1, ha]
      ring)
    (fun n => by
      rw [hstep2, ha]
      ring)
  refine ⟨?_, t2⟩
  have := (t1.div_const s).add_const (r.pos j)
  simp only [zero_div, zero_add] at this
  refine this.congr fun n => ?_
  field_simp
  ring

/-- If `σ h ≥ 1` there is a combination of the errors that never gets smaller. -/
theorem pd_persists {σ h : ℝ} (h1 : 1 ≤ σ * h) : ∃ a b l : ℝ, a ≠ 0 ∧ l ≤ -1 ∧
    ∀ e v : ℝ, a * (e + h * v - σ * h ^ 2 / 2 * (e + 2 * v)) + b * (v - σ * h * (e + 2 * v)) = l * (a * e + b * v) := by
  obtain ⟨T, hT⟩ : ∃ T, T = 2 - σ * h ^ 2 / 2 - 2 * σ * h := ⟨_, rfl⟩
  obtain ⟨P, hP⟩ : ∃ P, P = 1 - 2 * σ * h + σ * h ^ 2 / 2 := ⟨_, rfl⟩
  have hTP : 1 + T + P ≤ 0 := by
    have : 1 + T + P = 4 - 4 * (σ * h) := by rw [hT, hP]; ring
    linarith
  have hdisc : 0 ≤ T ^ 2 - 4 * P := by nlinarith [sq_nonneg (T + 2)]
  obtain ⟨D, hD0, hD⟩ : ∃ D : ℝ, 0 ≤ D ∧ D * D = T ^ 2 - 4 * P := ⟨_, Real.sqrt_nonneg _, Real.mul_self_sqrt hdisc⟩
  have hge : 2 + T ≤ D := by
    by_contra hlt
    have hlt := not_le.1 hlt
    nlinarith
  refine ⟨σ * h, 1 - σ * h ^ 2 / 2 - (T - D) / 2, (T - D) / 2, by linarith, by linarith, fun e v => ?_⟩
  have hl : ((T - D) / 2) ^ 2 = T * ((T - D) / 2) - P := by linear_combination (1 / 4) * hD
  generalize (T - D) / 2 = l at hl ⊢
  rw [hT, hP] at hl
  linear_combination v * hl

/-- Where the conditions of `pd_converges` fail there are errors that do not vanish. -/
theorem pd_diverges {σ h : ℝ} (hσ : 0 < σ) (h0 : 0 < h) (hb : ¬ (σ * h < 1 ∧ h < 4)) : ∃ e0 v0 : ℝ, ∀ e v : Nat → ℝ,
    e 0 = e0 → v 0 = v0 → (∀ n, e (n + 1) = e n + h * v n - σ * h ^ 2 / 2 * (e n + 2 * v n)) →
    (∀ n, v (n + 1) = v n - σ * h * (e n + 2 * v n)) → ¬ (Tendsto e atTop (𝓝 0) ∧ Tendsto v atTop (𝓝 0)) := by
  -- a sequence that is bounded away from zero does not converge to zero
  have away : ∀ {f : Nat → ℝ} {c : ℝ}, 0 < c → (∀ n, c ≤ |f n|) → ¬ Tendsto f atTop (𝓝 0) := by
    intro f c hc hf ht
    obtain ⟨i, hi⟩ := ((Metric.tendsto_nhds.1 ht) _ hc).exists
    rw [Real.dist_eq, sub_zero] at hi
    exact absurd (hf i) (not_le.2 hi)
  rcases le_or_gt 1 (σ * h) with h1 | h1
  · obtain ⟨a, b, l, ha, hl, hab⟩ := pd_persists h1
    refine ⟨a, 0, fun e v e0 v0 he hv ⟨t1, t2⟩ => ?_⟩
    have hy : ∀ i, a * e i + b * v i = l ^ i * a ^ 2 := by
      intro i
      induction i with
      | zero => rw [e0, v0]; ring
      | succ i ih => rw [pow_succ', mul_assoc, ← ih, ← hab, he, hv]
    have t3 := (t1.const_mul a).add (t2.const_mul b)
    simp only [mul_zero, add_zero] at t3
    have hc : 0 < a ^ 2 := by positivity
    refine away hc (fun i => ?_) t3
    rw [hy i, abs_mul, abs_pow, abs_of_pos hc]
    have : 1 ≤ |l| := by rw [abs_of_neg (by linarith)]; linarith
    have := one_le_pow₀ this (n := i)
    nlinarith
  · have h4 : 4 ≤ h := not_lt.1 fun h => hb ⟨h1, h⟩
    refine ⟨0, 1, fun e v e0 v0 he hv ⟨t1, t2⟩ => ?_⟩
    obtain ⟨T, hT⟩ : ∃ T, T = 2 - σ * h ^ 2 / 2 - 2 * σ * h := ⟨_, rfl⟩
    obtain ⟨P, hP⟩ : ∃ P, P = 1 - 2 * σ * h + σ * h ^ 2 / 2 := ⟨_, rfl⟩
    have hP1 : 1 ≤ P := by
      have : P = 1 + σ * h * (h - 4) / 2 := by rw [hP]; ring
      have : 0 ≤ σ * h * (h - 4) := mul_nonneg (mul_pos hσ h0).le (by linarith)
      linarith
    have hy : ∀ n, e (n + 1) * e (n + 1) - T * (e (n + 1) * e n) + P * (e n * e n) = P ^ n * (h * (1 - σ * h)) ^ 2 := by
      intro n
      induction n with
      | zero => rw [he 0, e0, v0]; ring
      | succ n ih =>
        rw [pow_succ', mul_assoc, ← ih]
        have hrec : e (n + 2) = T * e (n + 1) - P * e n := by
          rw [he (n + 1), hv n, he n, hT, hP]
          ring
        rw [hrec]
        ring
    have te1 := t1.comp (tendsto_add_atTop_nat 1)
    have t3 := ((te1.mul te1).sub ((te1.mul t1).const_mul T)).add ((t1.mul t1).const_mul P)
    simp only [mul_zero, add_zero, sub_zero] at t3
    have hc : 0 < (h * (1 - σ * h)) ^ 2 := by
      have : 0 < h * (1 - σ * h) := mul_pos h0 (by linarith)
      positivity
    refine away hc (fun i => ?_) t3
    show _ ≤ |e (i + 1) * e (i + 1) - T * (e (i + 1) * e i) + P * (e i * e i)|
    rw [hy i, abs_of_nonneg (by positivity)]
    have := one_le_pow₀ hP1 (n := i)
    nlinarith

/-- The loop with a feedback law for the accelerations. -/
theorem joint_feedback (integrate : Vec ℝ → Vec ℝ → Vec ℝ) (dt : ℝ) (q v : Vec ℝ) (f : Vec ℝ × Vec ℝ → Vec ℝ) :
    ∃ dv : Nat → Vec ℝ, ∀ i, dv i = f (JointControl.states integrate dt q v dv i) := by
  let y : Nat → Vec ℝ × Vec ℝ := fun n => Nat.rec (q, v) (fun _ x => JointControl.advance integrate dt x.1 x.2 (f x)) n
  refine ⟨fun i => f (y i), fun i => congrArg f ?_⟩
  induction i with
  | zero => rfl
  | succ i ih =>
    rw [JointControl.states, ← ih]

/-- **C114, too long a time step.** Where the conditions of `C114_converges` fail, there are states from which the joints do not
converge to rest in the reference, although the solver succeeds in every step. -/
theorem C114_unstable {cf : JointControl.Conf ℝ} {kin : Vec ℝ → Vec ℝ → Snapshot ℝ} {E : Program.Env ℝ} {W : World} {S : Setup ℝ}
    {r : Sample ℝ} (hB : IsJointArm cf kin E W S) {reg : Bool} (hr : ∀ j, r.vel j = 0 ∧ r.acc j = 0)
    (hdiff : ∀ a b j, E.robot.difference a b j = b j - a j)
    {integrate : Vec ℝ → Vec ℝ → Vec ℝ} (hI : ∀ a u j, integrate a u j = a j + u j)
    (hw : 0 < cf.w) (hk : 0 < cf.kp) (hdt : 0 < cf.dt)
    (hb : ¬ (share reg cf * (cf.dt * Real.sqrt cf.kp) < 1 ∧ cf.dt * Real.sqrt cf.kp < 4)) {j : Nat} (hj : j < S.robot.nv) :
    ∃ (q v : Vec ℝ) (dv : Nat → Vec ℝ), q.size = r.pos.size ∧ v.size = E.robot.nv ∧
      (∀ i k, k < S.robot.nv → dv i k = share reg cf * desired cf E r
        (kin (JointControl.states integrate cf.dt q v dv i).1 (JointControl.states integrate cf.dt q v dv i).2) k) ∧
      ¬ (Tendsto (fun i => (JointControl.states integrate cf.dt q v dv i).1 j) atTop (𝓝 (r.pos j)) ∧
        Tendsto (fun i => (JointControl.states integrate cf.dt q v dv i).2 j) atTop (𝓝 0)) := by
  have hs0 : 0 < Real.sqrt cf.kp := Real.sqrt_pos.2 hk
  have hss : Real.sqrt cf.kp * Real.sqrt cf.kp = cf.kp := Real.mul_self_sqrt hk.le
  have hcrit : critical cf.kp = 2 * Real.sqrt cf.kp := rfl
  have hσ := share_pos (reg := reg) hw
  generalize share reg cf = σ at *
  generalize Real.sqrt cf.kp = s at *
  obtain ⟨e0, v0, h⟩ := pd_diverges hσ (mul_pos hdt hs0) hb
  obtain ⟨q, hq⟩ : ∃ q : Vec ℝ, q = ⟨r.pos.size, fun k => r.pos k + e0 / s⟩ := ⟨_, rfl⟩
  obtain ⟨v, hv⟩ : ∃ v : Vec ℝ, v = ⟨E.robot.nv, fun _ => v0⟩ := ⟨_, rfl⟩
  obtain ⟨dv, hdv⟩ := joint_feedback integrate cf.dt q v fun x => ⟨E.robot.nv, fun k => σ * desired cf E r (kin x.1 x.2) k⟩
  have hdv' : ∀ i k, dv i k = σ * desired cf E r
      (kin (JointControl.states integrate cf.dt q v dv i).1 (JointControl.states integrate cf.dt q v dv i).2) k := by
    intro i k
    conv_lhs => rw [hdv i]
  refine ⟨q, v, dv, by rw [hq], by rw [hv], fun i k _ => hdv' i k, ?_⟩
  have hacc : ∀ i, dv i j = -σ * s * (s * ((JointControl.states integrate cf.dt q v dv i).1 j - r.pos j) +
      2 * (JointControl.states integrate cf.dt q v dv i).2 j) := by
    intro i
    rw [hdv' i j]
    unfold desired
    rw [hB.config, hB.velocity, hdiff, (hr j).1, (hr j).2, hcrit, ← hss]
    ring
  have s1 : ∀ i, (JointControl.states integrate cf.dt q v dv (i + 1)).1 j =
      (JointControl.states integrate cf.dt q v dv i).1 j +
        cf.dt * ((JointControl.states integrate cf.dt q v dv i).2 j + 1 / 2 * cf.dt * dv i j) := fun i => hI _ _ _
  have s2 : ∀ i, (JointControl.states integrate cf.dt q v dv (i + 1)).2 j =
      (JointControl.states integrate cf.dt q v dv i).2 j + cf.dt * dv i j := fun i => rfl
  rintro ⟨t1, t2⟩
  refine h (fun i => s * ((JointControl.states integrate cf.dt q v dv i).1 j - r.pos j))
    (fun i => (JointControl.states integrate cf.dt q v dv i).2 j) ?_ ?_ (fun n => ?_) (fun n => ?_) ⟨?_, t2⟩
  · show s * (q j - r.pos j) = e0
    rw [hq]
    show s * (r.pos j + e0 / s - r.pos j) = e0
    field_simp
    ring
  · show v j = v0
    rw [hv]
  · rw [s1, hacc]
    ring
  · rw [s2, hacc]
    ring
  · have := (t1.sub_const (r.pos j)).const_mul s
    simpa using this

end Tsid.Props
