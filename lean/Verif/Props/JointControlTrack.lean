import Verif.Props.JointControlDemo
import Mathlib.Analysis.Complex.Polynomial.Basic

/-!
# The exercise on joint space control follows a moving reference
-/

set_option linter.unusedSectionVars false

namespace Tsid.Props

open Spec Finset Formulation Program Filter Topology

/-- A recursion of first order under a disturbance. -/
theorem first_order_bounded {r : ℂ} (hr : ‖r‖ < 1) {y g : Nat → ℂ} (hy : ∀ n, y (n + 1) = r * y n + g n) {γ : ℝ}
    (hg : ∀ ε > 0, ∀ᶠ n in atTop, ‖g n‖ ≤ γ + ε) {ε : ℝ} (hε : 0 < ε) :
    ∀ᶠ n in atTop, ‖y n‖ ≤ γ / (1 - ‖r‖) + ε := by
  have hd : 0 < 1 - ‖r‖ := by linarith
  obtain ⟨N, hN⟩ := eventually_atTop.1 (hg (ε / 2 * (1 - ‖r‖)) (by positivity))
  have key : ∀ n, ‖y (n + N)‖ ≤ ‖r‖ ^ n * ‖y N‖ + (γ / (1 - ‖r‖) + ε / 2) := by
    have hc : (γ + ε / 2 * (1 - ‖r‖)) = (γ / (1 - ‖r‖) + ε / 2) * (1 - ‖r‖) := by field_simp
    have hnn : 0 ≤ γ / (1 - ‖r‖) + ε / 2 := by
      have h0 : 0 ≤ γ + ε / 2 * (1 - ‖r‖) := (norm_nonneg _).trans (hN N le_rfl)
      rw [hc] at h0
      exact nonneg_of_mul_nonneg_left h0 hd
    intro n
    induction n with
    | zero => simp only [zero_add, pow_zero, one_mul]; linarith
    | succ n ih =>
      have h1 : y (n + 1 + N) = r * y (n + N) + g (n + N) := by rw [← hy (n + N)]; congr 1; omega
      have h2 := hN (n + N) (by omega)
      rw [h1]
      calc ‖r * y (n + N) + g (n + N)‖ ≤ ‖r‖ * ‖y (n + N)‖ + ‖g (n + N)‖ := (norm_add_le _ _).trans (by rw [norm_mul])
        _ ≤ ‖r‖ * (‖r‖ ^ n * ‖y N‖ + (γ / (1 - ‖r‖) + ε / 2)) + (γ / (1 - ‖r‖) + ε / 2) * (1 - ‖r‖) := by
          rw [← hc]
          exact add_le_add (mul_le_mul_of_nonneg_left ih (norm_nonneg _)) h2
        _ = ‖r‖ ^ (n + 1) * ‖y N‖ + (γ / (1 - ‖r‖) + ε / 2) := by ring
  have ht : Tendsto (fun n => ‖r‖ ^ n * ‖y N‖) atTop (𝓝 0) := by
    simpa using (tendsto_pow_atTop_nhds_zero_of_lt_one (norm_nonneg r) hr).mul_const ‖y N‖
  obtain ⟨M, hM⟩ := eventually_atTop.1 (ht.eventually (gt_mem_nhds (show (0 : ℝ) < ε / 2 by linarith)))
  refine eventually_atTop.2 ⟨M + N, fun n hn => ?_⟩
  have h1 := key (n - N)
  have h2 := hM (n - N) (by omega)
  rw [show n - N + N = n by omega] at h1
  linarith

/-- A recursion of second order under a disturbance. -/
theorem second_order_bounded {T P : ℝ} (h1 : 0 < 1 - T + P) (h2 : 0 < 1 + T + P) (h3 : P < 1) :
    ∃ C : ℝ, 0 < C ∧ ∀ (e g : Nat → ℝ) (γ : ℝ), (∀ n, |g n| ≤ γ) → (∀ n, e (n + 2) = T * e (n + 1) - P * e n + g n) →
      ∀ ε > 0, ∀ᶠ n in atTop, |e n| ≤ C * γ + ε := by
  -- the roots lie in the open unit disc
  have hroot : ∀ r : ℂ, r ^ 2 = T * r - P → ‖r‖ < 1 := by
    intro r hr
    have hp : ∀ n, r ^ (n + 2) = T * r ^ (n + 1) - P * r ^ n := by
      intro n
      rw [pow_add, hr]
      ring
    have hre := second_order h1 h2 h3 (e := fun n => (r ^ n).re) (fun n => by
      show (r ^ (n + 2)).re = _
      rw [hp]
      simp)
    have him := second_order h1 h2 h3 (e := fun n => (r ^ n).im) (fun n => by
      show (r ^ (n + 2)).im = _
      rw [hp]
      simp)
    have hs : Tendsto (fun n => |(r ^ n).re| + |(r ^ n).im|) atTop (𝓝 0) := by simpa using hre.abs.add him.abs
    have hn : Tendsto (fun n => ‖r‖ ^ n) atTop (𝓝 0) := by
      refine squeeze_zero (fun n => by positivity) (fun n => ?_) hs
      rw [← norm_pow]
      exact Complex.norm_le_abs_re_add_abs_im _
    have := tendsto_pow_atTop_nhds_zero_iff.1 hn
    rwa [abs_of_nonneg (norm_nonneg r)] at this
  obtain ⟨D, hD⟩ := IsAlgClosed.exists_pow_nat_eq ((T : ℂ) ^ 2 - 4 * P) (n := 2) (by norm_num)
  obtain ⟨r1, hr1⟩ : ∃ r : ℂ, r = (T + D) / 2 := ⟨_, rfl⟩
  obtain ⟨r2, hr2⟩ : ∃ r : ℂ, r = (T - D) / 2 := ⟨_, rfl⟩
  have n1 := hroot r1 (by rw [hr1]; linear_combination (1 / 4) * hD)
  have n2 := hroot r2 (by rw [hr2]; linear_combination (1 / 4) * hD)
  have hsum : (T : ℂ) = r1 + r2 := by rw [hr1, hr2]; ring
  have hprod : (P : ℂ) = r1 * r2 := by rw [hr1, hr2]; linear_combination (1 / 4) * hD
  have d1 : 0 < 1 - ‖r1‖ := by linarith
  have d2 : 0 < 1 - ‖r2‖ := by linarith
  refine ⟨1 / (1 - ‖r1‖) / (1 - ‖r2‖), by positivity, fun e g γ hg hrec ε hε => ?_⟩
  have hrec1 : ∀ n, (e (n + 1 + 1) : ℂ) - r2 * e (n + 1) = r1 * ((e (n + 1) : ℂ) - r2 * e n) + g n := by
    intro n
    rw [hrec]
    push_cast
    rw [hsum, hprod]
    ring
  have hg1 : ∀ ε > 0, ∀ᶠ n in atTop, ‖(g n : ℂ)‖ ≤ γ + ε := by
    intro ε hε
    refine Eventually.of_forall fun n => ?_
    rw [Complex.norm_real, Real.norm_eq_abs]
    linarith [hg n]
  have hu : ∀ ε > 0, ∀ᶠ n in atTop, ‖(e (n + 1) : ℂ) - r2 * e n‖ ≤ γ / (1 - ‖r1‖) + ε := fun ε hε =>
    first_order_bounded n1 (y := fun n => (e (n + 1) : ℂ) - r2 * e n) (g := fun n => (g n : ℂ)) hrec1 hg1 hε
  have he := first_order_bounded n2 (y := fun n => (e n : ℂ)) (g := fun n => (e (n + 1) : ℂ) - r2 * e n) (fun n => by ring)
    (γ := γ / (1 - ‖r1‖)) hu hε
  refine he.mono fun n hn => ?_
  rw [Complex.norm_real, Real.norm_eq_abs] at hn
  refine hn.trans (le_of_eq ?_)
  ring

/-- **C114, tracking.** Under the conditions of `C114_converges` the joints follow every moving reference: in the long run their
distance from it is at most a constant, which depends on gain, weight and time step alone, times the largest amount by which the
samples of the reference differ from a motion with the accelerations `share * acc` during each time step. -/
theorem C114_tracks {cf : JointControl.Conf ℝ} {kin : Vec ℝ → Vec ℝ → Snapshot ℝ} {E : Program.Env ℝ} {W : World} {S : Setup ℝ}
    (hB : IsJointArm cf kin E W S) {reg : Bool} (hdiff : ∀ a b j, E.robot.difference a b j = b j - a j)
    {integrate : Vec ℝ → Vec ℝ → Vec ℝ} (hI : ∀ a u j, integrate a u j = a j + u j)
    (hw : 0 < cf.w) (hk : 0 < cf.kp) (hdt : 0 < cf.dt) (h1 : share reg cf * (cf.dt * Real.sqrt cf.kp) < 1)
    (h4 : cf.dt * Real.sqrt cf.kp < 4) :
    ∃ C : ℝ, 0 < C ∧ ∀ (q v : Vec ℝ) (r : Nat → Sample ℝ) (dv : Nat → Vec ℝ) (δ : ℝ) (j : Nat), j < S.robot.nv →
      (∀ i j, j < S.robot.nv → dv i j = share reg cf * desired cf E (r i)
        (kin (JointControl.states integrate cf.dt q v dv i).1 (JointControl.states integrate cf.dt q v dv i).2) j) →
      (∀ i, |(r (i + 1)).pos j - ((r i).pos j + cf.dt * (r i).vel j + cf.dt ^ 2 / 2 * (share reg cf * (r i).acc j))| ≤ δ) →
      (∀ i, |(r (i + 1)).vel j - ((r i).vel j + cf.dt * (share reg cf * (r i).acc j))| ≤ δ) →
      ∀ ε > 0, ∀ᶠ i in atTop, |(JointControl.states integrate cf.dt q v dv i).1 j - (r i).pos j| ≤ C * δ + ε := by
  have hs0 : 0 < Real.sqrt cf.kp := Real.sqrt_pos.2 hk
  have hss : Real.sqrt cf.kp * Real.sqrt cf.kp = cf.kp := Real.mul_self_sqrt hk.le
  have hcrit : critical cf.kp = 2 * Real.sqrt cf.kp := rfl
  have hσ := share_pos (reg := reg) hw
  generalize share reg cf = σ at *
  generalize Real.sqrt cf.kp = s at *
  obtain ⟨h, hh⟩ : ∃ h, h = cf.dt * s := ⟨_, rfl⟩
  rw [← hh] at h1 h4
  have h0 : 0 < h := by rw [hh]; positivity
  have hσh0 : 0 < σ * h := mul_pos hσ h0
  obtain ⟨C, hC, key⟩ := second_order_bounded (T := 2 - σ * h ^ 2 / 2 - 2 * σ * h) (P := 1 - 2 * σ * h + σ * h ^ 2 / 2)
    (by have : 0 < σ * h * h := mul_pos hσh0 h0
        linarith) (by linarith) (by nlinarith)
  refine ⟨C * (2 + cf.dt), by positivity, fun q v r dv δ j hj hdv hp hvel ε hε => ?_⟩
  obtain ⟨x, hx⟩ : ∃ x, x = fun i => (JointControl.states integrate cf.dt q v dv i).1 j - (r i).pos j := ⟨_, rfl⟩
  obtain ⟨y, hy⟩ : ∃ y, y = fun i => (JointControl.states integrate cf.dt q v dv i).2 j - (r i).vel j := ⟨_, rfl⟩
  obtain ⟨d, hd⟩ : ∃ d : Nat → ℝ, d = fun i =>
    (r i).pos j + cf.dt * (r i).vel j + cf.dt ^ 2 / 2 * (σ * (r i).acc j) - (r (i + 1)).pos j := ⟨_, rfl⟩
  obtain ⟨d', hd'⟩ : ∃ d : Nat → ℝ, d = fun i => (r i).vel j + cf.dt * (σ * (r i).acc j) - (r (i + 1)).vel j := ⟨_, rfl⟩
  have bd : ∀ i, |d i| ≤ δ := fun i => by rw [hd, abs_sub_comm]; exact hp i
  have bd' : ∀ i, |d' i| ≤ δ := fun i => by rw [hd', abs_sub_comm]; exact hvel i
  have ha : ∀ i, dv i j = σ * (r i).acc j - σ * s * (s * x i + 2 * y i) := by
    intro i
    rw [hdv i j hj, hx, hy]
    unfold desired
    rw [hB.config, hB.velocity, hdiff, hcrit, ← hss]
    ring
  have sx : ∀ i, x (i + 1) = x i + cf.dt * y i - cf.dt ^ 2 / 2 * (σ * s * (s * x i + 2 * y i)) + d i := by
    intro i
    have e : (JointControl.states integrate cf.dt q v dv (i + 1)).1 j =
      (JointControl.states integrate cf.dt q v dv i).1 j +
        cf.dt * ((JointControl.states integrate cf.dt q v dv i).2 j + 1 / 2 * cf.dt * dv i j) := hI _ _ _
    have e2 : x (i + 1) = (JointControl.states integrate cf.dt q v dv (i + 1)).1 j - (r (i + 1)).pos j := by rw [hx]
    rw [e2, e, ha i, hd]
    have e3 : (JointControl.states integrate cf.dt q v dv i).1 j = x i + (r i).pos j := by rw [hx]; ring
    have e4 : (JointControl.states integrate cf.dt q v dv i).2 j = y i + (r i).vel j := by rw [hy]; ring
    rw [e3, e4]
    ring
  have sy : ∀ i, y (i + 1) = y i - cf.dt * (σ * s * (s * x i + 2 * y i)) + d' i := by
    intro i
    have e : (JointControl.states integrate cf.dt q v dv (i + 1)).2 j =
      (JointControl.states integrate cf.dt q v dv i).2 j + cf.dt * dv i j := rfl
    have e2 : y (i + 1) = (JointControl.states integrate cf.dt q v dv (i + 1)).2 j - (r (i + 1)).vel j := by rw [hy]
    rw [e2, e, ha i, hd']
    have e4 : (JointControl.states integrate cf.dt q v dv i).2 j = y i + (r i).vel j := by rw [hy]; ring
    rw [e4]
    ring
  have hfin := key x (fun n => d (n + 1) + cf.dt * (1 - σ * h) * d' n - (1 - 2 * (σ * h)) * d n) ((2 + cf.dt) * δ) (fun n => ?_)
    (fun n => ?_) ε hε
  · rw [hx] at hfin
    refine hfin.mono fun n hn => hn.trans (le_of_eq (by ring))
  · have t1 : |cf.dt * (1 - σ * h) * d' n| ≤ cf.dt * δ := by
      rw [abs_mul, abs_of_nonneg (mul_nonneg hdt.le (by linarith))]
      have hδ := (abs_nonneg _).trans (bd' n)
      calc cf.dt * (1 - σ * h) * |d' n| ≤ cf.dt * 1 * δ :=
            mul_le_mul (mul_le_mul_of_nonneg_left (by linarith) hdt.le) (bd' n) (abs_nonneg _) (by positivity)
        _ = cf.dt * δ := by ring
    have t2 : |(1 - 2 * (σ * h)) * d n| ≤ δ := by
      rw [abs_mul]
      have : |1 - 2 * (σ * h)| ≤ 1 := abs_le.2 ⟨by linarith, by linarith⟩
      calc _ ≤ 1 * |d n| := mul_le_mul_of_nonneg_right this (abs_nonneg _)
        _ ≤ δ := by rw [one_mul]; exact bd n
    have t3 := bd (n + 1)
    calc _ ≤ |d (n + 1)| + |cf.dt * (1 - σ * h) * d' n| + |(1 - 2 * (σ * h)) * d n| :=
          (abs_sub _ _).trans (add_le_add_left (abs_add_le _ _) _)
      _ ≤ (2 + cf.dt) * δ := by linarith
  · rw [sx (n + 1), sy n, sx n, hh]
    ring

namespace JointDemo

open SliderDemo (kin env world setup)

/-- A reference that moves with velocity 1. -/
noncomputable def ramp (i : Nat) : Sample ℝ := ⟨⟨2, fun _ => i * conf.dt⟩, ⟨2, fun _ => 1⟩, Vec.zero 2⟩

/-- With the constants of the exercise and its solver, the arm of the example follows the ramp without a remaining error. -/
example {q v : Vec ℝ} {dv : Nat → Vec ℝ}
    (h : ∀ i j, j < 2 → dv i j = share true conf * desired conf env (ramp i)
      (kin (JointControl.states (fun a u => ⟨a.size, fun i => a i + u i⟩) conf.dt q v dv i).1
        (JointControl.states (fun a u => ⟨a.size, fun i => a i + u i⟩) conf.dt q v dv i).2) j) {ε : ℝ} (hε : 0 < ε) :
    ∀ᶠ i in atTop, |(JointControl.states (fun a u => ⟨a.size, fun i => a i + u i⟩) conf.dt q v dv i).1 1 - (ramp i).pos 1| ≤ ε := by
  obtain ⟨C, -, k⟩ := C114_tracks arm (reg := true) (fun _ _ _ => rfl)
    (integrate := fun a u => ⟨a.size, fun i => a i + u i⟩) (fun _ _ _ => rfl) (by norm_num [conf]) (by norm_num [conf])
    (by norm_num [conf]) (by norm_num [conf, share]) (by norm_num [conf])
  have := k q v ramp dv 0 1 (by decide) h
    (fun i => by
      show |((i + 1 : Nat) : ℝ) * conf.dt - (i * conf.dt + conf.dt * 1 + conf.dt ^ 2 / 2 * (share true conf * 0))| ≤ 0
      rw [abs_nonpos_iff]
      push_cast
      ring)
    (fun i => by
      show |(1 : ℝ) - (1 + conf.dt * (share true conf * 0))| ≤ 0
      rw [abs_nonpos_iff]
      ring) ε hε
  simpa using this

end JointDemo

end Tsid.Props
