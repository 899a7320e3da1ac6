import Verif.Lemmas.Disturbed
import Verif.Props.LimitsKeptDemo

/-!
# C105: control loops with disturbances

The loops of C93, C94 and C104 on a robot that is not accelerated exactly as the solutions say.
-/

set_option linter.unusedSectionVars false

namespace Tsid.Props

open Spec Filter Formulation

/-! ## Tracking -/

section
variable {h kp kd : ℝ}

/-- **C105, rate.** A proportional-derivative law with gains that suit the period: the initial error dies out and
disturbances of the motion and of the reference are forgotten, with constants that depend on gains and period only. -/
theorem C105_rate (hh : 0 < h) (hp : 0 < kp) (h1 : h * kp < 2 * kd) (h2 : h * kd < 2) :
    ∃ C r G : ℝ, 0 ≤ C ∧ 0 ≤ r ∧ r < 1 ∧ 0 ≤ G ∧ ∀ δ δ' x v a xr vr ar : ℕ → ℝ,
      Disturbed h δ x v a → Disturbed h δ' xr vr ar →
      (∀ n, a n = ar n + kp * (xr n - x n) + kd * (vr n - v n)) →
      Forgets C r G (fun n => δ n + δ' n) (fun n => x n - xr n) (fun n => v n - vr n) := by
  obtain ⟨C, r, G, hC, r0, r1, hG, key⟩ := disturbed_rate hh hp h1 h2
  refine ⟨C, r, G, hC, r0, r1, hG, fun δ δ' x v a xr vr ar hs hr ha => key _ _ _ fun n => ?_⟩
  obtain ⟨a1, a2⟩ := hs n
  obtain ⟨b1, b2⟩ := hr n
  rw [ha n] at a1 a2
  rw [abs_le] at a1 a2 b1 b2 ⊢
  rw [abs_le]
  dsimp only
  refine ⟨⟨?_, ?_⟩, ?_, ?_⟩ <;> linarith

/-- **C105, inexact laws.** The same if the acceleration differs by at most `α n` from the law: this is a further
disturbance. -/
theorem C105_inexact (hh : 0 < h) (hp : 0 < kp) (h1 : h * kp < 2 * kd) (h2 : h * kd < 2) :
    ∃ C r G : ℝ, 0 ≤ C ∧ 0 ≤ r ∧ r < 1 ∧ 0 ≤ G ∧ ∀ δ δ' α x v a xr vr ar : ℕ → ℝ,
      Disturbed h δ x v a → Disturbed h δ' xr vr ar →
      (∀ n, |a n - (ar n + kp * (xr n - x n) + kd * (vr n - v n))| ≤ α n) →
      Forgets C r G (fun n => δ n + δ' n + (h + h ^ 2 / 2) * α n) (fun n => x n - xr n) (fun n => v n - vr n) := by
  obtain ⟨C, r, G, hC, r0, r1, hG, key⟩ := C105_rate hh hp h1 h2
  refine ⟨C, r, G, hC, r0, r1, hG, fun δ δ' α x v a xr vr ar hs hr ha => ?_⟩
  have := key (fun n => δ n + (h + h ^ 2 / 2) * α n) δ' x v _ xr vr ar (fun n => ?_) hr fun n => rfl
  · refine fun n => (this n).trans_eq ?_
    congr 3
    funext k
    ring
  · obtain ⟨a1, a2⟩ := hs n
    have hα := ha n
    have hα0 := (abs_nonneg _).trans hα
    generalize ar n + kp * (xr n - x n) + kd * (vr n - v n) = l at *
    rw [abs_le] at a1 a2 hα ⊢
    rw [abs_le]
    have b1 := mul_le_mul_of_nonneg_left hα.1 hh.le
    have b2 := mul_le_mul_of_nonneg_left hα.2 hh.le
    have c1 := mul_le_mul_of_nonneg_left hα.1 (by positivity : 0 ≤ h ^ 2 / 2)
    have c2 := mul_le_mul_of_nonneg_left hα.2 (by positivity : 0 ≤ h ^ 2 / 2)
    have d1 := mul_nonneg hh.le hα0
    have d2 := mul_nonneg (by positivity : 0 ≤ h ^ 2 / 2) hα0
    refine ⟨⟨?_, ?_⟩, ?_, ?_⟩ <;> linarith

/-- **C105, measurement errors.** A law with positive gains that is given measured states, which differ by at most `μ n` from
the true ones: the true state follows the reference up to the errors. -/
theorem C105_measured (hh : 0 < h) (hp : 0 < kp) (h1 : h * kp < 2 * kd) (h2 : h * kd < 2) :
    ∃ C r G : ℝ, 0 ≤ C ∧ 0 ≤ r ∧ r < 1 ∧ 0 ≤ G ∧ ∀ δ δ' μ x v a xm vm xr vr ar : ℕ → ℝ,
      Disturbed h δ x v a → Disturbed h δ' xr vr ar → (∀ n, |xm n - x n| ≤ μ n ∧ |vm n - v n| ≤ μ n) →
      (∀ n, a n = ar n + kp * (xr n - xm n) + kd * (vr n - vm n)) →
      Forgets C r G (fun n => δ n + δ' n + (h + h ^ 2 / 2) * ((kp + kd) * μ n)) (fun n => x n - xr n)
        (fun n => v n - vr n) := by
  obtain ⟨C, r, G, hC, r0, r1, hG, key⟩ := C105_inexact hh hp h1 h2
  refine ⟨C, r, G, hC, r0, r1, hG, fun δ δ' μ x v a xm vm xr vr ar hs hr hm ha => key δ δ' _ x v a xr vr ar hs hr fun n => ?_⟩
  have hkd : 0 < kd := by nlinarith
  obtain ⟨m1, m2⟩ := hm n
  rw [ha n, show ar n + kp * (xr n - xm n) + kd * (vr n - vm n) - (ar n + kp * (xr n - x n) + kd * (vr n - v n)) =
    -(kp * (xm n - x n) + kd * (vm n - v n)) by ring, abs_neg]
  refine (abs_add_le _ _).trans ?_
  rw [abs_mul, abs_mul, abs_of_pos hp, abs_of_pos hkd]
  nlinarith

/-- **C105, bounded disturbances.** They leave a bounded error: up to what is left of the initial one, its size is
proportional to the disturbances. -/
theorem C105_bounded {C r G B : ℝ} {δ e de : ℕ → ℝ} (r0 : 0 ≤ r) (r1 : r < 1) (hG : 0 ≤ G) (hf : Forgets C r G δ e de)
    (hδ : ∀ n, |δ n| ≤ B) :
    (∀ n, e n ^ 2 + de n ^ 2 ≤ C * (e 0 ^ 2 + de 0 ^ 2) * r ^ n + G / (1 - r) * B ^ 2) ∧
    ∀ ε, 0 < ε → ∀ᶠ n in atTop, e n ^ 2 + de n ^ 2 ≤ G / (1 - r) * B ^ 2 + ε := by
  have first : ∀ n, e n ^ 2 + de n ^ 2 ≤ C * (e 0 ^ 2 + de 0 ^ 2) * r ^ n + G / (1 - r) * B ^ 2 := by
    intro n
    refine (hf n).trans (add_le_add le_rfl ?_)
    have := faded_le r0 r1 (f := fun k => δ k ^ 2) (B := B ^ 2)
      (fun k => sq_le_sq' (abs_le.1 (hδ k)).1 (abs_le.1 (hδ k)).2) (sq_nonneg B) n
    calc G * faded r (fun k => δ k ^ 2) n ≤ G * (B ^ 2 / (1 - r)) := mul_le_mul_of_nonneg_left this hG
      _ = _ := by ring
  refine ⟨first, fun ε hε => ?_⟩
  have := (tendsto_pow_atTop_nhds_zero_of_lt_one r0 r1).const_mul (C * (e 0 ^ 2 + de 0 ^ 2))
  rw [mul_zero] at this
  filter_upwards [this.eventually (gt_mem_nhds hε)] with n hn
  linarith [first n]

/-- **C105, vanishing disturbances.** The error vanishes. -/
theorem C105_vanishing {C r G : ℝ} {δ e de : ℕ → ℝ} (r0 : 0 ≤ r) (r1 : r < 1) (hf : Forgets C r G δ e de)
    (hδ : Tendsto δ atTop (nhds 0)) : Tendsto e atTop (nhds 0) ∧ Tendsto de atTop (nhds 0) := by
  have t1 := (tendsto_pow_atTop_nhds_zero_of_lt_one r0 r1).const_mul (C * (e 0 ^ 2 + de 0 ^ 2))
  have t2 : Tendsto (fun k => δ k ^ 2) atTop (nhds 0) := by simpa using hδ.pow 2
  have t3 := (faded_tendsto r0 r1 (fun k => sq_nonneg _) t2).const_mul G
  have t4 := t1.add t3
  rw [mul_zero, mul_zero, add_zero] at t4
  have t5 : Tendsto (fun n => e n ^ 2 + de n ^ 2) atTop (nhds 0) :=
    squeeze_zero (fun n => by positivity) hf t4
  have sq : ∀ f : ℕ → ℝ, (∀ n, f n ^ 2 ≤ e n ^ 2 + de n ^ 2) → Tendsto f atTop (nhds 0) := by
    intro f hf
    have : Tendsto (fun n => f n ^ 2) atTop (nhds 0) := squeeze_zero (fun n => sq_nonneg _) hf t5
    have := (Real.continuous_sqrt.tendsto 0).comp this
    rw [Real.sqrt_zero] at this
    rw [tendsto_zero_iff_abs_tendsto_zero]
    exact this.congr fun n => Real.sqrt_sq_eq_abs _
  exact ⟨sq e fun n => by nlinarith [sq_nonneg (de n)], sq de fun n => by nlinarith [sq_nonneg (e n)]⟩

/-- **C105, bounded disturbances do not vanish.** A steady disturbance may leave a steady error proportional to it. -/
theorem C105_steady (hh : 0 < h) (hp : 0 < kp) {δ : ℝ} (hδ : 0 ≤ δ) : ∃ x v a : ℕ → ℝ,
    Disturbed h (fun _ => δ) x v a ∧ (∀ n, a n = 0 + kp * (0 - x n) + kd * (0 - v n)) ∧
      ∀ n, x n - 0 = δ / (h * kp * (1 + h / 2)) := by
  refine ⟨fun _ => δ / (h * kp * (1 + h / 2)), fun _ => 0, _, fun n => ?_, fun n => rfl, fun n => by ring⟩
  have hk : 0 < h * kp * (1 + h / 2) := by positivity
  have e1 : δ / (h * kp * (1 + h / 2)) - (δ / (h * kp * (1 + h / 2)) + h * 0 + h ^ 2 / 2 *
      (0 + kp * (0 - δ / (h * kp * (1 + h / 2))) + kd * (0 - 0))) = δ * (h / 2 / (1 + h / 2)) := by
    field_simp; ring
  have e2 : (0 : ℝ) - (0 + h * (0 + kp * (0 - δ / (h * kp * (1 + h / 2))) + kd * (0 - 0))) = δ * (1 / (1 + h / 2)) := by
    field_simp; ring
  dsimp only
  rw [e1, e2, abs_of_nonneg (by positivity), abs_of_nonneg (by positivity)]
  have l1 : h / 2 / (1 + h / 2) ≤ 1 := by rw [div_le_one (by positivity)]; linarith
  have l2 : 1 / (1 + h / 2) ≤ 1 := by rw [div_le_one (by positivity)]; linarith
  exact ⟨by nlinarith, by nlinarith⟩

/-- **C105, joints (partial).** As C93 for posture tasks, with a robot and a reference that differ at the end of each period
by at most `δ n` and `δ' n` from motions with the acceleration of the solution and of the reference.  The constants do not
depend on the program, the robot or the disturbances.  Missing: as in C87. -/
theorem C105_posture_partial (hh : 0 < h) (hp : 0 < kp) (h1 : h * kp < 2 * kd) (h2 : h * kd < 2) :
    ∃ C r G : ℝ, 0 ≤ C ∧ 0 ≤ r ∧ r < 1 ∧ 0 ≤ G ∧ ∀ (L : Loop ℝ) (E : Program.Env ℝ) (W : World) (S : Setup ℝ)
      (dv : ℕ → Vec ℝ) (δ δ' : ℕ → ℝ) (tid i j : Nat), L.Runs E W S dv → L.Holds E W S tid → S.decl tid = .posture →
    (∀ x y : Vec ℝ, (E.robot.difference x y) (E.robot.nv - E.robot.na + j) = y i - x i) →
    let p := fun n => (PostureSettings.fresh E.robot).afterAll E.robot ((taskCalls tid (L.text n)).filterMap posture?)
    let v := fun n => (L.robot n).v (E.robot.nv - E.robot.na + j)
    (∀ n, Selects (p n).mask j ∧ (p n).kp j = kp ∧ (p n).kd j = kd) →
    Disturbed h δ (fun n => (L.robot n).q i) v (fun n => (dv n) (E.robot.nv - E.robot.na + j)) →
    Disturbed h δ' (fun n => (p n).target E.robot i) (fun n => (p n).ref.vel j) (fun n => (p n).ref.acc j) →
    Forgets C r G (fun n => δ n + δ' n) (fun n => (L.robot n).q i - (p n).target E.robot i)
      (fun n => v n - (p n).ref.vel j) := by
  obtain ⟨C, r, G, hC, r0, r1, hG, key⟩ := C105_rate hh hp h1 h2
  refine ⟨C, r, G, hC, r0, r1, hG, ?_⟩
  intro L E W S dv δ δ' tid i j hr ht hd hline p v hset h3 h4
  exact key δ δ' _ _ _ _ _ _ h3 h4 fun n => law_posture hr ht hd hline hset n

/-- **C105, joints with measurement errors (partial).** As above; the state that is passed to the cycles differs by at most
`μ n` from the state `x n`, `v n` of the joint.  Missing: as in C87. -/
theorem C105_measured_partial (hh : 0 < h) (hp : 0 < kp) (h1 : h * kp < 2 * kd) (h2 : h * kd < 2) :
    ∃ C r G : ℝ, 0 ≤ C ∧ 0 ≤ r ∧ r < 1 ∧ 0 ≤ G ∧ ∀ (L : Loop ℝ) (E : Program.Env ℝ) (W : World) (S : Setup ℝ)
      (dv : ℕ → Vec ℝ) (δ δ' μ x v : ℕ → ℝ) (tid i j : Nat), L.Runs E W S dv → L.Holds E W S tid → S.decl tid = .posture →
    (∀ x y : Vec ℝ, (E.robot.difference x y) (E.robot.nv - E.robot.na + j) = y i - x i) →
    let p := fun n => (PostureSettings.fresh E.robot).afterAll E.robot ((taskCalls tid (L.text n)).filterMap posture?)
    (∀ n, Selects (p n).mask j ∧ (p n).kp j = kp ∧ (p n).kd j = kd) →
    (∀ n, |(L.robot n).q i - x n| ≤ μ n ∧ |(L.robot n).v (E.robot.nv - E.robot.na + j) - v n| ≤ μ n) →
    Disturbed h δ x v (fun n => (dv n) (E.robot.nv - E.robot.na + j)) →
    Disturbed h δ' (fun n => (p n).target E.robot i) (fun n => (p n).ref.vel j) (fun n => (p n).ref.acc j) →
    Forgets C r G (fun n => δ n + δ' n + (h + h ^ 2 / 2) * ((kp + kd) * μ n)) (fun n => x n - (p n).target E.robot i)
      (fun n => v n - (p n).ref.vel j) := by
  obtain ⟨C, r, G, hC, r0, r1, hG, key⟩ := C105_measured hh hp h1 h2
  refine ⟨C, r, G, hC, r0, r1, hG, ?_⟩
  intro L E W S dv δ δ' μ x v tid i j hr ht hd hline p hset hm h3 h4
  exact key δ δ' μ x v _ _ _ _ _ _ h3 h4 hm fun n => law_posture hr ht hd hline hset n

/-- **C105, centre of mass (partial).** Missing: as in C87. -/
theorem C105_com_partial (hh : 0 < h) (hp : 0 < kp) (h1 : h * kp < 2 * kd) (h2 : h * kd < 2) :
    ∃ C r G : ℝ, 0 ≤ C ∧ 0 ≤ r ∧ r < 1 ∧ 0 ≤ G ∧ ∀ (L : Loop ℝ) (E : Program.Env ℝ) (W : World) (S : Setup ℝ)
      (dv : ℕ → Vec ℝ) (δ δ' : ℕ → ℝ) (tid i : Nat), L.Runs E W S dv → L.Holds E W S tid → S.decl tid = .com →
    let p := fun n => (ComSettings.fresh (K := ℝ)).afterAll ((taskCalls tid (L.text n)).filterMap com?)
    let c := fun n => (L.robot n).com
    (∀ n, Selects (p n).mask i ∧ (p n).kp.get i = kp ∧ (p n).kd.get i = kd) →
    Disturbed h δ (fun n => (c n).pos.get i) (fun n => (c n).vel.get i)
      (fun n => (pointAcc E.robot.nv (c n).jac (c n).drift (dv n).get).get i) →
    Disturbed h δ' (fun n => (p n).pos i) (fun n => (p n).vel i) (fun n => (p n).acc i) →
    Forgets C r G (fun n => δ n + δ' n) (fun n => (c n).pos.get i - (p n).pos i) (fun n => (c n).vel.get i - (p n).vel i) := by
  obtain ⟨C, r, G, hC, r0, r1, hG, key⟩ := C105_rate hh hp h1 h2
  refine ⟨C, r, G, hC, r0, r1, hG, ?_⟩
  intro L E W S dv δ δ' tid i hr ht hd p c hset h3 h4
  exact key δ δ' _ _ _ _ _ _ h3 h4 fun n => law_com hr ht hd hset n

/-- **C105, angular momentum (partial).** Missing: as in C87. -/
theorem C105_momentum_partial {L : Loop ℝ} {E : Program.Env ℝ} {W : World} {S : Setup ℝ} {dv : ℕ → Vec ℝ}
    (hr : L.Runs E W S dv) {tid : Nat} (ht : L.Holds E W S tid) (hd : S.decl tid = .am)
    {i : Nat} (hi : i < 3) (h1 : 0 < h * kp) (h2 : h * kp < 2) {δ δ' : ℕ → ℝ} :
    let p := fun n => (AmSettings.fresh (K := ℝ)).afterAll ((taskCalls tid (L.text n)).filterMap am?)
    let m := fun n => angularMomentum (L.robot n).Ag (L.robot n).v.get i
    (∀ n, (p n).kp.get i = kp) →
    DisturbedRate h δ m (fun n => angularMomentum (L.robot n).Ag (dv n).get i + (L.robot n).dh.get i) →
    DisturbedRate h δ' (fun n => (p n).mom i) (fun n => (p n).dmom i) →
    (∀ n, |m n - (p n).mom i| ≤ |1 - h * kp| ^ n * |m 0 - (p 0).mom i| + faded |1 - h * kp| (fun k => δ k + δ' k) n) ∧
    (Tendsto δ atTop (nhds 0) → Tendsto δ' atTop (nhds 0) → Tendsto (fun n => m n - (p n).mom i) atTop (nhds 0)) := by
  intro p m hset h3 h4
  have hlaw := law_momentum hr ht hd hi hset
  obtain ⟨r, hrr⟩ : ∃ r, r = |1 - h * kp| := ⟨_, rfl⟩
  have r0 : 0 ≤ r := by rw [hrr]; exact abs_nonneg _
  have r1 : r < 1 := by rw [hrr, abs_lt]; exact ⟨by linarith, by linarith⟩
  have key : ∀ n, |m n - (p n).mom i| ≤ r ^ n * |m 0 - (p 0).mom i| + faded r (fun k => δ k + δ' k) n := by
    intro n
    induction n with
    | zero => simp [faded_zero]
    | succ n ih =>
      have a : |m (n + 1) - (m n + h * ((p n).dmom i + kp * ((p n).mom i - m n)))| ≤ δ n :=
        (congrArg (fun z => |m (n + 1) - (m n + h * z)|) (hlaw n)).symm.le.trans (h3 n)
      have b := h4 n
      rw [faded_succ]
      have e : m (n + 1) - (p (n + 1)).mom i = (1 - h * kp) * (m n - (p n).mom i) +
          (m (n + 1) - (m n + h * ((p n).dmom i + kp * ((p n).mom i - m n)))) -
          ((p (n + 1)).mom i - ((p n).mom i + h * (p n).dmom i)) := by ring
      have t1 : |(1 - h * kp) * (m n - (p n).mom i)| = r * |m n - (p n).mom i| := by rw [abs_mul, hrr]
      have t2 := mul_le_mul_of_nonneg_left ih r0
      rw [e]
      refine (abs_sub _ _).trans ?_
      refine (add_le_add (abs_add_le _ _) b).trans ?_
      rw [t1, pow_succ]
      linarith
  rw [← hrr]
  refine ⟨key, fun t1 t2 => ?_⟩
  have n0 : ∀ k, 0 ≤ δ k + δ' k := fun k => add_nonneg ((abs_nonneg _).trans (h3 k)) ((abs_nonneg _).trans (h4 k))
  have s1 := (tendsto_pow_atTop_nhds_zero_of_lt_one r0 r1).mul_const (|m 0 - (p 0).mom i|)
  have s2 := faded_tendsto r0 r1 n0 (by simpa using t1.add t2)
  have s3 := s1.add s2
  rw [zero_mul, add_zero] at s3
  rw [tendsto_zero_iff_abs_tendsto_zero]
  exact squeeze_zero (fun n => abs_nonneg _) key s3

/-- **C105, position of a frame (partial).** Missing: as in C87. -/
theorem C105_frame_partial (hh : 0 < h) (hp : 0 < kp) (h1 : h * kp < 2 * kd) (h2 : h * kd < 2) :
    ∃ C r G : ℝ, 0 ≤ C ∧ 0 ≤ r ∧ r < 1 ∧ 0 ≤ G ∧ ∀ (L : Loop ℝ) (E : Program.Env ℝ) (W : World) (S : Setup ℝ)
      (dv : ℕ → Vec ℝ) (δ δ' : ℕ → ℝ) (tid fr i : Nat), L.Runs E W S dv → L.Holds E W S tid → S.decl tid = .se3 fr → i < 3 →
    let p := fun n => (FrameSettings.fresh (K := ℝ)).afterAll ((taskCalls tid (L.text n)).filterMap se3?)
    let k := fun n => (L.robot n).frame fr
    (∀ n, ((p n).loc = false ∧ Selects (p n).mask i ∧ (p n).kp i = kp ∧ (p n).kd i = kd) ∨
      ((p n).loc = true ∧ ∀ l, l < 3 → Selects (p n).mask l ∧ (p n).kp l = kp ∧ (p n).kd l = kd)) →
    Disturbed h δ (fun n => (k n).pose.trans.get i) (fun n => ((k n).pose.rot.mulVec (k n).vel.lin).get i)
      (fun n => ((k n).pose.rot.mulVec (motionAcc E.robot.nv (k n).jac (k n).drift (dv n).get).lin).get i) →
    Disturbed h δ' (fun n => (p n).pose.trans.get i) (fun n => (p n).vel.lin.get i) (fun n => (p n).acc.lin.get i) →
    Forgets C r G (fun n => δ n + δ' n) (fun n => (k n).pose.trans.get i - (p n).pose.trans.get i)
      (fun n => ((k n).pose.rot.mulVec (k n).vel.lin).get i - (p n).vel.lin.get i) := by
  obtain ⟨C, r, G, hC, r0, r1, hG, key⟩ := C105_rate hh hp h1 h2
  refine ⟨C, r, G, hC, r0, r1, hG, ?_⟩
  intro L E W S dv δ δ' tid fr i hr ht hd hi p k hset h3 h4
  exact key δ δ' _ _ _ _ _ _ h3 h4 fun n => law_frame hr ht hd hi hset n

/-- A reference at rest. -/
theorem resting (h x : ℝ) : Disturbed h (fun _ => 0) (fun _ => x) (fun _ => 0) (fun _ => 0) := by
  intro n
  constructor <;> simp

/-- **C105, point contacts (partial).** Missing: as in C87. -/
theorem C105_contact_partial (hh : 0 < h) (hp : 0 < kp) (h1 : h * kp < 2 * kd) (h2 : h * kd < 2) :
    ∃ C r G : ℝ, 0 ≤ C ∧ 0 ≤ r ∧ r < 1 ∧ 0 ≤ G ∧ ∀ (L : Loop ℝ) (E : Program.Env ℝ) (W : World) (S : Setup ℝ)
      (dv : ℕ → Vec ℝ) (δ : ℕ → ℝ) (cid fr i : Nat) (x : V3 ℝ), L.Runs E W S dv → L.Touches E W S cid →
      S.cdecl cid = .point fr → i < 3 →
    let p := fun n => (PointSettings.fresh (K := ℝ)).afterAll ((contactCalls cid (L.text n)).filterMap point?)
    let k := fun n => (L.robot n).frame fr
    (∀ n, (p n).pose.trans = x ∧ (((p n).loc = false ∧ (p n).kp.get i = kp ∧ (p n).kd.get i = kd) ∨
      ((p n).loc = true ∧ ∀ l, l < 3 → (p n).kp.get l = kp ∧ (p n).kd.get l = kd))) →
    Disturbed h δ (fun n => (k n).pose.trans.get i) (fun n => ((k n).pose.rot.mulVec (k n).vel.lin).get i)
      (fun n => ((k n).pose.rot.mulVec (motionAcc E.robot.nv (k n).jac (k n).drift (dv n).get).lin).get i) →
    Forgets C r G δ (fun n => (k n).pose.trans.get i - x.get i)
      (fun n => ((k n).pose.rot.mulVec (k n).vel.lin).get i - 0) := by
  obtain ⟨C, r, G, hC, r0, r1, hG, key⟩ := C105_rate hh hp h1 h2
  refine ⟨C, r, G, hC, r0, r1, hG, ?_⟩
  intro L E W S dv δ cid fr i x hr ht hd hi p k hset h3
  simpa using key δ (fun _ => 0) _ _ _ _ _ _ h3 (resting h (x.get i)) fun n => law_contact hr ht hd hi hset n

/-- **C105, surface contacts (partial).** Missing: as in C87. -/
theorem C105_surface_partial (hh : 0 < h) (hp : 0 < kp) (h1 : h * kp < 2 * kd) (h2 : h * kd < 2) :
    ∃ C r G : ℝ, 0 ≤ C ∧ 0 ≤ r ∧ r < 1 ∧ 0 ≤ G ∧ ∀ (L : Loop ℝ) (E : Program.Env ℝ) (W : World) (S : Setup ℝ)
      (dv : ℕ → Vec ℝ) (δ : ℕ → ℝ) (cid fr i : Nat) (x : V3 ℝ), L.Runs E W S dv → L.Touches E W S cid →
      S.cdecl cid = .sixD fr → i < 3 →
    let p := fun n => (FrameSettings.fresh (K := ℝ)).afterAll ((contactCalls cid (L.text n)).filterMap sixD?)
    let k := fun n => (L.robot n).frame fr
    (∀ n, (p n).pose.trans = x ∧ ∀ l, l < 3 → (p n).kp l = kp ∧ (p n).kd l = kd) →
    Disturbed h δ (fun n => (k n).pose.trans.get i) (fun n => ((k n).pose.rot.mulVec (k n).vel.lin).get i)
      (fun n => ((k n).pose.rot.mulVec (motionAcc E.robot.nv (k n).jac (k n).drift (dv n).get).lin).get i) →
    Forgets C r G δ (fun n => (k n).pose.trans.get i - x.get i)
      (fun n => ((k n).pose.rot.mulVec (k n).vel.lin).get i - 0) := by
  obtain ⟨C, r, G, hC, r0, r1, hG, key⟩ := C105_rate hh hp h1 h2
  refine ⟨C, r, G, hC, r0, r1, hG, ?_⟩
  intro L E W S dv δ cid fr i x hr ht hd hi p k hset h3
  simpa using key δ (fun _ => 0) _ _ _ _ _ _ h3 (resting h (x.get i)) fun n => law_surface hr ht hd hi hset n

/-- **C105, two frames (partial).** Missing: as in C87. -/
theorem C105_two_frames_partial (hh : 0 < h) (hp : 0 < kp) (h1 : h * kp < 2 * kd) (h2 : h * kd < 2) :
    ∃ C r G : ℝ, 0 ≤ C ∧ 0 ≤ r ∧ r < 1 ∧ 0 ≤ G ∧ ∀ (L : Loop ℝ) (E : Program.Env ℝ) (W : World) (S : Setup ℝ)
      (dv : ℕ → Vec ℝ) (δ : ℕ → ℝ) (cid f1 f2 i : Nat), L.Runs E W S dv → L.Touches E W S cid →
      S.cdecl cid = .pair f1 f2 → i < 3 →
    let p := fun n => (⟨⟨0, 0, 0⟩, ⟨0, 0, 0⟩⟩ : PairGains ℝ).afterAll ((contactCalls cid (L.text n)).filterMap gains?)
    let k1 := fun n => (L.robot n).frame f1
    let k2 := fun n => (L.robot n).frame f2
    let v := fun n => ((k1 n).pose.rot.mulVec (k1 n).vel.lin).get i - ((k2 n).pose.rot.mulVec (k2 n).vel.lin).get i
    (∀ n, (p n).kp.get i = kp ∧ (p n).kd.get i = kd) →
    Disturbed h δ (fun n => (k1 n).pose.trans.get i - (k2 n).pose.trans.get i) v
      (fun n => relativeAcc E.robot.nv (k1 n) (k2 n) (dv n).get i) →
    Forgets C r G δ (fun n => (k1 n).pose.trans.get i - (k2 n).pose.trans.get i) v := by
  obtain ⟨C, r, G, hC, r0, r1, hG, key⟩ := C105_rate hh hp h1 h2
  refine ⟨C, r, G, hC, r0, r1, hG, ?_⟩
  intro L E W S dv δ cid f1 f2 i hr ht hd hi p k1 k2 v hset h3
  simpa using key δ (fun _ => 0) _ _ _ _ _ _ h3 (resting h 0) fun n => by
    rw [law_two_frames hr ht hd hi hset n]; ring

end

/-! ## Speed limits -/

section
variable {K : Type} [Field K] [LinearOrder K] [IsStrictOrderedRing K] [FloorRing K] [HasSqrt K] [LawfulSqrt K]

/-- A speed that is to be at most `V` after the time `h`, with a disturbance of at most `δ` per unit of time. -/
theorem disturbed_speed {h V δ v a t w : K} (hh : 0 < h) (h0 : 0 ≤ t) (h1 : t ≤ h) (hδ : 0 ≤ δ) (hv : v ≤ V + δ * h)
    (ha : v + a * h ≤ V) (hw : w ≤ v + a * t + δ * t) : w ≤ V + δ * h := by
  have e : h * (V + δ * h - (v + a * t + δ * t)) = (h - t) * (V + δ * h - v) + t * (V - (v + a * h)) := by ring
  have : 0 ≤ h * (V + δ * h - (v + a * t + δ * t)) := by
    rw [e]
    exact add_nonneg (mul_nonneg (by linarith) (by linarith)) (mul_nonneg h0 (by linarith))
  linarith [nonneg_of_mul_nonneg_right this hh]

/-- **C105, speed limits of the joint-bounds task (partial).** As `C94_velocity_partial`, but the velocity `V n t` at time `t`
of period `n` differs by at most `δ t` from what the prescribed acceleration gives.  The limits are exceeded by at most
`δ dt`, however long the loop runs.  Missing: as in C87. -/
theorem C105_bounds_partial {L : Loop K} {E : Program.Env K} {W : World} {S : Setup K} {dv : ℕ → Vec K}
    (hr : L.Runs E W S dv) {tid : Nat} {dt : K} (ht : L.Holds E W S tid) (hd : S.decl tid = .jointBounds dt)
    {p : BoundSettings K} (hpt : ∀ n, (BoundSettings.fresh E.robot.na dt).afterAll E.robot.na
      ((taskCalls tid (L.text n)).filterMap jointBounds?) = p) (hpos : 0 < p.dt)
    {j : Nat} (hj : j < E.robot.na) (hin : let v := (L.robot 0).v (E.robot.nv - E.robot.na + j); p.vLb j ≤ v ∧ v ≤ p.vUb j)
    {d : ℕ → K} (hdt : ∀ n, 0 ≤ d n ∧ d n ≤ p.dt) {δ : K} (hδ : 0 ≤ δ) {V : ℕ → K → K}
    (hV : ∀ n t, 0 ≤ t → t ≤ d n → |V n t - velAt ((L.robot n).v (E.robot.nv - E.robot.na + j))
      (dv n (E.robot.nv - E.robot.na + j)) t| ≤ δ * t)
    (hmove : ∀ n, (L.robot (n + 1)).v (E.robot.nv - E.robot.na + j) = V n (d n)) (n : ℕ) (t : K) (h0 : 0 ≤ t) (h1 : t ≤ d n) :
    p.vLb j - δ * p.dt ≤ V n t ∧ V n t ≤ p.vUb j + δ * p.dt := by
  have dem : ∀ n, p.vLb j ≤ (L.robot n).v (E.robot.nv - E.robot.na + j) + p.dt * dv n (E.robot.nv - E.robot.na + j) ∧
        (L.robot n).v (E.robot.nv - E.robot.na + j) + p.dt * dv n (E.robot.nv - E.robot.na + j) ≤ p.vUb j := by
    intro n
    obtain ⟨-, f, hist, o, hdem⟩ := loop_demands hr ht n
    rw [hd] at hdem
    simp only [TaskDecl.Demands, hpt n] at hdem
    exact (hdem.2 j hj).2
  have during : ∀ n t, p.vLb j - δ * p.dt ≤ (L.robot n).v (E.robot.nv - E.robot.na + j) →
      (L.robot n).v (E.robot.nv - E.robot.na + j) ≤ p.vUb j + δ * p.dt → 0 ≤ t → t ≤ d n →
      p.vLb j - δ * p.dt ≤ V n t ∧ V n t ≤ p.vUb j + δ * p.dt := by
    intro n t h1 h2 h3 h4
    obtain ⟨g1, g2⟩ := dem n
    obtain ⟨k1, k2⟩ := abs_le.1 (hV n t h3 h4)
    have h4 := h4.trans (hdt n).2
    unfold velAt at k1 k2
    generalize (L.robot n).v (E.robot.nv - E.robot.na + j) = v at *
    generalize dv n (E.robot.nv - E.robot.na + j) = a at *
    constructor
    · have := disturbed_speed (V := -p.vLb j) (v := -v) (a := -a) (w := -V n t) hpos h3 h4 hδ (by linarith)
        (by linarith) (by linarith)
      linarith
    · exact disturbed_speed (v := v) (a := a) hpos h3 h4 hδ h2 (by linarith) (by linarith)
  have key : ∀ n, p.vLb j - δ * p.dt ≤ (L.robot n).v (E.robot.nv - E.robot.na + j) ∧
      (L.robot n).v (E.robot.nv - E.robot.na + j) ≤ p.vUb j + δ * p.dt := by
    intro n
    have := mul_nonneg hδ hpos.le
    induction n with
    | zero => exact ⟨by linarith [hin.1], by linarith [hin.2]⟩
    | succ n ih => rw [hmove n]; exact during n (d n) ih.1 ih.2 (hdt n).1 le_rfl
  exact during n t (key n).1 (key n).2 h0 h1

/-- **C105, speed limits of the task of combined limits (partial).** As `C104_speed_partial`, but the velocity `V n t` at time
`t` of period `n` differs by at most `δ t` from what the prescribed acceleration gives, where `δ` is at most the
acceleration limit: the joint can be slowed down faster than it is disturbed.  The limit is exceeded by at most
`δ (2 dt)`, however long the loop runs, and the limits can always be kept.  Missing: as in C87. -/
theorem C105_speed_partial {L : Loop K} {E : Program.Env K} {W : World} {S : Setup K} {dv : ℕ → Vec K}
    (hr : L.Runs E W S dv) {tid : Nat} {dt : K} (ht : L.Holds E W S tid) (hd : S.decl tid = .posVelAcc dt)
    (hnever : ∀ n, ∀ o ∈ (taskCalls tid (L.text n)).filterMap posVelAcc?,
      turnsPos E.robot.na o = false ∧ turnsVia E.robot.na o = false)
    (hfull : ∀ n, ∀ i, i < E.robot.na → (limitsOf E.robot.na tid (L.text n)).mask i = 1)
    (himp : ∀ n, (limitsOf E.robot.na tid (L.text n)).impVel = true) {j : Nat} (hj : j < E.robot.na)
    {δ : K} (hδ : 0 ≤ δ) (hz : δ ≤ 10000000000) (hacc : ∀ n, δ ≤ (limitsOf E.robot.na tid (L.text n)).ddqMax j)
    (hgrow : ∀ n, (limitsOf E.robot.na tid (L.text n)).dqMax j ≤ (limitsOf E.robot.na tid (L.text (n + 1))).dqMax j)
    (hin : |(L.robot 0).v (E.robot.nv - E.robot.na + j)| ≤ (limitsOf E.robot.na tid (L.text 0)).dqMax j)
    {d : ℕ → K} (hdt : ∀ n, 0 ≤ d n ∧ d n ≤ 2 * dt) {V : ℕ → K → K}
    (hV : ∀ n t, 0 ≤ t → t ≤ d n → |V n t - velAt ((L.robot n).v (E.robot.nv - E.robot.na + j))
      (dv n (E.robot.nv - E.robot.na + j)) t| ≤ δ * t)
    (hmove : ∀ n, (L.robot (n + 1)).v (E.robot.nv - E.robot.na + j) = V n (d n)) (n : ℕ) :
    let p := limitsOf E.robot.na tid (L.text n)
    p.Keepable (2 * dt) j ((L.robot n).q ((L.robot n).q.size - E.robot.na + j)) ((L.robot n).v (E.robot.nv - E.robot.na + j)) ∧
    (p.impAcc = true → |dv n (E.robot.nv - E.robot.na + j)| ≤ p.ddqMax j) ∧
    ∀ t, 0 ≤ t → t ≤ d n → |V n t| ≤ p.dqMax j + δ * (2 * dt) := by
  have hpos : 0 < dt := by
    obtain ⟨s0, s, l0, l1, x, hg, hw, hc, hpr, hx, hfe, hdv⟩ := hr 0
    obtain ⟨k, hk⟩ := ht 0
    exact (limits_of_cycle hg hw hc hk hd).1
  have hh : 0 < 2 * dt := by linarith
  have hV0 : ∀ n, 0 ≤ (limitsOf E.robot.na tid (L.text n)).dqMax j := by
    intro n
    induction n with
    | zero => exact (abs_nonneg _).trans hin
    | succ n ih => exact ih.trans (hgrow n)
  have possible : ∀ n, |(L.robot n).v (E.robot.nv - E.robot.na + j)| ≤
      (limitsOf E.robot.na tid (L.text n)).dqMax j + δ * (2 * dt) →
      (limitsOf E.robot.na tid (L.text n)).Keepable (2 * dt) j ((L.robot n).q ((L.robot n).q.size - E.robot.na + j))
        ((L.robot n).v (E.robot.nv - E.robot.na + j)) := by
    intro n hv
    obtain ⟨o1, o2⟩ := off_of_never (hnever n)
    obtain ⟨b, hb1, hb2⟩ : ∃ b, |velAt ((L.robot n).v (E.robot.nv - E.robot.na + j)) b (2 * dt)| ≤
        (limitsOf E.robot.na tid (L.text n)).dqMax j ∧ |b| ≤ δ := by
      have hV0 := hV0 n
      generalize (L.robot n).v (E.robot.nv - E.robot.na + j) = v at *
      generalize (limitsOf E.robot.na tid (L.text n)).dqMax j = M at *
      generalize 2 * dt = h at *
      obtain ⟨k1, k2⟩ := abs_le.1 hv
      unfold velAt
      rcases le_total v M with l1 | l1
      · rcases le_total (-M) v with l2 | l2
        · exact ⟨0, by rw [zero_mul, add_zero, abs_le]; exact ⟨l2, l1⟩, by simpa using hδ⟩
        · refine ⟨(-M - v) / h, ?_, ?_⟩
          · rw [div_mul_cancel₀ _ hh.ne', show v + (-M - v) = -M by ring, abs_neg, abs_of_nonneg hV0]
          · rw [abs_of_nonneg (div_nonneg (by linarith) hh.le), div_le_iff₀ hh]; linarith
      · refine ⟨(M - v) / h, ?_, ?_⟩
        · rw [div_mul_cancel₀ _ hh.ne', show v + (M - v) = M by ring, abs_of_nonneg hV0]
        · rw [abs_of_nonpos (div_nonpos_of_nonpos_of_nonneg (by linarith) hh.le), neg_le, le_div_iff₀ hh]; linarith
    exact ⟨fun e => absurd (e.symm.trans o1) (by simp), fun e => absurd (e.symm.trans o2) (by simp), b,
      fun e => absurd (e.symm.trans o1) (by simp), fun _ => hb1, fun e => absurd (e.symm.trans o2) (by simp),
      fun _ => hb2.trans (hacc n), fun _ => hb2.trans hz⟩
  have dem : ∀ n, |(L.robot n).v (E.robot.nv - E.robot.na + j)| ≤
      (limitsOf E.robot.na tid (L.text n)).dqMax j + δ * (2 * dt) →
      |velAt ((L.robot n).v (E.robot.nv - E.robot.na + j)) (dv n (E.robot.nv - E.robot.na + j)) (2 * dt)| ≤
        (limitsOf E.robot.na tid (L.text n)).dqMax j ∧
      ((limitsOf E.robot.na tid (L.text n)).impAcc = true → |dv n (E.robot.nv - E.robot.na + j)| ≤
        (limitsOf E.robot.na tid (L.text n)).ddqMax j) := by
    intro n hv
    have := C104_loop_partial hr ht hd n ⟨.inr fun o ho => (hnever n o ho).1, .inr fun o ho => (hnever n o ho).2⟩
      (hfull n) j hj (possible n hv)
    exact ⟨this.2.1 (himp n), this.2.2.2⟩
  have during : ∀ n t, |(L.robot n).v (E.robot.nv - E.robot.na + j)| ≤
      (limitsOf E.robot.na tid (L.text n)).dqMax j + δ * (2 * dt) → 0 ≤ t → t ≤ d n →
      |V n t| ≤ (limitsOf E.robot.na tid (L.text n)).dqMax j + δ * (2 * dt) := by
    intro n t hv h3 h4
    obtain ⟨g1, g2⟩ := abs_le.1 (dem n hv).1
    obtain ⟨k1, k2⟩ := abs_le.1 (hV n t h3 h4)
    obtain ⟨v1, v2⟩ := abs_le.1 hv
    have h4 := h4.trans (hdt n).2
    unfold velAt at g1 g2 k1 k2
    generalize (L.robot n).v (E.robot.nv - E.robot.na + j) = v at *
    generalize dv n (E.robot.nv - E.robot.na + j) = a at *
    rw [abs_le]
    constructor
    · have := disturbed_speed (V := (limitsOf E.robot.na tid (L.text n)).dqMax j) (v := -v) (a := -a) (w := -V n t) hh h3 h4 hδ
        (by linarith) (by linarith) (by linarith)
      linarith
    · exact disturbed_speed (v := v) (a := a) hh h3 h4 hδ v2 (by linarith) (by linarith)
  have key : ∀ n, |(L.robot n).v (E.robot.nv - E.robot.na + j)| ≤
      (limitsOf E.robot.na tid (L.text n)).dqMax j + δ * (2 * dt) := by
    intro n
    have := mul_nonneg hδ hh.le
    induction n with
    | zero => linarith
    | succ n ih => rw [hmove n]; exact (during n (d n) ih (hdt n).1 le_rfl).trans (by linarith [hgrow n])
  exact ⟨possible n (key n), (dem n (key n)).2, fun t h0 h1 => during n t (key n) h0 h1⟩

end

/-! ## Loops with disturbances -/

/-- A mass that a spring-damper law with gains 1 holds with a steady offset: the hypotheses of `C105_rate` are met with
disturbances of 3/2 per period of length 1, and the offset is 1. -/
example : ∃ x v a : ℕ → ℝ, Disturbed 1 (fun _ => 3 / 2) x v a ∧ (∀ n, a n = 0 + 1 * (0 - x n) + 1 * (0 - v n)) ∧
    ∀ n, x n - 0 = 1 := by
  obtain ⟨x, v, a, h1, h2, h3⟩ := C105_steady (h := 1) (kp := 1) (kd := 1) one_pos one_pos (δ := 3 / 2) (by norm_num)
  exact ⟨x, v, a, h1, h2, fun n => by rw [h3 n]; norm_num⟩

/-- The hinge of C93 moves for periods of length 1 although its controller has been tuned for periods of length 1/2: what it
moves too far is a disturbance. -/
example : ∃ C r G : ℝ, 0 ≤ C ∧ 0 ≤ r ∧ r < 1 ∧ 0 ≤ G ∧ Forgets C r G
    (fun n => |(HingeDemo.motion (n + 1)).1 - ((HingeDemo.motion n).1 + 1 / 2 * (HingeDemo.motion n).2 +
        (1 / 2) ^ 2 / 2 * (-1 * (HingeDemo.motion n).1 - 1 * (HingeDemo.motion n).2))| +
      |(HingeDemo.motion (n + 1)).2 - ((HingeDemo.motion n).2 +
        1 / 2 * (-1 * (HingeDemo.motion n).1 - 1 * (HingeDemo.motion n).2))| + 0)
    (fun n => (HingeDemo.motion n).1 - 0) (fun n => (HingeDemo.motion n).2 - 0) := by
  obtain ⟨C, r, G, hC, r0, r1, hG, key⟩ := C105_posture_partial (h := 1 / 2) (kp := 1) (kd := 1) (by norm_num) (by norm_num)
    (by norm_num) (by norm_num)
  refine ⟨C, r, G, hC, r0, r1, hG, ?_⟩
  have := key HingeDemo.loop HingeDemo.env HingeDemo.world HingeDemo.setup HingeDemo.acc _ (fun _ => 0) 0 0 0
    HingeDemo.loop_runs (fun n => ⟨1, by rw [(HingeDemo.loop_typed.2 n).1]; exact List.mem_singleton.2 rfl⟩) rfl
    (fun x y => rfl)
    (fun n => by
      simp only [show HingeDemo.env.robot = HingeDemo.hinge from rfl, HingeDemo.settings]
      exact ⟨⟨Nat.zero_lt_one, rfl⟩, trivial, trivial⟩)
    (fun n => ⟨le_add_of_nonneg_right (abs_nonneg _), le_add_of_nonneg_left (abs_nonneg _)⟩)
    (fun n => by
      simp only [show HingeDemo.env.robot = HingeDemo.hinge from rfl, HingeDemo.settings]
      simp [PostureSettings.target, HingeDemo.hinge, Vec.zero])
  simp only [show HingeDemo.env.robot = HingeDemo.hinge from rfl, HingeDemo.settings] at this
  exact this

open SpeedDemo in
open SwingDemo (speed speed_abs snap acc env world setup) in
/-- The solutions slow the hinge of C104 down by 3/2 per unit of time, but it slows down by 2: it is disturbed by 1/2. -/
example (n : ℕ) (t : ℝ) (h0 : 0 ≤ t) (h1 : t ≤ 1) : |velAt (speed n) (-2 * speed n) t| ≤ 1 + 1 / 2 * (2 * (1 / 2)) := by
  have := (C105_speed_partial (loop_runs_of (c := 3 / 2) (by norm_num) (by norm_num)) (tid := 0)
    (fun n => ⟨1, by rw [(loop_typed.2 n).1]; exact List.mem_singleton.2 rfl⟩) (dt := 1 / 2) rfl never
    (fun n i _ => by rw [settings]; rfl) (fun n => by rw [settings]; rfl) (j := 0) Nat.zero_lt_one
    (δ := 1 / 2) (by norm_num) (by norm_num)
    (fun n => by rw [settings]; exact (by norm_num : (1 / 2 : ℝ) ≤ 2)) (fun n => by rw [settings, settings])
    (by rw [settings]; exact (speed_abs 0).le) (d := fun _ => 1) (fun _ => ⟨zero_le_one, by norm_num⟩)
    (V := fun n t => velAt (speed n) (-2 * speed n) t)
    (fun n t h0 _ => by
      show |velAt (speed n) (-2 * speed n) t - velAt (speed n) (-(3 / 2) * speed n) t| ≤ 1 / 2 * t
      rw [show velAt (speed n) (-2 * speed n) t - velAt (speed n) (-(3 / 2) * speed n) t = -(1 / 2 * t) * speed n by
        unfold velAt; ring, abs_mul, speed_abs, abs_neg, abs_of_nonneg (by positivity)]
      linarith)
    (fun n => (SwingDemo.moves n 0 Nat.zero_lt_one).2) n).2.2 t h0 h1
  rw [settings] at this
  exact this

end Tsid.Props
