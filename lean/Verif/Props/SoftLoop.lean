import Verif.Spec.SoftLoop
import Verif.Props.Disturbed
import Verif.Props.ProgramText

/-!
# C106: tasks of priority 1 in a control loop

Tasks of priority 1 are not achieved exactly.  What is left of them is bounded by what the program could achieve.
-/

set_option linter.unusedSectionVars false

namespace Tsid.Props

open Spec Filter Formulation Finset

section
variable {K : Type} [Field K] [LinearOrder K] [IsStrictOrderedRing K] [FloorRing K] [HasSqrt K] [LawfulSqrt K]

/-! ## Errors are not negative -/

theorem selected_nonneg (m : Vec K) (e : Nat → K) : 0 ≤ selected m e :=
  sum_nonneg fun i _ => by split <;> positivity

theorem sq_le_selected {m : Vec K} {e : Nat → K} {i : Nat} (h : Selects m i) : e i ^ 2 ≤ selected m e := by
  have := single_le_sum (f := fun i => if m i = 1 then e i ^ 2 else 0) (s := range m.size)
    (fun i _ => by split <;> positivity) (mem_range.2 h.1)
  rw [if_pos h.2] at this
  exact this

/-- The squares of the errors of the three translations are among the errors. -/
theorem three_le_selected {m : Vec K} {e : Nat → K} (h : ∀ l, l < 3 → Selects m l) :
    e 0 ^ 2 + e 1 ^ 2 + e 2 ^ 2 ≤ selected m e := by
  have h2 := (h 2 (by omega)).1
  have : ∑ i ∈ range 3, (if m i = 1 then e i ^ 2 else 0) ≤ selected m e :=
    sum_le_sum_of_subset_of_nonneg (range_mono (by omega)) fun i _ _ => by split <;> positivity
  simp only [sum_range_succ, range_zero, sum_empty, zero_add, (h 0 (by omega)).2, (h 1 (by omega)).2,
    (h 2 (by omega)).2, if_true] at this
  exact this

theorem taskError_nonneg (E : Program.Env K) (x : TaskObj.Ctx K) (calls hist : List (TaskCall K)) (y : Nat → K)
    (d : TaskDecl K) : 0 ≤ d.Error E x calls hist y := by
  cases d <;> simp only [TaskDecl.Error] <;>
    first
      | exact selected_nonneg _ _
      | exact sum_nonneg fun _ _ => sq_nonneg _
      | exact le_rfl

theorem contactError_nonneg (E : Program.Env K) (w : Snapshot K) (calls : List (ContactCall K)) (y : Nat → K)
    (d : ContactDecl) : 0 ≤ d.Error E w calls y := by
  cases d <;> exact sum_nonneg fun _ _ => sq_nonneg _

theorem miss_nonneg (S : Setup K) (E : Program.Env K) (W : World) (ops : List (Program.Op K)) (w : Snapshot K) (t : K)
    (b : Behaviour K) (fam : Family) (tid : Nat) : 0 ≤ S.miss E W ops w t b fam tid := by
  unfold Setup.miss
  split
  · exact sum_nonneg fun _ _ => sq_nonneg _
  · exact sum_nonneg fun _ _ => sq_nonneg _
  · exact taskError_nonneg _ _ _ _ _ _

theorem loss_nonneg (S : Setup K) (E : Program.Env K) (W : World) (ops : List (Program.Op K)) (w : Snapshot K) (t : K)
    (b : Behaviour K) {it : Item K} (h : NonNegative it) : 0 ≤ S.loss E W ops w t b it := by
  cases it with
  | task fam tid p k =>
    simp only [Setup.loss]
    split
    · next e => exact mul_nonneg (h e) (miss_nonneg S E W ops w t b fam tid)
    · exact le_rfl
  | contact cid p wm wf =>
    simp only [Setup.loss]
    refine add_nonneg ?_ (mul_nonneg h.2 (sum_nonneg fun _ _ => sq_nonneg _))
    split
    · next e => exact mul_nonneg (h.1 e) (contactError_nonneg _ _ _ _ _)
    · exact le_rfl

theorem effort_nonneg (S : Setup K) (E : Program.Env K) (W : World) (ops : List (Program.Op K)) (t : K) (b : Behaviour K) :
    0 ≤ S.effort E W ops t b := by
  unfold Setup.effort
  refine add_nonneg (sum_nonneg fun _ _ => sq_nonneg _) (List.sum_nonneg fun x hx => ?_)
  obtain ⟨c, -, rfl⟩ := List.mem_map.1 hx
  exact sum_nonneg fun _ _ => sq_nonneg _

/-- What a registered object loses is at most twice the objective. -/
theorem loss_le_aim {S : Setup K} {E : Program.Env K} {W : World} {ops : List (Program.Op K)} {w : Snapshot K} {t : K}
    (hpos : ∀ it ∈ (S.registry E W ops t).items, NonNegative it) (reg : Bool) (b : Behaviour K) {it : Item K}
    (hit : it ∈ (S.registry E W ops t).items) : S.loss E W ops w t b it ≤ 2 * S.aim E W ops w t reg b := by
  have h1 : S.loss E W ops w t b it ≤ ((S.registry E W ops t).items.map (S.loss E W ops w t b)).sum := by
    refine List.single_le_sum (fun x hx => ?_) _ (List.mem_map.2 ⟨it, hit, rfl⟩)
    obtain ⟨it', hi', rfl⟩ := List.mem_map.1 hx
    exact loss_nonneg S E W ops w t b (hpos it' hi')
  have h2 : 0 ≤ if reg then 1 / 2 * (Solver.defaultReg * S.effort E W ops t b) else 0 := by
    split
    · have := effort_nonneg S E W ops t b
      unfold Solver.defaultReg
      positivity
    · exact le_rfl
  unfold Setup.aim Setup.losses
  linarith

/-- **C106, one cycle.** Of a task of priority 1 the best behaviour misses, in squares and weighed, at most what any behaviour
that obeys the text misses of everything together. -/
theorem C106_cycle {S : Setup K} {E : Program.Env K} {W : World} {ops : List (Program.Op K)} {w : Snapshot K} {t : K}
    {reg : Bool} {b b' : Behaviour K} (hpos : ∀ it ∈ (S.registry E W ops t).items, NonNegative it)
    (hb : Best E W S ops w t reg b) (hb' : Intended E W S ops w t b') {fam : Family} {tid : Nat} {k : K}
    (hin : .task fam tid 1 k ∈ (S.registry E W ops t).items) :
    k * S.miss E W ops w t b fam tid ≤ 2 * S.aim E W ops w t reg b' := by
  have h1 := loss_le_aim (w := w) hpos reg b hin
  simp only [Setup.loss, if_true] at h1
  linarith [hb.2 b' hb']

/-- **C106, everything at once.** If the laws of all objects of priority 1 and the reference forces can be had together, the
best behaviour of a back-end that does not regularise has them all. -/
theorem C106_all {S : Setup K} {E : Program.Env K} {W : World} {ops : List (Program.Op K)} {w : Snapshot K} {t : K}
    {b b' : Behaviour K} (hpos : ∀ it ∈ (S.registry E W ops t).items, NonNegative it)
    (hb : Best E W S ops w t false b) (hb' : Intended E W S ops w t b') (h0 : S.losses E W ops w t b' = 0)
    {fam : Family} {tid : Nat} {k : K} (hk : 0 < k) (hin : .task fam tid 1 k ∈ (S.registry E W ops t).items) :
    S.miss E W ops w t b fam tid = 0 := by
  have h1 := C106_cycle hpos hb hb' hin
  unfold Setup.aim at h1
  rw [h0] at h1
  simp only [Bool.false_eq_true, if_false, add_zero, mul_zero] at h1
  have h2 := miss_nonneg S E W ops w t b fam tid
  exact le_antisymm (by by_contra hc; push Not at hc; nlinarith) h2

theorem soft_miss {L : Loop K} {E : Program.Env K} {W : World} {S : Setup K} {reg : Bool} {b : ℕ → Behaviour K}
    {ε : ℕ → K} (ho : L.Optimal E W S reg b) (hr : L.Reconcilable E W S reg ε) {tid : Nat} {k : K} (hk : 0 < k)
    (hp : L.Prefers E W S tid k) (n : ℕ) :
    S.miss E W (L.text n) (L.robot n) (L.time n) (b n) .motion tid ≤ ε n / k := by
  obtain ⟨b', hb', he⟩ := hr n
  obtain ⟨hpos, k', hk', hin⟩ := hp n
  have h1 := C106_cycle hpos (ho n).2 hb' hin
  rw [le_div_iff₀ hk]
  have := mul_le_mul_of_nonneg_right hk' (miss_nonneg S E W (L.text n) (L.robot n) (L.time n) (b n) .motion tid)
  linarith

end

/-! ## Tracking -/

variable {h kp kd k : ℝ}

/-- **C106, joints (partial).** A control loop holds a posture task at priority 1 with weight at least `k`; in cycle `n` some
behaviour that obeys the text has a weighted sum of squared errors of at most `ε n`.  If the period is short for the gains,
the joint tracks its reference up to an error due to `√(ε n / k)` and to the disturbances: for a larger weight the error is
smaller.  The constants depend on the gains and the period only.  Missing: as in C99. -/
theorem C106_posture_partial (hh : 0 < h) (hp : 0 < kp) (h1 : h * kp < 2 * kd) (h2 : h * kd < 2) :
    ∃ C r G : ℝ, 0 ≤ C ∧ 0 ≤ r ∧ r < 1 ∧ 0 ≤ G ∧ ∀ (L : Loop ℝ) (E : Program.Env ℝ) (W : World) (S : Setup ℝ) (reg : Bool)
      (b : ℕ → Behaviour ℝ) (ε δ δ' : ℕ → ℝ) (tid i j : Nat) (k : ℝ), L.Optimal E W S reg b → L.Reconcilable E W S reg ε →
      0 < k → L.Prefers E W S tid k → S.decl tid = .posture →
    (∀ x y : Vec ℝ, (E.robot.difference x y) (E.robot.nv - E.robot.na + j) = y i - x i) →
    let p := fun n => (PostureSettings.fresh E.robot).afterAll E.robot ((taskCalls tid (L.text n)).filterMap posture?)
    let v := fun n => (L.robot n).v (E.robot.nv - E.robot.na + j)
    (∀ n, Selects (p n).mask j ∧ (p n).kp j = kp ∧ (p n).kd j = kd) →
    Disturbed h δ (fun n => (L.robot n).q i) v (fun n => (b n).dv (E.robot.nv - E.robot.na + j)) →
    Disturbed h δ' (fun n => (p n).target E.robot i) (fun n => (p n).ref.vel j) (fun n => (p n).ref.acc j) →
    Forgets C r G (fun n => δ n + δ' n + (h + h ^ 2 / 2) * √(ε n / k)) (fun n => (L.robot n).q i - (p n).target E.robot i)
      (fun n => v n - (p n).ref.vel j) := by
  obtain ⟨C, r, G, hC, r0, r1, hG, key⟩ := C105_inexact hh hp h1 h2
  refine ⟨C, r, G, hC, r0, r1, hG, ?_⟩
  intro L E W S reg b ε δ δ' tid i j k ho hrec hk hpre hd hline p v hset h3 h4
  refine key δ δ' _ _ _ _ _ _ _ h3 h4 fun n => ?_
  obtain ⟨m1, m2, m3⟩ := hset n
  have hm := soft_miss ho hrec hk hpre n
  unfold Setup.miss at hm
  rw [hd] at hm
  have := (sq_le_selected m1).trans hm
  refine Real.abs_le_sqrt (le_trans (le_of_eq ?_) this)
  show _ = ((b n).dv (E.robot.nv - E.robot.na + j) - (p n).law E.robot (L.robot n).q (L.robot n).v j) ^ 2
  rw [PostureSettings.law, hline]
  show _ = ((b n).dv (E.robot.nv - E.robot.na + j) -
    ((p n).ref.acc j - (p n).kp j * ((L.robot n).q i - (p n).target E.robot i) - (p n).kd j * (v n - _))) ^ 2
  rw [m2, m3]
  ring

/-- **C106, centre of mass (partial).** Missing: as in C99. -/
theorem C106_com_partial (hh : 0 < h) (hp : 0 < kp) (h1 : h * kp < 2 * kd) (h2 : h * kd < 2) :
    ∃ C r G : ℝ, 0 ≤ C ∧ 0 ≤ r ∧ r < 1 ∧ 0 ≤ G ∧ ∀ (L : Loop ℝ) (E : Program.Env ℝ) (W : World) (S : Setup ℝ) (reg : Bool)
      (b : ℕ → Behaviour ℝ) (ε δ δ' : ℕ → ℝ) (tid i : Nat) (k : ℝ), L.Optimal E W S reg b → L.Reconcilable E W S reg ε →
      0 < k → L.Prefers E W S tid k → S.decl tid = .com →
    let p := fun n => (ComSettings.fresh (K := ℝ)).afterAll ((taskCalls tid (L.text n)).filterMap com?)
    let c := fun n => (L.robot n).com
    (∀ n, Selects (p n).mask i ∧ (p n).kp.get i = kp ∧ (p n).kd.get i = kd) →
    Disturbed h δ (fun n => (c n).pos.get i) (fun n => (c n).vel.get i)
      (fun n => (pointAcc E.robot.nv (c n).jac (c n).drift (b n).dv).get i) →
    Disturbed h δ' (fun n => (p n).pos i) (fun n => (p n).vel i) (fun n => (p n).acc i) →
    Forgets C r G (fun n => δ n + δ' n + (h + h ^ 2 / 2) * √(ε n / k)) (fun n => (c n).pos.get i - (p n).pos i)
      (fun n => (c n).vel.get i - (p n).vel i) := by
  obtain ⟨C, r, G, hC, r0, r1, hG, key⟩ := C105_inexact hh hp h1 h2
  refine ⟨C, r, G, hC, r0, r1, hG, ?_⟩
  intro L E W S reg b ε δ δ' tid i k ho hrec hk hpre hd p c hset h3 h4
  refine key δ δ' _ _ _ _ _ _ _ h3 h4 fun n => ?_
  obtain ⟨m1, m2, m3⟩ := hset n
  have hm := soft_miss ho hrec hk hpre n
  unfold Setup.miss at hm
  rw [hd] at hm
  have := (sq_le_selected m1).trans hm
  refine Real.abs_le_sqrt (le_trans (le_of_eq ?_) this)
  show _ = ((pointAcc E.robot.nv (c n).jac (c n).drift (b n).dv).get i - (p n).law (c n) i) ^ 2
  rw [ComSettings.law, m2, m3]

/-- **C106, angular momentum (partial).** Missing: as in C99. -/
theorem C106_momentum_partial {L : Loop ℝ} {E : Program.Env ℝ} {W : World} {S : Setup ℝ} {reg : Bool} {b : ℕ → Behaviour ℝ}
    {ε : ℕ → ℝ} (ho : L.Optimal E W S reg b) (hrec : L.Reconcilable E W S reg ε) {tid : Nat} (hk : 0 < k)
    (hpre : L.Prefers E W S tid k) (hd : S.decl tid = .am) {i : Nat} (hi : i < 3) (hh : 0 ≤ h) {δ δ' : ℕ → ℝ} :
    let p := fun n => (AmSettings.fresh (K := ℝ)).afterAll ((taskCalls tid (L.text n)).filterMap am?)
    let m := fun n => angularMomentum (L.robot n).Ag (L.robot n).v.get i
    (∀ n, (p n).kp.get i = kp) →
    DisturbedRate h δ m (fun n => angularMomentum (L.robot n).Ag (b n).dv i + (L.robot n).dh.get i) →
    DisturbedRate h δ' (fun n => (p n).mom i) (fun n => (p n).dmom i) →
    ∀ n, |m n - (p n).mom i| ≤ |1 - h * kp| ^ n * |m 0 - (p 0).mom i| +
      faded |1 - h * kp| (fun k' => δ k' + δ' k' + h * √(ε k' / k)) n := by
  intro p m hset h3 h4 n
  induction n with
  | zero => simp [faded_zero]
  | succ n ih =>
    have hm := soft_miss ho hrec hk hpre n
    unfold Setup.miss at hm
    rw [hd] at hm
    have c1 : ∑ i ∈ range 3, (angularMomentum (L.robot n).Ag (b n).dv i + (L.robot n).dh.get i -
        (p n).law (L.robot n).Ag (L.robot n).v.get i) ^ 2 ≤ ε n / k := hm
    have c2 := (single_le_sum (f := fun i => (angularMomentum (L.robot n).Ag (b n).dv i + (L.robot n).dh.get i -
        (p n).law (L.robot n).Ag (L.robot n).v.get i) ^ 2) (fun _ _ => sq_nonneg _) (mem_range.2 hi)).trans c1
    have c3 := Real.abs_le_sqrt c2
    rw [AmSettings.law, hset n] at c3
    have a := h3 n
    have b' := h4 n
    dsimp only at a b'
    change |angularMomentum (L.robot n).Ag (b n).dv i + (L.robot n).dh.get i - ((p n).dmom i + kp * ((p n).mom i - m n))| ≤ _ at c3
    generalize angularMomentum (L.robot n).Ag (b n).dv i + (L.robot n).dh.get i = z at *
    rw [faded_succ]
    have e : m (n + 1) - (p (n + 1)).mom i = (1 - h * kp) * (m n - (p n).mom i) +
        (m (n + 1) - (m n + h * z)) + h * (z - ((p n).dmom i + kp * ((p n).mom i - m n))) -
        ((p (n + 1)).mom i - ((p n).mom i + h * (p n).dmom i)) := by ring
    have t2 := mul_le_mul_of_nonneg_left ih (abs_nonneg (1 - h * kp))
    have t3 := mul_le_mul_of_nonneg_left c3 hh
    rw [e]
    refine (abs_sub _ _).trans ?_
    refine (add_le_add ((abs_add_le _ _).trans (add_le_add (abs_add_le _ _) le_rfl)) b').trans ?_
    rw [abs_mul, abs_mul, abs_of_nonneg hh, pow_succ]
    linarith

/-- A rotation does not lengthen. -/
theorem rotated_sq_le {Rm : M3 ℝ} (ho : Rm.Orthogonal) (d : V3 ℝ) {i : Nat} (hi : i < 3) :
    (Rm.mulVec d).get i ^ 2 ≤ d.x ^ 2 + d.y ^ 2 + d.z ^ 2 := by
  have e := transpose_mulVec_mul ho d
  · obtain ⟨u, hu⟩ : ∃ u, u = Rm.mulVec d := ⟨_, rfl⟩
    have e' : Rm.transpose.mulVec u = d := by rw [hu]; exact e
    have n1 : u.x ^ 2 + u.y ^ 2 + u.z ^ 2 = d.x ^ 2 + d.y ^ 2 + d.z ^ 2 := by
      have x1 : u.x * u.x + u.y * u.y + u.z * u.z = d.x * d.x + d.y * d.y + d.z * d.z := by
        have hx : u.x = (Rm.mulVec d).x := by rw [hu]
        have hy : u.y = (Rm.mulVec d).y := by rw [hu]
        have hz : u.z = (Rm.mulVec d).z := by rw [hu]
        have dx : (Rm.transpose.mulVec u).x = d.x := by rw [e']
        have dy : (Rm.transpose.mulVec u).y = d.y := by rw [e']
        have dz : (Rm.transpose.mulVec u).z = d.z := by rw [e']
        simp only [M3.mulVec, M3.transpose] at hx hy hz dx dy dz
        linear_combination u.x * hx + u.y * hy + u.z * hz + d.x * dx + d.y * dy + d.z * dz
      nlinarith
    rw [← hu, ← n1]
    rcases i with _ | _ | _ | i
    · simp only [V3.get]; nlinarith [sq_nonneg u.y, sq_nonneg u.z]
    · simp only [V3.get]; nlinarith [sq_nonneg u.x, sq_nonneg u.z]
    · simp only [V3.get]; nlinarith [sq_nonneg u.x, sq_nonneg u.y]
    · omega

/-- **C106, position of a frame (partial).** Missing: as in C99. -/
theorem C106_frame_partial (hh : 0 < h) (hp : 0 < kp) (h1 : h * kp < 2 * kd) (h2 : h * kd < 2) :
    ∃ C r G : ℝ, 0 ≤ C ∧ 0 ≤ r ∧ r < 1 ∧ 0 ≤ G ∧ ∀ (L : Loop ℝ) (E : Program.Env ℝ) (W : World) (S : Setup ℝ) (reg : Bool)
      (b : ℕ → Behaviour ℝ) (ε δ δ' : ℕ → ℝ) (tid fr i : Nat) (k : ℝ), L.Optimal E W S reg b → L.Reconcilable E W S reg ε →
      0 < k → L.Prefers E W S tid k → S.decl tid = .se3 fr → i < 3 →
    let p := fun n => (FrameSettings.fresh (K := ℝ)).afterAll ((taskCalls tid (L.text n)).filterMap se3?)
    let f := fun n => (L.robot n).frame fr
    (∀ n, ((p n).loc = false ∧ Selects (p n).mask i ∧ (p n).kp i = kp ∧ (p n).kd i = kd) ∨
      ((p n).loc = true ∧ ∀ l, l < 3 → Selects (p n).mask l ∧ (p n).kp l = kp ∧ (p n).kd l = kd)) →
    Disturbed h δ (fun n => (f n).pose.trans.get i) (fun n => ((f n).pose.rot.mulVec (f n).vel.lin).get i)
      (fun n => ((f n).pose.rot.mulVec (motionAcc E.robot.nv (f n).jac (f n).drift (b n).dv).lin).get i) →
    Disturbed h δ' (fun n => (p n).pose.trans.get i) (fun n => (p n).vel.lin.get i) (fun n => (p n).acc.lin.get i) →
    Forgets C r G (fun n => δ n + δ' n + (h + h ^ 2 / 2) * √(ε n / k)) (fun n => (f n).pose.trans.get i - (p n).pose.trans.get i)
      (fun n => ((f n).pose.rot.mulVec (f n).vel.lin).get i - (p n).vel.lin.get i) := by
  obtain ⟨C, r, G, hC, r0, r1, hG, key⟩ := C105_inexact hh hp h1 h2
  refine ⟨C, r, G, hC, r0, r1, hG, ?_⟩
  intro L E W S reg b ε δ δ' tid fr i k ho hrec hk hpre hd hi p f hset h3 h4
  refine key δ δ' _ _ _ _ _ _ _ h3 h4 fun n => ?_
  have hm := soft_miss ho hrec hk hpre n
  unfold Setup.miss at hm
  rw [hd] at hm
  have hm : selected (p n).mask (fun l => (p n).achieved E.robot.nv (f n) (b n).dv l - (p n).law E.log3 (f n) l) ≤ ε n / k := hm
  have hor : (f n).pose.rot.Orthogonal := (ho n).1.rot fr
  refine Real.abs_le_sqrt ?_
  rcases hset n with ⟨hl, m1, m2, m3⟩ | ⟨hl, hall⟩
  · refine le_trans (le_of_eq ?_) ((sq_le_selected m1).trans hm)
    simp only [FrameSettings.achieved, FrameSettings.law, hl, Bool.false_eq_true, if_false, motion_get_lin hi, rotate,
      worldError, m2, m3, v3_sub_get]
  · have hthree := (three_le_selected fun l hl3 => (hall l hl3).1).trans hm
    obtain ⟨e, he⟩ : ∃ e : Nat → ℝ, e = fun l => (p n).achieved E.robot.nv (f n) (b n).dv l - (p n).law E.log3 (f n) l := ⟨_, rfl⟩
    have hthree : e 0 ^ 2 + e 1 ^ 2 + e 2 ^ 2 ≤ ε n / k := by rw [he]; exact hthree
    have hu := unrotate (Rm := (f n).pose.rot)
      (m := (motionAcc E.robot.nv (f n).jac (f n).drift (b n).dv).lin - ⟨e 0, e 1, e 2⟩) hor
      (A := (p n).acc.lin) (E := (p n).pose.trans - (f n).pose.trans) (V := (p n).vel.lin) (w := (f n).vel.lin)
      (kp := kp) (kd := kd) (fun l hl3 => by
        obtain ⟨m1, m2, m3⟩ := hall l hl3
        have e1 : (⟨e 0, e 1, e 2⟩ : V3 ℝ).get l = e l := by
          rcases l with _ | _ | _ | l
          · rfl
          · rfl
          · rfl
          · omega
        rw [v3_sub_get, e1, he]
        simp only [FrameSettings.achieved, FrameSettings.law, hl, if_true, motion_get_lin hl3, rotate,
          localError, m2, m3]
        ring) hi
    have hsub : ((f n).pose.rot.mulVec ((motionAcc E.robot.nv (f n).jac (f n).drift (b n).dv).lin - ⟨e 0, e 1, e 2⟩)).get i =
        ((f n).pose.rot.mulVec (motionAcc E.robot.nv (f n).jac (f n).drift (b n).dv).lin).get i -
          ((f n).pose.rot.mulVec ⟨e 0, e 1, e 2⟩).get i := by
      have : (f n).pose.rot.mulVec ((motionAcc E.robot.nv (f n).jac (f n).drift (b n).dv).lin - ⟨e 0, e 1, e 2⟩) =
        (f n).pose.rot.mulVec (motionAcc E.robot.nv (f n).jac (f n).drift (b n).dv).lin -
          (f n).pose.rot.mulVec ⟨e 0, e 1, e 2⟩ := by
        generalize (motionAcc E.robot.nv (f n).jac (f n).drift (b n).dv).lin = m
        show M3.mulVec _ ⟨m.x - e 0, m.y - e 1, m.z - e 2⟩ = (⟨_, _, _⟩ : V3 ℝ)
        simp only [M3.mulVec, V3.mk.injEq]
        exact ⟨by ring, by ring, by ring⟩
      rw [this, v3_sub_get]
    rw [hsub, v3_sub_get] at hu
    refine le_trans (le_of_eq ?_) ((rotated_sq_le hor ⟨e 0, e 1, e 2⟩ hi).trans hthree)
    rw [← hu]
    ring

/-! ## Loops with a solver -/

section
variable {K : Type} [Field K] [LinearOrder K] [IsStrictOrderedRing K] [FloorRing K] [HasSqrt K] [LawfulSqrt K]

/-- One back-end. -/
theorem optimal_of_solved {R C : Type} {D : Solve.Driver K R C} {u0 : Solve.Object K R} {Sat : R → (Nat → K) → Prop}
    {Success : Solve.Answer C K → Prop} {reg : Bool} {L : Loop K} {E : Program.Env K} {W : World} {S : Setup K}
    {engine : ℕ → Solver.State K R → Vec K → Solve.Answer C K} {b : ℕ → Behaviour K}
    (ht : L.Typed E W S) (hn : E.ndebug = true)
    (hup : ∀ n fam tid k, .task fam tid 0 k ∈ (S.registry E W (L.text n) (L.time n)).items → (S.decl tid).Upright (L.robot n))
    (hv : ∀ n, S.Viable E W (L.text n) (L.robot n) (L.time n))
    (heq : ∀ n, S.SoftEqualities E W (L.text n) (L.time n))
    (he : ∀ n, Sound Sat Success (engine n)) (hs : L.SolvedAs E W S D u0 Success engine b)
    (hd : ∀ n s0 s l0 l1, Program.run E S.start (L.text n) = some s0 →
      Program.compute E (L.robot n) (L.time n) s0 = .ok s () → problem s.form = [l0, l1] →
      Admissible (nVar s.form) l0 (some l1) → ¬ hasBound l0 →
      ∃ Obj, SolvesProblem D E.ndebug u0 Sat Success (nVar s.form) reg l0 l1 Obj) :
    L.Optimal E W S reg b := by
  obtain ⟨u, hu0, hu⟩ := hs
  have hist : ∀ n, ∃ hist, (∀ c ∈ hist, c.Sized) ∧ solves D E.ndebug u0 hist = some (u n) := by
    intro n
    induction n with
    | zero => exact ⟨[], by simp, by rw [hu0]; rfl⟩
    | succ n ih =>
      obtain ⟨hist, h1, h2⟩ := ih
      obtain ⟨s0, s, hg, -, -, hc⟩ := typed_cycle ht hn n
      obtain ⟨fresh, freshI, e, -⟩ := hu n s0 s hg.run hc
      refine ⟨hist ++ [.solve fresh freshI (problem s.form) (engine n)], ?_, ?_⟩
      · intro c hc
        rcases List.mem_append.1 hc with hc | hc
        · exact h1 c hc
        · rw [List.mem_singleton.1 hc]; exact (he n).size
      · rw [solves_append h2]
        simp only [solves, SolveCall.run, e, Res.state?]
  intro n
  obtain ⟨s0, s, hg, hw, hm, hc⟩ := typed_cycle ht hn n
  obtain ⟨l0, l1, hp, ha, hb⟩ := program_admissible hg hw hm hc (heq n)
  obtain ⟨fresh, freshI, e, hsucc, hdec⟩ := hu n s0 s hg.run hc
  obtain ⟨hl, h1, h2⟩ := hist n
  obtain ⟨Obj, hsol⟩ := hd n s0 s l0 l1 hg.run hc hp ha hb
  obtain ⟨u', e', -, -, hz, g⟩ := hsol hl (u n) h1 h2 fresh freshI (engine n) (he n)
  rw [← hp, e] at e'
  cases e'
  obtain ⟨⟨-, -, g2⟩, -⟩ := g hsucc
  have key := fun (x : Vec K) (b : Behaviour K) (hx : x.size = nVar s.form)
    (hb : b.Decodes E W S (L.text n) (L.time n) s.form x) =>
    C99_exact_partial hg hw hm hc (ht n).2 (hup n) (hv n) (heq n) hp hx hb
  obtain ⟨d1, d2, d3⟩ := key _ _ hz hdec
  refine ⟨hw, d1.1 g2.1, fun b' hb' => ?_⟩
  obtain ⟨y, hy, hdy⟩ := C99_every hg hw hm hc hb'.dynamics
  obtain ⟨e1, e2, e3⟩ := key _ _ hy hdy
  have := g2.2 y (e1.2 hb')
  unfold target at this
  rw [d2, e2, d3, e3] at this
  exact this

/-- **C106, with the solver (partial).** Loops that a controller runs with one of the back-ends, in a release build, are
loops in the sense of the theorems above: no cycle stops, and the accelerations, torques and contact forces that the getters
return obey the text and are the best of all that obey it.
Missing: as in C99; the external solver succeeds in every cycle. -/
theorem C106_solved_partial {L : Loop K} {E : Program.Env K} {W : World} {S : Setup K} {bh : ℕ → Behaviour K}
    (ht : L.Typed E W S) (hn : E.ndebug = true)
    (hup : ∀ n fam tid k, .task fam tid 0 k ∈ (S.registry E W (L.text n) (L.time n)).items → (S.decl tid).Upright (L.robot n))
    (hv : ∀ n, S.Viable E W (L.text n) (L.robot n) (L.time n))
    (heq : ∀ n, S.SoftEqualities E W (L.text n) (L.time n))
    (b : Bool) (t0 : Status.HQPStatus) (i : Int) (v : Solve.Objective K) :
    (∀ engine, (∀ n, Sound EiqSat (fun a => ∃ w, a.objective = .num w) (engine n)) →
      L.SolvedAs E W S Solve.eiq (Solve.Eiq.init t0 i v) (fun a => ∃ w, a.objective = .num w) engine bh →
      L.Optimal E W S true bh) ∧
    (∀ engine, (∀ n, Sound EiqSat (fun a => a.code = .optimal) (engine n)) →
      L.SolvedAs E W S Solve.fast (Solve.Eiq.init t0 i v) (fun a => a.code = .optimal) engine bh → L.Optimal E W S true bh) ∧
    (∀ fresh freshI nvar neq nin, (∀ n s0 s, Program.run E S.start (L.text n) = some s0 →
        Program.compute E (L.robot n) (L.time n) s0 = .ok s () →
        nVar s.form = nvar ∧ (problem s.form).head?.map Solver.count = some (neq, nin)) →
      ∀ engine, (∀ n, Sound EiqSat (fun a => a.code = .optimal) (engine n)) →
      L.SolvedAs E W S Solve.rt (Solve.Rt.init fresh freshI nvar neq nin t0 i v) (fun a => a.code = .optimal) engine bh →
      L.Optimal E W S true bh) ∧
    (∀ engine, (∀ n, Sound ProxSat (fun a => a.code = .solved) (engine n)) →
      L.SolvedAs E W S Solve.prox (Solve.Prox.init t0 i v) (fun a => a.code = .solved) engine bh → L.Optimal E W S false bh) ∧
    (∀ engine, (∀ n, Sound OsqpSat (fun a => a.code = .solved) (engine n)) →
      L.SolvedAs E W S Solve.osqp (Solve.Osqp.init t0 i v) (fun a => a.code = .solved) engine bh → L.Optimal E W S false bh) ∧
    (∀ engine, (∀ n, Sound MadSat (fun a => a.code = .ok) (engine n)) →
      L.SolvedAs E W S Solve.mad (Solve.Mad.init b t0 i v) (fun a => a.code = .ok) engine bh → L.Optimal E W S true bh) := by
  refine ⟨fun engine he hs => ?_, fun engine he hs => ?_, fun fresh freshI nvar neq nin hsz engine he hs => ?_,
    fun engine he hs => ?_, fun engine he hs => ?_, fun engine he hs => ?_⟩
  · exact optimal_of_solved ht hn hup hv heq he hs fun n s0 s l0 l1 _ _ _ ha _ =>
      ⟨_, (C85_solves_partial E.ndebug b t0 i v ha).1⟩
  · exact optimal_of_solved ht hn hup hv heq he hs fun n s0 s l0 l1 _ _ _ ha _ =>
      ⟨_, (C85_solves_partial E.ndebug b t0 i v ha).2.1⟩
  · refine optimal_of_solved ht hn hup hv heq he hs fun n s0 s l0 l1 hr hc hp ha _ => ?_
    have k := (C85_solves_partial E.ndebug b t0 i v ha).2.2.1 fresh freshI
    obtain ⟨e1, e2⟩ := hsz n s0 s hr hc
    rw [hp] at e2
    simp only [List.head?_cons, Option.map_some, Option.some.injEq] at e2
    rw [e2, e1] at k
    rw [e1]
    exact ⟨_, k⟩
  · exact optimal_of_solved ht hn hup hv heq he hs fun n s0 s l0 l1 _ _ _ ha _ =>
      ⟨_, (C85_solves_partial E.ndebug b t0 i v ha).2.2.2.1⟩
  · exact optimal_of_solved ht hn hup hv heq he hs fun n s0 s l0 l1 _ _ _ ha _ =>
      ⟨_, (C85_solves_partial E.ndebug b t0 i v ha).2.2.2.2.1⟩
  · exact optimal_of_solved ht hn hup hv heq he hs fun n s0 s l0 l1 _ _ _ ha hb =>
      ⟨_, (C85_solves_partial E.ndebug b t0 i v ha).2.2.2.2.2 hb⟩

end

end Tsid.Props
