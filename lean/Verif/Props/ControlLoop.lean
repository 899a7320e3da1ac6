import Verif.Lemmas.Sampled
import Verif.Props.Program
import Verif.Props.ProgramExact
import Verif.Props.Tracking

/-!
# C93: control loops track their references

A program that runs control cycles with a period, on a robot that is accelerated in between as the solution says.
-/

set_option linter.unusedSectionVars false

namespace Tsid.Props

open Spec Filter Formulation

/-! ## What a cycle of a loop promises -/

section
variable {K : Type} [Field K] [LinearOrder K] [IsStrictOrderedRing K] [FloorRing K] [HasSqrt K] [LawfulSqrt K]

/-- A task that is held throughout the loop gets what it demands in every cycle. -/
theorem loop_demands {L : Loop K} {E : Program.Env K} {W : World} {S : Setup K} {dv : ℕ → Vec K} (h : L.Runs E W S dv)
    {tid : Nat} (ht : L.Holds E W S tid) (n : ℕ) : SnapshotOk E.robot.nv (L.robot n) ∧ ∃ f hist o,
      (S.decl tid).Demands E (ctx E (L.robot n) f) (taskCalls tid (L.text n)) hist o (dv n).get := by
  obtain ⟨s0, s, l0, l1, x, hg, hw, hc, hp, hx, hfe, hdv⟩ := h n
  obtain ⟨k, hk⟩ := ht n
  obtain ⟨dv', e, hd⟩ := (C87_partial hg hw hc hp hx hfe).motion tid k hk
  rw [hdv] at e
  cases e
  exact ⟨hw, _, _, _, hd⟩

/-- The same for the motion of a contact. -/
theorem loop_contact {L : Loop K} {E : Program.Env K} {W : World} {S : Setup K} {dv : ℕ → Vec K} (h : L.Runs E W S dv)
    {cid : Nat} (ht : L.Touches E W S cid) (n : ℕ) : SnapshotOk E.robot.nv (L.robot n) ∧
      (S.cdecl cid).Demands E (L.robot n) (contactCalls cid (L.text n)) (dv n).get := by
  obtain ⟨s0, s, l0, l1, x, hg, hw, hc, hp, hx, hfe, hdv⟩ := h n
  obtain ⟨wm, wf, hk⟩ := ht n
  obtain ⟨dv', e, hd⟩ := (C87_partial hg hw hc hp hx hfe).contactMotion cid wm wf hk
  rw [hdv] at e
  cases e
  exact ⟨hw, hd⟩

end

variable {L : Loop ℝ} {E : Program.Env ℝ} {W : World} {S : Setup ℝ} {dv : ℕ → Vec ℝ} {h kp kd : ℝ}

/-- **C93, rate.** Constant and rate of the decay depend on the gains and the period only. -/
theorem C93_rate (hh : 0 < h) (hp : 0 < kp) (h1 : h * kp < 2 * kd) (h2 : h * kd < 2) :
    ∃ C r : ℝ, 0 ≤ r ∧ r < 1 ∧ ∀ x v a xr vr ar : ℕ → ℝ, Sampled h x v a → Sampled h xr vr ar →
      (∀ n, a n = ar n + kp * (xr n - x n) + kd * (vr n - v n)) →
      ∀ n, (x n - xr n) ^ 2 + (v n - vr n) ^ 2 ≤ C * ((x 0 - xr 0) ^ 2 + (v 0 - vr 0) ^ 2) * r ^ n := by
  obtain ⟨C, r, r0, r1, hC⟩ := sampled_rate hh hp h1 h2
  refine ⟨C, r, r0, r1, fun x v a xr vr ar hs hr ha n => ?_⟩
  refine hC (fun n => x n - xr n) (fun n => v n - vr n) (fun n => ?_) n
  obtain ⟨a1, a2⟩ := hs n
  obtain ⟨b1, b2⟩ := hr n
  simp only [a1, a2, b1, b2, ha n]
  exact ⟨by ring, by ring⟩

/-- **C93, the conditions are needed.** If the period is too long for the gains, some error does not vanish. -/
theorem C93_sharp (hh : 0 < h) (hbad : 2 * kd ≤ h * kp ∨ 2 ≤ h * kd) :
    ∃ x v a : ℕ → ℝ, Sampled h x v a ∧ (∀ n, a n = 0 + kp * (0 - x n) + kd * (0 - v n)) ∧
      ¬ (Tendsto (fun n => x n - 0) atTop (nhds 0) ∧ Tendsto (fun n => v n - 0) atTop (nhds 0)) := by
  obtain ⟨e, v, hs, hno⟩ := sampled_sharp (kp := kp) (kd := kd) hh hbad
  refine ⟨e, v, _, hs, fun n => by ring, ?_⟩
  simpa using hno

/-- The law that every cycle imposes. -/
theorem law_posture (hr : L.Runs E W S dv) {tid : Nat} (ht : L.Holds E W S tid) (hd : S.decl tid = .posture)
    {i j : Nat}
    (hline : ∀ x y : Vec ℝ, (E.robot.difference x y) (E.robot.nv - E.robot.na + j) = y i - x i) :
    let p := fun n => (PostureSettings.fresh E.robot).afterAll E.robot ((taskCalls tid (L.text n)).filterMap posture?)
    let v := fun n => (L.robot n).v (E.robot.nv - E.robot.na + j)
    (∀ n, Selects (p n).mask j ∧ (p n).kp j = kp ∧ (p n).kd j = kd) →
    ∀ n, (dv n) (E.robot.nv - E.robot.na + j) = (p n).ref.acc j + kp * ((p n).target E.robot i - (L.robot n).q i) +
      kd * ((p n).ref.vel j - v n) := by
  intro p v hset n
  obtain ⟨-, f, hist, o, hdem⟩ := loop_demands hr ht n
  obtain ⟨m1, m2, m3⟩ := hset n
  rw [hd] at hdem
  have := hdem j m1
  show (dv n).get _ = _
  rw [this, PostureSettings.law, hline]
  show (p n).ref.acc j - (p n).kp j * ((L.robot n).q i - _) - (p n).kd j * (v n - _) = _
  rw [m2, m3]
  ring

/-- **C93, joints (partial).** A control loop holds a posture task at priority 0 that selects joint `j` with gains `kp`
and `kd`; the coordinate of the joint moves on a line, with the acceleration that the solution of each cycle prescribes
for the period `h` that follows.  If the period is short for the gains, the joint tracks its reference.
Missing: as in C87; the acceleration is realised exactly. -/
theorem C93_posture_partial (hr : L.Runs E W S dv) {tid : Nat} (ht : L.Holds E W S tid) (hd : S.decl tid = .posture)
    {i j : Nat} (hh : 0 < h) (hp : 0 < kp) (h1 : h * kp < 2 * kd) (h2 : h * kd < 2)
    (hline : ∀ x y : Vec ℝ, (E.robot.difference x y) (E.robot.nv - E.robot.na + j) = y i - x i) :
    let p := fun n => (PostureSettings.fresh E.robot).afterAll E.robot ((taskCalls tid (L.text n)).filterMap posture?)
    let v := fun n => (L.robot n).v (E.robot.nv - E.robot.na + j)
    (∀ n, Selects (p n).mask j ∧ (p n).kp j = kp ∧ (p n).kd j = kd) →
    Sampled h (fun n => (L.robot n).q i) v (fun n => (dv n) (E.robot.nv - E.robot.na + j)) →
    Sampled h (fun n => (p n).target E.robot i) (fun n => (p n).ref.vel j) (fun n => (p n).ref.acc j) →
    DiesOut (fun n => (L.robot n).q i - (p n).target E.robot i) (fun n => v n - (p n).ref.vel j) := by
  intro p v hset h3 h4
  refine sampled_tracks hh hp h1 h2 h3 h4 fun n => law_posture hr ht hd hline hset n

/-- The law that every cycle imposes. -/
theorem law_com (hr : L.Runs E W S dv) {tid : Nat} (ht : L.Holds E W S tid) (hd : S.decl tid = .com)
    {i : Nat} :
    let p := fun n => (ComSettings.fresh (K := ℝ)).afterAll ((taskCalls tid (L.text n)).filterMap com?)
    let c := fun n => (L.robot n).com
    (∀ n, Selects (p n).mask i ∧ (p n).kp.get i = kp ∧ (p n).kd.get i = kd) →
    ∀ n, (pointAcc E.robot.nv (c n).jac (c n).drift (dv n).get).get i = (p n).acc i + kp * ((p n).pos i - (c n).pos.get i) +
      kd * ((p n).vel i - (c n).vel.get i) := by
  intro p c hset n
  obtain ⟨-, f, hist, o, hdem⟩ := loop_demands hr ht n
  obtain ⟨m1, m2, m3⟩ := hset n
  rw [hd] at hdem
  have := hdem i m1
  show (pointAcc E.robot.nv (ctx E (L.robot n) f).w.com.jac (ctx E (L.robot n) f).w.com.drift _).get i = _
  rw [this, ComSettings.law]
  show (p n).acc i + (p n).kp.get i * _ + (p n).kd.get i * _ = _
  rw [m2, m3]
  rfl

/-- **C93, centre of mass (partial).** Missing: as in `C93_posture_partial`. -/
theorem C93_com_partial (hr : L.Runs E W S dv) {tid : Nat} (ht : L.Holds E W S tid) (hd : S.decl tid = .com)
    {i : Nat} (hh : 0 < h) (hp : 0 < kp) (h1 : h * kp < 2 * kd) (h2 : h * kd < 2) :
    let p := fun n => (ComSettings.fresh (K := ℝ)).afterAll ((taskCalls tid (L.text n)).filterMap com?)
    let c := fun n => (L.robot n).com
    (∀ n, Selects (p n).mask i ∧ (p n).kp.get i = kp ∧ (p n).kd.get i = kd) →
    Sampled h (fun n => (c n).pos.get i) (fun n => (c n).vel.get i)
      (fun n => (pointAcc E.robot.nv (c n).jac (c n).drift (dv n).get).get i) →
    Sampled h (fun n => (p n).pos i) (fun n => (p n).vel i) (fun n => (p n).acc i) →
    DiesOut (fun n => (c n).pos.get i - (p n).pos i) (fun n => (c n).vel.get i - (p n).vel i) := by
  intro p c hset h3 h4
  refine sampled_tracks hh hp h1 h2 h3 h4 fun n => law_com hr ht hd hset n

/-- The law that every cycle imposes. -/
theorem law_momentum (hr : L.Runs E W S dv) {tid : Nat} (ht : L.Holds E W S tid) (hd : S.decl tid = .am)
    {i : Nat} (hi : i < 3) :
    let p := fun n => (AmSettings.fresh (K := ℝ)).afterAll ((taskCalls tid (L.text n)).filterMap am?)
    let m := fun n => angularMomentum (L.robot n).Ag (L.robot n).v.get i
    (∀ n, (p n).kp.get i = kp) →
    ∀ n, angularMomentum (L.robot n).Ag (dv n).get i + (L.robot n).dh.get i = (p n).dmom i + kp * ((p n).mom i - m n) := by
  intro p m hset n
  obtain ⟨-, f, hist, o, hdem⟩ := loop_demands hr ht n
  rw [hd] at hdem
  have := hdem i hi
  show angularMomentum (ctx E (L.robot n) f).w.Ag _ i + (ctx E (L.robot n) f).w.dh.get i = _
  rw [this, AmSettings.law]
  show (p n).dmom i + (p n).kp.get i * _ = _
  rw [hset n]
  rfl

/-- **C93, angular momentum (partial).** The error is multiplied by `1 - h kp` in every period.  Missing: as in
`C93_posture_partial`. -/
theorem C93_momentum_partial (hr : L.Runs E W S dv) {tid : Nat} (ht : L.Holds E W S tid) (hd : S.decl tid = .am)
    {i : Nat} (hi : i < 3) (h1 : 0 < h * kp) (h2 : h * kp < 2) :
    let p := fun n => (AmSettings.fresh (K := ℝ)).afterAll ((taskCalls tid (L.text n)).filterMap am?)
    let m := fun n => angularMomentum (L.robot n).Ag (L.robot n).v.get i
    (∀ n, (p n).kp.get i = kp) →
    SampledRate h m (fun n => angularMomentum (L.robot n).Ag (dv n).get i + (L.robot n).dh.get i) →
    SampledRate h (fun n => (p n).mom i) (fun n => (p n).dmom i) →
    (∀ n, m n - (p n).mom i = (1 - h * kp) ^ n * (m 0 - (p 0).mom i)) ∧
    Tendsto (fun n => m n - (p n).mom i) atTop (nhds 0) := by
  intro p m hset h3 h4
  refine lag_dies h1 h2 h3 h4 fun n => law_momentum hr ht hd hi hset n

theorem v3_sub_get (x y : V3 ℝ) (l : Nat) : (x - y).get l = x.get l - y.get l := by
  rcases l with _ | _ | _ | l
  · rfl
  · rfl
  · rfl
  · simp [V3.get]

/-- The law that every cycle imposes. -/
theorem law_frame (hr : L.Runs E W S dv) {tid fr : Nat} (ht : L.Holds E W S tid) (hd : S.decl tid = .se3 fr)
    {i : Nat} (hi : i < 3) :
    let p := fun n => (FrameSettings.fresh (K := ℝ)).afterAll ((taskCalls tid (L.text n)).filterMap se3?)
    let k := fun n => (L.robot n).frame fr
    (∀ n, ((p n).loc = false ∧ Selects (p n).mask i ∧ (p n).kp i = kp ∧ (p n).kd i = kd) ∨
      ((p n).loc = true ∧ ∀ l, l < 3 → Selects (p n).mask l ∧ (p n).kp l = kp ∧ (p n).kd l = kd)) →
    ∀ n, ((k n).pose.rot.mulVec (motionAcc E.robot.nv (k n).jac (k n).drift (dv n).get).lin).get i =
      (p n).acc.lin.get i + kp * ((p n).pose.trans.get i - (k n).pose.trans.get i) +
        kd * ((p n).vel.lin.get i - ((k n).pose.rot.mulVec (k n).vel.lin).get i) := by
  intro p k hset n
  obtain ⟨hw, f, hist, o, hdem⟩ := loop_demands hr ht n
  rw [hd] at hdem
  have hs : ∀ l, Selects (p n).mask l →
    (p n).achieved E.robot.nv (k n) (dv n).get l = (p n).law E.log3 (k n) l := hdem
  have ho : (k n).pose.rot.Orthogonal := hw.rot fr
  rcases hset n with ⟨hl, m1, m2, m3⟩ | ⟨hl, hm⟩
  · have := hs i m1
    simp only [FrameSettings.achieved, FrameSettings.law, hl, Bool.false_eq_true, if_false, motion_get_lin hi, rotate,
      worldError, m2, m3, v3_sub_get] at this
    exact this
  · have := unrotate (Rm := (k n).pose.rot) (m := (motionAcc E.robot.nv (k n).jac (k n).drift (dv n).get).lin) ho
      (A := (p n).acc.lin) (E := (p n).pose.trans - (k n).pose.trans) (V := (p n).vel.lin) (w := (k n).vel.lin)
      (kp := kp) (kd := kd) (fun l hl3 => by
        obtain ⟨m1, m2, m3⟩ := hm l hl3
        have := hs l m1
        simp only [FrameSettings.achieved, FrameSettings.law, hl, if_true, motion_get_lin hl3, rotate,
          localError, m2, m3] at this
        exact this) hi
    rw [v3_sub_get] at this
    exact this

/-- **C93, position of a frame (partial).** The task works in world axes and selects axis `i`, or it works in the axes of
the frame, selects the three translations and has the same gains for all three.  Missing: as in `C93_posture_partial`. -/
theorem C93_frame_partial (hr : L.Runs E W S dv) {tid fr : Nat} (ht : L.Holds E W S tid) (hd : S.decl tid = .se3 fr)
    {i : Nat} (hi : i < 3) (hh : 0 < h) (hp : 0 < kp) (h1 : h * kp < 2 * kd) (h2 : h * kd < 2) :
    let p := fun n => (FrameSettings.fresh (K := ℝ)).afterAll ((taskCalls tid (L.text n)).filterMap se3?)
    let k := fun n => (L.robot n).frame fr
    (∀ n, ((p n).loc = false ∧ Selects (p n).mask i ∧ (p n).kp i = kp ∧ (p n).kd i = kd) ∨
      ((p n).loc = true ∧ ∀ l, l < 3 → Selects (p n).mask l ∧ (p n).kp l = kp ∧ (p n).kd l = kd)) →
    Sampled h (fun n => (k n).pose.trans.get i) (fun n => ((k n).pose.rot.mulVec (k n).vel.lin).get i)
      (fun n => ((k n).pose.rot.mulVec (motionAcc E.robot.nv (k n).jac (k n).drift (dv n).get).lin).get i) →
    Sampled h (fun n => (p n).pose.trans.get i) (fun n => (p n).vel.lin.get i) (fun n => (p n).acc.lin.get i) →
    DiesOut (fun n => (k n).pose.trans.get i - (p n).pose.trans.get i)
      (fun n => ((k n).pose.rot.mulVec (k n).vel.lin).get i - (p n).vel.lin.get i) := by
  intro p k hset h3 h4
  refine sampled_tracks hh hp h1 h2 h3 h4 fun n => law_frame hr ht hd hi hset n

/-- The law that every cycle imposes. -/
theorem law_contact (hr : L.Runs E W S dv) {cid fr : Nat} (ht : L.Touches E W S cid)
    (hd : S.cdecl cid = .point fr) {i : Nat} (hi : i < 3) {x : V3 ℝ} :
    let p := fun n => (PointSettings.fresh (K := ℝ)).afterAll ((contactCalls cid (L.text n)).filterMap point?)
    let k := fun n => (L.robot n).frame fr
    (∀ n, (p n).pose.trans = x ∧ (((p n).loc = false ∧ (p n).kp.get i = kp ∧ (p n).kd.get i = kd) ∨
      ((p n).loc = true ∧ ∀ l, l < 3 → (p n).kp.get l = kp ∧ (p n).kd.get l = kd))) →
    ∀ n, ((k n).pose.rot.mulVec (motionAcc E.robot.nv (k n).jac (k n).drift (dv n).get).lin).get i =
      0 + kp * (x.get i - (k n).pose.trans.get i) + kd * (0 - ((k n).pose.rot.mulVec (k n).vel.lin).get i) := by
  intro p k hset n
  obtain ⟨hw, hdem⟩ := loop_contact hr ht n
  rw [hd] at hdem
  have hs : ∀ l, l < 3 → (p n).achieved E.robot.nv (k n) (dv n).get l = (p n).law (k n) l := hdem
  have ho : (k n).pose.rot.Orthogonal := hw.rot fr
  obtain ⟨hx, hg⟩ := hset n
  rcases hg with ⟨hl, m2, m3⟩ | ⟨hl, hm⟩
  · have := hs i hi
    simp only [PointSettings.achieved, PointSettings.law, hl, Bool.false_eq_true, if_false, m2, m3, v3_sub_get, hx] at this
    rw [this]; ring
  · have hz : ∀ l, ((k n).pose.rot.transpose.mulVec (0 : V3 ℝ)).get l = 0 := by
      intro l
      have e : (k n).pose.rot.transpose.mulVec (0 : V3 ℝ) = ⟨0, 0, 0⟩ := by
        simp [M3.mulVec, show (0 : V3 ℝ) = ⟨0, 0, 0⟩ from rfl]
      rw [e]
      rcases l with _ | _ | _ | l <;> rfl
    have := unrotate (Rm := (k n).pose.rot) (m := (motionAcc E.robot.nv (k n).jac (k n).drift (dv n).get).lin) ho
      (A := 0) (E := x - (k n).pose.trans) (V := 0) (w := (k n).vel.lin)
      (kp := kp) (kd := kd) (fun l hl3 => by
        obtain ⟨m2, m3⟩ := hm l hl3
        have := hs l hl3
        simp only [PointSettings.achieved, PointSettings.law, hl, if_true, m2, m3, hx] at this
        rw [this, hz]
        ring) hi
    rw [this, v3_sub_get]
    rcases i with _ | _ | _ | i
    · rfl
    · rfl
    · rfl
    · omega

/-- **C93, point contacts (partial).** The contact point converges to its reference position `x`.  Missing: as in
`C93_posture_partial`. -/
theorem C93_contact_partial (hr : L.Runs E W S dv) {cid fr : Nat} (ht : L.Touches E W S cid)
    (hd : S.cdecl cid = .point fr) {i : Nat} (hi : i < 3) {x : V3 ℝ} (hh : 0 < h) (hp : 0 < kp) (h1 : h * kp < 2 * kd)
    (h2 : h * kd < 2) :
    let p := fun n => (PointSettings.fresh (K := ℝ)).afterAll ((contactCalls cid (L.text n)).filterMap point?)
    let k := fun n => (L.robot n).frame fr
    (∀ n, (p n).pose.trans = x ∧ (((p n).loc = false ∧ (p n).kp.get i = kp ∧ (p n).kd.get i = kd) ∨
      ((p n).loc = true ∧ ∀ l, l < 3 → (p n).kp.get l = kp ∧ (p n).kd.get l = kd))) →
    Sampled h (fun n => (k n).pose.trans.get i) (fun n => ((k n).pose.rot.mulVec (k n).vel.lin).get i)
      (fun n => ((k n).pose.rot.mulVec (motionAcc E.robot.nv (k n).jac (k n).drift (dv n).get).lin).get i) →
    DiesOut (fun n => (k n).pose.trans.get i - x.get i)
      (fun n => ((k n).pose.rot.mulVec (k n).vel.lin).get i - 0) := by
  intro p k hset h3
  refine sampled_tracks hh hp h1 h2 h3 (xr := fun _ => x.get i) (vr := fun _ => 0) (ar := fun _ => 0)
    (fun n => ⟨by ring, by ring⟩) fun n => law_contact hr ht hd hi hset n

/-- The motion task of a surface contact keeps the axes of the frame and a resting reference. -/
theorem sixD_settings : ∀ (cs : List (ContactCall ℝ)) (p : FrameSettings ℝ), p.loc = true →
    p.vel = ⟨⟨0, 0, 0⟩, ⟨0, 0, 0⟩⟩ → p.acc = ⟨⟨0, 0, 0⟩, ⟨0, 0, 0⟩⟩ →
    (p.afterAll (cs.filterMap sixD?)).loc = true ∧ (p.afterAll (cs.filterMap sixD?)).vel = ⟨⟨0, 0, 0⟩, ⟨0, 0, 0⟩⟩ ∧
      (p.afterAll (cs.filterMap sixD?)).acc = ⟨⟨0, 0, 0⟩, ⟨0, 0, 0⟩⟩ := by
  intro cs
  induction cs with
  | nil => exact fun p h1 h2 h3 => ⟨h1, h2, h3⟩
  | cons c cs ih =>
    intro p h1 h2 h3
    cases c <;> simp only [List.filterMap_cons, sixD?, FrameSettings.afterAll, FrameSettings.after]
    all_goals first
      | exact ih p h1 h2 h3
      | (split <;> exact ih _ h1 h2 h3)
      | exact ih _ h1 h2 h3
      | exact ih _ h1 rfl rfl

/-- The law that every cycle imposes. -/
theorem law_surface (hr : L.Runs E W S dv) {cid fr : Nat} (ht : L.Touches E W S cid)
    (hd : S.cdecl cid = .sixD fr) {i : Nat} (hi : i < 3) {x : V3 ℝ} :
    let p := fun n => (FrameSettings.fresh (K := ℝ)).afterAll ((contactCalls cid (L.text n)).filterMap sixD?)
    let k := fun n => (L.robot n).frame fr
    (∀ n, (p n).pose.trans = x ∧ ∀ l, l < 3 → (p n).kp l = kp ∧ (p n).kd l = kd) →
    ∀ n, ((k n).pose.rot.mulVec (motionAcc E.robot.nv (k n).jac (k n).drift (dv n).get).lin).get i =
      0 + kp * (x.get i - (k n).pose.trans.get i) + kd * (0 - ((k n).pose.rot.mulVec (k n).vel.lin).get i) := by
  intro p k hset n
  obtain ⟨hw, hdem⟩ := loop_contact hr ht n
  rw [hd] at hdem
  have hs : ∀ l, l < 6 → (p n).achieved E.robot.nv (k n) (dv n).get l = (p n).law E.log3 (k n) l := hdem
  have ho : (k n).pose.rot.Orthogonal := hw.rot fr
  obtain ⟨hx, hm⟩ := hset n
  obtain ⟨hl, hv, ha⟩ := sixD_settings (contactCalls cid (L.text n)) FrameSettings.fresh rfl rfl rfl
  have hl' : (p n).loc = true := hl
  have hv' : (p n).vel.lin = 0 := by show (FrameSettings.afterAll _ _).vel.lin = 0; rw [hv]; rfl
  have ha' : (p n).acc.lin = 0 := by show (FrameSettings.afterAll _ _).acc.lin = 0; rw [ha]; rfl
  have := unrotate (Rm := (k n).pose.rot) (m := (motionAcc E.robot.nv (k n).jac (k n).drift (dv n).get).lin) ho
    (A := (p n).acc.lin) (E := (p n).pose.trans - (k n).pose.trans) (V := (p n).vel.lin) (w := (k n).vel.lin)
    (kp := kp) (kd := kd) (fun l hl3 => by
      obtain ⟨m2, m3⟩ := hm l hl3
      have := hs l (by omega)
      simp only [FrameSettings.achieved, FrameSettings.law, hl', if_true, motion_get_lin hl3, rotate,
        localError, m2, m3] at this
      exact this) hi
  rw [v3_sub_get, hv', ha', hx] at this
  rw [this]
  rcases i with _ | _ | _ | i
  · rfl
  · rfl
  · rfl
  · omega

/-- **C93, surface contacts (partial).** The origin of the contact frame converges to its reference position `x`; the
motion task works in the axes of the frame.  Missing: as in `C93_posture_partial`. -/
theorem C93_surface_partial (hr : L.Runs E W S dv) {cid fr : Nat} (ht : L.Touches E W S cid)
    (hd : S.cdecl cid = .sixD fr) {i : Nat} (hi : i < 3) {x : V3 ℝ} (hh : 0 < h) (hp : 0 < kp) (h1 : h * kp < 2 * kd)
    (h2 : h * kd < 2) :
    let p := fun n => (FrameSettings.fresh (K := ℝ)).afterAll ((contactCalls cid (L.text n)).filterMap sixD?)
    let k := fun n => (L.robot n).frame fr
    (∀ n, (p n).pose.trans = x ∧ ∀ l, l < 3 → (p n).kp l = kp ∧ (p n).kd l = kd) →
    Sampled h (fun n => (k n).pose.trans.get i) (fun n => ((k n).pose.rot.mulVec (k n).vel.lin).get i)
      (fun n => ((k n).pose.rot.mulVec (motionAcc E.robot.nv (k n).jac (k n).drift (dv n).get).lin).get i) →
    DiesOut (fun n => (k n).pose.trans.get i - x.get i)
      (fun n => ((k n).pose.rot.mulVec (k n).vel.lin).get i - 0) := by
  intro p k hset h3
  refine sampled_tracks hh hp h1 h2 h3 (xr := fun _ => x.get i) (vr := fun _ => 0) (ar := fun _ => 0)
    (fun n => ⟨by ring, by ring⟩) fun n => law_surface hr ht hd hi hset n

/-- The law that every cycle imposes. -/
theorem law_two_frames (hr : L.Runs E W S dv) {cid f1 f2 : Nat} (ht : L.Touches E W S cid)
    (hd : S.cdecl cid = .pair f1 f2) {i : Nat} (hi : i < 3) :
    let p := fun n => (⟨⟨0, 0, 0⟩, ⟨0, 0, 0⟩⟩ : PairGains ℝ).afterAll ((contactCalls cid (L.text n)).filterMap gains?)
    let k1 := fun n => (L.robot n).frame f1
    let k2 := fun n => (L.robot n).frame f2
    let v := fun n => ((k1 n).pose.rot.mulVec (k1 n).vel.lin).get i - ((k2 n).pose.rot.mulVec (k2 n).vel.lin).get i
    (∀ n, (p n).kp.get i = kp ∧ (p n).kd.get i = kd) →
    ∀ n, relativeAcc E.robot.nv (k1 n) (k2 n) (dv n).get i =
      -kp * ((k1 n).pose.trans.get i - (k2 n).pose.trans.get i) - kd * v n := by
  intro p k1 k2 v hset n
  obtain ⟨-, hdem⟩ := loop_contact hr ht n
  obtain ⟨m2, m3⟩ := hset n
  rw [hd] at hdem
  have hs : relativeAcc E.robot.nv (k1 n) (k2 n) (dv n).get i = (p n).law (k1 n) (k2 n) i := hdem i hi
  rw [hs, PairGains.law, m2, m3, v3_sub_get]
  ring

/-- **C93, two frames (partial).** The distance between the origins of the frames of a two-frames contact vanishes.
Missing: as in `C93_posture_partial`. -/
theorem C93_two_frames_partial (hr : L.Runs E W S dv) {cid f1 f2 : Nat} (ht : L.Touches E W S cid)
    (hd : S.cdecl cid = .pair f1 f2) {i : Nat} (hi : i < 3) (hh : 0 < h) (hp : 0 < kp) (h1 : h * kp < 2 * kd)
    (h2 : h * kd < 2) :
    let p := fun n => (⟨⟨0, 0, 0⟩, ⟨0, 0, 0⟩⟩ : PairGains ℝ).afterAll ((contactCalls cid (L.text n)).filterMap gains?)
    let k1 := fun n => (L.robot n).frame f1
    let k2 := fun n => (L.robot n).frame f2
    let v := fun n => ((k1 n).pose.rot.mulVec (k1 n).vel.lin).get i - ((k2 n).pose.rot.mulVec (k2 n).vel.lin).get i
    (∀ n, (p n).kp.get i = kp ∧ (p n).kd.get i = kd) →
    Sampled h (fun n => (k1 n).pose.trans.get i - (k2 n).pose.trans.get i) v
      (fun n => relativeAcc E.robot.nv (k1 n) (k2 n) (dv n).get i) →
    DiesOut (fun n => (k1 n).pose.trans.get i - (k2 n).pose.trans.get i) v := by
  intro p k1 k2 v hset h3
  refine sampled_dies hh hp h1 h2 h3 fun n => law_two_frames hr ht hd hi hset n

/-! ## Loops that run -/

section
variable {K : Type} [Field K] [LinearOrder K] [IsStrictOrderedRing K] [FloorRing K] [HasSqrt K] [LawfulSqrt K]

/-- A well-typed loop never stops. -/
theorem typed_cycle {L : Loop K} {E : Program.Env K} {W : World} {S : Setup K} (h : L.Typed E W S) (hn : E.ndebug = true)
    (n : ℕ) : ∃ s0 s, GoodProgram E W S (L.text n) s0 ∧ SnapshotOk E.robot.nv (L.robot n) ∧
      MayCycle E W S (L.text n) (L.robot n) (L.time n) ∧
      Program.compute E (L.robot n) (L.time n) s0 = .ok s () := by
  obtain ⟨h0, hmay⟩ := wellTyped_init (h n).1
  obtain ⟨s0, hr, hg⟩ := C91_runs h0 hn
  obtain ⟨s, hs⟩ := C92_returns hg hmay.1 hmay.2 (h n).2
  exact ⟨s0, s, hg, hmay.1, hmay.2, hs⟩

theorem solves_append {R C : Type} {D : Solve.Driver K R C} {nd : Bool} :
    ∀ {l l' : List (SolveCall K R C)} {u u' : Solve.Object K R}, solves D nd u l = some u' →
      solves D nd u (l ++ l') = solves D nd u' l'
  | [], l', u, u', h => by cases h; rfl
  | c :: cs, l', u, u', h => by
    simp only [solves] at h
    split at h
    · next u1 hu =>
      simp only [List.cons_append, solves, hu]
      exact solves_append h
    · cases h

/-- One back-end. -/
theorem runs_of_solved {R C : Type} {D : Solve.Driver K R C} {u0 : Solve.Object K R} {Sat : R → (Nat → K) → Prop}
    {Success : Solve.Answer C K → Prop} {reg : Bool} {L : Loop K} {E : Program.Env K} {W : World} {S : Setup K}
    {engine : ℕ → Solver.State K R → Vec K → Solve.Answer C K} {dv : ℕ → Vec K}
    (ht : L.Typed E W S) (hn : E.ndebug = true)
    (heq : ∀ n fam tid k, .task fam tid 1 k ∈ (S.registry E W (L.text n) (L.time n)).items → (S.decl tid).kind = .equality)
    (he : ∀ n, Sound Sat Success (engine n)) (hs : L.Solved E S D u0 Success engine dv)
    (hd : ∀ n s0 s l0 l1, Program.run E S.start (L.text n) = some s0 →
      Program.compute E (L.robot n) (L.time n) s0 = .ok s () → problem s.form = [l0, l1] →
      Admissible (nVar s.form) l0 (some l1) → ¬ hasBound l0 →
      ∃ Obj, SolvesProblem D E.ndebug u0 Sat Success (nVar s.form) reg l0 l1 Obj) :
    L.Runs E W S dv := by
  obtain ⟨u, hu0, hu⟩ := hs
  have hist : ∀ n, ∃ hist, (∀ c ∈ hist, c.Sized) ∧ solves D E.ndebug u0 hist = some (u n) := by
    intro n
    induction n with
    | zero => exact ⟨[], by simp, by rw [hu0]; rfl⟩
    | succ n ih =>
      obtain ⟨hist, h1, h2⟩ := ih
      obtain ⟨s0, s, hg, -, -, hc⟩ := typed_cycle ht hn n
      obtain ⟨fresh, freshI, e, -⟩ := hu n s0 s hg.run hc
      refine ⟨hist ++ [.solve fresh freshI (problem s.form) (engine n)], ?_, ?_⟩
      · intro c hc
        rcases List.mem_append.1 hc with hc | hc
        · exact h1 c hc
        · rw [List.mem_singleton.1 hc]; exact (he n).size
      · rw [solves_append h2]
        simp only [solves, SolveCall.run, e, Res.state?]
  intro n
  obtain ⟨s0, s, hg, hw, hm, hc⟩ := typed_cycle ht hn n
  obtain ⟨l0, l1, hp, ha, hb⟩ := program_admissible hg hw hm hc (heq n)
  obtain ⟨fresh, freshI, e, hsucc, hdv⟩ := hu n s0 s hg.run hc
  obtain ⟨hl, h1, h2⟩ := hist n
  obtain ⟨Obj, hsol⟩ := hd n s0 s l0 l1 hg.run hc hp ha hb
  obtain ⟨u', e', -, -, hz, g⟩ := hsol hl (u n) h1 h2 fresh freshI (engine n) (he n)
  rw [← hp, e] at e'
  cases e'
  obtain ⟨⟨-, -, g2⟩, -⟩ := g hsucc
  exact ⟨s0, s, l0, l1, _, hg, hw, hc, hp, hz, g2.1, hdv⟩

/-- **C93, with the solver (partial).** Loops that a controller runs with one of the back-ends, in a release build, are
loops in the sense of the theorems above: no cycle stops, and the accelerations satisfy the first level of the problem.
Missing: as in C92; the external solver succeeds in every cycle. -/
theorem C93_solved_partial {L : Loop K} {E : Program.Env K} {W : World} {S : Setup K} {dv : ℕ → Vec K}
    (ht : L.Typed E W S) (hn : E.ndebug = true)
    (heq : ∀ n fam tid k, .task fam tid 1 k ∈ (S.registry E W (L.text n) (L.time n)).items → (S.decl tid).kind = .equality)
    (b : Bool) (t0 : Status.HQPStatus) (i : Int) (v : Solve.Objective K) :
    (∀ engine, (∀ n, Sound EiqSat (fun a => ∃ w, a.objective = .num w) (engine n)) →
      L.Solved E S Solve.eiq (Solve.Eiq.init t0 i v) (fun a => ∃ w, a.objective = .num w) engine dv → L.Runs E W S dv) ∧
    (∀ engine, (∀ n, Sound EiqSat (fun a => a.code = .optimal) (engine n)) →
      L.Solved E S Solve.fast (Solve.Eiq.init t0 i v) (fun a => a.code = .optimal) engine dv → L.Runs E W S dv) ∧
    (∀ fresh freshI nvar neq nin, (∀ n s0 s, Program.run E S.start (L.text n) = some s0 →
        Program.compute E (L.robot n) (L.time n) s0 = .ok s () →
        nVar s.form = nvar ∧ (problem s.form).head?.map Solver.count = some (neq, nin)) →
      ∀ engine, (∀ n, Sound EiqSat (fun a => a.code = .optimal) (engine n)) →
      L.Solved E S Solve.rt (Solve.Rt.init fresh freshI nvar neq nin t0 i v) (fun a => a.code = .optimal) engine dv →
      L.Runs E W S dv) ∧
    (∀ engine, (∀ n, Sound ProxSat (fun a => a.code = .solved) (engine n)) →
      L.Solved E S Solve.prox (Solve.Prox.init t0 i v) (fun a => a.code = .solved) engine dv → L.Runs E W S dv) ∧
    (∀ engine, (∀ n, Sound OsqpSat (fun a => a.code = .solved) (engine n)) →
      L.Solved E S Solve.osqp (Solve.Osqp.init t0 i v) (fun a => a.code = .solved) engine dv → L.Runs E W S dv) ∧
    (∀ engine, (∀ n, Sound MadSat (fun a => a.code = .ok) (engine n)) →
      L.Solved E S Solve.mad (Solve.Mad.init b t0 i v) (fun a => a.code = .ok) engine dv → L.Runs E W S dv) := by
  refine ⟨fun engine he hs => ?_, fun engine he hs => ?_, fun fresh freshI nvar neq nin hsz engine he hs => ?_,
    fun engine he hs => ?_, fun engine he hs => ?_, fun engine he hs => ?_⟩
  · exact runs_of_solved ht hn heq he hs fun n s0 s l0 l1 _ _ _ ha _ => ⟨_, (C85_solves_partial E.ndebug b t0 i v ha).1⟩
  · exact runs_of_solved ht hn heq he hs fun n s0 s l0 l1 _ _ _ ha _ =>
      ⟨_, (C85_solves_partial E.ndebug b t0 i v ha).2.1⟩
  · refine runs_of_solved (reg := true) ht hn heq he hs fun n s0 s l0 l1 hr hc hp ha _ => ?_
    have k := (C85_solves_partial E.ndebug b t0 i v ha).2.2.1 fresh freshI
    obtain ⟨e1, e2⟩ := hsz n s0 s hr hc
    rw [hp] at e2
    simp only [List.head?_cons, Option.map_some, Option.some.injEq] at e2
    rw [e2, e1] at k
    rw [e1]
    exact ⟨_, k⟩
  · exact runs_of_solved ht hn heq he hs fun n s0 s l0 l1 _ _ _ ha _ =>
      ⟨_, (C85_solves_partial E.ndebug b t0 i v ha).2.2.2.1⟩
  · exact runs_of_solved ht hn heq he hs fun n s0 s l0 l1 _ _ _ ha _ =>
      ⟨_, (C85_solves_partial E.ndebug b t0 i v ha).2.2.2.2.1⟩
  · exact runs_of_solved ht hn heq he hs fun n s0 s l0 l1 _ _ _ ha hb =>
      ⟨_, (C85_solves_partial E.ndebug b t0 i v ha).2.2.2.2.2 hb⟩

/-! ## Loops without further calls -/

theorem formCalls_snoc {E : Program.Env K} {o : Program.Op K} : ∀ {l : List (Program.Op K)} {s s' : Program.State K},
    Program.run E s l = some s' → formCalls E s (l ++ [o]) = formCalls E s l ++ formCall E s' o
  | [], s, s', h => by
    cases h
    simp only [List.nil_append, formCalls]
    split <;> simp [formCalls]
  | c :: cs, s, s', h => by
    simp only [Program.run] at h
    split at h
    · next s1 hs =>
      simp only [List.cons_append, formCalls, hs, List.append_assoc]
      rw [formCalls_snoc h]
    · cases h

/-- What is registered after a control cycle. -/
theorem registered_cycle {E : Program.Env K} {W : World} {S : Setup K} {ops : List (Program.Op K)} {s0 s : Program.State K}
    (h : GoodProgram E W S ops s0) {w : Snapshot K} {t : K} (hc : Program.compute E w t s0 = .ok s ()) :
    S.registered E W (ops ++ [.compute w t]) = S.registry E W ops t := by
  obtain ⟨ht, -⟩ := program_tidy h
  have hform := Program.compute_form hc
  unfold Setup.registered Setup.registry registrations
  rw [formCalls_snoc h.run, outcomes_append _ _ _ _ ht.run]
  simp only [formCall, outcomes, Formulation.step, hform, Res.threw, Registry.after, List.foldl_append, List.foldl_cons]
  split <;> simp [outcomes, Registry.next]

theorem wellTyped_snoc {E : Program.Env K} {W : World} {S : Setup K} {ops : List (Program.Op K)} {s0 : Program.State K}
    {o : Program.Op K} (h : WellTyped E W S ops) (hr : Program.run E S.start ops = some s0) (hm : S.May E W ops o)
    (ho : Orderly E W s0 o) : WellTyped E W S (ops ++ [o]) where
  names := h.names
  mfNames := h.mfNames
  hygienic := h.hygienic
  nv := h.nv
  na := h.na
  motors := h.motors
  nqa := h.nqa
  difference := h.difference
  contacts := h.contacts
  built := h.built
  builtContact := h.builtContact
  builtMeasured := h.builtMeasured
  orderly := by
    rw [everyCall_append hr]
    refine ⟨h.orderly, ho, ?_⟩
    split <;> trivial
  may := by
    intro pre o' post e
    rcases List.eq_nil_or_concat post with rfl | ⟨post', b, rfl⟩
    · rw [List.append_inj_right' e rfl |> List.singleton_inj.1 |>.symm, ← List.append_inj_left' e rfl]
      exact hm
    · rw [List.concat_eq_append, ← List.cons_append, ← List.append_assoc] at e
      exact h.may pre o' post' (List.append_inj_left' e rfl)

/-- **C93, steady loops.** A well-typed program without gradual removals can be followed by any number of cycles with any
states of the robot: what is registered, and what the tasks were told, does not change. -/
theorem C93_steady {L : Loop K} {E : Program.Env K} {W : World} {S : Setup K} (hn : E.ndebug = true)
    (h : WellTyped E W S (L.calls 0)) (hg : NoGradualRemoval (L.calls 0)) (hb : (S.registered E W (L.calls 0)).breaking = [])
    (hs : ∀ n, L.calls (n + 1) = []) (hw : ∀ n, SnapshotOk E.robot.nv (L.robot n))
    (hm : ∀ n, MayCycle E W S (L.calls 0) (L.robot n) (L.time n)) :
    L.Typed E W S ∧ ∀ n, (S.registry E W (L.text n) (L.time n)).items = (S.registered E W (L.calls 0)).items ∧
      (∀ tid, taskCalls tid (L.text n) = taskCalls tid (L.calls 0)) ∧
      ∀ cid, contactCalls cid (L.text n) = contactCalls cid (L.calls 0) := by
  have items : ∀ ops t, (S.registered E W ops).breaking = [] →
      (S.registry E W ops t).items = (S.registered E W ops).items ∧ (S.registry E W ops t).breaking = [] := by
    intro ops t he
    change (Registry.expire _ (S.registered E W ops) t).items = _ ∧ (Registry.expire _ (S.registered E W ops) t).breaking = _
    unfold Registry.expire
    rw [he]
    exact ⟨rfl, rfl⟩
  have key : ∀ n, WellTyped E W S (L.text n) ∧ NoGradualRemoval (L.text n) ∧ (S.registered E W (L.text n)).breaking = [] ∧
      (S.registered E W (L.text n)).items = (S.registered E W (L.calls 0)).items ∧
      (∀ tid, taskCalls tid (L.text n) = taskCalls tid (L.calls 0)) ∧
      (∀ cid, contactCalls cid (L.text n) = contactCalls cid (L.calls 0)) ∧
      ∀ n', MayCycle E W S (L.text n) (L.robot n') (L.time n') := by
    intro n
    induction n with
    | zero => exact ⟨h, hg, hb, rfl, fun _ => rfl, fun _ => rfl, hm⟩
    | succ n ih =>
      obtain ⟨i1, i2, i3, i4, i5, i6, i7⟩ := ih
      obtain ⟨s0, hr, hgood⟩ := C91_runs i1 hn
      obtain ⟨s, hc⟩ := C92_returns hgood (hw n) (i7 n) i2
      have e : L.text (n + 1) = L.text n ++ [.compute (L.robot n) (L.time n)] := by simp only [Loop.text, hs]
      have hreg := registered_cycle hgood hc
      obtain ⟨j1, j2⟩ := items _ (L.time n) i3
      have t1 : ∀ tid, taskCalls tid (L.text (n + 1)) = taskCalls tid (L.calls 0) := fun tid => by
        rw [e, taskCalls_append, i5]; simp [taskCalls]
      have t2 : ∀ cid, contactCalls cid (L.text (n + 1)) = contactCalls cid (L.calls 0) := fun cid => by
        rw [e, contactCalls_append, i6]; simp [contactCalls]
      have r1 : (S.registered E W (L.text (n + 1))).items = (S.registered E W (L.calls 0)).items := by
        rw [e, hreg, j1, i4]
      have r2 : (S.registered E W (L.text (n + 1))).breaking = [] := by rw [e, hreg, j2]
      refine ⟨?_, ?_, r2, r1, t1, t2, fun n' => ?_⟩
      · rw [e]; exact wellTyped_snoc i1 hr ⟨hw n, i7 n⟩ trivial
      · rw [e]
        intro nm dur hmem
        rcases List.mem_append.1 hmem with hmem | hmem
        · exact i2 nm dur hmem
        · cases List.mem_singleton.1 hmem
      · have m := hm n'
        have a1 : (S.registry E W (L.text (n + 1)) (L.time n')).items = (S.registry E W (L.calls 0) (L.time n')).items := by
          rw [(items _ _ r2).1, (items _ _ hb).1, r1]
        refine ⟨m.q, m.classes, ?_, ?_⟩
        · rw [a1]
          intro fam tid p k hk
          rw [t1]
          exact m.announced fam tid p k hk
        · rw [a1]
          intro fam tid p k hk
          rw [t1]
          exact m.supported fam tid p k hk
  refine ⟨fun n => ?_, fun n => ?_⟩
  · obtain ⟨i1, i2, -, -, -, -, i7⟩ := key n
    obtain ⟨s0, hr, -⟩ := C91_runs i1 hn
    exact ⟨wellTyped_snoc i1 hr ⟨hw n, i7 n⟩ trivial, i2⟩
  · obtain ⟨-, -, i3, i4, i5, i6, -⟩ := key n
    exact ⟨((items _ _ i3).1).trans i4, i5, i6⟩

end

end Tsid.Props
