import Verif.Spec.ForceTasks
import Verif.Lemmas.Geometry
import Mathlib.Tactic.LinearCombination
import Mathlib.Tactic.FieldSimp
import Mathlib.Tactic.Linarith
import Mathlib.Tactic.Positivity

/-!
# C41, C42: force tracking, capture point
-/

set_option linter.unusedSectionVars false

namespace Tsid.Props

open Spec Finset

variable {K : Type} [Field K]

/-! ## C41 -/

theorem leakyIntegral_snoc (dt : K) (e : Nat → K) (lk : K) (i : Nat) : ∀ l : List ((Nat → K) × K),
    leakyIntegral dt (l ++ [(e, lk)]) i = leakyIntegral dt l i + (e i - lk * leakyIntegral dt l i) * dt := by
  intro l
  induction l with
  | nil => simp [leakyIntegral]; ring
  | cons a as ih =>
    simp only [List.cons_append, leakyIntegral, ih, List.map_append, List.prod_append, List.map_cons, List.map_nil,
      List.prod_cons, List.prod_nil]
    ring

/-- What holds of a force task between two calls. -/
structure TrackInv (dt : K) (p : ForceSettings K) (s : ForceTask K) : Prop where
  kp : s.kp = p.kp
  kd : s.kd = p.kd
  ki : s.ki = p.ki
  leak : s.leak = p.leak
  ref : s.ref = p.ref
  fext : s.fext = p.fext
  cname : s.cname = p.cname
  dtEq : s.dt = dt
  kind : s.con.kind = .equality
  intSize : s.int.size = 6
  int : ∀ i, s.int i = leakyIntegral dt p.past i

theorem track_compute {dt : K} {p : ForceSettings K} {s : ForceTask K} (hi : TrackInv dt p s) (hr : p.Ready)
    (gen : Mat K) : ∃ s' c, s.compute gen = .ok s' c ∧ s'.con = c ∧ TrackInv dt p.cycle s' ∧ c.kind = .equality ∧
      c.mat = gen ∧ c.vec.size = 6 ∧ ∀ i, c.vec i = p.law dt i := by
  obtain ⟨r1, r2, r3, r4, r5, r6, r7⟩ := hr
  have hc : s.fext.pos.size = s.ref.pos.size ∧ s.kp.size = s.ref.pos.size ∧ s.kd.size = s.ref.pos.size ∧
      s.ki.size = s.ref.pos.size ∧ s.ref.vel.size = s.ref.pos.size ∧ s.fext.vel.size = s.ref.pos.size ∧
      s.int.size = s.ref.pos.size := by
    rw [hi.kp, hi.kd, hi.ki, hi.ref, hi.fext, hi.intSize, r1, r2, r3, r4, r5, r6, r7]; simp
  have hsz : s.ref.pos.size = 6 := by rw [hi.ref]; exact r4
  simp only [ForceTask.compute]
  rw [if_pos hc]
  refine ⟨_, _, rfl, rfl, ⟨hi.kp, hi.kd, hi.ki, hi.leak, hi.ref, hi.fext, hi.cname, hi.dtEq, hi.kind, hsz, fun i => ?_⟩,
    hi.kind, rfl, hsz, fun i => ?_⟩
  · simp only [ForceSettings.cycle, leakyIntegral_snoc, ForceSettings.error, Vec.sub, hi.int, hi.ref, hi.fext, hi.leak,
      hi.dtEq]
  · simp only [ForceSettings.law, Vec.sub, hi.int, hi.ref, hi.fext, hi.kp, hi.kd, hi.ki]

theorem track_step {dt : K} {p : ForceSettings K} {s : ForceTask K} (hi : TrackInv dt p s) (o : ForceTask.Op K)
    (hr : match o with
      | .compute _ => p.Ready
      | .compute5 _ names => p.cname ≠ "" ∧ p.cname ∈ names → p.Ready
      | _ => True) : ∃ s', (s.step o).state? = some s' ∧ TrackInv dt (p.after o) s' := by
  cases o with
  | setKp k =>
    simp only [ForceTask.step, ForceSettings.after]
    by_cases h : k.size = 6
    · rw [if_pos h, if_pos h]
      exact ⟨_, rfl, rfl, hi.kd, hi.ki, hi.leak, hi.ref, hi.fext, hi.cname, hi.dtEq, hi.kind, hi.intSize, hi.int⟩
    · rw [if_neg h, if_neg h]; exact ⟨_, rfl, hi⟩
  | setKd k =>
    simp only [ForceTask.step, ForceSettings.after]
    by_cases h : k.size = 6
    · rw [if_pos h, if_pos h]
      exact ⟨_, rfl, hi.kp, rfl, hi.ki, hi.leak, hi.ref, hi.fext, hi.cname, hi.dtEq, hi.kind, hi.intSize, hi.int⟩
    · rw [if_neg h, if_neg h]; exact ⟨_, rfl, hi⟩
  | setKi k =>
    simp only [ForceTask.step, ForceSettings.after]
    by_cases h : k.size = 6
    · rw [if_pos h, if_pos h]
      exact ⟨_, rfl, hi.kp, hi.kd, rfl, hi.leak, hi.ref, hi.fext, hi.cname, hi.dtEq, hi.kind, hi.intSize, hi.int⟩
    · rw [if_neg h, if_neg h]; exact ⟨_, rfl, hi⟩
  | setLeakRate l =>
    exact ⟨_, rfl, hi.kp, hi.kd, hi.ki, rfl, hi.ref, hi.fext, hi.cname, hi.dtEq, hi.kind, hi.intSize, hi.int⟩
  | setAssociatedContact c n =>
    exact ⟨_, rfl, hi.kp, hi.kd, hi.ki, hi.leak, hi.ref, hi.fext, rfl, hi.dtEq, hi.kind, hi.intSize, hi.int⟩
  | setReference r =>
    exact ⟨_, rfl, hi.kp, hi.kd, hi.ki, hi.leak, rfl, hi.fext, hi.cname, hi.dtEq, hi.kind, hi.intSize, hi.int⟩
  | setExternalForce f =>
    exact ⟨_, rfl, hi.kp, hi.kd, hi.ki, hi.leak, hi.ref, rfl, hi.cname, hi.dtEq, hi.kind, hi.intSize, hi.int⟩
  | compute gen =>
    obtain ⟨s', c, e, -, hi', -⟩ := track_compute hi hr gen
    exact ⟨s', by simp only [ForceTask.step, e, Res.state?], hi'⟩
  | compute5 gen names =>
    simp only [ForceTask.step, ForceTask.compute5, ForceSettings.after, hi.cname]
    by_cases h : p.cname ≠ "" ∧ p.cname ∈ names
    · rw [if_pos h, if_pos h.1, if_pos h.2]
      obtain ⟨s', c, e, -, hi', -⟩ := track_compute hi (hr h) gen
      exact ⟨s', by rw [e]; rfl, hi'⟩
    · rw [if_neg h]
      by_cases h1 : p.cname ≠ ""
      · rw [if_pos h1, if_neg fun h2 => h ⟨h1, h2⟩]; exact ⟨_, rfl, hi⟩
      · rw [if_neg h1]; exact ⟨_, rfl, hi⟩

theorem track_run {dt : K} (os : List (ForceTask.Op K)) : ∀ {p : ForceSettings K} {s : ForceTask K}, TrackInv dt p s →
    p.ReadyAlong os → ∃ s', runOps ForceTask.step s os = some s' ∧ TrackInv dt (p.afterAll os) s' := by
  induction os with
  | nil => intro p s hi _; exact ⟨s, rfl, hi⟩
  | cons o os ih =>
    intro p s hi hr
    obtain ⟨s1, e1, h1⟩ := track_step hi o hr.1
    obtain ⟨s2, e2, h2⟩ := ih h1 hr.2
    exact ⟨s2, by rw [runOps, e1]; exact e2, h2⟩

theorem track_new (name : String) (dt : K) (contact : Nat) (cname : String) :
    TrackInv dt (ForceSettings.fresh cname) (ForceTask.new name dt contact cname) :=
  ⟨rfl, rfl, rfl, rfl, rfl, rfl, rfl, rfl, rfl, rfl, fun _ => rfl⟩

variable [LinearOrder K]

/-- **C41, the law (partial).** After any history whose cycles find gains, references and measurements set, a cycle with
an active associated contact that has a six-dimensional force generator returns the constraint: wrench of the contact
force = reference + Kp error + Kd error rate + Ki leaky integral of the past errors.  Missing: cycles before the gains
are set (`C41_unset_gains`), point contacts (`C41_point_contact`). -/
theorem C41_law_partial {name : String} {dt : K} {contact : Nat} {cname : String} {hist : List (ForceTask.Op K)}
    (hr : (ForceSettings.fresh cname).ReadyAlong hist) (h : ((ForceSettings.fresh cname).afterAll hist).Ready)
    {gen : Mat K} (hg : gen.rows = 6) {names : List String}
    (hn : ((ForceSettings.fresh (K := K) cname).afterAll hist).cname ∈ names)
    (hne : ((ForceSettings.fresh (K := K) cname).afterAll hist).cname ≠ "") :
    ∃ s s' c, runOps ForceTask.step (ForceTask.new name dt contact cname) hist = some s ∧
      s.step (.compute5 gen names) = .ok s' (some c) ∧ WellFormed c ∧ ∀ f : Nat → K,
      (Sat c f ↔ ∀ i, i < 6 → ∑ j ∈ range gen.cols, gen i j * f j =
        ((ForceSettings.fresh cname).afterAll hist).law dt i) := by
  obtain ⟨s, e, hi⟩ := track_run hist (track_new name dt contact cname) hr
  obtain ⟨s', c, e1, -, -, e2, e3, e4, e5⟩ := track_compute hi h gen
  refine ⟨s, s', c, e, ?_, ?_, fun f => ?_⟩
  · simp only [ForceTask.step, ForceTask.compute5, hi.cname]
    rw [if_pos hne, if_pos hn, e1]
  · simp only [WellFormed, e2, e3, e4, hg]
  · simp only [Sat, e2, e3, hg, row]
    refine forall_congr' fun i => imp_congr_right fun _ => ?_
    rw [e5]

/-- **C41, skipped cycles.** A cycle in which the associated contact is not in the list changes nothing. -/
theorem C41_skipped (s : ForceTask K) (gen : Mat K) (names : List String) (h : s.cname = "" ∨ s.cname ∉ names) :
    s.step (.compute5 gen names) = .ok s (some s.con) := by
  simp only [ForceTask.step, ForceTask.compute5]
  rcases h with h | h
  · rw [if_neg (not_not.2 h)]
  · by_cases h1 : s.cname ≠ ""
    · rw [if_pos h1, if_neg h]
    · rw [if_neg h1]

variable [IsStrictOrderedRing K]

theorem leakyIntegral_bounded {dt E leak : K} (hdt : 0 ≤ dt) (hE : 0 ≤ E) (hl : 0 < leak) (i : Nat)
    (l : List ((Nat → K) × K)) (h : ∀ x ∈ l, |x.1 i| ≤ E ∧ leak ≤ x.2 ∧ x.2 * dt ≤ 1) :
    |leakyIntegral dt l i| ≤ E / leak := by
  induction l using List.reverseRecOn with
  | nil =>
    simp only [leakyIntegral, abs_zero]
    positivity
  | append_singleton l x ih =>
    obtain ⟨e, lk⟩ := x
    obtain ⟨h1, h2, h3⟩ := h (e, lk) (by simp)
    simp only at h1 h2 h3
    have hI := ih fun y hy => h y (List.mem_append_left _ hy)
    rw [leakyIntegral_snoc]
    generalize leakyIntegral dt l i = I at hI
    have e1 : I + (e i - lk * I) * dt = (1 - lk * dt) * I + e i * dt := by ring
    have hq : E ≤ lk * (E / leak) := by
      calc E = leak * (E / leak) := by field_simp
        _ ≤ lk * (E / leak) := by
          apply mul_le_mul_of_nonneg_right h2
          positivity
    rw [e1]
    calc |(1 - lk * dt) * I + e i * dt| ≤ |(1 - lk * dt) * I| + |e i * dt| := abs_add_le _ _
      _ = (1 - lk * dt) * |I| + |e i| * dt := by
        rw [abs_mul, abs_mul, abs_of_nonneg (by linarith : 0 ≤ 1 - lk * dt), abs_of_nonneg hdt]
      _ ≤ (1 - lk * dt) * (E / leak) + E * dt :=
        add_le_add (mul_le_mul_of_nonneg_left hI (by linarith)) (mul_le_mul_of_nonneg_right h1 hdt)
      _ ≤ (1 - lk * dt) * (E / leak) + lk * (E / leak) * dt := by
        have := mul_le_mul_of_nonneg_right hq hdt
        linarith
      _ = E / leak := by ring

/-- **C41, the bound.** If the errors of all past cycles are at most `E` and the leak rates at least `leak > 0` and at
most `1 / dt`, the integral does not exceed `E / leak`, whatever the length of the history. -/
theorem C41_bounded {name : String} {dt E leak : K} {contact : Nat} {cname : String} {hist : List (ForceTask.Op K)}
    (hr : (ForceSettings.fresh cname).ReadyAlong hist) (hdt : 0 ≤ dt) (hE : 0 ≤ E) (hl : 0 < leak) (i : Nat)
    (h : ∀ x ∈ ((ForceSettings.fresh cname).afterAll hist).past, |x.1 i| ≤ E ∧ leak ≤ x.2 ∧ x.2 * dt ≤ 1) :
    ∃ s, runOps ForceTask.step (ForceTask.new name dt contact cname) hist = some s ∧ |s.int i| ≤ E / leak := by
  obtain ⟨s, e, hi⟩ := track_run hist (track_new name dt contact cname) hr
  exact ⟨s, e, by rw [hi.int]; exact leakyIntegral_bounded hdt hE hl i _ h⟩

omit [LinearOrder K] [IsStrictOrderedRing K] in
/-- **C41 before the gains are set**: a cycle is undefined behaviour as long as one of the three gains is missing. -/
theorem C41_unset_gains {name : String} {dt : K} {contact : Nat} {cname : String} {hist : List (ForceTask.Op K)}
    {s : ForceTask K} (hr : (ForceSettings.fresh cname).ReadyAlong hist)
    (hrun : runOps ForceTask.step (ForceTask.new name dt contact cname) hist = some s) (gen : Mat K)
    (h : ((ForceSettings.fresh (K := K) cname).afterAll hist).kp.size = 0 ∨
      ((ForceSettings.fresh (K := K) cname).afterAll hist).kd.size = 0 ∨
      ((ForceSettings.fresh (K := K) cname).afterAll hist).ki.size = 0) :
    (s.step (.compute gen)).isUB = true := by
  obtain ⟨s1, e, hi⟩ := track_run hist (track_new name dt contact cname) hr
  rw [hrun] at e
  cases e
  rw [← hi.kp, ← hi.kd, ← hi.ki] at h
  simp only [ForceTask.step, ForceTask.compute]
  rw [if_neg]
  · rfl
  · rintro ⟨-, h1, h2, h3, -, -, h4⟩
    have := hi.intSize
    omega

/-- **C41 for point contacts**: the force generator of a point contact has three rows, so the constraint has a matrix with
three rows and a right-hand side with six. -/
theorem C41_point_contact {name : String} {dt : K} {contact : Nat} {cname : String} {hist : List (ForceTask.Op K)}
    (hr : (ForceSettings.fresh cname).ReadyAlong hist) (h : ((ForceSettings.fresh cname).afterAll hist).Ready)
    [HasSqrt K] (cn : String) (points : Nat → V3 K) (normal : V3 K) (mu fMin fMax : K) :
    ∃ s s' c, runOps ForceTask.step (ForceTask.new name dt contact cname) hist = some s ∧
      s.step (.compute (Contact.new cn .point points normal mu fMin fMax).forceGen) = .ok s' (some c) ∧
      c.mat.rows = 3 ∧ c.vec.size = 6 ∧ ¬ WellFormed c := by
  obtain ⟨s, e, hi⟩ := track_run hist (track_new name dt contact cname) hr
  obtain ⟨s', c, e1, -, -, e2, e3, e4, e5⟩ :=
    track_compute hi h (Contact.new cn .point points normal mu fMin fMax).forceGen
  have h3 : (Contact.new cn .point points normal mu fMin fMax).forceGen.rows = 3 := rfl
  refine ⟨s, s', c, e, ?_, ?_, e4, ?_⟩
  · simp only [ForceTask.step]
    rw [e1]
  · rw [e3]; exact h3
  · simp only [WellFormed, e2, e3, e4, h3]
    omega

/-- A history of two cycles (one skipped) with gains 2, 3, 1/2, leak rate 1/20 and `dt` = 1/10: the hypotheses of C41
are met, and the second cycle sees the first error through the integral. -/
def trackHistory : List (ForceTask.Op ℚ) :=
  [.setKp ⟨6, fun _ => 2⟩, .setKd ⟨6, fun _ => 3⟩, .setKi ⟨6, fun _ => 1 / 2⟩, .setKp ⟨5, fun _ => 9⟩,
   .setReference ⟨⟨6, fun i => i⟩, ⟨6, fun _ => 1⟩, ⟨6, fun _ => 0⟩⟩, .compute5 (Mat.zero 6 12) ["sole"],
   .compute5 (Mat.zero 6 12) ["hand"], .setExternalForce ⟨⟨6, fun _ => 1⟩, ⟨6, fun _ => 0⟩, ⟨6, fun _ => 0⟩⟩]

example : (ForceSettings.fresh "sole").ReadyAlong trackHistory ∧
    ((ForceSettings.fresh "sole").afterAll trackHistory).Ready ∧
    ((ForceSettings.fresh "sole").afterAll trackHistory).law (1 / 10) 2 = 2 + 2 * 1 + 3 * 1 + 1 / 2 * (1 / 10 * 2) ∧
    (∀ x ∈ ((ForceSettings.fresh "sole").afterAll trackHistory).past,
      |x.1 2| ≤ 2 ∧ 1 / 20 ≤ x.2 ∧ x.2 * (1 / 10 : ℚ) ≤ 1) := by
  refine ⟨?_, ?_, by decide +kernel, ?_⟩
  · simp [trackHistory, ForceSettings.ReadyAlong, ForceSettings.after, ForceSettings.Ready, ForceSettings.fresh,
      ForceSettings.cycle, Sample.zero, Vec.zero]
  · exact ⟨rfl, rfl, rfl, rfl, rfl, rfl, rfl⟩
  · intro x hx
    have : ((ForceSettings.fresh "sole").afterAll trackHistory).past = [(fun i : Nat => (i : ℚ) - 0, 1 / 20)] := rfl
    rw [this] at hx
    simp only [List.mem_cons, List.not_mem_nil, or_false] at hx
    subst hx
    decide +kernel

/-! ## C42 -/

/-- What holds of a capture-point task between two calls. -/
structure CaptureInv (nv : Nat) (g dt : K) (p : CaptureSettings K) (s : CaptureTask K) : Prop where
  nvEq : s.nv = nv
  gEq : s.g = g
  dtEq : s.dt = dt
  rows : s.con.mat.rows = 2
  cols : s.con.mat.cols = nv
  kind : s.con.kind = .inequality
  x : s.limX = (p.lo 0, p.hi 0)
  y : s.limY = (p.lo 1, p.hi 1)
  margin : s.margin = (p.margin 0, p.margin 1)

variable [HasSqrt K]

omit [IsStrictOrderedRing K] in
theorem capture_compute {nv : Nat} {g dt : K} {p : CaptureSettings K} {s : CaptureTask K} (hi : CaptureInv nv g dt p s)
    (k : ComKin K) : ∃ s' c, s.compute k = .ok s' c ∧ CaptureInv nv g dt p s' ∧ c.kind = .inequality ∧
      c.mat = ⟨2, nv, fun i j => (k.jac j).get i⟩ ∧ c.lb.size = 2 ∧ c.ub.size = 2 ∧ s'.drift = k.drift ∧
      let w := sqrt (g / k.pos.z)
      let ka := (2 * w) / ((w * dt + 2) * dt)
      ∀ i, i < 2 → c.lb i = ka * (p.lo i + p.margin i - k.pos.get i - k.vel.get i * (dt + 1 / w)) - k.drift.get i ∧
        c.ub i = ka * (p.hi i - p.margin i - k.pos.get i - k.vel.get i * (dt + 1 / w)) - k.drift.get i := by
  simp only [CaptureTask.compute, Constraint.setMatrix, hi.cols, hi.rows, hi.nvEq, if_true]
  refine ⟨_, _, rfl, ⟨rfl, hi.gEq, hi.dtEq, rfl, rfl, hi.kind, hi.x, hi.y, hi.margin⟩, hi.kind, rfl, rfl, rfl, rfl, ?_⟩
  intro i h
  match i, h with
  | 0, _ => simp only [if_true, hi.x, hi.y, hi.margin, hi.gEq, hi.dtEq]; exact ⟨trivial, trivial⟩
  | 1, _ => simp only [hi.x, hi.y, hi.margin, hi.gEq, hi.dtEq]; exact ⟨rfl, rfl⟩

omit [IsStrictOrderedRing K] in
theorem capture_step {nv : Nat} {g dt : K} {p : CaptureSettings K} {s : CaptureTask K} (hi : CaptureInv nv g dt p s)
    (o : CaptureTask.Op K) : ∃ s', (s.step o).state? = some s' ∧ CaptureInv nv g dt (p.after o) s' := by
  cases o with
  | setX a b =>
    simp only [CaptureTask.step, CaptureSettings.after]
    by_cases h : a ≤ b
    · rw [if_pos h, if_pos h]
      exact ⟨_, rfl, hi.nvEq, hi.gEq, hi.dtEq, hi.rows, hi.cols, hi.kind, by simp, by simpa using hi.y, hi.margin⟩
    · rw [if_neg h, if_neg h]; exact ⟨_, rfl, hi⟩
  | setY a b =>
    simp only [CaptureTask.step, CaptureSettings.after]
    by_cases h : a ≤ b
    · rw [if_pos h, if_pos h]
      exact ⟨_, rfl, hi.nvEq, hi.gEq, hi.dtEq, hi.rows, hi.cols, hi.kind, by simpa using hi.x, by simp, hi.margin⟩
    · rw [if_neg h, if_neg h]; exact ⟨_, rfl, hi⟩
  | setMargin x y => exact ⟨_, rfl, hi.nvEq, hi.gEq, hi.dtEq, hi.rows, hi.cols, hi.kind, hi.x, hi.y, rfl⟩
  | compute k =>
    obtain ⟨s', c, e, h, -⟩ := capture_compute hi k
    exact ⟨s', by simp only [CaptureTask.step, e, Res.state?], h⟩

omit [IsStrictOrderedRing K] in
theorem capture_run {nv : Nat} {g dt : K} (os : List (CaptureTask.Op K)) : ∀ {p : CaptureSettings K} {s : CaptureTask K},
    CaptureInv nv g dt p s → ∃ s', runOps CaptureTask.step s os = some s' ∧ CaptureInv nv g dt (p.afterAll os) s' := by
  induction os with
  | nil => intro p s hi; exact ⟨s, rfl, hi⟩
  | cons o os ih =>
    intro p s hi
    obtain ⟨s1, e1, h1⟩ := capture_step hi o
    obtain ⟨s2, e2, h2⟩ := ih h1
    exact ⟨s2, by rw [runOps, e1]; exact e2, h2⟩

theorem next_capture_eq {w dt : K} (hw : 0 < w) (hdt : 0 < dt) (p v : V3 K) (a : Nat → K) (i : Nat) :
    a i = (2 * w) / ((w * dt + 2) * dt) * (nextCapture w dt p v a i - p.get i - v.get i * (dt + 1 / w)) := by
  have h1 : (w * dt + 2) * dt ≠ 0 := by positivity
  simp only [nextCapture]
  field_simp
  ring

/-- **C42.** After any history of calls, for a centre of mass above the ground: accelerations satisfy the constraint iff,
on both axes, the capture point after one time step of the constant acceleration `J dv + drift` lies within the limits
reduced by the margin. -/
theorem C42_capture [LawfulSqrt K] {name : String} {nv : Nat} {gravity d : V3 K} {dt : K}
    (hist : List (CaptureTask.Op K)) (hdt : 0 < dt) (hg : 0 < gravity.norm) (k : ComKin K) (hz : 0 < k.pos.z)
    (w : K) (hw : 0 < w) (hww : w ^ 2 = gravity.norm / k.pos.z) :
    ∃ s s' c, runOps CaptureTask.step (CaptureTask.new name nv gravity dt d) hist = some s ∧
      s.step (.compute k) = .ok s' (some c) ∧ WellFormed c ∧ c.mat.cols = nv ∧ ∀ dv : Nat → K,
      let p := CaptureSettings.fresh.afterAll hist
      let a := fun i => ∑ j ∈ range nv, (k.jac j).get i * dv j + k.drift.get i
      (Sat c dv ↔ ∀ i, i < 2 → p.lo i + p.margin i ≤ nextCapture w dt k.pos k.vel a i ∧
        nextCapture w dt k.pos k.vel a i ≤ p.hi i - p.margin i) := by
  have h0 : CaptureInv nv gravity.norm dt CaptureSettings.fresh (CaptureTask.new name nv gravity dt d) :=
    ⟨rfl, rfl, rfl, rfl, rfl, rfl, rfl, rfl, rfl⟩
  obtain ⟨s, e, hi⟩ := capture_run hist h0
  obtain ⟨s', c, e1, -, e2, e3, e4, e5, -, e6⟩ := capture_compute hi k
  have hsw : sqrt (gravity.norm / k.pos.z) = w := by
    have hq : (0 : K) ≤ gravity.norm / k.pos.z := by positivity
    have h1 := LawfulSqrt.sq_sqrt _ hq
    have h2 := LawfulSqrt.sqrt_nonneg (gravity.norm / k.pos.z)
    have h3 : (sqrt (gravity.norm / k.pos.z)) ^ 2 = w ^ 2 := by rw [hww, sq, h1]
    exact (pow_left_inj₀ h2 hw.le (by norm_num)).1 h3
  simp only [hsw] at e6
  refine ⟨s, s', c, e, by simp only [CaptureTask.step, e1], by simp only [WellFormed, e2, e3, e4, e5, and_self],
    by rw [e3], fun dv => ?_⟩
  intro p a
  simp only [Sat, e2, e3, row]
  refine forall_congr' fun i => imp_congr_right fun h => ?_
  obtain ⟨q1, q2⟩ := e6 i h
  have hka : 0 < (2 * w) / ((w * dt + 2) * dt) := by positivity
  have ha := next_capture_eq hw hdt k.pos k.vel a i
  have hsum : ∑ j ∈ range nv, (k.jac j).get i * dv j = a i - k.drift.get i := by simp only [a]; ring
  rw [q1, q2, hsum, ha, sub_le_sub_iff_right, sub_le_sub_iff_right, mul_le_mul_iff_right₀ hka,
    mul_le_mul_iff_right₀ hka, sub_le_sub_iff_right, sub_le_sub_iff_right, sub_le_sub_iff_right, sub_le_sub_iff_right]

omit [IsStrictOrderedRing K] in
/-- **C38 fails for the capture-point task**: after any history, `getAcceleration` is undefined behaviour (two rows minus
three). -/
theorem C38_capture {name : String} {nv : Nat} {gravity d : V3 K} {dt : K} (hist : List (CaptureTask.Op K))
    (dv : Vec K) : ∃ s, runOps CaptureTask.step (CaptureTask.new name nv gravity dt d) hist = some s ∧
      (s.getAcceleration dv).isUB = true := by
  have h0 : CaptureInv nv gravity.norm dt CaptureSettings.fresh (CaptureTask.new name nv gravity dt d) :=
    ⟨rfl, rfl, rfl, rfl, rfl, rfl, rfl, rfl, rfl⟩
  obtain ⟨s, e, hi⟩ := capture_run hist h0
  refine ⟨s, e, ?_⟩
  simp only [CaptureTask.getAcceleration]
  rw [if_neg (by rw [hi.rows]; omega)]
  rfl

/-- The hypotheses of C42 are met: gravity of norm 9, centre of mass at height 1, natural frequency 3; the setter with
exchanged limits is rejected. -/
noncomputable def captureCase : ComKin ℝ where
  pos := ⟨0, 0, 1⟩
  vel := ⟨1, 0, 0⟩
  drift := ⟨0, 0, 0⟩
  jac := fun j => if j = 0 then ⟨1, 0, 0⟩ else ⟨0, 1, 0⟩

example : 0 < (V3.mk 0 0 (-9) : V3 ℝ).norm ∧ 0 < captureCase.pos.z ∧
    (3 : ℝ) ^ 2 = (V3.mk 0 0 (-9) : V3 ℝ).norm / captureCase.pos.z ∧
    (CaptureSettings.fresh.afterAll [.setX (-1) (1 : ℝ), .setX 2 1, .setMargin (1 / 10) 0]).hi 0 = 1 ∧
    nextCapture 3 (1 / 10) captureCase.pos captureCase.vel (fun _ => (0 : ℝ)) 0 = 13 / 30 := by
  have h : (V3.mk 0 0 (-9) : V3 ℝ).norm = 9 := by
    simp only [V3.norm, V3.dot]
    show Real.sqrt _ = 9
    rw [show (0 * 0 + 0 * 0 + -9 * -9 : ℝ) = 9 ^ 2 by norm_num]
    exact Real.sqrt_sq (by norm_num)
  rw [h]
  refine ⟨by norm_num, by norm_num [captureCase], by norm_num [captureCase], ?_, ?_⟩
  · norm_num [CaptureSettings.afterAll, CaptureSettings.after]
  · norm_num [nextCapture, captureCase, V3.get]

end Tsid.Props
