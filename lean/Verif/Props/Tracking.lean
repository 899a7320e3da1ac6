import Verif.Lemmas.Tracking
import Verif.Props.Posture
import Verif.Props.CartesianMore
import Mathlib.Data.Real.Archimedean

/-!
# C79: tracking errors vanish

A robot whose accelerations satisfy the constraint of an equality task at all times.
-/

set_option linter.unusedSectionVars false

namespace Tsid.Props

open Spec Set Filter

/-- Errors with respect to a moving reference. -/
theorem tracks {kp kd : ℝ} (hp : 0 < kp) (hd : 0 < kd) {x v a xr vr ar : ℝ → ℝ} (h1 : Flows x v) (h2 : Flows v a)
    (r1 : Flows xr vr) (r2 : Flows vr ar)
    (ha : ∀ t, 0 ≤ t → a t = ar t + kp * (xr t - x t) + kd * (vr t - v t)) :
    Vanishes kp kd (fun t => x t - xr t) (fun t => v t - vr t) := by
  refine vanishes hp hd (a := fun t => a t - ar t) (fun t ht => (h1 t ht).sub (r1 t ht))
    (fun t ht => (h2 t ht).sub (r2 t ht)) fun t ht => ?_
  simp only [ha t ht]
  ring

/-- **C79, joints.** Joint `j` is selected by the posture task with positive gains, and its coordinate moves on a line
(the difference of configurations is the difference of the coordinates).  If at all times the acceleration of the robot
satisfies the constraint that the task, after any history of calls, computes for the reference of that time, the
tracking error of the joint vanishes exponentially. -/
theorem C79_posture {R : PostureRobot ℝ} (hR : RobotOk R) {name : String} {s0 : Posture ℝ}
    (h0 : Posture.new R name = .ok s0 ()) {j i : Nat} {kp kd : ℝ} (hkp : 0 < kp) (hkd : 0 < kd)
    (hline : ∀ x y : Vec ℝ, (R.difference x y) (R.nv - R.na + j) = y i - x i)
    {os : ℝ → List (Posture.Op ℝ)} {s s' : ℝ → Posture ℝ} {c : ℝ → Constraint ℝ} {q v a : ℝ → Vec ℝ}
    (hg : ∀ t, ∀ o ∈ os t, PostureSettings.GoodMask R.na o)
    (hv' : ∀ t, ∀ q v, Posture.Op.compute q v ∈ os t → v.size = R.nv) :
    let p := fun t => (PostureSettings.fresh R).afterAll R (os t)
    (∀ t, 0 ≤ t → runOps (Posture.step R) s0 (os t) = some (s t) ∧ (s t).compute R (q t) (v t) = .ok (s' t) (c t) ∧
      (v t).size = R.nv ∧ Sat (c t) (a t).get) →
    (∀ t, 0 ≤ t → Selects (p t).mask j ∧ (p t).kp j = kp ∧ (p t).kd j = kd) →
    Flows (fun t => q t i) (fun t => v t (R.nv - R.na + j)) →
    Flows (fun t => v t (R.nv - R.na + j)) (fun t => a t (R.nv - R.na + j)) →
    Flows (fun t => (p t).target R i) (fun t => (p t).ref.vel j) →
    Flows (fun t => (p t).ref.vel j) (fun t => (p t).ref.acc j) →
    Vanishes kp kd (fun t => q t i - (p t).target R i) (fun t => v t (R.nv - R.na + j) - (p t).ref.vel j) := by
  intro p hrun hset h1 h2 h3 h4
  refine tracks hkp hkd h1 h2 h3 h4 fun t ht => ?_
  obtain ⟨r1, r2, r3, r4⟩ := hrun t ht
  obtain ⟨m1, m2, m3⟩ := hset t ht
  obtain ⟨s2, c2, e1, -, -, hsat⟩ := C36_posture_partial hR h0 r1 (hg t) (hv' t) (q t) (v t) r3
  rw [r2] at e1
  cases e1
  have := (hsat (a t).get).1 r4 j m1
  show (a t).get _ = _
  rw [this, PostureSettings.law, hline]
  show (p t).ref.acc j - (p t).kp j * _ - (p t).kd j * _ = _
  rw [m2, m3]
  ring

/-- **C79, centre of mass.** -/
theorem C79_com {g : Nat → ℝ} {name : String} {nv : Nat} {s0 : ComTask ℝ} (h0 : ComTask.new g name nv = .ok s0 ())
    {i : Nat} {kp kd : ℝ} (hkp : 0 < kp) (hkd : 0 < kd) {os : ℝ → List (ComTask.Op ℝ)} {s s' : ℝ → ComTask ℝ}
    {c : ℝ → Constraint ℝ} {k : ℝ → ComKin ℝ} {a : ℝ → Nat → ℝ} (hg : ∀ t, ∀ o ∈ os t, ComSettings.Good o) :
    let p := fun t => (ComSettings.fresh (K := ℝ)).afterAll (os t)
    (∀ t, 0 ≤ t → runOps ComTask.step s0 (os t) = some (s t) ∧ (s t).compute (k t) = .ok (s' t) (c t) ∧
      Sat (c t) (a t)) →
    (∀ t, 0 ≤ t → Selects (p t).mask i ∧ (p t).kp.get i = kp ∧ (p t).kd.get i = kd) →
    Flows (fun t => (k t).pos.get i) (fun t => (k t).vel.get i) →
    Flows (fun t => (k t).vel.get i) (fun t => (pointAcc nv (k t).jac (k t).drift (a t)).get i) →
    Flows (fun t => (p t).pos i) (fun t => (p t).vel i) → Flows (fun t => (p t).vel i) (fun t => (p t).acc i) →
    Vanishes kp kd (fun t => (k t).pos.get i - (p t).pos i) (fun t => (k t).vel.get i - (p t).vel i) := by
  intro p hrun hset h1 h2 h3 h4
  refine tracks hkp hkd h1 h2 h3 h4 fun t ht => ?_
  obtain ⟨r1, r2, r3⟩ := hrun t ht
  obtain ⟨m1, m2, m3⟩ := hset t ht
  obtain ⟨s1, s2, c2, e0, e1, -, -, hsat⟩ := C37_com h0 (hg t) (k t)
  rw [r1] at e0; cases e0
  rw [r2] at e1; cases e1
  rw [(hsat (a t)).1 r3 i m1, ComSettings.law]
  show (p t).acc i + (p t).kp.get i * _ + (p t).kd.get i * _ = _
  rw [m2, m3]

/-- **C79, angular momentum.** The error of the momentum decays like `exp (-kp t)`. -/
theorem C79_momentum {g : Nat → ℝ} {name : String} {nv i : Nat} {kp : ℝ} (hkp : 0 < kp) (hi : i < 3)
    {os : ℝ → List (AmTask.Op ℝ)} {s s' : ℝ → AmTask ℝ} {c : ℝ → Constraint ℝ} {v : ℝ → Vec ℝ} {A : ℝ → Mat ℝ}
    {h : ℝ → V3 ℝ} {a : ℝ → Nat → ℝ} (hg : ∀ t, ∀ o ∈ os t, AmSettings.Good nv o) :
    let p := fun t => (AmSettings.fresh (K := ℝ)).afterAll (os t)
    (∀ t, 0 ≤ t → runOps AmTask.step (AmTask.new g name nv) (os t) = some (s t) ∧
      (s t).compute (v t) (A t) (h t) = .ok (s' t) (c t) ∧ (v t).size = nv ∧ (A t).rows = 6 ∧ (A t).cols = nv ∧
      Sat (c t) (a t)) →
    (∀ t, 0 ≤ t → (p t).kp.get i = kp) →
    Flows (fun t => angularMomentum (A t) (v t).get i) (fun t => angularMomentum (A t) (a t) i + (h t).get i) →
    Flows (fun t => (p t).mom i) (fun t => (p t).dmom i) →
    (∀ t, 0 ≤ t → angularMomentum (A t) (v t).get i - (p t).mom i =
      (angularMomentum (A 0) (v 0).get i - (p 0).mom i) * Real.exp (-kp * t)) ∧
    Tendsto (fun t => angularMomentum (A t) (v t).get i - (p t).mom i) atTop (nhds 0) := by
  intro p hrun hset h1 h2
  have key : ∀ t, 0 ≤ t → angularMomentum (A t) (v t).get i - (p t).mom i =
      (angularMomentum (A 0) (v 0).get i - (p 0).mom i) * Real.exp (-kp * t) := by
    intro t ht
    refine lag_decay (e := fun t => angularMomentum (A t) (v t).get i - (p t).mom i)
      (d := fun t => angularMomentum (A t) (a t) i + (h t).get i - (p t).dmom i)
      (fun t ht => (h1 t ht).sub (h2 t ht)) (fun t ht => ?_) ht
    obtain ⟨r1, r2, r3, r4, r5, r6⟩ := hrun t ht
    obtain ⟨s1, s2, c2, e0, e1, -, -, hsat⟩ := C37_am_partial (g := g) (name := name) (hg t) (h t) r3 r4 r5
    rw [r1] at e0; cases e0
    rw [r2] at e1; cases e1
    show angularMomentum (A t) (a t) i + (h t).get i - _ = _
    rw [(hsat (a t)).1 r6 i hi, AmSettings.law]
    show (p t).dmom i + (p t).kp.get i * ((p t).mom i - _) - (p t).dmom i = _
    rw [hset t ht]
    ring
  refine ⟨key, ?_⟩
  refine tendsto_of_decay (kp := 1) (C := (angularMomentum (A 0) (v 0).get i - (p 0).mom i) ^ 2) (l := 2 * kp) one_pos
    (by linarith) fun t ht => ?_
  rw [key t ht, mul_pow, ← Real.exp_nat_mul, one_mul]
  apply le_of_eq
  congr 2
  push_cast
  ring

/-- A law along the axes of the frame, with equal gains, is the same law along the world axes. -/
theorem unrotate {Rm : M3 ℝ} (ho : Rm.Orthogonal) {m A E V w : V3 ℝ} {kp kd : ℝ}
    (h : ∀ i, i < 3 → m.get i = (Rm.transpose.mulVec A).get i + kp * (Rm.transpose.mulVec E).get i +
      kd * ((Rm.transpose.mulVec V).get i - w.get i)) {i : Nat} (hi : i < 3) :
    (Rm.mulVec m).get i = A.get i + kp * E.get i + kd * (V.get i - (Rm.mulVec w).get i) := by
  have hA := mul_transpose_mulVec ho A
  have hE := mul_transpose_mulVec ho E
  have hV := mul_transpose_mulVec ho V
  have h0 := h 0 (by omega)
  have h1 := h 1 (by omega)
  have h2 := h 2 (by omega)
  simp only [V3.get] at h0 h1 h2
  generalize Rm.transpose.mulVec A = A' at *
  generalize Rm.transpose.mulVec E = E' at *
  generalize Rm.transpose.mulVec V = V' at *
  rw [← hA, ← hE, ← hV]
  rcases i with _ | _ | _ | i
  · simp only [V3.get, M3.mulVec, h0, h1, h2]; ring
  · simp only [V3.get, M3.mulVec, h0, h1, h2]; ring
  · simp only [V3.get, M3.mulVec, h0, h1, h2]; ring
  · omega

/-- **C79, position of a frame.** Either the task works in world axes and selects axis `i`, or it works in the axes of
the frame, selects the three translations and has the same gains for all three. -/
theorem C79_frame {log3 : M3 ℝ → V3 ℝ} {g : Nat → ℝ} {name : String} {nv : Nat} {s0 : SE3Task ℝ}
    (h0 : SE3Task.new g name nv true = .ok s0 ()) {i : Nat} (hi : i < 3) {kp kd : ℝ} (hkp : 0 < kp) (hkd : 0 < kd)
    {os : ℝ → List (SE3Task.Op ℝ)} {s s' : ℝ → SE3Task ℝ} {c : ℝ → Constraint ℝ} {k : ℝ → FrameKin ℝ}
    {a : ℝ → Nat → ℝ} (hg : ∀ t, ∀ o ∈ os t, FrameSettings.Good o) :
    let p := fun t => (FrameSettings.fresh (K := ℝ)).afterAll (os t)
    (∀ t, 0 ≤ t → runOps (SE3Task.step log3) s0 (os t) = some (s t) ∧
      (s t).compute log3 (k t) = .ok (s' t) (c t) ∧ (k t).pose.rot.Orthogonal ∧ Sat (c t) (a t)) →
    (∀ t, 0 ≤ t →
      ((p t).loc = false ∧ Selects (p t).mask i ∧ (p t).kp i = kp ∧ (p t).kd i = kd) ∨
      ((p t).loc = true ∧ ∀ l, l < 3 → Selects (p t).mask l ∧ (p t).kp l = kp ∧ (p t).kd l = kd)) →
    Flows (fun t => (k t).pose.trans.get i) (fun t => ((k t).pose.rot.mulVec (k t).vel.lin).get i) →
    Flows (fun t => ((k t).pose.rot.mulVec (k t).vel.lin).get i)
      (fun t => ((k t).pose.rot.mulVec (motionAcc nv (k t).jac (k t).drift (a t)).lin).get i) →
    Flows (fun t => (p t).pose.trans.get i) (fun t => (p t).vel.lin.get i) →
    Flows (fun t => (p t).vel.lin.get i) (fun t => (p t).acc.lin.get i) →
    Vanishes kp kd (fun t => (k t).pose.trans.get i - (p t).pose.trans.get i)
      (fun t => ((k t).pose.rot.mulVec (k t).vel.lin).get i - (p t).vel.lin.get i) := by
  intro p hrun hset h1 h2 h3 h4
  refine tracks hkp hkd h1 h2 h3 h4 fun t ht => ?_
  obtain ⟨r1, r2, r3, r4⟩ := hrun t ht
  obtain ⟨s1, s2, c2, e0, e1, -, -, hsat⟩ := C37_se3 (log3 := log3) h0 (hg t) (k t) r3
  rw [r1] at e0; cases e0
  rw [r2] at e1; cases e1
  have hs := (hsat (a t)).1 r4
  change ∀ l, Selects (p t).mask l → (p t).achieved nv (k t) (a t) l = (p t).law log3 (k t) l at hs
  have hsub : ∀ x y : V3 ℝ, ∀ l, (x - y).get l = x.get l - y.get l := by
    intro x y l
    rcases l with _ | _ | _ | l
    · rfl
    · rfl
    · rfl
    · simp [V3.get]
  rcases hset t ht with ⟨hl, m1, m2, m3⟩ | ⟨hl, hm⟩
  · have := hs i m1
    simp only [FrameSettings.achieved, FrameSettings.law, hl, Bool.false_eq_true, if_false, motion_get_lin hi, rotate,
      worldError, m2, m3, hsub] at this
    exact this
  · have := unrotate (Rm := (k t).pose.rot) (m := (motionAcc nv (k t).jac (k t).drift (a t)).lin) r3
      (A := (p t).acc.lin) (E := (p t).pose.trans - (k t).pose.trans) (V := (p t).vel.lin) (w := (k t).vel.lin)
      (kp := kp) (kd := kd) (fun l hl3 => by
        obtain ⟨m1, m2, m3⟩ := hm l hl3
        have := hs l m1
        simp only [FrameSettings.achieved, FrameSettings.law, hl, if_true, motion_get_lin hl3, rotate,
          localError, m2, m3] at this
        exact this) hi
    rw [hsub] at this
    exact this

/-- **C79, point contacts.** The contact point converges to its reference position. -/
theorem C79_contact {log3 : M3 ℝ → V3 ℝ} {g g' : Nat → ℝ} {name : String} {nv : Nat} {s0 : SE3Task ℝ}
    (h0 : PointMotion.new g g' name nv true = .ok s0 ()) {i : Nat} (hi : i < 3) {kp kd : ℝ} (hkp : 0 < kp)
    (hkd : 0 < kd) {os : ℝ → List (PointMotion.Op ℝ)} {s s' : ℝ → SE3Task ℝ} {c : ℝ → Constraint ℝ}
    {k : ℝ → FrameKin ℝ} {a : ℝ → Nat → ℝ} {x : V3 ℝ} :
    let p := fun t => (PointSettings.fresh (K := ℝ)).afterAll (os t)
    (∀ t, 0 ≤ t → runOps (PointMotion.step log3) s0 (os t) = some (s t) ∧
      (s t).compute log3 (k t) = .ok (s' t) (c t) ∧ (k t).pose.rot.Orthogonal ∧ Sat (c t) (a t)) →
    (∀ t, 0 ≤ t → (p t).pose.trans = x ∧
      (((p t).loc = false ∧ (p t).kp.get i = kp ∧ (p t).kd.get i = kd) ∨
        ((p t).loc = true ∧ ∀ l, l < 3 → (p t).kp.get l = kp ∧ (p t).kd.get l = kd))) →
    Flows (fun t => (k t).pose.trans.get i) (fun t => ((k t).pose.rot.mulVec (k t).vel.lin).get i) →
    Flows (fun t => ((k t).pose.rot.mulVec (k t).vel.lin).get i)
      (fun t => ((k t).pose.rot.mulVec (motionAcc nv (k t).jac (k t).drift (a t)).lin).get i) →
    Vanishes kp kd (fun t => (k t).pose.trans.get i - x.get i)
      (fun t => ((k t).pose.rot.mulVec (k t).vel.lin).get i - 0) := by
  intro p hrun hset h1 h2
  refine tracks hkp hkd h1 h2 (xr := fun _ => x.get i) (vr := fun _ => 0) (ar := fun _ => 0)
    (fun t _ => hasDerivWithinAt_const _ _ _) (fun t _ => hasDerivWithinAt_const _ _ _) fun t ht => ?_
  obtain ⟨r1, r2, r3, r4⟩ := hrun t ht
  obtain ⟨s1, s2, c2, e0, e1, -, -, -, -, -, hsat, -⟩ := C27_point (log3 := log3) (os := os t) h0 (k t) r3
  rw [r1] at e0; cases e0
  rw [r2] at e1; cases e1
  have hs := (hsat (a t)).1 r4
  change ∀ l, l < 3 → (p t).achieved nv (k t) (a t) l = (p t).law (k t) l at hs
  have hsub : ∀ x y : V3 ℝ, ∀ l, (x - y).get l = x.get l - y.get l := by
    intro x y l
    rcases l with _ | _ | _ | l
    · rfl
    · rfl
    · rfl
    · simp [V3.get]
  obtain ⟨hx, hg⟩ := hset t ht
  rcases hg with ⟨hl, m2, m3⟩ | ⟨hl, hm⟩
  · have := hs i hi
    simp only [PointSettings.achieved, PointSettings.law, hl, Bool.false_eq_true, if_false, m2, m3, hsub, hx] at this
    rw [this]; ring
  · have hz : ∀ l, ((k t).pose.rot.transpose.mulVec (0 : V3 ℝ)).get l = 0 := by
      intro l
      have e : (k t).pose.rot.transpose.mulVec (0 : V3 ℝ) = ⟨0, 0, 0⟩ := by
        simp [M3.mulVec, show (0 : V3 ℝ) = ⟨0, 0, 0⟩ from rfl]
      rw [e]
      rcases l with _ | _ | _ | l <;> rfl
    have := unrotate (Rm := (k t).pose.rot) (m := (motionAcc nv (k t).jac (k t).drift (a t)).lin) r3
      (A := 0) (E := x - (k t).pose.trans) (V := 0) (w := (k t).vel.lin)
      (kp := kp) (kd := kd) (fun l hl3 => by
        obtain ⟨m2, m3⟩ := hm l hl3
        have := hs l hl3
        simp only [PointSettings.achieved, PointSettings.law, hl, if_true, m2, m3, hx] at this
        rw [this, hz]
        ring) hi
    rw [this, hsub]
    rcases i with _ | _ | _ | i
    · rfl
    · rfl
    · rfl
    · omega

/-- **C79, two frames.** The distance between the origins of two frames that a two-frames contact keeps together
vanishes. -/
theorem C79_two_frames {ndebug : Bool} {log3 : M3 ℝ → V3 ℝ} {g g' : Nat → ℝ} {name : String} {nv : Nat}
    {s0 : TwoFrames ℝ} (h0 : PairMotion.new g g' name nv = .ok s0 ()) {i : Nat} (hi : i < 3) {kp kd : ℝ}
    (hkp : 0 < kp) (hkd : 0 < kd) {os : ℝ → List (PairMotion.Op ℝ)} {s s' : ℝ → TwoFrames ℝ} {c : ℝ → Constraint ℝ}
    {k1 k2 : ℝ → FrameKin ℝ} {a : ℝ → Nat → ℝ} (hg : ∀ t, ∀ o ∈ os t, PairGains.Good o) :
    let p := fun t => (⟨⟨0, 0, 0⟩, ⟨0, 0, 0⟩⟩ : PairGains ℝ).afterAll (os t)
    (∀ t, 0 ≤ t → runOps (PairMotion.step ndebug log3) s0 (os t) = some (s t) ∧
      (s t).compute log3 (k1 t) (k2 t) = .ok (s' t) (c t) ∧ (k1 t).pose.rot.Orthogonal ∧ Sat (c t) (a t)) →
    (∀ t, 0 ≤ t → (p t).kp.get i = kp ∧ (p t).kd.get i = kd) →
    Flows (fun t => (k1 t).pose.trans.get i - (k2 t).pose.trans.get i)
      (fun t => ((k1 t).pose.rot.mulVec (k1 t).vel.lin).get i - ((k2 t).pose.rot.mulVec (k2 t).vel.lin).get i) →
    Flows (fun t => ((k1 t).pose.rot.mulVec (k1 t).vel.lin).get i - ((k2 t).pose.rot.mulVec (k2 t).vel.lin).get i)
      (fun t => relativeAcc nv (k1 t) (k2 t) (a t) i) →
    Vanishes kp kd (fun t => (k1 t).pose.trans.get i - (k2 t).pose.trans.get i)
      (fun t => ((k1 t).pose.rot.mulVec (k1 t).vel.lin).get i - ((k2 t).pose.rot.mulVec (k2 t).vel.lin).get i) := by
  intro p hrun hset h1 h2
  refine vanishes hkp hkd h1 h2 fun t ht => ?_
  obtain ⟨r1, r2, r3, r4⟩ := hrun t ht
  obtain ⟨m2, m3⟩ := hset t ht
  obtain ⟨s1, s2, c2, e0, e1, -, -, -, hsat, -⟩ := C27_two_frames (ndebug := ndebug) (log3 := log3) h0 (hg t) (k1 t) (k2 t) r3
  rw [r1] at e0; cases e0
  rw [r2] at e1; cases e1
  have hs := (hsat (a t)).1 r4 i hi
  change _ = (p t).law (k1 t) (k2 t) i at hs
  have hsub : ∀ x y : V3 ℝ, ∀ l, (x - y).get l = x.get l - y.get l := by
    intro x y l
    rcases l with _ | _ | _ | l
    · rfl
    · rfl
    · rfl
    · simp [V3.get]
  rw [hs, PairGains.law, m2, m3, hsub]
  ring

/-- One joint that moves on a line. -/
def lineJoint : PostureRobot ℝ := ⟨1, 1, 1, Vec.zero 1, fun a b => ⟨1, fun i => b i - a i⟩⟩

/-- Non-vacuity: with gains 2 and 3 and reference 0 the motion `exp (-t)` of one joint satisfies all hypotheses. -/
example : ∃ (s0 : Posture ℝ) (s : Posture ℝ) (s' : ℝ → Posture ℝ) (c : ℝ → Constraint ℝ),
    Posture.new lineJoint "p" = .ok s0 () ∧
    runOps (Posture.step lineJoint) s0 [.setKp ⟨1, fun _ => 2⟩, .setKd ⟨1, fun _ => 3⟩] = some s ∧
    (∀ t, s.compute lineJoint ⟨1, fun _ => Real.exp (-t)⟩ ⟨1, fun _ => -Real.exp (-t)⟩ = .ok (s' t) (c t) ∧
      Sat (c t) (fun _ => Real.exp (-t))) ∧
    Vanishes 2 3 (fun t => Real.exp (-t) - 0) (fun t => -Real.exp (-t) - 0) := by
  have hR : RobotOk lineJoint := ⟨le_refl _, le_refl _, fun _ _ => rfl⟩
  obtain ⟨s0, h0, -⟩ := Posture.inv_new (R := lineJoint) (name := "p") hR.na
  have hg : ∀ o ∈ [Posture.Op.setKp (⟨1, fun _ => 2⟩ : Vec ℝ), .setKd ⟨1, fun _ => 3⟩],
      PostureSettings.GoodMask lineJoint.na o := by
    intro o h
    rcases List.mem_cons.1 h with rfl | h
    · trivial
    · rw [List.mem_singleton.1 h]; trivial
  have hv' : ∀ q v, Posture.Op.compute q v ∈ [Posture.Op.setKp (⟨1, fun _ => 2⟩ : Vec ℝ), .setKd ⟨1, fun _ => 3⟩] →
      v.size = lineJoint.nv := by
    intro q v h
    rcases List.mem_cons.1 h with h | h
    · cases h
    · cases List.mem_singleton.1 h
  obtain ⟨s, hr⟩ := C36_runs hR h0 hg hv'
  have hc := fun t : ℝ => C36_posture_partial hR h0 hr hg hv' ⟨1, fun _ => Real.exp (-t)⟩ ⟨1, fun _ => -Real.exp (-t)⟩ rfl
  choose s' c h1 h2 h3 h4 using hc
  have hsat : ∀ t, Sat (c t) (fun _ => Real.exp (-t)) := by
    intro t
    refine (h4 t _).2 fun j hj => ?_
    have hj1 : j < 1 := hj.1
    obtain rfl : j = 0 := by omega
    simp only [PostureSettings.law, PostureSettings.afterAll, PostureSettings.after, PostureSettings.fresh,
      PostureSettings.target, lineJoint, Vec.zero]
    norm_num
    ring
  have d1 : Flows (fun t => Real.exp (-t)) (fun t => -Real.exp (-t)) := fun t _ => by
    have := (hasDerivAt_neg t).exp
    simpa using this.hasDerivWithinAt
  have d2 : Flows (fun t => -Real.exp (-t)) (fun t => Real.exp (-t)) := fun t ht => by
    exact (d1 t ht).neg.congr_deriv (neg_neg _)
  refine ⟨s0, s, s', c, h0, hr, fun t => ⟨h1 t, hsat t⟩, ?_⟩
  have := C79_posture (R := lineJoint) hR h0 (j := 0) (i := 0) (kp := 2) (kd := 3) (by norm_num) (by norm_num)
    (fun _ _ => rfl) (os := fun _ => [.setKp ⟨1, fun _ => 2⟩, .setKd ⟨1, fun _ => 3⟩]) (s := fun _ => s) (s' := s')
    (c := c) (q := fun t => ⟨1, fun _ => Real.exp (-t)⟩) (v := fun t => ⟨1, fun _ => -Real.exp (-t)⟩)
    (a := fun t => ⟨1, fun _ => Real.exp (-t)⟩) (fun _ => hg) (fun _ => hv')
    (fun t _ => ⟨hr, h1 t, rfl, hsat t⟩) (fun t _ => ⟨⟨Nat.one_pos, rfl⟩, rfl, rfl⟩) d1 d2
    (fun t _ => hasDerivWithinAt_const _ _ _) (fun t _ => hasDerivWithinAt_const _ _ _)
  exact this

end Tsid.Props
