import Verif.Props.Cartesian
import Verif.Props.Poses

/-!
# C72, C73: getters and arguments of the Cartesian tasks
-/

set_option linter.unusedSectionVars false

namespace Tsid.Props

open Spec Finset

variable {K : Type} [Field K] [LinearOrder K] [IsStrictOrderedRing K] [FloorRing K]

/-! ## C72 -/

/-- **C72, one frame.** After `compute`, `position()` and `position_ref()` are the vectors of the pose of the frame and
of the reference pose, `velocity()` and `velocity_ref()` the velocity of the frame (its own axes) and of the reference
(world axes); for every selected axis `position_error()`, `velocity_error()` and `getDesiredAcceleration()` have the
error of the pose, the error of the velocity and the acceleration of the PD law in the axes of the task. -/
theorem C72_se3 {log3 : M3 K → V3 K} {g : Nat → K} {name : String} {nv : Nat} {s0 : SE3Task K}
    {os : List (SE3Task.Op K)} (h0 : SE3Task.new g name nv true = .ok s0 ())
    (hg : ∀ o ∈ os, FrameSettings.Good o) (k : FrameKin K) (ho : k.pose.rot.Orthogonal) :
    let p := (FrameSettings.fresh (K := K)).afterAll os
    ∃ s s' c, runOps (SE3Task.step log3) s0 os = some s ∧ s.compute log3 k = .ok s' c ∧
      SE3.ofVector s'.p = some k.pose ∧ SE3.ofVector s'.pRef = some p.pose ∧
      s'.v.size = 6 ∧ (∀ i, i < 6 → s'.v i = k.vel.get i) ∧
      s'.vRefVec.size = 6 ∧ (∀ i, i < 6 → s'.vRefVec i = p.vel.get i) ∧
      s'.rows.pErr.size = countSelected p.mask 6 ∧ s'.rows.vErr.size = countSelected p.mask 6 ∧
      s'.rows.aDes.size = countSelected p.mask 6 ∧
      ∀ i, Selects p.mask i →
        s'.rows.pErr (countSelected p.mask i) =
          (if p.loc then localError log3 k.pose p.pose else worldError log3 k.pose p.pose).get i ∧
        s'.rows.vErr (countSelected p.mask i) =
          (if p.loc then rotate k.pose.rot.transpose p.vel - k.vel else p.vel - rotate k.pose.rot k.vel).get i ∧
        s'.rows.aDes (countSelected p.mask i) = p.law log3 k i := by
  obtain ⟨s1, e1, hi⟩ := SE3Task.inv_new (K := K) (g := g) (name := name) (nv := nv)
  rw [e1] at h0; cases h0
  obtain ⟨s, hr, hi⟩ := SE3Task.inv_run (log3 := log3) hi hg
  intro p
  have hp : (FrameSettings.fresh (K := K)).afterAll os = p := rfl
  clear_value p
  rw [hp] at hi
  obtain ⟨s', c, hc, hi', rfl, hw, hv1, hv2, hv3, hv4⟩ := SE3Task.compute_ok (log3 := log3) hi k
  obtain ⟨l1, l2⟩ := SE3Task.law_eq (log3 := log3) hi ho
  have hsz : p.mask.size = 6 := hi.rows.adm.1
  refine ⟨s, s', _, hr, hc, ?_, ?_, by rw [hv3], fun i _ => by rw [hv3], by rw [hv4], fun i _ => by rw [hv4, hi.vel],
    hi'.rows.pErr, hi'.rows.vErr, hi'.rows.aDes, ?_⟩
  · rw [SE3.ofVector, if_pos hi'.pSize, ofCoeffs_toVector hv1]
  · rw [SE3.ofVector, if_pos hi'.prSize, ofCoeffs_toVector hv2, hi.pose]
  · intro i hs
    have hlt : i < 6 := by rw [← hsz]; exact hs.1
    obtain ⟨-, -, w3, -, w5, w6⟩ := hw i hlt hs.2
    refine ⟨?_, ?_, by rw [w3, l1 i]⟩
    · rw [w5, SE3Task.law, hi.loc]
      cases p.loc
      · simp only [Bool.false_eq_true, if_false, act_rot, error_eq, rotate_localError _ ho, hi.pose]
      · simp only [if_true, error_eq, hi.pose]
    · rw [w6, SE3Task.law, hi.loc]
      cases p.loc
      · simp only [Bool.false_eq_true, if_false, act_rot, hi.vel]
      · simp only [if_true, actInv_rot, hi.vel]

/-- Position, velocity, errors and desired acceleration of the frame of `toyFrame` in world axes, gains 10 and 2, mask
on the first two axes, reference at the origin. -/
example :
    (match SE3Task.new (fun _ => (7 : ℚ)) "t" 2 true with
      | .ok s0 _ =>
        (runOps (SE3Task.step toyLog) s0 [.setKp ⟨6, fun _ => 10⟩, .setKd ⟨6, fun _ => 2⟩, .useLocalFrame false,
          .setMask (fun _ => 9) (Vec.ofList [1, 1, 0, 0, 0, 0])]).bind fun s =>
            match s.compute toyLog toyFrame with
            | .ok s' _ => some (s'.p.toList, s'.v.toList, s'.rows.pErr.toList, s'.rows.vErr.toList, s'.rows.aDes.toList)
            | _ => none
      | _ => none) =
    some ([1, 2, 0, 0, 1, 0, -1, 0, 0, 0, 0, 1], [1, 0, 0, 0, 0, 2], [-1, -2], [0, -1], [-10, -22]) := by
  decide +kernel

/-- **C72, two frames, what holds**: errors and desired acceleration.  Missing: the positions and velocities, which the
class does not report (`C72_two_frames_dummy`). -/
theorem C72_two_frames_partial {ndebug : Bool} {log3 : M3 K → V3 K} {g : Nat → K} {name : String} {nv : Nat}
    {s0 : TwoFrames K} {os : List (TwoFrames.Op K)} (h0 : TwoFrames.new g name nv = .ok s0 ())
    (hg : ∀ o ∈ os, PairSettings.Good o) (k1 k2 : FrameKin K) (ho : k1.pose.rot.Orthogonal) :
    let p := (PairSettings.fresh (K := K)).afterAll os
    ∃ s s' c, runOps (TwoFrames.step ndebug log3) s0 os = some s ∧ s.compute log3 k1 k2 = .ok s' c ∧
      s'.rows.pErr.size = countSelected p.mask 6 ∧ s'.rows.vErr.size = countSelected p.mask 6 ∧
      s'.rows.aDes.size = countSelected p.mask 6 ∧
      ∀ i, Selects p.mask i →
        s'.rows.pErr (countSelected p.mask i) = (worldError log3 k1.pose k2.pose).get i ∧
        s'.rows.vErr (countSelected p.mask i) = (rotate k2.pose.rot k2.vel - rotate k1.pose.rot k1.vel).get i ∧
        s'.rows.aDes (countSelected p.mask i) = p.law log3 k1 k2 i := by
  obtain ⟨s1, e1, hi⟩ := TwoFrames.inv_new (K := K) (g := g) (name := name) (nv := nv)
  rw [e1] at h0; cases h0
  obtain ⟨s, hr, hi⟩ := TwoFrames.inv_run (ndebug := ndebug) (log3 := log3) hi hg
  intro p
  have hp : (PairSettings.fresh (K := K)).afterAll os = p := rfl
  clear_value p
  rw [hp] at hi
  obtain ⟨s', c, hc, hi', rfl, hw⟩ := TwoFrames.compute_ok (log3 := log3) hi k1 k2
  obtain ⟨l1, l2⟩ := TwoFrames.law_eq (log3 := log3) (k2 := k2) hi ho
  refine ⟨s, s', _, hr, hc, hi'.rows.pErr, hi'.rows.vErr, hi'.rows.aDes, ?_⟩
  intro i hs
  have hlt : i < 6 := by rw [← hi.rows.adm.1]; exact hs.1
  obtain ⟨-, -, w3, -, w5, w6⟩ := hw i hlt hs.2
  refine ⟨?_, ?_, by rw [w3, l1 i]⟩
  · rw [w5]
    simp only [TwoFrames.law, act_rot, error_eq, rotate_localError _ ho]
  · rw [w6]
    simp only [TwoFrames.law, act_rot]

/-- **C72 fails for two frames and for angular momentum**: `position()` and the other inherited getters return an empty
vector in every state, while the tasks have 6 and 3 axes. -/
theorem C72_two_frames_dummy (s : TwoFrames K) (t : AmTask K) :
    s.position.size = 0 ∧ t.position.size = 0 := ⟨rfl, rfl⟩

/-- **C72, centre of mass.** -/
theorem C72_com {g : Nat → K} {name : String} {nv : Nat} {s0 : ComTask K} {os : List (ComTask.Op K)}
    (h0 : ComTask.new g name nv = .ok s0 ()) (hg : ∀ o ∈ os, ComSettings.Good o) (k : ComKin K) :
    let p := (ComSettings.fresh (K := K)).afterAll os
    ∃ s s' c, runOps ComTask.step s0 os = some s ∧ s.compute k = .ok s' c ∧
      s'.p = k.pos ∧ s'.v = k.vel ∧ s'.ref.pos.size = 3 ∧ s'.ref.vel.size = 3 ∧
      (∀ i, i < 3 → s'.ref.pos i = p.pos i ∧ s'.ref.vel i = p.vel i) ∧
      s'.rows.pErr.size = countSelected p.mask 3 ∧ s'.rows.vErr.size = countSelected p.mask 3 ∧
      s'.rows.aDes.size = countSelected p.mask 3 ∧
      ∀ i, Selects p.mask i →
        s'.rows.pErr (countSelected p.mask i) = k.pos.get i - p.pos i ∧
        s'.rows.vErr (countSelected p.mask i) = k.vel.get i - p.vel i ∧
        s'.rows.aDes (countSelected p.mask i) = p.law k i := by
  obtain ⟨s1, e1, hi⟩ := ComTask.inv_new (K := K) (g := g) (name := name) (nv := nv)
  rw [e1] at h0; cases h0
  obtain ⟨s, hr, hi⟩ := ComTask.inv_run hi hg
  intro p
  have hp : (ComSettings.fresh (K := K)).afterAll os = p := rfl
  clear_value p
  rw [hp] at hi
  obtain ⟨s', c, hc, hi', rfl, hw, q1, q2, q3⟩ := ComTask.compute_ok hi k
  obtain ⟨l1, l2⟩ := ComTask.law_eq (k := k) hi
  refine ⟨s, s', _, hr, hc, q1, q2, by rw [hi'.pos], by rw [hi'.vel],
    fun i _ => ⟨by rw [hi'.pos], by rw [hi'.vel]⟩, hi'.rows.pErr, hi'.rows.vErr, hi'.rows.aDes, ?_⟩
  intro i hs
  have hlt : i < 3 := by rw [← hi.rows.adm.1]; exact hs.1
  obtain ⟨-, -, w3, -, w5, w6⟩ := hw i hlt hs.2
  refine ⟨?_, ?_, by rw [w3, l1 i]⟩
  · rw [w5]
    simp only [ComTask.law, hi.pos]
  · rw [w6]
    simp only [ComTask.law, hi.vel]

/-- The rows in use are the selected axes. -/
theorem CartRows.dim_eq {n cols : Nat} {m : Vec K} {r : CartRows K} (h : CartRows.Inv n cols m r) :
    r.dim = (countSelected m n : Int) ∧ r.con.rows = countSelected m n := by
  refine ⟨?_, ?_⟩
  · unfold CartRows.dim
    rw [h.mask, trunc_sum_mask h.adm, length_sel]
  · unfold Constraint.rows
    rw [h.kind]
    exact h.rows

/-- **C72, `dim()`.** After any history of calls, `dim()` of the three Cartesian tasks with a mask is the number of axes
that the last mask selects, and the constraint has as many rows. -/
theorem C72_dim {log3 : M3 K → V3 K} {ndebug : Bool} {g : Nat → K} {name : String} {nv : Nat} :
    (∀ {s0 s : SE3Task K} {os : List (SE3Task.Op K)}, SE3Task.new g name nv true = .ok s0 () →
      (∀ o ∈ os, FrameSettings.Good o) → runOps (SE3Task.step log3) s0 os = some s →
      s.rows.dim = (countSelected ((FrameSettings.fresh (K := K)).afterAll os).mask 6 : Int) ∧
      s.rows.con.rows = countSelected ((FrameSettings.fresh (K := K)).afterAll os).mask 6) ∧
    (∀ {s0 s : TwoFrames K} {os : List (TwoFrames.Op K)}, TwoFrames.new g name nv = .ok s0 () →
      (∀ o ∈ os, PairSettings.Good o) → runOps (TwoFrames.step ndebug log3) s0 os = some s →
      s.rows.dim = (countSelected ((PairSettings.fresh (K := K)).afterAll os).mask 6 : Int) ∧
      s.rows.con.rows = countSelected ((PairSettings.fresh (K := K)).afterAll os).mask 6) ∧
    (∀ {s0 s : ComTask K} {os : List (ComTask.Op K)}, ComTask.new g name nv = .ok s0 () →
      (∀ o ∈ os, ComSettings.Good o) → runOps ComTask.step s0 os = some s →
      s.rows.dim = (countSelected ((ComSettings.fresh (K := K)).afterAll os).mask 3 : Int) ∧
      s.rows.con.rows = countSelected ((ComSettings.fresh (K := K)).afterAll os).mask 3) := by
  refine ⟨fun h0 hg hr => ?_, fun h0 hg hr => ?_, fun h0 hg hr => ?_⟩
  · obtain ⟨s1, e1, hi⟩ := SE3Task.inv_new (K := K) (g := g) (name := name) (nv := nv)
    rw [e1] at h0; cases h0
    obtain ⟨s, hr', hi⟩ := SE3Task.inv_run (log3 := log3) hi hg
    rw [hr'] at hr; cases hr
    exact CartRows.dim_eq hi.rows
  · obtain ⟨s1, e1, hi⟩ := TwoFrames.inv_new (K := K) (g := g) (name := name) (nv := nv)
    rw [e1] at h0; cases h0
    obtain ⟨s, hr', hi⟩ := TwoFrames.inv_run (ndebug := ndebug) (log3 := log3) hi hg
    rw [hr'] at hr; cases hr
    exact CartRows.dim_eq hi.rows
  · obtain ⟨s1, e1, hi⟩ := ComTask.inv_new (K := K) (g := g) (name := name) (nv := nv)
    rw [e1] at h0; cases h0
    obtain ⟨s, hr', hi⟩ := ComTask.inv_run hi hg
    rw [hr'] at hr; cases hr
    exact CartRows.dim_eq hi.rows

/-- A centre-of-mass task on two of three axes. -/
example : (match ComTask.new (fun _ => (0 : ℚ)) "com" 3 with
    | .ok s0 _ => (runOps ComTask.step s0 [.setMask (fun _ => 0) (Vec.ofList [1, 0, 1])]).map fun s => (s.rows.dim, s.rows.con.rows)
    | _ => none) = some (2, 2) := by decide +kernel

/-- **C72, angular momentum, what holds**: `getdMomentum`'s counterpart `getDesiredMomentumDerivative()`,
`momentum()`, `momentum_error()`, `momentum_ref()`, `dmomentum_ref()`.  Missing: the inherited getters
(`C72_two_frames_dummy`). -/
theorem C72_am_partial {g : Nat → K} {name : String} {nv : Nat} {os : List (AmTask.Op K)}
    (hg : ∀ o ∈ os, AmSettings.Good nv o) {v : Vec K} {A : Mat K} (h : V3 K) (hv : v.size = nv) (hr : A.rows = 6)
    (hc : A.cols = nv) :
    let p := (AmSettings.fresh (K := K)).afterAll os
    ∃ s s' c, runOps AmTask.step (AmTask.new g name nv) os = some s ∧ s.compute v A h = .ok s' c ∧
      s'.ref.pos.size = 3 ∧ s'.ref.vel.size = 3 ∧
      ∀ i, i < 3 → s'.l.get i = angularMomentum A v.get i ∧ s'.lErr.get i = angularMomentum A v.get i - p.mom i ∧
        s'.dLDes.get i = p.law A v.get i ∧ s'.ref.pos i = p.mom i ∧ s'.ref.vel i = p.dmom i := by
  obtain ⟨s, hrun, hi⟩ := AmTask.inv_run (AmTask.inv_new (g := g) (name := name)) hg
  intro p
  have hp : (AmSettings.fresh (K := K)).afterAll os = p := rfl
  clear_value p
  rw [hp] at hi
  obtain ⟨s', c, hcomp, hi', -, -, -, -, hdes, -, hl, he, -⟩ := AmTask.compute_ok hi h hv hr hc
  exact ⟨s, s', c, hrun, hcomp, by rw [hi'.pos], by rw [hi'.vel],
    fun i hlt => ⟨hl i hlt, he i hlt, hdes i hlt, by rw [hi'.pos], by rw [hi'.vel]⟩⟩

/-- Centre of mass at 3 with reference 1, gains 10 and 2, velocity 5. -/
example :
    (match ComTask.new (fun _ => (7 : ℚ)) "t" 1 with
      | .ok s0 _ =>
        (runOps ComTask.step s0 [.setKp ⟨3, fun _ => 10⟩, .setKd ⟨3, fun _ => 2⟩,
          .setReference ⟨Vec.ofList [1, 0, 0], Vec.zero 3, Vec.zero 3⟩,
          .setMask (fun _ => 9) (Vec.ofList [1, 0, 0])]).bind fun s =>
            match s.compute ⟨⟨3, 0, 0⟩, ⟨5, 0, 0⟩, 0, fun _ => ⟨1, 0, 0⟩⟩ with
            | .ok s' _ => some (s'.p, s'.rows.pErr.toList, s'.rows.vErr.toList, s'.rows.aDes.toList)
            | _ => none
      | _ => none) = some (⟨3, 0, 0⟩, [2], [5], [-30]) := by
  decide +kernel

/-! ## C73 -/

/-- **C73, what holds, gains.** Gains of the wrong size are rejected by the tasks for one frame, for the centre of mass
and for the angular momentum, and leave the task as it was; so are masks of the wrong size by the centre of mass.
Missing: the other setters (`C73_se3_mask_unchecked`, `C73_se3_reference_kept`, `C73_com_reference_unchecked`,
`C73_am_reference_unchecked`, `C73_two_frames_gains_unchecked`). -/
theorem C73_gains_partial (k : Vec K) :
    (k.size ≠ 6 → ∀ s : SE3Task K, s.setKp k = .throw s ∧ s.setKd k = .throw s) ∧
    (k.size ≠ 3 → ∀ s : ComTask K, s.setKp k = .throw s ∧ s.setKd k = .throw s ∧ ∀ g, s.setMask g k = .throw s) ∧
    (k.size ≠ 3 → ∀ s : AmTask K, s.setKp k = .throw s ∧ s.setKd k = .throw s) := by
  refine ⟨fun h s => ?_, fun h s => ?_, fun h s => ?_⟩
  · simp [SE3Task.setKp, SE3Task.setKd, h]
  · simp [ComTask.setKp, ComTask.setKd, ComTask.setMask, h]
  · simp [AmTask.setKp, AmTask.setKd, h]

/-- **C73, what holds, poses.** A reference vector that is not a pose is rejected and does not change what the task
computes: the constraint of the next `compute` is the same. -/
theorem C73_se3_reference_partial {log3 : M3 K → V3 K} (s : SE3Task K) (r : Sample K) (h : r.pos.size ≠ 12)
    (k : FrameKin K) :
    ∃ s', s.setReference r = .throw s' ∧ (s'.compute log3 k).val? = (s.compute log3 k).val? := by
  refine ⟨{ s with ref := r }, by simp only [SE3Task.setReference, h, if_false], ?_⟩
  unfold SE3Task.compute
  simp only
  have hl : ({ s with ref := r } : SE3Task K).law log3 k = s.law log3 k := rfl
  rw [hl]
  cases s.mRef.toVector s.pRef with
  | none => rfl
  | some pr =>
    cases k.pose.toVector s.p with
    | none => rfl
    | some p =>
      simp only
      by_cases hk : s.kp.size = 6 ∧ s.kd.size = 6
      · rw [if_pos hk, if_pos hk]
        cases s.rows.fill (s.law log3 k) (List.range 6) 0 <;> rfl
      · rw [if_neg hk, if_neg hk]

/-- **C73, what holds, histories.** With 0/1 masks of the right size and complete references no history of calls on the
four tasks reaches undefined behaviour or ends the program, whatever the sizes of gains and positions and whatever the
uninitialised memory. -/
theorem C73_no_ub_partial {log3 : M3 K → V3 K} {g : Nat → K} {name : String} {nv : Nat} {ndebug : Bool}
    {o1 : List (SE3Task.Op K)} {o2 : List (TwoFrames.Op K)} {o3 : List (ComTask.Op K)} {o4 : List (AmTask.Op K)}
    {s1 : SE3Task K} {s2 : TwoFrames K} {s3 : ComTask K}
    (h1 : SE3Task.new g name nv true = .ok s1 ()) (h2 : TwoFrames.new g name nv = .ok s2 ())
    (h3 : ComTask.new g name nv = .ok s3 ())
    (g1 : ∀ o ∈ o1, FrameSettings.Good o) (g2 : ∀ o ∈ o2, PairSettings.Good o) (g3 : ∀ o ∈ o3, ComSettings.Good o)
    (g4 : ∀ o ∈ o4, AmSettings.Good nv o) :
    (runOps (SE3Task.step log3) s1 o1).isSome ∧ (runOps (TwoFrames.step ndebug log3) s2 o2).isSome ∧
    (runOps ComTask.step s3 o3).isSome ∧ (runOps AmTask.step (AmTask.new g name nv) o4).isSome := by
  obtain ⟨t1, e1, i1⟩ := SE3Task.inv_new (K := K) (g := g) (name := name) (nv := nv)
  obtain ⟨t2, e2, i2⟩ := TwoFrames.inv_new (K := K) (g := g) (name := name) (nv := nv)
  obtain ⟨t3, e3, i3⟩ := ComTask.inv_new (K := K) (g := g) (name := name) (nv := nv)
  rw [e1] at h1; cases h1
  rw [e2] at h2; cases h2
  rw [e3] at h3; cases h3
  obtain ⟨_, r1, -⟩ := SE3Task.inv_run (log3 := log3) i1 g1
  obtain ⟨_, r2, -⟩ := TwoFrames.inv_run (ndebug := ndebug) (log3 := log3) i2 g2
  obtain ⟨_, r3, -⟩ := ComTask.inv_run i3 g3
  obtain ⟨_, r4, -⟩ := AmTask.inv_run (AmTask.inv_new (g := g) (name := name)) g4
  rw [r1, r2, r3, r4]
  exact ⟨rfl, rfl, rfl, rfl⟩

/-- **C73 fails for masks of SE3 tasks**: a mask of size 3 is accepted, and the next `compute` reads beyond its end; a
mask with an entry -1 is accepted, and the next `compute` writes beyond the constraint. -/
theorem C73_se3_mask_unchecked :
    (match SE3Task.new (fun _ => (0 : ℚ)) "t" 2 true with
      | .ok s0 _ =>
        match s0.setMask (fun _ => 0) (Vec.ofList [1, 1, 1]), s0.setMask (fun _ => 0) (Vec.ofList [1, 1, -1, 0, 0, 0])
        with
        | .ok s _, .ok t _ => (s.compute toyLog toyFrame).isUB && (t.compute toyLog toyFrame).isUB
        | _, _ => false
      | _ => false) = true := by decide +kernel

/-- **C73 fails for references of SE3 tasks**: a rejected reference is what `getReference()` returns afterwards. -/
theorem C73_se3_reference_kept (s : SE3Task K) (r : Sample K) (h : r.pos.size ≠ 12) :
    ∃ s', s.setReference r = .throw s' ∧ s'.ref = r ∧ s'.mRef = s.mRef :=
  ⟨{ s with ref := r }, by simp only [SE3Task.setReference, h, if_false], rfl, rfl⟩

/-- **C73 fails for references of centre-of-mass tasks**: references of any other size are accepted, in every state,
and the next `compute` has undefined behaviour. -/
theorem C73_com_reference_unchecked (s : ComTask K) (r : Sample K) (h : r.pos.size ≠ 3) (k : ComKin K) :
    (s.setReference r).compute k = .ub := by
  simp [ComTask.setReference, ComTask.compute, h]

/-- The same for angular-momentum tasks. -/
theorem C73_am_reference_unchecked (s : AmTask K) (r : Sample K) (h : r.pos.size ≠ 3) (v : Vec K) (A : Mat K)
    (d : V3 K) : (s.setReference r).compute v A d = .ub := by
  simp [AmTask.setReference, AmTask.compute, h]

/-- **C73 fails for gains of two-frames tasks in release builds**: gains of any other size are accepted and the next
`compute` has undefined behaviour; with assertions the program ends. -/
theorem C73_two_frames_gains_unchecked (s : TwoFrames K) (k : Vec K) (h : k.size ≠ 6) (log3 : M3 K → V3 K)
    (k1 k2 : FrameKin K) :
    (∃ s', s.setKp true k = .ok s' () ∧ s'.compute log3 k1 k2 = .ub) ∧ s.setKp false k = .abort := by
  refine ⟨⟨{ s with kp := k }, by simp [TwoFrames.setKp, h], by simp [TwoFrames.compute, h]⟩, ?_⟩
  simp [TwoFrames.setKp, h]

end Tsid.Props
