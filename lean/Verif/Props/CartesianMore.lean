import Verif.Props.Cartesian

/-!
# C27: gains of point contacts
-/

set_option linter.unusedSectionVars false

namespace Tsid.Props

open Spec Finset

variable {K : Type} [Field K] [LinearOrder K] [IsStrictOrderedRing K] [FloorRing K]

/-! ## C27 -/

theorem positionMask_valid : ValidMask 6 (positionMask : Vec K) := by
  refine ⟨rfl, fun i _ => ?_⟩
  by_cases h : i < 3
  · right; simp [positionMask, h]
  · left; simp [positionMask, h]

theorem positionMask_selects {i : Nat} : Selects (positionMask : Vec K) i ↔ i < 3 := by
  constructor
  · rintro ⟨_, h⟩
    by_contra hn
    simp [positionMask, hn] at h
  · intro h
    exact ⟨show i < 6 by omega, by simp [positionMask, h]⟩

theorem positionMask_count (i : Nat) (h : i ≤ 3) : countSelected (positionMask : Vec K) i = i := by
  induction i with
  | zero => rfl
  | succ n ih => rw [countSelected, ih (by omega), if_pos (by simp [positionMask]; omega)]

/-- The call of the motion task a call of the contact leads to. -/
def PointMotion.toTask : PointMotion.Op K → SE3Task.Op K
  | .setKp g k => .setKp (if k.size = 3 then gains6 g k else Vec.zero 0)
  | .setKd g k => .setKd (if k.size = 3 then gains6 g k else Vec.zero 0)
  | .setReference M => .setReferencePose M
  | .useLocalFrame b => .useLocalFrame b
  | .compute k => .compute k

theorem PointMotion.step_eq (log3 : M3 K → V3 K) (s : SE3Task K) (o : PointMotion.Op K) :
    PointMotion.step log3 s o = SE3Task.step log3 s (PointMotion.toTask o) := by
  cases o with
  | setKp g k =>
    by_cases h : k.size = 3
    · simp only [PointMotion.step, PointMotion.toTask, SE3Task.step, h, if_true]
    · simp [PointMotion.step, PointMotion.toTask, SE3Task.step, h, SE3Task.setKp, Vec.zero]
  | setKd g k =>
    by_cases h : k.size = 3
    · simp only [PointMotion.step, PointMotion.toTask, SE3Task.step, h, if_true]
    · simp [PointMotion.step, PointMotion.toTask, SE3Task.step, h, SE3Task.setKd, Vec.zero]
  | setReference M => rfl
  | useLocalFrame b => rfl
  | compute k => rfl

theorem PointMotion.run_eq (log3 : M3 K → V3 K) (os : List (PointMotion.Op K)) (s : SE3Task K) :
    runOps (PointMotion.step log3) s os = runOps (SE3Task.step log3) s (os.map PointMotion.toTask) := by
  induction os generalizing s with
  | nil => rfl
  | cons o os ih =>
    simp only [List.map_cons, runOps, PointMotion.step_eq]
    cases (SE3Task.step log3 s (PointMotion.toTask o)).state? with
    | none => rfl
    | some s1 => exact ih s1

/-- The settings of the motion task are those of the contact, whatever the uninitialised gains. -/
structure PointMotion.Agree (p : FrameSettings K) (q : PointSettings K) : Prop where
  mask : p.mask = positionMask
  kp : ∀ i, i < 3 → p.kp i = q.kp.get i
  kd : ∀ i, i < 3 → p.kd i = q.kd.get i
  pose : p.pose = q.pose
  vel : p.vel = ⟨⟨0, 0, 0⟩, ⟨0, 0, 0⟩⟩
  acc : p.acc = ⟨⟨0, 0, 0⟩, ⟨0, 0, 0⟩⟩
  loc : p.loc = q.loc

theorem PointMotion.agree_after {p : FrameSettings K} {q : PointSettings K} (h : PointMotion.Agree p q)
    (o : PointMotion.Op K) : PointMotion.Agree (p.after (PointMotion.toTask o)) (q.after o) := by
  have head : ∀ (k : Vec K) (g : Nat → K) (i : Nat), i < 3 → (gains6 g k) i = (⟨k 0, k 1, k 2⟩ : V3 K).get i := by
    intro k g i hi
    rcases i with _ | _ | _ | i
    · rfl
    · rfl
    · rfl
    · omega
  cases o with
  | setKp g k =>
    by_cases hk : k.size = 3
    · simp only [PointMotion.toTask, FrameSettings.after, PointSettings.after, hk, if_true]
      rw [if_pos (show (gains6 g k).size = 6 from rfl)]
      exact ⟨h.mask, head k g, h.kd, h.pose, h.vel, h.acc, h.loc⟩
    · simp only [PointMotion.toTask, FrameSettings.after, PointSettings.after, hk, if_false]
      rw [if_neg (by simp [Vec.zero])]
      exact h
  | setKd g k =>
    by_cases hk : k.size = 3
    · simp only [PointMotion.toTask, FrameSettings.after, PointSettings.after, hk, if_true]
      rw [if_pos (show (gains6 g k).size = 6 from rfl)]
      exact ⟨h.mask, h.kp, head k g, h.pose, h.vel, h.acc, h.loc⟩
    · simp only [PointMotion.toTask, FrameSettings.after, PointSettings.after, hk, if_false]
      rw [if_neg (by simp [Vec.zero])]
      exact h
  | setReference M => exact ⟨h.mask, h.kp, h.kd, rfl, rfl, rfl, h.loc⟩
  | useLocalFrame b => exact ⟨h.mask, h.kp, h.kd, h.pose, h.vel, h.acc, rfl⟩
  | compute k => exact h

theorem PointMotion.agree_all (os : List (PointMotion.Op K)) {p : FrameSettings K} {q : PointSettings K}
    (h : PointMotion.Agree p q) : PointMotion.Agree (p.afterAll (os.map PointMotion.toTask)) (q.afterAll os) := by
  induction os generalizing p q with
  | nil => exact h
  | cons o os ih => exact ih (PointMotion.agree_after h o)

theorem PointMotion.good (o : PointMotion.Op K) : FrameSettings.Good (PointMotion.toTask o) := by
  cases o <;> trivial

/-- State of a point contact after a history, and its settings. -/
theorem PointMotion.inv_run {log3 : M3 K → V3 K} {g g' : Nat → K} {name : String} {nv : Nat} {s0 : SE3Task K}
    {os : List (PointMotion.Op K)} (h0 : PointMotion.new g g' name nv true = .ok s0 ()) :
    ∃ s p, runOps (PointMotion.step log3) s0 os = some s ∧ SE3Task.Inv nv p s ∧
      PointMotion.Agree p ((PointSettings.fresh (K := K)).afterAll os) := by
  obtain ⟨s1, e1, hi⟩ := SE3Task.inv_new (K := K) (g := g) (name := name) (nv := nv)
  obtain ⟨s2, e2, hi2⟩ := SE3Task.inv_step (log3 := log3) (o := .setMask g' positionMask) hi positionMask_valid
  have e3 : s2 = s0 := by
    unfold PointMotion.new at h0
    rw [e1] at h0
    simp only [SE3Task.step] at e2
    simp only at h0
    rw [h0] at e2
    exact (Option.some.inj e2).symm
  subst e3
  obtain ⟨s, hr, hs⟩ := SE3Task.inv_run (log3 := log3) (os := os.map PointMotion.toTask) hi2 (by
    intro o ho
    obtain ⟨o', _, rfl⟩ := List.mem_map.1 ho
    exact PointMotion.good o')
  refine ⟨s, _, by rw [PointMotion.run_eq]; exact hr, hs, PointMotion.agree_all os ?_⟩
  refine ⟨rfl, ?_, ?_, rfl, rfl, rfl, rfl⟩ <;>
    · intro i hi
      rcases i with _ | _ | _ | i
      · rfl
      · rfl
      · rfl
      · omega

theorem motion_get_lin {m : Motion K} {i : Nat} (h : i < 3) : m.get i = m.lin.get i := by
  unfold Motion.get; rw [if_pos h]

/-- **C27.** After any history of calls on a `ContactPoint`, whatever the uninitialised memory contained, the motion
constraint has three rows and is satisfied iff the acceleration of the contact point follows the PD law with the last
accepted 3-d gains and the reference position; the orientation of the reference, the logarithm and the angular gains
play no role.  `Kp()` and `Kd()` return these gains. -/
theorem C27_point {log3 : M3 K → V3 K} {g g' : Nat → K} {name : String} {nv : Nat} {s0 : SE3Task K}
    {os : List (PointMotion.Op K)} (h0 : PointMotion.new g g' name nv true = .ok s0 ())
    (k : FrameKin K) (ho : k.pose.rot.Orthogonal) :
    let q := (PointSettings.fresh (K := K)).afterAll os
    ∃ s s' c, runOps (PointMotion.step log3) s0 os = some s ∧ s.compute log3 k = .ok s' c ∧ WellFormed c ∧
      c.kind = .equality ∧ c.mat.rows = 3 ∧ c.cols = nv ∧
      (∀ i, i < 3 → (PointMotion.kp3 s) i = q.kp.get i ∧ (PointMotion.kd3 s) i = q.kd.get i) ∧
      (∀ a : Nat → K, Sat c a ↔ ∀ i, i < 3 → q.achieved nv k a i = q.law k i) ∧
      (∀ a : Nat → K, ∀ i, i < 3 → Spec.residual c a i = q.achieved nv k a i - q.law k i) := by
  intro q
  obtain ⟨s, p, hr, hi, hag⟩ := PointMotion.inv_run (log3 := log3) (os := os) h0
  obtain ⟨s', c, hc, hi', rfl, hw, -⟩ := SE3Task.compute_ok (log3 := log3) hi k
  obtain ⟨l1, l2⟩ := SE3Task.law_eq (log3 := log3) hi ho
  have hz : ∀ (R : M3 K) (i : Nat), i < 3 → (rotate R (⟨⟨0, 0, 0⟩, ⟨0, 0, 0⟩⟩ : Motion K)).get i = 0 := by
    intro R i hlt
    rcases i with _ | _ | _ | i
    · simp [rotate, M3.mulVec, Motion.get, V3.get]
    · simp [rotate, M3.mulVec, Motion.get, V3.get]
    · simp [rotate, M3.mulVec, Motion.get, V3.get]
    · omega
  have hz' : ∀ i, i < 3 → (⟨⟨0, 0, 0⟩, ⟨0, 0, 0⟩⟩ : Motion K).get i = 0 := by
    intro i hlt
    rcases i with _ | _ | _ | i
    · rfl
    · rfl
    · rfl
    · omega
  have hlaw : ∀ i, i < 3 → p.law log3 k i = q.law k i := by
    intro i hlt
    unfold FrameSettings.law PointSettings.law
    rw [hag.loc, hag.vel, hag.acc, hag.kp i hlt, hag.kd i hlt, hag.pose]
    cases q.loc with
    | true =>
      simp only [if_true, hz _ i hlt, motion_get_lin hlt, localError]
      ring
    | false =>
      simp only [Bool.false_eq_true, if_false]
      rw [hz' i hlt]
      simp only [motion_get_lin hlt, worldError, rotate]
      ring
  have hach : ∀ i, i < 3 → ∀ a, p.achieved nv k a i = q.achieved nv k a i := by
    intro i hlt a
    unfold FrameSettings.achieved PointSettings.achieved
    rw [hag.loc]
    cases q.loc with
    | true => simp only [if_true, motion_get_lin hlt]
    | false => simp only [Bool.false_eq_true, if_false, motion_get_lin hlt, rotate]
  have hcnt : countSelected (positionMask : Vec K) 6 = 3 := by
    simp [countSelected, positionMask]
  have hres : ∀ a : Nat → K, ∀ i, i < 3 → Spec.residual s'.rows.con a i = q.achieved nv k a i - q.law k i := by
    intro a i hlt
    have h6 : i < 6 := by omega
    have hm1 : p.mask i = 1 := by rw [hag.mask]; exact (positionMask_selects.2 hlt).2
    obtain ⟨w1, w2, -⟩ := hw i h6 hm1
    rw [hag.mask, positionMask_count i (by omega)] at w1 w2
    rw [Spec.residual, row, hi'.rows.cols, w2, l1 i]
    simp only [w1]
    rw [← hlaw i hlt, ← hach i hlt a, ← l2 i h6 a]
    ring
  refine ⟨s, s', _, hr, hc, ?_, hi'.rows.kind, ?_, ?_, ?_, ?_, hres⟩
  · simp only [WellFormed, hi'.rows.kind, hi'.rows.vec, hi'.rows.rows]
  · rw [hi'.rows.rows, hag.mask, hcnt]
  · simp only [Constraint.cols, hi'.rows.kind, hi'.rows.cols]
  · intro i hlt
    constructor
    · show s.kp i = _
      rw [hi.kp, hag.kp i hlt]
    · show s.kd i = _
      rw [hi.kd, hag.kd i hlt]
  · intro a
    simp only [Sat, hi'.rows.kind, hi'.rows.rows, hag.mask, hcnt]
    constructor
    · intro h i hlt
      have := hres a i hlt
      rw [Spec.residual, h i hlt, sub_self] at this
      exact (sub_eq_zero.1 this.symm)
    · intro h i hlt
      have := hres a i hlt
      rw [h i hlt, sub_self, Spec.residual] at this
      exact sub_eq_zero.1 this

/-- The constraint of a point contact for the gains 10 and 2: the garbage (7, 9, 5, 6) does not show. -/
example :
    (match PointMotion.new (fun _ => (7 : ℚ)) (fun _ => 9) "c" 2 true with
      | .ok s0 _ =>
        (runOps (PointMotion.step toyLog) s0 [.setKp (fun _ => 5) ⟨3, fun _ => 10⟩, .setKd (fun _ => 6) ⟨3, fun _ => 2⟩,
          .setKp (fun _ => 5) ⟨6, fun _ => 10⟩]).bind
          fun s => (s.compute toyLog toyFrame).val?.map (fun c => (c.mat.toLists, c.vec.toList))
      | _ => none) = some ([[1, 0], [0, 1], [0, 0]], [-20 - 2, 10 - 3, 0]) := by decide +kernel

/-- **C27, two frames.** The same for `ContactTwoFramePositions`. -/
theorem C27_two_frames {ndebug : Bool} {log3 : M3 K → V3 K} {g g' : Nat → K} {name : String} {nv : Nat}
    {s0 : TwoFrames K} {os : List (PairMotion.Op K)} (h0 : PairMotion.new g g' name nv = .ok s0 ())
    (hg : ∀ o ∈ os, PairGains.Good o) (k1 k2 : FrameKin K) (ho : k1.pose.rot.Orthogonal) :
    let q := (⟨⟨0, 0, 0⟩, ⟨0, 0, 0⟩⟩ : PairGains K).afterAll os
    ∃ s s' c, runOps (PairMotion.step ndebug log3) s0 os = some s ∧ s.compute log3 k1 k2 = .ok s' c ∧ WellFormed c ∧
      c.mat.rows = 3 ∧ c.cols = nv ∧
      (∀ a : Nat → K, Sat c a ↔ ∀ i, i < 3 → relativeAcc nv k1 k2 a i = q.law k1 k2 i) ∧
      (∀ a : Nat → K, ∀ i, i < 3 → Spec.residual c a i = relativeAcc nv k1 k2 a i - q.law k1 k2 i) := by
  intro q
  -- the calls of the motion task
  let toTask : PairMotion.Op K → TwoFrames.Op K := fun o => match o with
    | .setKp g k => .setKp (gains6 g k)
    | .setKd g k => .setKd (gains6 g k)
    | .compute k1 k2 => .compute k1 k2
  have hstep : ∀ (s : TwoFrames K) (o : PairMotion.Op K), PairGains.Good o →
      PairMotion.step ndebug log3 s o = TwoFrames.step ndebug log3 s (toTask o) := by
    intro s o h
    cases o with
    | setKp g k => have h : k.size = 3 := h; simp only [PairMotion.step, h, if_true, toTask, TwoFrames.step]
    | setKd g k => have h : k.size = 3 := h; simp only [PairMotion.step, h, if_true, toTask, TwoFrames.step]
    | compute k1 k2 => rfl
  have hrun : ∀ (os : List (PairMotion.Op K)) (s : TwoFrames K), (∀ o ∈ os, PairGains.Good o) →
      runOps (PairMotion.step ndebug log3) s os = runOps (TwoFrames.step ndebug log3) s (os.map toTask) := by
    intro os
    induction os with
    | nil => intro s _; rfl
    | cons o os ih =>
      intro s h
      simp only [List.map_cons, runOps, hstep s o (h o List.mem_cons_self)]
      cases (TwoFrames.step ndebug log3 s (toTask o)).state? with
      | none => rfl
      | some s1 => exact ih s1 (fun o' h' => h o' (List.mem_cons_of_mem _ h'))
  have hgood : ∀ o ∈ os.map toTask, PairSettings.Good o := by
    intro o h
    obtain ⟨o', _, rfl⟩ := List.mem_map.1 h
    cases o' <;> first | rfl | trivial
  -- agreement of the settings
  have hag : ∀ (os : List (PairMotion.Op K)) (p : PairSettings K) (q : PairGains K),
      (p.mask = positionMask ∧ ∀ i, i < 3 → p.kp i = q.kp.get i ∧ p.kd i = q.kd.get i) →
      ((p.afterAll (os.map toTask)).mask = positionMask ∧
        ∀ i, i < 3 → (p.afterAll (os.map toTask)).kp i = (q.afterAll os).kp.get i ∧
          (p.afterAll (os.map toTask)).kd i = (q.afterAll os).kd.get i) := by
    have head : ∀ (k : Vec K) (g : Nat → K) (i : Nat), i < 3 → (gains6 g k) i = (⟨k 0, k 1, k 2⟩ : V3 K).get i := by
      intro k g i hi
      rcases i with _ | _ | _ | i
      · rfl
      · rfl
      · rfl
      · omega
    intro os
    induction os with
    | nil => intro p q h; exact h
    | cons o os ih =>
      intro p q h
      refine ih _ _ ?_
      cases o with
      | setKp g k => exact ⟨h.1, fun i hi => ⟨head k g i hi, (h.2 i hi).2⟩⟩
      | setKd g k => exact ⟨h.1, fun i hi => ⟨(h.2 i hi).1, head k g i hi⟩⟩
      | compute k1 k2 => exact h
  obtain ⟨s1, e1, hi⟩ := TwoFrames.inv_new (K := K) (g := g) (name := name) (nv := nv)
  obtain ⟨s2, e2, hi2⟩ := TwoFrames.inv_step (ndebug := ndebug) (log3 := log3) (o := .setMask g' positionMask) hi
    positionMask_valid
  have e3 : s2 = s0 := by
    unfold PairMotion.new at h0
    rw [e1] at h0
    simp only [TwoFrames.step] at e2
    simp only at h0
    rw [h0] at e2
    exact (Option.some.inj e2).symm
  subst e3
  obtain ⟨s, hr, hs⟩ := TwoFrames.inv_run (ndebug := ndebug) (log3 := log3) hi2 hgood
  have hagree := hag os ((PairSettings.fresh (K := K)).after (.setMask g' positionMask)) ⟨⟨0, 0, 0⟩, ⟨0, 0, 0⟩⟩ (by
    refine ⟨rfl, fun i hi => ?_⟩
    rcases i with _ | _ | _ | i
    · exact ⟨rfl, rfl⟩
    · exact ⟨rfl, rfl⟩
    · exact ⟨rfl, rfl⟩
    · omega)
  generalize ((PairSettings.fresh (K := K)).after (.setMask g' positionMask)).afterAll (os.map toTask) = p at *
  obtain ⟨hm, hk⟩ := hagree
  obtain ⟨s', c, hc, hi', rfl, hw⟩ := TwoFrames.compute_ok (log3 := log3) hs k1 k2
  obtain ⟨l1, l2⟩ := TwoFrames.law_eq (log3 := log3) (k2 := k2) hs ho
  have hcnt : countSelected (positionMask : Vec K) 6 = 3 := by simp [countSelected, positionMask]
  have hlaw : ∀ i, i < 3 → p.law log3 k1 k2 i = q.law k1 k2 i := by
    intro i hlt
    simp only [PairSettings.law, PairGains.law, (hk i hlt).1, (hk i hlt).2, motion_get_lin hlt, worldError, rotate]
    rfl
  refine ⟨s, s', _, by rw [hrun os _ hg]; exact hr, hc, ?_, ?_, ?_, ?_, ?_⟩
  · simp only [WellFormed, hi'.rows.kind, hi'.rows.vec, hi'.rows.rows]
  · rw [hi'.rows.rows, hm, hcnt]
  · simp only [Constraint.cols, hi'.rows.kind, hi'.rows.cols]
  · intro a
    rw [CartRows.sat_iff hi'.rows (fun i h1 h2 => ⟨(hw i h1 h2).1, (hw i h1 h2).2.1⟩) a, hm]
    constructor
    · intro h i hlt
      rw [← l2 i (by omega) a, ← hlaw i hlt, ← l1 i]
      exact h i (positionMask_selects.2 hlt)
    · intro h i hsel
      have hlt := positionMask_selects.1 hsel
      rw [l2 i (by omega) a, l1 i, hlaw i hlt]
      exact h i hlt
  · intro a i hlt
    have h6 : i < 6 := by omega
    have hm1 : p.mask i = 1 := by rw [hm]; exact (positionMask_selects.2 hlt).2
    obtain ⟨w1, w2, -⟩ := hw i h6 hm1
    rw [hm, positionMask_count i (by omega)] at w1 w2
    rw [Spec.residual, row, hi'.rows.cols, w2, l1 i]
    simp only [w1]
    rw [← hlaw i hlt, ← l2 i h6 a]
    ring

/-- Two frames with gains 10 and 2, the second at the origin: the garbage does not show. -/
example :
    (match PairMotion.new (fun _ => (7 : ℚ)) (fun _ => 9) "c" 2 with
      | .ok s0 _ =>
        (runOps (PairMotion.step true toyLog) s0 [.setKp (fun _ => 5) ⟨3, fun _ => 10⟩,
          .setKd (fun _ => 6) ⟨3, fun _ => 2⟩]).bind
          fun s => (s.compute toyLog toyFrame ⟨SE3.one, 0, 0, fun _ => 0⟩).val?.map
            (fun c => (c.mat.toLists, c.vec.toList))
      | _ => none) = some ([[0, -1], [1, 0], [0, 0]], [-10 + 3, -20 - 2, 0]) := by decide +kernel

end Tsid.Props
