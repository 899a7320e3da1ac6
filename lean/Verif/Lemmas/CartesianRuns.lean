import Verif.Lemmas.Cartesian
import Verif.Lemmas.Geometry

/-!
# Histories of the Cartesian tasks
-/

set_option linter.unusedSectionVars false

namespace Tsid

open Spec Finset

variable {K : Type} [Field K] [LinearOrder K] [IsStrictOrderedRing K] [FloorRing K]

theorem toVector_some (M : SE3 K) {v : Vec K} (h : v.size = 12) :
    M.toVector v = some ⟨12, fun i => if i < 3 then M.trans.get i else M.rot.get ((i - 3) % 3) ((i - 3) / 3)⟩ := by
  unfold SE3.toVector
  rw [if_pos h]

theorem ofCoeffs_toVector {M : SE3 K} {v w : Vec K} (h : M.toVector v = some w) : SE3.ofCoeffs w.get = M := by
  unfold SE3.toVector at h
  split at h
  · cases h
    simp [SE3.ofCoeffs, M3.get, V3.get]
  · cases h

/-! ## One frame -/

namespace SE3Task

/-- What holds of the task between two calls. -/
structure Inv (nv : Nat) (p : FrameSettings K) (s : SE3Task K) : Prop where
  nvEq : s.nv = nv
  kp : s.kp = p.kp
  kd : s.kd = p.kd
  kpSize : p.kp.size = 6
  kdSize : p.kd.size = 6
  pose : s.mRef = p.pose
  vel : s.vRef = p.vel
  acc : s.aRef = p.acc
  loc : s.loc = p.loc
  pSize : s.p.size = 12
  prSize : s.pRef.size = 12
  rows : CartRows.Inv 6 nv p.mask s.rows

theorem inv_new {g : Nat → K} {name : String} {nv : Nat} :
    ∃ s, new g name nv true = .ok s () ∧ Inv nv FrameSettings.fresh s := by
  obtain ⟨r, h1, h2⟩ := CartRows.inv_setMask (g := g) (cols := nv) (s := (pre g name nv).rows) (adm_ones 6) rfl
  refine ⟨{ pre g name nv with rows := r }, ?_, rfl, rfl, rfl, rfl, rfl, rfl, rfl, rfl, rfl, rfl, rfl, h2⟩
  have e : (pre g name nv).nv = nv := rfl
  simp only [new, if_true, setMask, e, h1]

/-- The quantities computed before the loop are those of the specification. -/
theorem law_eq {log3 : M3 K → V3 K} {nv : Nat} {p : FrameSettings K} {s : SE3Task K} {k : FrameKin K}
    (hi : Inv nv p s) (ho : k.pose.rot.Orthogonal) :
    (∀ i, (s.law log3 k).aDes i = p.law log3 k i) ∧
    (∀ i, i < 6 → ∀ a : Nat → K, ∑ c ∈ range nv, (s.law log3 k).jac i c * a c + (s.law log3 k).drift i =
      p.achieved nv k a i) := by
  unfold law FrameSettings.law FrameSettings.achieved
  rw [hi.loc]
  cases p.loc with
  | true =>
    simp only [if_true, actInv_rot, error_eq, hi.pose, hi.vel, hi.acc, hi.kp, hi.kd, Motion.get_sub]
    refine ⟨fun i => by ring, fun i h a => ?_⟩
    rw [motionAcc_get _ _ _ _ h]
  | false =>
    simp only [Bool.false_eq_true, if_false, act_rot, error_eq, rotate_localError _ ho, hi.pose, hi.vel, hi.acc, hi.kp,
      hi.kd, Motion.get_sub]
    refine ⟨fun i => by ring, fun i h a => ?_⟩
    rw [rotate_motionAcc, motionAcc_get _ _ _ _ h]

/-- `compute` succeeds, and what it leaves behind. -/
theorem compute_ok {log3 : M3 K → V3 K} {nv : Nat} {p : FrameSettings K} {s : SE3Task K} (hi : Inv nv p s)
    (k : FrameKin K) :
    ∃ s' c, s.compute log3 k = .ok s' c ∧ Inv nv p s' ∧ s'.rows.con = c ∧
      (∀ i, i < 6 → p.mask i = 1 →
        (∀ c, s'.rows.con.mat (countSelected p.mask i) c = (s.law log3 k).jac i c) ∧
        s'.rows.con.vec (countSelected p.mask i) = (s.law log3 k).aDes i - (s.law log3 k).drift i ∧
        s'.rows.aDes (countSelected p.mask i) = (s.law log3 k).aDes i ∧
        s'.rows.drift (countSelected p.mask i) = (s.law log3 k).drift i ∧
        s'.rows.pErr (countSelected p.mask i) = (s.law log3 k).pErr i ∧
        s'.rows.vErr (countSelected p.mask i) = (s.law log3 k).vErr i) ∧
      k.pose.toVector s.p = some s'.p ∧ s.mRef.toVector s.pRef = some s'.pRef ∧
      s'.v = ⟨6, k.vel.get⟩ ∧ s'.vRefVec = ⟨6, s.vRef.get⟩ := by
  obtain ⟨r, h1, h2, h3⟩ := CartRows.fill_ok (s.law log3 k) hi.rows
  unfold compute
  rw [toVector_some _ hi.pSize, toVector_some _ hi.prSize]
  simp only
  rw [if_pos ⟨by rw [hi.kp]; exact hi.kpSize, by rw [hi.kd]; exact hi.kdSize⟩, h1]
  exact ⟨_, _, rfl,
    ⟨hi.nvEq, hi.kp, hi.kd, hi.kpSize, hi.kdSize, hi.pose, hi.vel, hi.acc, hi.loc, rfl, rfl, h2⟩, rfl, h3, rfl, rfl, rfl,
    rfl⟩

/-- Every call within the documented sizes succeeds or throws, and keeps the invariant. -/
theorem inv_step {log3 : M3 K → V3 K} {nv : Nat} {p : FrameSettings K} {s : SE3Task K} {o : Op K} (hi : Inv nv p s)
    (hg : FrameSettings.Good o) : ∃ s', (s.step log3 o).state? = some s' ∧ Inv nv (p.after o) s' := by
  cases o with
  | setMask g m =>
    obtain ⟨r, h1, h2⟩ := CartRows.inv_setMask (g := g) (cols := nv) (s := s.rows) hg hi.rows.kind
    refine ⟨{ s with rows := r }, ?_, hi.nvEq, hi.kp, hi.kd, hi.kpSize, hi.kdSize, hi.pose, hi.vel, hi.acc, hi.loc,
      hi.pSize, hi.prSize, h2⟩
    simp only [step, setMask, hi.nvEq, h1, Res.state?]
  | setKp k =>
    simp only [step, setKp, FrameSettings.after]
    by_cases h : k.size = 6
    · simp only [h, if_true]
      exact ⟨_, rfl, hi.nvEq, rfl, hi.kd, h, hi.kdSize, hi.pose, hi.vel, hi.acc, hi.loc, hi.pSize, hi.prSize, hi.rows⟩
    · simp only [h, if_false]
      exact ⟨_, rfl, hi⟩
  | setKd k =>
    simp only [step, setKd, FrameSettings.after]
    by_cases h : k.size = 6
    · simp only [h, if_true]
      exact ⟨_, rfl, hi.nvEq, hi.kp, rfl, hi.kpSize, h, hi.pose, hi.vel, hi.acc, hi.loc, hi.pSize, hi.prSize, hi.rows⟩
    · simp only [h, if_false]
      exact ⟨_, rfl, hi⟩
  | setReference r =>
    simp only [step, setReference, FrameSettings.after]
    by_cases h : r.pos.size = 12
    · simp only [h, if_true]
      rw [if_pos (hg h)]
      exact ⟨_, rfl, hi.nvEq, hi.kp, hi.kd, hi.kpSize, hi.kdSize, rfl, rfl, rfl, hi.loc, hi.pSize, hi.prSize, hi.rows⟩
    · simp only [h, if_false]
      exact ⟨_, rfl, hi.nvEq, hi.kp, hi.kd, hi.kpSize, hi.kdSize, hi.pose, hi.vel, hi.acc, hi.loc, hi.pSize, hi.prSize,
        hi.rows⟩
  | setReferencePose M =>
    have hv := toVector_some M (v := (Sample.zero 12 6 : Sample K).pos) rfl
    have hc := ofCoeffs_toVector hv
    simp only [step, setReferencePose, hv]
    simp only [setReference]
    rw [if_pos trivial, if_pos ⟨rfl, rfl⟩]
    refine ⟨_, rfl, hi.nvEq, hi.kp, hi.kd, hi.kpSize, hi.kdSize, hc, rfl, rfl, hi.loc, hi.pSize, hi.prSize, hi.rows⟩
  | useLocalFrame b =>
    exact ⟨_, rfl, hi.nvEq, hi.kp, hi.kd, hi.kpSize, hi.kdSize, hi.pose, hi.vel, hi.acc, rfl, hi.pSize, hi.prSize,
      hi.rows⟩
  | compute k =>
    obtain ⟨s', c, h1, h2, -⟩ := compute_ok (log3 := log3) hi k
    exact ⟨s', by simp only [step, h1, Res.state?], h2⟩

theorem inv_run {log3 : M3 K → V3 K} {nv : Nat} {os : List (Op K)} {p : FrameSettings K} {s : SE3Task K}
    (hi : Inv nv p s) (hg : ∀ o ∈ os, FrameSettings.Good o) :
    ∃ s', runOps (step log3) s os = some s' ∧ Inv nv (p.afterAll os) s' := by
  induction os generalizing p s with
  | nil => exact ⟨s, rfl, hi⟩
  | cons o os ih =>
    obtain ⟨s1, h1, hi1⟩ := inv_step (log3 := log3) hi (hg o List.mem_cons_self)
    obtain ⟨s2, h2, hi2⟩ := ih hi1 (fun o' h' => hg o' (List.mem_cons_of_mem _ h'))
    exact ⟨s2, by rw [runOps, h1]; exact h2, hi2⟩

end SE3Task

/-! ## Two frames -/

namespace TwoFrames

/-- What holds of the task between two calls. -/
structure Inv (nv : Nat) (p : PairSettings K) (s : TwoFrames K) : Prop where
  nvEq : s.nv = nv
  kp : s.kp = p.kp
  kd : s.kd = p.kd
  kpSize : p.kp.size = 6
  kdSize : p.kd.size = 6
  rows : CartRows.Inv 6 nv p.mask s.rows

theorem inv_new {g : Nat → K} {name : String} {nv : Nat} :
    ∃ s, new g name nv = .ok s () ∧ Inv nv PairSettings.fresh s := by
  obtain ⟨r, h1, h2⟩ := CartRows.inv_setMask (g := g) (cols := nv)
    (s := ⟨Vec.zero 0, Constraint.mkEq name 6 nv, Vec.zero 0, Vec.zero 0, Vec.zero 0, Vec.zero 0⟩) (adm_ones 6) rfl
  refine ⟨⟨nv, Vec.zero 6, Vec.zero 6, r⟩, ?_, rfl, rfl, rfl, rfl, rfl, h2⟩
  simp only [new, setMask, h1]

theorem law_eq {log3 : M3 K → V3 K} {nv : Nat} {p : PairSettings K} {s : TwoFrames K} {k1 k2 : FrameKin K}
    (hi : Inv nv p s) (ho : k1.pose.rot.Orthogonal) :
    (∀ i, (s.law log3 k1 k2).aDes i = p.law log3 k1 k2 i) ∧
    (∀ i, i < 6 → ∀ a : Nat → K, ∑ c ∈ range nv, (s.law log3 k1 k2).jac i c * a c + (s.law log3 k1 k2).drift i =
      relativeAcc nv k1 k2 a i) := by
  unfold law PairSettings.law relativeAcc
  simp only [act_rot, error_eq, rotate_localError _ ho, hi.kp, hi.kd, Motion.get_sub]
  refine ⟨fun _ => trivial, fun i h a => ?_⟩
  rw [rotate_motionAcc, rotate_motionAcc, motionAcc_get _ _ _ _ h, motionAcc_get _ _ _ _ h]
  simp only [sub_mul, sum_sub_distrib]
  ring

theorem compute_ok {log3 : M3 K → V3 K} {nv : Nat} {p : PairSettings K} {s : TwoFrames K} (hi : Inv nv p s)
    (k1 k2 : FrameKin K) :
    ∃ s' c, s.compute log3 k1 k2 = .ok s' c ∧ Inv nv p s' ∧ s'.rows.con = c ∧
      (∀ i, i < 6 → p.mask i = 1 →
        (∀ c, s'.rows.con.mat (countSelected p.mask i) c = (s.law log3 k1 k2).jac i c) ∧
        s'.rows.con.vec (countSelected p.mask i) = (s.law log3 k1 k2).aDes i - (s.law log3 k1 k2).drift i ∧
        s'.rows.aDes (countSelected p.mask i) = (s.law log3 k1 k2).aDes i ∧
        s'.rows.drift (countSelected p.mask i) = (s.law log3 k1 k2).drift i ∧
        s'.rows.pErr (countSelected p.mask i) = (s.law log3 k1 k2).pErr i ∧
        s'.rows.vErr (countSelected p.mask i) = (s.law log3 k1 k2).vErr i) := by
  obtain ⟨r, h1, h2, h3⟩ := CartRows.fill_ok (s.law log3 k1 k2) hi.rows
  unfold compute
  rw [if_pos ⟨by rw [hi.kp]; exact hi.kpSize, by rw [hi.kd]; exact hi.kdSize⟩, h1]
  exact ⟨_, _, rfl, ⟨hi.nvEq, hi.kp, hi.kd, hi.kpSize, hi.kdSize, h2⟩, rfl, h3⟩

theorem inv_step {ndebug : Bool} {log3 : M3 K → V3 K} {nv : Nat} {p : PairSettings K} {s : TwoFrames K} {o : Op K}
    (hi : Inv nv p s) (hg : PairSettings.Good o) :
    ∃ s', (s.step ndebug log3 o).state? = some s' ∧ Inv nv (p.after o) s' := by
  cases o with
  | setMask g m =>
    obtain ⟨r, h1, h2⟩ := CartRows.inv_setMask (g := g) (cols := nv) (s := s.rows) hg hi.rows.kind
    refine ⟨{ s with rows := r }, ?_, hi.nvEq, hi.kp, hi.kd, hi.kpSize, hi.kdSize, h2⟩
    simp only [step, setMask, hi.nvEq, h1, Res.state?]
  | setKp k =>
    have h : k.size = 6 := hg
    simp only [step, setKp, PairSettings.after, h, if_true]
    exact ⟨_, rfl, hi.nvEq, rfl, hi.kd, h, hi.kdSize, hi.rows⟩
  | setKd k =>
    have h : k.size = 6 := hg
    simp only [step, setKd, PairSettings.after, h, if_true]
    exact ⟨_, rfl, hi.nvEq, hi.kp, rfl, hi.kpSize, h, hi.rows⟩
  | compute k1 k2 =>
    obtain ⟨s', c, h1, h2, -⟩ := compute_ok (log3 := log3) hi k1 k2
    exact ⟨s', by simp only [step, h1, Res.state?], h2⟩

theorem inv_run {ndebug : Bool} {log3 : M3 K → V3 K} {nv : Nat} {os : List (Op K)} {p : PairSettings K}
    {s : TwoFrames K} (hi : Inv nv p s) (hg : ∀ o ∈ os, PairSettings.Good o) :
    ∃ s', runOps (step ndebug log3) s os = some s' ∧ Inv nv (p.afterAll os) s' := by
  induction os generalizing p s with
  | nil => exact ⟨s, rfl, hi⟩
  | cons o os ih =>
    obtain ⟨s1, h1, hi1⟩ := inv_step (ndebug := ndebug) (log3 := log3) hi (hg o List.mem_cons_self)
    obtain ⟨s2, h2, hi2⟩ := ih hi1 (fun o' h' => hg o' (List.mem_cons_of_mem _ h'))
    exact ⟨s2, by rw [runOps, h1]; exact h2, hi2⟩

end TwoFrames

/-! ## Centre of mass -/

namespace ComTask

/-- What holds of the task between two calls. -/
structure Inv (nv : Nat) (p : ComSettings K) (s : ComTask K) : Prop where
  nvEq : s.nv = nv
  kp : s.kp = p.kp
  kd : s.kd = p.kd
  pos : s.ref.pos = ⟨3, p.pos⟩
  vel : s.ref.vel = ⟨3, p.vel⟩
  acc : s.ref.acc = ⟨3, p.acc⟩
  rows : CartRows.Inv 3 nv p.mask s.rows

theorem inv_new {g : Nat → K} {name : String} {nv : Nat} :
    ∃ s, new g name nv = .ok s () ∧ Inv nv ComSettings.fresh s := by
  obtain ⟨r, h1, h2⟩ := CartRows.inv_setMask (g := g) (cols := nv)
    (s := ⟨Vec.zero 0, Constraint.mkEq name 3 nv, Vec.zero 0, Vec.zero 0, Vec.zero 0, Vec.zero 0⟩) (adm_ones 3) rfl
  refine ⟨⟨nv, 0, 0, Sample.zero 3 3, 0, 0, r⟩, ?_, rfl, rfl, rfl, rfl, rfl, rfl, h2⟩
  simp only [new, setMask, if_true, h1]

theorem law_eq {nv : Nat} {p : ComSettings K} {s : ComTask K} {k : ComKin K} (hi : Inv nv p s) :
    (∀ i, (s.law k).aDes i = p.law k i) ∧
    (∀ i, i < 3 → ∀ a : Nat → K, ∑ c ∈ range nv, (s.law k).jac i c * a c + (s.law k).drift i =
      (pointAcc nv k.jac k.drift a).get i) := by
  unfold law ComSettings.law
  simp only [hi.kp, hi.kd, hi.pos, hi.vel, hi.acc]
  refine ⟨fun i => by ring, fun i h a => ?_⟩
  rw [pointAcc_get _ _ _ _ h]

theorem compute_ok {nv : Nat} {p : ComSettings K} {s : ComTask K} (hi : Inv nv p s) (k : ComKin K) :
    ∃ s' c, s.compute k = .ok s' c ∧ Inv nv p s' ∧ s'.rows.con = c ∧
      (∀ i, i < 3 → p.mask i = 1 →
        (∀ c, s'.rows.con.mat (countSelected p.mask i) c = (s.law k).jac i c) ∧
        s'.rows.con.vec (countSelected p.mask i) = (s.law k).aDes i - (s.law k).drift i ∧
        s'.rows.aDes (countSelected p.mask i) = (s.law k).aDes i ∧
        s'.rows.drift (countSelected p.mask i) = (s.law k).drift i ∧
        s'.rows.pErr (countSelected p.mask i) = (s.law k).pErr i ∧
        s'.rows.vErr (countSelected p.mask i) = (s.law k).vErr i) ∧
      s'.p = k.pos ∧ s'.v = k.vel ∧ s'.ref = s.ref := by
  obtain ⟨r, h1, h2, h3⟩ := CartRows.fill_ok (s.law k) hi.rows
  unfold compute
  rw [if_pos ⟨by rw [hi.pos], by rw [hi.vel], by rw [hi.acc]⟩, h1]
  exact ⟨_, _, rfl, ⟨hi.nvEq, hi.kp, hi.kd, hi.pos, hi.vel, hi.acc, h2⟩, rfl, h3, rfl, rfl, rfl⟩

theorem inv_step {nv : Nat} {p : ComSettings K} {s : ComTask K} {o : Op K} (hi : Inv nv p s)
    (hg : ComSettings.Good o) : ∃ s', (s.step o).state? = some s' ∧ Inv nv (p.after o) s' := by
  cases o with
  | setMask g m =>
    simp only [step, setMask, ComSettings.after]
    by_cases h : m.size = 3
    · obtain ⟨r, h1, h2⟩ := CartRows.inv_setMask (g := g) (cols := nv) (s := s.rows) (hg h) hi.rows.kind
      simp only [h, if_true, hi.nvEq, h1]
      exact ⟨_, rfl, rfl, hi.kp, hi.kd, hi.pos, hi.vel, hi.acc, h2⟩
    · simp only [h, if_false]
      exact ⟨_, rfl, hi⟩
  | setKp k =>
    simp only [step, setKp, ComSettings.after]
    by_cases h : k.size = 3
    · simp only [h, if_true]
      exact ⟨_, rfl, hi.nvEq, rfl, hi.kd, hi.pos, hi.vel, hi.acc, hi.rows⟩
    · simp only [h, if_false]
      exact ⟨_, rfl, hi⟩
  | setKd k =>
    simp only [step, setKd, ComSettings.after]
    by_cases h : k.size = 3
    · simp only [h, if_true]
      exact ⟨_, rfl, hi.nvEq, hi.kp, rfl, hi.pos, hi.vel, hi.acc, hi.rows⟩
    · simp only [h, if_false]
      exact ⟨_, rfl, hi⟩
  | setReference r =>
    obtain ⟨⟨n1, f1⟩, ⟨n2, f2⟩, ⟨n3, f3⟩⟩ := r
    obtain ⟨e1, e2, e3⟩ := hg
    simp only at e1 e2 e3
    subst e1 e2 e3
    exact ⟨_, rfl, hi.nvEq, hi.kp, hi.kd, rfl, rfl, rfl, hi.rows⟩
  | compute k =>
    obtain ⟨s', c, h1, h2, -⟩ := compute_ok hi k
    exact ⟨s', by simp only [step, h1, Res.state?], h2⟩

theorem inv_run {nv : Nat} {os : List (Op K)} {p : ComSettings K} {s : ComTask K} (hi : Inv nv p s)
    (hg : ∀ o ∈ os, ComSettings.Good o) :
    ∃ s', runOps step s os = some s' ∧ Inv nv (p.afterAll os) s' := by
  induction os generalizing p s with
  | nil => exact ⟨s, rfl, hi⟩
  | cons o os ih =>
    obtain ⟨s1, h1, hi1⟩ := inv_step hi (hg o List.mem_cons_self)
    obtain ⟨s2, h2, hi2⟩ := ih hi1 (fun o' h' => hg o' (List.mem_cons_of_mem _ h'))
    exact ⟨s2, by rw [runOps, h1]; exact h2, hi2⟩

end ComTask

/-! ## Angular momentum -/

namespace AmTask

/-- What holds of the task between two calls. -/
structure Inv (nv : Nat) (p : AmSettings K) (s : AmTask K) : Prop where
  nvEq : s.nv = nv
  kp : s.kp = p.kp
  pos : s.ref.pos = ⟨3, p.mom⟩
  vel : s.ref.vel = ⟨3, p.dmom⟩
  kind : s.con.kind = .equality
  rows : s.con.mat.rows = 3
  cols : s.con.mat.cols = nv

theorem inv_new {g : Nat → K} {name : String} {nv : Nat} : Inv nv AmSettings.fresh (new g name nv) :=
  ⟨rfl, rfl, rfl, rfl, rfl, rfl, rfl⟩

theorem compute_ok {nv : Nat} {p : AmSettings K} {s : AmTask K} (hi : Inv nv p s) {v : Vec K} {A : Mat K} (h : V3 K)
    (hv : v.size = nv) (hr : A.rows = 6) (hc : A.cols = nv) :
    ∃ s' c, s.compute v A h = .ok s' c ∧ Inv nv p s' ∧ s'.con = c ∧ c.mat = A.bottomRows 3 ∧ c.vec.size = 3 ∧
      (∀ i, c.vec i = s'.dLDes.get i - h.get i) ∧ (∀ i, i < 3 → s'.dLDes.get i = p.law A v.get i) ∧ s'.drift = h ∧
      (∀ i, i < 3 → s'.l.get i = angularMomentum A v.get i) ∧
      (∀ i, i < 3 → s'.lErr.get i = angularMomentum A v.get i - p.mom i) ∧ s'.ref = s.ref := by
  unfold compute
  rw [if_pos ⟨by omega, by omega, by rw [hi.pos], by rw [hi.vel]⟩]
  have h1 : s.con.mat.cols = (A.bottomRows 3).cols := by rw [hi.cols]; exact hc.symm
  have h2 : s.con.mat.rows = (A.bottomRows 3).rows := by rw [hi.rows]; rfl
  simp only [Constraint.setMatrix, Constraint.setVector, h1, h2, if_true, hi.kind]
  refine ⟨_, _, rfl, ⟨hi.nvEq, hi.kp, hi.pos, hi.vel, rfl, rfl, hc⟩, rfl, rfl, rfl, fun i => V3.get_sub _ _ _, ?_, rfl,
    ?_, ?_, rfl⟩
  · intro i hlt
    rcases i with _ | _ | _ | i
    · simp [V3.get, V3.ofFn, AmSettings.law, hi.kp, hi.pos, hi.vel, angularMomentum, Mat.mulVec, Mat.bottomRows, hr]; ring
    · simp [V3.get, V3.ofFn, AmSettings.law, hi.kp, hi.pos, hi.vel, angularMomentum, Mat.mulVec, Mat.bottomRows, hr]; ring
    · simp [V3.get, V3.ofFn, AmSettings.law, hi.kp, hi.pos, hi.vel, angularMomentum, Mat.mulVec, Mat.bottomRows, hr]; ring
    · omega
  · intro i hlt
    rcases i with _ | _ | _ | i
    · simp [V3.get, V3.ofFn, angularMomentum, Mat.mulVec, Mat.bottomRows, hr]
    · simp [V3.get, V3.ofFn, angularMomentum, Mat.mulVec, Mat.bottomRows, hr]
    · simp [V3.get, V3.ofFn, angularMomentum, Mat.mulVec, Mat.bottomRows, hr]
    · omega
  · intro i hlt
    rcases i with _ | _ | _ | i
    · simp [V3.get, V3.ofFn, angularMomentum, Mat.mulVec, Mat.bottomRows, hr, hi.pos]
    · simp [V3.get, V3.ofFn, angularMomentum, Mat.mulVec, Mat.bottomRows, hr, hi.pos]
    · simp [V3.get, V3.ofFn, angularMomentum, Mat.mulVec, Mat.bottomRows, hr, hi.pos]
    · omega

theorem inv_step {nv : Nat} {p : AmSettings K} {s : AmTask K} {o : Op K} (hi : Inv nv p s)
    (hg : AmSettings.Good nv o) : ∃ s', (s.step o).state? = some s' ∧ Inv nv (p.after o) s' := by
  cases o with
  | setMask m => exact ⟨_, rfl, hi.nvEq, hi.kp, hi.pos, hi.vel, hi.kind, hi.rows, hi.cols⟩
  | setKp k =>
    simp only [step, setKp, AmSettings.after]
    by_cases h : k.size = 3
    · simp only [h, if_true]
      exact ⟨_, rfl, hi.nvEq, rfl, hi.pos, hi.vel, hi.kind, hi.rows, hi.cols⟩
    · simp only [h, if_false]
      exact ⟨_, rfl, hi⟩
  | setKd k =>
    simp only [step, setKd, AmSettings.after]
    by_cases h : k.size = 3
    · simp only [h, if_true]
      exact ⟨_, rfl, hi.nvEq, hi.kp, hi.pos, hi.vel, hi.kind, hi.rows, hi.cols⟩
    · simp only [h, if_false]
      exact ⟨_, rfl, hi⟩
  | setReference r =>
    obtain ⟨⟨n1, f1⟩, ⟨n2, f2⟩, a⟩ := r
    obtain ⟨e1, e2⟩ := hg
    simp only at e1 e2
    subst e1 e2
    exact ⟨_, rfl, hi.nvEq, hi.kp, rfl, rfl, hi.kind, hi.rows, hi.cols⟩
  | compute v A h =>
    obtain ⟨s', c, h1, h2, -⟩ := compute_ok hi h hg.1 hg.2.1 hg.2.2
    exact ⟨s', by simp only [step, h1, Res.state?], h2⟩

theorem inv_run {nv : Nat} {os : List (Op K)} {p : AmSettings K} {s : AmTask K} (hi : Inv nv p s)
    (hg : ∀ o ∈ os, AmSettings.Good nv o) :
    ∃ s', runOps step s os = some s' ∧ Inv nv (p.afterAll os) s' := by
  induction os generalizing p s with
  | nil => exact ⟨s, rfl, hi⟩
  | cons o os ih =>
    obtain ⟨s1, h1, hi1⟩ := inv_step hi (hg o List.mem_cons_self)
    obtain ⟨s2, h2, hi2⟩ := ih hi1 (fun o' h' => hg o' (List.mem_cons_of_mem _ h'))
    exact ⟨s2, by rw [runOps, h1]; exact h2, hi2⟩

end AmTask

end Tsid
