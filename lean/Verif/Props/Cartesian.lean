import Verif.Lemmas.CartesianRuns

/-!
# C37, C38, C39: Cartesian equality tasks
-/

set_option linter.unusedSectionVars false

namespace Tsid.Props

open Spec Finset

variable {K : Type} [Field K] [LinearOrder K] [IsStrictOrderedRing K] [FloorRing K]

/-! ## C37 -/

/-- **C37, one frame.** After any history of calls with 0/1 masks (gains and reference positions of any size; rejected
calls included) the task can be computed, and joint accelerations satisfy its constraint iff on every selected axis the
acceleration of the frame (Jacobian times accelerations plus drift), in the axes of the task, is the one the PD law of
the current settings asks for. -/
theorem C37_se3 {log3 : M3 K → V3 K} {g : Nat → K} {name : String} {nv : Nat} {s0 : SE3Task K}
    {os : List (SE3Task.Op K)} (h0 : SE3Task.new g name nv true = .ok s0 ())
    (hg : ∀ o ∈ os, FrameSettings.Good o) (k : FrameKin K) (ho : k.pose.rot.Orthogonal) :
    ∃ s s' c, runOps (SE3Task.step log3) s0 os = some s ∧ s.compute log3 k = .ok s' c ∧ WellFormed c ∧ c.cols = nv ∧
      ∀ a : Nat → K, Sat c a ↔ ∀ i, Selects ((FrameSettings.fresh (K := K)).afterAll os).mask i →
        ((FrameSettings.fresh (K := K)).afterAll os).achieved nv k a i =
          ((FrameSettings.fresh (K := K)).afterAll os).law log3 k i := by
  obtain ⟨s1, e1, hi⟩ := SE3Task.inv_new (K := K) (g := g) (name := name) (nv := nv)
  rw [e1] at h0; cases h0
  obtain ⟨s, hr, hi⟩ := SE3Task.inv_run (log3 := log3) hi hg
  generalize (FrameSettings.fresh (K := K)).afterAll os = p at *
  obtain ⟨s', c, hc, hi', rfl, hw, -⟩ := SE3Task.compute_ok (log3 := log3) hi k
  obtain ⟨l1, l2⟩ := SE3Task.law_eq (log3 := log3) hi ho
  refine ⟨s, s', _, hr, hc, ?_, ?_, ?_⟩
  · simp only [WellFormed, hi'.rows.kind, hi'.rows.vec, hi'.rows.rows]
  · simp only [Constraint.cols, hi'.rows.kind, hi'.rows.cols]
  · intro a
    rw [CartRows.sat_iff hi'.rows (fun i h1 h2 => ⟨(hw i h1 h2).1, (hw i h1 h2).2.1⟩) a]
    have hsz : p.mask.size = 6 := hi.rows.adm.1
    constructor
    · intro h i hs
      have hlt : i < 6 := by rw [← hsz]; exact hs.1
      rw [← l2 i hlt a, ← l1 i]
      exact h i hs
    · intro h i hs
      have hlt : i < 6 := by rw [← hsz]; exact hs.1
      rw [l2 i hlt a, l1 i]
      exact h i hs

/-- **C37, two frames.** The same for the relative acceleration of two frames in world axes. -/
theorem C37_two_frames {ndebug : Bool} {log3 : M3 K → V3 K} {g : Nat → K} {name : String} {nv : Nat}
    {s0 : TwoFrames K} {os : List (TwoFrames.Op K)} (h0 : TwoFrames.new g name nv = .ok s0 ())
    (hg : ∀ o ∈ os, PairSettings.Good o) (k1 k2 : FrameKin K) (ho : k1.pose.rot.Orthogonal) :
    ∃ s s' c, runOps (TwoFrames.step ndebug log3) s0 os = some s ∧ s.compute log3 k1 k2 = .ok s' c ∧ WellFormed c ∧
      c.cols = nv ∧
      ∀ a : Nat → K, Sat c a ↔ ∀ i, Selects ((PairSettings.fresh (K := K)).afterAll os).mask i →
        relativeAcc nv k1 k2 a i = ((PairSettings.fresh (K := K)).afterAll os).law log3 k1 k2 i := by
  obtain ⟨s1, e1, hi⟩ := TwoFrames.inv_new (K := K) (g := g) (name := name) (nv := nv)
  rw [e1] at h0; cases h0
  obtain ⟨s, hr, hi⟩ := TwoFrames.inv_run (ndebug := ndebug) (log3 := log3) hi hg
  generalize (PairSettings.fresh (K := K)).afterAll os = p at *
  obtain ⟨s', c, hc, hi', rfl, hw⟩ := TwoFrames.compute_ok (log3 := log3) hi k1 k2
  obtain ⟨l1, l2⟩ := TwoFrames.law_eq (log3 := log3) (k2 := k2) hi ho
  refine ⟨s, s', _, hr, hc, ?_, ?_, ?_⟩
  · simp only [WellFormed, hi'.rows.kind, hi'.rows.vec, hi'.rows.rows]
  · simp only [Constraint.cols, hi'.rows.kind, hi'.rows.cols]
  · intro a
    rw [CartRows.sat_iff hi'.rows (fun i h1 h2 => ⟨(hw i h1 h2).1, (hw i h1 h2).2.1⟩) a]
    have hsz : p.mask.size = 6 := hi.rows.adm.1
    constructor
    · intro h i hs
      have hlt : i < 6 := by rw [← hsz]; exact hs.1
      rw [← l2 i hlt a, ← l1 i]
      exact h i hs
    · intro h i hs
      have hlt : i < 6 := by rw [← hsz]; exact hs.1
      rw [l2 i hlt a, l1 i]
      exact h i hs

/-- **C37, centre of mass.** -/
theorem C37_com {g : Nat → K} {name : String} {nv : Nat} {s0 : ComTask K} {os : List (ComTask.Op K)}
    (h0 : ComTask.new g name nv = .ok s0 ()) (hg : ∀ o ∈ os, ComSettings.Good o) (k : ComKin K) :
    ∃ s s' c, runOps ComTask.step s0 os = some s ∧ s.compute k = .ok s' c ∧ WellFormed c ∧ c.cols = nv ∧
      ∀ a : Nat → K, Sat c a ↔ ∀ i, Selects ((ComSettings.fresh (K := K)).afterAll os).mask i →
        (pointAcc nv k.jac k.drift a).get i = ((ComSettings.fresh (K := K)).afterAll os).law k i := by
  obtain ⟨s1, e1, hi⟩ := ComTask.inv_new (K := K) (g := g) (name := name) (nv := nv)
  rw [e1] at h0; cases h0
  obtain ⟨s, hr, hi⟩ := ComTask.inv_run hi hg
  generalize (ComSettings.fresh (K := K)).afterAll os = p at *
  obtain ⟨s', c, hc, hi', rfl, hw, -⟩ := ComTask.compute_ok hi k
  obtain ⟨l1, l2⟩ := ComTask.law_eq (k := k) hi
  refine ⟨s, s', _, hr, hc, ?_, ?_, ?_⟩
  · simp only [WellFormed, hi'.rows.kind, hi'.rows.vec, hi'.rows.rows]
  · simp only [Constraint.cols, hi'.rows.kind, hi'.rows.cols]
  · intro a
    rw [CartRows.sat_iff hi'.rows (fun i h1 h2 => ⟨(hw i h1 h2).1, (hw i h1 h2).2.1⟩) a]
    have hsz : p.mask.size = 3 := hi.rows.adm.1
    constructor
    · intro h i hs
      have hlt : i < 3 := by rw [← hsz]; exact hs.1
      rw [← l2 i hlt a, ← l1 i]
      exact h i hs
    · intro h i hs
      have hlt : i < 3 := by rw [← hsz]; exact hs.1
      rw [l2 i hlt a, l1 i]
      exact h i hs

/-- **C37, angular momentum, what holds.** Whatever mask was set, the constraint says that all three axes of the
momentum derivative are the desired ones.  Missing: the masks (`C37_am_mask_ignored`). -/
theorem C37_am_partial {g : Nat → K} {name : String} {nv : Nat} {os : List (AmTask.Op K)}
    (hg : ∀ o ∈ os, AmSettings.Good nv o) {v : Vec K} {A : Mat K} (h : V3 K) (hv : v.size = nv) (hr : A.rows = 6)
    (hc : A.cols = nv) :
    ∃ s s' c, runOps AmTask.step (AmTask.new g name nv) os = some s ∧ s.compute v A h = .ok s' c ∧ WellFormed c ∧
      c.cols = nv ∧
      ∀ a : Nat → K, Sat c a ↔ ∀ i, i < 3 →
        angularMomentum A a i + h.get i = ((AmSettings.fresh (K := K)).afterAll os).law A v.get i := by
  obtain ⟨s, hrun, hi⟩ := AmTask.inv_run (AmTask.inv_new (g := g) (name := name)) hg
  generalize (AmSettings.fresh (K := K)).afterAll os = p at *
  obtain ⟨s', c, hcomp, hi', rfl, hm, hsz, hvec, hdes, -⟩ := AmTask.compute_ok hi h hv hr hc
  refine ⟨s, s', _, hrun, hcomp, ?_, ?_, ?_⟩
  · simp only [WellFormed, hi'.kind, hsz, hi'.rows]
  · simp only [Constraint.cols, hi'.kind, hi'.cols]
  · intro a
    have hrow : ∀ i, row s'.con.mat a i = angularMomentum A a i := by
      intro i
      simp only [row, hm, Mat.bottomRows, angularMomentum, hr]
    simp only [Sat, hi'.kind, hi'.rows, hrow, hvec]
    constructor
    · intro hh i hlt
      rw [hh i hlt, hdes i hlt]; ring
    · intro hh i hlt
      rw [hdes i hlt, ← hh i hlt]; ring

/-- **C37, one frame, row by row.** The constraint has one row for every selected axis, and its residual is the
difference between the acceleration of the frame and the one the law asks for: this is what a task at level 1 is
penalised for. -/
theorem C37_se3_rows {log3 : M3 K → V3 K} {g : Nat → K} {name : String} {nv : Nat} {s0 : SE3Task K}
    {os : List (SE3Task.Op K)} (h0 : SE3Task.new g name nv true = .ok s0 ())
    (hg : ∀ o ∈ os, FrameSettings.Good o) (k : FrameKin K) (ho : k.pose.rot.Orthogonal) :
    let p := (FrameSettings.fresh (K := K)).afterAll os
    ∃ s s' c, runOps (SE3Task.step log3) s0 os = some s ∧ s.compute log3 k = .ok s' c ∧ c.kind = .equality ∧
      c.mat.rows = countSelected p.mask 6 ∧ c.mat.cols = nv ∧
      ∀ (a : Nat → K) (i : Nat), Selects p.mask i →
        Spec.residual c a (countSelected p.mask i) = p.achieved nv k a i - p.law log3 k i := by
  intro p
  obtain ⟨s1, e1, hi⟩ := SE3Task.inv_new (K := K) (g := g) (name := name) (nv := nv)
  rw [e1] at h0; cases h0
  obtain ⟨s, hr, hi⟩ := SE3Task.inv_run (log3 := log3) hi hg
  obtain ⟨s', c, hc, hi', rfl, hw, -⟩ := SE3Task.compute_ok (log3 := log3) hi k
  obtain ⟨l1, l2⟩ := SE3Task.law_eq (log3 := log3) hi ho
  refine ⟨s, s', _, hr, hc, hi'.rows.kind, hi'.rows.rows, hi'.rows.cols, fun a i hs => ?_⟩
  have hlt : i < 6 := by rw [← hi.rows.adm.1]; exact hs.1
  obtain ⟨w1, w2, -⟩ := hw i hlt hs.2
  rw [Spec.residual, row, hi'.rows.cols]
  show ∑ j ∈ range nv, s'.rows.con.mat (countSelected p.mask i) j * a j - s'.rows.con.vec (countSelected p.mask i) = _
  rw [w2, l1 i, sum_congr rfl fun j _ => congrArg (· * a j) (w1 j), ← l2 i hlt a]
  ring

/-- **C37, two frames, row by row.** -/
theorem C37_two_frames_rows {ndebug : Bool} {log3 : M3 K → V3 K} {g : Nat → K} {name : String} {nv : Nat}
    {s0 : TwoFrames K} {os : List (TwoFrames.Op K)} (h0 : TwoFrames.new g name nv = .ok s0 ())
    (hg : ∀ o ∈ os, PairSettings.Good o) (k1 k2 : FrameKin K) (ho : k1.pose.rot.Orthogonal) :
    let p := (PairSettings.fresh (K := K)).afterAll os
    ∃ s s' c, runOps (TwoFrames.step ndebug log3) s0 os = some s ∧ s.compute log3 k1 k2 = .ok s' c ∧
      c.kind = .equality ∧ c.mat.rows = countSelected p.mask 6 ∧ c.mat.cols = nv ∧
      ∀ (a : Nat → K) (i : Nat), Selects p.mask i →
        Spec.residual c a (countSelected p.mask i) = relativeAcc nv k1 k2 a i - p.law log3 k1 k2 i := by
  intro p
  obtain ⟨s1, e1, hi⟩ := TwoFrames.inv_new (K := K) (g := g) (name := name) (nv := nv)
  rw [e1] at h0; cases h0
  obtain ⟨s, hr, hi⟩ := TwoFrames.inv_run (ndebug := ndebug) (log3 := log3) hi hg
  obtain ⟨s', c, hc, hi', rfl, hw⟩ := TwoFrames.compute_ok (log3 := log3) hi k1 k2
  obtain ⟨l1, l2⟩ := TwoFrames.law_eq (log3 := log3) (k2 := k2) hi ho
  refine ⟨s, s', _, hr, hc, hi'.rows.kind, hi'.rows.rows, hi'.rows.cols, fun a i hs => ?_⟩
  have hlt : i < 6 := by rw [← hi.rows.adm.1]; exact hs.1
  obtain ⟨w1, w2, -⟩ := hw i hlt hs.2
  rw [Spec.residual, row, hi'.rows.cols]
  show ∑ j ∈ range nv, s'.rows.con.mat (countSelected p.mask i) j * a j - s'.rows.con.vec (countSelected p.mask i) = _
  rw [w2, l1 i, sum_congr rfl fun j _ => congrArg (· * a j) (w1 j), ← l2 i hlt a]
  ring

/-- **C37, centre of mass, row by row.** -/
theorem C37_com_rows {g : Nat → K} {name : String} {nv : Nat} {s0 : ComTask K} {os : List (ComTask.Op K)}
    (h0 : ComTask.new g name nv = .ok s0 ()) (hg : ∀ o ∈ os, ComSettings.Good o) (k : ComKin K) :
    let p := (ComSettings.fresh (K := K)).afterAll os
    ∃ s s' c, runOps ComTask.step s0 os = some s ∧ s.compute k = .ok s' c ∧ c.kind = .equality ∧
      c.mat.rows = countSelected p.mask 3 ∧ c.mat.cols = nv ∧
      ∀ (a : Nat → K) (i : Nat), Selects p.mask i →
        Spec.residual c a (countSelected p.mask i) = (pointAcc nv k.jac k.drift a).get i - p.law k i := by
  intro p
  obtain ⟨s1, e1, hi⟩ := ComTask.inv_new (K := K) (g := g) (name := name) (nv := nv)
  rw [e1] at h0; cases h0
  obtain ⟨s, hr, hi⟩ := ComTask.inv_run hi hg
  obtain ⟨s', c, hc, hi', rfl, hw, -⟩ := ComTask.compute_ok hi k
  obtain ⟨l1, l2⟩ := ComTask.law_eq (k := k) hi
  refine ⟨s, s', _, hr, hc, hi'.rows.kind, hi'.rows.rows, hi'.rows.cols, fun a i hs => ?_⟩
  have hlt : i < 3 := by rw [← hi.rows.adm.1]; exact hs.1
  obtain ⟨w1, w2, -⟩ := hw i hlt hs.2
  rw [Spec.residual, row, hi'.rows.cols]
  show ∑ j ∈ range nv, s'.rows.con.mat (countSelected p.mask i) j * a j - s'.rows.con.vec (countSelected p.mask i) = _
  rw [w2, l1 i, sum_congr rfl fun j _ => congrArg (· * a j) (w1 j), ← l2 i hlt a]
  ring

/-- **C37, angular momentum, row by row.** Three rows, whatever the mask. -/
theorem C37_am_rows {g : Nat → K} {name : String} {nv : Nat} {os : List (AmTask.Op K)}
    (hg : ∀ o ∈ os, AmSettings.Good nv o) {v : Vec K} {A : Mat K} (h : V3 K) (hv : v.size = nv) (hr : A.rows = 6)
    (hc : A.cols = nv) :
    let p := (AmSettings.fresh (K := K)).afterAll os
    ∃ s s' c, runOps AmTask.step (AmTask.new g name nv) os = some s ∧ s.compute v A h = .ok s' c ∧
      c.kind = .equality ∧ c.mat.rows = 3 ∧ c.mat.cols = nv ∧
      ∀ (a : Nat → K) (i : Nat), i < 3 →
        Spec.residual c a i = angularMomentum A a i + h.get i - p.law A v.get i := by
  intro p
  obtain ⟨s, hrun, hi⟩ := AmTask.inv_run (AmTask.inv_new (g := g) (name := name)) hg
  obtain ⟨s', c, hcomp, hi', rfl, hm, hsz, hvec, hdes, -⟩ := AmTask.compute_ok hi h hv hr hc
  refine ⟨s, s', _, hrun, hcomp, hi'.kind, hi'.rows, hi'.cols, fun a i hlt => ?_⟩
  have hrow : row s'.con.mat a i = angularMomentum A a i := by
    simp only [row, hm, Mat.bottomRows, angularMomentum, hr]
  rw [Spec.residual, hrow]
  show angularMomentum A a i - s'.con.vec i = _
  rw [hvec i, hdes i hlt]
  ring

/-! ### Cases -/

/-- A logarithm for the examples: pinocchio's for the identity, something for the other rotations. -/
def toyLog (R : M3 ℚ) : V3 ℚ := if R = M3.one then ⟨0, 0, 0⟩ else ⟨0, 0, 1⟩

/-- Quarter turn about the vertical. -/
def quarter : M3 ℚ := ⟨⟨0, 1, 0⟩, ⟨-1, 0, 0⟩, ⟨0, 0, 1⟩⟩

theorem quarter_orthogonal : quarter.Orthogonal := by constructor <;> decide +kernel

/-- A frame at (1, 2, 0), turned by a quarter, of a robot with two joints. -/
def toyFrame : FrameKin ℚ :=
  ⟨⟨quarter, ⟨1, 2, 0⟩⟩, ⟨⟨1, 0, 0⟩, ⟨0, 0, 2⟩⟩, ⟨⟨0, 3, 0⟩, ⟨0, 0, 0⟩⟩,
    fun c => if c = 0 then ⟨⟨1, 0, 0⟩, ⟨0, 0, 1⟩⟩ else ⟨⟨0, 1, 0⟩, ⟨0, 0, 1⟩⟩⟩

/-- The constraint of an SE3 task after some calls: matrix, vector, and the accelerations it reports for `dv`. -/
def se3After (os : List (SE3Task.Op ℚ)) (k : FrameKin ℚ) (dv : List ℚ) :
    Option (List (List ℚ) × List ℚ × List ℚ) :=
  match SE3Task.new (fun _ => 7) "t" 2 true with
  | .ok s0 _ =>
    (runOps (SE3Task.step toyLog) s0 os).bind fun s =>
      match s.compute toyLog k with
      | .ok s' c => some (c.mat.toLists, c.vec.toList, (s'.getAcceleration (Vec.ofList dv)).toList)
      | _ => none
  | _ => none

/-- Gains 10 and 2, reference at the origin, position only, world axes: the position error is (-1, -2), the velocity
(0, 1), the drift (-3, 0); the calls with wrong sizes are rejected. -/
example : se3After [.setKp ⟨6, fun _ => 10⟩, .setKd ⟨6, fun _ => 2⟩, .setKp ⟨3, fun _ => 1⟩, .useLocalFrame false,
    .setReference ⟨Vec.zero 7, Vec.zero 6, Vec.zero 6⟩, .setMask (fun _ => 9) (Vec.ofList [1, 1, 0, 0, 0, 0])]
    toyFrame [-22, -7] =
    some ([[0, -1], [1, 0]], [-10 + 3, -20 - 2], [7 - 3, -22]) := by decide +kernel

/-- **C37 fails for angular momentum and masks.** With the mask [1, 0, 0] the constraint still has three rows: it
constrains the second axis as well. -/
theorem C37_am_mask_ignored :
    ∃ s' c, ((AmTask.new (fun _ => (0 : ℚ)) "am" 1).setMask (Vec.ofList [1, 0, 0])).compute (Vec.zero 1)
        ⟨6, 1, fun i _ => if i = 4 then 1 else 0⟩ 0 = .ok s' c ∧
      ValidMask 3 s'.mask ∧
      ∃ a : Nat → ℚ, (∀ i, Selects s'.mask i →
        angularMomentum ⟨6, 1, fun i _ => if i = 4 then 1 else 0⟩ a i + (0 : V3 ℚ).get i =
          (AmSettings.fresh (K := ℚ)).law ⟨6, 1, fun i _ => if i = 4 then 1 else 0⟩ (Vec.zero 1 : Vec ℚ).get i) ∧
        ¬ Sat c a := by
  refine ⟨_, _, rfl, ⟨rfl, ?_⟩, fun _ => 1, ?_, ?_⟩
  · intro i hi
    rcases i with _ | _ | _ | i
    · right; rfl
    · left; rfl
    · left; rfl
    · omega
  · intro i hs
    rcases i with _ | _ | _ | i
    · decide +kernel
    · exact absurd hs.2 (by decide +kernel)
    · exact absurd hs.2 (by decide +kernel)
    · have : i + 1 + 1 + 1 < 3 := hs.1
      omega
  · intro h
    have := h 1 (by decide)
    revert this
    decide +kernel

/-! ## C38 -/

/-- **C38, one frame.** If `dv` satisfies the constraint just computed, `getAcceleration(dv)` lists the desired
accelerations of the selected axes, which is what `getDesiredAcceleration()` returns. -/
theorem C38_se3 {log3 : M3 K → V3 K} {g : Nat → K} {name : String} {nv : Nat} {s0 s s' : SE3Task K}
    {os : List (SE3Task.Op K)} (h0 : SE3Task.new g name nv true = .ok s0 ())
    (hg : ∀ o ∈ os, FrameSettings.Good o) (hr : runOps (SE3Task.step log3) s0 os = some s) (k : FrameKin K)
    (ho : k.pose.rot.Orthogonal) {c : Constraint K} (hc : s.compute log3 k = .ok s' c) (dv : Vec K)
    (hsat : Sat c dv.get) :
    let p := (FrameSettings.fresh (K := K)).afterAll os
    (s'.getAcceleration dv).size = countSelected p.mask 6 ∧ s'.rows.aDes.size = countSelected p.mask 6 ∧
    ∀ i, Selects p.mask i →
      (s'.getAcceleration dv) (countSelected p.mask i) = p.law log3 k i ∧
      s'.rows.aDes (countSelected p.mask i) = p.law log3 k i := by
  obtain ⟨s1, e1, hi⟩ := SE3Task.inv_new (K := K) (g := g) (name := name) (nv := nv)
  rw [e1] at h0; cases h0
  obtain ⟨s2, hr2, hi⟩ := SE3Task.inv_run (log3 := log3) hi hg
  rw [hr] at hr2; cases hr2
  generalize (FrameSettings.fresh (K := K)).afterAll os = p at *
  obtain ⟨s3, c3, hc3, hi', hcon, hw, -⟩ := SE3Task.compute_ok (log3 := log3) hi k
  rw [hc] at hc3; cases hc3
  subst hcon
  obtain ⟨l1, l2⟩ := SE3Task.law_eq (log3 := log3) hi ho
  refine ⟨by simp only [SE3Task.getAcceleration, Vec.add, Mat.mulVec, hi'.rows.rows], hi'.rows.aDes, fun i hs => ?_⟩
  have hlt : i < 6 := by rw [← hi.rows.adm.1]; exact hs.1
  obtain ⟨w1, w2, w3, w4, -⟩ := hw i hlt hs.2
  refine ⟨?_, by rw [w3, l1]⟩
  simp only [SE3Task.getAcceleration, Vec.add, Mat.mulVec]
  rw [CartRows.acc_at hi'.rows (fun i h1 h2 => ⟨(hw i h1 h2).1, (hw i h1 h2).2.1⟩) hsat hs, w4, ← l1 i]
  ring

/-- **C38, two frames.** -/
theorem C38_two_frames {ndebug : Bool} {log3 : M3 K → V3 K} {g : Nat → K} {name : String} {nv : Nat}
    {s0 s s' : TwoFrames K} {os : List (TwoFrames.Op K)} (h0 : TwoFrames.new g name nv = .ok s0 ())
    (hg : ∀ o ∈ os, PairSettings.Good o) (hr : runOps (TwoFrames.step ndebug log3) s0 os = some s)
    (k1 k2 : FrameKin K) (ho : k1.pose.rot.Orthogonal) {c : Constraint K}
    (hc : s.compute log3 k1 k2 = .ok s' c) (dv : Vec K) (hsat : Sat c dv.get) :
    let p := (PairSettings.fresh (K := K)).afterAll os
    (s'.getAcceleration dv).size = countSelected p.mask 6 ∧ s'.rows.aDes.size = countSelected p.mask 6 ∧
    ∀ i, Selects p.mask i →
      (s'.getAcceleration dv) (countSelected p.mask i) = p.law log3 k1 k2 i ∧
      s'.rows.aDes (countSelected p.mask i) = p.law log3 k1 k2 i := by
  obtain ⟨s1, e1, hi⟩ := TwoFrames.inv_new (K := K) (g := g) (name := name) (nv := nv)
  rw [e1] at h0; cases h0
  obtain ⟨s2, hr2, hi⟩ := TwoFrames.inv_run (ndebug := ndebug) (log3 := log3) hi hg
  rw [hr] at hr2; cases hr2
  generalize (PairSettings.fresh (K := K)).afterAll os = p at *
  obtain ⟨s3, c3, hc3, hi', hcon, hw⟩ := TwoFrames.compute_ok (log3 := log3) hi k1 k2
  rw [hc] at hc3; cases hc3
  subst hcon
  obtain ⟨l1, l2⟩ := TwoFrames.law_eq (log3 := log3) (k2 := k2) hi ho
  refine ⟨by simp only [TwoFrames.getAcceleration, Vec.add, Mat.mulVec, hi'.rows.rows], hi'.rows.aDes, fun i hs => ?_⟩
  have hlt : i < 6 := by rw [← hi.rows.adm.1]; exact hs.1
  obtain ⟨w1, w2, w3, w4, -⟩ := hw i hlt hs.2
  refine ⟨?_, by rw [w3, l1]⟩
  simp only [TwoFrames.getAcceleration, Vec.add, Mat.mulVec]
  rw [CartRows.acc_at hi'.rows (fun i h1 h2 => ⟨(hw i h1 h2).1, (hw i h1 h2).2.1⟩) hsat hs, w4, ← l1 i]
  ring

/-- **C38, centre of mass: what the code reports.** If `dv` satisfies the constraint, `getAcceleration(dv)` is the
desired acceleration minus *twice* the drift: it is right iff the drift vanishes.  The drift is subtracted instead of
added. -/
theorem C38_com_partial {g : Nat → K} {name : String} {nv : Nat} {s0 s s' : ComTask K} {os : List (ComTask.Op K)}
    (h0 : ComTask.new g name nv = .ok s0 ()) (hg : ∀ o ∈ os, ComSettings.Good o)
    (hr : runOps ComTask.step s0 os = some s) (k : ComKin K) {c : Constraint K} (hc : s.compute k = .ok s' c)
    (dv : Vec K) (hsat : Sat c dv.get) :
    let p := (ComSettings.fresh (K := K)).afterAll os
    (s'.getAcceleration dv).size = countSelected p.mask 3 ∧
    ∀ i, Selects p.mask i →
      s'.rows.aDes (countSelected p.mask i) = p.law k i ∧
      (s'.getAcceleration dv) (countSelected p.mask i) = p.law k i - 2 * k.drift.get i ∧
      ((s'.getAcceleration dv) (countSelected p.mask i) = p.law k i ↔ k.drift.get i = 0) := by
  obtain ⟨s1, e1, hi⟩ := ComTask.inv_new (K := K) (g := g) (name := name) (nv := nv)
  rw [e1] at h0; cases h0
  obtain ⟨s2, hr2, hi⟩ := ComTask.inv_run hi hg
  rw [hr] at hr2; cases hr2
  generalize (ComSettings.fresh (K := K)).afterAll os = p at *
  obtain ⟨s3, c3, hc3, hi', hcon, hw, -⟩ := ComTask.compute_ok hi k
  rw [hc] at hc3; cases hc3
  subst hcon
  obtain ⟨l1, l2⟩ := ComTask.law_eq (k := k) hi
  refine ⟨by simp only [ComTask.getAcceleration, Vec.sub, Mat.mulVec, hi'.rows.rows], fun i hs => ?_⟩
  have hlt : i < 3 := by rw [← hi.rows.adm.1]; exact hs.1
  obtain ⟨w1, w2, w3, w4, -⟩ := hw i hlt hs.2
  have e : (s'.getAcceleration dv) (countSelected p.mask i) = p.law k i - 2 * k.drift.get i := by
    simp only [ComTask.getAcceleration, Vec.sub, Mat.mulVec]
    rw [CartRows.acc_at hi'.rows (fun i h1 h2 => ⟨(hw i h1 h2).1, (hw i h1 h2).2.1⟩) hsat hs, w4, ← l1 i]
    have : (s.law k).drift i = k.drift.get i := rfl
    rw [this]; ring
  refine ⟨by rw [w3, l1], e, ?_⟩
  rw [e]
  constructor
  · intro h
    have : 2 * k.drift.get i = 0 := by linear_combination -h
    simpa using this
  · intro h; rw [h]; ring

/-- **C38, angular momentum: what the code reports.** The same error in `getdMomentum`. -/
theorem C38_am_partial {g : Nat → K} {name : String} {nv : Nat} {os : List (AmTask.Op K)} {s s' : AmTask K}
    (hg : ∀ o ∈ os, AmSettings.Good nv o) (hrun : runOps AmTask.step (AmTask.new g name nv) os = some s)
    {v : Vec K} {A : Mat K} (h : V3 K) (hv : v.size = nv) (hr : A.rows = 6) (hc : A.cols = nv) {c : Constraint K}
    (hcomp : s.compute v A h = .ok s' c) (dv : Vec K) (hsat : Sat c dv.get) :
    let p := (AmSettings.fresh (K := K)).afterAll os
    ∀ i, i < 3 → s'.dLDes.get i = p.law A v.get i ∧
      (s'.getdMomentum dv).get i = p.law A v.get i - 2 * h.get i ∧
      ((s'.getdMomentum dv).get i = p.law A v.get i ↔ h.get i = 0) := by
  obtain ⟨s2, hrun2, hi⟩ := AmTask.inv_run (AmTask.inv_new (g := g) (name := name)) hg
  rw [hrun] at hrun2; cases hrun2
  generalize (AmSettings.fresh (K := K)).afterAll os = p at *
  obtain ⟨s3, c3, hc3, hi', hcon, hm, hsz, hvec, hdes, hdr, -⟩ := AmTask.compute_ok hi h hv hr hc
  rw [hcomp] at hc3; cases hc3
  subst hcon
  intro p' i hlt
  have hrow := hsat
  simp only [Sat, hi'.kind, hi'.rows] at hrow
  have e : (s'.getdMomentum dv).get i = p.law A v.get i - 2 * h.get i := by
    have h1 : (V3.ofFn (s'.con.mat.mulVec dv).get).get i = row s'.con.mat dv.get i := by
      rcases i with _ | _ | _ | i
      · rfl
      · rfl
      · rfl
      · omega
    rw [AmTask.getdMomentum, V3.get_sub, hdr, h1, hrow i hlt, hvec i, hdes i hlt]
    ring
  refine ⟨hdes i hlt, e, ?_⟩
  rw [e]
  constructor
  · intro hh
    have : 2 * h.get i = 0 := by linear_combination -hh
    simpa using this
  · intro hh; rw [hh]; ring

/-- Result of a centre-of-mass task with default settings and drift 5 in the first axis for the acceleration that
satisfies its constraint: desired 0, reported -10. -/
theorem C38_com_witness :
    (match ComTask.new (fun _ => (0 : ℚ)) "com" 1 with
      | .ok s0 _ =>
        match s0.compute ⟨0, 0, ⟨5, 0, 0⟩, fun _ => ⟨1, 0, 0⟩⟩ with
        | .ok s c => some (c.mat.toLists, c.vec.toList, s.rows.aDes.toList,
            (s.getAcceleration (Vec.ofList [-5])).toList)
        | _ => none
      | _ => none) = some ([[1], [0], [0]], [-5, 0, 0], [0, 0, 0], [-10, 0, 0]) := by decide +kernel

/-- The same for the angular momentum. -/
theorem C38_am_witness :
    (match (AmTask.new (fun _ => (0 : ℚ)) "am" 1).compute (Vec.zero 1) ⟨6, 1, fun i _ => if i = 3 then 1 else 0⟩
        ⟨5, 0, 0⟩ with
      | .ok s c => some (c.mat.toLists, c.vec.toList, s.dLDes, s.getdMomentum (Vec.ofList [-5]))
      | _ => none) = some ([[1], [0], [0]], [-5, 0, 0], ⟨0, 0, 0⟩, ⟨-10, 0, 0⟩) := by decide +kernel

/-! ## C39 -/

/-- Gains that are equal along the three translational and along the three rotational axes. -/
def Isotropic (k : Nat → K) : Prop := k 0 = k 1 ∧ k 1 = k 2 ∧ k 3 = k 4 ∧ k 4 = k 5

/-- **C39.** With the full mask and isotropic gains the task has the same solutions in local axes and in world-oriented
axes, for every pose, reference, velocity and Jacobian and after every history of calls. -/
theorem C39_local_world {log3 : M3 K → V3 K} {g : Nat → K} {name : String} {nv : Nat} {s0 : SE3Task K}
    {os : List (SE3Task.Op K)} (h0 : SE3Task.new g name nv true = .ok s0 ())
    (hg : ∀ o ∈ os, FrameSettings.Good o) (k : FrameKin K) (ho : k.pose.rot.Orthogonal)
    (hfull : ∀ i, i < 6 → Selects ((FrameSettings.fresh (K := K)).afterAll os).mask i)
    (hp : Isotropic ((FrameSettings.fresh (K := K)).afterAll os).kp.get)
    (hd : Isotropic ((FrameSettings.fresh (K := K)).afterAll os).kd.get) :
    ∃ s l lc w wc, runOps (SE3Task.step log3) s0 os = some s ∧
      (s.useLocalFrame true).compute log3 k = .ok l lc ∧ (s.useLocalFrame false).compute log3 k = .ok w wc ∧
      ∀ a : Nat → K, Sat lc a ↔ Sat wc a := by
  have hl := C37_se3 (log3 := log3) (os := os ++ [.useLocalFrame true]) h0 (by
    intro o h; rcases List.mem_append.1 h with h | h
    · exact hg o h
    · rw [List.mem_singleton.1 h]; trivial) k ho
  have hw := C37_se3 (log3 := log3) (os := os ++ [.useLocalFrame false]) h0 (by
    intro o h; rcases List.mem_append.1 h with h | h
    · exact hg o h
    · rw [List.mem_singleton.1 h]; trivial) k ho
  have happ : ∀ (p : FrameSettings K) (os : List (SE3Task.Op K)) (b : Bool),
      p.afterAll (os ++ [.useLocalFrame b]) = { p.afterAll os with loc := b } := by
    intro p os
    induction os generalizing p with
    | nil => intro b; rfl
    | cons o os ih => intro b; exact ih _ _
  have hrun : ∀ (s : SE3Task K) (os : List (SE3Task.Op K)) (b : Bool),
      runOps (SE3Task.step log3) s (os ++ [.useLocalFrame b]) =
        (runOps (SE3Task.step log3) s os).map (fun s => s.useLocalFrame b) := by
    intro s os
    induction os generalizing s with
    | nil => intro b; rfl
    | cons o os ih =>
      intro b
      simp only [List.cons_append, runOps]
      cases (SE3Task.step log3 s o).state? with
      | none => rfl
      | some s1 => exact ih _ _
  rw [happ, hrun] at hl hw
  generalize (FrameSettings.fresh (K := K)).afterAll os = p at *
  obtain ⟨sl, l, lc, rl, cl, -, -, satl⟩ := hl
  obtain ⟨sw, w, wc, rw', cw, -, -, satw⟩ := hw
  obtain ⟨s, hs, rfl⟩ := Option.map_eq_some_iff.1 rl
  rw [hs, Option.map_some] at rw'
  cases rw'
  refine ⟨s, l, lc, w, wc, hs, cl, cw, fun a => ?_⟩
  rw [satl, satw]
  clear satl satw
  simp only [FrameSettings.achieved, FrameSettings.law, if_true, Bool.false_eq_true, if_false]
  have hlim : ∀ i, Selects p.mask i → i < 6 ∨ 6 ≤ i := fun i _ => by omega
  obtain ⟨p01, p12, p34, p45⟩ := hp
  obtain ⟨d01, d12, d34, d45⟩ := hd
  -- both laws as motions
  let Ll : Motion K :=
    rotate k.pose.rot.transpose p.acc + ⟨V3.smul (p.kp 0) (localError log3 k.pose p.pose).lin,
      V3.smul (p.kp 3) (localError log3 k.pose p.pose).ang⟩ +
    ⟨V3.smul (p.kd 0) (rotate k.pose.rot.transpose p.vel - k.vel).lin,
      V3.smul (p.kd 3) (rotate k.pose.rot.transpose p.vel - k.vel).ang⟩
  have hLl : ∀ i, i < 6 → Ll.get i = (rotate k.pose.rot.transpose p.acc).get i +
      p.kp i * (localError log3 k.pose p.pose).get i +
      p.kd i * ((rotate k.pose.rot.transpose p.vel).get i - k.vel.get i) := by
    intro i hi
    simp only [Ll, Motion.get_add, ← Motion.get_sub]
    rcases i with _ | _ | _ | _ | _ | _ | i
    · simp [Motion.get, V3.get, V3.smul]
    · simp [Motion.get, V3.get, V3.smul, p01, d01]
    · simp [Motion.get, V3.get, V3.smul, p01, p12, d01, d12]
    · simp [Motion.get, V3.get, V3.smul]
    · simp [Motion.get, V3.get, V3.smul, p34, d34]
    · simp [Motion.get, V3.get, V3.smul, p34, p45, d34, d45]
    · omega
  have hLw : ∀ i, i < 6 → (rotate k.pose.rot Ll).get i = p.acc.get i +
      p.kp i * (worldError log3 k.pose p.pose).get i +
      p.kd i * (p.vel.get i - (rotate k.pose.rot k.vel).get i) := by
    have hsm : ∀ (R : M3 K) (c : K) (v : V3 K), R.mulVec (V3.smul c v) = V3.smul c (R.mulVec v) := by
      intro R c v
      simp only [M3.mulVec, V3.smul, V3.mk.injEq]
      refine ⟨?_, ?_, ?_⟩ <;> ring
    have e : rotate k.pose.rot Ll = p.acc + ⟨V3.smul (p.kp 0) (worldError log3 k.pose p.pose).lin,
        V3.smul (p.kp 3) (worldError log3 k.pose p.pose).ang⟩ +
        ⟨V3.smul (p.kd 0) (p.vel - rotate k.pose.rot k.vel).lin,
          V3.smul (p.kd 3) (p.vel - rotate k.pose.rot k.vel).ang⟩ := by
      simp only [Ll, rotate_add, rotate_transpose ho]
      congr 1
      · congr 1
        rw [← rotate_localError log3 ho]
        simp only [rotate, hsm]
      · have : p.vel - rotate k.pose.rot k.vel = rotate k.pose.rot (rotate k.pose.rot.transpose p.vel - k.vel) := by
          rw [rotate_sub, rotate_transpose ho]
        rw [this]
        simp only [rotate, hsm]
    intro i hi
    rw [e, ← Motion.get_sub]
    simp only [Motion.get_add]
    rcases i with _ | _ | _ | _ | _ | _ | i
    · simp [Motion.get, V3.get, V3.smul]
    · simp [Motion.get, V3.get, V3.smul, p01, d01]
    · simp [Motion.get, V3.get, V3.smul, p01, p12, d01, d12]
    · simp [Motion.get, V3.get, V3.smul]
    · simp [Motion.get, V3.get, V3.smul, p34, d34]
    · simp [Motion.get, V3.get, V3.smul, p34, p45, d34, d45]
    · omega
  have hbig : ∀ (i : Nat), 6 ≤ i → ∀ m : Motion K, m.get i = 0 := by
    intro i hi m
    unfold Motion.get
    rw [if_neg (by omega)]
    obtain ⟨n, hn⟩ : ∃ n, i - 3 = n + 3 := ⟨i - 6, by omega⟩
    rw [hn]; rfl
  constructor
  · intro h i hs'
    rcases hlim i hs' with hi | hi
    · have e : motionAcc nv k.jac k.drift a = Ll := Motion.ext_get (fun j hj => by
        rw [hLl j hj]; exact h j (hfull j hj))
      rw [e, ← hLw i hi]
    · simp only [hbig i hi]; ring
  · intro h i hs'
    rcases hlim i hs' with hi | hi
    · have e : rotate k.pose.rot (motionAcc nv k.jac k.drift a) = rotate k.pose.rot Ll := Motion.ext_get (fun j hj => by
        rw [hLw j hj]; exact h j (hfull j hj))
      have e2 : motionAcc nv k.jac k.drift a = Ll := by
        have := congrArg (rotate k.pose.rot.transpose) e
        rwa [transpose_rotate ho, transpose_rotate ho] at this
      rw [e2, ← hLl i hi]
    · simp only [hbig i hi]; ring

/-- The hypotheses of `C39_local_world` are met by a task with gains 10 and 2 and the frame above. -/
example (g : Nat → ℚ) (s0 : SE3Task ℚ) (h0 : SE3Task.new g "t" 2 true = .ok s0 ()) :
    ∃ s l lc w wc, runOps (SE3Task.step toyLog) s0 [.setKp ⟨6, fun _ => 10⟩, .setKd ⟨6, fun _ => 2⟩] = some s ∧
      (s.useLocalFrame true).compute toyLog toyFrame = .ok l lc ∧
      (s.useLocalFrame false).compute toyLog toyFrame = .ok w wc ∧ ∀ a : Nat → ℚ, Sat lc a ↔ Sat wc a :=
  C39_local_world h0 (by intro o h; rcases List.mem_cons.1 h with rfl | h
                         · trivial
                         · rw [List.mem_singleton.1 h]; trivial) toyFrame quarter_orthogonal
    (fun i hi => ⟨hi, rfl⟩) ⟨rfl, rfl, rfl, rfl⟩ ⟨rfl, rfl, rfl, rfl⟩

/-- Isotropy is needed: with gains 10 along the first axis and 0 along the others the accelerations asked of the frame
above differ: in local axes the error (-2, 1, 0) gives -20 along the first local axis, in world axes the error
(-1, -2, 0) gives -10 along the first world axis. -/
theorem C39_needs_isotropy :
    se3After [.setKp (Vec.ofList [10, 0, 0, 0, 0, 0])] toyFrame [0, 0] =
      some ([[1, 0], [0, 1], [0, 0], [0, 0], [0, 0], [1, 1]], [-20, -3, 0, 0, 0, 0], [0, 3, 0, 0, 0, 0]) ∧
    se3After [.setKp (Vec.ofList [10, 0, 0, 0, 0, 0]), .useLocalFrame false] toyFrame [0, 0] =
      some ([[0, -1], [1, 0], [0, 0], [0, 0], [0, 0], [1, 1]], [-7, 0, 0, 0, 0, 0], [-3, 0, 0, 0, 0, 0]) := by
  decide +kernel

end Tsid.Props
