import Verif.Model.Dims
import Verif.Props.CartesianGetters
import Verif.Props.JointBounds
import Verif.Props.PosVelAcc
import Verif.Props.Posture
import Verif.Props.ForceTasks
import Verif.Props.ForceTracking

/-!
# C97: `dim()` is the number of rows of the constraint

The Cartesian tasks with a mask are `C72_dim` in `Props/CartesianGetters.lean`.
-/

set_option linter.unusedSectionVars false

namespace Tsid.Props

open Spec

variable {K : Type} [Field K] [LinearOrder K] [IsStrictOrderedRing K] [FloorRing K]

/-- **C97, joint tasks with a mask.** After any history of calls whose masks are admissible or of a wrong size, `dim()`
is the number of joints that the last accepted mask selects, and so is the number of rows of the constraint, for the
posture task, the torque task and the torque bounds.  Missing for the full property: rejected masks
(`C97_rejected_mask`). -/
theorem C97_joint_tasks_partial :
    (∀ {R : PostureRobot K} {name : String} {s0 s : Posture K} {os : List (Posture.Op K)}, RobotOk R →
      Posture.new R name = .ok s0 () → runOps (Posture.step R) s0 os = some s →
      (∀ o ∈ os, PostureSettings.GoodMask R.na o) → (∀ q v, Posture.Op.compute q v ∈ os → v.size = R.nv) →
      s.dim = (countSelected ((PostureSettings.fresh R).afterAll R os).mask R.na : Int) ∧
      s.m.con.rows = countSelected ((PostureSettings.fresh R).afterAll R os).mask R.na) ∧
    (∀ {name : String} {na : Nat} {s0 s : ActEq K} {os : List (ActEq.Op K)}, ActEq.new name na = .ok s0 () →
      runOps (ActEq.step na) s0 os = some s → (∀ o ∈ os, TorqueSettings.GoodMask na o) →
      s.dim = (countSelected ((TorqueSettings.fresh na).afterAll na os).mask na : Int) ∧
      s.compute.rows = countSelected ((TorqueSettings.fresh na).afterAll na os).mask na) ∧
    (∀ {name : String} {na : Nat} {s0 s : Masked K} {os : List (ActBounds.Op K)}, ActBounds.new name na = .ok s0 () →
      runOps (ActBounds.step na) s0 os = some s → (∀ o ∈ os, TorqueLimits.GoodMask na o) →
      s.dim = (countSelected ((TorqueLimits.fresh na).afterAll na os).mask na : Int) ∧
      (ActBounds.compute s).rows = countSelected ((TorqueLimits.fresh na).afterAll na os).mask na) := by
  refine ⟨?_, ?_, ?_⟩
  · intro R name s0 s os hR h0 hr hg hv
    obtain ⟨s1, e1, hi⟩ := Posture.inv_new (R := R) (name := name) hR.na
    rw [e1] at h0; cases h0
    have hi := (Posture.inv_run hR.na hR.nqa hR.diff hi hg hv hr).m
    refine ⟨?_, ?_⟩
    · rw [Posture.dim, Masked.dim, hi.mask, trunc_sum_mask hi.adm, length_sel]
    · simp only [Constraint.rows, hi.kind, hi.mat, selMat, length_sel]
  · intro name na s0 s os h0 hr hg
    obtain ⟨s1, e1, hi⟩ := ActEq.inv_new (K := K) (name := name) (na := na)
    rw [e1] at h0; cases h0
    obtain ⟨s', hr', hi⟩ := ActEq.inv_run hi hg
    rw [hr'] at hr; cases hr
    refine ⟨?_, ?_⟩
    · rw [ActEq.dim, Masked.dim, hi.m.mask, trunc_sum_mask hi.m.adm, length_sel]
    · simp only [ActEq.compute, Constraint.rows, hi.m.kind, hi.m.mat, selMat, length_sel]
  · intro name na s0 s os h0 hr hg
    obtain ⟨s1, e1, hi⟩ := ActBounds.inv_new (K := K) (name := name) (na := na)
    rw [e1] at h0; cases h0
    obtain ⟨s', hr', hi⟩ := ActBounds.inv_run hi hg
    rw [hr'] at hr; cases hr
    refine ⟨?_, ?_⟩
    · rw [Masked.dim, hi.mask, trunc_sum_mask hi.adm, length_sel]
    · simp only [ActBounds.compute, Constraint.rows, hi.kind, hi.mat, selMat, length_sel]

/-- Two of three torques: `dim()` is 2 and there are two rows. -/
example : (match ActEq.new (K := ℚ) "t" 3 with
    | .ok s0 _ => (runOps (ActEq.step 3) s0 [.mask (Vec.ofList [1, 0, 1]), .setWeights (Vec.ofList [2, 2, 2])]).map
        fun s => (s.dim, s.compute.rows)
    | _ => none) = some (2, 2) := by decide +kernel

/-- **C97, tasks of a fixed size.** After any history of calls, `dim()` is the number of rows of the constraint, for the
joint bounds, the angular momentum, the centre of pressure and the capture point. -/
theorem C97_fixed [HasSqrt K] :
    (∀ {name : String} {nv na : Nat} {dt : K} {s0 s : JointBounds K} {os : List (JointBounds.Op K)},
      JointBounds.new name nv na dt = some s0 → runOps JointBounds.step s0 os = some s →
      s.dim = nv ∧ s.con.rows = nv) ∧
    (∀ {g : Nat → K} {name : String} {nv : Nat} {s : AmTask K} {os : List (AmTask.Op K)},
      runOps AmTask.step (AmTask.new g name nv) os = some s → (∀ o ∈ os, AmSettings.Good nv o) →
      s.dim = 3 ∧ s.con.rows = 3) ∧
    (∀ {name : String} {s : CopTask K} {os : List (CopTask.Op K)}, runOps CopTask.step (CopTask.new name) os = some s →
      s.dim = 3 ∧ s.con.rows = 3) ∧
    (∀ {name : String} {nv : Nat} {gravity d : V3 K} {dt : K} {s : CaptureTask K} {os : List (CaptureTask.Op K)},
      runOps CaptureTask.step (CaptureTask.new name nv gravity dt d) os = some s → s.dim = 2 ∧ s.con.rows = 2) := by
  refine ⟨?_, ?_, ?_, ?_⟩
  · intro name nv na dt s0 s os h0 hr
    have hi := boundsInv_run (boundsInv_new h0) hr
    exact ⟨hi.nvEq, by simp only [Constraint.rows, hi.kind, hi.lbSize]⟩
  · intro g name nv s os hr hg
    obtain ⟨s', hr', hi⟩ := AmTask.inv_run (AmTask.inv_new (g := g) (name := name) (nv := nv)) hg
    rw [hr'] at hr; cases hr
    exact ⟨rfl, by simp only [Constraint.rows, hi.kind, hi.rows]⟩
  · intro name s os hr
    have hi := copInv_run os (p := CopSettings.fresh) ⟨rfl, rfl, rfl, rfl, rfl⟩ hr
    exact ⟨rfl, by simp only [Constraint.rows, hi.kind, hi.rows]⟩
  · intro name nv gravity d dt s os hr
    obtain ⟨s', hr', hi⟩ := capture_run os (p := CaptureSettings.fresh) (nv := nv) (g := gravity.norm) (dt := dt)
      (s := CaptureTask.new name nv gravity dt d) ⟨rfl, rfl, rfl, rfl, rfl, rfl, rfl, rfl, rfl⟩
    rw [hr'] at hr; cases hr
    exact ⟨rfl, by simp only [Constraint.rows, hi.kind, hi.rows]⟩

/-- **C97, force tracking, what holds.** After any history of calls in which every computation saw a force generator
with six rows (a six-dimensional contact), `dim()` is the number of rows.  Missing: other contacts (`C97_point_force`). -/
theorem C97_force_partial {name cname : String} {dt : K} {contact : Nat} {os : List (ForceTask.Op K)} {s : ForceTask K}
    (hr : runOps ForceTask.step (ForceTask.new name dt contact cname) os = some s)
    (hg : ∀ o ∈ os, (∀ gen, o = .compute gen → gen.rows = 6) ∧ (∀ gen names, o = .compute5 gen names → gen.rows = 6)) :
    s.dim = 6 ∧ s.con.rows = 6 := by
  refine ⟨rfl, ?_⟩
  have key : ∀ (os : List (ForceTask.Op K)) (s0 : ForceTask K), s0.con.rows = 6 ∧ s0.con.kind = .equality →
      (∀ o ∈ os, (∀ gen, o = .compute gen → gen.rows = 6) ∧ (∀ gen names, o = .compute5 gen names → gen.rows = 6)) →
      runOps ForceTask.step s0 os = some s → s.con.rows = 6 ∧ s.con.kind = .equality := by
    have comp : ∀ (s0 s1 : ForceTask K) (gen : Mat K) (c : Constraint K), s0.con.kind = .equality → gen.rows = 6 →
        s0.compute gen = .ok s1 c → s1.con.rows = 6 ∧ s1.con.kind = .equality := by
      intro s0 s1 gen c hk hgen h
      simp only [ForceTask.compute] at h
      split at h
      · cases h; exact ⟨by simp only [Constraint.rows, hk, hgen], hk⟩
      · cases h
    intro os
    induction os with
    | nil => intro s0 h0 _ h; cases h; exact h0
    | cons o os ih =>
      intro s0 h0 hg h
      rw [runOps] at h
      cases hs : (s0.step o).state? with
      | none => rw [hs] at h; cases h
      | some s1 =>
        rw [hs] at h
        refine ih s1 ?_ (fun o' ho => hg o' (List.mem_cons_of_mem _ ho)) h
        have hgo := hg o List.mem_cons_self
        clear h
        cases o with
        | setKp k => simp only [ForceTask.step] at hs; split at hs <;> cases hs <;> exact h0
        | setKd k => simp only [ForceTask.step] at hs; split at hs <;> cases hs <;> exact h0
        | setKi k => simp only [ForceTask.step] at hs; split at hs <;> cases hs <;> exact h0
        | setLeakRate l => cases hs; exact h0
        | setAssociatedContact c n => cases hs; exact h0
        | setReference r => cases hs; exact h0
        | setExternalForce f => cases hs; exact h0
        | compute gen =>
          simp only [ForceTask.step] at hs
          cases hc : s0.compute gen with
          | ok s2 c => rw [hc] at hs; cases hs; exact comp _ _ _ _ h0.2 (hgo.1 _ rfl) hc
          | _ => rw [hc] at hs; cases hs
        | compute5 gen names =>
          simp only [ForceTask.step] at hs
          cases hc : s0.compute5 gen names with
          | ok s2 c =>
            rw [hc] at hs; cases hs
            simp only [ForceTask.compute5] at hc
            split at hc
            · split at hc
              · exact comp _ _ _ _ h0.2 (hgo.2 _ _ rfl) hc
              · cases hc; exact h0
            · cases hc; exact h0
          | _ => rw [hc] at hs; cases hs
  exact (key os _ ⟨rfl, rfl⟩ hg hr).1

/-- The gains of a force task, all one. -/
def sixOnes : Vec ℚ := Vec.ofList [1, 1, 1, 1, 1, 1]

/-- Non-vacuity: a computation with a six-dimensional contact succeeds. -/
example : (runOps ForceTask.step (ForceTask.new "f" (1 / 10 : ℚ) 0 "foot")
    [.setKp sixOnes, .setKd sixOnes, .setKi sixOnes,
      .compute (Contact.new "foot" .sixD (fun _ => ⟨1, 0, 0⟩) ⟨0, 0, 1⟩ (1 / 2 : ℚ) 0 100).forceGen]).map
    (fun s => (s.dim, s.con.rows)) = some (6, 6) := by decide +kernel

/-- **C97 fails for the force of a point contact.** Its force generator has three rows: `dim()` is 6, the matrix of the
constraint has 3 rows, its vector 6. -/
theorem C97_point_force : (runOps ForceTask.step (ForceTask.new "f" (1 / 10 : ℚ) 0 "hand")
    [.setKp sixOnes, .setKd sixOnes, .setKi sixOnes,
      .compute (Contact.new "hand" .point (fun _ => 0) ⟨0, 0, 1⟩ (1 / 2 : ℚ) 0 100).forceGen]).map
    (fun s => (s.dim, s.con.rows, s.con.vec.size)) = some (6, 3, 6) := by decide +kernel

/-- **C97 fails for the position, velocity and acceleration bounds.** After any history of calls with admissible masks,
`dim()` is the number of actuated joints, while the constraint has one row for each selected joint: they agree iff the
mask selects every joint. -/
theorem C97_pos_vel_acc [HasSqrt K] {name : String} {nv na : Nat} {dt : K} {s0 s : PosVelAcc K}
    {os : List (PosVelAcc.Op K)} (hna : na ≤ nv) (h0 : PosVelAcc.new name nv na dt = some s0)
    (hr : runOps PosVelAcc.step s0 os = some s) (hg : ∀ o ∈ os, GoodMask na o) :
    s.dim = na ∧ s.m.con.rows = countSelected ((LimitSettings.fresh na).afterAll na os).mask na ∧
    (s.dim = s.m.con.rows ↔ ∀ j, j < na → Selects ((LimitSettings.fresh (K := K) na).afterAll na os).mask j) := by
  have hi := PosVelAcc.limInv_run hna (PosVelAcc.limInv_new hna h0).1 hg hr
  generalize (LimitSettings.fresh na).afterAll na os = p at *
  have hrows : s.m.con.rows = countSelected p.mask na := by
    simp only [Constraint.rows, hi.kind, hi.mat, selMat, length_sel]
  refine ⟨hi.naEq, hrows, ?_⟩
  rw [hrows, PosVelAcc.dim, hi.naEq, eq_comm]
  have hle : ∀ n, countSelected p.mask n ≤ n := by
    intro n
    rw [← length_sel]
    have := List.length_filter_le (fun i => decide (p.mask i = 1)) (List.range n)
    rw [List.length_range] at this
    exact this
  have hiff : ∀ n, countSelected p.mask n = n ↔ ∀ j, j < n → p.mask j = 1 := by
    intro n
    induction n with
    | zero => simp [countSelected]
    | succ n ih =>
      rw [countSelected]
      have := hle n
      by_cases h : p.mask n = 1
      · rw [if_pos h]
        constructor
        · intro e j hj
          rcases Nat.lt_or_ge j n with h' | h'
          · exact ih.1 (by omega) j h'
          · rw [show j = n by omega]; exact h
        · intro e
          have := ih.2 fun j hj => e j (by omega)
          omega
      · rw [if_neg h]
        constructor
        · intro e; omega
        · intro e; exact absurd (e n (by omega)) h
  rw [hiff]
  constructor
  · intro h j hj; exact ⟨by rw [hi.adm.1]; exact hj, h j hj⟩
  · intro h j hj; exact (h j hj).2

/-- One of two joints: `dim()` is 2, the constraint has one row. -/
example : (match PosVelAcc.new (K := ℚ) "l" 2 2 (1 / 10) with
    | some s0 => (runOps PosVelAcc.step s0 [.setMask (Vec.ofList [1, 0])]).map fun s => (s.dim, s.m.con.rows)
    | none => none) = some (2, 1) := by decide +kernel

/-- **C97 fails after a rejected mask.** The mask `[1/2, 0, 0]` is refused with an exception, but it is stored: `dim()`
becomes 0 while the constraint keeps its three rows. -/
theorem C97_rejected_mask :
    (match Posture.new (K := ℚ) ⟨3, 3, 3, Vec.zero 3, fun _ q => q⟩ "p" with
      | .ok s0 _ => (runOps (Posture.step ⟨3, 3, 3, Vec.zero 3, fun _ q => q⟩) s0
          [.setMask (Vec.ofList [1 / 2, 0, 0])]).map fun s => (s.dim, s.m.con.rows)
      | _ => none) = some (0, 3) ∧
    (match ActEq.new (K := ℚ) "t" 3 with
      | .ok s0 _ => (runOps (ActEq.step 3) s0 [.mask (Vec.ofList [1 / 2, 0, 0])]).map fun s => (s.dim, s.compute.rows)
      | _ => none) = some (0, 3) ∧
    (match ActBounds.new (K := ℚ) "t" 3 with
      | .ok s0 _ => (runOps (ActBounds.step 3) s0 [.mask (Vec.ofList [1 / 2, 0, 0])]).map
          fun s => (s.dim, (ActBounds.compute s).rows)
      | _ => none) = some (0, 3) := by
  refine ⟨by decide +kernel, by decide +kernel, by decide +kernel⟩

end Tsid.Props
