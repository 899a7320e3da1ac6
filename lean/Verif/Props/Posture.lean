import Verif.Lemmas.Posture

/-!
# C36, C43, C72: posture and actuation tasks
-/

set_option linter.unusedSectionVars false

namespace Tsid.Props

open Spec Finset

variable {K : Type} [Field K] [LinearOrder K] [IsStrictOrderedRing K] [FloorRing K]

/-- What is assumed of the robot: sizes, and that `difference` returns a tangent vector. -/
structure RobotOk (R : PostureRobot K) : Prop where
  na : R.na ≤ R.nv
  nqa : R.nqa ≤ R.neutral.size
  diff : ∀ a b, (R.difference a b).size = R.nv

/-! ## C36 -/

/-- **C36.** After any history of calls whose masks are admissible or of a wrong size (the other arguments being
arbitrary), `compute` succeeds, and an acceleration satisfies the constraint iff it follows the PD law of the current
gains and reference on every selected joint; the other joints are free.  Missing for the full property: masks of the
right size with entries other than 0 and 1 (`C36_mask_ub`, `C36_rejected_mask_changes`). -/
theorem C36_posture_partial {R : PostureRobot K} (hR : RobotOk R) {name : String} {s0 s : Posture K}
    {os : List (Posture.Op K)} (h0 : Posture.new R name = .ok s0 ()) (hr : runOps (Posture.step R) s0 os = some s)
    (hg : ∀ o ∈ os, PostureSettings.GoodMask R.na o) (hv' : ∀ q v, Posture.Op.compute q v ∈ os → v.size = R.nv)
    (q v : Vec K) (hv : v.size = R.nv) :
    ∃ s' c, s.compute R q v = .ok s' c ∧ WellFormed c ∧ c.cols = R.nv ∧
      ∀ a : Nat → K, Sat c a ↔ ∀ j, Selects ((PostureSettings.fresh R).afterAll R os).mask j →
        a (R.nv - R.na + j) = ((PostureSettings.fresh R).afterAll R os).law R q v j := by
  obtain ⟨s1, e1, hi⟩ := Posture.inv_new (R := R) (name := name) hR.na
  rw [e1] at h0; cases h0
  have hi := Posture.inv_run hR.na hR.nqa hR.diff hi hg hv' hr
  generalize (PostureSettings.fresh R).afterAll R os = p at *
  obtain ⟨s', c, hc, hi', rfl, -, -, hvec⟩ := Posture.compute_ok (q := q) hi hR.na hR.nqa hR.diff hv
  refine ⟨s', _, hc, ?_, ?_, ?_⟩
  · simp only [WellFormed, hi'.m.kind, hi'.m.size, hi'.m.mat, selMat]
  · simp only [Constraint.cols, hi'.m.kind, hi'.m.mat, selMat]
  · intro a
    have hna := hR.na
    rw [sat_sel_eq (by omega) hi'.m.kind hi'.m.mat]
    constructor
    · intro h j hs
      have hj : j < R.na := by rw [← hi.m.adm.1]; exact hs.1
      have := h j hj hs.2
      rw [one_mul] at this
      rw [this, hvec j hj hs.2]
    · intro h j hj h1
      rw [one_mul, hvec j hj h1]
      exact h j ⟨by rw [hi.m.adm.1]; exact hj, h1⟩

/-- **C36, histories run.** No call with admissible masks and velocities of the right size ends the program. -/
theorem C36_runs {R : PostureRobot K} (hR : RobotOk R) {name : String} {s0 : Posture K} {os : List (Posture.Op K)}
    (h0 : Posture.new R name = .ok s0 ())
    (hg : ∀ o ∈ os, PostureSettings.GoodMask R.na o) (hv' : ∀ q v, Posture.Op.compute q v ∈ os → v.size = R.nv) :
    ∃ s, runOps (Posture.step R) s0 os = some s := by
  obtain ⟨s1, e1, hi⟩ := Posture.inv_new (R := R) (name := name) hR.na
  rw [e1] at h0; cases h0
  clear e1
  revert hi
  generalize PostureSettings.fresh R = p
  induction os generalizing s0 p with
  | nil => intro _; exact ⟨s0, rfl⟩
  | cons o os ih =>
    intro hi
    have hstep : ∃ s1, (s0.step R o).state? = some s1 := by
      cases o with
      | setMask m =>
        by_cases hsz : m.size = R.na
        · obtain ⟨m', h1, _⟩ := maskInv_setMask (w := fun _ => (1 : K)) (s := s0.m) (cols := R.nv)
            (off := R.nv - R.na) (by have := hR.na; omega) (hg _ List.mem_cons_self hsz) hi.m.kind
          exact ⟨_, by simp only [Posture.step, Posture.setMask, h1]; rfl⟩
        · exact ⟨_, by simp only [Posture.step, Posture.setMask, setMask_size hsz]; rfl⟩
      | setKp k => simp only [Posture.step, Posture.setKp]; split <;> exact ⟨_, rfl⟩
      | setKd k => simp only [Posture.step, Posture.setKd]; split <;> exact ⟨_, rfl⟩
      | setReference r => simp only [Posture.step, Posture.setReference]; split_ifs <;> exact ⟨_, rfl⟩
      | compute q v =>
        obtain ⟨s1, c, h1, _⟩ := Posture.compute_ok (q := q) hi hR.na hR.nqa hR.diff (hv' q v List.mem_cons_self)
        exact ⟨s1, by simp only [Posture.step, h1]; rfl⟩
    obtain ⟨s1, h1⟩ := hstep
    have hi1 := Posture.inv_step hi hR.na hR.nqa hR.diff
      (fun q v e => hv' q v (by rw [e]; exact List.mem_cons_self)) (hg o List.mem_cons_self) h1
    obtain ⟨s', h2⟩ := ih (fun o' h' => hg o' (List.mem_cons_of_mem _ h'))
      (fun q v h' => hv' q v (List.mem_cons_of_mem _ h')) _ hi1
    exact ⟨s', by rw [runOps, h1]; exact h2⟩

/-- **C36, masks.** In every state of the task exactly the admissible masks are accepted, and a mask of a wrong size is
rejected with an exception that changes nothing. -/
theorem C36_masks {R : PostureRobot K} (hna : R.na ≤ R.nv) {s : Posture K} (hk : s.m.con.kind = .equality)
    (m : Vec K) :
    ((∃ s', s.setMask R m = .ok s' ()) ↔ ValidMask R.na m) ∧ (m.size ≠ R.na → s.setMask R m = .throw s) := by
  refine ⟨⟨?_, ?_⟩, ?_⟩
  · rintro ⟨s', h⟩
    by_contra hn
    have hbad := setMask_bad (cols := R.nv) (off := R.nv - R.na) (w := fun _ => (1 : K)) (s := s.m) hn
    unfold Posture.setMask at h
    cases hs : s.m.setMask R.na R.nv (R.nv - R.na) (fun _ => 1) m with
    | ok m' u => exact absurd hs (hbad m')
    | throw m' => rw [hs] at h; cases h
    | abort => rw [hs] at h; cases h
    | ub => rw [hs] at h; cases h
  · intro h
    unfold Posture.setMask
    rw [setMask_ok h (by omega) (by rw [hk]; decide)]
    exact ⟨_, rfl⟩
  · intro h
    unfold Posture.setMask
    rw [setMask_size h]

/-- A robot with two joints moving on lines: the difference is the difference of the coordinates. -/
def twoJoints : PostureRobot ℚ := ⟨2, 2, 2, Vec.zero 2, fun a b => ⟨2, fun i => b i - a i⟩⟩

theorem twoJoints_ok : RobotOk twoJoints := ⟨by decide, by decide, fun _ _ => rfl⟩

/-- The constraint of the posture task of `twoJoints` after some calls. -/
def postureAfter (os : List (Posture.Op ℚ)) (q v : List ℚ) : Option (List (List ℚ) × List ℚ) :=
  match Posture.new twoJoints "p" with
  | .ok s0 _ =>
    (runOps (Posture.step twoJoints) s0 os).bind fun s =>
      (s.compute twoJoints (Vec.ofList q) (Vec.ofList v)).val?.map (fun c => (c.mat.toLists, c.vec.toList))
  | _ => none

/-- Gains 10 and 2, reference (1, 1) with velocity 1 for the second joint, only the second joint selected. -/
example : postureAfter [.setKp (Vec.ofList [10, 10]), .setKd (Vec.ofList [2, 2]), .setMask (Vec.ofList [0, 1, 1]),
    .setReference ⟨Vec.ofList [1, 1], Vec.ofList [0, 1], Vec.ofList [0, 3]⟩, .setMask (Vec.ofList [0, 1])]
    [0, 1/2] [0, 1/4] = some ([[0, 1]], [3 - 10 * (1/2 - 1) - 2 * (1/4 - 1)]) := by decide +kernel

/-- **C36 fails for other masks.** The mask `[1, -1]` is neither accepted nor rejected: it announces no row and writes
one, out of bounds. -/
theorem C36_mask_ub :
    (match Posture.new twoJoints "p" with
      | .ok s0 _ => (s0.setMask twoJoints (Vec.ofList [1, -1])).isUB
      | _ => false) = true := by decide +kernel

/-- **C36 fails for other masks.** The mask `[1/2, 0]` is rejected with an exception, but the task keeps its empty list
of joints: afterwards the task still has one row per joint, and the right-hand side is no longer updated: with
reference (1, 1) and gain 10 it should ask for the accelerations 10, it asks for 0. -/
theorem C36_rejected_mask_changes :
    postureAfter [.setKp (Vec.ofList [10, 10]), .setReference ⟨Vec.ofList [1, 1], Vec.zero 2, Vec.zero 2⟩] [0, 0] [0, 0]
      = some ([[1, 0], [0, 1]], [10, 10]) ∧
    postureAfter [.setKp (Vec.ofList [10, 10]), .setReference ⟨Vec.ofList [1, 1], Vec.zero 2, Vec.zero 2⟩,
      .setMask (Vec.ofList [1/2, 0])] [0, 0] [0, 0] = some ([[1, 0], [0, 1]], [0, 0]) := by decide +kernel

/-! ## C38 for the posture task -/

/-- **C38, posture task.** If `dv` satisfies the constraint just computed, `getAcceleration(dv)` lists the desired
accelerations of the selected joints, in their order. -/
theorem C38_posture {R : PostureRobot K} (hR : RobotOk R) {name : String} {s0 s : Posture K}
    {os : List (Posture.Op K)} (h0 : Posture.new R name = .ok s0 ()) (hr : runOps (Posture.step R) s0 os = some s)
    (hg : ∀ o ∈ os, PostureSettings.GoodMask R.na o) (hv' : ∀ q v, Posture.Op.compute q v ∈ os → v.size = R.nv)
    (q v dv : Vec K) (hv : v.size = R.nv) {s' : Posture K} {c : Constraint K} (hc : s.compute R q v = .ok s' c)
    (hsat : Sat c dv.get) :
    (s'.getAcceleration dv).size = countSelected s'.m.mask R.na ∧
    ∀ j, Selects s'.m.mask j → (s'.getAcceleration dv) (countSelected s'.m.mask j) = s'.aDes j := by
  obtain ⟨s1, e1, hi⟩ := Posture.inv_new (R := R) (name := name) hR.na
  rw [e1] at h0; cases h0
  have hi := Posture.inv_run hR.na hR.nqa hR.diff hi hg hv' hr
  generalize (PostureSettings.fresh R).afterAll R os = p at *
  obtain ⟨s2, c2, hc2, hi', hcon, hdes, -, hvec⟩ := Posture.compute_ok (q := q) hi hR.na hR.nqa hR.diff hv
  rw [hc] at hc2; cases hc2
  subst hcon
  rw [hi'.m.mask]
  refine ⟨by simp only [Posture.getAcceleration, Mat.mulVec, hi'.m.mat, selMat, length_sel], ?_⟩
  intro j hs
  have hj : j < R.na := by rw [← hi.m.adm.1]; exact hs.1
  rw [hdes j, ← hvec j hj hs.2]
  simp only [Sat, hi'.m.kind] at hsat
  have hlt : countSelected p.mask j < s'.m.con.mat.rows := by
    rw [hi'.m.mat]
    exact (List.getElem?_eq_some_iff.1 (getElem?_sel hj hs.2)).1
  have := hsat _ hlt
  rw [← this]
  simp only [Posture.getAcceleration, Mat.mulVec, row]

/-! ## C72 -/

/-- **C72, what holds.** After `compute` the posture task reports the errors and the velocity of that state: the
position error is the actuated part of the difference between the configuration and the reference, the velocity is
the actuated part of the velocity, the velocity error is its distance from the reference, and the desired
acceleration follows from them.  Missing for the full property: `position()` (`C72_position`). -/
theorem C72_posture_partial {R : PostureRobot K} {s s' : Posture K} {q v : Vec K} {c : Constraint K}
    (hd : ∀ a b, (R.difference a b).size = R.nv) (hv : v.size = R.nv) (hc : s.compute R q v = .ok s' c) :
    ∃ target : Vec K,
      (∀ j, s'.pErr j = (R.difference target q) (R.nv - R.na + j)) ∧
      (∀ i, target.size - R.nqa ≤ i → target i = s'.ref.pos (i - (target.size - R.nqa))) ∧
      (∀ j, s'.v j = v (R.nv - R.na + j)) ∧
      (∀ j, s'.vErr j = s'.v j - s'.ref.vel j) ∧
      (∀ j, s'.aDes j = s'.ref.acc j - s'.kp j * s'.pErr j - s'.kd j * s'.vErr j) ∧
      s'.ref = s.ref ∧ s'.kp = s.kp ∧ s'.kd = s.kd ∧
      s'.pErr.size = R.na ∧ s'.v.size = R.na ∧ s'.vErr.size = R.na ∧ s'.aDes.size = R.na := by
  unfold Posture.compute at hc
  by_cases h1 : R.nqa ≤ s.refAug.size ∧ s.ref.pos.size = R.nqa ∧ R.na ≤ v.size
  swap
  · rw [if_neg h1] at hc; cases hc
  rw [if_pos h1] at hc
  by_cases h2 : R.na ≤ (R.difference (Posture.augment R s.refAug s.ref.pos) q).size
  swap
  · simp only [if_neg h2] at hc; cases hc
  simp only [if_pos h2] at hc
  split at hc
  swap
  · cases hc
  cases hc
  refine ⟨Posture.augment R s.refAug s.ref.pos, ?_, ?_, ?_, ?_, ?_, rfl, rfl, rfl, rfl, rfl, rfl, rfl⟩
  · intro j; simp only [Vec.tail, hd]
  · intro i hi
    simp only [Posture.augment] at hi ⊢
    rw [if_pos hi]
  · intro j; simp only [Vec.tail, hv]
  · intro j; rfl
  · intro j
    simp only
    ring

/-- **C72 fails for `position()`.** No history of calls, of whatever length, makes the task report a position: the
vector stays empty, also for robots with joints. -/
theorem C72_position {R : PostureRobot K} {name : String} {s0 s : Posture K} {os : List (Posture.Op K)}
    (h0 : Posture.new R name = .ok s0 ()) (hr : runOps (Posture.step R) s0 os = some s) : s.p.size = 0 := by
  have hnew : s0.p.size = 0 := by
    unfold Posture.new Posture.setMask at h0
    split at h0 <;> cases h0
    rfl
  clear h0
  induction os generalizing s0 with
  | nil => cases hr; exact hnew
  | cons o os ih =>
    rw [runOps] at hr
    cases hs : (s0.step R o).state? with
    | none => rw [hs] at hr; cases hr
    | some s1 =>
      rw [hs] at hr
      refine ih hr ?_
      cases o with
      | setMask m =>
        simp only [Posture.step, Posture.setMask] at hs
        cases hm : s0.m.setMask R.na R.nv (R.nv - R.na) (fun _ => 1) m <;> rw [hm] at hs <;> cases hs <;> exact hnew
      | setKp k => simp only [Posture.step, Posture.setKp] at hs; split at hs <;> cases hs <;> exact hnew
      | setKd k => simp only [Posture.step, Posture.setKd] at hs; split at hs <;> cases hs <;> exact hnew
      | setReference r =>
        simp only [Posture.step, Posture.setReference] at hs
        split_ifs at hs <;> cases hs <;> exact hnew
      | compute q v =>
        simp only [Posture.step] at hs
        cases hc : s0.compute R q v with
        | ok s2 c =>
          rw [hc] at hs
          cases hs
          unfold Posture.compute at hc
          by_cases h1 : R.nqa ≤ s0.refAug.size ∧ s0.ref.pos.size = R.nqa ∧ R.na ≤ v.size
          swap
          · rw [if_neg h1] at hc; cases hc
          rw [if_pos h1] at hc
          by_cases h2 : R.na ≤ (R.difference (Posture.augment R s0.refAug s0.ref.pos) q).size
          swap
          · simp only [if_neg h2] at hc; cases hc
          simp only [if_pos h2] at hc
          split at hc <;> cases hc
          exact hnew
        | throw s2 =>
          unfold Posture.compute at hc
          split at hc
          · simp only at hc
            split at hc
            · split at hc <;> cases hc
            · cases hc
          · cases hc
        | abort => rw [hc] at hs; cases hs
        | ub => rw [hc] at hs; cases hs

/-- After a cycle in configuration (1/2, 1/4) the velocity is reported, the position is not. -/
example : (match Posture.new twoJoints "p" with
    | .ok s0 _ => (runOps (Posture.step twoJoints) s0 [.compute (Vec.ofList [1/2, 1/4]) (Vec.ofList [3, 4])]).map
        (fun s => (s.pErr.toList, s.v.toList, s.p.toList))
    | _ => none) = some ([1/2, 1/4], [3, 4], []) := by decide +kernel

/-! ## C43 -/

/-- **C43, equality.** After any history of calls whose masks are admissible or of a wrong size, no call ends the
program and torques satisfy the constraint iff the weighted torque of every selected joint is its weighted
reference.  Missing for the full property: masks with entries other than 0 and 1 (`C43_rejected_mask`). -/
theorem C43_equality_partial {name : String} {na : Nat} {s0 : ActEq K} {os : List (ActEq.Op K)}
    (h0 : ActEq.new name na = .ok s0 ()) (hg : ∀ o ∈ os, TorqueSettings.GoodMask na o) :
    ∃ s, runOps (ActEq.step na) s0 os = some s ∧ WellFormed s.compute ∧ s.compute.cols = na ∧
      ∀ tau : Nat → K, Sat s.compute tau ↔ ∀ i, Selects ((TorqueSettings.fresh na).afterAll na os).mask i →
        ((TorqueSettings.fresh na).afterAll na os).weights i * tau i =
          ((TorqueSettings.fresh na).afterAll na os).weights i * ((TorqueSettings.fresh na).afterAll na os).ref i := by
  obtain ⟨s1, e1, hi⟩ := ActEq.inv_new (K := K) (name := name) (na := na)
  rw [e1] at h0; cases h0
  obtain ⟨s, hr, hi⟩ := ActEq.inv_run hi hg
  generalize (TorqueSettings.fresh na).afterAll na os = p at *
  refine ⟨s, hr, ?_, ?_, ?_⟩
  · simp only [ActEq.compute, WellFormed, hi.m.kind, hi.m.size, hi.m.mat, selMat]
  · simp only [ActEq.compute, Constraint.cols, hi.m.kind, hi.m.mat, selMat]
  · intro tau
    unfold ActEq.compute
    rw [sat_sel_eq (by omega) hi.m.kind hi.m.mat]
    constructor
    · intro h i hs
      have hlt : i < na := by rw [← hi.m.adm.1]; exact hs.1
      have := h i hlt hs.2
      rw [Nat.zero_add, hi.vec i hlt hs.2] at this
      rw [this, mul_comm]
    · intro h i hlt h1
      rw [Nat.zero_add, hi.vec i hlt h1, mul_comm (p.ref i)]
      exact h i ⟨by rw [hi.m.adm.1]; exact hlt, h1⟩

/-- **C43, bounds.** After any history of calls whose masks are admissible or of a wrong size, no call ends the
program and torques satisfy the constraint iff every selected joint is within its bounds, a mask call resetting the
bounds to zero.  Missing for the full property: masks with entries other than 0 and 1 (`C43_bounds_mask`). -/
theorem C43_bounds_partial {name : String} {na : Nat} {s0 : Masked K} {os : List (ActBounds.Op K)}
    (h0 : ActBounds.new name na = .ok s0 ()) (hg : ∀ o ∈ os, TorqueLimits.GoodMask na o) :
    ∃ s, runOps (ActBounds.step na) s0 os = some s ∧ WellFormed (ActBounds.compute s) ∧
      (ActBounds.compute s).cols = na ∧
      ∀ tau : Nat → K, Sat (ActBounds.compute s) tau ↔
        ∀ i, Selects ((TorqueLimits.fresh na).afterAll na os).mask i →
          ((TorqueLimits.fresh na).afterAll na os).lower
            (countSelected ((TorqueLimits.fresh na).afterAll na os).mask i) ≤ tau i ∧
          tau i ≤ ((TorqueLimits.fresh na).afterAll na os).upper
            (countSelected ((TorqueLimits.fresh na).afterAll na os).mask i) := by
  obtain ⟨s1, e1, hi⟩ := ActBounds.inv_new (K := K) (name := name) (na := na)
  rw [e1] at h0; cases h0
  obtain ⟨s, hr, hi⟩ := ActBounds.inv_run hi hg
  generalize (TorqueLimits.fresh na).afterAll na os = p at *
  refine ⟨s, hr, ?_, ?_, ?_⟩
  · simp only [ActBounds.compute, WellFormed, hi.kind, hi.lb, hi.ub, hi.lbSize, hi.ubSize, hi.mat, selMat, length_sel,
      and_self]
  · simp only [ActBounds.compute, Constraint.cols, hi.kind, hi.mat, selMat]
  · intro tau
    unfold ActBounds.compute
    rw [sat_sel_ineq (by omega) hi.kind hi.mat, hi.lb, hi.ub]
    constructor
    · intro h i hs
      have hlt : i < na := by rw [← hi.adm.1]; exact hs.1
      have := h i hlt hs.2
      rwa [Nat.zero_add, one_mul] at this
    · intro h i hlt h1
      rw [Nat.zero_add, one_mul]
      exact h i ⟨by rw [hi.adm.1]; exact hlt, h1⟩

/-- The constraint of the torque equality task of a robot with three joints after some calls. -/
def torqueAfter (os : List (ActEq.Op ℚ)) : Option (List (List ℚ) × List ℚ) :=
  match ActEq.new "t" 3 with
  | .ok s0 _ => (runOps (ActEq.step 3) s0 os).map (fun s => (s.compute.mat.toLists, s.compute.vec.toList))
  | _ => none

/-- Joints 0 and 2 with weights 2 and 3. -/
example : torqueAfter [.setReference (Vec.ofList [5, 6, 7]), .mask (Vec.ofList [1, 0, 1]), .setReference (Vec.ofList [1]),
    .setWeights (Vec.ofList [2, 10, 3])] = some ([[2, 0, 0], [0, 0, 3]], [10, 21]) := by decide +kernel

/-- The bounds of the selected joints are passed one after the other. -/
example : (match ActBounds.new (K := ℚ) "t" 3 with
    | .ok s0 _ => (runOps (ActBounds.step 3) s0 [.mask (Vec.ofList [1, 0, 1]),
        .setBounds (Vec.ofList [-1, -2, -3]) (Vec.ofList [1, 2, 3]), .setBounds (Vec.ofList [-1, -2]) (Vec.ofList [1, 2])]).map
        (fun s => ((ActBounds.compute s).mat.toLists, (ActBounds.compute s).lb.toList, (ActBounds.compute s).ub.toList))
    | _ => none) = some ([[1, 0, 0], [0, 0, 1]], [-1, -2], [1, 2]) := by decide +kernel

/-- **C43 fails after a rejected mask.** The mask `[1/2, 0, 0]` is rejected with an exception, but the list of selected
joints is emptied: a reference set afterwards is silently ignored. -/
theorem C43_rejected_mask :
    torqueAfter [.setReference (Vec.ofList [5, 6, 7])] = some ([[1, 0, 0], [0, 1, 0], [0, 0, 1]], [5, 6, 7]) ∧
    torqueAfter [.mask (Vec.ofList [1/2, 0, 0]), .setReference (Vec.ofList [5, 6, 7])] =
      some ([[1, 0, 0], [0, 1, 0], [0, 0, 1]], [0, 0, 0]) := by decide +kernel

/-- **C43 fails after a rejected mask, bounds.** After the rejected mask `[1/2, 0, 0]` the task accepts bounds for no
joint only, while it still has a row for each of the three joints: its constraint is not well formed. -/
theorem C43_bounds_mask :
    (match ActBounds.new (K := ℚ) "t" 3 with
    | .ok s0 _ => (runOps (ActBounds.step 3) s0 [.mask (Vec.ofList [1/2, 0, 0]),
        .setBounds (Vec.ofList [-1, -2, -3]) (Vec.ofList [1, 2, 3]), .setBounds (Vec.ofList []) (Vec.ofList [])]).map
        (fun s => ((ActBounds.compute s).mat.rows, (ActBounds.compute s).lb.size))
    | _ => none) = some (3, 0) := by decide +kernel

end Tsid.Props
