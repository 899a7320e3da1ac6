import Verif.Props.GripperSolve
import Verif.Props.Manipulator

/-!
# The gripper demo: uniqueness and the closed loop
-/

set_option linter.unusedSectionVars false

namespace Tsid.Props

open Spec Finset Formulation Program

section
variable {K : Type} [Field K] [LinearOrder K] [FloorRing K] [HasSqrt K] [IsStrictOrderedRing K] [LawfulSqrt K]
variable {cf : Gripper.Conf K} {kin : Vec K → Vec K → Snapshot K} {g : Nat → K} {E : Program.Env K} {W : World}
  {S : Setup K} {q v : Vec K} {goal : Goal K} {w : Snapshot K}

theorem grip_mid {a ta fa b tb fb : Nat → K} (ha : GripObeys cf S w a ta fa) (hb : GripObeys cf S w b tb fb) :
    GripObeys cf S w (fun j => (a j + b j) / 2) (fun j => (ta j + tb j) / 2) (fun j => (fa j + fb j) / 2) where
  dynamics := by
    intro u
    have h1 := ha.dynamics u
    have h2 := hb.dynamics u
    have hs : ∀ (n : Nat) (f x y : Nat → K), ∑ j ∈ range n, f j * ((x j + y j) / 2) =
        (∑ j ∈ range n, f j * x j + ∑ j ∈ range n, f j * y j) / 2 := by
      intro n f x y
      rw [← sum_add_distrib, div_eq_mul_inv, sum_mul]
      exact sum_congr rfl fun c _ => by ring
    have hs' : ∀ (n : Nat) (f x y : Nat → K), ∑ j ∈ range n, (x j + y j) / 2 * f j =
        (∑ j ∈ range n, x j * f j + ∑ j ∈ range n, y j * f j) / 2 := by
      intro n f x y
      rw [← sum_add_distrib, div_eq_mul_inv, sum_mul]
      exact sum_congr rfl fun c _ => by ring
    have e : ∑ i ∈ range S.robot.nv, (∑ j ∈ range S.robot.nv, S.robot.mass w.M i j * ((a j + b j) / 2) + w.nle i) * u i =
        (∑ i ∈ range S.robot.nv, (∑ j ∈ range S.robot.nv, S.robot.mass w.M i j * a j + w.nle i) * u i +
        ∑ i ∈ range S.robot.nv, (∑ j ∈ range S.robot.nv, S.robot.mass w.M i j * b j + w.nle i) * u i) / 2 := by
      rw [← sum_add_distrib, div_eq_mul_inv, sum_mul]
      exact sum_congr rfl fun i _ => by rw [hs]; ring
    rw [e, hs' _ u, hs' 3, h1, h2]
    ring
  pull := fun i hi => by
    have h1 := ha.pull i hi
    have h2 := hb.pull i hi
    exact ⟨by linarith [h1.1, h2.1], by linarith [h1.2, h2.2]⟩
  passive := fun i hi h => by
    rw [ha.passive i hi h, hb.passive i hi h]
    ring
  torque := fun i hi h => by
    have h1 := abs_le.1 (ha.torque i hi h)
    have h2 := abs_le.1 (hb.torque i hi h)
    exact abs_le.2 ⟨by linarith [h1.1, h2.1], by linarith [h1.2, h2.2]⟩

theorem gap_mid (n : Nat) (k1 k2 : FrameKin K) (a b : Nat → K) {i : Nat} (hi : i < 3) :
    2 * gapError cf n k1 k2 (fun j => (a j + b j) / 2) i = gapError cf n k1 k2 a i + gapError cf n k1 k2 b i := by
  have h : ∀ k : FrameKin K, 2 * (footAcc n k fun j => (a j + b j) / 2).get i = (footAcc n k a).get i + (footAcc n k b).get i := by
    intro k
    have := achieved_mid (⟨Vec.zero 6, Vec.zero 6, Vec.zero 6, ⟨M3.one, 0⟩, 0, 0, false⟩ : FrameSettings K) n k a b
      (show i < 6 by omega)
    simpa only [footAcc, FrameSettings.achieved, Bool.false_eq_true, if_false, rotate, Motion.get, if_pos hi] using this
  unfold gapError
  linarith [h k1, h k2]

theorem gripAim_mid {reg : Bool} (hB : IsGripper cf kin E W S) (a b fa fb : Nat → K) :
    2 * gripAim reg cf E q goal w (fun j => (a j + b j) / 2) (fun j => (fa j + fb j) / 2) ≤
      gripAim reg cf E q goal w a fa + gripAim reg cf E q goal w b fb -
      1 / 4 * (cf.wPosture * ∑ j ∈ range E.robot.nv, (a j - b j) ^ 2 + cf.wForceRef * ∑ i ∈ range 3, (fa i - fb i) ^ 2) := by
  have hpost : 2 * ∑ j ∈ range E.robot.nv, ((a j + b j) / 2 + cf.kpPosture * E.robot.difference q w.q j +
        critical cf.kpPosture * w.v j) ^ 2 =
      ∑ j ∈ range E.robot.nv, (a j + cf.kpPosture * E.robot.difference q w.q j + critical cf.kpPosture * w.v j) ^ 2 +
      ∑ j ∈ range E.robot.nv, (b j + cf.kpPosture * E.robot.difference q w.q j + critical cf.kpPosture * w.v j) ^ 2 -
      1 / 2 * ∑ j ∈ range E.robot.nv, (a j - b j) ^ 2 := by
    rw [mul_sum, mul_sum, ← sum_add_distrib, ← sum_sub_distrib]
    exact sum_congr rfl fun j _ => by ring
  have hforce : 2 * ∑ i ∈ range 3, ((fa i + fb i) / 2) ^ 2 =
      ∑ i ∈ range 3, fa i ^ 2 + ∑ i ∈ range 3, fb i ^ 2 - 1 / 2 * ∑ i ∈ range 3, (fa i - fb i) ^ 2 := by
    rw [mul_sum, mul_sum, ← sum_add_distrib, ← sum_sub_distrib]
    exact sum_congr rfl fun j _ => by ring
  have hreg : 2 * ∑ j ∈ range E.robot.nv, ((a j + b j) / 2) ^ 2 ≤ ∑ j ∈ range E.robot.nv, a j ^ 2 + ∑ j ∈ range E.robot.nv, b j ^ 2 := by
    rw [mul_sum, ← sum_add_distrib]
    refine sum_le_sum fun j _ => ?_
    nlinarith [sq_nonneg (a j - b j)]
  have hf0 : 0 ≤ ∑ i ∈ range 3, (fa i - fb i) ^ 2 := sum_nonneg fun i _ => sq_nonneg _
  have hee : ∀ p : FrameSettings K, 2 * ∑ i ∈ range 6,
        (p.achieved E.robot.nv (w.frame cf.tip) (fun j => (a j + b j) / 2) i - p.law E.log3 (w.frame cf.tip) i) ^ 2 ≤
      ∑ i ∈ range 6, (p.achieved E.robot.nv (w.frame cf.tip) a i - p.law E.log3 (w.frame cf.tip) i) ^ 2 +
      ∑ i ∈ range 6, (p.achieved E.robot.nv (w.frame cf.tip) b i - p.law E.log3 (w.frame cf.tip) i) ^ 2 := by
    intro p
    rw [mul_sum, ← sum_add_distrib]
    refine sum_le_sum fun i hi => ?_
    have h := achieved_mid p E.robot.nv (w.frame cf.tip) a b (mem_range.1 hi)
    rw [square_mid (x := p.achieved E.robot.nv (w.frame cf.tip) a i - p.law E.log3 (w.frame cf.tip) i)
      (y := p.achieved E.robot.nv (w.frame cf.tip) b i - p.law E.log3 (w.frame cf.tip) i) (by linarith)]
    linarith [sq_nonneg ((p.achieved E.robot.nv (w.frame cf.tip) a i - p.law E.log3 (w.frame cf.tip) i) -
      (p.achieved E.robot.nv (w.frame cf.tip) b i - p.law E.log3 (w.frame cf.tip) i))]
  have hgap : 2 * ∑ i ∈ range 3, gapError cf E.robot.nv (w.frame cf.first) (w.frame cf.second) (fun j => (a j + b j) / 2) i ^ 2 ≤
      ∑ i ∈ range 3, gapError cf E.robot.nv (w.frame cf.first) (w.frame cf.second) a i ^ 2 +
      ∑ i ∈ range 3, gapError cf E.robot.nv (w.frame cf.first) (w.frame cf.second) b i ^ 2 := by
    rw [mul_sum, ← sum_add_distrib]
    refine sum_le_sum fun i hi => ?_
    rw [square_mid (gap_mid E.robot.nv (w.frame cf.first) (w.frame cf.second) a b (mem_range.1 hi))]
    linarith [sq_nonneg (gapError cf E.robot.nv (w.frame cf.first) (w.frame cf.second) a i -
      gapError cf E.robot.nv (w.frame cf.first) (w.frame cf.second) b i)]
  have he := mul_le_mul_of_nonneg_left (hee ⟨⟨6, fun _ => 1⟩, ⟨6, fun _ => cf.kpEe⟩, ⟨6, fun _ => critical cf.kpEe⟩, goal.pose,
    goal.vel, goal.acc, false⟩) hB.wEe
  have hr := mul_le_mul_of_nonneg_left (show 2 * (∑ j ∈ range E.robot.nv, ((a j + b j) / 2) ^ 2 + ∑ i ∈ range 3, ((fa i + fb i) / 2) ^ 2) ≤
    (∑ j ∈ range E.robot.nv, a j ^ 2 + ∑ i ∈ range 3, fa i ^ 2) + (∑ j ∈ range E.robot.nv, b j ^ 2 + ∑ i ∈ range 3, fb i ^ 2) by linarith)
    (le_of_lt (defaultReg_pos (K := K)))
  have hp := congrArg (fun x => cf.wPosture * x) hpost
  have hf := congrArg (fun x => cf.wForceRef * x) hforce
  unfold gripAim gripCost
  cases reg
  · simp only [Bool.false_eq_true, if_false]
    linarith
  · simp only [if_true]
    linarith

/-- **C113, uniqueness.** If posture task and contact force have positive weights, there is at most one best choice of accelerations,
torques and contact force, with or without the regularisation of the back-end. -/
theorem C113_unique (hB : IsGripper cf kin E W S) (hw : 0 < cf.wPosture) (hw' : 0 < cf.wForceRef) {reg : Bool}
    {a ta fa b tb fb : Nat → K} (ha : GripObeys cf S w a ta fa) (hb : GripObeys cf S w b tb fb)
    (ha' : ∀ dv tau force, GripObeys cf S w dv tau force → gripAim reg cf E q goal w a fa ≤ gripAim reg cf E q goal w dv force)
    (hb' : ∀ dv tau force, GripObeys cf S w dv tau force → gripAim reg cf E q goal w b fb ≤ gripAim reg cf E q goal w dv force) :
    (∀ i, i < S.robot.nv → a i = b i ∧ ta i = tb i) ∧ ∀ i, i < 3 → fa i = fb i := by
  have hm := grip_mid ha hb
  have h1 := ha' _ _ _ hm
  have h2 := hb' _ _ _ hm
  have h3 := gripAim_mid (q := q) (goal := goal) (reg := reg) (w := w) hB a b fa fb
  have p1 : 0 ≤ ∑ j ∈ range E.robot.nv, (a j - b j) ^ 2 := sum_nonneg fun j _ => sq_nonneg _
  have p2 : 0 ≤ ∑ i ∈ range 3, (fa i - fb i) ^ 2 := sum_nonneg fun j _ => sq_nonneg _
  have q1 := mul_nonneg hw.le p1
  have q2 := mul_nonneg hw'.le p2
  have z1 : ∑ j ∈ range E.robot.nv, (a j - b j) ^ 2 = 0 := by
    by_contra hne
    have := mul_pos hw (lt_of_le_of_ne p1 (Ne.symm hne))
    linarith
  have z2 : ∑ i ∈ range 3, (fa i - fb i) ^ 2 = 0 := by
    by_contra hne
    have := mul_pos hw' (lt_of_le_of_ne p2 (Ne.symm hne))
    linarith
  have e1 : ∀ i, i < S.robot.nv → a i = b i := by
    intro i hi
    have := (sum_eq_zero_iff_of_nonneg fun j _ => sq_nonneg (a j - b j)).1 z1 i (mem_range.2 (by rw [hB.declared.nv]; exact hi))
    exact sub_eq_zero.1 (pow_eq_zero_iff (two_ne_zero) |>.1 this)
  have e2 : ∀ i, i < 3 → fa i = fb i := by
    intro i hi
    have := (sum_eq_zero_iff_of_nonneg fun j _ => sq_nonneg (fa j - fb j)).1 z2 i (mem_range.2 hi)
    exact sub_eq_zero.1 (pow_eq_zero_iff (two_ne_zero) |>.1 this)
  refine ⟨fun i hi => ⟨e1 i hi, ?_⟩, e2⟩
  refine (balance_iff (n := S.robot.nv) (a := ta) (b := tb)).1 (fun u => ?_) i hi
  have d1 := ha.dynamics u
  have d2 := hb.dynamics u
  have k1 : ∀ i, ∑ j ∈ range S.robot.nv, S.robot.mass w.M i j * a j = ∑ j ∈ range S.robot.nv, S.robot.mass w.M i j * b j :=
    fun i => sum_congr rfl fun j hj => by rw [e1 j (mem_range.1 hj)]
  have k2 : ∀ f : Nat → K, ∑ i ∈ range 3, fa i * f i = ∑ i ∈ range 3, fb i * f i :=
    fun f => sum_congr rfl fun j hj => by rw [e2 j (mem_range.1 hj)]
  simp only [k1] at d1
  rw [k2] at d1
  linarith

/-- **C113, all back-ends agree.** If posture task and contact force have positive weights, two back-ends with the same
regularisation whose external solvers keep their promises and succeed return the same accelerations, torques and contact force,
whatever was solved with them before. -/
theorem C113_agree (hB : IsGripper cf kin E W S) (hw : 0 < cf.wPosture) (hw' : 0 < cf.wForceRef) {reg : Bool}
    {s : Program.State K} {R R' C C' : Type} {D : Solve.Driver K R C} {D' : Solve.Driver K R' C'} {u0 : Solve.Object K R}
    {u0' : Solve.Object K R'} {Sat : R → (Nat → K) → Prop} {Sat' : R' → (Nat → K) → Prop} {Success : Solve.Answer C K → Prop}
    {Success' : Solve.Answer C' K → Prop} (f : GripBest D u0 Sat Success reg cf E S q goal w s)
    (f' : GripBest D' u0' Sat' Success' reg cf E S q goal w s)
    {hist : List (SolveCall K R C)} {hist' : List (SolveCall K R' C')} {u u1 : Solve.Object K R} {u' u1' : Solve.Object K R'}
    (hh : ∀ c ∈ hist, c.Sized) (hr : solves D E.ndebug u0 hist = some u)
    (hh' : ∀ c ∈ hist', c.Sized) (hr' : solves D' E.ndebug u0' hist' = some u')
    {fresh freshI engine fresh' freshI' engine'} (he : Sound Sat Success engine) (he' : Sound Sat' Success' engine')
    (hs : Solve.solve D fresh freshI E.ndebug engine u (problem s.form) = .ok u1 ())
    (hs' : Solve.solve D' fresh' freshI' E.ndebug engine' u' (problem s.form) = .ok u1' ())
    (ho : Success (engine u1.st (start D fresh freshI u u1)))
    (ho' : Success' (engine' u1'.st (start D' fresh' freshI' u' u1'))) :
    ∃ dv tau force, GripGives S s.form u1.out.x dv tau force ∧ GripGives S s.form u1'.out.x dv tau force := by
  obtain ⟨_, e, dv, tau, force, hg, k⟩ := f hist u hh hr fresh freshI engine he
  obtain ⟨_, e', dv', tau', force', hg', k'⟩ := f' hist' u' hh' hr' fresh' freshI' engine' he'
  rw [hs] at e
  rw [hs'] at e'
  cases e
  cases e'
  have h1 := k ho
  have h2 := k' ho'
  have hu := C113_unique hB hw hw' h1.2.1 h2.2.1 h1.2.2 h2.2.2
  refine ⟨dv, tau, force, hg, ?_⟩
  obtain ⟨⟨y, a1, a2, a3⟩, ⟨z, b1, b2, b3⟩, x, c1, c2, c3⟩ := hg'
  exact ⟨⟨y, a1, a2, fun i hi => (a3 i hi).trans (hu.1 i hi).1.symm⟩, ⟨z, b1, b2, fun i hi => (b3 i hi).trans (hu.1 i hi).2.symm⟩,
    x, c1, c2, fun i hi => (c3 i hi).trans (hu.2 i hi).symm⟩

/-- **C113, the closed loop.** Whatever accelerations the solver finds, the demo runs without exceptions if the sizes are right; the
velocities add up, and every configuration is integrated with the mean of the velocities before and after the step. -/
theorem C113_closed (hB : IsGripper cf kin E W S) (hv : v.size = E.robot.nv) (hs : GripSized cf E.robot q)
    {integrate : Vec K → Vec K → Vec K} (hI : ∀ a u, (integrate a u).size = a.size) (dv : Nat → Vec K) (sn cn : K → K)
    (M : SE3 K) (shift amp twoPiF : V3 K) (N : Nat) :
    let x := Gripper.states integrate cf.dt q v dv
    (∃ s, uncaught E S.start (Gripper.text cf kin g E.robot.nv q v (Gripper.loop
      (Gripper.wave sn cn (Biped.poseSample M).pos shift amp twoPiF) cf.dt (fun i => (x i).1) (fun i => (x i).2) N)) = some s) ∧
    (∀ i k, (x i).2 k = v k + cf.dt * ∑ j ∈ range i, dv j k) ∧
    ∀ i, ∃ u : Vec K, (x (i + 1)).1 = integrate (x i).1 u ∧ u.size = E.robot.nv ∧
      ∀ k, u k = cf.dt * (((x i).2 k + (x (i + 1)).2 k) / 2) := by
  intro x
  have hz : ∀ i, (x i).2.size = E.robot.nv ∧ (x i).1.size = q.size := by
    intro i
    induction i with
    | zero => exact ⟨hv, rfl⟩
    | succ i ih => exact ⟨ih.1, (hI _ _).trans ih.2⟩
  refine ⟨(C113_loop hB hv hs sn cn M shift amp twoPiF fun i _ => ⟨(hz i).1, ?_⟩).1, fun i k => ?_, fun i => ?_⟩
  · rw [(hz i).2]
    exact hs.motors.ge
  · induction i with
    | zero => simp [x, Gripper.states]
    | succ i ih =>
      rw [sum_range_succ, mul_add, ← add_assoc, ← ih]
      rfl
  · refine ⟨_, rfl, (hz i).1, fun k => ?_⟩
    show cf.dt * ((x i).2 k + 1 / 2 * cf.dt * dv i k) = cf.dt * (((x i).2 k + ((x i).2 k + cf.dt * dv i k)) / 2)
    ring

end

end Tsid.Props
