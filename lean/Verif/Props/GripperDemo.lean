import Verif.Props.GripperUnique
import Verif.Props.Program
import Mathlib.Tactic.IntervalCases

/-!
# A finger with three joints

The hypotheses of the theorems about the gripper demo hold for a small robot: the fingertip and the first of the two frames move with
the third joint, the only motor; the second frame moves with the first joint, on which a load pulls.
-/

set_option linter.unusedSectionVars false

namespace Tsid.Props

open Spec Finset Formulation Program

namespace GripDemo

noncomputable def conf : Gripper.Conf ℝ :=
  { tip := 0, first := 1, second := 2, fMin := -100, fMax := 100, wEe := 1, wPosture := 1 / 1000, wForceRef := 1 / 100000
    kpEe := 5, kpPosture := 1, kpLoop := 300, effort := ⟨3, fun _ => 5⟩, dt := 1 / 1000 }

noncomputable def kin (q v : Vec ℝ) : Snapshot ℝ :=
  { q := q, v := v, M := Mat.identity 3, nle := ⟨3, fun i => if i = 0 then -1 else 0⟩
    frame := fun fr => ⟨⟨M3.one, ⟨0, q (if fr = 2 then 0 else 2), 0⟩⟩, ⟨⟨0, v (if fr = 2 then 0 else 2), 0⟩, ⟨0, 0, 0⟩⟩, 0,
      fun c => ⟨⟨0, if c = (if fr = 2 then 0 else 2) then 1 else 0, 0⟩, 0⟩⟩
    com := ⟨0, 0, 0, fun _ => 0⟩
    Ag := ⟨6, 3, fun i j => i + j⟩
    dh := 0
    garbage := fun _ _ => 0 }

noncomputable def posture : PostureRobot ℝ :=
  { nv := 3, na := 3, nqa := 3, neutral := Vec.zero 3, difference := fun a b => ⟨3, fun i => b i - a i⟩ }

noncomputable def decl : Nat → TaskDecl ℝ
  | 0 => .se3 0
  | 1 => .posture
  | _ => .actBounds

noncomputable def world : World :=
  ⟨fun tid => ⟨gripName tid, gripName tid, (decl tid).kind, if tid = 0 then 6 else 3⟩, fun _ => "force"⟩

noncomputable def env : Program.Env ℝ := ⟨false, fun _ => 0, posture, gripName, fun _ => "force", fun _ => 0⟩

noncomputable def robot : Robot ℝ := ⟨3, 3, Vec.zero 3, Vec.zero 3, Vec.zero 3⟩

noncomputable def contact : Contact ℝ :=
  Contact.new "contact-two-frame-positions-fingertip-bottom-axis" .twoFrames (fun _ => 0) ⟨0, 0, 1⟩ 1 conf.fMin conf.fMax

theorem ones (n : Nat) : Tsid.trunc (Vec.sum (⟨n, fun _ => 1⟩ : Vec ℝ)) = n := by
  have : Vec.sum (⟨n, fun _ => 1⟩ : Vec ℝ) = (n : ℝ) := by simp [Vec.sum]
  rw [this, ArmDemo.trunc_nat]

theorem frame_new (name : String) : ∃ s, SE3Task.new (K := ℝ) (fun _ => 0) name 3 true = .ok s () := by
  simp only [SE3Task.new, if_true, SE3Task.setMask, CartRows.setMask, ones 6]
  exact ⟨_, rfl⟩

theorem pair_new (name : String) : ∃ s, PairMotion.new (K := ℝ) (fun _ => 0) (fun _ => 0) name 3 = .ok s () := by
  have h3 : Tsid.trunc (Vec.sum (positionMask : Vec ℝ)) = 3 := by
    have : Vec.sum (positionMask : Vec ℝ) = ((3 : ℕ) : ℝ) := by
      simp only [Vec.sum, positionMask, sum_range_succ, range_zero, sum_empty]; norm_num
    rw [this, ArmDemo.trunc_nat]; rfl
  simp only [PairMotion.new, TwoFrames.new, if_true, TwoFrames.setMask, CartRows.setMask, ones 6, h3]
  exact ⟨_, rfl⟩

theorem posture_new (name : String) : ∃ s, Posture.new posture name = .ok s () := by
  obtain ⟨m, e, -⟩ := maskInv_setMask (na := 3) (cols := 3) (off := 0) (w := fun _ => 1) (s := (Posture.pre posture name).m)
    (m := (⟨3, fun _ => 1⟩ : Vec ℝ)) (by decide) ⟨rfl, fun _ _ => .inr rfl⟩ rfl
  unfold Posture.new Posture.setMask
  rw [show Masked.setMask posture.na posture.nv (posture.nv - posture.na) (fun _ => 1) (Posture.pre posture name).m
    (⟨posture.na, fun _ => 1⟩ : Vec ℝ) = .ok m () from e]
  exact ⟨_, rfl⟩

theorem bounds_new (name : String) : ∃ s, ActBounds.new (K := ℝ) name 3 = .ok s () := by
  have hv : ValidMask 3 (⟨3, fun _ => 1⟩ : Vec ℝ) := ⟨rfl, fun _ _ => .inr rfl⟩
  exact ⟨_, setMask_ok (s := (⟨Vec.zero 0, [], Constraint.mkIneq name 3 3⟩ : Masked ℝ)) (off := 0) (cols := 3)
    (w := fun _ => 1) hv (by decide) (by simp [Constraint.mkIneq])⟩

theorem objects (tid : Nat) : ∃ o, (decl tid).Built posture (gripName tid) o := by
  match tid with
  | 0 => obtain ⟨s, e⟩ := frame_new (gripName 0); exact ⟨.se3 0 s, _, s, e, rfl⟩
  | 1 => obtain ⟨s, e⟩ := posture_new (gripName 1); exact ⟨.posture s, s, e, rfl⟩
  | n + 2 => obtain ⟨s, e⟩ := bounds_new (gripName (n + 2)); exact ⟨.actBounds s, s, e, rfl⟩

/-- What the demo constructs. -/
noncomputable def setup : Setup ℝ :=
  { robot := robot
    obj := fun _ => contact
    decl := decl
    cdecl := fun _ => .pair 1 2
    mdecl := fun _ => .force 0 fun _ => true
    task := fun tid => (objects tid).choose
    motion := fun _ => .pair 1 2 (pair_new "contact-two-frame-positions-fingertip-bottom-axis").choose
    measured := fun _ => .force 0 (Measured3D.new 3 fun _ => true) }

theorem free (tid : Nat) : ¬ Reserved (gripName tid) := by
  refine Demo.freeName_spec ?_
  match tid with
  | 0 => decide +kernel
  | 1 => decide +kernel
  | n + 2 => exact show Demo.freeName "task-actuation-bounds" = true by decide +kernel

theorem declared : Declared env world setup where
  names := fun _ => rfl
  mfNames := rfl
  hygienic := fun tid => ⟨rfl, free tid⟩
  nv := rfl
  na := rfl
  motors := by decide
  nqa := by decide
  difference := fun _ _ => rfl
  contacts := fun c => ⟨_, .twoFrames, fun _ => 0, ⟨0, 0, 1⟩, 1, conf.fMin, conf.fMax, rfl⟩
  classes := fun _ => rfl
  built := fun tid => (objects tid).choose_spec
  builtContact := fun c => ⟨_, _, _, (pair_new _).choose_spec, rfl⟩
  builtMeasured := fun _ => rfl

theorem gripper : IsGripper conf kin env world setup where
  declared := declared
  name := fun _ _ => rfl
  tip := rfl
  posture := rfl
  torque := rfl
  kind := fun _ _ => rfl
  tipRows := rfl
  postureRows := rfl
  torqueRows := rfl
  contact := ⟨_, _, rfl⟩
  motion := rfl
  fixed := rfl
  joints := rfl
  two := by decide
  wEe := by norm_num [conf]
  wPosture := by norm_num [conf]
  snap := fun q v hv => ⟨hv, rfl, rfl, rfl, rfl, rfl, fun _ => by
    simp [M3.Orthogonal, kin, M3.one, M3.mul, M3.transpose, M3.mulVec]⟩
  config := fun _ _ => rfl
  velocity := fun _ _ => rfl

noncomputable def q0 : Vec ℝ := Vec.zero 3

theorem sized : GripSized conf posture q0 := ⟨rfl, rfl, rfl⟩

/-- The loop of the demo runs, for any number of steps. -/
example (N : Nat) : ∃ s, uncaught env setup.start (Gripper.text conf kin (fun _ => 0) 3 q0 (Vec.zero 3)
    (Gripper.loop (Gripper.wave Real.sin Real.cos (Biped.poseSample ⟨M3.one, 0⟩).pos ⟨0, -4 / 100, 0⟩ ⟨0, 4 / 100, 0⟩ ⟨0, 3, 0⟩)
      conf.dt (fun _ => q0) (fun _ => Vec.zero 3) N)) = some s :=
  (C113_loop gripper (v := Vec.zero 3) rfl sized Real.sin Real.cos ⟨M3.one, 0⟩ ⟨0, -4 / 100, 0⟩ ⟨0, 4 / 100, 0⟩ ⟨0, 3, 0⟩
    fun _ _ => ⟨rfl, le_refl _⟩).1

/-- The fingertip should stay. -/
noncomputable def stay : Sample ℝ := Biped.poseSample ⟨M3.one, ⟨0, 0, 0⟩⟩

theorem proper : ProperGrip posture ⟨stay, 0, q0, Vec.zero 3⟩ := ⟨rfl, rfl, rfl, rfl, le_refl _⟩

/-- A configuration of a robot with one more joint raises an exception in the loop. -/
example : ¬ ∃ s, uncaught env setup.start (Gripper.text conf kin (fun _ => 0) 3 (Vec.zero 4) (Vec.zero 3)
    [⟨stay, 0, q0, Vec.zero 3⟩]) = some s := by
  intro h
  have := (((C113_exceptions (q := Vec.zero 4) gripper (v := Vec.zero 3) rfl (by decide) (by
    intro s hs
    rw [List.mem_singleton.1 hs]
    exact proper)).1 h).2 (by simp)).joints
  cases this

/-- After a cycle, the back-ends deliver the best accelerations, torques and force. -/
example (b : Bool) (t0 : Status.HQPStatus) (i : Int) (x : Solve.Objective ℝ) :
    ∃ s, Program.run env setup.start (Gripper.text conf kin (fun _ => 0) 3 q0 (Vec.zero 3)
        ([] ++ [⟨stay, 0, q0, Vec.zero 3⟩])) = some s ∧
      GripBest Solve.prox (Solve.Prox.init t0 i x) ProxSat (fun a => a.code = .solved) false conf env setup q0
        (sampleGoal stay) (kin q0 (Vec.zero 3)) s := by
  obtain ⟨s, h, -, -, -, k, -⟩ := C113_best_partial (g := fun _ => 0) (l := []) gripper (v := Vec.zero 3) rfl sized
    (fun _ h => by cases h) proper b t0 i x
  exact ⟨s, h, k⟩

theorem zero_lin : (0 : Motion ℝ).lin = ⟨0, 0, 0⟩ := rfl

theorem zero_ang : (0 : Motion ℝ).ang = ⟨0, 0, 0⟩ := rfl

/-- The chain passes the load on to the motor. -/
theorem holds : GripObeys conf setup (kin q0 (Vec.zero 3)) (fun _ => 0) (fun i => if i = 2 then -1 else 0)
    (fun i => if i = 1 then 1 else 0) where
  dynamics := by
    intro u
    simp [setup, robot, kin, footVel, conf, motionAcc, M3.mulVec, M3.one, sum_range_succ, V3.get, zero_lin]
    ring
  pull := fun i hi => by interval_cases i <;> norm_num [conf]
  passive := fun i _ h => by interval_cases i <;> simp
  torque := fun i hi h => by
    obtain rfl : i = 2 := by change i < 3 at hi; omega
    norm_num [conf]

/-- The motor may tear the frames apart while the optimiser counts on the force between them. -/
example : ∃ tau, GripObeys conf setup (kin q0 (Vec.zero 3)) (fun i => if i = 2 then 5 else 0) tau (fun i => if i = 1 then 1 else 0) ∧
    gapError conf 3 ((kin q0 (Vec.zero 3)).frame 1) ((kin q0 (Vec.zero 3)).frame 2) (fun i => if i = 2 then 5 else 0) 1 = 5 := by
  refine ⟨_, C113_soft holds (dv' := fun i => if i = 2 then 5 else 0) ?_ ?_, ?_⟩
  · intro i hi h
    simp only [setup, robot, kin, Robot.mass]
    interval_cases i <;> simp [Mat.identity]
  · intro i hi h
    obtain rfl : i = 2 := by change i < 3 at hi; omega
    simp only [setup, robot, kin, Robot.mass]
    norm_num [Mat.identity, conf, sum_range_succ, Vec.zero, abs_le]
  · simp [gapError, footAcc, kin, motionAcc, M3.mulVec, M3.one, V3.get, zero_lin, q0, Vec.zero, V3.sub_def]

/-- There are best accelerations, torques and forces. -/
example : ∃ dv tau force, GripObeys conf setup (kin q0 (Vec.zero 3)) dv tau force ∧
    ∀ dv' tau' force', GripObeys conf setup (kin q0 (Vec.zero 3)) dv' tau' force' →
      gripAim true conf env q0 (sampleGoal stay) (kin q0 (Vec.zero 3)) dv force ≤
        gripAim true conf env q0 (sampleGoal stay) (kin q0 (Vec.zero 3)) dv' force' := by
  obtain ⟨dv, tau, force, h, h', -⟩ := C113_exists (g := fun _ => 0) (l := []) gripper (v := Vec.zero 3) rfl sized
    (fun _ h => by cases h) proper (by norm_num [conf]) ⟨_, _, _, holds⟩
  exact ⟨dv, tau, force, h, h'⟩

/-- The chain hardly opens, since not to move at all is admissible and cheap. -/
example {dv force : Nat → ℝ} (hb : ∀ dv' tau' force', GripObeys conf setup (kin q0 (Vec.zero 3)) dv' tau' force' →
      gripAim false conf env q0 (sampleGoal stay) (kin q0 (Vec.zero 3)) dv force ≤
        gripAim false conf env q0 (sampleGoal stay) (kin q0 (Vec.zero 3)) dv' force') :
    ∑ i ∈ range 3, gapError conf 3 ((kin q0 (Vec.zero 3)).frame 1) ((kin q0 (Vec.zero 3)).frame 2) dv i ^ 2 ≤ 1 / 100000 := by
  refine le_trans (C113_gap gripper (by norm_num [conf]) hb holds) ?_
  have hg : sampleGoal stay = ⟨⟨M3.one, ⟨0, 0, 0⟩⟩, ⟨⟨0, 0, 0⟩, ⟨0, 0, 0⟩⟩, ⟨⟨0, 0, 0⟩, ⟨0, 0, 0⟩⟩⟩ := rfl
  rw [hg]
  simp [gripAim, gripCost, sum_range_succ, FrameSettings.achieved, FrameSettings.law, worldError, rotate, gapError, footAcc, kin,
    motionAcc, M3.mulVec, M3.one, V3.get, zero_lin, q0, Vec.zero, env, posture, conf, Motion.get, V3.sub_def, V3.zero_def, zero_ang]

/-- The best behaviour is unique even without regularisation. -/
example {a ta fa b tb fb : Nat → ℝ} (ha : GripObeys conf setup (kin q0 (Vec.zero 3)) a ta fa)
    (hb : GripObeys conf setup (kin q0 (Vec.zero 3)) b tb fb)
    (ha' : ∀ dv tau force, GripObeys conf setup (kin q0 (Vec.zero 3)) dv tau force →
      gripAim false conf env q0 (sampleGoal stay) (kin q0 (Vec.zero 3)) a fa ≤
        gripAim false conf env q0 (sampleGoal stay) (kin q0 (Vec.zero 3)) dv force)
    (hb' : ∀ dv tau force, GripObeys conf setup (kin q0 (Vec.zero 3)) dv tau force →
      gripAim false conf env q0 (sampleGoal stay) (kin q0 (Vec.zero 3)) b fb ≤
        gripAim false conf env q0 (sampleGoal stay) (kin q0 (Vec.zero 3)) dv force) : ta 2 = tb 2 ∧ fa 1 = fb 1 :=
  have h := C113_unique gripper (by norm_num [conf]) (by norm_num [conf]) ha hb ha' hb'
  ⟨(h.1 2 (by decide)).2, h.2 1 (by decide)⟩

/-- Constant acceleration of the motor for ten steps. -/
example (sn cn : ℝ → ℝ) (M : SE3 ℝ) (shift amp twoPiF : V3 ℝ) :
    (Gripper.states (fun a u => ⟨a.size, fun i => a i + u i⟩) conf.dt q0 (Vec.zero 3) (fun _ => ⟨3, fun _ => 2⟩) 10).2 2 =
      conf.dt * 20 := by
  rw [(C113_closed (g := fun _ => 0) gripper (v := Vec.zero 3) rfl sized (integrate := fun a u => ⟨a.size, fun i => a i + u i⟩)
    (fun _ _ => rfl) (fun _ => ⟨3, fun _ => 2⟩) sn cn M shift amp twoPiF 10).2.1 10 2]
  norm_num [Vec.zero]

/-- Two back-ends agree. -/
example {s : Program.State ℝ} {t0 : Status.HQPStatus} {i : Int} {x : Solve.Objective ℝ} {fresh freshI engine engine'}
    (f : GripBest Solve.prox (Solve.Prox.init t0 i x) ProxSat (fun a => a.code = .solved) false conf env setup q0
      (sampleGoal stay) (kin q0 (Vec.zero 3)) s)
    (f' : GripBest Solve.osqp (Solve.Osqp.init t0 i x) OsqpSat (fun a => a.code = .solved) false conf env setup q0
      (sampleGoal stay) (kin q0 (Vec.zero 3)) s)
    (he : Sound ProxSat (fun a => a.code = .solved) engine) (he' : Sound OsqpSat (fun a => a.code = .solved) engine') {u1 u1'}
    (hs : Solve.solve Solve.prox fresh freshI false engine (Solve.Prox.init t0 i x) (problem s.form) = .ok u1 ())
    (hs' : Solve.solve Solve.osqp fresh freshI false engine' (Solve.Osqp.init t0 i x) (problem s.form) = .ok u1' ())
    (ho : (fun a : Solve.Answer _ ℝ => a.code = .solved) (engine u1.st (start Solve.prox fresh freshI (Solve.Prox.init t0 i x) u1)))
    (ho' : (fun a : Solve.Answer _ ℝ => a.code = .solved) (engine' u1'.st (start Solve.osqp fresh freshI (Solve.Osqp.init t0 i x) u1'))) :
    ∃ dv tau force, GripGives setup s.form u1.out.x dv tau force ∧ GripGives setup s.form u1'.out.x dv tau force :=
  C113_agree gripper (by norm_num [conf]) (by norm_num [conf]) f f' (hist := []) (hist' := []) (by simp) rfl (by simp) rfl he he'
    hs hs' ho ho'

end GripDemo

end Tsid.Props
