import Verif.Props.ManipulatorExists
import Verif.Props.Program

/-!
# An arm with two joints

The hypotheses of the theorems about `TsidManipulator` hold for a small robot: two sliding joints, and a task of the end effector
that looks at the first axis.
-/

set_option linter.unusedSectionVars false

namespace Tsid.Props

open Spec Finset Formulation Program

namespace SliderDemo

noncomputable def conf : Manipulator.Conf ℝ :=
  { kpPosture := 1, wPosture := 1, kpEe := 100, eeMask := ⟨6, fun i => if i = 0 then 1 else 0⟩, eeLocal := false, wEe := 1
    frame := 0, tauMax := ⟨2, fun _ => 40⟩, vMax := ⟨2, fun _ => 3⟩, wTorque := 1, wJoint := 1, dt := 1 / 500 }

/-- The end effector moves along the first two axes. -/
noncomputable def kin (q v : Vec ℝ) : Snapshot ℝ :=
  { q := q, v := v, M := Mat.identity 2, nle := ⟨2, fun i => if i = 1 then 10 else 0⟩
    frame := fun _ => ⟨⟨M3.one, ⟨q 0, q 1, 0⟩⟩, ⟨⟨v 0, v 1, 0⟩, ⟨0, 0, 0⟩⟩, 0,
      fun c => ⟨⟨if c = 0 then 1 else 0, if c = 1 then 1 else 0, 0⟩, 0⟩⟩
    com := ⟨⟨q 0, q 1, 0⟩, 0, 0, fun _ => 0⟩
    Ag := ⟨6, 2, fun i j => i + j⟩
    dh := 0
    garbage := fun _ _ => 0 }

noncomputable def posture : PostureRobot ℝ :=
  { nv := 2, na := 2, nqa := 2, neutral := Vec.zero 2, difference := fun a b => ⟨2, fun i => b i - a i⟩ }

noncomputable def decl : Nat → TaskDecl ℝ
  | 0 => .posture
  | 1 => .se3 0
  | 2 => .actBounds
  | _ => .jointBounds (1 / 500)

noncomputable def world : World :=
  ⟨fun tid => ⟨armName tid, armName tid, (decl tid).kind,
    (decl tid).rows posture (if tid = 1 then [.se3 (.setMask (fun _ => 0) conf.eeMask)] else [])⟩, fun _ => "force"⟩

noncomputable def env : Program.Env ℝ := ⟨false, fun _ => 0, posture, armName, fun _ => "force", fun _ => 0⟩

noncomputable def robot : Robot ℝ := ⟨2, 2, Vec.zero 2, Vec.zero 2, Vec.zero 2⟩

/-- No contact is used. -/
noncomputable def contact : Contact ℝ := Contact.new "none" .sixD (fun _ => 0) ⟨0, 0, 1⟩ 1 0 1

theorem ones (n : Nat) : Tsid.trunc (Vec.sum (⟨n, fun _ => 1⟩ : Vec ℝ)) = n := by
  have : Vec.sum (⟨n, fun _ => 1⟩ : Vec ℝ) = (n : ℝ) := by simp [Vec.sum]
  rw [this, ArmDemo.trunc_nat]

theorem frame_new (name : String) : ∃ s, SE3Task.new (K := ℝ) (fun _ => 0) name 2 true = .ok s () := by
  simp only [SE3Task.new, if_true, SE3Task.setMask, CartRows.setMask, ones 6]
  exact ⟨_, rfl⟩

theorem posture_new (name : String) : ∃ s, Posture.new posture name = .ok s () := by
  obtain ⟨m, e, -⟩ := maskInv_setMask (na := 2) (cols := 2) (off := 0) (w := fun _ => 1) (s := (Posture.pre posture name).m)
    (m := (⟨2, fun _ => 1⟩ : Vec ℝ)) (by decide) ⟨rfl, fun _ _ => .inr rfl⟩ rfl
  unfold Posture.new Posture.setMask
  rw [show Masked.setMask posture.na posture.nv (posture.nv - posture.na) (fun _ => 1) (Posture.pre posture name).m
    (⟨posture.na, fun _ => 1⟩ : Vec ℝ) = .ok m () from e]
  exact ⟨_, rfl⟩

theorem bounds_new (name : String) : ∃ s, ActBounds.new (K := ℝ) name 2 = .ok s () := by
  have hv : ValidMask 2 (⟨2, fun _ => 1⟩ : Vec ℝ) := ⟨rfl, fun _ _ => .inr rfl⟩
  exact ⟨_, setMask_ok (s := (⟨Vec.zero 0, [], Constraint.mkIneq name 2 2⟩ : Masked ℝ)) (off := 0) (cols := 2)
    (w := fun _ => 1) hv (by decide) (by simp [Constraint.mkIneq])⟩

theorem limits_new (name : String) : ∃ s, JointBounds.new (K := ℝ) name 2 2 (1 / 500) = some s := by
  unfold JointBounds.new
  rw [if_pos (by norm_num)]
  exact ⟨_, rfl⟩

theorem objects (tid : Nat) : ∃ o, (decl tid).Built posture (armName tid) o := by
  match tid with
  | 0 => obtain ⟨s, e⟩ := posture_new (armName 0); exact ⟨.posture s, s, e, rfl⟩
  | 1 => obtain ⟨s, e⟩ := frame_new (armName 1); exact ⟨.se3 0 s, _, s, e, rfl⟩
  | 2 => obtain ⟨s, e⟩ := bounds_new (armName 2); exact ⟨.actBounds s, s, e, rfl⟩
  | n + 3 => obtain ⟨s, e⟩ := limits_new (armName (n + 3)); exact ⟨.jointBounds s, s, e, rfl⟩

/-- What the class constructs. -/
noncomputable def setup : Setup ℝ :=
  { robot := robot
    obj := fun _ => contact
    decl := decl
    cdecl := fun _ => .sixD 0
    mdecl := fun _ => .force 0 fun _ => true
    task := fun tid => (objects tid).choose
    motion := fun _ => .sixD 0 (frame_new "none").choose
    measured := fun _ => .force 0 (Measured3D.new 2 fun _ => true) }

theorem free (tid : Nat) : ¬ Reserved (armName tid) := by
  refine Demo.freeName_spec ?_
  match tid with
  | 0 => decide +kernel
  | 1 => decide +kernel
  | 2 => decide +kernel
  | n + 3 => exact show Demo.freeName "task-joint-bounds" = true by decide +kernel

theorem declared : Declared env world setup where
  names := fun _ => rfl
  mfNames := rfl
  hygienic := fun tid => ⟨rfl, free tid⟩
  nv := rfl
  na := rfl
  motors := by decide
  nqa := by decide
  difference := fun _ _ => rfl
  contacts := fun c => ⟨"none", .sixD, fun _ => 0, ⟨0, 0, 1⟩, 1, 0, 1, rfl⟩
  classes := fun _ => rfl
  built := fun tid => (objects tid).choose_spec
  builtContact := fun c => ⟨_, _, (frame_new "none").choose_spec, rfl⟩
  builtMeasured := fun _ => rfl

theorem arm : IsArm conf kin (fun _ => 0) env world setup where
  declared := declared
  name := fun _ _ => rfl
  posture := rfl
  ee := rfl
  torque := rfl
  joint := rfl
  kind := fun _ _ => rfl
  rows := fun _ _ => rfl
  fixed := rfl
  joints := rfl
  mask := ⟨rfl, fun i _ => by by_cases h : i = 0 <;> simp [conf, h]⟩
  wPosture := by norm_num [conf]
  wEe := by norm_num [conf]
  snap := fun q v hv => ⟨hv, rfl, rfl, rfl, rfl, rfl, fun _ => by
    simp [M3.Orthogonal, kin, M3.one, M3.mul, M3.transpose, M3.mulVec]⟩
  config := fun _ _ => rfl
  velocity := fun _ _ => rfl

noncomputable def q0 : Vec ℝ := ⟨2, fun _ => 1⟩

theorem sized : ArmSized conf posture q0 := ⟨rfl, rfl, rfl, rfl⟩

noncomputable def r : Manipulator.Wave ℝ := ⟨⟨1 / 10, 0, 0⟩, ⟨0, 0, 0⟩, ⟨6, 3, 3⟩⟩

/-- The loop of the exercise runs, for any number of steps. -/
example (N : Nat) : ∃ s, uncaught env setup.start (Manipulator.text conf kin (fun _ => 0) 2 q0 (Vec.zero 2)
    (Manipulator.loop (Manipulator.wave Real.sin Real.cos ⟨1, 1, 0⟩ r) (1 / 500) (fun _ => q0) (fun _ => Vec.zero 2) N)) = some s :=
  (C111_loop arm (v := Vec.zero 2) rfl sized Real.sin Real.cos ⟨1, 1, 0⟩ r fun _ _ => ⟨rfl, le_refl _⟩).1

/-- A reference of the end effector with a wrong size raises an exception. -/
example : ¬ ∃ s, uncaught env setup.start (Manipulator.text conf kin (fun _ => 0) 2 q0 (Vec.zero 2)
    [.setEe ⟨Vec.zero 6, Vec.zero 6, Vec.zero 6⟩]) = some s := by
  intro h
  have := ((C111_exceptions arm (v := Vec.zero 2) rfl (q := q0) (le_refl _) (by
    intro c hc
    rw [List.mem_singleton.1 hc]
    exact fun h => by cases h)).1 h).2 _ List.mem_cons_self
  cases this

/-- After a cycle, the back-ends deliver the best accelerations and torques. -/
example (b : Bool) (t0 : Status.HQPStatus) (i : Int) (x : Solve.Objective ℝ) :
    ∃ s, Program.run env setup.start (Manipulator.text conf kin (fun _ => 0) 2 q0 (Vec.zero 2)
        ([.setEe (Manipulator.wave Real.sin Real.cos ⟨1, 1, 0⟩ r 0)] ++ [.cycle 0 q0 (Vec.zero 2)])) = some s ∧
      ArmBest Solve.prox (Solve.Prox.init t0 i x) ProxSat (fun a => a.code = .solved) false conf env setup q0
        (eeGoal [.setEe (Manipulator.wave Real.sin Real.cos ⟨1, 1, 0⟩ r 0)]) (kin q0 (Vec.zero 2)) s := by
  obtain ⟨s, h, -, -, -, k, -⟩ := C111_best_partial (t := 0) (q' := q0) (v' := Vec.zero 2)
    (cs := [.setEe (Manipulator.wave Real.sin Real.cos ⟨1, 1, 0⟩ r 0)]) arm (v := Vec.zero 2) rfl sized (by
      intro c hc
      rw [List.mem_singleton.1 hc]
      exact fun _ => ⟨rfl, rfl⟩) ⟨rfl, le_refl _⟩ b t0 i x
  exact ⟨s, h, k⟩

/-- Some accelerations and torques obey the limits: the arm may rest, if the motor of the second joint bears its weight. -/
theorem rests : ArmObeys conf setup (kin q0 (Vec.zero 2)) (fun _ => 0) (fun i => if i = 1 then 10 else 0) where
  dynamics := by
    intro i _
    simp only [mul_zero, sum_const_zero, zero_add]
    rfl
  torque := by
    intro _ i _
    by_cases h : i = 1 <;> simp [h, conf]; norm_num
  speed := by
    intro _ i _
    simp [conf, kin, Vec.zero]

/-- The end effector should stay where it is. -/
noncomputable def stay : Goal ℝ := ⟨⟨M3.one, ⟨1, 1, 0⟩⟩, ⟨⟨0, 0, 0⟩, ⟨0, 0, 0⟩⟩, ⟨⟨0, 0, 0⟩, ⟨0, 0, 0⟩⟩⟩

/-- If the end effector is asked to stay where it is, and the joints too, the best accelerations are zero. -/
example {a ta : Nat → ℝ} (ha : ArmObeys conf setup (kin q0 (Vec.zero 2)) a ta)
    (hb : ∀ dv tau, ArmObeys conf setup (kin q0 (Vec.zero 2)) dv tau →
      armAim false conf env q0 stay (kin q0 (Vec.zero 2)) a ≤
        armAim false conf env q0 stay (kin q0 (Vec.zero 2)) dv) : a 0 = 0 ∧ a 1 = 0 := by
  have hr : (fun j => -(conf.kpPosture * env.robot.difference q0 (kin q0 (Vec.zero 2)).q j) -
      critical conf.kpPosture * (kin q0 (Vec.zero 2)).v j) = fun _ => (0 : ℝ) := by
    funext j
    simp [env, posture, kin, q0, Vec.zero]
  have h := C111_nominal arm (by norm_num [conf]) ha hb (tb := fun i => if i = 1 then 10 else 0) (by rw [hr]; exact rests) (by
    rw [hr]
    intro p i _ hm
    have hi : i = 0 := by
      by_contra hne
      simp [conf, hne] at hm
    subst hi
    simp [p, FrameSettings.achieved, FrameSettings.law, kin, env, worldError, conf, q0, Vec.zero, Motion.get, V3.get,
      M3.mulVec, M3.mul, M3.transpose, M3.one, rotate, motionAcc, stay]
    show (0 : ℝ) = 100 * (1 - 1)
    norm_num)
  have h0 := h 0 (by decide)
  have h1 := h 1 (by decide)
  exact ⟨h0.trans (congrFun hr 0), h1.trans (congrFun hr 1)⟩

/-- The best accelerations and torques are unique. -/
example {a ta b tb : Nat → ℝ} (ha : ArmObeys conf setup (kin q0 (Vec.zero 2)) a ta)
    (hb : ArmObeys conf setup (kin q0 (Vec.zero 2)) b tb)
    (ha' : ∀ dv tau, ArmObeys conf setup (kin q0 (Vec.zero 2)) dv tau →
      armAim true conf env q0 stay (kin q0 (Vec.zero 2)) a ≤ armAim true conf env q0 stay (kin q0 (Vec.zero 2)) dv)
    (hb' : ∀ dv tau, ArmObeys conf setup (kin q0 (Vec.zero 2)) dv tau →
      armAim true conf env q0 stay (kin q0 (Vec.zero 2)) b ≤ armAim true conf env q0 stay (kin q0 (Vec.zero 2)) dv) :
    ta 0 = tb 0 :=
  (C111_unique arm (by norm_num [conf]) ha hb ha' hb' 0 (by decide)).2

/-- An arm at rest that stays at rest keeps the limits. -/
example : ∀ i, 0 < i → i ≤ 5 → ∀ j, j < 2 → |(Vec.zero 2 : Vec ℝ) j| ≤ conf.vMax j :=
  (C111_speed arm (qs := fun _ => q0) (vs := fun _ => Vec.zero 2) (integrate := fun q _ => q) (dvs := fun _ => Vec.zero 2)
    (taus := fun _ => ⟨2, fun i => if i = 1 then 10 else 0⟩)
    (by intro i _; simp [Manipulator.integrateDv, Vec.zero]) (fun _ _ => rests)).1 (by norm_num [conf])

/-- The task of the end effector has no reference if the program never sets one. -/
example : (eeSettings (Manipulator.text conf kin (fun _ => 0) 2 q0 (Vec.zero 2) [.cycle 0 q0 (Vec.zero 2)])).pose =
    ⟨M3.one, ⟨0, 0, 0⟩⟩ := by
  have h := C111_origin (cf := conf) (kin := kin) (g := fun _ => 0) (E := env) (q := q0) (v := Vec.zero 2)
    (cs := [.cycle 0 q0 (Vec.zero 2)]) (by intro r hr; cases List.mem_singleton.1 hr)
  exact congrArg FrameSettings.pose h

/-- The reference starts with its largest velocity. -/
example : HasDerivAt (fun t => (Manipulator.wave Real.sin Real.cos ⟨1, 1, 0⟩ r t).pos 0)
    (6 * (1 / 10) * Real.cos (6 * 0 + 0)) 0 :=
  (C111_reference ⟨1, 1, 0⟩ r 0 (i := 0) (by decide)).1

/-- At rest there is one best motion. -/
example : ∃ dv tau, ArmObeys conf setup (kin q0 (Vec.zero 2)) dv tau ∧ ∀ dv' tau', ArmObeys conf setup (kin q0 (Vec.zero 2)) dv' tau' →
    armAim true conf env q0 (eeGoal []) (kin q0 (Vec.zero 2)) dv ≤ armAim true conf env q0 (eeGoal []) (kin q0 (Vec.zero 2)) dv' := by
  obtain ⟨dv, tau, h1, h2, -⟩ := C111_exists (v := Vec.zero 2) (q' := q0) (v' := Vec.zero 2) (t := 0) (cs := []) arm rfl sized
    (by intro c hc; cases hc) ⟨rfl, le_refl _⟩ ⟨_, _, rests⟩
  exact ⟨dv, tau, h1, h2⟩

/-- The first step has a solution. -/
example : ∃ dv tau, ArmObeys conf setup (kin q0 (Vec.zero 2)) dv tau :=
  C111_goes_on arm (N := 0) (qs := fun _ => q0) (vs := fun _ => Vec.zero 2) (integrate := fun q _ => q) (dvs := fun _ => Vec.zero 2)
    (taus := fun _ => Vec.zero 2) (fun _ h => absurd h (Nat.not_lt_zero _)) (fun _ h => absurd h (Nat.not_lt_zero _))
    (fun _ j _ => by simp [Vec.zero, conf]) (fun _ j _ => by
      by_cases h : j = 1 <;> simp [kin, conf, h]; norm_num)

/-- Two back-ends agree. -/
example {s : Program.State ℝ} {t0 : Status.HQPStatus} {i : Int} {x : Solve.Objective ℝ} {fresh freshI engine engine'}
    (f : ArmBest Solve.prox (Solve.Prox.init t0 i x) ProxSat (fun a => a.code = .solved) false conf env setup q0 stay (kin q0 q0) s)
    (f' : ArmBest Solve.osqp (Solve.Osqp.init t0 i x) OsqpSat (fun a => a.code = .solved) false conf env setup q0 stay (kin q0 q0) s)
    (he : Sound ProxSat (fun a => a.code = .solved) engine) (he' : Sound OsqpSat (fun a => a.code = .solved) engine') {u1 u1'}
    (hs : Solve.solve Solve.prox fresh freshI false engine (Solve.Prox.init t0 i x) (problem s.form) = .ok u1 ())
    (hs' : Solve.solve Solve.osqp fresh freshI false engine' (Solve.Osqp.init t0 i x) (problem s.form) = .ok u1' ())
    (ho : (engine u1.st (start Solve.prox fresh freshI (Solve.Prox.init t0 i x) u1)).code = .solved)
    (ho' : (engine' u1'.st (start Solve.osqp fresh freshI (Solve.Osqp.init t0 i x) u1')).code = .solved) :
    ∃ dv tau, Gives setup s.form u1.out.x dv tau ∧ Gives setup s.form u1'.out.x dv tau :=
  C111_agree arm (by norm_num [conf]) f f' (hist := []) (hist' := []) (by simp) rfl (by simp) rfl he he' hs hs' ho ho'

end SliderDemo

end Tsid.Props
