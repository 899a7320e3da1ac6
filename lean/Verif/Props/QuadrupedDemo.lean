import Verif.Props.QuadrupedSolve
import Verif.Props.Program
import Mathlib.Tactic.IntervalCases

/-!
# A robot with four feet

The hypotheses of the theorems about the quadruped demo hold for a small robot: a free body with four feet and one motor, which
lifts the first foot.
-/

set_option linter.unusedSectionVars false

namespace Tsid.Props

open Spec Finset Formulation Program

namespace QuadDemo

noncomputable def conf : Quadruped.Conf ℝ :=
  { frame := fun i => i, mu := 3 / 10, fMin := 1, fMax := 100, wCom := 1, wPosture := 75 / 100, wForceRef := 1 / 100000
    kpContact := 10, kpCom := 10, kpPosture := 10, dt := 1 / 1000 }

/-- The feet are below the body and move with it; the joint lifts the first one. -/
noncomputable def kin (q v : Vec ℝ) : Snapshot ℝ :=
  { q := q, v := v, M := Mat.identity 7, nle := ⟨7, fun i => if i = 2 then 10 else 0⟩
    frame := fun fr => ⟨⟨M3.one, ⟨q 0 + fr, q 1 - fr, q 2 + (if fr = 0 then q 7 else 0) - 1⟩⟩,
      ⟨⟨v 0, v 1, v 2 + if fr = 0 then v 6 else 0⟩, ⟨0, 0, 0⟩⟩, 0,
      fun c => ⟨⟨if c = 0 then 1 else 0, if c = 1 then 1 else 0, if c = 2 ∨ (fr = 0 ∧ c = 6) then 1 else 0⟩, 0⟩⟩
    com := ⟨⟨q 0, q 1, q 2⟩, ⟨v 0, v 1, v 2⟩, 0, fun c => ⟨if c = 0 then 1 else 0, if c = 1 then 1 else 0, if c = 2 then 1 else 0⟩⟩
    Ag := ⟨6, 7, fun i j => i + j⟩
    dh := 0
    garbage := fun _ _ => 0 }

noncomputable def posture : PostureRobot ℝ :=
  { nv := 7, na := 1, nqa := 1, neutral := Vec.zero 8
    difference := fun a b => ⟨7, fun i => if i < 6 then b i - a i else b (i + 1) - a (i + 1)⟩ }

noncomputable def decl : Nat → TaskDecl ℝ
  | 0 => .com
  | _ => .posture

def name : Nat → String
  | 0 => "task-com"
  | _ => "task-posture"

noncomputable def world : World :=
  ⟨fun tid => ⟨name tid, name tid, (decl tid).kind, if tid = 0 then 3 else 1⟩, fun _ => "force"⟩

noncomputable def env : Program.Env ℝ := ⟨false, fun _ => 0, posture, name, fun _ => "force", fun _ => 0⟩

noncomputable def robot : Robot ℝ := ⟨7, 1, Vec.zero 1, Vec.zero 1, Vec.zero 1⟩

noncomputable def contacts (c : Nat) : Contact ℝ :=
  Contact.new (Quadruped.footName c) .point (fun _ => 0) ⟨0, 0, 1⟩ conf.mu conf.fMin conf.fMax

theorem ones (n : Nat) : Tsid.trunc (Vec.sum (⟨n, fun _ => 1⟩ : Vec ℝ)) = n := by
  have : Vec.sum (⟨n, fun _ => 1⟩ : Vec ℝ) = (n : ℝ) := by simp [Vec.sum]
  rw [this, ArmDemo.trunc_nat]

theorem point_new (name : String) : ∃ s, PointMotion.new (K := ℝ) (fun _ => 0) (fun _ => 0) name 7 true = .ok s () := by
  have h3 : Tsid.trunc (Vec.sum (positionMask : Vec ℝ)) = 3 := by
    have : Vec.sum (positionMask : Vec ℝ) = ((3 : ℕ) : ℝ) := by
      simp only [Vec.sum, positionMask, sum_range_succ, range_zero, sum_empty]; norm_num
    rw [this, ArmDemo.trunc_nat]; rfl
  simp only [PointMotion.new, SE3Task.new, if_true, SE3Task.setMask, CartRows.setMask, ones 6, h3]
  exact ⟨_, rfl⟩

theorem com_new (name : String) : ∃ s, ComTask.new (K := ℝ) (fun _ => 0) name 7 = .ok s () := by
  simp only [ComTask.new, ComTask.setMask, CartRows.setMask, ones 3, if_true]
  exact ⟨_, rfl⟩

theorem posture_new (name : String) : ∃ s, Posture.new posture name = .ok s () := by
  obtain ⟨m, e, -⟩ := maskInv_setMask (na := 1) (cols := 7) (off := 6) (w := fun _ => 1) (s := (Posture.pre posture name).m)
    (m := (⟨1, fun _ => 1⟩ : Vec ℝ)) (by decide) ⟨rfl, fun _ _ => .inr rfl⟩ rfl
  unfold Posture.new Posture.setMask
  rw [show Masked.setMask posture.na posture.nv (posture.nv - posture.na) (fun _ => 1) (Posture.pre posture name).m
    (⟨posture.na, fun _ => 1⟩ : Vec ℝ) = .ok m () from e]
  exact ⟨_, rfl⟩

theorem objects (tid : Nat) : ∃ o, (decl tid).Built posture (name tid) o := by
  match tid with
  | 0 => obtain ⟨s, e⟩ := com_new (name 0); exact ⟨.com s, _, s, e, rfl⟩
  | n + 1 => obtain ⟨s, e⟩ := posture_new (name (n + 1)); exact ⟨.posture s, s, e, rfl⟩

/-- What the demo constructs. -/
noncomputable def setup : Setup ℝ :=
  { robot := robot
    obj := contacts
    decl := decl
    cdecl := fun c => .point (conf.frame c)
    mdecl := fun _ => .force 0 fun _ => true
    task := fun tid => (objects tid).choose
    motion := fun c => .point (conf.frame c) (point_new (Quadruped.footName c)).choose
    measured := fun _ => .force 0 (Measured3D.new 7 fun _ => true) }

theorem free (tid : Nat) : ¬ Reserved (name tid) := by
  refine Demo.freeName_spec ?_
  match tid with
  | 0 => decide +kernel
  | n + 1 => exact show Demo.freeName "task-posture" = true by decide +kernel

theorem declared : Declared env world setup where
  names := fun _ => rfl
  mfNames := rfl
  hygienic := fun tid => ⟨rfl, free tid⟩
  nv := rfl
  na := rfl
  motors := by decide
  nqa := by decide
  difference := fun _ _ => rfl
  contacts := fun c => ⟨Quadruped.footName c, .point, fun _ => 0, ⟨0, 0, 1⟩, conf.mu, conf.fMin, conf.fMax, rfl⟩
  classes := fun _ => rfl
  built := fun tid => (objects tid).choose_spec
  builtContact := fun c => ⟨_, _, _, (point_new (Quadruped.footName c)).choose_spec, rfl⟩
  builtMeasured := fun _ => rfl

theorem quadruped : IsQuadruped conf kin env world setup where
  declared := declared
  comName := rfl
  postureName := rfl
  com := rfl
  posture := rfl
  kind := by
    intro tid h
    match tid with
    | 0 => rfl
    | 1 => rfl
  comRows := rfl
  postureRows := rfl
  contact := fun _ _ => rfl
  motion := fun _ _ => rfl
  floating := rfl
  neutral := rfl
  wCom := by norm_num [conf]
  wPosture := by norm_num [conf]
  mu := by norm_num [conf]
  moderate := by norm_num [conf]
  snap := fun q v hv => ⟨hv, rfl, rfl, rfl, rfl, rfl, fun _ => by
    simp [M3.Orthogonal, kin, M3.one, M3.mul, M3.transpose, M3.mulVec]⟩
  config := fun _ _ => rfl
  velocity := fun _ _ => rfl

/-- The robot hangs above the ground at first. -/
noncomputable def q0 : Vec ℝ := ⟨8, fun i => if i = 2 then 3 else if i = 6 then 1 else 0⟩

theorem sized : QuadSized posture q0 := ⟨rfl, rfl⟩

/-- On the ground. -/
noncomputable def q1 : Vec ℝ := ⟨8, fun i => if i = 2 then 1 else if i = 6 then 1 else 0⟩

theorem ground_eq : Quadruped.ground conf q0 (kin q0 (Vec.zero 7)) = q1 := by
  simp only [Quadruped.ground, Vec.put, q1]
  congr 1
  funext i
  by_cases h : i = 2 <;> simp [h, q0, kin, conf]

theorem places_eq (l : Nat) : feetPlaces conf kin q0 (Vec.zero 7) l = ((kin q1 (Vec.zero 7)).frame l).pose.trans := by
  show ((kin (Quadruped.ground conf q0 (kin q0 (Vec.zero 7))) (Vec.zero 7)).frame l).pose.trans = _
  rw [ground_eq]

theorem lifts : Lifts conf kin := by
  intro q v d l _
  by_cases h : l = 0 <;> simp [kin, conf, h] <;> ring

/-- The second foot is on the ground. -/
example : (feetPlaces conf kin q0 (Vec.zero 7) 1).z = 0 :=
  ((C112_ground lifts).2 1 (by decide)).2.2.2 (by simp [kin, conf, q0])

/-- The loop of the demo runs, for any number of steps. -/
example (N : Nat) : ∃ s, uncaught env setup.start (Quadruped.text conf kin (fun _ => 0) 7 q0 (Vec.zero 7)
    (Quadruped.loop (Quadruped.wave Real.sin Real.cos ⟨0, 0, 1⟩ ⟨0, 3 / 100, 0⟩ ⟨0, 6, 0⟩) conf.dt (fun _ => q1)
      (fun _ => Vec.zero 7) N)) = some s :=
  (C112_loop quadruped (v := Vec.zero 7) rfl sized Real.sin Real.cos ⟨0, 0, 1⟩ ⟨0, 3 / 100, 0⟩ ⟨0, 6, 0⟩
    fun _ _ => ⟨rfl, by decide⟩).1

/-- So does it if the robot moves: its base is lifted with a constant acceleration. -/
example (N : Nat) : (Quadruped.states (fun q u => ⟨q.size, fun i => q i + u i⟩) conf.dt
    (Quadruped.ground conf q0 (kin q0 (Vec.zero 7))) (Vec.zero 7) (fun _ => ⟨7, fun i => if i = 2 then 1 else 0⟩) N).2 2 =
      N * conf.dt := by
  rw [((C112_closed (g := fun _ => 0) quadruped (v := Vec.zero 7) rfl sized (integrate := fun q u => ⟨q.size, fun i => q i + u i⟩)
    (fun _ _ => rfl) (fun _ => ⟨7, fun i => if i = 2 then 1 else 0⟩) Real.sin Real.cos 0 0 0 0).2.1 N 2)]
  simp [Vec.zero, mul_comm]

/-- The centre of mass should stay. -/
noncomputable def stay : Sample ℝ := ⟨⟨3, fun i => if i = 2 then 1 else 0⟩, Vec.zero 3, Vec.zero 3⟩

theorem proper : ProperStep posture ⟨stay, 0, q1, Vec.zero 7⟩ := ⟨rfl, rfl, rfl, rfl, by decide⟩

/-- A configuration of a robot with one more joint raises an exception in the loop. -/
example : ¬ ∃ s, uncaught env setup.start (Quadruped.text conf kin (fun _ => 0) 7 (Vec.zero 9) (Vec.zero 7)
    [⟨stay, 0, q1, Vec.zero 7⟩]) = some s := by
  intro h
  have := ((C112_exceptions (q := Vec.zero 9) quadruped (v := Vec.zero 7) rfl (by decide) (by
    intro s hs
    rw [List.mem_singleton.1 hs]
    exact proper)).1 h (by simp)).joints
  cases this

/-- After a cycle, the back-ends deliver the best accelerations, torques and forces. -/
example (b : Bool) (t0 : Status.HQPStatus) (i : Int) (x : Solve.Objective ℝ) :
    ∃ s, Program.run env setup.start (Quadruped.text conf kin (fun _ => 0) 7 q0 (Vec.zero 7)
        ([] ++ [⟨stay, 0, q1, Vec.zero 7⟩])) = some s ∧
      QuadBest Solve.prox (Solve.Prox.init t0 i x) ProxSat (fun a => a.code = .solved) false conf env setup q0
        (feetPlaces conf kin q0 (Vec.zero 7)) stay (kin q1 (Vec.zero 7)) s := by
  obtain ⟨s, h, -, -, -, k, -⟩ := C112_best_partial (g := fun _ => 0) (l := []) quadruped (v := Vec.zero 7) rfl sized
    (fun _ h => by cases h) proper b t0 i x
  exact ⟨s, h, k⟩

theorem zero_lin : (0 : Motion ℝ).lin = ⟨0, 0, 0⟩ := rfl

/-- The feet can bear the robot: each of them pushes with a quarter of the weight, and the motor bears the push of the first. -/
theorem bears : QuadObeys conf setup (kin q1 (Vec.zero 7)) (fun _ => 0) (fun _ => -(5 / 2)) (fun _ i => if i = 2 then 5 / 2 else 0) where
  dynamics := by
    intro u
    simp [setup, robot, kin, footVel, conf, motionAcc, M3.mulVec, M3.one, sum_range_succ, V3.get, zero_lin]
    ring
  push := fun _ _ => by norm_num [conf]
  friction := fun _ _ => by norm_num [conf]

/-- The robot may jerk its first foot off the ground while the optimiser counts on the push of this foot. -/
example (a : ℝ) : ∃ tau, QuadObeys conf setup (kin q1 (Vec.zero 7)) (fun i => if i = 6 then a else 0) tau
      (fun _ i => if i = 2 then 5 / 2 else 0) ∧
    (footAcc 7 ((kin q1 (Vec.zero 7)).frame 0) fun i => if i = 6 then a else 0).z = a := by
  obtain ⟨tau, h⟩ := C112_soft (by decide) bears (dv' := fun i => if i = 6 then a else 0) (by
    intro i hi
    simp only [setup, robot, kin, Robot.mass]
    interval_cases i <;> simp [Mat.identity])
  refine ⟨tau, h, ?_⟩
  simp [footAcc, kin, motionAcc, M3.mulVec, M3.one, zero_lin]

theorem rests : QuadRests conf env q0 (feetPlaces conf kin q0 (Vec.zero 7)) stay (kin q1 (Vec.zero 7)) where
  foot := fun l _ => (places_eq l).symm
  footVel := fun l _ => by simp [kin, Vec.zero]; rfl
  footDrift := fun _ _ => rfl
  com := fun i hi => by interval_cases i <;> simp [kin, q1, stay, V3.get]
  comVel := fun i hi => by interval_cases i <;> simp [kin, stay, V3.get, Vec.zero]
  comDrift := rfl
  acc := fun _ _ => rfl
  joints := fun j hj => by
    obtain rfl : j = 0 := Nat.lt_one_iff.1 hj
    simp [env, posture, kin, q1, q0, Vec.zero]
  jointVel := fun _ _ => rfl

/-- The robot stands: the feet hardly accelerate. -/
example {dv : Nat → ℝ} {force : Nat → Nat → ℝ} (hb : ∀ dv' tau' force', QuadObeys conf setup (kin q1 (Vec.zero 7)) dv' tau' force' →
      quadAim false conf env q0 (feetPlaces conf kin q0 (Vec.zero 7)) stay (kin q1 (Vec.zero 7)) dv force ≤
        quadAim false conf env q0 (feetPlaces conf kin q0 (Vec.zero 7)) stay (kin q1 (Vec.zero 7)) dv' force') :
    ∑ l ∈ range 4, ∑ i ∈ range 3, (footAcc 7 ((kin q1 (Vec.zero 7)).frame l) dv).get i ^ 2 ≤ 1 / 1000000000 := by
  refine le_trans (C112_stand quadruped (by norm_num [conf]) hb rests bears) ?_
  norm_num [conf, sum_range_succ]

/-- There are best accelerations, torques and forces. -/
example : ∃ dv tau force, QuadObeys conf setup (kin q1 (Vec.zero 7)) dv tau force ∧
    ∀ dv' tau' force', QuadObeys conf setup (kin q1 (Vec.zero 7)) dv' tau' force' →
      quadAim true conf env q0 (feetPlaces conf kin q0 (Vec.zero 7)) stay (kin q1 (Vec.zero 7)) dv force ≤
        quadAim true conf env q0 (feetPlaces conf kin q0 (Vec.zero 7)) stay (kin q1 (Vec.zero 7)) dv' force' := by
  obtain ⟨dv, tau, force, h, h', -⟩ := C112_exists (g := fun _ => 0) (l := []) quadruped (v := Vec.zero 7) rfl sized
    (fun _ h => by cases h) proper (by norm_num [conf]) ⟨_, _, _, bears⟩
  exact ⟨dv, tau, force, h, h'⟩

/-- Two back-ends agree. -/
example {s : Program.State ℝ} {t0 : Status.HQPStatus} {i : Int} {x : Solve.Objective ℝ} {fresh freshI engine engine'}
    (f : QuadBest Solve.fast (Solve.Eiq.init t0 i x) EiqSat (fun a => a.code = .optimal) true conf env setup q0
      (feetPlaces conf kin q0 (Vec.zero 7)) stay (kin q1 (Vec.zero 7)) s)
    (f' : QuadBest Solve.mad (Solve.Mad.init true t0 i x) MadSat (fun a => a.code = .ok) true conf env setup q0
      (feetPlaces conf kin q0 (Vec.zero 7)) stay (kin q1 (Vec.zero 7)) s)
    (he : Sound EiqSat (fun a => a.code = .optimal) engine) (he' : Sound MadSat (fun a => a.code = .ok) engine') {u1 u1'}
    (hs : Solve.solve Solve.fast fresh freshI false engine (Solve.Eiq.init t0 i x) (problem s.form) = .ok u1 ())
    (hs' : Solve.solve Solve.mad fresh freshI false engine' (Solve.Mad.init true t0 i x) (problem s.form) = .ok u1' ())
    (ho : (fun a : Solve.Answer _ ℝ => a.code = .optimal) (engine u1.st (start Solve.fast fresh freshI (Solve.Eiq.init t0 i x) u1)))
    (ho' : (fun a : Solve.Answer _ ℝ => a.code = .ok) (engine' u1'.st (start Solve.mad fresh freshI (Solve.Mad.init true t0 i x) u1'))) :
    ∃ dv tau force, QuadGives setup s.form u1.out.x dv tau force ∧ QuadGives setup s.form u1'.out.x dv tau force :=
  C112_agree quadruped (v := Vec.zero 7) rfl sized proper (by norm_num [conf]) f f' (hist := []) (hist' := []) (by simp) rfl (by simp) rfl he he'
    hs hs' ho ho'

end QuadDemo

end Tsid.Props
