import Verif.Props.Biped
import Verif.Props.Program

/-!
# A robot with two feet

The hypotheses of the theorems about `TsidBiped` hold for a small robot: a free body with two feet and one motor.
-/

set_option linter.unusedSectionVars false

namespace Tsid.Props

open Spec Finset Formulation Program Biped

namespace BipedDemo

noncomputable def conf : Conf ℝ :=
  { lxp := 1 / 10, lxn := 1 / 10, lyp := 1 / 20, lyn := 1 / 20, lz := 1 / 100, mu := 1 / 2, fMin := 0, fMax := 1000
    normal := ⟨0, 0, 1⟩
    frame := fun f => f.cid
    kpContact := 9, kpCom := 16, kpAm := 4, kpPosture := 1, kpFoot := 25
    gains := ⟨1, fun _ => 2⟩, mask := ⟨1, fun _ => 1⟩
    wCom := 1, wCop := 0, wAm := 1 / 100, wPosture := 1 / 10, wFoot := 1, wContact := -1, wForceRef := 1 / 1000
    wTorque := 1, wJoint := 1
    tauMax := ⟨1, fun _ => 40⟩, vMax := ⟨1, fun _ => 3⟩, dt := 1 / 1000 }

/-- The feet are below the body, one on each side, and move with it. -/
noncomputable def kin (q v : Vec ℝ) : Snapshot ℝ :=
  { q := q, v := v, M := Mat.identity 7, nle := ⟨7, fun i => if i = 2 then 10 else 0⟩
    frame := fun fr => ⟨⟨M3.one, ⟨q 0, q 1 + (if fr = 0 then -1 / 10 else 1 / 10), q 2 - 9 / 10⟩⟩, 0, 0,
      fun c => ⟨⟨if c = 0 then 1 else 0, if c = 1 then 1 else 0, if c = 2 then 1 else 0⟩, 0⟩⟩
    com := ⟨⟨q 0, q 1, q 2⟩, 0, 0, fun _ => 0⟩
    Ag := ⟨6, 7, fun i j => i + j⟩
    dh := 0
    garbage := fun _ _ => 0 }

noncomputable def posture : PostureRobot ℝ :=
  { nv := 7, na := 1, nqa := 1, neutral := Vec.zero 8, difference := fun a b => ⟨7, fun i => b i - a i⟩ }

noncomputable def decl : Nat → TaskDecl ℝ
  | 0 => .com
  | 1 => .cop
  | 2 => .am
  | 3 => .posture
  | 4 => .se3 1
  | 5 => .se3 0
  | 6 => .actBounds
  | _ => .jointBounds (1 / 1000)

noncomputable def world : World :=
  ⟨fun tid => ⟨bipedName tid, bipedName tid, (decl tid).kind,
    (decl tid).rows posture (if tid = 3 then [.posture (.setMask conf.mask)] else [])⟩, fun _ => "force"⟩

noncomputable def env : Program.Env ℝ := ⟨false, fun _ => 0, posture, bipedName, fun _ => "force", fun _ => 0⟩

noncomputable def robot : Robot ℝ := ⟨7, 1, Vec.zero 1, Vec.zero 1, Vec.zero 1⟩

/-- The foot of a contact. -/
def foot : Nat → Foot
  | 0 => .right
  | _ => .left

noncomputable def contacts (c : Nat) : Contact ℝ :=
  Contact.new (foot c).contactName .sixD (corners conf) conf.normal conf.mu conf.fMin conf.fMax

theorem ones (n : Nat) : Tsid.trunc (Vec.sum (⟨n, fun _ => 1⟩ : Vec ℝ)) = n := by
  have : Vec.sum (⟨n, fun _ => 1⟩ : Vec ℝ) = (n : ℝ) := by simp [Vec.sum]
  rw [this, ArmDemo.trunc_nat]

theorem frame_new (name : String) : ∃ s, SE3Task.new (K := ℝ) (fun _ => 0) name 7 true = .ok s () := by
  simp only [SE3Task.new, if_true, SE3Task.setMask, CartRows.setMask, ones 6]
  exact ⟨_, rfl⟩

theorem com_new (name : String) : ∃ s, ComTask.new (K := ℝ) (fun _ => 0) name 7 = .ok s () := by
  simp only [ComTask.new, ComTask.setMask, CartRows.setMask, ones 3, if_true]
  exact ⟨_, rfl⟩

theorem posture_new (name : String) : ∃ s, Posture.new posture name = .ok s () := by
  obtain ⟨m, e, -⟩ := maskInv_setMask (na := 1) (cols := 7) (off := 6) (w := fun _ => 1) (s := (Posture.pre posture name).m)
    (m := (⟨1, fun _ => 1⟩ : Vec ℝ)) (by decide) ⟨rfl, fun _ _ => .inr rfl⟩ rfl
  unfold Posture.new Posture.setMask
  rw [show Masked.setMask posture.na posture.nv (posture.nv - posture.na) (fun _ => 1) (Posture.pre posture name).m
    (⟨posture.na, fun _ => 1⟩ : Vec ℝ) = .ok m () from e]
  exact ⟨_, rfl⟩

theorem bounds_new (name : String) : ∃ s, ActBounds.new (K := ℝ) name 1 = .ok s () := by
  have hv : ValidMask 1 (⟨1, fun _ => 1⟩ : Vec ℝ) := ⟨rfl, fun _ _ => .inr rfl⟩
  exact ⟨_, setMask_ok (s := (⟨Vec.zero 0, [], Constraint.mkIneq name 1 1⟩ : Masked ℝ)) (off := 0) (cols := 1)
    (w := fun _ => 1) hv (by decide) (by simp [Constraint.mkIneq])⟩

theorem limits_new (name : String) : ∃ s, JointBounds.new (K := ℝ) name 7 1 (1 / 1000) = some s := by
  unfold JointBounds.new
  rw [if_pos (by norm_num)]
  exact ⟨_, rfl⟩

theorem objects (tid : Nat) : ∃ o, (decl tid).Built posture (bipedName tid) o := by
  match tid with
  | 0 => obtain ⟨s, e⟩ := com_new (bipedName 0); exact ⟨.com s, _, s, e, rfl⟩
  | 1 => exact ⟨_, rfl⟩
  | 2 => exact ⟨_, fun _ => 0, rfl⟩
  | 3 => obtain ⟨s, e⟩ := posture_new (bipedName 3); exact ⟨.posture s, s, e, rfl⟩
  | 4 => obtain ⟨s, e⟩ := frame_new (bipedName 4); exact ⟨.se3 1 s, _, s, e, rfl⟩
  | 5 => obtain ⟨s, e⟩ := frame_new (bipedName 5); exact ⟨.se3 0 s, _, s, e, rfl⟩
  | 6 => obtain ⟨s, e⟩ := bounds_new (bipedName 6); exact ⟨.actBounds s, s, e, rfl⟩
  | n + 7 => obtain ⟨s, e⟩ := limits_new (bipedName (n + 7)); exact ⟨.jointBounds s, s, e, rfl⟩

/-- What the class constructs. -/
noncomputable def setup : Setup ℝ :=
  { robot := robot
    obj := contacts
    decl := decl
    cdecl := fun c => .sixD (conf.frame (foot c))
    mdecl := fun _ => .force 0 fun _ => true
    task := fun tid => (objects tid).choose
    motion := fun c => .sixD (conf.frame (foot c)) (frame_new (foot c).contactName).choose
    measured := fun _ => .force 0 (Measured3D.new 7 fun _ => true) }

theorem free (tid : Nat) : ¬ Reserved (bipedName tid) := by
  refine Demo.freeName_spec ?_
  match tid with
  | 0 => decide +kernel
  | 1 => decide +kernel
  | 2 => decide +kernel
  | 3 => decide +kernel
  | 4 => decide +kernel
  | 5 => decide +kernel
  | 6 => decide +kernel
  | n + 7 => exact show Demo.freeName "task-joint-bounds" = true by decide +kernel

theorem declared : Declared env world setup where
  names := fun _ => rfl
  mfNames := rfl
  hygienic := fun tid => ⟨rfl, free tid⟩
  nv := rfl
  na := rfl
  motors := by decide
  nqa := by decide
  difference := fun _ _ => rfl
  contacts := fun c => ⟨(foot c).contactName, .sixD, corners conf, conf.normal, conf.mu, conf.fMin, conf.fMax, rfl⟩
  classes := fun _ => rfl
  built := fun tid => (objects tid).choose_spec
  builtContact := fun c => ⟨_, _, (frame_new (foot c).contactName).choose_spec, rfl⟩
  builtMeasured := fun _ => rfl

theorem biped : IsBiped conf kin env world setup where
  declared := declared
  name := fun _ _ => rfl
  com := rfl
  cop := rfl
  am := rfl
  posture := rfl
  foot := by intro f; cases f <;> rfl
  torque := rfl
  joint := rfl
  kind := fun _ _ => rfl
  rows := fun _ _ => rfl
  contact := by intro f; cases f <;> rfl
  motion := by intro f; cases f <;> rfl
  mask := ⟨rfl, fun _ _ => .inr rfl⟩
  wCom := by norm_num [conf]
  wCop := by norm_num [conf]
  wAm := by norm_num [conf]
  wPosture := by norm_num [conf]
  wFoot := by norm_num [conf]
  snap := fun q v hv => ⟨hv, rfl, rfl, rfl, rfl, rfl, fun _ => by
    simp [M3.Orthogonal, kin, M3.one, M3.mul, M3.transpose, M3.mulVec]⟩
  config := fun _ _ => rfl

noncomputable def q0 : Vec ℝ := ⟨8, fun i => if i = 2 then 1 else if i = 6 then 1 else 0⟩

/-- Phases: on the right foot, and from the third step on the left foot. -/
def phase (i : Nat) : Phase := if i < 3 then .right else .left

/-- Every step sets the reference of the left foot and computes. -/
noncomputable def step (i : Nat) : List (Call ℝ) :=
  [.setFoot .left ⟨i / 10, 1 / 10, 0⟩ ⟨1, 0, 0⟩ ⟨0, 0, 0⟩, .cycle i q0 (Vec.zero 7)]

theorem quiet (i : Nat) : ∀ c ∈ step i, NoCalls posture c := by
  intro c hc
  simp only [step, List.mem_cons, List.not_mem_nil, or_false] at hc
  rcases hc with rfl | rfl
  · trivial
  · exact ⟨rfl, by decide⟩

theorem proper (m : Nat) : Proper posture (walk phase 6 step m) :=
  (C108_walk (R := posture) (before := []) (phase := phase) rfl 6 (fun _ h => by cases h) quiet m).1

/-- The theorems apply to this walk; the robot changes the foot in step 3. -/
example : (∃ s, Program.run env setup.start (text conf kin q0 (Vec.zero 7) (walk phase 6 step 6)) = some s) ∧
    (setup.registered env world (text conf kin q0 (Vec.zero 7) (walk phase 6 step 6))).items.Perm
      (itemsOf conf (walk phase 6 step 6)) :=
  (C108_runs biped (q := q0) (v := Vec.zero 7) rfl (by decide) (proper 6)).2

example : stands .right (walk phase 6 step 3) = true ∧ stands .left (walk phase 6 step 3) = false ∧
    stands .right (walk phase 6 step 4) = false ∧ stands .left (walk phase 6 step 4) = true := by
  have h := fun m hm => (C108_walk (R := posture) (before := []) (phase := phase) rfl 6 (fun _ h => by cases h) quiet m).2 hm
  exact ⟨h 3 (by decide) .right, h 3 (by decide) .left, h 4 (by decide) .right, h 4 (by decide) .left⟩

/-- The robot moves up and down with the third coordinate, and its feet are level. -/
example (i : Nat) : (placement conf (grounded conf kin q0 (Vec.zero 7)) .right).trans.z = 1 / 100 ∧
    ((placement conf (grounded conf kin q0 (Vec.zero 7)) .right).actPoint (corners conf i)).z = 0 := by
  have h := C108_ground (cf := conf) (kin := kin) (q := q0) (v := Vec.zero 7) (by
    intro d
    simp only [placement, kin, Vec.put]
    simp
    ring)
  exact ⟨h.1, h.2 M3.one rfl rfl rfl rfl i⟩

/-- If the phase changes in the last sample, the loop of `test_cop_task.py` adds a contact twice. -/
example : ¬ Proper posture (walk phase 4 step 4 ++ landing phase 4 4) :=
  fun h => absurd ((C108_landing (R := posture) (before := []) (n := 4) (phase := phase) rfl (by decide) (fun _ h => by cases h) quiet).1 h)
    (by decide)

end BipedDemo

end Tsid.Props
