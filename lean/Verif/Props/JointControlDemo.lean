import Verif.Props.JointControlLoop
import Verif.Props.ManipulatorDemo

/-!
# Joint space control of an arm with two joints

The hypotheses of the theorems about the exercise hold for the arm of `Props/ManipulatorDemo` with the constants of `ur5_conf.py`.
-/

set_option linter.unusedSectionVars false

namespace Tsid.Props

open Spec Finset Formulation Program Filter Topology

namespace JointDemo

open SliderDemo (kin env world setup posture)

noncomputable def conf : JointControl.Conf ℝ := ⟨1, 1 / 1000, 1 / 500⟩

theorem armOf {cf : JointControl.Conf ℝ} (h : 0 ≤ cf.w) : IsJointArm cf kin env world setup where
  declared := SliderDemo.arm.declared
  posture := SliderDemo.arm.posture
  kind := SliderDemo.arm.kind 0 (by decide)
  rows := by
    rw [SliderDemo.arm.rows 0 (by decide), SliderDemo.arm.posture]
    exact count_ones (K := ℝ) 2 2
  fixed := SliderDemo.arm.fixed
  joints := SliderDemo.arm.joints
  w := h
  snap := SliderDemo.arm.snap
  config := SliderDemo.arm.config
  velocity := SliderDemo.arm.velocity

theorem arm : IsJointArm conf kin env world setup := armOf (by norm_num [conf])

noncomputable def q0 : Vec ℝ := ⟨2, fun i => if i = 0 then 1 else -1⟩

theorem sized : JointSized posture q0 := ⟨rfl, rfl⟩

/-- The exercise runs, whatever the solver answers. -/
example (dv : Nat → Vec ℝ) (N : Nat) : ∃ s, uncaught env setup.start (JointControl.text conf kin 2 q0 (Vec.zero 2)
    (JointControl.loop (JointControl.wave Real.sin Real.cos q0 ⟨2, fun _ => 1 / 5⟩ ⟨2, fun _ => 0⟩ ⟨2, fun _ => 6⟩) conf.dt
      (fun i => (JointControl.states (fun a u => ⟨a.size, fun i => a i + u i⟩) conf.dt q0 (Vec.zero 2) dv i).1)
      (fun i => (JointControl.states (fun a u => ⟨a.size, fun i => a i + u i⟩) conf.dt q0 (Vec.zero 2) dv i).2) N)) = some s :=
  (C114_loop arm (v := Vec.zero 2) rfl sized (integrate := fun a u => ⟨a.size, fun i => a i + u i⟩) (fun _ _ => rfl) dv Real.sin Real.cos ⟨2, fun _ => 1 / 5⟩ ⟨2, fun _ => 0⟩
    ⟨2, fun _ => 6⟩ N).1

/-- The joints should go to zero. -/
noncomputable def goal : Sample ℝ := ⟨Vec.zero 2, Vec.zero 2, Vec.zero 2⟩

theorem proper : ProperJoint posture ⟨goal, 0, q0, Vec.zero 2⟩ := ⟨rfl, le_refl _⟩

/-- A reference for three joints raises an exception. -/
example : ¬ ∃ s, uncaught env setup.start (JointControl.text conf kin 2 q0 (Vec.zero 2)
    [⟨⟨Vec.zero 3, Vec.zero 2, Vec.zero 2⟩, 0, q0, Vec.zero 2⟩]) = some s := by
  intro h
  have := (((C114_exceptions (cf := conf) (q := q0) arm (v := Vec.zero 2) rfl (le_refl _) (by
    intro s hs
    rw [List.mem_singleton.1 hs]
    exact ⟨rfl, le_refl _⟩)).1 h).2 _ List.mem_cons_self).pos
  cases this

/-- After a cycle, the back-ends deliver the desired accelerations. -/
example (b : Bool) (t0 : Status.HQPStatus) (i : Int) (x : Solve.Objective ℝ) :
    ∃ s, Program.run env setup.start (JointControl.text conf kin 2 q0 (Vec.zero 2) ([] ++ [⟨goal, 0, q0, Vec.zero 2⟩])) = some s ∧
      JointDriven Solve.fast (Solve.Eiq.init t0 i x) EiqSat (fun a => a.code = .optimal) true conf env setup goal
        (kin q0 (Vec.zero 2)) s := by
  obtain ⟨s, h, -, k, -⟩ := C114_driven_partial (q := q0) (l := []) (r := goal) (t := 0) arm (by norm_num [conf]) (v := Vec.zero 2) rfl
    (le_refl _) (fun _ h => by cases h) proper ⟨rfl, rfl, rfl⟩ b t0 i x
  exact ⟨s, h, k⟩

/-- With these constants the solver of the exercise realises the desired accelerations up to one part in a hundred thousand. -/
example : desired conf env goal (kin q0 (Vec.zero 2)) 0 = -1 ∧ share true conf = 100000 / 100001 := by
  constructor
  · show (0 : ℝ) - 1 * (1 - 0) - critical (1 : ℝ) * (0 - 0) = -1
    ring
  · norm_num [share, conf]

/-- The loop with the solver of the exercise. -/
noncomputable def run : Nat → Vec ℝ × Vec ℝ
  | 0 => (q0, Vec.zero 2)
  | i + 1 => JointControl.advance (fun a u => ⟨a.size, fun i => a i + u i⟩) conf.dt (run i).1 (run i).2
      ⟨2, fun j => share true conf * desired conf env goal (kin (run i).1 (run i).2) j⟩

theorem run_eq (i : Nat) : JointControl.states (fun a u => ⟨a.size, fun i => a i + u i⟩) conf.dt q0 (Vec.zero 2)
    (fun i => ⟨2, fun j => share true conf * desired conf env goal (kin (run i).1 (run i).2) j⟩) i = run i := by
  induction i with
  | zero => rfl
  | succ i ih => rw [JointControl.states, ih, run]

/-- The joints go to zero. -/
example : Tendsto (fun i => (run i).1 1) atTop (𝓝 0) := by
  have h := (C114_converges (r := goal) arm (reg := true) (q := q0) (v := Vec.zero 2) (fun _ => ⟨rfl, rfl⟩) (fun _ _ _ => rfl)
    (integrate := fun a u => ⟨a.size, fun i => a i + u i⟩) (fun _ _ _ => rfl)
    (dv := fun i => ⟨2, fun j => share true conf * desired conf env goal (kin (run i).1 (run i).2) j⟩)
    (fun i j _ => by rw [run_eq]) (by norm_num [conf]) (by norm_num [conf]) (by norm_num [conf]) (by norm_num [conf, share])
    (by norm_num [conf]) (j := 1) (by decide)).1
  simp only [run_eq] at h
  exact h

/-- With a gain of 250000 and a time step of two milliseconds there are states from which the joints do not come to rest. -/
example : ∃ (q v : Vec ℝ) (dv : Nat → Vec ℝ), q.size = 2 ∧ v.size = 2 ∧
    (∀ i k, k < 2 → dv i k = share false ⟨250000, 1, 1 / 500⟩ * desired ⟨250000, 1, 1 / 500⟩ env goal
      (kin (JointControl.states (fun a u => ⟨a.size, fun i => a i + u i⟩) (1 / 500) q v dv i).1
        (JointControl.states (fun a u => ⟨a.size, fun i => a i + u i⟩) (1 / 500) q v dv i).2) k) ∧
    ¬ (Tendsto (fun i => (JointControl.states (fun a u => ⟨a.size, fun i => a i + u i⟩) (1 / 500) q v dv i).1 0) atTop (𝓝 0) ∧
      Tendsto (fun i => (JointControl.states (fun a u => ⟨a.size, fun i => a i + u i⟩) (1 / 500) q v dv i).2 0) atTop (𝓝 0)) :=
  C114_unstable (cf := ⟨250000, 1, 1 / 500⟩) (r := goal) (reg := false) (armOf (by norm_num)) (fun _ => ⟨rfl, rfl⟩) (fun _ _ _ => rfl)
    (integrate := fun a u => ⟨a.size, fun i => a i + u i⟩) (fun _ _ _ => rfl) (by norm_num) (by norm_num) (by norm_num)
    (by rw [show (250000 : ℝ) = 500 ^ 2 by norm_num, Real.sqrt_sq (by norm_num)]; norm_num [share]) (j := 0) (by decide)

/-- The best behaviour for given accelerations. -/
example {dv tau : Nat → ℝ} (h : JointObeys setup (kin q0 (Vec.zero 2)) dv tau)
    (hb : ∀ dv' tau', JointObeys setup (kin q0 (Vec.zero 2)) dv' tau' →
      jointAim false conf env goal (kin q0 (Vec.zero 2)) dv ≤ jointAim false conf env goal (kin q0 (Vec.zero 2)) dv') :
    dv 0 = 1 * desired conf env goal (kin q0 (Vec.zero 2)) 0 :=
  ((C114_unique arm (by norm_num [conf])).1 ⟨h, hb⟩).2 0 (by decide)

end JointDemo

end Tsid.Props
