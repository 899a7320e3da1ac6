import Verif.Props.BipedDemo
import Verif.Props.BipedSettings

/-!
# The settings and the exceptions of the robot with two feet

The theorems about what the constructor of `TsidBiped` sets, and about exceptions, for the robot of `Props/BipedDemo` and for
the same robot with a configuration file whose gain vector is too long.
-/

set_option linter.unusedSectionVars false

namespace Tsid.Props

open Spec Finset Formulation Program Biped

namespace BipedDemo

theorem sized : Sized conf posture q0 := ⟨rfl, rfl, rfl, rfl, rfl⟩

/-- A configuration file with gains for two motors. -/
noncomputable def longer : Conf ℝ := { conf with gains := ⟨2, fun _ => 2⟩ }

theorem not_sized : ¬ Sized longer posture q0 := fun h => absurd h.gains (by decide)

theorem longer_biped : IsBiped longer kin env world setup :=
  { declared := declared, name := biped.name, com := rfl, cop := rfl, am := rfl, posture := rfl, foot := biped.foot
    torque := rfl, joint := biped.joint, kind := biped.kind, rows := biped.rows, contact := biped.contact
    motion := biped.motion, mask := biped.mask, wCom := biped.wCom, wCop := biped.wCop, wAm := biped.wAm
    wPosture := biped.wPosture, wFoot := biped.wFoot, snap := biped.snap, config := biped.config }

/-- The program that walks comes to its end without an exception. -/
example (m : Nat) : ∃ s, uncaught env setup.start (text conf kin q0 (Vec.zero 7) (walk phase 6 step m)) = some s :=
  (C108_exceptions biped rfl (by decide) (proper m)).2 sized

/-- With the longer gains it does not. -/
example (m : Nat) : ¬ ∃ s, uncaught env setup.start (text longer kin q0 (Vec.zero 7) (walk phase 6 step m)) = some s :=
  fun h => not_sized ((C108_exceptions longer_biped rfl (by decide) (proper m)).1 h)

/-- In the program with the longer gains exactly the calls with the gains raise an exception. -/
example {pre post : List (Program.Op ℝ)}
    (e : text longer kin q0 (Vec.zero 7) (walk phase 6 step 6) = pre ++ .task 3 (.posture (.setKp longer.gains)) :: post) :
    ∃ s0, Program.run env setup.start pre = some s0 ∧
      (Program.step env s0 (.task 3 (.posture (.setKp longer.gains)))).threw = true := by
  obtain ⟨L, hL, -⟩ := (inv_all longer_biped (v := Vec.zero 7) (q := q0) rfl (by decide) (proper 6)).upto
  obtain ⟨s0, h0, h1, -⟩ := C109_throws declared (e ▸ hL.checked)
  exact ⟨s0, h0, h1.2 (show ¬ (2 : Nat) = 1 by decide)⟩

/-- The settings of the small robot: the torque limits, and the first goal of the centre of mass. -/
example (cs : List (Call ℝ)) : AsConfigured conf posture (ground conf q0 (kin q0 (Vec.zero 7))) cs
    (text conf kin q0 (Vec.zero 7) cs) :=
  C108_settings (E := env) (kin := kin) (q := q0) rfl sized (Vec.zero 7) cs

/-- The walk sets no reference of the centre of mass, so that the body, at height 1, is asked to fall. -/
example (k : ComKin ℝ) (hk : k.pos.z = 1) (hv : k.vel.z = 0) :
    ((ComSettings.fresh (K := ℝ)).afterAll ((taskCalls 0 (text conf kin q0 (Vec.zero 7) (step 0))).filterMap com?)).law k 2
      = -16 := by
  rw [C108_com_origin (E := env) rfl sized (Vec.zero 7) (by intro p w a h; simp [step] at h) (by decide)]
  show -(16 * k.pos.z) - _ * k.vel.z = -16
  rw [hk, hv]
  norm_num

end BipedDemo

end Tsid.Props
