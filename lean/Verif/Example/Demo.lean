import Verif.Lemmas.Decode

/-!
# A concrete scenario

A floating-base robot with two motors, two contacts, tasks of every family and a measured force, used to show
that the hypotheses of the theorems can be met.
-/

namespace Tsid.Demo

open Formulation

/-- Floating base (6 degrees of freedom) and two joints. -/
def robot : Robot ℚ := ⟨8, 2, ⟨2, fun _ => 1⟩, ⟨2, fun _ => 3⟩, ⟨2, fun _ => 9⟩⟩

/-- Tasks: 0 motion equality, 1 motion bound, 2 actuation bound, 3 force equality, 4 actuation equality,
5 motion inequality, 6 force bound. -/
def world : World :=
  { task := fun i => match i with
      | 0 => ⟨"com", "com", .equality, 1⟩
      | 1 => ⟨"joint-bounds", "joint-bounds", .bound, 8⟩
      | 2 => ⟨"torque-bounds", "torque-bounds", .bound, 2⟩
      | 3 => ⟨"force", "force", .equality, 2⟩
      | 4 => ⟨"torque", "torque", .equality, 1⟩
      | 5 => ⟨"capture", "capture", .inequality, 1⟩
      | _ => ⟨"force-bound", "force-bound", .bound, 3⟩
    mfName := fun i => if i = 0 then "wrench" else "push" }

/-- Contacts: 0 "left" and 1 "right" without friction, 2 "toe" (point), 3 "sole" (6d). -/
def contacts : Nat → Contact ℚ := fun i =>
  if i = 0 then Contact.new "left" .twoFrames (fun _ => 0) ⟨0, 0, 1⟩ 1 (-10) 10
  else if i = 1 then Contact.new "right" .twoFrames (fun _ => 0) ⟨0, 0, 1⟩ 1 (-20) 20
  else if i = 2 then Contact.new "toe" .point (fun _ => 0) ⟨0, 0, 1⟩ (1 / 2) 1 10
  else Contact.new "sole" .sixD (fun i => ⟨i, 1 - i, 0⟩) ⟨0, 0, 1⟩ (1 / 2) 1 40

theorem contacts_built (cid : Nat) : ∃ name kind points normal mu fMin fMax,
    contacts cid = Contact.new name kind points normal mu fMin fMax := by
  unfold contacts
  split
  · exact ⟨_, _, _, _, _, _, _, rfl⟩
  split
  · exact ⟨_, _, _, _, _, _, _, rfl⟩
  split
  · exact ⟨_, _, _, _, _, _, _, rfl⟩
  · exact ⟨_, _, _, _, _, _, _, rfl⟩

/-- Task 3 is associated with "right", task 6 with "left". -/
def assoc : Nat → String := fun i => if i = 3 then "right" else if i = 6 then "left" else ""

/-- Quantities of one control cycle. -/
def cycle : Cycle ℚ :=
  { M := ⟨8, 8, fun i j => if i = j then 4 else if i = j + 1 ∨ j = i + 1 then 1 else 0⟩
    nle := ⟨8, fun i => i + 1⟩
    motionOut := fun i =>
      if i = 0 then ⟨"com", .equality, ⟨1, 8, fun _ j => j⟩, ⟨1, fun _ => 3⟩, Vec.zero 0, Vec.zero 0⟩
      else if i = 5 then
        ⟨"capture", .inequality, ⟨1, 8, fun _ j => j⟩, Vec.zero 0, ⟨1, fun _ => -3⟩, ⟨1, fun _ => 3⟩⟩
      else ⟨"joint-bounds", .bound, Mat.identity 8, Vec.zero 0, ⟨8, fun _ => -1⟩, ⟨8, fun i => i⟩⟩
    forceOut := fun i =>
      if i = 3 then ⟨"force", .equality, ⟨2, 3, fun i j => i + j⟩, ⟨2, fun i => i⟩, Vec.zero 0, Vec.zero 0⟩
      else ⟨"force-bound", .bound, Mat.identity 3, Vec.zero 0, ⟨3, fun _ => -5⟩, ⟨3, fun _ => 5⟩⟩
    actOut := fun i =>
      if i = 4 then ⟨"torque", .equality, ⟨1, 2, fun _ j => j + 1⟩, ⟨1, fun _ => 2⟩, Vec.zero 0, Vec.zero 0⟩
      else ⟨"torque-bounds", .bound, Mat.identity 2, Vec.zero 0, ⟨2, fun _ => -7⟩, ⟨2, fun _ => 7⟩⟩
    contactMotion := fun c =>
      ⟨"motion", .equality, ⟨if c = 3 then 6 else 3, 8, fun i j => if i = j then 1 else if j = 6 + c then 2 else 0⟩,
        ⟨if c = 3 then 6 else 3, fun i => i⟩, Vec.zero 0, Vec.zero 0⟩
    torque := fun m => ⟨8, fun i => i * (m + 1)⟩ }

theorem cycle_sizes : Spec.CycleSizes 8 cycle := ⟨rfl, rfl, rfl⟩

/-- The history: registrations, a control cycle, removal and re-insertion of a contact. -/
def history : List (Op ℚ) :=
  [.addMotionTask 0 (1 / 2) 1 0, .addRigidContact 0 (1 / 10) 1 0, .addRigidContact 1 (1 / 10) 1 1,
   .addMotionTask 1 1 0 0, .addForceTask 3 (1 / 3) 1 0, .addActuationTask 2 1 0 0, .addActuationTask 4 2 1 0,
   .addMeasuredForce 0, .compute cycle 0, .removeRigidContact "left" 0, .addForceTask 6 1 1 0,
   .addRigidContact 0 (1 / 5) 1 0, .addMeasuredForce 1, .addMotionTask 5 1 0 0]

/-- The state after the constructor. -/
def start : State ℚ := init robot contacts assoc

/-- `p` holds after the history `ops`, followed by `computeProblemData`. -/
def after (ops : List (Op ℚ)) (cy : Cycle ℚ) (t : ℚ) (p : State ℚ → Bool) : Bool :=
  match run false world start ops with
  | some s0 =>
    match computeProblemData false cy t s0 with
    | .ok s _ => p s
    | _ => false
  | none => false

/-- `p` holds after the history `ops`. -/
def afterRun (ops : List (Op ℚ)) (p : State ℚ → Bool) : Bool :=
  match run false world start ops with
  | some s0 => p s0
  | none => false

theorem start_reachable {ops : List (Op ℚ)} {s : State ℚ} (h : run false world start ops = some s) :
    Spec.Reachable false world s := by
  refine ⟨robot, contacts, assoc, ops, by decide, contacts_built, h⟩

theorem afterRun_exists {ops : List (Op ℚ)} {p : State ℚ → Bool} (h : afterRun ops p = true) :
    ∃ s, run false world start ops = some s ∧ Spec.Reachable false world s ∧ p s = true := by
  unfold afterRun at h
  split at h
  · next s hs => exact ⟨s, hs, start_reachable hs, h⟩
  · cases h

theorem after_exists {ops : List (Op ℚ)} {cy : Cycle ℚ} {t : ℚ} {p : State ℚ → Bool}
    (h : after ops cy t p = true) :
    ∃ s0 s, run false world start ops = some s0 ∧ Spec.Reachable false world s0 ∧
      computeProblemData false cy t s0 = .ok s () ∧ p s = true := by
  unfold after at h
  split at h
  · next s0 hs =>
    split at h
    · next s u hc => exact ⟨s0, s, hs, start_reachable hs, hc, h⟩
    · cases h
  · cases h

end Tsid.Demo
