import Verif.Props.ForeignRemoval
import Verif.Props.Getters
import Verif.Props.Sizes

/-!
# C18, C65, C70: what happens when a name is used twice

The formulation does not check names (`accforce.cpp` 62-148, 165-207): the same task can be added twice, and two contacts may have the
same name.
-/

set_option linter.unusedSectionVars false

namespace Tsid.Props

open Formulation Spec

/-- **C70 is false of a task that is added twice.** The force task "force" is added at level 1 and again at level 0;
`removeTask` takes out the constraint of the second addition and the registration of the first.  What remains is
registered with a constraint that is no longer part of the problem and therefore not resized: once its contact has moved
to the end of the force vector, `computeProblemData` writes outside the matrix. -/
theorem C70_added_twice : ∃ s0 s1 : State ℚ,
    run false Demo.world Demo.start
      [.addRigidContact 1 1 1 1, .addForceTask 3 1 1 0, .addForceTask 3 1 0 0] = some s0 ∧
    run false Demo.world s0 [.removeTask "force", .addRigidContact 0 1 1 1, .removeRigidContact "right" 0,
      .addRigidContact 1 1 1 1] = some s1 ∧
    s1.forces.map TaskLevel.tid = [3] ∧ s1.assoc 3 = "right" ∧ "right" ∈ contactNames s1 ∧
    FitsOn (Demo.world.task 3).kind (Demo.world.task 3).rows (Demo.contacts 1).nForce (Demo.cycle.forceOut 3) ∧
    (computeProblemData false Demo.cycle 0 s0).isOk = true ∧
    (computeProblemData false Demo.cycle 0 s1).isUB = true := by
  obtain ⟨s0, h0, -, hp⟩ := Demo.afterRun_exists
    (ops := [.addRigidContact 1 1 1 1, .addForceTask 3 1 1 0, .addForceTask 3 1 0 0])
    (p := fun s0 => (computeProblemData false Demo.cycle 0 s0).isOk &&
      match run false Demo.world s0 [.removeTask "force", .addRigidContact 0 1 1 1, .removeRigidContact "right" 0,
        .addRigidContact 1 1 1 1] with
      | some s1 => decide (s1.forces.map TaskLevel.tid = [3] ∧ s1.assoc 3 = "right" ∧ "right" ∈ contactNames s1) &&
          (computeProblemData false Demo.cycle 0 s1).isUB
      | none => false) (by decide +kernel)
  simp only [Bool.and_eq_true] at hp
  obtain ⟨hp, h2⟩ := hp
  split at h2
  · next s1 h1 =>
    simp only [Bool.and_eq_true] at h2
    obtain ⟨h2, h3⟩ := h2
    obtain ⟨a, b, c⟩ := of_decide_eq_true h2
    exact ⟨s0, s1, h0, h1, a, b, c, by decide +kernel, hp, h3⟩
  · cases h2

/-- Two contacts of the same name. -/
def twins : Nat → Contact ℚ := fun i =>
  if i = 0 then Contact.new "foot" .twoFrames (fun _ => 0) ⟨0, 0, 1⟩ 1 (-10) 10
  else Contact.new "foot" .twoFrames (fun _ => 0) ⟨0, 0, 1⟩ 1 (-20) 20

/-- **C18 is false of two contacts of the same name**: both are registered and have their own slice of the force vector, but
the getter returns the slice of the first for both. -/
theorem C18_same_name : ∃ s0 s : State ℚ,
    run false Demo.world (init Demo.robot twins Demo.assoc) [.addRigidContact 0 1 1 1, .addRigidContact 1 1 1 1] = some s0 ∧
    computeProblemData false Demo.cycle 0 s0 = .ok s () ∧ contactNames s = ["foot", "foot"] ∧ nVar s = 14 ∧
    (getContactForces s ⟨14, fun i => i⟩).val?.map Vec.toList = some [8, 9, 10, 11, 12, 13] ∧
    (getContactForcesOf s "foot" ⟨14, fun i => i⟩).val?.map Vec.toList = some [8, 9, 10] := by
  have h : (match run false Demo.world (init Demo.robot twins Demo.assoc)
      [.addRigidContact 0 1 1 1, .addRigidContact 1 1 1 1] with
    | some s0 => match computeProblemData false Demo.cycle 0 s0 with
      | .ok s _ => decide (contactNames s = ["foot", "foot"] ∧ nVar s = 14 ∧
        (getContactForces s ⟨14, fun i => i⟩).val?.map Vec.toList = some [8, 9, 10, 11, 12, 13] ∧
        (getContactForcesOf s "foot" ⟨14, fun i => i⟩).val?.map Vec.toList = some [8, 9, 10])
      | _ => false
    | none => false) = true := by decide +kernel
  split at h
  · next s0 h0 =>
    split at h
    · next s u hc => exact ⟨s0, s, h0, hc, of_decide_eq_true h⟩
    · cases h
  · cases h

/-- **C65 is false of two contacts of the same name.** The first has its motion constraint at level 1, the second at
level 0.  Removing "foot" once unregisters the first contact, but takes the motion constraint of the second out of the
problem: the zero vector satisfies everything at level 0, although the registered contact is told to accelerate. -/
theorem C65_same_name : ∃ (s0 s : State ℚ) (l0 l1 : List (ℚ × Constraint ℚ)) (dv : Vec ℚ),
    run false Demo.world (init Demo.robot twins Demo.assoc)
      [.addRigidContact 0 1 1 1, .addRigidContact 1 1 1 0, .removeRigidContact "foot" 0] = some s0 ∧
    computeProblemData false looseCycle 0 s0 = .ok s () ∧ problem s = [l0, l1] ∧
    s.contacts.map ContactLevel.cid = [1] ∧
    l0.map (fun e => e.2.name) = ["base-dynamics", "foot_force_constraint"] ∧
    Feasible l0 (Vec.zero (nVar s)) ∧
    (getAccelerations s (Vec.zero (nVar s))).val? = some dv ∧ ¬ Sat (looseCycle.contactMotion 1) dv := by
  have h : (match run false Demo.world (init Demo.robot twins Demo.assoc)
      [.addRigidContact 0 1 1 1, .addRigidContact 1 1 1 0, .removeRigidContact "foot" 0] with
    | some s0 => match computeProblemData false looseCycle 0 s0 with
      | .ok s _ => match problem s with
        | [l0, _] => decide (s.contacts.map ContactLevel.cid = [1] ∧
            l0.map (fun e => e.2.name) = ["base-dynamics", "foot_force_constraint"] ∧
            (∀ e ∈ l0, (e.2.kind = .equality ∧
                ∀ i, i < e.2.mat.rows → Spec.row e.2.mat (Vec.zero (nVar s)) i = e.2.vec i) ∨
              (e.2.kind = .inequality ∧ ∀ i, i < e.2.mat.rows → e.2.lb i ≤ Spec.row e.2.mat (Vec.zero (nVar s)) i ∧
                Spec.row e.2.mat (Vec.zero (nVar s)) i ≤ e.2.ub i))) &&
          match (getAccelerations s (Vec.zero (nVar s))).val? with
          | some dv => decide (Spec.row (looseCycle.contactMotion 1).mat dv 1 ≠ (looseCycle.contactMotion 1).vec 1)
          | none => false
        | _ => false
      | _ => false
    | none => false) = true := by decide +kernel
  split at h
  · next s0 h0 =>
    split at h
    · next s u hc =>
      split at h
      · next l0 l1 hp =>
        simp only [Bool.and_eq_true] at h
        obtain ⟨h1, h2⟩ := h
        obtain ⟨a1, a2, a3⟩ := of_decide_eq_true h1
        split at h2
        · next dv hdv =>
          refine ⟨s0, s, l0, l1, dv, h0, hc, hp, a1, a2, ?_, hdv, ?_⟩
          · intro e he
            unfold Sat
            rcases a3 e he with ⟨b1, b2⟩ | ⟨b1, b2⟩ <;> rw [b1] <;> exact b2
          · intro hs
            exact of_decide_eq_true h2 (hs 1 (by decide))
        · cases h2
      · cases h
    · cases h
  · cases h

end Tsid.Props
