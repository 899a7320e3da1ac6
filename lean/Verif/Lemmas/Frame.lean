import Verif.Lemmas.Contents

/-!
# What the calls leave alone
-/

set_option linter.unusedSectionVars false

namespace Tsid.Formulation

open Spec

variable {K : Type} [Field K] [LinearOrder K] [HasSqrt K]

/-- User objects, robot, time and pending transitions are the same. -/
structure Frame (s s' : State K) : Prop where
  robot : s'.robot = s.robot
  obj : s'.contactObj = s.contactObj
  assoc : s'.assoc = s.assoc
  t : s'.t = s.t
  trans : s'.trans = s.trans
  f : s'.f = s.f

theorem Frame.refl (s : State K) : Frame s s := ⟨rfl, rfl, rfl, rfl, rfl, rfl⟩

theorem addTask_frame {W : World} {s s1 : State K} {tid p : Nat} {w : K} {id : Nat}
    (h : addTask W s tid w p = some (s1, id)) : Frame s s1 := by
  unfold addTask at h
  dsimp only at h
  split at h
  · cases h
  · cases h; exact ⟨rfl, rfl, rfl, rfl, rfl, rfl⟩

theorem removeContactNow_frame {nd : Bool} {s s' : State K} {n : String}
    (h : (removeContactNow nd s n).state? = some s') : Frame s s' := by
  unfold removeContactNow at h
  dsimp only at h
  split at h
  · cases h
  · split at h
    · cases h
    · split at h <;> (cases h; exact ⟨rfl, rfl, rfl, rfl, rfl, rfl⟩)

theorem removeTask_frame {nd : Bool} {W : World} {s s' : State K} {n : String}
    (h : (removeTask nd W s n).state? = some s') : Frame s s' := by
  unfold removeTask at h
  dsimp only at h
  split at h
  · cases h
  split at h
  · cases h
    split
    · split <;> exact ⟨rfl, rfl, rfl, rfl, rfl, rfl⟩
    · exact ⟨rfl, rfl, rfl, rfl, rfl, rfl⟩
  split at h
  · cases h; exact ⟨rfl, rfl, rfl, rfl, rfl, rfl⟩
  split at h
  · cases h
    split
    · split <;> exact ⟨rfl, rfl, rfl, rfl, rfl, rfl⟩
    · exact ⟨rfl, rfl, rfl, rfl, rfl, rfl⟩
  · cases h; exact ⟨rfl, rfl, rfl, rfl, rfl, rfl⟩

/-- Calls that touch neither contact objects nor transitions nor time. -/
def Plain : Op K → Prop
  | .removeRigidContact _ dur => ¬ 0 < dur
  | .compute _ _ | .decode _ | .setContact _ _ | .setAssociated _ _ => False
  | _ => True

theorem step_frame {nd : Bool} {W : World} {s s' : State K} {o : Op K} (hp : Plain o)
    (hs : (step nd W s o).state? = some s') : Frame s s' := by
  cases o with
  | addMotionTask tid w p dur =>
    simp only [step, void_state?, addMotionTask] at hs
    split at hs
    · split at hs
      · split at hs
        · cases hs
        · next h => cases hs; have := addTask_frame h; exact ⟨this.1, this.2, this.3, this.4, this.5, this.6⟩
      · cases hs; exact Frame.refl _
    · cases hs; exact Frame.refl _
  | addForceTask tid w p dur =>
    simp only [step, void_state?, addForceTask] at hs
    split at hs
    · split at hs
      · split at hs
        · cases hs
        · next h => cases hs; have := addTask_frame h; exact ⟨this.1, this.2, this.3, this.4, this.5, this.6⟩
      · cases hs; exact Frame.refl _
    · cases hs; exact Frame.refl _
  | addActuationTask tid w p dur =>
    simp only [step, void_state?, addActuationTask] at hs
    split at hs
    · split at hs
      · split at hs
        · cases hs
        · next h => cases hs; have := addTask_frame h; exact ⟨this.1, this.2, this.3, this.4, this.5, this.6⟩
      · cases hs; exact Frame.refl _
    · cases hs; exact Frame.refl _
  | updateTaskWeight n w =>
    simp only [step, void_state?, updateTaskWeight] at hs
    split at hs <;> (cases hs; exact ⟨rfl, rfl, rfl, rfl, rfl, rfl⟩)
  | addRigidContact cid wf wm p =>
    simp only [step, void_state?, addRigidContact] at hs
    split at hs
    · cases hs
    · split at hs
      · cases hs
      · split at hs
        · cases hs
        · cases hs; exact ⟨rfl, rfl, rfl, rfl, rfl, rfl⟩
  | updateRigidContactWeights n wf wm =>
    simp only [step, void_state?, updateRigidContactWeights] at hs
    split at hs <;> (cases hs; exact ⟨rfl, rfl, rfl, rfl, rfl, rfl⟩)
  | addMeasuredForce m =>
    simp only [step, void_state?, addMeasuredForce] at hs
    cases hs; exact ⟨rfl, rfl, rfl, rfl, rfl, rfl⟩
  | removeMeasuredForce n =>
    simp only [step, void_state?, removeMeasuredForce] at hs
    split at hs <;> (cases hs; exact ⟨rfl, rfl, rfl, rfl, rfl, rfl⟩)
  | removeTask n => exact removeTask_frame (nd := nd) (by simpa [step, void_state?] using hs)
  | removeRigidContact n dur =>
    simp only [step, void_state?, removeRigidContact] at hs
    rw [if_neg hp] at hs
    exact removeContactNow_frame hs
  | removeFromHqpData n => simp only [step] at hs; cases hs; exact ⟨rfl, rfl, rfl, rfl, rfl, rfl⟩
  | resizeHqpData => simp only [step] at hs; cases hs; exact ⟨rfl, rfl, rfl, rfl, rfl, rfl⟩
  | compute cy t => exact absurd hp id
  | decode x => exact absurd hp id
  | setContact cid u => exact absurd hp id
  | setAssociated tid n => exact absurd hp id

theorem runTransitions_robot {nd : Bool} : ∀ (l pre : List (Transition K)) (s s' : State K),
    (runTransitions nd pre l s).state? = some s' → s'.robot = s.robot ∧ s'.assoc = s.assoc ∧ s'.f = s.f ∧ s'.t = s.t := by
  intro l
  induction l with
  | nil =>
    intro pre s s' h
    simp only [runTransitions] at h
    cases h; exact ⟨rfl, rfl, rfl, rfl⟩
  | cons tr rest ih =>
    intro pre s s' h
    unfold runTransitions at h
    split at h
    · cases h
    split at h
    · split at h
      · have := ih _ _ _ h; exact this
      · cases h; exact ⟨rfl, rfl, rfl, rfl⟩
      · cases h
      · cases h
    · split at h
      · next s1 b hr =>
        cases h
        have := removeContactNow_frame (nd := nd) (s' := s1) (by rw [hr]; rfl)
        exact ⟨this.1, this.3, this.6, this.4⟩
      · next s1 hr => exact absurd hr removeContactNow_not_throw
      · cases h
      · cases h

theorem assemble_frame {cy : Cycle K} {s s' : State K} (h : assemble cy s = some s') : Frame s s' := by
  unfold assemble at h
  dsimp only at h
  split at h
  · cases h
  split at h
  · cases h
  split at h
  · cases h
  split at h
  · cases h
  split at h
  · cases h
  split at h
  · cases h
  cases h
  exact ⟨rfl, rfl, rfl, rfl, rfl, rfl⟩

/-- No call changes the robot held by the formulation. -/
theorem step_robot {nd : Bool} {W : World} {s s' : State K} {o : Op K} (hs : (step nd W s o).state? = some s') :
    s'.robot = s.robot := by
  by_cases hp : Plain o
  · exact (step_frame hp hs).robot
  · cases o with
    | removeRigidContact n dur =>
      simp only [step, void_state?, removeRigidContact] at hs
      simp only [Plain, not_not] at hp
      rw [if_pos hp] at hs
      split at hs
      · cases hs; rfl
      · split at hs <;> (cases hs; rfl)
    | compute cy t =>
      simp only [step, computeProblemData] at hs
      split at hs
      · next s1 u h1 =>
        have h := runTransitions_robot _ _ _ s1 (by rw [h1]; rfl)
        split at hs
        · next s2 h2 => cases hs; exact (assemble_frame h2).robot.trans h.1
        · cases hs
      · next s1 h1 =>
        have h := runTransitions_robot _ _ _ s1 (by rw [h1]; rfl)
        cases hs
        exact h.1
      · cases hs
      · cases hs
    | decode x =>
      simp only [step] at hs
      split at hs
      · next s1 h =>
        cases hs
        unfold decodeSolution at h
        split at h
        · cases h; rfl
        · split at h
          · cases h; rfl
          · cases h
      · cases hs
    | setContact cid u =>
      simp only [step] at hs
      split at hs
      · cases hs; rfl
      · cases hs; rfl
      · cases hs
      · cases hs
    | setAssociated tid n => simp only [step] at hs; cases hs; rfl
    | _ => exact absurd trivial hp

theorem run_robot {nd : Bool} {W : World} : ∀ (ops : List (Op K)) (s s' : State K),
    run nd W s ops = some s' → s'.robot = s.robot := by
  intro ops
  induction ops with
  | nil => intro s s' h; simp only [run, Option.some.injEq] at h; subst h; rfl
  | cons o os ih =>
    intro s s' h
    simp only [run] at h
    split at h
    · next s1 hs => exact (ih s1 s' h).trans (step_robot hs)
    · cases h

end Tsid.Formulation
