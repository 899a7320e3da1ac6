import Verif.Lemmas.Frame
import Verif.Spec.Cycle
import Mathlib.Algebra.BigOperators.Group.List.Basic

/-!
# Concatenation of histories, measured forces over histories
-/

set_option linter.unusedSectionVars false

namespace Tsid.Formulation

open Spec

variable {K : Type} [Field K] [LinearOrder K] [HasSqrt K]

theorem run_append {nd : Bool} {W : World} : ∀ (a b : List (Op K)) (s s1 : State K), run nd W s a = some s1 →
    run nd W s (a ++ b) = run nd W s1 b := by
  intro a
  induction a with
  | nil => intro b s s1 h; simp only [run, Option.some.injEq] at h; subst h; rfl
  | cons o os ih =>
    intro b s s1 h
    simp only [run, List.cons_append] at h ⊢
    split at h
    · next s2 hs => exact ih b s2 s1 h
    · cases h

theorem run_append_some {nd : Bool} {W : World} : ∀ (a b : List (Op K)) (s s2 : State K),
    run nd W s (a ++ b) = some s2 → ∃ s1, run nd W s a = some s1 ∧ run nd W s1 b = some s2 := by
  intro a
  induction a with
  | nil => intro b s s2 h; exact ⟨s, rfl, h⟩
  | cons o os ih =>
    intro b s s2 h
    simp only [run, List.cons_append] at h ⊢
    split at h
    · next s' hs => exact ih b s' s2 h
    · cases h

theorem outcomes_append {nd : Bool} {W : World} : ∀ (a b : List (Op K)) (s s1 : State K), run nd W s a = some s1 →
    outcomes nd W s (a ++ b) = outcomes nd W s a ++ outcomes nd W s1 b := by
  intro a
  induction a with
  | nil => intro b s s1 h; simp only [run, Option.some.injEq] at h; subst h; rfl
  | cons o os ih =>
    intro b s s1 h
    simp only [run, List.cons_append, outcomes] at h ⊢
    split at h
    · next s2 hs => simp only [hs, ih b s2 s1 h]
    · cases h

theorem along_append {nd : Bool} {W : World} {G : State K → Op K → Prop} : ∀ (a b : List (Op K)) (s s1 : State K),
    run nd W s a = some s1 → (Along nd W G s (a ++ b) ↔ Along nd W G s a ∧ Along nd W G s1 b) := by
  intro a
  induction a with
  | nil => intro b s s1 h; simp only [run, Option.some.injEq] at h; subst h; simp [Along]
  | cons o os ih =>
    intro b s s1 h
    simp only [run, List.cons_append, Along] at h ⊢
    split at h
    · next s2 hs => simp only [hs, ih b s2 s1 h, and_assoc]
    · cases h

/-- Splitting a tidy history. -/
theorem tidy_append {nd : Bool} {W : World} {robot : Robot K} {obj : Nat → Contact K} {assoc : Nat → String}
    {a b : List (Op K)} {s2 : State K} (h : TidyRun nd W robot obj assoc (a ++ b) s2) :
    ∃ s1, TidyRun nd W robot obj assoc a s1 ∧ run nd W s1 b = some s2 ∧ Along nd W (Tidy W) s1 b ∧
      registrations nd W robot obj assoc (a ++ b) =
        (registrations nd W robot obj assoc a).after W (fun c => (obj c).name) (outcomes nd W s1 b) := by
  obtain ⟨s1, h1, h2⟩ := run_append_some a b _ _ h.run
  have ht := (along_append a b _ s1 h1).1 h.tidy
  refine ⟨s1, ⟨h.hygienic, h.motors, h.built, h1, ht.1⟩, h2, ht.2, ?_⟩
  unfold registrations Registry.after
  rw [outcomes_append a b _ s1 h1, List.foldl_append]

theorem removeContactNow_measured {nd : Bool} {s s' : State K} {n : String}
    (h : (removeContactNow nd s n).state? = some s') : s'.measured = s.measured := by
  unfold removeContactNow at h
  dsimp only at h
  split at h
  · cases h
  · split at h
    · cases h
    · split at h <;> (cases h; rfl)

theorem runTransitions_measured {nd : Bool} : ∀ (l pre : List (Transition K)) (s s' : State K),
    (runTransitions nd pre l s).state? = some s' → s'.measured = s.measured := by
  intro l
  induction l with
  | nil => intro pre s s' h; simp only [runTransitions] at h; cases h; rfl
  | cons tr rest ih =>
    intro pre s s' h
    unfold runTransitions at h
    split at h
    · cases h
    split at h
    · split at h
      · have := ih _ _ _ h; exact this
      · cases h; rfl
      · cases h
      · cases h
    · split at h
      · next s1 b hr => cases h; exact removeContactNow_measured (nd := nd) (s' := s1) (by rw [hr]; rfl)
      · next s1 hr => exact absurd hr removeContactNow_not_throw
      · cases h
      · cases h

theorem assemble_measured {cy : Cycle K} {s s' : State K} (h : assemble cy s = some s') :
    s'.measured = s.measured := by
  unfold assemble at h
  dsimp only at h
  split at h
  · cases h
  split at h
  · cases h
  split at h
  · cases h
  split at h
  · cases h
  split at h
  · cases h
  split at h
  · cases h
  cases h
  rfl

theorem addTask_measured {W : World} {s s1 : State K} {tid p : Nat} {w : K} {id : Nat}
    (h : addTask W s tid w p = some (s1, id)) : s1.measured = s.measured := by
  unfold addTask at h
  dsimp only at h
  split at h
  · cases h
  · cases h; rfl

theorem step_measured {nd : Bool} {W : World} {s s' : State K} {o : Op K} (hs : (step nd W s o).state? = some s') :
    s'.measured = measuredAfter W [o] s.measured := by
  cases o with
  | addMotionTask tid w p dur =>
    simp only [step, void_state?, addMotionTask] at hs
    split at hs
    · split at hs
      · split at hs
        · cases hs
        · next h => have := addTask_measured h; cases hs; exact this
      · cases hs; rfl
    · cases hs; rfl
  | addForceTask tid w p dur =>
    simp only [step, void_state?, addForceTask] at hs
    split at hs
    · split at hs
      · split at hs
        · cases hs
        · next h => have := addTask_measured h; cases hs; exact this
      · cases hs; rfl
    · cases hs; rfl
  | addActuationTask tid w p dur =>
    simp only [step, void_state?, addActuationTask] at hs
    split at hs
    · split at hs
      · split at hs
        · cases hs
        · next h => have := addTask_measured h; cases hs; exact this
      · cases hs; rfl
    · cases hs; rfl
  | updateTaskWeight n w =>
    simp only [step, void_state?, updateTaskWeight] at hs
    split at hs <;> (cases hs; rfl)
  | addRigidContact cid wf wm p =>
    simp only [step, void_state?, addRigidContact] at hs
    split at hs
    · cases hs
    · split at hs
      · cases hs
      · split at hs
        · cases hs
        · cases hs; rfl
  | updateRigidContactWeights n wf wm =>
    simp only [step, void_state?, updateRigidContactWeights] at hs
    split at hs <;> (cases hs; rfl)
  | addMeasuredForce m =>
    simp only [step, void_state?, addMeasuredForce] at hs
    cases hs; rfl
  | removeMeasuredForce n =>
    simp only [step, void_state?, removeMeasuredForce] at hs
    split at hs
    · cases hs; rfl
    · next hn =>
      cases hs
      simp only [measuredAfter]
      rw [List.eraseP_of_forall_not]
      intro m hm hm'
      exact hn (List.any_eq_true.2 ⟨m, hm, hm'⟩)
  | removeTask n =>
    simp only [step, void_state?] at hs
    unfold removeTask at hs
    dsimp only at hs
    split at hs
    · cases hs
    split at hs
    · cases hs
      simp only [measuredAfter]
      split
      · split <;> rfl
      · rfl
    split at hs
    · cases hs; rfl
    split at hs
    · cases hs
      simp only [measuredAfter]
      split
      · split <;> rfl
      · rfl
    · cases hs; rfl
  | removeRigidContact n dur =>
    simp only [step, void_state?, removeRigidContact] at hs
    split at hs
    · split at hs
      · cases hs; rfl
      · split at hs <;> (cases hs; rfl)
    · exact removeContactNow_measured hs
  | removeFromHqpData n => simp only [step] at hs; cases hs; rfl
  | resizeHqpData => simp only [step] at hs; cases hs; rfl
  | compute cy t =>
    simp only [step, computeProblemData] at hs
    split at hs
    · next s1 u h1 =>
      have h := runTransitions_measured _ _ _ s1 (by rw [h1]; rfl)
      split at hs
      · next s2 h2 => cases hs; exact (assemble_measured h2).trans h
      · cases hs
    · next s1 h1 =>
      have h := runTransitions_measured _ _ _ s1 (by rw [h1]; rfl)
      cases hs
      exact h
    · cases hs
    · cases hs
  | decode x =>
    simp only [step] at hs
    split at hs
    · next s1 h =>
      cases hs
      unfold decodeSolution at h
      split at h
      · cases h; rfl
      · split at h
        · cases h; rfl
        · cases h
    · cases hs
  | setContact cid u =>
    simp only [step] at hs
    split at hs
    · cases hs; rfl
    · cases hs; rfl
    · cases hs
    · cases hs
  | setAssociated tid n => simp only [step] at hs; cases hs; rfl

theorem measuredAfter_cons (W : World) (o : Op K) (os : List (Op K)) (l : List Nat) :
    measuredAfter W (o :: os) l = measuredAfter W os (measuredAfter W [o] l) := by
  cases o <;> simp [measuredAfter]

theorem run_measured {nd : Bool} {W : World} : ∀ (ops : List (Op K)) (s s' : State K),
    run nd W s ops = some s' → s'.measured = measuredAfter W ops s.measured := by
  intro ops
  induction ops with
  | nil => intro s s' h; simp only [run, Option.some.injEq] at h; subst h; rfl
  | cons o os ih =>
    intro s s' h
    simp only [run] at h
    split at h
    · next s1 hs => rw [ih s1 s' h, step_measured hs, ← measuredAfter_cons]
    · cases h

end Tsid.Formulation
