import Verif.Example.Demo
import Verif.Spec.Registry

/-!
# The concrete scenario respects the naming discipline
-/

namespace Tsid.Demo

open Formulation Spec

/-- Executable check that a name is not reserved. -/
def freeName (n : String) : Bool :=
  decide (n ≠ "base-dynamics" ∧ ¬ "_motion_task".toList <:+ n.toList ∧
    ¬ "_force_constraint".toList <:+ n.toList ∧ ¬ "_force_reg_task".toList <:+ n.toList)

theorem freeName_spec {n : String} (h : freeName n = true) : ¬ Reserved n := by
  obtain ⟨h1, h2, h3, h4⟩ := of_decide_eq_true h
  rintro (e | ⟨m, e | e | e⟩)
  · exact h1 e
  · exact h2 ⟨m.toList, by rw [e, String.toList_append]⟩
  · exact h3 ⟨m.toList, by rw [e, String.toList_append]⟩
  · exact h4 ⟨m.toList, by rw [e, String.toList_append]⟩

theorem hygienic : Hygienic world := by
  intro tid
  rcases tid with _ | _ | _ | _ | _ | _ | tid
  · exact ⟨rfl, freeName_spec (by decide +kernel)⟩
  · exact ⟨rfl, freeName_spec (by decide +kernel)⟩
  · exact ⟨rfl, freeName_spec (by decide +kernel)⟩
  · exact ⟨rfl, freeName_spec (by decide +kernel)⟩
  · exact ⟨rfl, freeName_spec (by decide +kernel)⟩
  · exact ⟨rfl, freeName_spec (by decide +kernel)⟩
  · exact ⟨rfl, freeName_spec (show freeName "force-bound" = true by decide +kernel)⟩

/-- Executable check of `Tidy`. -/
def tidyCheck (s : State ℚ) : Op ℚ → Bool
  | .addMotionTask tid _ _ _ | .addForceTask tid _ _ _ | .addActuationTask tid _ _ _ =>
    (s.motions ++ (s.forces ++ s.acts)).all fun tl => (world.task tl.tid).name != (world.task tid).name
  | .addRigidContact cid _ _ _ => s.contacts.all fun cl => (s.contactObj cl.cid).name != (s.contactObj cid).name
  | .removeTask n => freeName n
  | .removeFromHqpData _ => false
  | _ => true

theorem tidyCheck_spec {s : State ℚ} {o : Op ℚ} (h : tidyCheck s o = true) : Tidy world s o := by
  cases o <;> simp only [tidyCheck, List.all_eq_true, bne_iff_ne] at h <;> simp only [Tidy] <;>
    first | exact h | exact freeName_spec h | trivial

/-- Executable check of a condition along a history. -/
def alongCheck (g : State ℚ → Op ℚ → Bool) : State ℚ → List (Op ℚ) → Bool
  | _, [] => true
  | s, o :: os => g s o && match (step false world s o).state? with
    | some s' => alongCheck g s' os
    | none => true

theorem alongCheck_spec {g : State ℚ → Op ℚ → Bool} {G : State ℚ → Op ℚ → Prop}
    (hg : ∀ s o, g s o = true → G s o) : ∀ (ops : List (Op ℚ)) (s : State ℚ), alongCheck g s ops = true →
    Along false world G s ops := by
  intro ops
  induction ops with
  | nil => intro s _; trivial
  | cons o os ih =>
    intro s h
    simp only [alongCheck, Bool.and_eq_true] at h
    refine ⟨hg _ _ h.1, ?_⟩
    have h2 := h.2
    cases hs : (step false world s o).state? with
    | none => trivial
    | some s' => rw [hs] at h2; exact ih s' h2

/-- The history is tidy, and `p` holds after it. -/
def tidyAfter (ops : List (Op ℚ)) (p : State ℚ → Bool) : Bool :=
  alongCheck tidyCheck start ops && afterRun ops p

theorem tidyAfter_exists {ops : List (Op ℚ)} {p : State ℚ → Bool} (h : tidyAfter ops p = true) :
    ∃ s, TidyRun false world robot contacts assoc ops s ∧ p s = true := by
  simp only [tidyAfter, Bool.and_eq_true] at h
  obtain ⟨s, h1, -, h3⟩ := afterRun_exists h.2
  refine ⟨s, ⟨hygienic, by decide, contacts_built, h1, alongCheck_spec (fun _ _ => tidyCheck_spec) _ _ h.1⟩,
    h3⟩

/-- The history is tidy, and `p` holds of the state before and after a successful control cycle that follows it. -/
def tidyCycle (ops : List (Op ℚ)) (cy : Cycle ℚ) (t : ℚ) (p : State ℚ → State ℚ → Bool) : Bool :=
  tidyAfter ops fun s0 => match computeProblemData false cy t s0 with
    | .ok s _ => p s0 s
    | _ => false

theorem tidyCycle_exists {ops : List (Op ℚ)} {cy : Cycle ℚ} {t : ℚ} {p : State ℚ → State ℚ → Bool}
    (h : tidyCycle ops cy t p = true) :
    ∃ s0 s, TidyRun false world robot contacts assoc ops s0 ∧ computeProblemData false cy t s0 = .ok s () ∧
      p s0 s = true := by
  obtain ⟨s0, h1, h2⟩ := tidyAfter_exists h
  split at h2
  · next s u hc => exact ⟨s0, s, h1, hc, h2⟩
  · cases h2

/-- Executable check of `NoReassociation`. -/
def noReassociation (s : State ℚ) : Op ℚ → Bool
  | .setAssociated tid n => s.assoc tid == n || s.forces.all fun tl => tl.tid != tid
  | _ => true

theorem noReassociation_spec {s : State ℚ} {o : Op ℚ} (h : noReassociation s o = true) : NoReassociation s o := by
  cases o <;> simp only [noReassociation, NoReassociation] at h ⊢
  simpa using h

end Tsid.Demo
