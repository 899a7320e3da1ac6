import Verif.Lemmas.Frame
import Verif.Lemmas.ContactSetters

/-!
# Contact objects held by the formulation

Calls change a contact object only through its setters, so it stays the object described by its parameters.
-/

set_option linter.unusedSectionVars false

namespace Tsid.Formulation

open Spec

variable {K : Type} [Field K] [LinearOrder K] [HasSqrt K]

/-- The contact objects are those described by some parameters. -/
def Described (s : State K) : Prop := ∀ cid, ∃ p, Holds (s.contactObj cid).name (s.contactObj cid).kind (s.contactObj cid) p

theorem described_set {s : State K} (h : Described s) {cid : Nat} {c : Contact K} {u : ContactSet K}
    (hu : (applySet (s.contactObj cid) u).state? = some c) :
    ∀ d, ∃ p, Holds (Function.update s.contactObj cid c d).name (Function.update s.contactObj cid c d).kind
      (Function.update s.contactObj cid c d) p := by
  intro d
  by_cases e : d = cid
  · subst e
    rw [Function.update_self]
    obtain ⟨p, hp⟩ := h d
    have k := (holds_set hp u hu).1
    exact ⟨_, by rw [k.name, k.kind]; exact k⟩
  · rw [Function.update_of_ne e]
    exact h d

theorem setMax_applySet {c c' : Contact K} {m : K} {b : Bool} (h : c.setMaxNormalForce m = .ok c' b) :
    (applySet c (.fMax m)).state? = some c' := by
  simp only [applySet, h, void]
  rfl

theorem runTransitions_described {nd : Bool} : ∀ (l pre : List (Transition K)) (s s' : State K), Described s →
    (runTransitions nd pre l s).state? = some s' → Described s' := by
  intro l
  induction l with
  | nil =>
    intro pre s s' hd h
    simp only [runTransitions] at h
    cases h; exact hd
  | cons tr rest ih =>
    intro pre s s' hd h
    unfold runTransitions at h
    split at h
    · cases h
    split at h
    · split at h
      · next c' b hc =>
        exact ih _ { s with contactObj := Function.update s.contactObj tr.cid c' } _
          (described_set hd (setMax_applySet hc)) h
      · cases h; exact hd
      · cases h
      · cases h
    · split at h
      · next s1 b hr =>
        cases h
        have := removeContactNow_frame (nd := nd) (s' := s1) (by rw [hr]; rfl)
        unfold Described
        dsimp only
        rw [this.obj]
        exact hd
      · next s1 hr => exact absurd hr removeContactNow_not_throw
      · cases h
      · cases h

theorem compute_described {nd : Bool} {cy : Cycle K} {t : K} {s s' : State K} (hd : Described s)
    (hs : (computeProblemData nd cy t s).state? = some s') : Described s' := by
  simp only [computeProblemData] at hs
  split at hs
  · next s1 u h1 =>
    have h := runTransitions_described (nd := nd) s.trans [] { s with t := t } s1 hd (by rw [h1]; rfl)
    split at hs
    · next s2 h2 =>
      cases hs
      unfold Described
      rw [(assemble_frame h2).obj]
      exact h
    · cases hs
  · next s1 h1 =>
    have h := runTransitions_described (nd := nd) s.trans [] { s with t := t } s1 hd (by rw [h1]; rfl)
    cases hs
    exact h
  · cases hs
  · cases hs

theorem step_described {nd : Bool} {W : World} {s s' : State K} {o : Op K} (hd : Described s)
    (hs : (step nd W s o).state? = some s') : Described s' := by
  by_cases hp : Plain o
  · unfold Described
    rw [(step_frame hp hs).obj]
    exact hd
  · cases o with
    | removeRigidContact n dur =>
      simp only [step, void_state?, removeRigidContact] at hs
      simp only [Plain, not_not] at hp
      rw [if_pos hp] at hs
      split at hs
      · cases hs; exact hd
      · split at hs <;> (cases hs; exact hd)
    | compute cy t => exact compute_described hd hs
    | decode x =>
      simp only [step] at hs
      split at hs
      · next s1 h =>
        cases hs
        unfold decodeSolution at h
        split at h
        · cases h; exact hd
        · split at h
          · cases h; exact hd
          · cases h
      · cases hs
    | setContact cid u =>
      simp only [step] at hs
      split at hs
      · next c _ h => cases hs; exact described_set hd (u := u) (by rw [h]; rfl)
      · next c h => cases hs; exact described_set hd (u := u) (by rw [h]; rfl)
      · cases hs
      · cases hs
    | setAssociated tid n => simp only [step] at hs; cases hs; exact hd
    | _ => exact absurd trivial hp

theorem run_described {nd : Bool} {W : World} : ∀ (ops : List (Op K)) (s s' : State K), Described s →
    run nd W s ops = some s' → Described s' := by
  intro ops
  induction ops with
  | nil => intro s s' hd h; simp only [run, Option.some.injEq] at h; subst h; exact hd
  | cons o os ih =>
    intro s s' hd h
    simp only [run] at h
    split at h
    · next s1 hs => exact ih s1 s' (step_described hd hs) h
    · cases h

theorem init_described {robot : Robot K} {obj : Nat → Contact K} {assoc : Nat → String}
    (hobj : ∀ cid, ∃ name kind points normal mu fMin fMax, obj cid = Contact.new name kind points normal mu fMin fMax) :
    Described (init robot obj assoc) := by
  intro cid
  obtain ⟨name, kind, points, normal, mu, fMin, fMax, e⟩ := hobj cid
  show ∃ p, Holds (obj cid).name (obj cid).kind (obj cid) p
  have k := holds_new name kind points normal mu fMin fMax
  rw [← e] at k
  exact ⟨_, by rw [k.name, k.kind]; exact k⟩

end Tsid.Formulation
