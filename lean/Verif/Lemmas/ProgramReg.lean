import Verif.Lemmas.Objects
import Verif.Lemmas.ProgramForm
import Verif.Spec.ProgramCost

/-!
# Force regularisation during a program

Reference force, weights and points of a contact object change only by the calls in the text of the program.
-/

set_option linter.unusedSectionVars false

namespace Tsid.Formulation

open Spec

variable {K : Type} [Field K] [LinearOrder K] [FloorRing K] [HasSqrt K]

/-- The contact object has these settings. -/
def HasReg (c : Contact K) (kind : ContactKind) (r : RegSettings K) : Prop :=
  ∃ p, Holds c.name kind c p ∧ p.fRef = r.ref ∧ p.regW = r.weights ∧ p.points = r.points ∧ p.regPoints = r.used

theorem hasReg_set {c c' : Contact K} {kind : ContactKind} {r : RegSettings K} (h : HasReg c kind r) {u : ContactSet K}
    (hs : (applySet c u).state? = some c') : HasReg c' kind (r.after kind u) := by
  obtain ⟨p, hp, h1, h2, h3, h4⟩ := h
  obtain ⟨k, -⟩ := holds_set hp u hs
  refine ⟨_, by rw [k.name]; exact k, ?_⟩
  clear k
  have hk := hp.kind
  cases u with
  | points P =>
    simp only [applySet, Contact.setContactPoints, hk] at hs ⊢
    cases kind with
    | point => cases hs
    | twoFrames => cases hs
    | sixD =>
      by_cases e1 : P.rows = 3
      · by_cases e2 : P.cols = 4
        · simp only [e1, e2, if_true, void, Res.threw, RegSettings.after, Params.set, and_self]
          exact ⟨h1, h2, rfl, h4⟩
        · simp only [e1, e2, if_true, if_false, void, Res.threw, RegSettings.after, and_false]
          exact ⟨h1, h2, h3, h4⟩
      · simp only [e1, if_false, void, Res.threw, RegSettings.after, false_and]
        exact ⟨h1, h2, h3, h4⟩
  | normal n => simp only [RegSettings.after, Params.set]; split_ifs <;> exact ⟨h1, h2, h3, h4⟩
  | friction m => simp only [RegSettings.after, Params.set]; split_ifs <;> exact ⟨h1, h2, h3, h4⟩
  | fMin m => simp only [RegSettings.after, Params.set]; split_ifs <;> exact ⟨h1, h2, h3, h4⟩
  | fMax m => simp only [RegSettings.after, Params.set]; split_ifs <;> exact ⟨h1, h2, h3, h4⟩
  | forceRef f =>
    simp only [applySet, Contact.setForceReference, hk] at hs ⊢
    cases kind with
    | sixD =>
      by_cases e : f.size = 6
      · simp only [e, if_true, Res.threw, RegSettings.after, Params.set, reduceCtorEq, false_and, if_false]
        exact ⟨trivial, h2, h3, h3⟩
      · simp only [e, if_false] at hs; cases hs
    | twoFrames =>
      by_cases e : f.size = 3
      · simp only [e, if_true, Res.threw, RegSettings.after, Params.set, reduceCtorEq, false_and, if_false]
        exact ⟨trivial, h2, h3, h3⟩
      · simp only [e, if_false] at hs; cases hs
    | point =>
      by_cases e : f.size = 3
      · simp only [e, if_true, Res.threw, RegSettings.after, Params.set, ne_eq, not_true_eq_false, and_false, if_false]
        exact ⟨rfl, h2, h3, h3⟩
      · simp only [e, if_false, Res.threw, RegSettings.after, ne_eq, not_false_eq_true, and_self, if_true]
        exact ⟨h1, h2, h3, h4⟩
  | regWeights w =>
    simp only [applySet, Contact.setRegularizationWeights, hk] at hs ⊢
    split at hs
    · next e =>
      rw [if_pos e]
      simp only [Res.threw, RegSettings.after, Params.set]
      exact ⟨h1, rfl, h3, h3⟩
    · cases hs

theorem runTransitions_reg {nd : Bool} {cid : Nat} {kind : ContactKind} {r : RegSettings K} :
    ∀ (l pre : List (Transition K)) (s s' : State K), HasReg (s.contactObj cid) kind r →
    (runTransitions nd pre l s).state? = some s' → HasReg (s'.contactObj cid) kind r := by
  intro l
  induction l with
  | nil =>
    intro pre s s' hd h
    simp only [runTransitions] at h
    cases h; exact hd
  | cons tr rest ih =>
    intro pre s s' hd h
    unfold runTransitions at h
    split at h
    · cases h
    split at h
    · split at h
      · next c' b hc =>
        refine ih _ { s with contactObj := Function.update s.contactObj tr.cid c' } _ ?_ h
        by_cases e : cid = tr.cid
        · subst e
          simp only [Function.update_self]
          exact hasReg_set hd (setMax_applySet hc)
        · simp only [Function.update_of_ne e]
          exact hd
      · cases h; exact hd
      · cases h
      · cases h
    · split at h
      · next s1 b hr =>
        cases h
        have := removeContactNow_frame (nd := nd) (s' := s1) (by rw [hr]; rfl)
        dsimp only
        rw [this.obj]
        exact hd
      · next s1 hr => exact absurd hr removeContactNow_not_throw
      · cases h
      · cases h

theorem compute_reg {nd : Bool} {cy : Cycle K} {t : K} {s s' : State K} {cid : Nat} {kind : ContactKind}
    {r : RegSettings K} (hd : HasReg (s.contactObj cid) kind r)
    (hs : (computeProblemData nd cy t s).state? = some s') : HasReg (s'.contactObj cid) kind r := by
  simp only [computeProblemData] at hs
  split at hs
  · next s1 u h1 =>
    have h := runTransitions_reg (nd := nd) s.trans [] { s with t := t } s1 hd (by rw [h1]; rfl)
    split at hs
    · next s2 h2 =>
      cases hs
      rw [(assemble_frame h2).obj]
      exact h
    · cases hs
  · next s1 h1 =>
    have h := runTransitions_reg (nd := nd) s.trans [] { s with t := t } s1 hd (by rw [h1]; rfl)
    cases hs
    exact h
  · cases hs
  · cases hs

/-- The calls on a contact object that one call on the formulation makes. -/
def setsOf (cid : Nat) : Op K → List (ContactSet K)
  | .setContact i u => if i = cid then [u] else []
  | _ => []

theorem step_reg {nd : Bool} {W : World} {s s' : State K} {o : Op K} {cid : Nat} {kind : ContactKind}
    {r : RegSettings K} (hd : HasReg (s.contactObj cid) kind r) (hs : (step nd W s o).state? = some s') :
    HasReg (s'.contactObj cid) kind (r.afterAll kind (setsOf cid o)) := by
  by_cases hp : Plain o
  · rw [(step_frame hp hs).obj]
    cases o <;> first | exact hd | exact absurd hp id
  · cases o with
    | removeRigidContact n dur =>
      simp only [step, void_state?, removeRigidContact] at hs
      simp only [Plain, not_not] at hp
      rw [if_pos hp] at hs
      split at hs
      · cases hs; exact hd
      · split at hs <;> (cases hs; exact hd)
    | compute cy t => exact compute_reg hd hs
    | decode x =>
      simp only [step] at hs
      split at hs
      · next s1 h =>
        cases hs
        unfold decodeSolution at h
        split at h
        · cases h; exact hd
        · split at h
          · cases h; exact hd
          · cases h
      · cases hs
    | setContact i u =>
      have key : ∀ c, (applySet (s.contactObj i) u).state? = some c →
          HasReg (Function.update s.contactObj i c cid) kind (r.afterAll kind (setsOf cid (.setContact i u))) := by
        intro c hc
        by_cases e : i = cid
        · subst e
          rw [Function.update_self]
          simp only [setsOf, if_true, RegSettings.afterAll]
          exact hasReg_set hd hc
        · rw [Function.update_of_ne (Ne.symm e)]
          simp only [setsOf, if_neg e, RegSettings.afterAll]
          exact hd
      simp only [step] at hs
      split at hs
      · next c _ h => cases hs; exact key c (by rw [h]; rfl)
      · next c h => cases hs; exact key c (by rw [h]; rfl)
      · cases hs
      · cases hs
    | setAssociated tid n => simp only [step] at hs; cases hs; exact hd
    | _ => exact absurd trivial hp

theorem afterAll_append {kind : ContactKind} : ∀ (a b : List (ContactSet K)) (r : RegSettings K),
    r.afterAll kind (a ++ b) = (r.afterAll kind a).afterAll kind b
  | [], _, _ => rfl
  | _ :: a, b, _ => afterAll_append a b _

theorem run_reg {nd : Bool} {W : World} {cid : Nat} {kind : ContactKind} : ∀ (ops : List (Op K)) (s s' : State K)
    (r : RegSettings K), HasReg (s.contactObj cid) kind r → run nd W s ops = some s' →
    HasReg (s'.contactObj cid) kind (r.afterAll kind (ops.flatMap (setsOf cid))) := by
  intro ops
  induction ops with
  | nil => intro s s' r hd h; simp only [run, Option.some.injEq] at h; subst h; exact hd
  | cons o os ih =>
    intro s s' r hd h
    simp only [run] at h
    split at h
    · next s1 hs =>
      rw [List.flatMap_cons, afterAll_append]
      exact ih s1 s' _ (step_reg hd hs) h
    · cases h

/-- The calls on a contact object in the text. -/
theorem setsOf_text {E : Program.Env K} {cid : Nat} : ∀ {ops : List (Program.Op K)} {s s' : Program.State K},
    Program.run E s ops = some s' → (formCalls E s ops).flatMap (setsOf cid) = contactSets cid ops
  | [], _, _, _ => rfl
  | o :: os, s, s', h => by
    simp only [Program.run] at h
    split at h
    · next s1 hs =>
      simp only [formCalls, hs, List.flatMap_append, setsOf_text h]
      cases o with
      | form o =>
        cases o with
        | setContact i u =>
          simp only [formCall, contactSets, List.flatMap_cons, setsOf, List.flatMap_nil, List.append_nil]
          split <;> rfl
        | _ => rfl
      | _ => rfl
    · cases h

end Tsid.Formulation
