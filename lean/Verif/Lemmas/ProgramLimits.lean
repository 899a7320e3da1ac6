import Verif.Lemmas.ProgramReg
import Verif.Spec.ProgramExact

/-!
# Limits of contact forces during a program

Normal and friction coefficient of a contact object change only by the calls in the text of the program, the limits of
the normal force only by these calls and by gradual removals.
-/

set_option linter.unusedSectionVars false

namespace Tsid.Formulation

open Spec

variable {K : Type} [Field K] [LinearOrder K] [FloorRing K] [HasSqrt K]

/-- A setter changes the limits as the specification says. -/
theorem limits_set {c c' : Contact K} {u : ContactSet K} (hs : (applySet c u).state? = some c') :
    c'.kind = c.kind ∧ ForceLimits.of c' = (ForceLimits.of c).after c.kind u := by
  obtain ⟨cn, ck, cpts, cnor, cmu, cmin, cmax, crw, cfr, cg, ci, cr⟩ := c
  cases u with
  | points P =>
    simp only [applySet, void_state?, Contact.setContactPoints] at hs
    cases ck
    · cases hs
    · dsimp only at hs
      split at hs
      · split at hs <;> (cases hs; exact ⟨rfl, rfl⟩)
      · cases hs; exact ⟨rfl, rfl⟩
    · cases hs
  | normal n =>
    simp only [applySet, void_state?, Contact.setContactNormal] at hs
    cases ck
    case twoFrames => cases hs; exact ⟨rfl, rfl⟩
    all_goals
      dsimp only at hs
      split at hs
      · next e =>
        cases hs
        refine ⟨rfl, ?_⟩
        simp only [ForceLimits.after, e, ne_eq, not_true_eq_false, reduceCtorEq, or_self, if_false]
        rfl
      · next e =>
        cases hs
        refine ⟨rfl, ?_⟩
        simp only [ForceLimits.after, e, ne_eq, not_false_eq_true, or_true, if_true]
  | friction m =>
    simp only [applySet, void_state?, Contact.setFrictionCoefficient] at hs
    cases ck
    case twoFrames => cases hs; exact ⟨rfl, rfl⟩
    all_goals
      dsimp only at hs
      split at hs
      · next e =>
        cases hs
        refine ⟨rfl, ?_⟩
        simp only [ForceLimits.after, not_le.2 e, reduceCtorEq, or_self, if_false]
        rfl
      · next e =>
        cases hs
        refine ⟨rfl, ?_⟩
        simp only [ForceLimits.after, not_lt.1 e, or_true, if_true]
  | fMin m =>
    simp only [applySet, void_state?, Contact.setMinNormalForce] at hs
    cases ck
    case twoFrames => cases hs; exact ⟨rfl, rfl⟩
    all_goals
      dsimp only at hs
      split at hs
      · next e =>
        cases hs
        refine ⟨rfl, ?_⟩
        simp only [ForceLimits.after, ForceLimits.of, e, and_self, or_true, if_true]
      · next e =>
        cases hs
        refine ⟨rfl, ?_⟩
        simp only [ForceLimits.after, ForceLimits.of, e, reduceCtorEq, or_self, if_false]
  | fMax m =>
    simp only [applySet, void_state?, Contact.setMaxNormalForce] at hs
    cases ck
    case twoFrames => cases hs; exact ⟨rfl, rfl⟩
    all_goals
      dsimp only at hs
      split at hs
      · next e =>
        cases hs
        refine ⟨rfl, ?_⟩
        simp only [ForceLimits.after, ForceLimits.of, e, or_true, if_true]
      · next e =>
        cases hs
        refine ⟨rfl, ?_⟩
        simp only [ForceLimits.after, ForceLimits.of, e, reduceCtorEq, or_self, if_false]
  | forceRef f =>
    simp only [applySet, Contact.setForceReference] at hs
    cases ck <;> dsimp only at hs <;> split at hs <;> cases hs <;> exact ⟨rfl, rfl⟩
  | regWeights w =>
    simp only [applySet, Contact.setRegularizationWeights] at hs
    split at hs
    · cases hs
      cases ck <;> exact ⟨rfl, rfl⟩
    · cases hs

/-- Normal and friction coefficient after a call depend on the earlier ones only. -/
theorem after_friction {kind : ContactKind} {p q : ForceLimits K} (h1 : p.normal = q.normal) (h2 : p.mu = q.mu)
    (u : ContactSet K) : (p.after kind u).normal = (q.after kind u).normal ∧ (p.after kind u).mu = (q.after kind u).mu := by
  cases u <;> simp only [ForceLimits.after] <;> (try split_ifs) <;> first | exact ⟨h1, h2⟩ | exact ⟨rfl, h2⟩ | exact ⟨h1, rfl⟩

/-- What is known of the limits of a contact: all of them if `q`, otherwise normal and friction coefficient. -/
def HasLimits (q : Bool) (c : Contact K) (kind : ContactKind) (p : ForceLimits K) : Prop :=
  c.kind = kind ∧ c.normal = p.normal ∧ c.mu = p.mu ∧ (q = true → c.fMin = p.fMin ∧ c.fMax = p.fMax)

theorem hasLimits_set {q : Bool} {c c' : Contact K} {kind : ContactKind} {p : ForceLimits K} (h : HasLimits q c kind p)
    {u : ContactSet K} (hs : (applySet c u).state? = some c') : HasLimits q c' kind (p.after kind u) := by
  obtain ⟨h1, h2, h3, h4⟩ := h
  obtain ⟨k1, k2⟩ := limits_set hs
  rw [h1] at k2
  obtain ⟨a1, a2⟩ := after_friction (kind := kind) (p := ForceLimits.of c) (q := p) h2 h3 u
  have e1 : c'.normal = (ForceLimits.of c').normal := rfl
  have e2 : c'.mu = (ForceLimits.of c').mu := rfl
  refine ⟨k1.trans h1, by rw [e1, k2, a1], by rw [e2, k2, a2], fun hq => ?_⟩
  obtain ⟨h5, h6⟩ := h4 hq
  have : ForceLimits.of c = p := by
    cases p
    simp only at h2 h3 h5 h6
    simp only [ForceLimits.of, h2, h3, h5, h6]
  rw [this] at k2
  exact ⟨congrArg ForceLimits.fMin k2, congrArg ForceLimits.fMax k2⟩

theorem runTransitions_limits {nd q : Bool} {cid : Nat} {kind : ContactKind} {p : ForceLimits K} :
    ∀ (l pre : List (Transition K)) (s s' : State K), (q = true → l = [] ∧ s.trans = []) →
    HasLimits q (s.contactObj cid) kind p → (runTransitions nd pre l s).state? = some s' →
    HasLimits q (s'.contactObj cid) kind p ∧ (q = true → s'.trans = []) := by
  intro l
  induction l with
  | nil =>
    intro pre s s' hq hd h
    simp only [runTransitions] at h
    cases h
    exact ⟨hd, fun e => (hq e).2⟩
  | cons tr rest ih =>
    intro pre s s' hq hd h
    have hf : q = false := by
      cases q with
      | false => rfl
      | true => exact absurd (hq rfl).1 (by simp)
    subst hf
    refine ⟨?_, fun e => (by cases e)⟩
    unfold runTransitions at h
    split at h
    · cases h
    split at h
    · split at h
      · next c' b hc =>
        refine (ih _ { s with contactObj := Function.update s.contactObj tr.cid c' } _ (fun e => (by cases e)) ?_ h).1
        by_cases e : cid = tr.cid
        · subst e
          simp only [Function.update_self]
          have := hasLimits_set hd (setMax_applySet hc)
          obtain ⟨k1, k2, k3, -⟩ := this
          have a : ∀ m, (p.after kind (.fMax m)).normal = p.normal ∧ (p.after kind (.fMax m)).mu = p.mu := by
            intro m; simp only [ForceLimits.after]; split_ifs <;> exact ⟨rfl, rfl⟩
          exact ⟨k1, k2.trans (a _).1, k3.trans (a _).2, fun e => (by cases e)⟩
        · simp only [Function.update_of_ne e]
          exact hd
      · cases h; exact hd
      · cases h
      · cases h
    · split at h
      · next s1 b hr =>
        cases h
        have := removeContactNow_frame (nd := nd) (s' := s1) (by rw [hr]; rfl)
        dsimp only
        rw [this.obj]
        exact hd
      · next s1 hr => exact absurd hr removeContactNow_not_throw
      · cases h
      · cases h

theorem compute_limits {nd q : Bool} {cy : Cycle K} {t : K} {s s' : State K} {cid : Nat} {kind : ContactKind}
    {p : ForceLimits K} (ht : q = true → s.trans = []) (hd : HasLimits q (s.contactObj cid) kind p)
    (hs : (computeProblemData nd cy t s).state? = some s') :
    HasLimits q (s'.contactObj cid) kind p ∧ (q = true → s'.trans = []) := by
  simp only [computeProblemData] at hs
  split at hs
  · next s1 u h1 =>
    have h := runTransitions_limits (nd := nd) s.trans [] { s with t := t } s1 (fun e => ⟨ht e, ht e⟩) hd (by rw [h1]; rfl)
    split at hs
    · next s2 h2 =>
      cases hs
      rw [(assemble_frame h2).obj, (assemble_frame h2).trans]
      exact h
    · cases hs
  · next s1 h1 =>
    have h := runTransitions_limits (nd := nd) s.trans [] { s with t := t } s1 (fun e => ⟨ht e, ht e⟩) hd (by rw [h1]; rfl)
    cases hs
    exact h
  · cases hs
  · cases hs

/-- The call is not a gradual removal. -/
def Abrupt : Op K → Prop
  | .removeRigidContact _ dur => ¬ 0 < dur
  | _ => True

theorem step_limits {nd q : Bool} {W : World} {s s' : State K} {o : Op K} {cid : Nat} {kind : ContactKind}
    {p : ForceLimits K} (ho : q = true → Abrupt o) (ht : q = true → s.trans = [])
    (hd : HasLimits q (s.contactObj cid) kind p) (hs : (step nd W s o).state? = some s') :
    HasLimits q (s'.contactObj cid) kind (p.afterAll kind (setsOf cid o)) ∧ (q = true → s'.trans = []) := by
  by_cases hp : Plain o
  · rw [(step_frame hp hs).obj, (step_frame hp hs).trans]
    refine ⟨?_, ht⟩
    cases o <;> first | exact hd | exact absurd hp id
  · cases o with
    | removeRigidContact n dur =>
      simp only [Plain, not_not] at hp
      have hf : q = false := by
        cases q with
        | false => rfl
        | true => exact absurd hp (ho rfl)
      subst hf
      refine ⟨?_, fun e => (by cases e)⟩
      simp only [step, void_state?, removeRigidContact] at hs
      rw [if_pos hp] at hs
      split at hs
      · cases hs; exact hd
      · split at hs <;> (cases hs; exact hd)
    | compute cy t => exact compute_limits ht hd hs
    | decode x =>
      simp only [step] at hs
      split at hs
      · next s1 h =>
        cases hs
        unfold decodeSolution at h
        split at h
        · cases h; exact ⟨hd, ht⟩
        · split at h
          · cases h; exact ⟨hd, ht⟩
          · cases h
      · cases hs
    | setContact i u =>
      have key : ∀ c, (applySet (s.contactObj i) u).state? = some c →
          HasLimits q (Function.update s.contactObj i c cid) kind (p.afterAll kind (setsOf cid (.setContact i u))) := by
        intro c hc
        by_cases e : i = cid
        · subst e
          rw [Function.update_self]
          simp only [setsOf, if_true, ForceLimits.afterAll]
          exact hasLimits_set hd hc
        · rw [Function.update_of_ne (Ne.symm e)]
          simp only [setsOf, if_neg e, ForceLimits.afterAll]
          exact hd
      simp only [step] at hs
      split at hs
      · next c _ h => cases hs; exact ⟨key c (by rw [h]; rfl), ht⟩
      · next c h => cases hs; exact ⟨key c (by rw [h]; rfl), ht⟩
      · cases hs
      · cases hs
    | setAssociated tid n => simp only [step] at hs; cases hs; exact ⟨hd, ht⟩
    | _ => exact absurd trivial hp

theorem limits_append {kind : ContactKind} : ∀ (a b : List (ContactSet K)) (p : ForceLimits K),
    p.afterAll kind (a ++ b) = (p.afterAll kind a).afterAll kind b
  | [], _, _ => rfl
  | _ :: a, b, _ => limits_append a b _

theorem run_limits {nd q : Bool} {W : World} {cid : Nat} {kind : ContactKind} : ∀ (ops : List (Op K)) (s s' : State K)
    (p : ForceLimits K), (q = true → ∀ o ∈ ops, Abrupt o) → (q = true → s.trans = []) →
    HasLimits q (s.contactObj cid) kind p → run nd W s ops = some s' →
    HasLimits q (s'.contactObj cid) kind (p.afterAll kind (ops.flatMap (setsOf cid))) ∧ (q = true → s'.trans = []) := by
  intro ops
  induction ops with
  | nil => intro s s' p _ ht hd h; simp only [run, Option.some.injEq] at h; subst h; exact ⟨hd, ht⟩
  | cons o os ih =>
    intro s s' p ho ht hd h
    simp only [run] at h
    split at h
    · next s1 hs =>
      rw [List.flatMap_cons, limits_append]
      obtain ⟨k1, k2⟩ := step_limits (fun e => ho e o List.mem_cons_self) ht hd hs
      exact ih s1 s' _ (fun e o' h' => ho e o' (List.mem_cons_of_mem _ h')) k2 k1 h
    · cases h

/-- The calls on the formulation are not gradual removals. -/
theorem abrupt_text {E : Program.Env K} : ∀ {ops : List (Program.Op K)} {s : Program.State K}, NoGradualRemoval ops →
    ∀ o ∈ formCalls E s ops, Abrupt o
  | [], _, _, o, h => by simp only [formCalls, List.not_mem_nil] at h
  | a :: os, s, hn, o, h => by
    simp only [formCalls, List.mem_append] at h
    rcases h with h | h
    · cases a with
      | form o' =>
        simp only [formCall, List.mem_singleton] at h
        subst h
        cases o with
        | removeRigidContact n dur => exact hn n dur List.mem_cons_self
        | _ => trivial
      | associate tid cid n => simp only [formCall, List.mem_singleton] at h; subst h; trivial
      | compute w t => simp only [formCall, List.mem_singleton] at h; subst h; trivial
      | _ => simp only [formCall, List.not_mem_nil] at h
    · split at h
      · exact abrupt_text (fun n dur hm => hn n dur (List.mem_cons_of_mem _ hm)) o h
      · cases h

end Tsid.Formulation
