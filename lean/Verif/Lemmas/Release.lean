import Verif.Spec.Release
import Verif.Lemmas.ProgramLimits
import Verif.Lemmas.Transitions

/-!
# One pending break

While a single break is pending and nobody interferes, only the maximum normal force of its contact changes.
-/

set_option linter.unusedSectionVars false

namespace Tsid.Formulation

open Spec

variable {K : Type} [Field K] [LinearOrder K] [FloorRing K] [HasSqrt K]

/-- A cycle before the end of the only pending break. -/
theorem compute_quiet {nd : Bool} {cy : Cycle K} {t : K} {s s' : State K} {tr : Transition K} (ht : s.trans = [tr])
    (hw : t ≤ tr.tEnd) (hs : (computeProblemData nd cy t s).state? = some s') :
    s'.trans = [tr] ∧ (s'.contactObj = s.contactObj ∨ s'.contactObj =
      Function.update s.contactObj tr.cid ((s.contactObj tr.cid).withMax (interpolate tr t))) := by
  simp only [computeProblemData] at hs
  rw [ht] at hs
  simp only [runTransitions] at hs
  by_cases hnd : nd = false ∧ ¬ tr.tStart ≤ t
  · rw [if_pos hnd] at hs; cases hs
  · rw [if_neg hnd, if_pos hw] at hs
    cases hm : (s.contactObj tr.cid).setMaxNormalForce (interpolate tr t) with
    | ok c b =>
      rw [hm] at hs
      dsimp only at hs
      split at hs
      · next s2 h2 =>
        cases hs
        rw [(assemble_frame h2).obj, (assemble_frame h2).trans, (Contact.setMax_eq_ok hm).2]
        exact ⟨rfl, Or.inr rfl⟩
      · cases hs
    | throw c =>
      rw [hm] at hs
      dsimp only at hs
      cases hs
      exact ⟨rfl, Or.inl rfl⟩
    | abort => rw [hm] at hs; cases hs
    | ub => rw [hm] at hs; cases hs

/-- If the cycle returns, the maximum normal force is interpolated. -/
theorem compute_ramp {nd : Bool} {cy : Cycle K} {t : K} {s s' : State K} {tr : Transition K} (ht : s.trans = [tr])
    (hw : t ≤ tr.tEnd) (hs : computeProblemData nd cy t s = .ok s' ()) :
    s'.trans = [tr] ∧ s'.contactObj =
      Function.update s.contactObj tr.cid ((s.contactObj tr.cid).withMax (interpolate tr t)) := by
  simp only [computeProblemData] at hs
  rw [ht] at hs
  simp only [runTransitions] at hs
  by_cases hnd : nd = false ∧ ¬ tr.tStart ≤ t
  · rw [if_pos hnd] at hs; cases hs
  · rw [if_neg hnd, if_pos hw] at hs
    cases hm : (s.contactObj tr.cid).setMaxNormalForce (interpolate tr t) with
    | ok c b =>
      rw [hm] at hs
      dsimp only at hs
      split at hs
      · next s2 h2 =>
        cases hs
        rw [(assemble_frame h2).obj, (assemble_frame h2).trans, (Contact.setMax_eq_ok hm).2]
        exact ⟨rfl, rfl⟩
      · cases hs
    | throw c => rw [hm] at hs; cases hs
    | abort => rw [hm] at hs; cases hs
    | ub => rw [hm] at hs; cases hs

/-- The calls that do not interfere with a break of contact `cid`, named `n`. -/
def Quiet (n : String) (cid : Nat) (t1 : K) : Op K → Prop
  | .removeRigidContact m dur => m ≠ n ∧ ¬ 0 < dur
  | .setContact c (.fMin _) => c ≠ cid
  | .compute _ t => t ≤ t1
  | _ => True

theorem withMax_cone (c : Contact K) (m : K) : (c.withMax m).normal = c.normal ∧ (c.withMax m).mu = c.mu := by
  unfold Contact.withMax Contact.updateForceInequality
  cases c.kind <;> simp

theorem hasLimits_withMax {q : Bool} {c : Contact K} {m : K} {kind : ContactKind} {p : ForceLimits K}
    (h : HasLimits q c kind p) : HasLimits q (c.withMax m) kind { p with fMax := m } :=
  ⟨(Contact.withMax_kind _ _).trans h.1, (withMax_cone _ _).1.trans h.2.1, (withMax_cone _ _).2.trans h.2.2.1,
    fun e => ⟨(Contact.withMax_fMin _ _).trans (h.2.2.2 e).1, Contact.withMax_fMax _ _⟩⟩

theorem step_quiet {nd : Bool} {n : String} {W : World} {s s' : State K} {o : Op K} {tr : Transition K} (ht : s.trans = [tr])
    (ho : Quiet n tr.cid tr.tEnd o) (hs : (step nd W s o).state? = some s') :
    s'.trans = [tr] ∧ (s'.contactObj tr.cid).fMin = (s.contactObj tr.cid).fMin ∧
    ∀ c kind p, c ≠ tr.cid → HasLimits true (s.contactObj c) kind p →
      HasLimits true (s'.contactObj c) kind (p.afterAll kind (setsOf c o)) := by
  by_cases hp : Plain o
  · rw [(step_frame hp hs).obj, (step_frame hp hs).trans]
    refine ⟨ht, rfl, fun c kind p _ hd => ?_⟩
    cases o <;> first | exact hd | exact absurd hp id
  · cases o with
    | removeRigidContact m dur => simp only [Plain, not_not] at hp; exact absurd hp ho.2
    | compute cy t =>
      obtain ⟨h1, h2⟩ := compute_quiet ht ho hs
      refine ⟨h1, ?_, fun c kind p hne hd => ?_⟩
      · rcases h2 with h2 | h2 <;> rw [h2]
        rw [Function.update_self, Contact.withMax_fMin]
      · rcases h2 with h2 | h2 <;> rw [h2]
        · exact hd
        · rw [Function.update_of_ne hne]; exact hd
    | decode x =>
      simp only [step] at hs
      split at hs
      · next s1 h =>
        cases hs
        unfold decodeSolution at h
        split at h
        · cases h; exact ⟨ht, rfl, fun c kind p _ hd => hd⟩
        · split at h
          · cases h; exact ⟨ht, rfl, fun c kind p _ hd => hd⟩
          · cases h
      · cases hs
    | setContact i u =>
      have key : ∀ c', (applySet (s.contactObj i) u).state? = some c' →
          (Function.update s.contactObj i c' tr.cid).fMin = (s.contactObj tr.cid).fMin ∧
          ∀ c kind p, c ≠ tr.cid → HasLimits true (s.contactObj c) kind p →
            HasLimits true (Function.update s.contactObj i c' c) kind (p.afterAll kind (setsOf c (.setContact i u))) := by
        intro c' hc
        refine ⟨?_, fun c kind p _ hd => ?_⟩
        · by_cases e : i = tr.cid
          · subst e
            rw [Function.update_self]
            have := congrArg ForceLimits.fMin (limits_set hc).2
            refine this.trans ?_
            cases u with
            | fMin m => exact absurd rfl ho
            | _ => simp only [ForceLimits.after]; (try split_ifs) <;> rfl
          · rw [Function.update_of_ne (Ne.symm e)]
        · by_cases e : i = c
          · subst e
            rw [Function.update_self]
            simp only [setsOf, if_true, ForceLimits.afterAll]
            exact hasLimits_set hd hc
          · rw [Function.update_of_ne (Ne.symm e)]
            simp only [setsOf, if_neg e, ForceLimits.afterAll]
            exact hd
      simp only [step] at hs
      split at hs
      · next c _ h => cases hs; exact ⟨ht, key c (by rw [h]; rfl)⟩
      · next c h => cases hs; exact ⟨ht, key c (by rw [h]; rfl)⟩
      · cases hs
      · cases hs
    | setAssociated tid n => simp only [step] at hs; cases hs; exact ⟨ht, rfl, fun c kind p _ hd => hd⟩
    | _ => exact absurd trivial hp

theorem run_quiet {nd : Bool} {n : String} {W : World} {tr : Transition K} : ∀ (ops : List (Op K)) (s s' : State K),
    s.trans = [tr] → (∀ o ∈ ops, Quiet n tr.cid tr.tEnd o) → run nd W s ops = some s' →
    s'.trans = [tr] ∧ (s'.contactObj tr.cid).fMin = (s.contactObj tr.cid).fMin ∧
    ∀ c kind p, c ≠ tr.cid → HasLimits true (s.contactObj c) kind p →
      HasLimits true (s'.contactObj c) kind (p.afterAll kind (ops.flatMap (setsOf c))) := by
  intro ops
  induction ops with
  | nil =>
    intro s s' ht _ h
    simp only [run, Option.some.injEq] at h
    subst h
    exact ⟨ht, rfl, fun c kind p _ hd => hd⟩
  | cons o os ih =>
    intro s s' ht ho h
    simp only [run] at h
    split at h
    · next s1 hs =>
      obtain ⟨k1, k2, k3⟩ := step_quiet ht (ho o List.mem_cons_self) hs
      obtain ⟨j1, j2, j3⟩ := ih s1 s' k1 (fun o' h' => ho o' (List.mem_cons_of_mem _ h')) h
      refine ⟨j1, j2.trans k2, fun c kind p hne hd => ?_⟩
      rw [List.flatMap_cons, limits_append]
      exact j3 c kind _ hne (k3 c kind p hne hd)
    · cases h

/-- The calls of the text on the formulation do not interfere. -/
theorem quiet_text {E : Program.Env K} {n : String} {cid : Nat} {t0 t1 : K} : ∀ {ops : List (Program.Op K)}
    {s : Program.State K}, (∀ o ∈ ops, LettingGo n cid t0 t1 o) → ∀ o ∈ formCalls E s ops, Quiet n cid t1 o
  | [], _, _, o, h => by simp only [formCalls, List.not_mem_nil] at h
  | a :: os, s, hn, o, h => by
    have ha := hn a List.mem_cons_self
    simp only [formCalls, List.mem_append] at h
    rcases h with h | h
    · cases a with
      | form o' =>
        simp only [formCall, List.mem_singleton] at h
        subst h
        cases o with
        | removeRigidContact n dur => exact ha
        | compute cy t => exact ha.2
        | setContact c u => cases u <;> exact ha
        | _ => trivial
      | associate tid cid n => simp only [formCall, List.mem_singleton] at h; subst h; trivial
      | compute w t => simp only [formCall, List.mem_singleton] at h; subst h; exact ha.2
      | _ => simp only [formCall, List.not_mem_nil] at h
    · split at h
      · exact quiet_text (fun o' h' => hn o' (List.mem_cons_of_mem _ h')) o h
      · cases h

/-- Without calls that change it, the minimum of the text stays. -/
theorem afterAll_fMin {kind : ContactKind} : ∀ (us : List (ContactSet K)) (p : ForceLimits K),
    (∀ m, .fMin m ∉ us) → (p.afterAll kind us).fMin = p.fMin
  | [], _, _ => rfl
  | u :: us, p, h => by
    simp only [ForceLimits.afterAll]
    rw [afterAll_fMin us _ fun m hm => h m (List.mem_cons_of_mem _ hm)]
    cases u with
    | fMin m => exact absurd List.mem_cons_self (h m)
    | _ => simp only [ForceLimits.after] <;> (try split_ifs) <;> rfl

/-- The contact stays registered, and its break pending. -/
theorem next_quiet {W : World} {nm : Nat → String} {n : String} {threw : Bool} {cid p : Nat} {te : K} (r : Registry K)
    (hn : nm cid = n) (o : Op K) (ho : Quiet n cid te o) (hit : ∃ wm wf, .contact cid p wm wf ∈ r.items)
    (hb : r.breaking = [(te, cid)]) :
    (∃ wm wf, .contact cid p wm wf ∈ (r.next W nm threw o).items) ∧ (r.next W nm threw o).breaking = [(te, cid)] := by
  obtain ⟨wm, wf, hit⟩ := hit
  cases o with
  | addMotionTask tid w q dur =>
    simp only [Registry.next]
    split
    · exact ⟨⟨wm, wf, hit⟩, hb⟩
    · exact ⟨⟨wm, wf, List.mem_append_left _ hit⟩, hb⟩
  | addForceTask tid w q dur =>
    simp only [Registry.next]
    split
    · exact ⟨⟨wm, wf, hit⟩, hb⟩
    · exact ⟨⟨wm, wf, List.mem_append_left _ hit⟩, hb⟩
  | addActuationTask tid w q dur =>
    simp only [Registry.next]
    split
    · exact ⟨⟨wm, wf, hit⟩, hb⟩
    · exact ⟨⟨wm, wf, List.mem_append_left _ hit⟩, hb⟩
  | updateTaskWeight m w =>
    simp only [Registry.next]
    exact ⟨⟨_, _, List.mem_map.2 ⟨_, hit, rfl⟩⟩, hb⟩
  | addRigidContact c a b q =>
    simp only [Registry.next]
    exact ⟨⟨wm, wf, List.mem_append_left _ hit⟩, hb⟩
  | updateRigidContactWeights m a b =>
    simp only [Registry.next]
    exact ⟨⟨_, _, List.mem_map.2 ⟨_, hit, rfl⟩⟩, hb⟩
  | removeTask m =>
    simp only [Registry.next]
    exact ⟨⟨wm, wf, List.mem_filter.2 ⟨hit, rfl⟩⟩, hb⟩
  | removeRigidContact m dur =>
    obtain ⟨hm, hd⟩ := ho
    simp only [Registry.next, if_neg hd]
    split
    · exact ⟨⟨wm, wf, hit⟩, hb⟩
    · refine ⟨⟨wm, wf, List.mem_filter.2 ⟨hit, ?_⟩⟩, hb⟩
      simp only [Item.isContact, Bool.not_eq_true', beq_eq_false_iff_ne, ne_eq]
      rw [hn]
      exact fun e => hm e.symm
  | compute cy t =>
    simp only [Registry.next]
    split
    · exact ⟨⟨wm, wf, hit⟩, hb⟩
    · unfold Registry.expire
      have : r.breaking.find? (fun b => decide (b.1 < t)) = none := by
        rw [hb]; simp [not_lt.2 (show t ≤ te from ho)]
      rw [this]
      exact ⟨⟨wm, wf, hit⟩, hb⟩
  | _ => exact ⟨⟨wm, wf, hit⟩, hb⟩

theorem after_quiet {nd : Bool} {W : World} {nm : Nat → String} {n : String} {cid p : Nat} {te : K} (hn : nm cid = n) :
    ∀ (ops : List (Op K)) (s : State K) (r : Registry K), (∀ o ∈ ops, Quiet n cid te o) →
    (∃ wm wf, .contact cid p wm wf ∈ r.items) → r.breaking = [(te, cid)] →
    (∃ wm wf, .contact cid p wm wf ∈ (r.after W nm (outcomes nd W s ops)).items) ∧
      (r.after W nm (outcomes nd W s ops)).breaking = [(te, cid)] := by
  intro ops
  induction ops with
  | nil => intro s r _ h1 h2; exact ⟨h1, h2⟩
  | cons o os ih =>
    intro s r ho h1 h2
    simp only [outcomes]
    obtain ⟨a, b⟩ := next_quiet (W := W) (threw := (step nd W s o).threw) r hn o (ho o List.mem_cons_self) h1 h2
    split
    · exact ih _ _ (fun o' h' => ho o' (List.mem_cons_of_mem _ h')) a b
    · exact ⟨a, b⟩

/-- In the window of the only pending break, a cycle does not throw. -/
theorem transitions_ramp {nd : Bool} {s : State K} {tr : Transition K} (ht : s.trans = [tr]) (h0 : tr.tStart ≤ s.t)
    (h1 : s.t ≤ tr.tEnd) (hm : (s.contactObj tr.cid).MaxOk (interpolate tr s.t)) :
    runTransitions nd [] s.trans s = .ok { s with
      contactObj := Function.update s.contactObj tr.cid ((s.contactObj tr.cid).withMax (interpolate tr s.t)) } () := by
  rw [ht]
  simp only [runTransitions]
  rw [if_neg (by simp [h0]), if_pos h1, Contact.setMax_ok hm, ← ht]

end Tsid.Formulation

namespace Tsid.Program

open Spec

variable {K : Type} [Field K] [LinearOrder K] [FloorRing K] [HasSqrt K]

theorem run_append_some {E : Env K} : ∀ (a b : List (Op K)) (s s2 : State K), run E s (a ++ b) = some s2 →
    ∃ s1, run E s a = some s1 ∧ run E s1 b = some s2 := by
  intro a
  induction a with
  | nil => intro b s s2 h; exact ⟨s, rfl, h⟩
  | cons o os ih =>
    intro b s s2 h
    simp only [run, List.cons_append] at h ⊢
    split at h
    · exact ih _ _ _ h
    · cases h

theorem run_append {E : Env K} : ∀ (a b : List (Op K)) (s s1 : State K), run E s a = some s1 →
    run E s (a ++ b) = run E s1 b := by
  intro a
  induction a with
  | nil => intro b s s1 h; cases h; rfl
  | cons o os ih =>
    intro b s s1 h
    simp only [run, List.cons_append] at h ⊢
    split at h
    · exact ih _ _ _ h
    · cases h

theorem formCalls_append {E : Env K} : ∀ (a b : List (Op K)) (s s1 : State K), run E s a = some s1 →
    formCalls E s (a ++ b) = formCalls E s a ++ formCalls E s1 b := by
  intro a
  induction a with
  | nil => intro b s s1 h; cases h; rfl
  | cons o os ih =>
    intro b s s1 h
    simp only [run] at h
    simp only [formCalls, List.cons_append, List.append_assoc]
    split at h
    · next s' hs => simp only [hs]; rw [ih _ _ _ h]
    · cases h

theorem contactSets_append (cid : Nat) : ∀ a b : List (Op K),
    contactSets cid (a ++ b) = contactSets cid a ++ contactSets cid b
  | [], _ => rfl
  | o :: os, b => by
    have ih := contactSets_append cid os b
    cases o with
    | form o => cases o <;> simp only [contactSets, List.cons_append, ih] ; split <;> rfl
    | _ => simp only [contactSets, List.cons_append, ih]

theorem contactCalls_append (cid : Nat) : ∀ a b : List (Op K),
    contactCalls cid (a ++ b) = contactCalls cid a ++ contactCalls cid b
  | [], _ => rfl
  | o :: os, b => by
    have ih := contactCalls_append cid os b
    cases o <;> simp only [contactCalls, List.cons_append, ih]
    split <;> rfl

end Tsid.Program
