import Verif.Lemmas.Frame
import Verif.Spec.Cycle
import Mathlib.Tactic.Linarith
import Mathlib.Tactic.NormNum

/-!
# Contact-breaking transitions
-/

set_option linter.unusedSectionVars false

namespace Tsid

variable {K : Type} [Field K] [LinearOrder K] [HasSqrt K]

namespace Contact

/-- The contact with maximum normal force `m`. -/
def withMax (c : Contact K) (m : K) : Contact K :=
  match c.kind with
  | .twoFrames => updateForceInequality { c with fMax := m }
  | _ => { c with fMax := m, forceIneq := { c.forceIneq with ub := setLast c.forceIneq.ub m } }

/-- `setMaxNormalForce(m)` accepts `m`. -/
def MaxOk (c : Contact K) (m : K) : Prop := c.kind = .twoFrames ∨ c.fMin ≤ m

theorem setMax_ok {c : Contact K} {m : K} (h : c.MaxOk m) : c.setMaxNormalForce m = .ok (c.withMax m) true := by
  unfold setMaxNormalForce withMax
  rcases h with h | h
  · simp only [h]
  · cases hk : c.kind <;> simp only [h, if_true]

theorem setMax_eq_ok {c c' : Contact K} {m : K} {b : Bool} (h : c.setMaxNormalForce m = .ok c' b) :
    c.MaxOk m ∧ c' = c.withMax m := by
  by_cases hm : c.MaxOk m
  · rw [setMax_ok hm] at h
    cases h
    exact ⟨hm, rfl⟩
  · exfalso
    unfold MaxOk at hm
    push Not at hm
    unfold setMaxNormalForce at h
    split at h
    · next hk => exact hm.1 hk
    · rw [if_neg (not_le.2 hm.2)] at h
      cases h

theorem setMax_not {c : Contact K} {m : K} (h : ¬ c.MaxOk m) : c.setMaxNormalForce m = .throw c := by
  unfold setMaxNormalForce
  unfold MaxOk at h
  push Not at h
  split
  · next hk => exact absurd hk h.1
  · rw [if_neg (not_le.2 h.2)]

theorem withMax_kind (c : Contact K) (m : K) : (c.withMax m).kind = c.kind := by
  unfold withMax updateForceInequality
  cases c.kind <;> simp

theorem withMax_fMin (c : Contact K) (m : K) : (c.withMax m).fMin = c.fMin := by
  unfold withMax updateForceInequality
  cases c.kind <;> simp

theorem withMax_fMax (c : Contact K) (m : K) : (c.withMax m).fMax = m := by
  unfold withMax updateForceInequality
  cases c.kind <;> simp

theorem withMax_maxOk {c : Contact K} {m a : K} : (c.withMax a).MaxOk m ↔ c.MaxOk m := by
  unfold MaxOk
  rw [withMax_kind, withMax_fMin]

theorem setLast_setLast (v : Vec K) (a b : K) : setLast (setLast v a) b = setLast v b := by
  unfold setLast
  congr 1
  funext i
  simp only
  split <;> rfl

theorem withMax_withMax (c : Contact K) (a b : K) : (c.withMax a).withMax b = c.withMax b := by
  cases hk : c.kind <;> simp [withMax, updateForceInequality, hk, setLast_setLast]

end Contact

namespace Formulation

open Spec

/-- The contact objects after the transitions `l`, all of them in their window: the last transition of a contact
determines its maximum normal force. -/
def boundedObj (l : List (Transition K)) (t : K) (o : Nat → Contact K) (cid : Nat) : Contact K :=
  match l.reverse.find? (fun tr => tr.cid == cid) with
  | none => o cid
  | some tr => (o cid).withMax (interpolate tr t)

theorem boundedObj_cons (tr : Transition K) (l : List (Transition K)) (t : K) (o : Nat → Contact K) :
    boundedObj (tr :: l) t o =
      boundedObj l t (Function.update o tr.cid ((o tr.cid).withMax (interpolate tr t))) := by
  funext cid
  unfold boundedObj
  rw [List.reverse_cons, List.find?_append]
  cases hf : l.reverse.find? (fun tr => tr.cid == cid) with
  | some tr' =>
    simp only [Option.some_or]
    by_cases hc : cid = tr.cid
    · subst hc
      rw [Function.update_self, Contact.withMax_withMax]
    · rw [Function.update_of_ne hc]
  | none =>
    simp only [Option.none_or]
    by_cases hc : cid = tr.cid
    · subst hc
      simp
    · rw [Function.update_of_ne hc, List.find?_cons_of_neg (by simpa using fun h => hc h.symm)]
      simp

/-- All transitions are in their window. -/
def InWindow (nd : Bool) (t : K) (l : List (Transition K)) : Prop :=
  ∀ tr ∈ l, (nd = true ∨ tr.tStart ≤ t) ∧ t ≤ tr.tEnd

theorem runTransitions_window {nd : Bool} : ∀ (l pre : List (Transition K)) (s : State K), InWindow nd s.t l →
    (∀ tr ∈ l, (s.contactObj tr.cid).MaxOk (interpolate tr s.t)) →
    runTransitions nd pre l s = .ok { s with contactObj := boundedObj l s.t s.contactObj } () := by
  intro l
  induction l with
  | nil => intro pre s _ _; rfl
  | cons tr rest ih =>
    intro pre s hw hm
    have h1 := hw tr List.mem_cons_self
    unfold runTransitions
    rw [if_neg (by rcases h1.1 with h | h <;> simp [h]), if_pos h1.2,
      Contact.setMax_ok (hm tr List.mem_cons_self)]
    have := ih (pre ++ [tr]) { s with
      contactObj := Function.update s.contactObj tr.cid ((s.contactObj tr.cid).withMax (interpolate tr s.t)) } (fun x hx => hw x (List.mem_cons_of_mem _ hx)) ?_
    · rw [boundedObj_cons]; exact this
    · intro x hx
      have hx' := hm x (List.mem_cons_of_mem _ hx)
      show (Function.update s.contactObj tr.cid _ x.cid).MaxOk (interpolate x s.t)
      by_cases hc : x.cid = tr.cid
      · rw [hc, Function.update_self, Contact.withMax_maxOk, ← hc]; exact hx'
      · rw [Function.update_of_ne hc]; exact hx'

theorem runTransitions_window_ok {nd : Bool} : ∀ (l pre : List (Transition K)) (s s' : State K),
    (∀ tr ∈ l, s.t ≤ tr.tEnd) → runTransitions nd pre l s = .ok s' () →
    InWindow nd s.t l ∧ (∀ tr ∈ l, (s.contactObj tr.cid).MaxOk (interpolate tr s.t)) := by
  intro l
  induction l with
  | nil => intro pre s s' _ _; exact ⟨fun x hx => (nomatch hx), fun x hx => (nomatch hx)⟩
  | cons tr rest ih =>
    intro pre s s' hw h
    unfold runTransitions at h
    split at h
    · cases h
    next hnd =>
    rw [if_pos (hw tr List.mem_cons_self)] at h
    split at h
    · next c' b hset =>
      obtain ⟨hm, rfl⟩ := Contact.setMax_eq_ok hset
      obtain ⟨k1, k2⟩ := ih (pre ++ [tr]) { s with
        contactObj := Function.update s.contactObj tr.cid ((s.contactObj tr.cid).withMax (interpolate tr s.t)) }
        s' (fun x hx => hw x (List.mem_cons_of_mem _ hx)) h
      refine ⟨?_, ?_⟩
      · intro x hx
        rcases List.mem_cons.1 hx with rfl | hx
        · refine ⟨?_, hw x List.mem_cons_self⟩
          cases nd
          · right; simpa using hnd
          · left; rfl
        · exact k1 x hx
      · intro x hx
        rcases List.mem_cons.1 hx with rfl | hx
        · exact hm
        · have hx' : (Function.update s.contactObj tr.cid _ x.cid).MaxOk (interpolate x s.t) := k2 x hx
          by_cases hc : x.cid = tr.cid
          · rw [hc, Function.update_self, Contact.withMax_maxOk, ← hc] at hx'; exact hx'
          · rwa [Function.update_of_ne hc] at hx'
    · cases h
    · cases h
    · cases h

theorem boundedObj_idem (l : List (Transition K)) (t : K) (o : Nat → Contact K) :
    boundedObj l t (boundedObj l t o) = boundedObj l t o := by
  funext cid
  unfold boundedObj
  cases hf : l.reverse.find? (fun tr => tr.cid == cid) with
  | none => rfl
  | some tr => simp only [Contact.withMax_withMax]

/-- What is known of a pending transition. -/
def TransOk (o : Nat → Contact K) (tr : Transition K) : Prop :=
  tr.tStart < tr.tEnd ∧ tr.fEnd = (o tr.cid).fMin + 1 / 1000 ∧
    ((o tr.cid).kind = .twoFrames ∨ (o tr.cid).fMin ≤ tr.fStart)

theorem transOk_congr {o o' : Nat → Contact K} {tr : Transition K} (h1 : (o' tr.cid).fMin = (o tr.cid).fMin)
    (h2 : (o' tr.cid).kind = (o tr.cid).kind) (h : TransOk o tr) : TransOk o' tr := by
  unfold TransOk at h ⊢
  rw [h1, h2]
  exact h

/-- Minimum normal forces and kinds are the same. -/
def SameMin (o o' : Nat → Contact K) : Prop := ∀ c, (o' c).fMin = (o c).fMin ∧ (o' c).kind = (o c).kind

theorem runTransitions_min {nd : Bool} : ∀ (l pre : List (Transition K)) (s s' : State K),
    (runTransitions nd pre l s).state? = some s' → s.trans = pre ++ l →
    SameMin s.contactObj s'.contactObj ∧ (∀ tr ∈ s'.trans, tr ∈ s.trans) := by
  intro l
  induction l with
  | nil =>
    intro pre s s' h _
    simp only [runTransitions] at h
    cases h; exact ⟨fun c => ⟨rfl, rfl⟩, fun _ h => h⟩
  | cons tr rest ih =>
    intro pre s s' h htr
    unfold runTransitions at h
    split at h
    · cases h
    split at h
    · split at h
      · next c' b hset =>
        obtain ⟨-, rfl⟩ := Contact.setMax_eq_ok hset
        obtain ⟨i1, i2⟩ := ih _ _ _ h (by simpa using htr)
        refine ⟨?_, i2⟩
        intro c
        have := i1 c
        by_cases hc : c = tr.cid
        · subst hc
          simp only [Function.update_self, Contact.withMax_fMin, Contact.withMax_kind] at this
          exact this
        · simpa [Function.update_of_ne hc] using this
      · cases h; exact ⟨fun c => ⟨rfl, rfl⟩, fun _ h => h⟩
      · cases h
      · cases h
    · split at h
      · next s1 b hr =>
        cases h
        have := removeContactNow_frame (nd := nd) (s' := s1) (by rw [hr]; rfl)
        refine ⟨fun c => by simp only [this.obj, and_self], ?_⟩
        intro x hx
        rw [htr]
        simp only [List.mem_append, List.mem_cons] at hx ⊢
        tauto
      · next s1 hr => exact absurd hr removeContactNow_not_throw
      · cases h
      · cases h

theorem applySet_min {c c' : Contact K} {u : ContactSet K} (h : (applySet c u).state? = some c')
    (hu : ∀ m, u ≠ .fMin m) : c'.fMin = c.fMin ∧ c'.kind = c.kind := by
  cases u with
  | points P =>
    simp only [applySet, Contact.setContactPoints] at h
    split at h
    · split at h
      · split at h
        · cases h; unfold Contact.updateForceGenerator; split <;> exact ⟨rfl, rfl⟩
        · cases h; exact ⟨rfl, rfl⟩
      · cases h; exact ⟨rfl, rfl⟩
    · cases h
  | normal n =>
    simp only [applySet, Contact.setContactNormal] at h
    split at h
    · cases h; exact ⟨rfl, rfl⟩
    · split at h
      · cases h; unfold Contact.updateForceInequality; split <;> exact ⟨rfl, rfl⟩
      · cases h; exact ⟨rfl, rfl⟩
  | friction mu =>
    simp only [applySet, Contact.setFrictionCoefficient] at h
    split at h
    · cases h; exact ⟨rfl, rfl⟩
    · split at h
      · cases h; unfold Contact.updateForceInequality; split <;> exact ⟨rfl, rfl⟩
      · cases h; exact ⟨rfl, rfl⟩
  | fMin m => exact absurd rfl (hu m)
  | fMax m =>
    simp only [applySet, Contact.setMaxNormalForce] at h
    split at h
    · cases h; unfold Contact.updateForceInequality; split <;> exact ⟨rfl, rfl⟩
    · split at h <;> (cases h; exact ⟨rfl, rfl⟩)
  | forceRef f =>
    simp only [applySet, Contact.setForceReference] at h
    split at h
    · split at h
      · cases h; unfold Contact.updateForceReg; split <;> exact ⟨rfl, rfl⟩
      · cases h
    · split at h
      · cases h; unfold Contact.updateForceReg; split <;> exact ⟨rfl, rfl⟩
      · cases h; exact ⟨rfl, rfl⟩
    · split at h
      · cases h; unfold Contact.updateForceReg; split <;> exact ⟨rfl, rfl⟩
      · cases h
  | regWeights w =>
    simp only [applySet, Contact.setRegularizationWeights] at h
    split at h
    · cases h; unfold Contact.updateForceReg; split <;> exact ⟨rfl, rfl⟩
    · cases h

end Formulation

namespace Formulation

open Spec

/-- `getNormalForce` returns the normal force, and throws unless the force has the size of the contact. -/
theorem getNormalForce_eq (c : Contact K) (f : Vec K) :
    c.getNormalForce f = if c.kind = .twoFrames ∨ f.size = c.nForce then some (normalForce c f.get) else none := by
  unfold Contact.getNormalForce normalForce
  cases hk : c.kind <;> simp [Contact.kindPoints, Finset.sum_range_succ, cornerForce]

/-- The normal force from which a break begins. -/
theorem breakForce_eq {s : State K} {c : ContactLevel} {f0 : K}
    (h : (if c.index + (s.contactObj c.cid).nForce ≤ s.f.size then
      (s.contactObj c.cid).getNormalForce (s.f.segment c.index (s.contactObj c.cid).nForce)
      else some (s.contactObj c.cid).fMax) = some f0) : breakForce s c = f0 := by
  unfold breakForce
  simp only
  split at h
  · next hi =>
    rw [if_pos hi]
    have e : (s.f.segment c.index (s.contactObj c.cid).nForce).size = (s.contactObj c.cid).nForce := rfl
    rw [getNormalForce_eq, if_pos (Or.inr e)] at h
    exact Option.some.inj h
  · next hi =>
    rw [if_neg hi]
    exact Option.some.inj h

variable [IsStrictOrderedRing K]

theorem step_transOk {nd : Bool} {W : World} {s s' : State K} {o : Op K}
    (h : ∀ tr ∈ s.trans, TransOk s.contactObj tr) (hb : BreakOk s o) (hs : (step nd W s o).state? = some s') :
    ∀ tr ∈ s'.trans, TransOk s'.contactObj tr := by
  by_cases hp : Plain o
  · have hf := step_frame hp hs
    rw [hf.trans, hf.obj]
    exact h
  · cases o with
    | removeRigidContact n dur =>
      simp only [Plain, not_not] at hp
      simp only [BreakOk] at hb
      have hb := hb hp
      simp only [step, void_state?, removeRigidContact] at hs
      rw [if_pos hp] at hs
      split at hs
      · cases hs; exact h
      · next c hc =>
        have hcm := List.mem_of_find?_eq_some hc
        have hcn := List.find?_some hc
        simp only [beq_iff_eq] at hcn
        split at hs
        · cases hs; exact h
        · next f0 hf0 =>
          cases hs
          intro tr htr
          rcases List.mem_append.1 htr with htr | htr
          · exact h tr htr
          · simp only [List.mem_singleton] at htr
            subst htr
            refine ⟨?_, rfl, by rw [← breakForce_eq hf0]; exact hb c hcm hcn⟩
            simpa using hp
    | compute cy t =>
      have key : ∀ s1, (runTransitions nd [] s.trans { s with t := t }).state? = some s1 →
          ∀ tr ∈ s1.trans, TransOk s1.contactObj tr := by
        intro s1 h1
        obtain ⟨a, b⟩ := runTransitions_min _ _ _ _ h1 rfl
        intro tr htr
        exact transOk_congr (a tr.cid).1 (a tr.cid).2 (h tr (b tr htr))
      simp only [step, computeProblemData] at hs
      split at hs
      · next s1 u h1 =>
        have := key s1 (by rw [h1]; rfl)
        split at hs
        · next s2 h2 =>
          cases hs
          have hf := assemble_frame h2
          rw [hf.trans, hf.obj]
          exact this
        · cases hs
      · next s1 h1 =>
        have := key s1 (by rw [h1]; rfl)
        cases hs
        exact this
      · cases hs
      · cases hs
    | decode x =>
      simp only [step] at hs
      split at hs
      · next s1 hd =>
        cases hs
        unfold decodeSolution at hd
        split at hd
        · cases hd; exact h
        · split at hd
          · cases hd; exact h
          · cases hd
      · cases hs
    | setContact cid u =>
      have key : ∀ c', (applySet (s.contactObj cid) u).state? = some c' →
          ∀ tr ∈ s.trans, TransOk (Function.update s.contactObj cid c') tr := by
        intro c' hc' tr htr
        by_cases hu : ∀ m, u ≠ .fMin m
        · have hm := applySet_min hc' hu
          by_cases hcid : tr.cid = cid
          · refine transOk_congr (o := s.contactObj) ?_ ?_ (h tr htr)
            · rw [hcid, Function.update_self]; exact hm.1
            · rw [hcid, Function.update_self]; exact hm.2
          · refine transOk_congr (o := s.contactObj) ?_ ?_ (h tr htr) <;> rw [Function.update_of_ne hcid]
        · push Not at hu
          obtain ⟨m, rfl⟩ := hu
          have hcid := hb tr htr
          refine transOk_congr (o := s.contactObj) ?_ ?_ (h tr htr) <;> rw [Function.update_of_ne hcid]
      simp only [step] at hs
      split at hs
      · next c' a hc => cases hs; exact key c' (by rw [hc]; rfl)
      · next c' hc => cases hs; exact key c' (by rw [hc]; rfl)
      · cases hs
      · cases hs
    | setAssociated tid n => simp only [step] at hs; cases hs; exact h
    | _ => exact absurd trivial hp

theorem run_transOk {nd : Bool} {W : World} : ∀ (ops : List (Op K)) (s s' : State K),
    (∀ tr ∈ s.trans, TransOk s.contactObj tr) → Along nd W BreakOk s ops → run nd W s ops = some s' →
    ∀ tr ∈ s'.trans, TransOk s'.contactObj tr := by
  intro ops
  induction ops with
  | nil => intro s s' h _ hr; simp only [run, Option.some.injEq] at hr; subst hr; exact h
  | cons o os ih =>
    intro s s' h ha hr
    simp only [run] at hr
    obtain ⟨h1, h2⟩ := ha
    split at hr
    · next s1 hs =>
      rw [hs] at h2
      exact ih s1 s' (step_transOk h h1 hs) h2 hr
    · cases hr

/-- The interpolated bound lies between its end points. -/
theorem interpolate_between {tr : Transition K} {t : K} (h : tr.tStart < tr.tEnd) (h1 : tr.tStart ≤ t)
    (h2 : t ≤ tr.tEnd) :
    min tr.fStart tr.fEnd ≤ interpolate tr t ∧ interpolate tr t ≤ max tr.fStart tr.fEnd := by
  unfold interpolate
  have hd : 0 < tr.tEnd - tr.tStart := sub_pos.2 h
  obtain ⟨a, ha⟩ : ∃ a, a = (t - tr.tStart) / (tr.tEnd - tr.tStart) := ⟨_, rfl⟩
  rw [← ha]
  have a0 : 0 ≤ a := by rw [ha]; exact div_nonneg (sub_nonneg.2 h1) hd.le
  have a1 : a ≤ 1 := by rw [ha, div_le_one hd]; exact sub_le_sub_right h2 _
  rcases le_total tr.fStart tr.fEnd with hf | hf
  · rw [min_eq_left hf, max_eq_right hf]
    constructor <;> nlinarith
  · rw [min_eq_right hf, max_eq_left hf]
    constructor <;> nlinarith

theorem transOk_maxOk {o : Nat → Contact K} {tr : Transition K} {t : K} (h : TransOk o tr) (h1 : tr.tStart ≤ t)
    (h2 : t ≤ tr.tEnd) : (o tr.cid).MaxOk (interpolate tr t) := by
  obtain ⟨a, b, c⟩ := h
  rcases c with c | c
  · exact Or.inl c
  · right
    refine le_trans ?_ (interpolate_between a h1 h2).1
    rw [le_min_iff]
    refine ⟨c, ?_⟩
    rw [b]
    linarith [show (0 : K) < 1 / 1000 by norm_num]

end Formulation

end Tsid
