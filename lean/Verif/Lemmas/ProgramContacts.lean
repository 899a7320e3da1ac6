import Verif.Lemmas.Program

/-!
# Whole programs: the calls on contacts and measured forces
-/

set_option linter.unusedSectionVars false

namespace Tsid.Program

open Spec Finset

variable {K : Type} [Field K] [LinearOrder K] [FloorRing K] [HasSqrt K]

/-! ## Contacts -/

/-- Is it a call of `computeMotionTask`? -/
def isMotionCycle : ContactCall K → Bool
  | .computeMotion _ => true
  | _ => false

theorem iter_motion {E : Env K} {w : Snapshot K} : ∀ {n : Nat} {m m' : ContactMotion K},
    iterO (ContactMotion.compute E w) n m = some m' →
    runOps (ContactMotion.call E) m (List.replicate n (.computeMotion w)) = some m'
  | 0, m, m', h => by simpa [iterO, runOps] using h
  | n + 1, m, m', h => by
    simp only [iterO, ContactMotion.compute] at h
    simp only [List.replicate_succ, runOps]
    cases hc : m.call E (.computeMotion w) with
    | ok m1 u =>
      simp only [hc] at h
      simp only [Res.state?]
      exact iter_motion h
    | throw m1 => simp only [hc] at h; cases h
    | abort => simp only [hc] at h; cases h
    | ub => simp only [hc] at h; cases h

/-- One call of the program is a sequence of calls on each contact: those in the text, or cycles. -/
theorem step_motion {E : Env K} {s s' : State K} {o : Op K} (h : (step E s o).state? = some s') (cid : Nat) :
    ∃ l, runOps (ContactMotion.call E) (s.motion cid) l = some (s'.motion cid) ∧
      (l = contactCalls cid [o] ∨ ∃ w n, w ∈ snapshots [o] ∧ contactCalls cid [o] = [] ∧
        l = List.replicate n (.computeMotion w)) := by
  cases o with
  | motion i c =>
    refine ⟨contactCalls cid [.motion i c], ?_, .inl rfl⟩
    simp only [step] at h
    simp only [contactCalls]
    split at h
    · next o1 u hcall =>
      cases h
      by_cases hi : i = cid
      · subst hi; simp [runOps, hcall, Res.state?]
      · simp [hi, runOps, Function.update_of_ne (Ne.symm hi)]
    · next o1 hcall =>
      cases h
      by_cases hi : i = cid
      · subst hi; simp [runOps, hcall, Res.state?]
      · simp [hi, runOps, Function.update_of_ne (Ne.symm hi)]
    · cases h
    · cases h
  | task i c =>
    refine ⟨[], ?_, .inl rfl⟩
    simp only [step] at h
    split at h
    · cases h
    · split at h <;> cases h <;> rfl
  | associate i c n =>
    refine ⟨[], ?_, .inl rfl⟩
    simp only [step] at h
    split at h
    · split at h <;> cases h <;> rfl
    · cases h
  | measured i c =>
    refine ⟨[], ?_, .inl rfl⟩
    simp only [step] at h
    split at h <;> cases h <;> rfl
  | form o =>
    refine ⟨[], ?_, .inl rfl⟩
    simp only [step] at h
    split at h
    · split at h <;> cases h <;> rfl
    · cases h
  | compute w t =>
    rcases compute_state h with h1 | ⟨f, hf, rfl⟩
    · obtain ⟨f, s1, f', hf, hs, -, rfl⟩ := compute_ok h1
      obtain ⟨-, h2, -, -⟩ := computeObjects_some hs
      exact ⟨_, iter_motion (each_iter h2 cid), .inr ⟨w, _, by simp [snapshots], rfl, rfl⟩⟩
    · exact ⟨[], rfl, .inl rfl⟩

theorem contactCalls_cons {cid : Nat} {o : Op K} {os : List (Op K)} :
    contactCalls cid (o :: os) = contactCalls cid [o] ++ contactCalls cid os := by
  cases o <;> simp only [contactCalls, List.nil_append] 
  split <;> rfl

theorem snapshots_cons {o : Op K} {os : List (Op K)} : snapshots (o :: os) = snapshots [o] ++ snapshots os := by
  cases o <;> rfl

theorem fold_replicate {σ call : Type} {F : σ → call → σ} {c : call} (hF : ∀ p, F p c = p) : ∀ (n : Nat) (p : σ),
    (List.replicate n c).foldl F p = p
  | 0, p => rfl
  | n + 1, p => by rw [List.replicate_succ, List.foldl_cons, hF]; exact fold_replicate hF n p

/-- The history of a contact: the calls of the text and the cycles. -/
theorem run_motion {E : Env K} : ∀ {ops : List (Op K)} {s s' : State K}, run E s ops = some s' → ∀ cid,
    ∃ l, runOps (ContactMotion.call E) (s.motion cid) l = some (s'.motion cid) ∧
      (∀ c ∈ l, c ∈ contactCalls cid ops ∨ isMotionCycle c = true) ∧
      ∀ (σ : Type) (F : σ → ContactCall K → σ), (∀ p c, isMotionCycle c = true → F p c = p) →
        ∀ p, l.foldl F p = (contactCalls cid ops).foldl F p
  | [], s, s', h, cid => by
    simp only [run, Option.some.injEq] at h
    subst h
    exact ⟨[], rfl, by simp, fun _ _ _ _ => rfl⟩
  | o :: os, s, s', h, cid => by
    simp only [run] at h
    split at h
    · next s1 hs =>
      obtain ⟨l1, a1, a2⟩ := step_motion hs cid
      obtain ⟨l2, b1, b2, b3⟩ := run_motion h cid
      refine ⟨l1 ++ l2, by rw [runOps_append, a1]; exact b1, ?_, ?_⟩
      · intro c hc
        rw [contactCalls_cons]
        rcases List.mem_append.1 hc with hc | hc
        · rcases a2 with rfl | ⟨w, n, -, -, rfl⟩
          · exact .inl (List.mem_append_left _ hc)
          · right; rw [(List.mem_replicate.1 hc).2]; rfl
        · rcases b2 c hc with h | h
          · exact .inl (List.mem_append_right _ h)
          · exact .inr h
      · intro σ F hF p
        rw [contactCalls_cons, List.foldl_append, List.foldl_append, b3 σ F hF]
        rcases a2 with rfl | ⟨w, n, -, h2, rfl⟩
        · rfl
        · rw [h2, fold_replicate (fun p => hF p _ rfl)]; rfl
    · cases h

/-- The history of a contact, as a history of its motion task. -/
theorem unwrapMotion {E : Env K} {σ op : Type} {wrap : σ → ContactMotion K} {get : ContactCall K → Option op}
    {st : σ → op → Res σ Unit}
    (hc : ∀ s c, (ContactMotion.call E (wrap s) c).state? = match get c with
      | some o => (st s o).state?.map wrap
      | none => none) :
    ∀ {l : List (ContactCall K)} {s : σ} {o : ContactMotion K}, runOps (ContactMotion.call E) (wrap s) l = some o →
      ∃ s', o = wrap s' ∧ runOps st s (l.filterMap get) = some s'
  | [], s, o, h => by
    simp only [runOps, Option.some.injEq] at h
    exact ⟨s, h.symm, rfl⟩
  | c :: l, s, o, h => by
    simp only [runOps, hc] at h
    cases hg : get c with
    | none => rw [hg] at h; simp at h
    | some o1 =>
      simp only [hg] at h
      rw [List.filterMap_cons_some hg]
      simp only [runOps]
      cases hs : (st s o1).state? with
      | none => rw [hs] at h; simp at h
      | some s1 => rw [hs] at h; exact unwrapMotion hc h

/-! ## Measured forces -/

theorem iter_measured {w : Snapshot K} (n : Nat) : ∀ (m m' : MeasuredObj K),
    iterO (fun m => some (MeasuredObj.compute w m)) n m = some m' → m' = (MeasuredObj.compute w)^[n] m := by
  induction n with
  | zero => intro m m' h; simpa [iterO] using h.symm
  | succ n ih => intro m m' h; simp only [iterO] at h; rw [ih _ _ h]; rfl

theorem measuredCalls_cons {mid : Nat} {o : Op K} {os : List (Op K)} :
    measuredCalls mid (o :: os) = measuredCalls mid [o] ++ measuredCalls mid os := by
  cases o <;> simp only [measuredCalls, List.nil_append]
  split <;> rfl

/-- One call of the program is a sequence of calls on each measured force. -/
theorem step_measured {E : Env K} {s s' : State K} {o : Op K} (h : (step E s o).state? = some s') (mid : Nat) :
    runOps MeasuredObj.call (s.measured mid) (measuredCalls mid [o]) = some (s'.measured mid) ∨
      (measuredCalls mid [o] = [] ∧ ∃ w n, s'.measured mid = (MeasuredObj.compute w)^[n] (s.measured mid)) := by
  cases o with
  | measured i c =>
    left
    simp only [step] at h
    simp only [measuredCalls]
    split at h
    · next o1 u hcall =>
      cases h
      by_cases hi : i = mid
      · subst hi; simp [runOps, hcall, Res.state?]
      · simp [hi, runOps, Function.update_of_ne (Ne.symm hi)]
    · next o1 hcall =>
      cases h
      by_cases hi : i = mid
      · subst hi; simp [runOps, hcall, Res.state?]
      · simp [hi, runOps, Function.update_of_ne (Ne.symm hi)]
    · cases h
    · cases h
  | task i c =>
    left
    simp only [step] at h
    split at h
    · cases h
    · split at h <;> cases h <;> rfl
  | associate i c n =>
    left
    simp only [step] at h
    split at h
    · split at h <;> cases h <;> rfl
    · cases h
  | motion i c =>
    left
    simp only [step] at h
    split at h <;> cases h <;> rfl
  | form o =>
    left
    simp only [step] at h
    split at h
    · split at h <;> cases h <;> rfl
    · cases h
  | compute w t =>
    rcases compute_state h with h1 | ⟨f, hf, rfl⟩
    · obtain ⟨f, s1, f', hf, hs, -, rfl⟩ := compute_ok h1
      obtain ⟨-, -, h3, -⟩ := computeObjects_some hs
      exact .inr ⟨rfl, w, _, iter_measured _ _ _ (each_iter h3 mid)⟩
    · exact .inl rfl

end Tsid.Program
