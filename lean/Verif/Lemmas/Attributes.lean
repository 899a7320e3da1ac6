import Verif.Spec.Attributes
import Verif.Lemmas.Mask

/-!
# Lemmas about getters

Setters one call at a time.
-/

set_option linter.unusedSectionVars false

namespace Tsid
open Spec.Attributes

variable {σ ω α K : Type}

/-- What one call must do. -/
def ReadStep (I : σ → Prop) (P : ω → Prop) (step : σ → ω → Res σ α) (assigned : ω → Option (List (List K)))
    (read : σ → Reading K) : Prop :=
  ∀ s o, I s → P o →
    (∀ s' a, step s o = .ok s' a → I s' ∧ read s' = (match assigned o with | some v => .value v | none => read s)) ∧
    (∀ s', step s o = .throw s' → I s' ∧ read s' = read s)

theorem reads_of {I : σ → Prop} {P : ω → Prop} {step : σ → ω → Res σ α} {assigned : ω → Option (List (List K))}
    {read : σ → Reading K} (h : ReadStep I P step assigned read) :
    ∀ {s : σ} {v : List (List K)}, I s → read s = .value v → Reads P step assigned read s v := by
  intro s v hI hv ops
  induction ops generalizing s v with
  | nil =>
    intro _ s' hs'
    cases hs'
    exact hv
  | cons o ops ih =>
    intro hP s' hs'
    obtain ⟨h1, h2⟩ := h s o hI (hP o (by simp))
    have hP' : ∀ o ∈ ops, P o := fun o ho => hP o (by simp [ho])
    rw [runOps] at hs'
    rw [lastAccepted]
    cases hst : step s o with
    | ok t a =>
      obtain ⟨hIt, hrt⟩ := h1 t a hst
      rw [hst] at hs'
      refine ih hIt ?_ hP' s' hs'
      rw [hrt]
      cases assigned o with
      | none => exact hv
      | some w => rfl
    | throw t =>
      obtain ⟨hIt, hrt⟩ := h2 t hst
      rw [hst] at hs'
      exact ih hIt (hrt.trans hv) hP' s' hs'
    | abort => rw [hst] at hs'; cases hs'
    | ub => rw [hst] at hs'; cases hs'

/-- What is read after every call, whatever its outcome, is the last value passed. -/
theorem passed_of {step : σ → ω → Res σ α} {assigned : ω → Option (List (List K))} {read : σ → Reading K}
    (h : ∀ s o s', (step s o).state? = some s' →
      read s' = (match assigned o with | some v => .value v | none => read s)) :
    ∀ (ops : List ω) {s s' : σ} {v : List (List K)}, read s = .value v → runOps step s ops = some s' →
      read s' = .value (lastPassed assigned v ops) := by
  intro ops
  induction ops with
  | nil => intro s s' v hv hs'; cases hs'; exact hv
  | cons o ops ih =>
    intro s s' v hv hs'
    rw [runOps] at hs'
    cases hst : (step s o).state? with
    | none => rw [hst] at hs'; cases hs'
    | some t =>
      rw [hst] at hs'
      have := h s o t hst
      have ht : read t = .value ((assigned o).getD v) := by
        rw [this]; cases assigned o with
        | none => exact hv
        | some w => rfl
      exact ih ht hs'

section
variable [Field K]

theorem toList_v3 {k : Vec K} (h : k.size = 3) :
    [(V3.ofFn k.get).x, (V3.ofFn k.get).y, (V3.ofFn k.get).z] = k.toList := by
  rw [Vec.toList, h]; rfl

theorem toList_const (n : Nat) (x : K) : (⟨n, fun _ => x⟩ : Vec K).toList = List.replicate n x := by
  simp only [Vec.toList]
  apply List.ext_getElem <;> simp

theorem toList_zero (n : Nat) : (Vec.zero n : Vec K).toList = List.replicate n 0 := toList_const n 0

theorem toList_head {g : Nat → K} {k : Vec K} (h : k.size = 3) : ((gains6 g k).head 3).toList = k.toList := by
  rw [Vec.toList, Vec.toList, h]; rfl

theorem gains6_size {g : Nat → K} {k : Vec K} : (gains6 g k).size = 6 := rfl

theorem toVector_coeffs {M : SE3 K} {v p : Vec K} (h : M.toVector v = some p) : p.toList = coeffs M := by
  unfold SE3.toVector at h
  split at h
  · cases h; rfl
  · cases h

end

section
variable [Field K] [LinearOrder K] [FloorRing K]

theorem cartRows_setMask {g : Nat → K} {cols : Nat} {s : CartRows K} {m : Vec K} :
    (∀ s', s.setMask g cols m = .ok s' () → s'.mask = m) ∧ ∀ s', s.setMask g cols m ≠ .throw s' := by
  unfold CartRows.setMask
  constructor
  · intro s' h
    simp only at h
    split at h
    · cases h
    · split at h
      · cases h; rfl
      · cases h
  · intro s' h
    simp only at h
    split at h
    · cases h
    · split at h <;> cases h

theorem fill_mask {L : CartLaw K} : ∀ (is : List Nat) (idx : Nat) (s s' : CartRows K),
    s.fill L is idx = some s' → s'.mask = s.mask := by
  intro is
  induction is with
  | nil => intro idx s s' h; rw [CartRows.fill] at h; cases h; rfl
  | cons i is ih =>
    intro idx s s' h
    rw [CartRows.fill] at h
    split at h
    · split at h
      · split at h
        · exact (ih _ _ _ h).trans rfl
        · cases h
      · exact ih _ _ _ h
    · cases h

/-- The mask is stored as soon as its size is right. -/
theorem masked_mask {na cols off : Nat} {w : Nat → K} {s s' : Masked K} {m : Vec K}
    (h : (s.setMask na cols off w m).state? = some s') :
    s'.mask = if m.size = na then m else s.mask := by
  unfold Masked.setMask at h
  by_cases hs : m.size = na
  · rw [if_pos hs]
    rw [if_pos hs] at h
    simp only at h
    split at h
    · cases h
    · split at h
      · cases h; rfl
      · split at h
        · split at h
          · cases h; rfl
          · cases h; rfl
          · cases h
        · cases h; rfl
        · cases h
      · cases h
  · rw [if_neg hs]
    rw [if_neg hs] at h
    cases h; rfl

theorem masked_throw [IsStrictOrderedRing K] {na cols off : Nat} {w : Nat → K} {s s' : Masked K} {m : Vec K}
    (hm : ZeroOne m) (hcol : off + na ≤ cols) (hk : s.con.kind ≠ .bound)
    (h : s.setMask na cols off w m = .throw s') : s' = s := by
  by_cases hs : m.size = na
  · rw [setMask_ok ⟨hs, fun i hi => hm i (by omega)⟩ hcol hk] at h
    cases h
  · rw [setMask_size hs] at h
    cases h; rfl

theorem masked_kind {na cols off : Nat} {w : Nat → K} {s s' : Masked K} {m : Vec K}
    (h : (s.setMask na cols off w m).state? = some s') : s'.con.kind = s.con.kind := by
  have hres : ∀ (c c' : Constraint K) (r k : Nat), (c.resize r k).state? = some c' → c'.kind = c.kind := by
    intro c c' r k hc
    unfold Constraint.resize at hc
    split at hc
    · cases hc; rfl
    · cases hc; rfl
    · split at hc <;> (cases hc; rfl)
  have hset : ∀ (c c' : Constraint K) (A : Mat K), (c.setMatrix A).state? = some c' → c'.kind = c.kind := by
    intro c c' A hc
    unfold Constraint.setMatrix at hc
    split at hc
    · split at hc <;> (cases hc; rfl)
    · cases hc; rfl
  unfold Masked.setMask at h
  split at h
  · simp only at h
    split at h
    · cases h
    · split at h
      · cases h; rfl
      · split at h
        · rename_i c _ hc
          have e1 := hres _ c _ _ (by rw [hc]; rfl)
          split at h
          · rename_i c' _ hc'
            cases h
            exact (hset _ c' _ (by rw [hc']; rfl)).trans e1
          · rename_i c' hc'
            cases h
            exact (hset _ c' _ (by rw [hc']; rfl)).trans e1
          · cases h
        · rename_i c hc
          cases h
          exact hres _ c _ _ (by rw [hc]; rfl)
        · cases h
      · cases h
  · cases h; rfl

end

end Tsid
