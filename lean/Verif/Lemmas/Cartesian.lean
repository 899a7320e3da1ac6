import Verif.Lemmas.Posture
import Verif.Spec.CartesianTasks

/-!
# The masked rows of the Cartesian tasks
-/

set_option linter.unusedSectionVars false

namespace Tsid

open Spec Finset

variable {K : Type} [Field K] [LinearOrder K] [IsStrictOrderedRing K] [FloorRing K]

namespace CartRows

/-- The axis written in row `r` when the axes `Ls` are written from row `idx` on. -/
def pick (idx : Nat) (Ls : List Nat) (r : Nat) : Option Nat := if r < idx then none else Ls[r - idx]?

theorem pick_nil (idx r : Nat) : pick idx [] r = none := by unfold pick; split <;> simp

theorem pick_cons (idx i : Nat) (Ls : List Nat) (r : Nat) :
    pick idx (i :: Ls) r = if r = idx then some i else pick (idx + 1) Ls r := by
  unfold pick
  by_cases h : r = idx
  · subst h; simp
  · rw [if_neg h]
    by_cases h2 : r < idx
    · rw [if_pos h2, if_pos (by omega)]
    · rw [if_neg h2, if_neg (by omega)]
      obtain ⟨n, hn⟩ : ∃ n, r - idx = n + 1 := ⟨r - idx - 1, by omega⟩
      have : r - (idx + 1) = n := by omega
      rw [hn, this, List.getElem?_cons_succ]

/-- A vector with the entries of the axes `Ls` written from row `idx` on. -/
def putAll (f : Nat → K) (idx : Nat) (Ls : List Nat) (v : Vec K) : Vec K :=
  ⟨v.size, fun k => match pick idx Ls k with | some i => f i | none => v k⟩

/-- The rows with the axes `Ls` written from row `idx` on. -/
def overwrite (L : CartLaw K) (idx : Nat) (Ls : List Nat) (s : CartRows K) : CartRows K :=
  { s with
    con := { s.con with
      mat := ⟨s.con.mat.rows, s.con.mat.cols, fun r c =>
        match pick idx Ls r with | some i => L.jac i c | none => s.con.mat r c⟩
      vec := putAll (fun i => L.aDes i - L.drift i) idx Ls s.con.vec }
    aDes := putAll L.aDes idx Ls s.aDes
    drift := putAll L.drift idx Ls s.drift
    pErr := putAll L.pErr idx Ls s.pErr
    vErr := putAll L.vErr idx Ls s.vErr }

theorem putAll_cons (f : Nat → K) (idx i : Nat) (Ls : List Nat) (v : Vec K) :
    putAll f (idx + 1) Ls (v.put idx (f i)) = putAll f idx (i :: Ls) v := by
  unfold putAll Vec.put
  congr 1
  funext k
  rw [pick_cons]
  by_cases h : k = idx
  · subst h
    have : pick (k + 1) Ls k = none := by unfold pick; rw [if_pos (by omega)]
    simp [this]
  · simp [h]

theorem overwrite_cons (L : CartLaw K) (idx i : Nat) (Ls : List Nat) (s : CartRows K) :
    overwrite L (idx + 1) Ls (s.write L idx i) = overwrite L idx (i :: Ls) s := by
  unfold overwrite write
  simp only [putAll_cons, putAll_cons (fun i => L.aDes i - L.drift i)]
  congr 2
  congr 1
  funext r c
  rw [pick_cons]
  by_cases h : r = idx
  · subst h
    have : pick (r + 1) Ls r = none := by unfold pick; rw [if_pos (by omega)]
    simp [this]
  · simp [h]

theorem fill_eq (L : CartLaw K) : ∀ (is : List Nat) (idx : Nat) (s : CartRows K),
    (∀ i ∈ is, i < s.mask.size) → (∀ k, k < (sel s.mask is).length → s.HasRow (idx + k)) →
    fill L is idx s = some (overwrite L idx (sel s.mask is) s) := by
  intro is
  induction is with
  | nil =>
    intro idx s _ _
    simp [fill, sel, overwrite, putAll, pick_nil]
  | cons i is ih =>
    intro idx s hsz hrow
    have hi := hsz i List.mem_cons_self
    have hsz' : ∀ j ∈ is, j < s.mask.size := fun j hj => hsz j (List.mem_cons_of_mem _ hj)
    rw [fill, if_pos hi]
    by_cases h1 : s.mask i = 1
    · have hs : sel s.mask (i :: is) = i :: sel s.mask is := by simp [sel, h1]
      rw [hs] at hrow ⊢
      rw [if_pos h1, if_pos (by simpa using hrow 0 (by simp))]
      have := ih (idx + 1) (s.write L idx i) hsz' (by
        intro k hk
        have hk' := hrow (k + 1) (by simp only [List.length_cons]; exact Nat.succ_lt_succ hk)
        have e : idx + 1 + k = idx + (k + 1) := by omega
        rw [e]
        exact hk')
      rw [this]
      exact congrArg some (overwrite_cons L idx i _ s)
    · have hs : sel s.mask (i :: is) = sel s.mask is := by simp [sel, h1]
      rw [hs] at hrow ⊢
      rw [if_neg h1]
      exact ih idx s hsz' hrow

/-- Sizes and mask of the rows between two calls. -/
structure Inv (n cols : Nat) (m : Vec K) (s : CartRows K) : Prop where
  mask : s.mask = m
  adm : ValidMask n m
  kind : s.con.kind = .equality
  rows : s.con.mat.rows = countSelected m n
  cols : s.con.mat.cols = cols
  vec : s.con.vec.size = countSelected m n
  aDes : s.aDes.size = countSelected m n
  drift : s.drift.size = countSelected m n
  pErr : s.pErr.size = countSelected m n
  vErr : s.vErr.size = countSelected m n

theorem resize_size (g : Nat → K) (v : Vec K) (n : Nat) : (v.resize g n).size = n := by
  unfold Vec.resize; split
  · assumption
  · rfl

theorem inv_setMask {n cols : Nat} {g : Nat → K} {s : CartRows K} {m : Vec K} (h : ValidMask n m)
    (hk : s.con.kind = .equality) : ∃ s', s.setMask g cols m = .ok s' () ∧ Inv n cols m s' := by
  have ht := trunc_sum_mask h
  unfold setMask
  rw [if_neg (by rw [ht]; exact not_lt.2 (Int.natCast_nonneg _))]
  simp only [Constraint.resize, hk, ht, Int.toNat_natCast, length_sel]
  exact ⟨_, rfl, rfl, h, rfl, rfl, rfl, rfl, resize_size _ _ _, resize_size _ _ _, resize_size _ _ _,
    resize_size _ _ _⟩

theorem putAll_at (f : Nat → K) {m : Vec K} {n i : Nat} (v : Vec K) (hi : i < n) (h1 : m i = 1) :
    (putAll f 0 (sel m (List.range n)) v) (countSelected m i) = f i := by
  unfold putAll pick
  simp [getElem?_sel hi h1]

/-- The loop writes every selected axis in its row. -/
theorem fill_ok {n cols : Nat} {m : Vec K} {s : CartRows K} (L : CartLaw K) (hi : Inv n cols m s) :
    ∃ s', s.fill L (List.range n) 0 = some s' ∧ Inv n cols m s' ∧
      ∀ i, i < n → m i = 1 →
        (∀ c, s'.con.mat (countSelected m i) c = L.jac i c) ∧
        s'.con.vec (countSelected m i) = L.aDes i - L.drift i ∧
        s'.aDes (countSelected m i) = L.aDes i ∧ s'.drift (countSelected m i) = L.drift i ∧
        s'.pErr (countSelected m i) = L.pErr i ∧ s'.vErr (countSelected m i) = L.vErr i := by
  have hm := hi.mask
  refine ⟨_, fill_eq L (List.range n) 0 s ?_ ?_, ?_, ?_⟩
  · intro i hlt
    rw [hm, hi.adm.1]
    exact List.mem_range.1 hlt
  · intro k hk
    rw [hm, length_sel] at hk
    rw [Nat.zero_add]
    refine ⟨?_, ?_, ?_, ?_, ?_, ?_⟩
    · rw [hi.rows]; exact hk
    · rw [hi.vec]; exact hk
    · rw [hi.aDes]; exact hk
    · rw [hi.drift]; exact hk
    · rw [hi.pErr]; exact hk
    · rw [hi.vErr]; exact hk
  · exact ⟨hm, hi.adm, hi.kind, hi.rows, hi.cols, hi.vec, hi.aDes, hi.drift, hi.pErr, hi.vErr⟩
  · intro i hlt h1
    rw [hm]
    refine ⟨?_, putAll_at _ _ hlt h1, putAll_at _ _ hlt h1, putAll_at _ _ hlt h1, putAll_at _ _ hlt h1,
      putAll_at _ _ hlt h1⟩
    intro c
    simp [overwrite, pick, getElem?_sel hlt h1]

/-- Meaning of the constraint of masked rows. -/
theorem sat_iff {n cols : Nat} {m : Vec K} {s : CartRows K} {L : CartLaw K} (hi : Inv n cols m s)
    (hw : ∀ i, i < n → m i = 1 → (∀ c, s.con.mat (countSelected m i) c = L.jac i c) ∧
      s.con.vec (countSelected m i) = L.aDes i - L.drift i) (a : Nat → K) :
    Sat s.con a ↔ ∀ i, Selects m i → ∑ c ∈ range cols, L.jac i c * a c + L.drift i = L.aDes i := by
  simp only [Sat, hi.kind, row, hi.cols]
  constructor
  · intro h i hs
    have hlt : i < n := by rw [← hi.adm.1]; exact hs.1
    have hk := (List.getElem?_eq_some_iff.1 (getElem?_sel hlt hs.2)).1
    rw [length_sel, ← hi.rows] at hk
    have := h _ hk
    rw [(hw i hlt hs.2).2] at this
    simp only [(hw i hlt hs.2).1] at this
    rw [this]; ring
  · intro h k hk
    rw [hi.rows, ← length_sel] at hk
    obtain ⟨i, he⟩ : ∃ i, (sel m (List.range n))[k]? = some i := ⟨_, List.getElem?_eq_getElem hk⟩
    have ho := of_row he
    rw [row_eq_count he, (hw i ho.1 ho.2).2]
    simp only [(hw i ho.1 ho.2).1]
    have := h i ⟨by rw [hi.adm.1]; exact ho.1, ho.2⟩
    rw [← this]; ring

/-- Matrix product plus drift on the rows of a satisfied constraint. -/
theorem acc_at {n cols : Nat} {m : Vec K} {s : CartRows K} {L : CartLaw K} (hi : Inv n cols m s)
    (hw : ∀ i, i < n → m i = 1 → (∀ c, s.con.mat (countSelected m i) c = L.jac i c) ∧
      s.con.vec (countSelected m i) = L.aDes i - L.drift i) {a : Nat → K} (hs : Sat s.con a) {i : Nat}
    (hi1 : Selects m i) :
    ∑ c ∈ range s.con.mat.cols, s.con.mat (countSelected m i) c * a c = L.aDes i - L.drift i := by
  have h := (sat_iff hi hw a).1 hs i hi1
  have hlt : i < n := by rw [← hi.adm.1]; exact hi1.1
  rw [hi.cols]
  simp only [(hw i hlt hi1.2).1]
  rw [← h]; ring

end CartRows

end Tsid
