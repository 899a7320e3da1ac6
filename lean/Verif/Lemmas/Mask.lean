import Mathlib.Tactic.Ring
import Mathlib.Tactic.Linarith
import Verif.Spec.Tasks
import Verif.Model.JointTasks

/-!
# Lemmas about masks
-/

set_option linter.unusedSectionVars false

namespace Tsid

open Finset Spec

variable {K : Type} [Field K] [LinearOrder K]

/-- The selected indices of a list. -/
def sel (m : Vec K) (is : List Nat) : List Nat := is.filter (fun i => decide (m i = 1))

/-- Matrix whose row `k` has `w i` in column `off + i`, `i` being the `k`-th index of the list. -/
def selMat (dim cols off : Nat) (w : Nat → K) (L : List Nat) : Mat K :=
  ⟨dim, cols, fun k c => match L[k]? with | some i => if c = off + i then w i else 0 | none => 0⟩

theorem selMat_nil (dim cols off : Nat) (w : Nat → K) : selMat dim cols off w [] = Mat.zero dim cols := by
  simp [selMat, Mat.zero]

theorem selMat_set (dim cols off : Nat) (w : Nat → K) (L : List Nat) (i : Nat) :
    (selMat dim cols off w L).set L.length (off + i) (w i) = selMat dim cols off w (L ++ [i]) := by
  unfold selMat Mat.set
  congr 1
  funext k c
  simp only
  by_cases hk : k = L.length
  · subst hk
    simp only [true_and, List.getElem?_append_right (le_refl _), Nat.sub_self, List.getElem?_cons_zero,
      List.getElem?_eq_none (le_refl L.length)]
  · simp only [hk, false_and, if_false]
    rcases Nat.lt_or_ge k L.length with h | h
    · rw [List.getElem?_append_left h]
    · rw [List.getElem?_append_right h, List.getElem?_eq_none h]
      have : 0 < k - L.length := by omega
      obtain ⟨n, hn⟩ : ∃ n, k - L.length = n + 1 := ⟨k - L.length - 1, by omega⟩
      rw [hn]; simp

theorem maskLoop_ok (m : Vec K) (dim cols off : Nat) (w : Nat → K) :
    ∀ (is pre : List Nat) (old : List (Option Nat)),
      (∀ i ∈ is, m i = 0 ∨ m i = 1) → (∀ i ∈ is, off + i < cols) →
      pre.length + (sel m is).length ≤ dim → pre.length + old.length = dim →
      maskLoop m off w is (selMat dim cols off w pre) (pre.map some ++ old) pre.length =
        .ok ((pre ++ sel m is).map some ++ old.drop (sel m is).length) (selMat dim cols off w (pre ++ sel m is)) := by
  intro is
  induction is with
  | nil => intro pre old _ _ _ _; simp [maskLoop, sel]
  | cons i is ih =>
    intro pre old h01 hcol hlen hold
    have h01' : ∀ i ∈ is, m i = 0 ∨ m i = 1 := fun j hj => h01 j (List.mem_cons_of_mem _ hj)
    have hcol' : ∀ i ∈ is, off + i < cols := fun j hj => hcol j (List.mem_cons_of_mem _ hj)
    rcases h01 i List.mem_cons_self with h0 | h1
    · have hs : sel m (i :: is) = sel m is := by
        have : ¬ (m i = 1) := by rw [h0]; exact zero_ne_one
        simp [sel, this]
      rw [hs] at hlen ⊢
      rw [maskLoop, if_pos h0]
      exact ih pre old h01' hcol' hlen hold
    · have hs : sel m (i :: is) = i :: sel m is := by simp [sel, h1]
      rw [hs] at hlen ⊢
      simp only [List.length_cons] at hlen
      have hne : ¬ (m i = 0) := by rw [h1]; exact one_ne_zero
      rw [maskLoop, if_neg hne, if_pos h1]
      have hlt : pre.length < (selMat dim cols off w pre).rows ∧ off + i < (selMat dim cols off w pre).cols :=
        ⟨by simp only [selMat]; omega, hcol i List.mem_cons_self⟩
      rw [if_pos hlt, selMat_set]
      obtain ⟨o, old', rfl⟩ : ∃ o old', old = o :: old' := by
        cases old with
        | nil => simp at hold; omega
        | cons o old' => exact ⟨o, old', rfl⟩
      have hax : (pre.map some ++ o :: old').set pre.length (some i) = (pre ++ [i]).map some ++ old' := by
        rw [List.set_append_right _ _ (by simp)]
        simp
      rw [hax]
      have := ih (pre ++ [i]) old' h01' hcol' (by simp; omega) (by simp at hold ⊢; omega)
      simp only [List.length_append, List.length_cons, List.length_nil, Nat.zero_add] at this
      rw [this]
      simp

theorem sel_range_succ (m : Vec K) (n : Nat) :
    sel m (List.range (n + 1)) = sel m (List.range n) ++ (if m n = 1 then [n] else []) := by
  simp only [sel, List.range_succ, List.filter_append]
  by_cases h : m n = 1 <;> simp [h]

theorem length_sel (m : Vec K) (n : Nat) : (sel m (List.range n)).length = countSelected m n := by
  induction n with
  | zero => simp [sel, countSelected]
  | succ n ih =>
    rw [sel_range_succ, List.length_append, ih, countSelected]
    by_cases h : m n = 1 <;> simp [h]

theorem sum_mask (m : Vec K) (n : Nat) (h : ∀ i, i < n → m i = 0 ∨ m i = 1) :
    ∑ i ∈ range n, m i = ((sel m (List.range n)).length : K) := by
  induction n with
  | zero => simp [sel]
  | succ n ih =>
    rw [sum_range_succ, ih (fun i hi => h i (by omega)), sel_range_succ]
    rcases h n (by omega) with h0 | h1
    · have : ¬ (m n = 1) := by rw [h0]; exact zero_ne_one
      simp [h0]
    · simp [h1]

theorem mem_sel {m : Vec K} {n i : Nat} : i ∈ sel m (List.range n) ↔ i < n ∧ m i = 1 := by
  simp [sel]

section
variable [IsStrictOrderedRing K] [FloorRing K]

theorem trunc_natCast (n : Nat) : trunc (n : K) = n := by
  rw [trunc, if_pos (Nat.cast_nonneg n), Int.floor_natCast]

theorem trunc_sum_mask {na : Nat} {m : Vec K} (h : ValidMask na m) :
    trunc m.sum = (((sel m (List.range na)).length : Nat) : Int) := by
  rw [Vec.sum, h.1, sum_mask m na h.2, trunc_natCast]

theorem resizeAxes_length (axes : List (Option Nat)) (n : Nat) : (resizeAxes axes n).length = n := by
  unfold resizeAxes; split
  · assumption
  · simp

/-- The constraint after a mask has been accepted. -/
def maskCon (c : Constraint K) (dim : Nat) (S : Mat K) : Constraint K :=
  match c.kind with
  | .equality => { c with mat := S, vec := Vec.zero dim }
  | _ => { c with mat := S, lb := Vec.zero dim, ub := Vec.zero dim }

theorem setMask_ok {na cols off : Nat} {w : Nat → K} {s : Masked K} {m : Vec K}
    (h : ValidMask na m) (hcol : off + na ≤ cols) (hk : s.con.kind ≠ .bound) :
    s.setMask na cols off w m =
      .ok ⟨m, (sel m (List.range na)).map some,
        maskCon s.con (sel m (List.range na)).length
          (selMat (sel m (List.range na)).length cols off w (sel m (List.range na)))⟩ () := by
  have hd := trunc_sum_mask h
  have hloop := maskLoop_ok m (sel m (List.range na)).length cols off w (List.range na) []
    (resizeAxes s.axes (sel m (List.range na)).length)
    (fun i hi => h.2 i (List.mem_range.1 hi)) (fun i hi => by have := List.mem_range.1 hi; omega)
    (by simp) (by simp [resizeAxes_length])
  simp only [List.map_nil, List.nil_append, List.length_nil, selMat_nil] at hloop
  have hz : (resizeAxes s.axes (sel m (List.range na)).length).drop (sel m (List.range na)).length = [] := by
    rw [List.drop_eq_nil_iff, resizeAxes_length]
  rw [hz, List.append_nil] at hloop
  unfold Masked.setMask
  simp only [h.1, if_true, hd, Int.toNat_natCast, hloop]
  rw [if_neg (by omega)]
  cases hkk : s.con.kind with
  | bound => exact absurd hkk hk
  | equality => simp [Constraint.resize, hkk, Constraint.setMatrix, Mat.zero, selMat, maskCon]
  | inequality => simp [Constraint.resize, hkk, Constraint.setMatrix, Mat.zero, selMat, maskCon]

theorem setMask_size {na cols off : Nat} {w : Nat → K} {s : Masked K} {m : Vec K} (h : m.size ≠ na) :
    s.setMask na cols off w m = .throw s := by
  unfold Masked.setMask
  rw [if_neg h]

end

/-- Row of the selection matrix. -/
theorem row_selMat {dim cols off na : Nat} {w : Nat → K} {L : List Nat} (hL : ∀ i ∈ L, i < na)
    (hcol : off + na ≤ cols) (x : Nat → K) {k i : Nat} (hk : L[k]? = some i) :
    row (selMat dim cols off w L) x k = w i * x (off + i) := by
  have hi : i < na := hL i (List.mem_of_getElem? hk)
  simp only [row, selMat, hk]
  rw [Finset.sum_eq_single_of_mem (off + i) (Finset.mem_range.2 (by omega))]
  · simp
  · intro b _ hb; simp [hb]

theorem exists_row {na : Nat} {m : Vec K} {i : Nat} (hi : i < na) (h1 : m i = 1) :
    ∃ k : Nat, (sel m (List.range na))[k]? = some i := by
  have := (mem_sel (m := m) (n := na) (i := i)).2 ⟨hi, h1⟩
  exact List.mem_iff_getElem?.1 this

theorem of_row {na : Nat} {m : Vec K} {k i : Nat} (h : (sel m (List.range na))[k]? = some i) : i < na ∧ m i = 1 :=
  mem_sel.1 (List.mem_of_getElem? h)

/-- Position of a selected joint among the selected ones. -/
theorem getElem?_sel {m : Vec K} {n i : Nat} (hi : i < n) (h1 : m i = 1) :
    (sel m (List.range n))[countSelected m i]? = some i := by
  induction n with
  | zero => omega
  | succ n ih =>
    rw [sel_range_succ]
    rcases Nat.lt_or_ge i n with h | h
    · have := ih h
      rw [List.getElem?_append_left (List.getElem?_eq_some_iff.1 this).1]
      exact this
    · have : i = n := by omega
      subst this
      rw [← length_sel, List.getElem?_append_right (le_refl _)]
      simp [h1]

theorem row_eq_count {m : Vec K} {n k i : Nat} (h : (sel m (List.range n))[k]? = some i) : k = countSelected m i := by
  have h1 := of_row h
  have h2 := getElem?_sel h1.1 h1.2
  have hnd : (sel m (List.range n)).Nodup := (List.nodup_range).filter _
  obtain ⟨hk, e1⟩ := List.getElem?_eq_some_iff.1 h
  obtain ⟨hk', e2⟩ := List.getElem?_eq_some_iff.1 h2
  exact (List.Nodup.getElem_inj_iff hnd).1 (e1.trans e2.symm)

/-- Filling the vector through the axes of an accepted mask. -/
theorem fillVec_ok {na : Nat} {m : Vec K} {v : Vec K} (a : Nat → K)
    (hv : (sel m (List.range na)).length ≤ v.size) :
    ∃ b, fillVec na a ((sel m (List.range na)).map some) v = some b ∧ b.size = v.size ∧
      ∀ k i, (sel m (List.range na))[k]? = some i → b k = a i := by
  refine ⟨⟨v.size, fun k => match ((sel m (List.range na)).map some)[k]? with | some (some i) => a i | _ => v k⟩,
    ?_, rfl, ?_⟩
  · unfold fillVec
    apply if_pos
    refine ⟨by simpa using hv, List.all_eq_true.2 ?_⟩
    intro o ho
    obtain ⟨i, hi, rfl⟩ := List.mem_map.1 ho
    simpa using (mem_sel.1 hi).1
  · intro k i hk
    simp [List.getElem?_map, hk]

/-- Meaning of an equality with the matrix of a mask. -/
theorem sat_sel_eq {na cols off : Nat} {w : Nat → K} {m : Vec K} {c : Constraint K} (hcol : off + na ≤ cols)
    (hk : c.kind = .equality)
    (hm : c.mat = selMat (sel m (List.range na)).length cols off w (sel m (List.range na))) (x : Nat → K) :
    Sat c x ↔ ∀ i, i < na → m i = 1 → w i * x (off + i) = c.vec (countSelected m i) := by
  simp only [Sat, hk, hm]
  constructor
  · intro h i hlt h1
    have hi := getElem?_sel hlt h1
    have := h (countSelected m i) (List.getElem?_eq_some_iff.1 hi).1
    rwa [row_selMat (na := na) (fun i hi => (mem_sel.1 hi).1) hcol x hi] at this
  · intro h k hlt
    obtain ⟨i, hi⟩ : ∃ i, (sel m (List.range na))[k]? = some i := ⟨_, List.getElem?_eq_getElem hlt⟩
    have ho := of_row hi
    rw [row_selMat (na := na) (fun i hi => (mem_sel.1 hi).1) hcol x hi, row_eq_count hi]
    exact h i ho.1 ho.2

/-- Meaning of an inequality with the matrix of a mask. -/
theorem sat_sel_ineq {na cols off : Nat} {w : Nat → K} {m : Vec K} {c : Constraint K} (hcol : off + na ≤ cols)
    (hk : c.kind = .inequality)
    (hm : c.mat = selMat (sel m (List.range na)).length cols off w (sel m (List.range na))) (x : Nat → K) :
    Sat c x ↔ ∀ i, i < na → m i = 1 →
      c.lb (countSelected m i) ≤ w i * x (off + i) ∧ w i * x (off + i) ≤ c.ub (countSelected m i) := by
  simp only [Sat, hk, hm]
  constructor
  · intro h i hlt h1
    have hi := getElem?_sel hlt h1
    have := h (countSelected m i) (List.getElem?_eq_some_iff.1 hi).1
    rwa [row_selMat (na := na) (fun i hi => (mem_sel.1 hi).1) hcol x hi] at this
  · intro h k hlt
    obtain ⟨i, hi⟩ : ∃ i, (sel m (List.range na))[k]? = some i := ⟨_, List.getElem?_eq_getElem hlt⟩
    have ho := of_row hi
    rw [row_selMat (na := na) (fun i hi => (mem_sel.1 hi).1) hcol x hi, row_eq_count hi]
    exact h i ho.1 ho.2

/-- The loop accepts no entry other than 0 and 1. -/
theorem maskLoop_bad (m : Vec K) (off : Nat) (w : Nat → K) :
    ∀ (is : List Nat) (S : Mat K) (axes : List (Option Nat)) (j : Nat), (∃ i ∈ is, m i ≠ 0 ∧ m i ≠ 1) →
      ∀ a S', maskLoop m off w is S axes j ≠ .ok a S' := by
  intro is
  induction is with
  | nil => rintro S axes j ⟨i, hi, _⟩; cases hi
  | cons i is ih =>
    rintro S axes j ⟨i', hi, hbad⟩ a S'
    rw [maskLoop]
    by_cases h0 : m i = 0
    · rw [if_pos h0]
      rcases List.mem_cons.1 hi with rfl | hi
      · exact absurd h0 hbad.1
      · exact ih _ _ _ ⟨i', hi, hbad⟩ a S'
    · rw [if_neg h0]
      by_cases h1 : m i = 1
      · rw [if_pos h1]
        rcases List.mem_cons.1 hi with rfl | hi
        · exact absurd h1 hbad.2
        · split
          · exact ih _ _ _ ⟨i', hi, hbad⟩ a S'
          · simp
      · rw [if_neg h1]; simp

/-- Inadmissible masks are never accepted. -/
theorem setMask_bad [IsStrictOrderedRing K] [FloorRing K] {na cols off : Nat} {w : Nat → K} {s : Masked K} {m : Vec K}
    (h : ¬ ValidMask na m) : ∀ s', s.setMask na cols off w m ≠ .ok s' () := by
  intro s'
  unfold Masked.setMask
  by_cases hsz : m.size = na
  swap
  · rw [if_neg hsz]; simp
  rw [if_pos hsz]
  have hbad : ∃ i ∈ List.range m.size, m i ≠ 0 ∧ m i ≠ 1 := by
    by_contra hc
    refine h ⟨hsz, fun i hi => ?_⟩
    by_contra hn
    push Not at hn
    exact hc ⟨i, List.mem_range.2 (by omega), hn⟩
  simp only
  split
  · simp
  · have := maskLoop_bad m off w (List.range m.size) (Mat.zero (trunc m.sum).toNat cols)
      (resizeAxes s.axes (trunc m.sum).toNat) 0 hbad
    cases hl : maskLoop m off w (List.range m.size) (Mat.zero (trunc m.sum).toNat cols)
      (resizeAxes s.axes (trunc m.sum).toNat) 0 with
    | ok a S => exact absurd hl (this a S)
    | throw a => simp
    | abort => simp
    | ub => simp

end Tsid
