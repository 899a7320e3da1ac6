import Verif.Spec.Registry
import Verif.Lemmas.Steps
import Mathlib.Data.List.Nodup
import Mathlib.Data.List.Perm.Basic
import Mathlib.Data.List.Lattice

/-!
# Names and lists

Reserved names are pairwise different; removal and weight updates on lists whose names are unique.
-/

set_option linter.unusedSectionVars false

namespace Tsid

/-! ## Reserved names -/

theorem suffix_inj {a b s : String} (h : a ++ s = b ++ s) : a = b := by
  have := congrArg String.toList h
  simp only [String.toList_append] at this
  exact String.toList_inj.1 (List.append_cancel_right this)

theorem motion_ne_force (a b : String) : a ++ "_motion_task" ≠ b ++ "_force_constraint" := by
  intro h
  have := congrArg (fun s => s.toList.reverse) h
  simp at this

theorem motion_ne_reg (a b : String) : a ++ "_motion_task" ≠ b ++ "_force_reg_task" := by
  intro h
  have := congrArg (fun s => s.toList.reverse) h
  simp at this

theorem force_ne_reg (a b : String) : a ++ "_force_constraint" ≠ b ++ "_force_reg_task" := by
  intro h
  have := congrArg (fun s => s.toList.reverse) h
  simp at this

theorem motion_ne_base (a : String) : a ++ "_motion_task" ≠ "base-dynamics" := by
  intro h
  have := congrArg (fun s => s.toList.reverse) h
  simp at this

theorem force_ne_base (a : String) : a ++ "_force_constraint" ≠ "base-dynamics" := by
  intro h
  have := congrArg (fun s => s.toList.reverse) h
  simp at this

theorem reg_ne_base (a : String) : a ++ "_force_reg_task" ≠ "base-dynamics" := by
  intro h
  have := congrArg (fun s => s.toList.reverse) h
  simp at this

/-! ## Lists -/

theorem eraseP_eq_filter {α : Type} (p : α → Bool) : ∀ l : List α,
    l.Pairwise (fun a b => ¬ (p a = true ∧ p b = true)) → l.eraseP p = l.filter (fun a => !p a)
  | [], _ => rfl
  | a :: l, h => by
    rw [List.pairwise_cons] at h
    rw [List.eraseP_cons, List.filter_cons]
    by_cases ha : p a = true
    · simp only [ha, Bool.not_true]
      have : l.filter (fun a => !p a) = l := by
        rw [List.filter_eq_self]
        intro b hb
        have := h.1 b hb
        simp only [ha, true_and, Bool.not_eq_true] at this
        simp [this]
      simp [this]
    · simp only [Bool.not_eq_true] at ha
      simp [ha, eraseP_eq_filter p l h.2]

theorem pairwise_of_nodup_map {α β : Type} [DecidableEq β] (f : α → β) (b : β) (l : List α)
    (h : (l.map f).Nodup) : l.Pairwise (fun x y => ¬ ((f x == b) = true ∧ (f y == b) = true)) := by
  rw [List.Nodup, List.pairwise_map] at h
  refine h.imp ?_
  intro x y hxy ⟨h1, h2⟩
  rw [beq_iff_eq] at h1 h2
  exact hxy (h1.trans h2.symm)

theorem flatMap_if_nil {α β : Type} (p : α → Bool) (f : α → List β) : ∀ l : List α,
    l.flatMap (fun x => if p x = true then [] else f x) = (l.filter (fun x => !p x)).flatMap f
  | [] => rfl
  | a :: l => by
    rw [List.flatMap_cons, List.filter_cons, flatMap_if_nil p f l]
    by_cases ha : p a = true
    · simp [ha]
    · simp only [Bool.not_eq_true] at ha
      simp [ha]

theorem flatMap_congr_mem {α β : Type} {f g : α → List β} : ∀ {l : List α}, (∀ x ∈ l, f x = g x) →
    l.flatMap f = l.flatMap g
  | [], _ => rfl
  | a :: l, h => by
    rw [List.flatMap_cons, List.flatMap_cons, h a (List.mem_cons_self ..),
      flatMap_congr_mem (fun x hx => h x (List.mem_cons_of_mem _ hx))]

theorem filterMap_congr_mem {α β : Type} {f g : α → Option β} : ∀ {l : List α}, (∀ x ∈ l, f x = g x) →
    l.filterMap f = l.filterMap g
  | [], _ => rfl
  | a :: l, h => by
    rw [List.filterMap_cons, List.filterMap_cons, h a (List.mem_cons_self ..),
      filterMap_congr_mem (fun x hx => h x (List.mem_cons_of_mem _ hx))]

namespace Formulation

variable {K : Type} [Field K] [LinearOrder K] [HasSqrt K]

/-- Name of an HQP entry. -/
def entryName (heap : Nat → Constraint K) (e : K × Nat) : String := (heap e.2).name

theorem named_eq (heap : Nat → Constraint K) (n : String) :
    named heap n = fun e => entryName heap e == n := rfl

theorem removeFromLevels_filter (heap : Nat → Constraint K) (n : String) : ∀ l : List (List (K × Nat)),
    (l.flatten.map (entryName heap)).Nodup →
    removeFromLevels heap n l =
      (l.map (List.filter fun e => !named heap n e), l.flatten.any (named heap n))
  | [], _ => rfl
  | a :: l, h => by
    rw [List.flatten_cons, List.map_append, List.nodup_append'] at h
    obtain ⟨h1, h2, h3⟩ := h
    unfold removeFromLevels
    rw [List.flatten_cons, List.any_append, List.map_cons]
    by_cases ha : a.any (named heap n) = true
    · rw [if_pos ha, ha, Bool.true_or, eraseP_eq_filter (named heap n) a (pairwise_of_nodup_map (entryName heap) n a h1)]
      have hl : l.map (List.filter fun e => !named heap n e) = l := by
        rw [List.map_congr_left (g := id), List.map_id]
        intro lv hlv
        rw [List.filter_eq_self.2, id]
        intro e he
        rw [List.any_eq_true] at ha
        obtain ⟨e', he', hn'⟩ := ha
        simp only [named, Bool.not_eq_true', beq_eq_false_iff_ne]
        intro hn
        refine h3 (List.mem_map_of_mem he') ?_
        rw [named, beq_iff_eq] at hn'
        have : entryName heap e' = entryName heap e := by unfold entryName; rw [hn, hn']
        rw [this]
        exact List.mem_map_of_mem (List.mem_flatten.2 ⟨lv, hlv, he⟩)
      rw [hl]
    · rw [if_neg ha]
      rw [Bool.not_eq_true] at ha
      rw [ha, Bool.false_or, removeFromLevels_filter heap n l h2]
      have hf : a.filter (fun e => !named heap n e) = a := by
        rw [List.filter_eq_self]
        intro e he
        rw [List.any_eq_false] at ha
        have := ha e he
        rw [Bool.not_eq_true] at this
        rw [this]; rfl
      rw [hf]

theorem setWeight_map (heap : Nat → Constraint K) (n : String) (w : K) : ∀ l : List (K × Nat),
    (l.map (entryName heap)).Nodup →
    setWeight heap n w l =
      (l.map (fun e => if named heap n e = true then (w, e.2) else e), l.any (named heap n))
  | [], _ => rfl
  | a :: l, h => by
    rw [List.map_cons, List.nodup_cons] at h
    unfold setWeight
    by_cases ha : named heap n a = true
    · have hl : l.map (fun e => if named heap n e = true then (w, e.2) else e) = l := by
        rw [List.map_congr_left (g := id), List.map_id]
        intro e he
        rw [if_neg, id]
        intro hn
        apply h.1
        rw [named, beq_iff_eq] at ha hn
        have : entryName heap a = entryName heap e := by unfold entryName; rw [hn, ha]
        rw [this]
        exact List.mem_map_of_mem he
      rw [if_pos ha, List.map_cons, List.any_cons, if_pos ha, hl, ha]; rfl
    · rw [if_neg ha, setWeight_map heap n w l h.2, List.map_cons, List.any_cons, if_neg ha]
      rw [Bool.not_eq_true] at ha
      rw [ha]; rfl

/-- What `updateRigidContactWeights` does to an entry. -/
def scanEntry (heap : Nat → Constraint K) (cn : String) (wf wm : K) (e : K × Nat) : K × Nat :=
  if named heap (cn ++ "_force_reg_task") e = true then (if 0 ≤ wf then (wf, e.2) else e)
  else if named heap (cn ++ "_motion_task") e = true then (if 0 ≤ wm then (wm, e.2) else e)
  else e

theorem scanEntry_other (heap : Nat → Constraint K) (cn : String) (wf wm : K) (l : List (K × Nat))
    (hr : l.any (named heap (cn ++ "_force_reg_task")) = false)
    (hm : l.any (named heap (cn ++ "_motion_task")) = false ∨ wm < 0) :
    l.map (scanEntry heap cn wf wm) = l := by
  rw [List.map_congr_left (g := id), List.map_id]
  intro e he
  rw [List.any_eq_false] at hr
  unfold scanEntry
  rw [if_neg (hr e he)]
  split
  · next hn =>
    rcases hm with hm | hm
    · rw [List.any_eq_false] at hm
      exact absurd hn (hm e he)
    · rw [if_neg (not_le.2 hm), id]
  · rfl

theorem any_false_of_nodup (heap : Nat → Constraint K) (n : String) (a : K × Nat) (l : List (K × Nat))
    (h : entryName heap a ∉ l.map (entryName heap)) (ha : named heap n a = true) :
    l.any (named heap n) = false := by
  rw [List.any_eq_false]
  intro e he hn
  apply h
  rw [named, beq_iff_eq] at ha hn
  have : entryName heap a = entryName heap e := by unfold entryName; rw [hn, ha]
  rw [this]
  exact List.mem_map_of_mem he

theorem scanLevel_map (heap : Nat → Constraint K) (cn : String) (wf wm : K) : ∀ (l : List (K × Nat))
    (rf mf : Bool), (l.map (entryName heap)).Nodup →
    (rf = true → l.any (named heap (cn ++ "_force_reg_task")) = false ∧ 0 ≤ wm) →
    (mf = true → l.any (named heap (cn ++ "_motion_task")) = false) →
    (scanLevel heap cn wf wm l rf mf).out = l.map (scanEntry heap cn wf wm) ∧
    ((scanLevel heap cn wf wm l rf mf).returned = true ↔
      (l.any (named heap (cn ++ "_force_reg_task")) = true ∧
        (mf = true ∨ wm < 0 ∨ l.any (named heap (cn ++ "_motion_task")) = true)) ∨
      (l.any (named heap (cn ++ "_motion_task")) = true ∧ rf = true))
  | [], rf, mf, _, _, _ => by simp [scanLevel]
  | a :: l, rf, mf, h, hr, hm => by
    rw [List.map_cons, List.nodup_cons] at h
    unfold scanLevel
    simp only [List.map_cons, List.any_cons]
    by_cases har : named heap (cn ++ "_force_reg_task") a = true
    · have ham : named heap (cn ++ "_motion_task") a = false := by
        rw [named, beq_iff_eq] at har
        rw [named, har, beq_eq_false_iff_ne]
        exact fun e => motion_ne_reg _ _ e.symm
      have hlr := any_false_of_nodup heap _ a l h.1 har
      have hrf : rf = false := by
        cases rf with
        | false => rfl
        | true => have := (hr rfl).1; simp [har] at this
      subst hrf
      have hse : scanEntry heap cn wf wm a = if 0 ≤ wf then (wf, a.2) else a := by
        unfold scanEntry; rw [if_pos har]
      rw [if_pos har]
      by_cases hc : mf = true ∨ wm < 0
      · rw [if_pos hc]
        refine ⟨?_, by simp [har]; tauto⟩
        rw [hse]
        simp only [List.cons.injEq, true_and]
        refine (scanEntry_other heap cn wf wm l hlr ?_).symm
        rcases hc with hc | hc
        · left
          have := hm hc
          rw [List.any_cons, Bool.or_eq_false_iff] at this
          exact this.2
        · exact Or.inr hc
      · rw [if_neg hc]
        push Not at hc
        obtain ⟨h1, h2⟩ := scanLevel_map heap cn wf wm l true mf h.2 (fun _ => ⟨hlr, hc.2⟩)
          (fun hmf => by
            have := hm hmf
            rw [List.any_cons, Bool.or_eq_false_iff] at this
            exact this.2)
        refine ⟨by rw [hse]; simp only [h1], ?_⟩
        simp only [h2, hlr, har, ham]
        have hmf : mf = false := by
          cases mf with
          | false => rfl
          | true => exact absurd rfl hc.1
        have : ¬ wm < 0 := not_lt.2 hc.2
        simp [hmf, this]
    · rw [if_neg har]
      rw [Bool.not_eq_true] at har
      by_cases ham : named heap (cn ++ "_motion_task") a = true
      · rw [if_pos ham]
        have hlm := any_false_of_nodup heap _ a l h.1 ham
        have hmf : mf = false := by
          cases mf with
          | false => rfl
          | true => have := hm rfl; simp [ham] at this
        subst hmf
        have hse : scanEntry heap cn wf wm a = if 0 ≤ wm then (wm, a.2) else a := by
          unfold scanEntry; rw [if_neg (by simp [har]), if_pos ham]
        by_cases hrf : rf = true
        · rw [if_pos hrf]
          refine ⟨?_, by simp [ham, hrf]⟩
          rw [hse]
          simp only [List.cons.injEq, true_and]
          refine (scanEntry_other heap cn wf wm l ?_ (Or.inl hlm)).symm
          have := (hr hrf).1
          rw [List.any_cons, Bool.or_eq_false_iff] at this
          exact this.2
        · rw [if_neg hrf]
          rw [Bool.not_eq_true] at hrf
          subst hrf
          obtain ⟨h1, h2⟩ := scanLevel_map heap cn wf wm l false true h.2 (fun e => by cases e) (fun _ => hlm)
          refine ⟨by rw [hse]; simp only [h1], ?_⟩
          simp only [h2, hlm, har, ham]
          simp
      · rw [if_neg ham]
        rw [Bool.not_eq_true] at ham
        have hse : scanEntry heap cn wf wm a = a := by
          unfold scanEntry; rw [if_neg (by simp [har]), if_neg (by simp [ham])]
        obtain ⟨h1, h2⟩ := scanLevel_map heap cn wf wm l rf mf h.2
          (fun e => by
            have := (hr e).1
            rw [List.any_cons, Bool.or_eq_false_iff] at this
            exact ⟨this.2, (hr e).2⟩)
          (fun e => by
            have := hm e
            rw [List.any_cons, Bool.or_eq_false_iff] at this
            exact this.2)
        refine ⟨by rw [hse]; simp only [h1], ?_⟩
        simp only [h2, har, ham, Bool.false_or]

end Formulation

end Tsid
