import Verif.Lemmas.RegistryRun

/-!
# Lines of the problem before and after a call
-/

set_option linter.unusedSectionVars false

namespace Tsid.Formulation

open Spec

variable {K : Type} [Field K] [LinearOrder K] [HasSqrt K]

/-- The line of an HQP entry. -/
def line (heap : Nat → Constraint K) (e : K × Nat) : Entry K :=
  ⟨e.1, (heap e.2).name, (heap e.2).kind, (heap e.2).mat.rows⟩

theorem entries_line (s : State K) : entries s = s.hqp.map (List.map (line s.heap)) := rfl

theorem map_line_congr {h h' : Nat → Constraint K} {l : List (List (K × Nat))}
    (hh : ∀ id ∈ hqpIds l, (h' id).name = (h id).name ∧ (h' id).kind = (h id).kind ∧ (h' id).mat.rows = (h id).mat.rows) :
    l.map (List.map (line h')) = l.map (List.map (line h)) := by
  apply List.map_congr_left
  intro lv hlv
  apply List.map_congr_left
  intro e he
  obtain ⟨h1, h2, h3⟩ := hh e.2 (mem_hqpIds.2 ⟨lv, hlv, e, he, rfl⟩)
  unfold line
  rw [h1, h2, h3]

theorem map_modify_append {α β : Type} (f : α → β) (x : α) : ∀ (l : List (List α)) (p : Nat),
    (l.modify p (fun lv => lv ++ [x])).map (List.map f) = (l.map (List.map f)).modify p (fun lv => lv ++ [f x])
  | [], p => by simp
  | lv :: l, 0 => by simp
  | lv :: l, p + 1 => by simp [map_modify_append f x l p]

/-- Levels of an addition. -/
theorem addTask_none_iff {W : World} {s : State K} (hl : s.hqp.length = 2) {tid p : Nat} {w : K} :
    addTask W s tid w p = none ↔ 2 ≤ p := by
  constructor
  · intro h
    by_contra hp
    push Not at hp
    unfold addTask at h
    dsimp only at h
    have hg : growLevels s.hqp p = s.hqp := by unfold growLevels; rw [if_neg (by omega)]
    rw [hg, pushLevel_isSome (by omega)] at h
    cases h
  · intro hp
    cases h : addTask W s tid w p with
    | none => rfl
    | some r =>
      have := (addTask_shape (id := r.2) (s1 := r.1) h).2.1
      omega

theorem addTask_entries {W : World} {s s1 : State K} (hi : Inv W s) {tid p : Nat} {w : K} {id : Nat}
    (h : addTask W s tid w p = some (s1, id)) :
    s1.hqp.map (List.map (line s1.heap)) = (entries s).modify p (fun l =>
      l ++ [⟨w, (W.task tid).cname, entryKind (W.task tid).kind, (W.task tid).rows⟩]) := by
  obtain ⟨-, hp, hqp, e, i, hq, rfl⟩ := addTask_shape h
  obtain ⟨-, rfl⟩ := pushLevel_some hq
  obtain ⟨c1, c2, c3, -, -⟩ := newCell_facts (K := K) (W.task tid) (s.nv + s.k)
  dsimp only at c1 c2 c3 ⊢
  generalize (if (W.task tid).kind = Kind.equality then
    Constraint.mkEq (W.task tid).cname (W.task tid).rows (s.nv + s.k)
    else Constraint.mkIneq (W.task tid).cname (W.task tid).rows (s.nv + s.k) : Constraint K) = c at *
  have hk : heapKind (W.task tid).kind = entryKind (W.task tid).kind := by
    cases (W.task tid).kind <;> rfl
  rw [map_modify_append, entries_line]
  have e1 : s.hqp.map (List.map (line (Function.update s.heap s.next c))) = s.hqp.map (List.map (line s.heap)) := by
    apply map_line_congr
    intro id hid
    have := hi.pre.idsLt id hid
    rw [Function.update_of_ne (by omega)]
    exact ⟨rfl, rfl, rfl⟩
  have e2 : line (Function.update s.heap s.next c) (w, s.next) =
      ⟨w, (W.task tid).cname, entryKind (W.task tid).kind, (W.task tid).rows⟩ := by
    unfold line
    simp only [Function.update_self, c1, c2, c3, hk]
    rfl
  rw [e1, e2]

theorem resize_line {W : World} {s : State K} (hp : Pre W s) (k : Nat) (e : K × Nat) :
    line (resizeHqpData { s with k := k }).heap e = line s.heap e := by
  unfold line
  rw [resize_name, resize_kind, resize_rows]
  · exact hp.noBound
  · exact hp.baseRows

theorem addRigidContact_entries {W : World} {s : State K} (hi : Inv W s) {cid p : Nat} {wf wm : K} (hp : p < 2) :
    ∃ s', addRigidContact s cid wf wm p = .ok s' true ∧
      entries s' = (((entries s).modify p (fun l => l ++
        [⟨wm, (s.contactObj cid).name ++ "_motion_task", .equality, Contact.kindMotion (s.contactObj cid).kind⟩])).modify 0
        (fun l => l ++ [⟨1, (s.contactObj cid).name ++ "_force_constraint", .inequality,
          Contact.kindIneqRows (s.contactObj cid).kind⟩])).modify 1
        (fun l => l ++ [⟨wf, (s.contactObj cid).name ++ "_force_reg_task", .equality,
          Contact.kindRegRows (s.contactObj cid).kind⟩]) := by
  have hl := hi.pre.len
  have hsh := hi.pre.shaped cid
  unfold addRigidContact
  dsimp only
  have h1 : (resizeHqpData { s with k := s.k + (s.contactObj cid).nForce }).hqp = s.hqp := rfl
  have h2 : (resizeHqpData { s with k := s.k + (s.contactObj cid).nForce }).next = s.next := rfl
  have hrow : ∀ e, line (resizeHqpData { s with k := s.k + (s.contactObj cid).nForce }).heap e = line s.heap e :=
    resize_line hi.pre _
  generalize resizeHqpData { s with k := s.k + (s.contactObj cid).nForce } = s1 at *
  have i1 : (s.contactObj cid).forceIneq.rows = Contact.kindIneqRows (s.contactObj cid).kind := by
    rw [rows_eq (by rw [hsh.ineqKind]; decide), hsh.ineqRows]
  have i2 : (s.contactObj cid).forceReg.rows = Contact.kindRegRows (s.contactObj cid).kind := by
    rw [rows_eq (by rw [hsh.regKind]; decide), hsh.regRows]
  rw [pushLevel_isSome (by rw [h1]; omega)]
  dsimp only
  rw [pushLevel_isSome (by rw [List.length_modify, h1]; omega)]
  dsimp only
  rw [pushLevel_isSome (by rw [List.length_modify, List.length_modify, h1]; omega)]
  dsimp only
  refine ⟨_, rfl, ?_⟩
  rw [entries_line]
  dsimp only
  rw [map_modify_append, map_modify_append, map_modify_append, h1, h2, entries_line]
  have hold : s.hqp.map (List.map (line (Function.update (Function.update (Function.update s1.heap s.next
      (Constraint.mkEq ((s.contactObj cid).name ++ "_motion_task") (s.contactObj cid).nMotion (s1.nv + s1.k)))
      (s.next + 1) (Constraint.mkIneq ((s.contactObj cid).name ++ "_force_constraint")
        (s.contactObj cid).forceIneq.rows (s1.nv + s1.k)))
      (s.next + 2) (Constraint.mkEq ((s.contactObj cid).name ++ "_force_reg_task")
        (s.contactObj cid).forceReg.rows (s1.nv + s1.k))))) = s.hqp.map (List.map (line s.heap)) := by
    apply List.map_congr_left
    intro lv hlv
    apply List.map_congr_left
    intro e he
    have := hi.pre.idsLt e.2 (mem_hqpIds.2 ⟨lv, hlv, e, he, rfl⟩)
    rw [← hrow e]
    unfold line
    rw [Function.update_of_ne (by omega), Function.update_of_ne (by omega), Function.update_of_ne (by omega)]
  rw [hold]
  have ne1 : s.next ≠ s.next + 1 := by omega
  have ne2 : s.next ≠ s.next + 2 := by omega
  have ne3 : s.next + 1 ≠ s.next + 2 := by omega
  simp only [line, Function.update_self, Function.update_of_ne ne1, Function.update_of_ne ne2,
    Function.update_of_ne ne3, Constraint.mkEq, Constraint.mkIneq, Mat.zero, i1, i2]
  rfl

end Tsid.Formulation
