import Verif.Props.Gradual

/-!
# The arm lets go of its contact

The hypotheses of C110 hold for the arm of `Props/Program`: it lets go of its contact within four seconds, and touches again.
-/

set_option linter.unusedSectionVars false

namespace Tsid.Props

open Spec Finset Formulation Program

namespace ArmDemo

/-- The arm, a cycle, the beginning of a gradual removal, two cycles, and the contact again. -/
noncomputable def letGo : List (Program.Op ℝ) :=
  ops ++ [.compute snap 0, .form (.removeRigidContact "tip" 4), .compute snap 2, .compute snap 5,
    .form (.addRigidContact 0 1 1 0)]

/-- What is registered after the calls that set the arm up. -/
noncomputable def both : Registry ℝ := ⟨[.task .motion 0 1 2, .contact 0 0 1 1, .task .motion 1 0 1], [0], 0, []⟩

/-- The contact that is being let go. -/
noncomputable def fading : Fading ℝ := ⟨0, 0, 4, 40, 0 + 1 / 1000⟩

/-- The limits of the contact. -/
noncomputable def force : ForceLimits ℝ := ForceLimits.of (contacts 0)

theorem log_ops : setup.log world ops = (both, Story.begin contacts) := by
  simp [Setup.log, ops, Setup.note, Registry.next, refused, Registry.empty, Story.next, two_not_neg, one_not_neg, both,
    show setup.obj = contacts from rfl]

theorem log_cycle : setup.log world (ops ++ [.compute snap 0]) = (both, Story.begin contacts) := by
  rw [log_snoc, log_ops]
  simp [Setup.note, Story.begin, Story.stops, Story.cycle, Registry.expire, both, fade]

theorem log_begin : setup.log world ((ops ++ [.compute snap 0]) ++ [.form (.removeRigidContact "tip" 4)]) =
    ({ both with breaking := [(0 + 4, 0)] }, { Story.begin contacts with fading := [fading] }) := by
  rw [log_snoc, log_cycle]
  have e : setup.obj = contacts := rfl
  have h4 : (0 : ℝ) < 4 := by norm_num
  simp only [Setup.note, Registry.next, refused, Bool.false_eq_true, if_false, if_pos h4, Story.next, e]
  rfl

theorem lasts_two : fading.lasts 2 = true := by simp [Fading.lasts, fading]; norm_num

theorem limit_two : fading.limit 2 = 40 + 2 / 4 * (1 / 1000 - 40) := by
  simp [Fading.limit, ramp, fading]

theorem fits_two : fading.fits (fun c => (contacts c).kind) (Story.begin contacts).limits 2 = true := by
  unfold Fading.fits
  rw [limit_two]
  refine decide_eq_true (.inr ?_)
  show (0 : ℝ) ≤ _
  norm_num

theorem log_two : setup.log world (((ops ++ [.compute snap 0]) ++ [.form (.removeRigidContact "tip" 4)]) ++
      [.compute snap 2]) =
    ({ both with breaking := [(0 + 4, 0)], time := 2 }, { Story.begin contacts with
      fading := [fading]
      limits := Function.update (Story.begin contacts).limits 0 { force with fMax := 40 + 2 / 4 * (1 / 1000 - 40) } }) := by
  rw [log_snoc, log_begin]
  have e : setup.obj = contacts := rfl
  have hs : Story.stops (fun c => (contacts c).kind) { Story.begin contacts with fading := [fading] } 2 = false := by
    simp [Story.stops, lasts_two, fits_two]
  have hx : ¬ (0 + 4 : ℝ) < 2 := by norm_num
  simp only [Setup.note, e, hs, Bool.false_eq_true, if_false]
  refine Prod.ext ?_ ?_
  · simp only [Registry.expire, List.find?_cons, hx, decide_false, List.find?_nil]
  · simp only [Story.cycle, List.takeWhile_cons, lasts_two, fits_two, Bool.and_true, if_true, List.takeWhile_nil,
      List.length_singleton, List.drop_succ_cons, List.drop_nil, fade, limit_two]
    rfl

theorem log_five : setup.log world ((((ops ++ [.compute snap 0]) ++ [.form (.removeRigidContact "tip" 4)]) ++
      [.compute snap 2]) ++ [.compute snap 5]) =
    (⟨[.task .motion 0 1 2, .task .motion 1 0 1], [0], 5, []⟩, { Story.begin contacts with
      limits := Function.update (Story.begin contacts).limits 0 { force with fMax := 40 + 2 / 4 * (1 / 1000 - 40) } }) := by
  rw [log_snoc, log_two]
  have e : setup.obj = contacts := rfl
  have hl : fading.lasts 5 = false := by simp [Fading.lasts, fading]; norm_num
  have hx : (0 + 4 : ℝ) < 5 := by norm_num
  simp only [Setup.note, e]
  refine Prod.ext ?_ ?_
  · simp only [Story.stops, List.takeWhile_cons, hl, Bool.false_eq_true, if_false, List.all_nil]
    simp only [Registry.expire, List.find?_cons, hx, decide_true, List.eraseP_cons_of_pos]
    rfl
  · simp only [Story.cycle, List.takeWhile_cons, hl, Bool.false_and, Bool.false_eq_true, if_false, List.length_nil,
      List.drop_zero, fade, List.nil_append]
    rfl

theorem passes_cycle {l : List (Program.Op ℝ)} {t : ℝ}
    (hi : ∀ it ∈ ((setup.log world l).1.expire (fun c => (setup.obj c).name) t).items,
      it = .task .motion 0 1 2 ∨ it = .contact 0 0 1 1 ∨ it = .task .motion 1 0 1)
    (hf : ¬ (setup.log world l).2.fails (fun c => (setup.obj c).kind) (fun c => (setup.obj c).name) (setup.log world l).1 t) :
    setup.Passes env world l (.compute snap t) := by
  refine ⟨snapOk, le_refl 3, ?_, fun _ => hf⟩
  intro fam tid p k hm
  rcases hi _ hm with e | e | e <;> cases e <;> exact ⟨rfl, rfl, trivial⟩

/-- The text passes the check. -/
theorem vetted : Vetted env world setup letGo := by
  have old : Vetted env world setup (ops ++ [.compute snap 0]) :=
    C110_checked fun pre o post e => checked pre o (post ++ [.form (.removeRigidContact "tip" 0), .compute snap 1]) (by
      show (ops ++ [.compute snap 0]) ++ _ = _
      rw [e]; simp)
  have add : ∀ {l : List (Program.Op ℝ)} {o : Program.Op ℝ}, Vetted env world setup l → setup.Passes env world l o →
      Vetted env world setup (l ++ [o]) := by
    intro l o hl ho pre o' post e
    rcases List.eq_nil_or_concat post with rfl | ⟨q, b, rfl⟩
    · obtain ⟨rfl, h⟩ := List.append_inj' e rfl
      cases h
      exact ho
    · rw [List.concat_eq_append, ← List.cons_append, ← List.append_assoc] at e
      obtain ⟨h, -⟩ := List.append_inj' e rfl
      exact hl pre o' q h
  have h1 : Vetted env world setup ((ops ++ [.compute snap 0]) ++ [.form (.removeRigidContact "tip" 4)]) :=
    add old fun _ h => absurd h (by norm_num)
  have h2 := add h1 (o := .compute snap 2) (passes_cycle (by
      rw [log_begin]
      have hx : ¬ (0 + 4 : ℝ) < 2 := by norm_num
      simp only [Registry.expire, List.find?_cons, hx, decide_false, List.find?_nil]
      simp [both]) (by
      rw [log_begin]
      rintro ⟨pre, p, post, e, -, h⟩
      obtain ⟨rfl, rfl, rfl⟩ : pre = [] ∧ p = fading ∧ post = [] := by
        cases pre with
        | nil => cases e; exact ⟨rfl, rfl, rfl⟩
        | cons a pre => simp at e
      rcases h with h | ⟨h, -⟩
      · exact absurd h (by simp [fading])
      · rw [lasts_two] at h; cases h))
  have h3 := add h2 (o := .compute snap 5) (passes_cycle (by
      rw [log_two]
      have hx : (0 + 4 : ℝ) < 5 := by norm_num
      simp only [Registry.expire, List.find?_cons, hx, decide_true]
      intro it hit
      have := (List.mem_filter.1 hit).1
      simpa [both] using this) (by
      rw [log_two]
      rintro ⟨pre, p, post, e, -, h⟩
      obtain ⟨rfl, rfl, rfl⟩ : pre = [] ∧ p = fading ∧ post = [] := by
        cases pre with
        | nil => cases e; exact ⟨rfl, rfl, rfl⟩
        | cons a pre => simp at e
      rcases h with h | ⟨-, h⟩
      · exact absurd h (by simp [fading])
      · exact h ⟨.contact 0 0 1 1, by simp [both], by simp [Item.isContact, tip_name]⟩))
  have h4 := add h3 (o := .form (.addRigidContact 0 1 1 0)) ⟨Nat.zero_lt_two, by
    rw [log_five]
    rintro ⟨it, hm, h⟩
    simp only [List.mem_cons, List.not_mem_nil, or_false] at hm
    rcases hm with rfl | rfl <;> cases h⟩
  have e : letGo = ((((ops ++ [.compute snap 0]) ++ [.form (.removeRigidContact "tip" 4)]) ++ [.compute snap 2]) ++
      [.compute snap 5]) ++ [.form (.addRigidContact 0 1 1 0)] := by simp [letGo]
  rw [e]
  exact h4

/-- The program runs, and at its end the contact is registered again. -/
example : ∃ s, Program.run env setup.start letGo = some s ∧
    (setup.registered env world letGo).items = [.task .motion 0 1 2, .task .motion 1 0 1, .contact 0 0 1 1] := by
  obtain ⟨s, h, -, -, h', -⟩ := C110_runs declared vetted
  refine ⟨s, h, ?_⟩
  rw [h']
  have e : letGo = ((((ops ++ [.compute snap 0]) ++ [.form (.removeRigidContact "tip" 4)]) ++ [.compute snap 2]) ++
      [.compute snap 5]) ++ [.form (.addRigidContact 0 1 1 0)] := by simp [letGo]
  rw [e, log_snoc, log_five]
  rfl

/-- After the removal the contact keeps the lowered limit: a minimal force of 30, which was fine before, is refused. -/
example : setup.Declines env world ((((ops ++ [.compute snap 0]) ++ [.form (.removeRigidContact "tip" 4)]) ++
      [.compute snap 2]) ++ [.compute snap 5]) (.form (.setContact 0 (.fMin 30))) ∧
    ¬ setup.Declines env world ops (.form (.setContact 0 (.fMin 30))) := by
  unfold Setup.Declines
  constructor
  · show ForceLimits.Refuses _ _ _
    rw [log_five]
    refine ⟨by rintro ⟨⟩, .inr ?_⟩
    have e : (Function.update (Story.begin contacts).limits 0
        { force with fMax := 40 + 2 / 4 * (1 / 1000 - 40) } 0).fMax < 30 := by
      rw [Function.update_self]
      norm_num
    exact e
  · show ¬ ForceLimits.Refuses _ _ _
    rw [log_ops]
    rintro ⟨-, h | h⟩
    · exact absurd h (by norm_num)
    · exact absurd (show (40 : ℝ) < 30 from h) (by norm_num)

end ArmDemo

end Tsid.Props
