import Verif.Props.ProgramText
import Verif.Props.SolverExists

/-!
# C99: the best behaviour exists

Over the real numbers, as soon as some behaviour obeys the text of the program there is exactly one best behaviour for the
back-ends that regularise.
-/

set_option linter.unusedSectionVars false

namespace Tsid.Props
open Tsid Tsid.Spec Tsid.Formulation Tsid.Program Finset

/-- **C99, existence and uniqueness (partial).** If the weights are not negative and some behaviour obeys the text, then
there is a best one, and every best one has its accelerations, torques and contact forces.  Missing: as in
`C99_exact_partial`. -/
theorem C99_exists_partial {E : Program.Env ℝ} {W : World} {S : Setup ℝ} {ops : List (Program.Op ℝ)}
    {s0 s : Program.State ℝ} (h : GoodProgram E W S ops s0) {w : Snapshot ℝ} {t : ℝ} (hw : SnapshotOk E.robot.nv w)
    (hm : MayCycle E W S ops w t) (hc : Program.compute E w t s0 = .ok s ()) (hn : NoGradualRemoval ops)
    (hu : ∀ fam tid k, .task fam tid 0 k ∈ (S.registry E W ops t).items → (S.decl tid).Upright w)
    (hv : S.Viable E W ops w t)
    (heq : ∀ fam tid k, .task fam tid 1 k ∈ (S.registry E W ops t).items → (S.decl tid).kind = .equality)
    (hpos : ∀ it ∈ (S.registry E W ops t).items, NonNegative it) (hi : ∃ b, Intended E W S ops w t b) :
    ∃ b, Best E W S ops w t true b ∧ ∀ b', Best E W S ops w t true b' → S.Same (S.cids E W ops t) b b' := by
  obtain ⟨l0, l1, hp, ha, -⟩ := program_admissible h hw hm hc heq
  have hl := program_weights h hw hc hp hpos
  obtain ⟨b0, hb0⟩ := hi
  obtain ⟨x0, hx0, hd0⟩ := C99_every h hw hm hc hb0.dynamics
  obtain ⟨z, hz⟩ := exists_optimal ha hl
    ⟨x0, (C99_exact_partial h hw hm hc hn hu hv heq hp hx0 hd0).1.2 hb0⟩
  have hzs : (⟨nVar s.form, z⟩ : Vec ℝ).size = nVar s.form := rfl
  obtain ⟨b, hb⟩ := C99_decodes h hw hm hc hzs
  obtain ⟨z1, z2, z3⟩ := C99_exact_partial h hw hm hc hn hu hv heq hp hzs hb
  have hbest : Best E W S ops w t true b := by
    refine ⟨z1.1 hz.1, fun b' hb' => ?_⟩
    obtain ⟨x, hx, hdx⟩ := C99_every h hw hm hc hb'.dynamics
    obtain ⟨x1, x2, x3⟩ := C99_exact_partial h hw hm hc hn hu hv heq hp hx hdx
    have := hz.2 x (x1.2 hb')
    unfold Setup.aim
    rw [if_pos rfl, if_pos rfl, ← x2, ← x3, ← z2, ← z3]
    unfold target at this
    rw [if_pos rfl, if_pos rfl] at this
    exact this
  exact ⟨b, hbest, fun b' hb' => C99_unique_partial h hw hm hc hn hu hv heq hpos hbest hb'⟩

namespace ArmDemo

/-- The arm has exactly one best behaviour. -/
example : ∃ b, Best env world setup ops snap 0 true b ∧
    ∀ b', Best env world setup ops snap 0 true b' → setup.Same (setup.cids env world ops 0) b b' := by
  obtain ⟨m, f, hm, ha, hc⟩ := computes
  obtain ⟨l0, l1, h1, h2, h3⟩ := feasible hm ha
  obtain ⟨b, hb⟩ := C99_decodes good snapOk mayCycle hc h2
  refine C99_exists_partial good snapOk mayCycle hc noRemoval upright viable equalities ?_ ⟨b,
    (C99_exact_partial good snapOk mayCycle hc noRemoval upright viable equalities h1 h2 hb).1.1 h3⟩
  intro it hit
  rw [items] at hit
  simp only [List.mem_cons, List.not_mem_nil, or_false] at hit
  rcases hit with rfl | rfl | rfl <;> simp [NonNegative]

end ArmDemo

end Tsid.Props
