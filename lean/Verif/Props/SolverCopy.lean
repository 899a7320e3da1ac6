import Verif.Model.SolverCopy
import Verif.Props.SolverSettings

/-!
# C82: copies of a `SolverOSQP`
-/

set_option linter.unusedSectionVars false

namespace Tsid.Props

open Solver

variable {K : Type} [Field K]

/-- **C82, partial.** A copy of a solver (in whatever state) treats a problem whose number of variables differs from the
one the solver was last used with exactly as the original would.

Missing: problems with that number of variables (`C82_same_variables`). -/
theorem C82_other_variables_partial (fresh : Nat → Nat → K) (nd : Bool) (s : State K (OsqpRows K)) (w : K)
    (c : Constraint K) (l : Level K) (ls : HQPData K) (b : Bool) (hls : ls.length ≤ 1) (hn : c.cols ≠ s.n) :
    retrieve osqp fresh nd (Osqp.copy s) (((w, c) :: l) :: ls) b = retrieve osqp fresh nd s (((w, c) :: l) :: ls) b := by
  have h2 : ¬ 2 < (((w, c) :: l) :: ls).length := by rw [List.length_cons]; omega
  unfold retrieve
  simp only [if_neg h2]
  simp only [osqp, Osqp.copy, Osqp.resize, Mat.resizeIf, Vec.resizeIf, hn, ne_eq, not_false_eq_true, true_or, or_true,
    if_true]

/-- **C82, the rest is false.** A copy of a solver that has been used with `n > 0` variables runs into undefined behaviour
with every problem of `n` variables and a cost: it takes its empty matrices for matrices of the right size. -/
theorem C82_same_variables (fresh : Nat → Nat → K) (nd : Bool) (s : State K (OsqpRows K)) (l0 l1 : Level K) (w : K)
    (c : Constraint K) (b : Bool) (hn : s.n ≠ 0) (h0 : ∀ q ∈ l0, q.2.cols = s.n) (hc : c.kind = .equality)
    (hcn : c.mat.cols = s.n) :
    retrieve osqp fresh nd (Osqp.copy s) [l0, (w, c) :: l1] b = .ub := by
  have hcost : ∀ s' : State K (OsqpRows K), s'.H.rows = 0 →
      cost osqp b (some ((w, c) :: l1)) s' = .ub := by
    intro s' hs'
    have : costLoop ((w, c) :: l1) (Mat.zero s'.H.rows s'.H.cols, Vec.zero s'.g.size) = .ub := by
      unfold costLoop
      rw [if_neg (by simp [hc]), if_neg]
      rintro ⟨h, -⟩
      rw [hcn] at h
      exact hn (h.trans (by simpa [Mat.zero] using hs'))
    unfold cost
    simp only [this]
  unfold retrieve
  rw [if_neg (by simp)]
  cases l0 with
  | nil =>
    simp only [osqp, Osqp.copy, Osqp.resize, List.head?]
    exact hcost _ (by simp [Mat.resizeIf, Mat.zero])
  | cons q l =>
    obtain ⟨w0, c0⟩ := q
    have hc0 : c0.cols = s.n := h0 (w0, c0) List.mem_cons_self
    have hany : (((w0, c0) :: l).any fun q => q.2.cols ≠ c0.cols) = false := by
      rw [List.any_eq_false]
      intro q hq
      simp [h0 q hq, hc0]
    simp only [hany, Bool.and_false]
    rw [if_neg (by simp)]
    simp only [osqp, Osqp.copy, Osqp.resize, List.head?]
    split
    · exact hcost _ (by simp [Mat.resizeIf, Mat.zero, hc0])
    · rfl

/-- **C82, problems without a cost.** With the number of variables of the original, a problem that only has level 0 is
written out of bounds by the copy when it has the numbers of equalities and inequalities of the original, and is handed to
the external solver as by the original otherwise. -/
theorem C82_same_sizes (fresh : Nat → Nat → K) (nd : Bool) (s : State K (OsqpRows K)) (w : K) (c : Constraint K)
    (l : Level K) (b : Bool) (h0 : ∀ q ∈ (w, c) :: l, q.2.cols = s.n) (hr : c.rows ≠ 0) :
    (count ((w, c) :: l) = (s.neq, s.nin) → retrieve osqp fresh nd (Osqp.copy s) [(w, c) :: l] b = .ub) ∧
    (count ((w, c) :: l) ≠ (s.neq, s.nin) →
      (retrieve osqp fresh nd (Osqp.copy s) [(w, c) :: l] b).state?.map State.rows =
        (retrieve osqp fresh nd s [(w, c) :: l] b).state?.map State.rows) := by
  have hc : c.cols = s.n := h0 _ List.mem_cons_self
  have hany : (((w, c) :: l).any fun q => q.2.cols ≠ c.cols) = false := by
    rw [List.any_eq_false]
    intro q hq
    simp [h0 q hq, hc]
  constructor
  · intro hcount
    unfold retrieve
    rw [if_neg (by simp)]
    simp only [hany, Bool.and_false]
    rw [if_neg (by simp)]
    have hput : ∀ (A : Mat K) (lb ub : Vec K) (r : OsqpRows K), r.CI.rows = 0 → Osqp.putPair r c.rows A lb ub = none := by
      intro A lb ub r h
      have : r.CI.setRows r.iIn c.rows A = none := by
        unfold Mat.setRows
        rw [if_neg]
        rintro ⟨-, -, h'⟩
        omega
      simp only [Osqp.putPair, this]
    have hnone : ∀ (n : Nat) (r : OsqpRows K), r.CI.rows = 0 → putAll osqp n ((w, c) :: l) r = none := by
      intro n r h
      have : (osqp : Backend K _).put n r c = none := by
        show Osqp.put n r c = none
        unfold Osqp.put
        cases c.kind <;> exact hput _ _ _ _ h
      simp only [putAll, this]
    simp only [(show (osqp : Backend K (OsqpRows K)).resize = Osqp.resize from rfl), Osqp.resize]
    rw [hnone]
    show (Mat.resizeIf _ _ _ _ _).rows = 0
    have hcount' : (osqp : Backend K _).count ((w, c) :: l) = (s.neq, s.nin) := hcount
    simp [Mat.resizeIf, Osqp.copy, hc, hcount', Mat.zero, (show (osqp : Backend K (OsqpRows K)).pre = fun _ r => r from rfl)]
  · intro hcount
    have hne : ((c.cols ≠ s.n ∨ (count ((w, c) :: l)).2 ≠ s.nin) ∨ c.cols ≠ s.n ∨ (count ((w, c) :: l)).1 ≠ s.neq) := by
      by_contra h
      push Not at h
      exact hcount (Prod.ext h.2.2 h.1.2)
    have key : ∀ s' : State K (OsqpRows K), s'.n = s.n → s'.neq = s.neq → s'.nin = s.nin →
        (retrieve osqp fresh nd s' [(w, c) :: l] b).state?.map State.rows =
          putAll osqp c.cols ((w, c) :: l)
            ⟨⟨(count ((w, c) :: l)).2 + (count ((w, c) :: l)).1, c.cols, fresh⟩,
              Vec.fresh fresh ((count ((w, c) :: l)).2 + (count ((w, c) :: l)).1),
              Vec.fresh fresh ((count ((w, c) :: l)).2 + (count ((w, c) :: l)).1), 0⟩ := by
      intro s' h1 h2 h3
      unfold retrieve
      rw [if_neg (by simp)]
      simp only [hany, Bool.and_false]
      rw [if_neg (by simp)]
      simp only [osqp, Osqp.resize, Mat.resizeIf, Vec.resizeIf, Vec.fresh, h1, h2, h3, if_pos hne, List.head?]
      split
      · rename_i heq
        rw [heq]
        rfl
      · rename_i heq
        rw [heq]
        rfl
    rw [key s rfl rfl rfl, key (Osqp.copy s) rfl rfl rfl]

/-- A constraint of two variables. -/
def row82 (a b v : ℚ) : Constraint ℚ :=
  ⟨"c", .equality, ⟨1, 2, fun _ j => if j = 0 then a else b⟩, ⟨1, fun _ => v⟩, Vec.zero 0, Vec.zero 0⟩

/-- The original can be used again with a problem of the same sizes, its copy cannot; with one more variable both
hold the same data. -/
example :
    let p : HQPData ℚ := [[(1, row82 1 2 3)], [(1, row82 4 5 6)]]
    ∃ s : State ℚ (OsqpRows ℚ), (retrieve osqp (fun _ _ => 7) true Osqp.init p false).state? = some s ∧ s.n = 2 ∧
      ((retrieve osqp (fun _ _ => 7) true s p false).state?.map fun s => s.rows.CI.toLists) = some [[1, 2]] ∧
      (retrieve osqp (fun _ _ => 7) true (Osqp.copy s) p false).isUB = true :=
  ⟨_, rfl, by decide +kernel, by decide +kernel, by decide +kernel⟩

/-- The same without a cost: the copy fails with one equality, as the original had, and can be used with two. -/
example :
    let p : HQPData ℚ := [[(1, row82 1 2 3)], [(1, row82 4 5 6)]]
    ∃ s : State ℚ (OsqpRows ℚ), (retrieve osqp (fun _ _ => 7) true Osqp.init p false).state? = some s ∧
      count [((1 : ℚ), row82 1 2 3)] = (s.neq, s.nin) ∧
      (retrieve osqp (fun _ _ => 7) true (Osqp.copy s) [[(1, row82 1 2 3)]] false).isUB = true ∧
      ((retrieve osqp (fun _ _ => 7) true (Osqp.copy s) [[(1, row82 1 2 3), (1, row82 0 1 3)]] false).state?.map
        fun s => s.rows.CI.toLists) = some [[1, 2], [0, 1]] :=
  ⟨_, rfl, by decide +kernel, by decide +kernel, by decide +kernel⟩

/-! ## Settings -/

open Settings Spec

/-- **C82, settings, partial.** Whatever was done with the original, the first problem with another number of variables
makes the copy work with the settings last given to the original, except for the maximum of iterations (and the
verbosity in a debug build).

Missing: the maximum of iterations is 1000 again, and with the same sizes the external solver keeps its own defaults
(`C82_settings_lost`). -/
theorem C82_settings_partial (nd : Bool) (dflt d : OsqpOpts K) (hd : d.maxIter ≠ 0) (ops : List (OsqpOp K))
    (h0 : ∀ o ∈ ops, o ≠ .maxIter 0) (n neq nin : Nat) (again : Bool)
    (hn : n ≠ (ops.foldl (Settings.Osqp.step nd) (Settings.Osqp.init dflt d)).n) :
    ∃ w, (([.resize n neq nin, .solve again] : List (OsqpOp K)).foldl (Settings.Osqp.step nd)
        (Settings.Osqp.copy dflt (ops.foldl (Settings.Osqp.step nd) (Settings.Osqp.init dflt d)))).work = some w ∧
      OsqpAlike w { osqpExpected d ops with maxIter := 1000 } ∧
      (nd = true → w = { osqpExpected d ops with maxIter := 1000 }) := by
  have hi : OsqpInv (Settings.Osqp.init dflt d) := ⟨hd, fun h => absurd rfl h⟩
  obtain ⟨-, i2, i3, -⟩ := osqp_run nd ops _ hi h0
  have hk0 : (Settings.Osqp.init dflt d).kept = d := rfl
  rw [hk0] at i2 i3
  generalize ops.foldl (Settings.Osqp.step nd) (Settings.Osqp.init dflt d) = s at i2 i3 hn ⊢
  have hm : (Settings.Osqp.copy dflt s).kept.maxIter ≠ 0 := by simp [Settings.Osqp.copy]
  obtain ⟨r1, r2⟩ := osqp_resize nd (Settings.Osqp.copy dflt s) n neq nin (Or.inl hn) hm
  obtain ⟨k1, k2⟩ := osqp_kept nd (Settings.Osqp.copy dflt s) (.resize n neq nin) (by simp)
  have hexp : osqpExpected (Settings.Osqp.copy dflt s).kept [.resize n neq nin] = { s.kept with maxIter := 1000 } := by
    simp [osqpExpected, lastOf, Settings.Osqp.copy]
  rw [hexp] at k1 k2
  refine ⟨((Settings.Osqp.copy dflt s).resize nd n neq nin).engine, ?_, ?_, fun e => ?_⟩
  · simp only [List.foldl_cons, List.foldl_nil, Settings.Osqp.step, Settings.Osqp.solve, r2, Option.isNone_none, true_or,
      if_true]
  · rw [r1]
    exact k1.trans ⟨rfl, i2.2.1, i2.2.2.1, i2.2.2.2.1, i2.2.2.2.2.1, i2.2.2.2.2.2⟩
  · rw [r1]
    exact (k2 e).trans (by rw [i3 e])

/-- **C82, settings, the rest is false.** A copy reports a maximum of 1000 iterations whatever the original has; and
when it gets the sizes the original had, its external solver works with its own defaults. -/
theorem C82_settings_lost (nd : Bool) (dflt : OsqpOpts K) (s : Settings.Osqp K) (again : Bool) :
    (Settings.Osqp.copy dflt s).getMaximumIterations = 1000 ∧
    (([.resize s.n s.neq s.nin, .solve again] : List (OsqpOp K)).foldl (Settings.Osqp.step nd)
      (Settings.Osqp.copy dflt s)).work = some dflt := by
  refine ⟨rfl, ?_⟩
  simp [Settings.Osqp.step, Settings.Osqp.resize, Settings.Osqp.copy, Settings.Osqp.solve]

/-- The copy of a solver that was given `rho = 3` and 5 iterations. -/
example :
    let s := ([.rho 3, .maxIter 5, .resize 2 1 0] : List (OsqpOp ℚ)).foldl (Settings.Osqp.step true)
      (Settings.Osqp.init Settings.Osqp.initial Settings.Osqp.initial);
    s.engine.rho = 3 ∧ s.getMaximumIterations = 5 ∧
    ((Settings.Osqp.copy Settings.Osqp.initial s).step true (.resize 3 1 0)).engine.rho = 3 ∧
    ((Settings.Osqp.copy Settings.Osqp.initial s).step true (.resize 2 1 0)).engine.rho = 1 / 10 ∧
    (Settings.Osqp.copy Settings.Osqp.initial s).getMaximumIterations = 1000 := by
  decide +kernel

end Tsid.Props
