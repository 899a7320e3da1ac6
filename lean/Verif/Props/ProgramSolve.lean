import Verif.Spec.ProgramSolve
import Verif.Props.ProgramCost
import Verif.Props.SolverOutput
import Verif.Props.SolverExists

/-!
# C90: a control cycle of a program, with `solve`
-/

set_option linter.unusedSectionVars false

namespace Tsid.Props

open Spec Finset Formulation

variable {K : Type} [Field K] [LinearOrder K] [FloorRing K] [HasSqrt K] [IsStrictOrderedRing K] [LawfulSqrt K]

/-- The problem of a cycle is one that the back-ends are meant for. -/
theorem program_admissible {E : Program.Env K} {W : World} {S : Setup K} {ops : List (Program.Op K)}
    {s0 s : Program.State K} (h : GoodProgram E W S ops s0) {w : Snapshot K} {t : K} (hw : SnapshotOk E.robot.nv w)
    (hm : MayCycle E W S ops w t) (hc : Program.compute E w t s0 = .ok s ())
    (heq : ∀ fam tid k, .task fam tid 1 k ∈ (S.registry E W ops t).items → (S.decl tid).kind = .equality) :
    ∃ l0 l1, problem s.form = [l0, l1] ∧ Admissible (nVar s.form) l0 (some l1) ∧ ¬ hasBound l0 := by
  obtain ⟨ht, hno⟩ := program_tidy h
  have hform := Program.compute_form hc
  obtain ⟨f, s1, f', hf, hs, ha, rfl⟩ := Program.compute_ok hc
  have hcy : cycleOf E w t s0 = Program.cycle w s1 := by simp only [cycleOf, hf, hs]
  rw [hcy] at hform
  obtain ⟨ta, mo, me, hobj, -, hfit⟩ := program_fits h hw hm hf
  rw [hs] at hobj
  cases hobj
  obtain ⟨hi, hn, L, hL, -⟩ := tidy_impl ht
  obtain ⟨hi1, n1, e1, e2, e3, L', hc', hL'⟩ := transitions_impl ht.hygienic hi hL hf
  have hrob : s0.form.robot = S.robot := run_robot _ _ _ ht.run
  refine problem_admissible ht hno ?_ hform ?_ ?_
  · rw [← h.nv]; exact ⟨hw.mRows, hw.mCols, hw.nle⟩
  · intro items it hit
    have := hfit it hit
    rw [← hi1.pre.rna, ← hi1.pre.rnv, e3, hrob, e2] at this
    exact Item.Fits.congr (fun c => (congrFun (n1.names.trans hn.names) c).symm)
      (fun c => (congrFun (n1.kinds.trans hn.kinds) c).symm) this
  · intro fam tid k hmem
    rw [(hm.announced fam tid 1 k hmem).1]
    exact heq fam tid k hmem

/-- One back-end. -/
theorem delivers_of {R C : Type} {D : Solve.Driver K R C} {u0 : Solve.Object K R} {Sat : R → (Nat → K) → Prop}
    {Success : Solve.Answer C K → Prop} {reg : Bool} {E : Program.Env K} {W : World} {S : Setup K}
    {ops : List (Program.Op K)} {w : Snapshot K} {t : K} {s : Program.State K} {l0 l1 : Level K}
    {Obj : Vec K → Solve.Objective K → Prop} (hp : problem s.form = [l0, l1])
    (hk : ∀ x : Vec K, x.size = nVar s.form → Feasible l0 x → Kept E W S ops w t s x)
    (hd : ∀ x : Vec K, x.size = nVar s.form → ∃ d : Decoded K,
      d.From s.form x (((S.registry E W ops t).items.filterMap Item.cid?).map fun c => (S.obj c).name) ∧
      lsqCost l1 x = S.cost E W ops w t s d)
    (h : SolvesProblem D E.ndebug u0 Sat Success (nVar s.form) reg l0 l1 Obj) :
    Delivers D u0 Sat Success reg E W S ops w t s := by
  intro hist u hh hu fresh freshI engine he
  obtain ⟨u', e, -, -, hz, g⟩ := h hist u hh hu fresh freshI engine he
  obtain ⟨d, d1, d2⟩ := hd _ hz
  rw [hp]
  refine ⟨u', e, d, d1, fun hs => ?_⟩
  obtain ⟨⟨g1, -, g2⟩, -⟩ := g hs
  refine ⟨g1, hk _ hz g2.1, fun y hy hfe => ?_⟩
  obtain ⟨d', d3, d4⟩ := hd y hy
  have := g2.2 y (hfe l0 l1 hp)
  refine ⟨d', d3, ?_⟩
  unfold target at this
  rw [d2, d4] at this
  exact this

/-- The weights of the second level are those of the registrations. -/
theorem program_weights {E : Program.Env K} {W : World} {S : Setup K} {ops : List (Program.Op K)}
    {s0 s : Program.State K} (h : GoodProgram E W S ops s0) {w : Snapshot K} {t : K} (hw : SnapshotOk E.robot.nv w)
    (hc : Program.compute E w t s0 = .ok s ()) {l0 l1 : Level K} (hp : problem s.form = [l0, l1])
    (hpos : ∀ it ∈ (S.registry E W ops t).items, NonNegative it) : ∀ q ∈ l1, 0 ≤ q.1 := by
  obtain ⟨ht, hno⟩ := program_tidy h
  have hform := Program.compute_form hc
  obtain ⟨f, s1, f', hf, hs, ha, rfl⟩ := Program.compute_ok hc
  have hcy : cycleOf E w t s0 = Program.cycle w s1 := by simp only [cycleOf, hf, hs]
  rw [hcy] at hform
  obtain ⟨c1, -⟩ := C71_closed_form ht hno hform (by rw [← h.nv]; exact ⟨hw.mRows, hw.mCols, hw.nle⟩)
  rw [hp] at c1
  simp only [contents, List.cons.injEq, and_true] at c1
  obtain ⟨-, rfl⟩ := c1
  intro q hq
  obtain ⟨it, hit, hq⟩ := List.mem_flatMap.1 hq
  have := hpos it hit
  cases it with
  | task fam tid p k =>
    simp only [Item.lines] at hq
    split at hq
    · rename_i hp1
      rw [List.mem_singleton.1 hq]
      exact this hp1
    · cases hq
  | contact cid p wm wf =>
    simp only [Item.lines, one_ne_zero, if_false, List.append_nil, if_true, List.mem_append, List.mem_singleton] at hq
    rcases hq with hq | rfl
    · split at hq
      · rename_i hp1
        rw [List.mem_singleton.1 hq]
        exact this.1 hp1
      · cases hq
    · exact this.2

/-- The force tasks of a program that may cycle keep a registered contact. -/
theorem force_contacts {E : Program.Env K} {W : World} {S : Setup K} {ops : List (Program.Op K)} {w : Snapshot K} {t : K}
    (hm : MayCycle E W S ops w t) : ∀ tid k dt contact cname, .task .force tid 1 k ∈ (S.registry E W ops t).items →
      S.decl tid = .force dt contact cname → lastName ((taskCalls tid ops).filterMap force?) cname ≠ "" ∧
      ∃ cid ∈ (S.registry E W ops t).items.filterMap Item.cid?,
        (S.obj cid).name = lastName ((taskCalls tid ops).filterMap force?) cname := by
  intro tid k dt contact cname hmem hd
  have := hm.supported _ _ _ _ hmem
  rw [hd] at this
  exact ⟨this.1, _, this.2.1, this.2.2.1⟩

/-- **C90 (partial).** A user constructs tasks, contacts and measured forces, calls their setters, registers and removes
them and runs control cycles, in any orderly way; the solver object was used in any way before.  After the next
`computeProblemData`, `solve` returns and its output can be decoded; if the external solver keeps its promises and
succeeds, then the solution keeps what the text of the program promises (C87), and among all vectors that satisfy the
first level none has a smaller cost, the cost being the weighted sum of squared errors that the text describes (C89),
plus the regularisation of the back-end.
Missing: as in C87–C89; eiquadprog-rt needs the size of the problem as template arguments; exact arithmetic. -/
theorem C90_partial {E : Program.Env K} {W : World} {S : Setup K} {ops : List (Program.Op K)} {s0 s : Program.State K}
    (h : GoodProgram E W S ops s0) {w : Snapshot K} {t : K} (hw : SnapshotOk E.robot.nv w)
    (hm : MayCycle E W S ops w t) (hc : Program.compute E w t s0 = .ok s ())
    (heq : ∀ fam tid k, .task fam tid 1 k ∈ (S.registry E W ops t).items → (S.decl tid).kind = .equality)
    (b : Bool) (t0 : Status.HQPStatus) (i : Int) (v : Solve.Objective K) :
    Delivers Solve.eiq (Solve.Eiq.init t0 i v) EiqSat (fun a => ∃ w, a.objective = .num w) true E W S ops w t s ∧
    Delivers Solve.fast (Solve.Eiq.init t0 i v) EiqSat (fun a => a.code = .optimal) true E W S ops w t s ∧
    (∀ fresh freshI neq nin, (problem s.form).head?.map Solver.count = some (neq, nin) →
      Delivers Solve.rt (Solve.Rt.init fresh freshI (nVar s.form) neq nin t0 i v) EiqSat (fun a => a.code = .optimal)
        true E W S ops w t s) ∧
    Delivers Solve.prox (Solve.Prox.init t0 i v) ProxSat (fun a => a.code = .solved) false E W S ops w t s ∧
    Delivers Solve.osqp (Solve.Osqp.init t0 i v) OsqpSat (fun a => a.code = .solved) false E W S ops w t s ∧
    Delivers Solve.mad (Solve.Mad.init b t0 i v) MadSat (fun a => a.code = .ok) true E W S ops w t s := by
  obtain ⟨l0, l1, hp, ha, hb⟩ := program_admissible h hw hm hc heq
  have hk : ∀ x : Vec K, x.size = nVar s.form → Feasible l0 x → Kept E W S ops w t s x :=
    fun x hx hfe => C87_partial h hw hc hp hx hfe
  have hd := fun (x : Vec K) (hx : x.size = nVar s.form) => C89_partial h hw hc hp heq (force_contacts hm) hx
  obtain ⟨k1, k2, k3, k4, k5, k6⟩ := C85_solves_partial E.ndebug b t0 i v ha
  refine ⟨delivers_of hp hk hd k1, delivers_of hp hk hd k2, fun fresh freshI neq nin hcnt => ?_, delivers_of hp hk hd k4,
    delivers_of hp hk hd k5, delivers_of hp hk hd (k6 hb)⟩
  rw [hp] at hcnt
  simp only [List.head?_cons, Option.map_some, Option.some.injEq] at hcnt
  have := k3 fresh freshI
  rw [hcnt] at this
  exact delivers_of hp hk hd this

/-- **C90, the solution (partial).** Under the same hypotheses, in the real numbers: if the weights are not negative and
some vector satisfies the first level, then there is exactly one solution of the problem with regularisation; it keeps
what the text of the program promises, and every other vector that satisfies the first level has a greater objective.
Missing: as in `C90_partial`. -/
theorem C90_solution_partial {E : Program.Env ℝ} {W : World} {S : Setup ℝ} {ops : List (Program.Op ℝ)}
    {s0 s : Program.State ℝ} (h : GoodProgram E W S ops s0) {w : Snapshot ℝ} {t : ℝ} (hw : SnapshotOk E.robot.nv w)
    (hm : MayCycle E W S ops w t) (hc : Program.compute E w t s0 = .ok s ())
    (heq : ∀ fam tid k, .task fam tid 1 k ∈ (S.registry E W ops t).items → (S.decl tid).kind = .equality)
    (hpos : ∀ it ∈ (S.registry E W ops t).items, NonNegative it) (hfe : ∃ y, Admits1 s.form y) :
    let names := ((S.registry E W ops t).items.filterMap Item.cid?).map fun c => (S.obj c).name
    ∃ (x : Vec ℝ) (d : Decoded ℝ), x.size = nVar s.form ∧ Admits1 s.form x ∧ Kept E W S ops w t s x ∧
      d.From s.form x names ∧ ∀ y : Vec ℝ, y.size = nVar s.form → Admits1 s.form y →
        ∃ d' : Decoded ℝ, d'.From s.form y names ∧
          S.objective E W ops w t s true x d ≤ S.objective E W ops w t s true y d' ∧
          ((∃ i, i < nVar s.form ∧ y i ≠ x i) →
            S.objective E W ops w t s true x d < S.objective E W ops w t s true y d') := by
  intro names
  obtain ⟨l0, l1, hp, ha, hb⟩ := program_admissible h hw hm hc heq
  have hl := program_weights h hw hc hp hpos
  obtain ⟨y0, hy0⟩ := hfe
  obtain ⟨u, e, x, hx1, hx2⟩ := C45_eiquadprog_solution false (hist := []) (s := Solver.Eiq.init) rfl (fun _ _ => 0) true ha
    hl ⟨y0, hy0 l0 l1 hp⟩
  obtain ⟨u', -, -, -, -, -, ⟨e', so⟩, -⟩ := C48_back_ends false true true ha hb (fun _ _ => 0)
    (h1 := []) (h2 := []) (h3 := []) (h4 := []) (h5 := []) (h6 := []) rfl rfl rfl rfl rfl rfl
  rw [e] at e'
  cases e'
  have ho := (so x).1 hx1
  have hz : (⟨nVar s.form, x⟩ : Vec ℝ).size = nVar s.form := rfl
  obtain ⟨d, d1, d2⟩ := C89_partial h hw hc hp heq (force_contacts hm) hz
  refine ⟨⟨nVar s.form, x⟩, d, rfl, ?_, C87_partial h hw hc hp hz ho.1, d1, fun y hy hfe => ?_⟩
  · intro m0 m1 hm'
    rw [hp] at hm'
    cases hm'
    exact ho.1
  · obtain ⟨d', d3, d4⟩ := C89_partial h hw hc hp heq (force_contacts hm) hy
    have hfy := hfe l0 l1 hp
    have hle := ho.2 y hfy
    have e1 : target (nVar s.form) true l1 x = S.objective E W ops w t s true ⟨nVar s.form, x⟩ d := by
      unfold target Setup.objective
      rw [← d2]
    have e2 : target (nVar s.form) true l1 y = S.objective E W ops w t s true y d' := by
      unfold target Setup.objective
      rw [← d4]
    refine ⟨d', d3, ?_⟩
    rw [← e1, ← e2]
    refine ⟨hle, ?_⟩
    rintro ⟨i, hi, hne⟩
    refine lt_of_le_of_ne hle fun heq' => hne ?_
    refine hx2 y ((so y).2 ⟨hfy, fun z hz => ?_⟩) i hi
    rw [← heq']
    exact ho.2 z hz

/-- The arm meets the hypotheses. -/
example : ∃ s, Program.compute ArmDemo.env ArmDemo.snap 0
      ⟨ArmDemo.f4, ArmDemo.tasks2, ArmDemo.motions1, ArmDemo.pushes1⟩ = .ok s () ∧
    Delivers Solve.prox (Solve.Prox.init .unknown 0 .nan) ProxSat (fun a => a.code = .solved) false ArmDemo.env
      ArmDemo.world ArmDemo.setup ArmDemo.ops ArmDemo.snap 0 s := by
  obtain ⟨m, f, -, -, hc⟩ := ArmDemo.computes
  exact ⟨_, hc, (C90_partial ArmDemo.good ArmDemo.snapOk ArmDemo.mayCycle hc ArmDemo.equalities true .unknown 0
    .nan).2.2.2.1⟩

/-- Also those on the solution. -/
example : ∃ s, Program.compute ArmDemo.env ArmDemo.snap 0
      ⟨ArmDemo.f4, ArmDemo.tasks2, ArmDemo.motions1, ArmDemo.pushes1⟩ = .ok s () ∧
    (∀ it ∈ (ArmDemo.setup.registry ArmDemo.env ArmDemo.world ArmDemo.ops 0).items, NonNegative it) ∧
    Admits1 s.form ArmDemo.resting ∧ ∃ x, Kept ArmDemo.env ArmDemo.world ArmDemo.setup ArmDemo.ops ArmDemo.snap 0 s x := by
  obtain ⟨m, f, hm, ha, hc⟩ := ArmDemo.computes
  obtain ⟨l0, l1, h1, h2, h3⟩ := ArmDemo.feasible hm ha
  have hpos : ∀ it ∈ (ArmDemo.setup.registry ArmDemo.env ArmDemo.world ArmDemo.ops 0).items, NonNegative it := by
    rw [ArmDemo.items]
    intro it hit
    simp only [List.mem_cons, List.not_mem_nil, or_false] at hit
    rcases hit with rfl | rfl | rfl
    · intro _; norm_num
    · exact ⟨fun _ => by norm_num, by norm_num⟩
    · intro _; norm_num
  have hfe : Admits1 f ArmDemo.resting := by
    intro m0 m1 hm'
    rw [h1] at hm'
    cases hm'
    exact h3
  refine ⟨_, hc, hpos, hfe, ?_⟩
  obtain ⟨x, d, -, -, hk, -⟩ := C90_solution_partial ArmDemo.good ArmDemo.snapOk ArmDemo.mayCycle hc ArmDemo.equalities hpos
    ⟨_, hfe⟩
  exact ⟨x, hk⟩

end Tsid.Props
