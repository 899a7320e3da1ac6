import Verif.Lemmas.SolverAgree
import Verif.Lemmas.Convex

/-!
# C44-C49, C68: the quadratic programs handed to the external solvers

Every statement is about an object that has been used before: `s` is any state reached from a new object by any
history of problems (`Spec.retrieves`), in which some calls may have thrown.
-/

set_option linter.unusedSectionVars false

namespace Tsid.Props

open Finset Spec Solver

variable {K : Type} [Field K] [CharZero K] [LinearOrder K] [IsStrictOrderedRing K]

/-! ## New objects -/

theorem eiq_init : Eiq.Sized (Eiq.init : Solver.State K (EiqRows K)) := ⟨rfl, rfl, rfl, rfl, rfl, rfl, rfl, rfl, rfl⟩

theorem rt_init (fresh : Nat → Nat → K) (a b c : Nat) : Rt.Sized a b c (Rt.init fresh a b c) :=
  ⟨⟨rfl, rfl, rfl, rfl, rfl, rfl, rfl, rfl, rfl⟩, rfl, rfl, rfl⟩

theorem prox_init : Prox.Sized (Prox.init : Solver.State K (ProxRows K)) := ⟨rfl, rfl, rfl, rfl, rfl, rfl, rfl, rfl, rfl, rfl⟩

theorem osqp_init : Osqp.Sized (Osqp.init : Solver.State K (OsqpRows K)) := ⟨rfl, rfl, rfl, rfl, rfl, rfl, rfl⟩

theorem mad_init (b : Bool) : Mad.Sized (Mad.init b : Solver.State K (MadRows K)) := ⟨rfl, rfl, rfl, rfl, rfl, rfl, rfl⟩

/-! ## A problem for the examples -/

/-- `x₀ + x₁ = 1`, `0 ≤ x₀ - x₁ ≤ 4`, `-1 ≤ x ≤ 2`. -/
def demo0 : Level ℚ :=
  [(1, ⟨"eq", .equality, ⟨1, 2, fun _ _ => 1⟩, ⟨1, fun _ => 1⟩, Vec.zero 0, Vec.zero 0⟩),
   (1, ⟨"in", .inequality, ⟨1, 2, fun _ j => if j = 0 then 1 else -1⟩, Vec.zero 0, ⟨1, fun _ => 0⟩, ⟨1, fun _ => 4⟩⟩),
   (1, ⟨"bd", .bound, Mat.identity 2, Vec.zero 0, ⟨2, fun _ => -1⟩, ⟨2, fun _ => 2⟩⟩)]

/-- `x₀ = 3` with weight 2. -/
def demo1 : Level ℚ := [(2, ⟨"cost", .equality, ⟨1, 2, fun _ j => if j = 0 then 1 else 0⟩, ⟨1, fun _ => 3⟩, Vec.zero 0, Vec.zero 0⟩)]

theorem demo_admissible : Admissible 2 demo0 [demo1].head? := by
  refine ⟨by decide, ?_, ?_⟩
  · intro q hq
    simp only [demo0, List.mem_cons, List.not_mem_nil, or_false] at hq
    rcases hq with rfl | rfl | rfl
    · exact ⟨rfl, rfl⟩
    · exact ⟨⟨rfl, rfl⟩, rfl⟩
    · exact ⟨⟨rfl, rfl, rfl⟩, rfl⟩
  · intro l hl
    cases hl
    constructor <;> (intro q hq; simp only [demo1, List.mem_cons, List.not_mem_nil, or_false] at hq; subst hq)
    · rfl
    · exact ⟨rfl, rfl⟩

/-- `demo0` without the bound. -/
def demo0' : Level ℚ := demo0.take 2

theorem demo_admissible' : Admissible 2 demo0' [demo1].head? :=
  ⟨by decide, fun q hq => demo_admissible.2.1 q (List.mem_of_mem_take hq), demo_admissible.2.2⟩

theorem demo_unbounded : ¬ hasBound demo0' := by
  rintro ⟨q, hq, hk⟩
  simp only [demo0', demo0, List.take_succ_cons, List.take_zero, List.mem_cons, List.not_mem_nil, or_false] at hq
  rcases hq with rfl | rfl <;> cases hk

/-- A history for the examples: a problem of another size, one with three levels and one with an inequality at
level 1, both rejected, and a call of `resize`. -/
def demoHist : List (SolverCall ℚ) :=
  [.retrieve (fun _ _ => 7) [[(1, ⟨"eq", .equality, Mat.identity 3, ⟨3, fun _ => 1⟩, Vec.zero 0, Vec.zero 0⟩)]] true,
   .retrieve (fun _ _ => 8) [[], [], []] true, .resize (fun _ _ => 6) 5 1 2,
   .retrieve (fun _ _ => 9) [demo0', demo0'] true]

/-! ## C44 -/

/-- **C44.** eiquadprog and eiquadprog-fast: the assembly succeeds and the feasible set is the one of level 0. -/
theorem C44_feasible_set {B : Backend K (EiqRows K)} (hB : B = eiq ∨ B = fast) (nd : Bool)
    {hist : List (SolverCall K)} {s : Solver.State K (EiqRows K)}
    (hs : retrieves B nd Eiq.init hist = some s) (fresh : Nat → Nat → K) (reg : Bool) {n : Nat} {l0 : Level K}
    {ls : List (Level K)} (hls : ls.length ≤ 1) (ha : Admissible n l0 ls.head?) :
    ∃ s', retrieve B fresh nd s (l0 :: ls) reg = .ok s' () ∧ s'.n = n ∧ ∀ x, EiqSat s'.rows x ↔ Feasible l0 x := by
  have key : ∀ rg, B = { (eiq : Backend K (EiqRows K)) with reg := rg } →
      ∃ s', retrieve B fresh nd s (l0 :: ls) reg = .ok s' () ∧ s'.n = n ∧ ∀ x, EiqSat s'.rows x ↔ Feasible l0 x := by
    rintro rg rfl
    obtain ⟨s', e, hn, _, _, _, hx, _⟩ := (Eiq.fits rg).retrieve fresh nd reg hls
      ((Eiq.keeps rg).retrieves hist _ _ eiq_init hs) ha
    exact ⟨s', e, hn, fun x => by rw [hx, true_and]⟩
  rcases hB with rfl | rfl
  · exact key _ rfl
  · exact key _ rfl

/-- **C44** for `SolverHQuadProgRT<n, neq, nin>`, on problems of exactly that size. -/
theorem C44_rt (nd : Bool) (fresh0 : Nat → Nat → K) {n neq nin : Nat} {hist : List (SolverCall K)}
    {s : Solver.State K (EiqRows K)} (hs : retrieves rt nd (Rt.init fresh0 n neq nin) hist = some s) (fresh : Nat → Nat → K)
    (reg : Bool) {l0 : Level K} {ls : List (Level K)} (hls : ls.length ≤ 1) (ha : Admissible n l0 ls.head?)
    (hc : Solver.count l0 = (neq, nin)) :
    ∃ s', retrieve rt fresh nd s (l0 :: ls) reg = .ok s' () ∧ s'.n = n ∧ ∀ x, EiqSat s'.rows x ↔ Feasible l0 x := by
  obtain ⟨h1, h2, h3, h4⟩ := (Rt.keeps n neq nin).retrieves hist _ _ (rt_init fresh0 n neq nin) hs
  obtain ⟨s', e, hn, _, _, _, hx, _⟩ := Rt.fits.retrieve fresh nd reg hls ⟨h1, h2.symm, by rw [hc, h3, h4]⟩ ha
  exact ⟨s', e, hn, fun x => by rw [hx, true_and]⟩

/-- The hypotheses can be met, after a history with rejected problems, by a problem with all kinds of constraints. -/
example : ∃ s, retrieves (eiq : Backend ℚ (EiqRows ℚ)) true Eiq.init demoHist = some s ∧ s.n = 2 ∧
    ∃ s', retrieve eiq (fun _ _ => 5) true s [demo0, demo1] true = .ok s' () ∧
      s'.rows.CE.toLists = [[1, 1]] ∧ s'.rows.ce0.toList = [-1] ∧
      s'.rows.CI.toLists = [[1, -1], [-1, 1], [1, 0], [0, 1], [-1, 0], [0, -1]] ∧
      s'.rows.ci0.toList = [0, 4, 1, 1, 2, 2] :=
  ⟨_, rfl, rfl, _, rfl, by decide +kernel⟩

example : Solver.count demo0 = (1, 3) := by decide

/-- In a build with `NDEBUG`, `SolverHQuadProgRT` accepts a problem with fewer rows than it was made for, and the
rows that are not overwritten, which may be anything, exclude feasible points. -/
theorem C44_rt_fewer : ∃ s', retrieve (rt : Backend ℚ (EiqRows ℚ)) (fun _ _ => 0) true
      (Rt.init (fun _ _ => 1) 2 2 3) [demo0, demo1] true = .ok s' () ∧
    Feasible demo0 (fun i => if i = 0 then 1 else 0) ∧ ¬ EiqSat s'.rows (fun i => if i = 0 then 1 else 0) := by
  refine ⟨_, rfl, ?_, ?_⟩
  · intro q hq
    simp only [demo0, List.mem_cons, List.not_mem_nil, or_false] at hq
    rcases hq with rfl | rfl | rfl
    · intro i hi
      obtain rfl : i = 0 := by simp only at hi; omega
      decide +kernel
    · intro i hi
      obtain rfl : i = 0 := by simp only at hi; omega
      decide +kernel
    · intro i hi
      obtain rfl | rfl : i = 0 ∨ i = 1 := by simp only at hi; omega
      · decide +kernel
      · decide +kernel
  · intro h
    exact absurd (h.1 1 (by decide)) (by decide +kernel)

/-! ## C46 -/

/-- **C46**, ProxQP. -/
theorem C46_proxqp (nd : Bool) {hist : List (SolverCall K)} {s : Solver.State K (ProxRows K)}
    (hs : retrieves prox nd Prox.init hist = some s) (fresh : Nat → Nat → K) (reg : Bool) {n : Nat} {l0 : Level K}
    {ls : List (Level K)} (hls : ls.length ≤ 1) (ha : Admissible n l0 ls.head?) :
    ∃ s', retrieve prox fresh nd s (l0 :: ls) reg = .ok s' () ∧ s'.n = n ∧ ∀ x, ProxSat s'.rows x ↔ Feasible l0 x := by
  obtain ⟨s', e, hn, _, _, _, hx, _⟩ := Prox.fits.retrieve fresh nd reg hls
    (Prox.keeps.retrieves hist _ _ prox_init hs) ha
  exact ⟨s', e, hn, fun x => by rw [hx, true_and]⟩

/-- **C46**, OSQP. -/
theorem C46_osqp (nd : Bool) {hist : List (SolverCall K)} {s : Solver.State K (OsqpRows K)}
    (hs : retrieves osqp nd Osqp.init hist = some s) (fresh : Nat → Nat → K) (reg : Bool) {n : Nat} {l0 : Level K}
    {ls : List (Level K)} (hls : ls.length ≤ 1) (ha : Admissible n l0 ls.head?) :
    ∃ s', retrieve osqp fresh nd s (l0 :: ls) reg = .ok s' () ∧ s'.n = n ∧ ∀ x, OsqpSat s'.rows x ↔ Feasible l0 x := by
  obtain ⟨s', e, hn, _, _, _, hx, _⟩ := Osqp.fits.retrieve fresh nd reg hls
    (Osqp.keeps.retrieves hist _ _ osqp_init hs) ha
  exact ⟨s', e, hn, fun x => by rw [hx, true_and]⟩

example : ∃ s, retrieves (prox : Backend ℚ (ProxRows ℚ)) true Prox.init demoHist = some s ∧ s.n = 2 ∧
    ∃ s', retrieve prox (fun _ _ => 5) true s [demo0, demo1] true = .ok s' () ∧
      s'.rows.CE.toLists = [[1, 1]] ∧ s'.rows.ce0.toList = [1] ∧ s'.rows.CI.toLists = [[1, -1], [1, 0], [0, 1]] ∧
      s'.rows.lb.toList = [0, -1, -1] ∧ s'.rows.ub.toList = [4, 2, 2] :=
  ⟨_, rfl, rfl, _, rfl, by decide +kernel⟩

example : ∃ s, retrieves (osqp : Backend ℚ (OsqpRows ℚ)) true Osqp.init demoHist = some s ∧ s.n = 2 ∧
    ∃ s', retrieve osqp (fun _ _ => 5) true s [demo0, demo1] true = .ok s' () ∧
      s'.rows.CI.toLists = [[1, 1], [1, -1], [1, 0], [0, 1]] ∧
      s'.rows.lb.toList = [1, 0, -1, -1] ∧ s'.rows.ub.toList = [1, 4, 2, 2] :=
  ⟨_, rfl, rfl, _, rfl, by decide +kernel⟩

/-! ## C47 -/

/-- **C47**, the part that holds: problems without simple bounds. -/
theorem C47_qpmad_partial (nd b : Bool) {hist : List (SolverCall K)} {s : Solver.State K (MadRows K)}
    (hs : retrieves mad nd (Mad.init b) hist = some s) (fresh : Nat → Nat → K) (reg : Bool) {n : Nat} {l0 : Level K}
    {ls : List (Level K)} (hls : ls.length ≤ 1) (ha : Admissible n l0 ls.head?) (hb : ¬ hasBound l0) :
    ∃ s', retrieve mad fresh nd s (l0 :: ls) reg = .ok s' () ∧ s'.n = n ∧ ∀ x, MadSat s'.rows x ↔ Feasible l0 x := by
  obtain ⟨s', e, hn, _, _, _, hx, _⟩ := Mad.fits.retrieve fresh nd reg hls
    ⟨Mad.keeps.retrieves hist _ _ (mad_init b) hs, fun h => absurd h hb⟩ ha
  exact ⟨s', e, hn, fun x => by rw [hx]; exact and_iff_right fun h => absurd h hb⟩

/-- With simple bounds, on an object whose vectors of bounds have the right size: the feasible set loses every point
with a non-positive coordinate (`numeric_limits<double>::min()` is positive). -/
theorem C47_bounds (nd b : Bool) {hist : List (SolverCall K)} {s : Solver.State K (MadRows K)}
    (hs : retrieves mad nd (Mad.init b) hist = some s) (fresh : Nat → Nat → K) (reg : Bool) {n : Nat} {l0 : Level K}
    {ls : List (Level K)} (hls : ls.length ≤ 1) (ha : Admissible n l0 ls.head?) (hb : hasBound l0)
    (hz : n = s.n → s.rows.lb.size = n ∧ s.rows.ub.size = n) :
    ∃ s', retrieve mad fresh nd s (l0 :: ls) reg = .ok s' () ∧ s'.n = n ∧
      ∀ x, MadSat s'.rows x ↔ (∀ i, i < n → 1 / 2 ^ 1022 ≤ x i ∧ x i ≤ (2 ^ 53 - 1) * 2 ^ 971) ∧ Feasible l0 x := by
  obtain ⟨s', e, hn, _, _, _, hx, _⟩ := Mad.fits.retrieve fresh nd reg hls
    ⟨Mad.keeps.retrieves hist _ _ (mad_init b) hs, fun _ => hz⟩ ha
  exact ⟨s', e, hn, fun x => by rw [hx]; exact and_congr_left fun _ => forall_prop_of_true hb⟩

example : ∃ s, retrieves (mad : Backend ℚ (MadRows ℚ)) true (Mad.init true) demoHist = some s ∧ s.n = 2 ∧
    ∃ s', retrieve mad (fun _ _ => 5) true s [demo0', demo1] true = .ok s' () ∧ s'.rows.hasBounds = false ∧
      s'.rows.C.toLists = [[1, 1], [1, -1]] ∧ s'.rows.cl.toList = [1, 0] ∧ s'.rows.cu.toList = [1, 4] :=
  ⟨_, rfl, rfl, _, rfl, by decide +kernel⟩

/-- **C47 is false with simple bounds**: a feasible point (here `x = (1, 0)`) is excluded. -/
theorem C47_positive_min : ∃ s', retrieve (mad : Backend ℚ (MadRows ℚ)) (fun _ _ => 0) true (Mad.init false)
      [demo0, demo1] true = .ok s' () ∧
    Feasible demo0 (fun i => if i = 0 then 1 else 0) ∧ ¬ MadSat s'.rows (fun i => if i = 0 then 1 else 0) := by
  obtain ⟨s', e, _, hx⟩ := C47_bounds (K := ℚ) true false (hist := []) rfl (fun _ _ => 0) true (ls := [demo1]) (by decide)
    demo_admissible ⟨_, by simp only [demo0]; exact List.mem_cons_of_mem _ (List.mem_cons_of_mem _ List.mem_cons_self), rfl⟩
    (by intro h; cases h)
  refine ⟨s', e, C44_rt_fewer.choose_spec.2.1, fun h => ?_⟩
  have := ((hx _).1 h).1 1 (by decide)
  exact absurd this.1 (by simp)

/-- **C47 is false with simple bounds**: when bounds appear and the number of variables stays the same, the vectors
of bounds are not resized and the assembly is undefined behaviour. -/
theorem C47_appearing_bounds : ∃ s, retrieves (mad : Backend ℚ (MadRows ℚ)) true (Mad.init false)
      [.retrieve (fun _ _ => 0) [demo0', demo1] true] = some s ∧
    (retrieve mad (fun _ _ => 0) true s [demo0, demo1] true).isUB = true := by
  refine ⟨_, rfl, ?_⟩
  decide +kernel

end Tsid.Props
