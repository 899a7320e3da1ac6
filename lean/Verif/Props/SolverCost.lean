import Verif.Props.Solver

/-!
# C45, C48, C49, C68: cost, equivalence of the back-ends, rejected problems, independence of the past
-/

set_option linter.unusedSectionVars false

namespace Tsid.Props

open Finset Spec Solver

variable {K R : Type} [Field K] [CharZero K] [LinearOrder K] [IsStrictOrderedRing K]

/-! ## C45 -/

theorem assemblesCost_of {B : Backend K R} {Sz : Solver.State K R → Prop} (hk : Keeps B Sz)
    (hsz : ∀ s, Sz s → s.H.rows = s.n ∧ s.H.cols = s.n ∧ s.g.size = s.n) (nd : Bool) {s0 : Solver.State K R}
    (h0 : Sz s0) : AssemblesCost B nd s0 := by
  intro hist s fresh reg l0 l1 s' hs e
  have h1 := hk.retrieves hist _ _ h0 hs
  have h2 := hk.retrieve (s' := s') h1 (by rw [e]; rfl)
  obtain ⟨a, b, c⟩ := hsz s' h2
  obtain ⟨_, _, hx⟩ := hk.ok hsz h1 e
  refine ⟨a, b, c, - dropped l1, fun x => ?_⟩
  rw [hx, target]
  ring

/-- **C45, cost.** For all the back-ends, for every history. -/
theorem C45_cost (nd : Bool) :
    AssemblesCost (eiq : Backend K (EiqRows K)) nd Eiq.init ∧ AssemblesCost (fast : Backend K (EiqRows K)) nd Eiq.init ∧
    (∀ fresh a b c, AssemblesCost (rt : Backend K (EiqRows K)) nd (Rt.init fresh a b c)) ∧
    AssemblesCost (prox : Backend K (ProxRows K)) nd Prox.init ∧
    AssemblesCost (osqp : Backend K (OsqpRows K)) nd Osqp.init ∧
    ∀ b, AssemblesCost (mad : Backend K (MadRows K)) nd (Mad.init b) :=
  ⟨assemblesCost_of (Eiq.keeps _) (fun s h => ⟨h.1, h.2.1, h.2.2.1⟩) nd eiq_init,
    assemblesCost_of (Eiq.keeps _) (fun s h => ⟨h.1, h.2.1, h.2.2.1⟩) nd eiq_init,
    fun fresh a b c => assemblesCost_of (Rt.keeps a b c) (fun s h => ⟨h.1.1, h.1.2.1, h.1.2.2.1⟩) nd (rt_init fresh a b c),
    assemblesCost_of Prox.keeps (fun s h => ⟨h.1, h.2.1, h.2.2.1⟩) nd prox_init,
    assemblesCost_of Osqp.keeps (fun s h => ⟨h.1, h.2.1, h.2.2.1⟩) nd osqp_init,
    fun b => assemblesCost_of Mad.keeps (fun s h => ⟨h.1, h.2.1, h.2.2.1⟩) nd (mad_init b)⟩

theorem defaultReg_pos : (0 : K) < defaultReg := by
  unfold defaultReg
  positivity

/-- **C45, positive definiteness and uniqueness.** Whenever a back-end assembles the cost (`C45_cost`) with the
regularisation, and the weights are not negative. -/
theorem C45_unique {B : Backend K R} {nd : Bool} {s0 : Solver.State K R} (hB : AssemblesCost B nd s0)
    {hist : List (SolverCall K)} {s : Solver.State K R} (hs : retrieves B nd s0 hist = some s)
    {fresh : Nat → Nat → K} {reg : Bool} (hr : B.reg reg = true) {l0 l1 : Level K} (hw : ∀ q ∈ l1, 0 ≤ q.1)
    {s' : Solver.State K R} (e : retrieve B fresh nd s [l0, l1] reg = .ok s' ()) :
    PosDef s'.n s'.H ∧ ∀ x y, Optimal (Feasible l0) (qpCost s'.H s'.g) x → Optimal (Feasible l0) (qpCost s'.H s'.g) y →
      ∀ i, i < s'.n → x i = y i := by
  obtain ⟨_, _, _, k, hk⟩ := hB hist s fresh reg l0 l1 s' hs e
  have hp : PosDef s'.n s'.H := by
    intro x hx
    refine quad_pos (g := s'.g) (l := l1) (k := -k) (ε := defaultReg) hw defaultReg_pos (fun x => ?_) x hx
    rw [hk, target, hr, if_pos rfl]
    ring
  exact ⟨hp, fun x y hx hy => optimal_unique (fun _ _ => feasible_mid) hp hx hy⟩

example : ∃ s', retrieve (eiq : Backend ℚ (EiqRows ℚ)) (fun _ _ => 5) true Eiq.init [demo0, demo1] true = .ok s' () ∧
    s'.H.toLists = [[2 + 1 / 10 ^ 8, 0], [0, 1 / 10 ^ 8]] ∧ s'.g.toList = [-6, 0] :=
  ⟨_, rfl, by decide +kernel⟩

/-- `0 ≤ x₀ ≤ 4`. -/
def demoBox : Level ℚ :=
  [(1, ⟨"in", .inequality, ⟨1, 2, fun _ j => if j = 0 then 1 else 0⟩, Vec.zero 0, ⟨1, fun _ => 0⟩, ⟨1, fun _ => 4⟩⟩)]

/-- Without the regularisation, the default of ProxQP and OSQP, there may be several optimal points: here the second
coordinate does not matter. -/
theorem C45_unregularised : ∃ s', retrieve (prox : Backend ℚ (ProxRows ℚ)) (fun _ _ => 5) true Prox.init
      [demoBox, demo1] false = .ok s' () ∧
    ∀ t : ℚ, Optimal (Feasible demoBox) (qpCost s'.H s'.g) fun i => if i = 0 then 3 else t := by
  refine ⟨_, rfl, fun t => ⟨?_, ?_⟩⟩
  · intro q hq
    simp only [demoBox, List.mem_cons, List.not_mem_nil, or_false] at hq
    subst hq
    intro i hi
    simp [row, sum_range_succ]
    norm_num
  · intro y _
    simp [qpCost, row, demo1, Solver.regularise, prox, sum_range_succ, Prox.init, Prox.resize, Mat.zero, Vec.zero,
      Mat.resizeIf, Vec.resizeIf, demoBox, Constraint.cols]
    nlinarith [sq_nonneg (y 0 - 3)]

/-! ## C48 -/

/-- The points optimal for the assembled problem are those optimal for the problem meant. -/
def SameOptima (S : (Nat → K) → Prop) (H : Mat K) (g : Vec K) (n : Nat) (reg : Bool) (l0 l1 : Level K) : Prop :=
  ∀ x, Optimal S (qpCost H g) x ↔ Optimal (Feasible l0) (target n reg l1) x

theorem sameOptima_of {S : (Nat → K) → Prop} {H : Mat K} {g : Vec K} {n : Nat} {reg : Bool} {l0 l1 : Level K}
    (h1 : ∀ x, S x ↔ Feasible l0 x)
    (h2 : ∀ x, qpCost H g x = lsqCost l1 x - dropped l1 + if reg then 1 / 2 * (defaultReg * sqNorm n x) else 0) :
    SameOptima S H g n reg l0 l1 := by
  intro x
  unfold Optimal
  have h3 : ∀ y, qpCost H g x ≤ qpCost H g y ↔ target n reg l1 x ≤ target n reg l1 y := by
    intro y
    have e : ∀ z, qpCost H g z = target n reg l1 z - dropped l1 := fun z => by rw [h2, target]; ring
    rw [e, e]
    exact sub_le_sub_iff_right _
  simp only [h1, h3]

/-- **C48.** On a two-level problem without simple bounds, however the objects were used before, every back-end gets a
problem with the optimal points of the hierarchical problem; so with the same regularisation they have the same
optimal points. -/
theorem C48_back_ends (nd b : Bool) (reg : Bool) {n : Nat} {l0 l1 : Level K} (ha : Admissible n l0 (some l1))
    (hb : ¬ hasBound l0) (fresh : Nat → Nat → K)
    {h1 h2 h3 h4 h5 h6 : List (SolverCall K)}
    {s1 s2 s3 : Solver.State K (EiqRows K)} {s4 : Solver.State K (ProxRows K)} {s5 : Solver.State K (OsqpRows K)} {s6 : Solver.State K (MadRows K)}
    (e1 : retrieves eiq nd Eiq.init h1 = some s1) (e2 : retrieves fast nd Eiq.init h2 = some s2)
    (e3 : retrieves rt nd (Rt.init fresh n (Solver.count l0).1 (Solver.count l0).2) h3 = some s3)
    (e4 : retrieves prox nd Prox.init h4 = some s4) (e5 : retrieves osqp nd Osqp.init h5 = some s5)
    (e6 : retrieves mad nd (Mad.init b) h6 = some s6) :
    ∃ t1 t2 t3 t4 t5 t6,
      (retrieve eiq fresh nd s1 [l0, l1] reg = .ok t1 () ∧ SameOptima (EiqSat t1.rows) t1.H t1.g n true l0 l1) ∧
      (retrieve fast fresh nd s2 [l0, l1] reg = .ok t2 () ∧ SameOptima (EiqSat t2.rows) t2.H t2.g n reg l0 l1) ∧
      (retrieve rt fresh nd s3 [l0, l1] reg = .ok t3 () ∧ SameOptima (EiqSat t3.rows) t3.H t3.g n true l0 l1) ∧
      (retrieve prox fresh nd s4 [l0, l1] reg = .ok t4 () ∧ SameOptima (ProxSat t4.rows) t4.H t4.g n reg l0 l1) ∧
      (retrieve osqp fresh nd s5 [l0, l1] reg = .ok t5 () ∧ SameOptima (OsqpSat t5.rows) t5.H t5.g n reg l0 l1) ∧
      (retrieve mad fresh nd s6 [l0, l1] reg = .ok t6 () ∧ SameOptima (MadSat t6.rows) t6.H t6.g n true l0 l1) := by
  have hls : [l1].length ≤ 1 := le_refl _
  obtain ⟨t1, a1, _, _, _, _, b1, c1⟩ := (Eiq.fits (eiq (K := K)).reg).retrieve fresh nd reg hls
    ((Eiq.keeps _).retrieves h1 _ _ eiq_init e1) ha
  obtain ⟨t2, a2, _, _, _, _, b2, c2⟩ := (Eiq.fits id).retrieve fresh nd reg hls
    ((Eiq.keeps _).retrieves h2 _ _ eiq_init e2) ha
  obtain ⟨k1, k2, k3, k4⟩ := (Rt.keeps n (Solver.count l0).1 (Solver.count l0).2).retrieves h3 _ _ (rt_init fresh _ _ _) e3
  obtain ⟨t3, a3, _, _, _, _, b3, c3⟩ := Rt.fits.retrieve fresh nd reg hls ⟨k1, k2.symm, by rw [k3, k4]⟩ ha
  obtain ⟨t4, a4, _, _, _, _, b4, c4⟩ := Prox.fits.retrieve fresh nd reg hls (Prox.keeps.retrieves h4 _ _ prox_init e4) ha
  obtain ⟨t5, a5, _, _, _, _, b5, c5⟩ := Osqp.fits.retrieve fresh nd reg hls (Osqp.keeps.retrieves h5 _ _ osqp_init e5) ha
  obtain ⟨t6, a6, _, _, _, _, b6, c6⟩ := Mad.fits.retrieve fresh nd reg hls
    ⟨Mad.keeps.retrieves h6 _ _ (mad_init b) e6, fun h => absurd h hb⟩ ha
  refine ⟨t1, t2, t3, t4, t5, t6, ⟨a1, ?_⟩, ⟨a2, ?_⟩, ⟨a3, ?_⟩, ⟨a4, ?_⟩, ⟨a5, ?_⟩, ⟨a6, ?_⟩⟩
  · exact sameOptima_of (fun x => by rw [b1, true_and]) (c1 l1 rfl)
  · exact sameOptima_of (fun x => by rw [b2, true_and]) (c2 l1 rfl)
  · exact sameOptima_of (fun x => by rw [b3, true_and]) (c3 l1 rfl)
  · exact sameOptima_of (fun x => by rw [b4, true_and]) (c4 l1 rfl)
  · exact sameOptima_of (fun x => by rw [b5, true_and]) (c5 l1 rfl)
  · exact sameOptima_of (fun x => by rw [b6]; exact and_iff_right fun h => absurd h hb) (c6 l1 rfl)

/-- The hypotheses are met by the problem of the examples. -/
example : Admissible 2 demo0' (some demo1) ∧ ¬ hasBound demo0' ∧ Solver.count demo0' = (1, 1) :=
  ⟨demo_admissible', demo_unbounded, by decide⟩

/-! ## C49 -/

/-- **C49, more than two levels**: every back-end throws, and the object is left as it was. -/
theorem C49_levels (B : Backend K R) (fresh : Nat → Nat → K) (nd reg : Bool) (s : Solver.State K R) {p : HQPData K}
    (h : 2 < p.length) : retrieve B fresh nd s p reg = .throw s := by
  unfold retrieve
  rw [if_pos h]

example : 2 < ([demo0, demo1, demo1] : HQPData ℚ).length := by decide

/-- **C49, level 1 with something else than equalities**: every back-end throws. -/
theorem C49_kinds (nd b reg : Bool) {n : Nat} {l0 l1 : Level K} (hne : l0 ≠ []) (h0 : LevelOK n l0) (h1 : LevelOK n l1)
    (hq : ¬ AllEq l1) (fresh : Nat → Nat → K) {h1' h2 h3 h4 h5 h6 : List (SolverCall K)}
    {s1 s2 s3 : Solver.State K (EiqRows K)} {s4 : Solver.State K (ProxRows K)} {s5 : Solver.State K (OsqpRows K)} {s6 : Solver.State K (MadRows K)}
    (e1 : retrieves eiq nd Eiq.init h1' = some s1) (e2 : retrieves fast nd Eiq.init h2 = some s2)
    (e3 : retrieves rt nd (Rt.init fresh n (Solver.count l0).1 (Solver.count l0).2) h3 = some s3)
    (e4 : retrieves prox nd Prox.init h4 = some s4) (e5 : retrieves osqp nd Osqp.init h5 = some s5)
    (e6 : retrieves mad nd (Mad.init b) h6 = some s6)
    (hz : hasBound l0 → n = s6.n → s6.rows.lb.size = n ∧ s6.rows.ub.size = n) :
    (∃ t, retrieve eiq fresh nd s1 [l0, l1] reg = .throw t) ∧ (∃ t, retrieve fast fresh nd s2 [l0, l1] reg = .throw t) ∧
    (∃ t, retrieve rt fresh nd s3 [l0, l1] reg = .throw t) ∧ (∃ t, retrieve prox fresh nd s4 [l0, l1] reg = .throw t) ∧
    (∃ t, retrieve osqp fresh nd s5 [l0, l1] reg = .throw t) ∧ ∃ t, retrieve mad fresh nd s6 [l0, l1] reg = .throw t := by
  obtain ⟨k1, k2, k3, k4⟩ := (Rt.keeps n (Solver.count l0).1 (Solver.count l0).2).retrieves h3 _ _ (rt_init fresh _ _ _) e3
  exact ⟨(Eiq.fits (eiq (K := K)).reg).rejects fresh nd reg ((Eiq.keeps _).retrieves h1' _ _ eiq_init e1) hne h0 h1 hq,
    (Eiq.fits id).rejects fresh nd reg ((Eiq.keeps _).retrieves h2 _ _ eiq_init e2) hne h0 h1 hq,
    Rt.fits.rejects fresh nd reg ⟨k1, k2.symm, by rw [k3, k4]⟩ hne h0 h1 hq,
    Prox.fits.rejects fresh nd reg (Prox.keeps.retrieves h4 _ _ prox_init e4) hne h0 h1 hq,
    Osqp.fits.rejects fresh nd reg (Osqp.keeps.retrieves h5 _ _ osqp_init e5) hne h0 h1 hq,
    Mad.fits.rejects fresh nd reg ⟨Mad.keeps.retrieves h6 _ _ (mad_init b) e6, hz⟩ hne h0 h1 hq⟩

example : LevelOK 2 demo0' ∧ ¬ AllEq demo0' ∧
    (retrieve (osqp : Backend ℚ (OsqpRows ℚ)) (fun _ _ => 0) true Osqp.init [demo0', demo0'] true).isThrow = true := by
  refine ⟨demo_admissible'.2.1, ?_, by decide +kernel⟩
  intro h
  have := h _ (show _ ∈ demo0' from List.mem_cons_of_mem _ List.mem_cons_self)
  cases this

/-- **C49, accepted problems**: those with a non-empty level 0 (`C44_feasible_set`, `C44_rt`, `C46_proxqp`, `C46_osqp`,
`C47_qpmad_partial` give the outcome).  With an empty level 0 a new object does not know the number of variables, and
reading level 1 is undefined behaviour. -/
theorem C49_empty_level0 : (retrieve (eiq : Backend ℚ (EiqRows ℚ)) (fun _ _ => 0) true Eiq.init [[], demo1] true).isUB = true ∧
    (retrieve (prox : Backend ℚ (ProxRows ℚ)) (fun _ _ => 0) true Prox.init [[], demo1] true).isUB = true ∧
    (retrieve (osqp : Backend ℚ (OsqpRows ℚ)) (fun _ _ => 0) true Osqp.init [[], demo1] true).isUB = true ∧
    (retrieve (mad : Backend ℚ (MadRows ℚ)) (fun _ _ => 0) true (Mad.init true) [[], demo1] true).isUB = true := by
  decide +kernel

/-- **C49, accepted problems.** -/
theorem C49_accepted_partial (nd b reg : Bool) {n : Nat} {l0 : Level K} {ls : List (Level K)} (hls : ls.length ≤ 1)
    (ha : Admissible n l0 ls.head?) (fresh : Nat → Nat → K) {h1 h2 h3 h4 h5 h6 : List (SolverCall K)}
    {s1 s2 s3 : Solver.State K (EiqRows K)} {s4 : Solver.State K (ProxRows K)} {s5 : Solver.State K (OsqpRows K)} {s6 : Solver.State K (MadRows K)}
    (e1 : retrieves eiq nd Eiq.init h1 = some s1) (e2 : retrieves fast nd Eiq.init h2 = some s2)
    (e3 : retrieves rt nd (Rt.init fresh n (Solver.count l0).1 (Solver.count l0).2) h3 = some s3)
    (e4 : retrieves prox nd Prox.init h4 = some s4) (e5 : retrieves osqp nd Osqp.init h5 = some s5)
    (e6 : retrieves mad nd (Mad.init b) h6 = some s6)
    (hz : hasBound l0 → n = s6.n → s6.rows.lb.size = n ∧ s6.rows.ub.size = n) :
    (retrieve eiq fresh nd s1 (l0 :: ls) reg).isOk = true ∧ (retrieve fast fresh nd s2 (l0 :: ls) reg).isOk = true ∧
    (retrieve rt fresh nd s3 (l0 :: ls) reg).isOk = true ∧ (retrieve prox fresh nd s4 (l0 :: ls) reg).isOk = true ∧
    (retrieve osqp fresh nd s5 (l0 :: ls) reg).isOk = true ∧ (retrieve mad fresh nd s6 (l0 :: ls) reg).isOk = true := by
  obtain ⟨k1, k2, k3, k4⟩ := (Rt.keeps n (Solver.count l0).1 (Solver.count l0).2).retrieves h3 _ _ (rt_init fresh _ _ _) e3
  obtain ⟨t1, a1, _⟩ := (Eiq.fits (eiq (K := K)).reg).retrieve fresh nd reg hls ((Eiq.keeps _).retrieves h1 _ _ eiq_init e1) ha
  obtain ⟨t2, a2, _⟩ := (Eiq.fits id).retrieve fresh nd reg hls ((Eiq.keeps _).retrieves h2 _ _ eiq_init e2) ha
  obtain ⟨t3, a3, _⟩ := Rt.fits.retrieve fresh nd reg hls ⟨k1, k2.symm, by rw [k3, k4]⟩ ha
  obtain ⟨t4, a4, _⟩ := Prox.fits.retrieve fresh nd reg hls (Prox.keeps.retrieves h4 _ _ prox_init e4) ha
  obtain ⟨t5, a5, _⟩ := Osqp.fits.retrieve fresh nd reg hls (Osqp.keeps.retrieves h5 _ _ osqp_init e5) ha
  obtain ⟨t6, a6, _⟩ := Mad.fits.retrieve fresh nd reg hls ⟨Mad.keeps.retrieves h6 _ _ (mad_init b) e6, hz⟩ ha
  have b1 : retrieve eiq fresh nd s1 (l0 :: ls) reg = .ok t1 () := a1
  have b2 : retrieve fast fresh nd s2 (l0 :: ls) reg = .ok t2 () := a2
  rw [b1, b2, a3, a4, a5, a6]
  exact ⟨rfl, rfl, rfl, rfl, rfl, rfl⟩

/-! ## C68 -/

/-- **C68**, eiquadprog and eiquadprog-fast: two objects with any two histories assemble the same data from the same
problem, whatever the memory contained. -/
theorem C68_eiquadprog_partial {B : Backend K (EiqRows K)} (hB : B = eiq ∨ B = fast) (nd : Bool)
    {hs ht : List (SolverCall K)} {s t : Solver.State K (EiqRows K)}
    (es : retrieves B nd Eiq.init hs = some s) (et : retrieves B nd Eiq.init ht = some t)
    (fresh fresh' : Nat → Nat → K) (reg : Bool) {n : Nat} {l0 l1 : Level K} (ha : Admissible n l0 (some l1)) :
    ∃ s' t', retrieve B fresh nd s [l0, l1] reg = .ok s' () ∧ retrieve B fresh' nd t [l0, l1] reg = .ok t' () ∧
      s'.n = t'.n ∧ EiqSame s'.rows t'.rows ∧ s'.H = t'.H ∧ s'.g = t'.g := by
  rcases hB with rfl | rfl
  · exact (Eiq.agrees (eiq (K := K)).reg).retrieve (Eiq.fits (eiq (K := K)).reg) fresh fresh' nd nd reg
      ((Eiq.keeps _).retrieves hs _ _ eiq_init es) ((Eiq.keeps _).retrieves ht _ _ eiq_init et) ha
  · exact (Eiq.agrees id).retrieve (Eiq.fits id) fresh fresh' nd nd reg
      ((Eiq.keeps _).retrieves hs _ _ eiq_init es) ((Eiq.keeps _).retrieves ht _ _ eiq_init et) ha

/-- **C68**, eiquadprog-rt, on problems of the size of the template arguments. -/
theorem C68_rt_partial (nd : Bool) {n : Nat} {l0 l1 : Level K} (ha : Admissible n l0 (some l1)) (f0 f0' : Nat → Nat → K)
    {hs ht : List (SolverCall K)} {s t : Solver.State K (EiqRows K)}
    (es : retrieves rt nd (Rt.init f0 n (Solver.count l0).1 (Solver.count l0).2) hs = some s)
    (et : retrieves rt nd (Rt.init f0' n (Solver.count l0).1 (Solver.count l0).2) ht = some t)
    (fresh fresh' : Nat → Nat → K) (reg : Bool) :
    ∃ s' t', retrieve rt fresh nd s [l0, l1] reg = .ok s' () ∧ retrieve rt fresh' nd t [l0, l1] reg = .ok t' () ∧
      s'.n = t'.n ∧ EiqSame s'.rows t'.rows ∧ s'.H = t'.H ∧ s'.g = t'.g := by
  obtain ⟨k1, k2, k3, k4⟩ := (Rt.keeps n (Solver.count l0).1 (Solver.count l0).2).retrieves hs _ _ (rt_init f0 _ _ _) es
  obtain ⟨m1, m2, m3, m4⟩ := (Rt.keeps n (Solver.count l0).1 (Solver.count l0).2).retrieves ht _ _ (rt_init f0' _ _ _) et
  exact Rt.agrees.retrieve Rt.fits fresh fresh' nd nd reg ⟨k1, k2.symm, by rw [k3, k4]⟩ ⟨m1, m2.symm, by rw [m3, m4]⟩ ha

/-- **C68**, ProxQP. -/
theorem C68_proxqp_partial (nd : Bool) {hs ht : List (SolverCall K)}
    {s t : Solver.State K (ProxRows K)} (es : retrieves prox nd Prox.init hs = some s)
    (et : retrieves prox nd Prox.init ht = some t) (fresh fresh' : Nat → Nat → K) (reg : Bool) {n : Nat}
    {l0 l1 : Level K} (ha : Admissible n l0 (some l1)) :
    ∃ s' t', retrieve prox fresh nd s [l0, l1] reg = .ok s' () ∧ retrieve prox fresh' nd t [l0, l1] reg = .ok t' () ∧
      s'.n = t'.n ∧ ProxSame s'.rows t'.rows ∧ s'.H = t'.H ∧ s'.g = t'.g :=
  Prox.agrees.retrieve Prox.fits fresh fresh' nd nd reg (Prox.keeps.retrieves hs _ _ prox_init es)
    (Prox.keeps.retrieves ht _ _ prox_init et) ha

/-- **C68**, OSQP. -/
theorem C68_osqp_partial (nd : Bool) {hs ht : List (SolverCall K)}
    {s t : Solver.State K (OsqpRows K)} (es : retrieves osqp nd Osqp.init hs = some s)
    (et : retrieves osqp nd Osqp.init ht = some t) (fresh fresh' : Nat → Nat → K) (reg : Bool) {n : Nat}
    {l0 l1 : Level K} (ha : Admissible n l0 (some l1)) :
    ∃ s' t', retrieve osqp fresh nd s [l0, l1] reg = .ok s' () ∧ retrieve osqp fresh' nd t [l0, l1] reg = .ok t' () ∧
      s'.n = t'.n ∧ OsqpSame s'.rows t'.rows ∧ s'.H = t'.H ∧ s'.g = t'.g :=
  Osqp.agrees.retrieve Osqp.fits fresh fresh' nd nd reg (Osqp.keeps.retrieves hs _ _ osqp_init es)
    (Osqp.keeps.retrieves ht _ _ osqp_init et) ha

/-- **C68**, qpmad: with bounds, the vectors for them must have the right size (`C47_appearing_bounds`: otherwise the
outcome depends on the past). -/
theorem C68_qpmad_partial (nd b b' : Bool) {hs ht : List (SolverCall K)}
    {s t : Solver.State K (MadRows K)} (es : retrieves mad nd (Mad.init b) hs = some s)
    (et : retrieves mad nd (Mad.init b') ht = some t) (fresh fresh' : Nat → Nat → K) (reg : Bool) {n : Nat}
    {l0 l1 : Level K} (ha : Admissible n l0 (some l1))
    (zs : hasBound l0 → n = s.n → s.rows.lb.size = n ∧ s.rows.ub.size = n)
    (zt : hasBound l0 → n = t.n → t.rows.lb.size = n ∧ t.rows.ub.size = n) :
    ∃ s' t', retrieve mad fresh nd s [l0, l1] reg = .ok s' () ∧ retrieve mad fresh' nd t [l0, l1] reg = .ok t' () ∧
      s'.n = t'.n ∧ MadSame s'.rows t'.rows ∧ s'.H = t'.H ∧ s'.g = t'.g :=
  Mad.agrees.retrieve Mad.fits fresh fresh' nd nd reg ⟨Mad.keeps.retrieves hs _ _ (mad_init b) es, zs⟩
    ⟨Mad.keeps.retrieves ht _ _ (mad_init b') et, zt⟩ ha

example : ∃ s t, retrieves (eiq : Backend ℚ (EiqRows ℚ)) true Eiq.init demoHist = some s ∧
    retrieves (eiq : Backend ℚ (EiqRows ℚ)) true Eiq.init [] = some t ∧ s.n ≠ t.n :=
  ⟨_, _, rfl, rfl, by decide +kernel⟩

/-- With an empty level 0 the past matters: the number of variables is the one of the previous problem. -/
theorem C68_empty_level0 : ∃ s, retrieves (eiq : Backend ℚ (EiqRows ℚ)) true Eiq.init
      [.retrieve (fun _ _ => 0) [demo0, demo1] true] = some s ∧
    (retrieve eiq (fun _ _ => 0) true s [[], demo1] true).isOk = true ∧
    (retrieve eiq (fun _ _ => 0) true Eiq.init [[], demo1] true).isUB = true :=
  ⟨_, rfl, by decide +kernel⟩

/-- With a single level the past matters: the cost of the previous problem is kept. -/
theorem C68_one_level : ∃ s s', retrieves (eiq : Backend ℚ (EiqRows ℚ)) true Eiq.init
      [.retrieve (fun _ _ => 0) [demo0, demo1] true] = some s ∧
    retrieve eiq (fun _ _ => 0) true s [demo0] true = .ok s' () ∧ s'.g.toList = [-6, 0] :=
  ⟨_, _, rfl, rfl, by decide +kernel⟩

end Tsid.Props
