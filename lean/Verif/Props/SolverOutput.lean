import Verif.Lemmas.SolverOutput
import Verif.Props.SolverCost

/-!
# C85: what `solve` returns
-/

set_option linter.unusedSectionVars false

namespace Tsid.Props

open Finset Spec Solver

variable {K R C : Type} [Field K] [CharZero K] [LinearOrder K] [IsStrictOrderedRing K]

/-! ## New objects -/

theorem rt_sized_resized {a b c : Nat} (fresh : Nat → Nat → K) (freshI : Nat → Int)
    (old new : Solver.State K (EiqRows K)) (o : Solve.Output K) (h1 : Rt.Sized a b c old) (h2 : Rt.Sized a b c new)
    (h : o.x.size = old.n) : ((Solve.rt : Solve.Driver K (EiqRows K) _).resized fresh freshI old new o).x.size = new.n := by
  show o.x.size = new.n
  rw [h, h1.2.1, h2.2.1]

theorem rt_new_sized (fresh : Nat → Nat → K) (freshI : Nat → Int) (a b c : Nat) (t : Status.HQPStatus) (i : Int)
    (v : Solve.Objective K) : Solve.XSized (Solve.Rt.init fresh freshI a b c t i v) :=
  Solve.resizeTo_size ..

/-! ## C85 -/

/-- **C85, size.** However an object was used before, and whatever the external solver answered, the output has one
entry per variable of the last problem; so it can be decoded. -/
theorem C85_size (nd b : Bool) (t : Status.HQPStatus) (i : Int) (v : Solve.Objective K) :
    KeepsSize Solve.eiq nd (Solve.Eiq.init t i v) ∧ KeepsSize Solve.fast nd (Solve.Eiq.init t i v) ∧
    (∀ fresh freshI n neq nin, KeepsSize Solve.rt nd (Solve.Rt.init fresh freshI n neq nin t i v)) ∧
    KeepsSize Solve.prox nd (Solve.Prox.init t i v) ∧ KeepsSize Solve.osqp nd (Solve.Osqp.init t i v) ∧
    KeepsSize Solve.mad nd (Solve.Mad.init b t i v) :=
  ⟨fun hist s he hs => (Solve.solves_sized Solve.eiq_good (Eiq.keeps _)
      (fun f g _ _ _ _ _ h => Solve.resizeX_size f g h) hist he _ s eiq_init (by rfl) hs).2,
    fun hist s he hs => (Solve.solves_sized Solve.fast_good (Eiq.keeps _)
      (fun f g _ _ _ _ _ h => Solve.fastResized_size f g h) hist he _ s eiq_init (by rfl) hs).2,
    fun fresh freshI n neq nin hist s he hs => (Solve.solves_sized Solve.rt_good (Rt.keeps n neq nin)
      rt_sized_resized hist he _ s (rt_init fresh n neq nin) (rt_new_sized fresh freshI n neq nin t i v) hs).2,
    fun hist s he hs => (Solve.solves_sized Solve.prox_good Prox.keeps
      (fun f g _ _ _ _ _ h => Solve.resizeX_size f g h) hist he _ s prox_init (by rfl) hs).2,
    fun hist s he hs => (Solve.solves_sized Solve.osqp_good Osqp.keeps
      (fun f g _ _ _ _ _ h => Solve.resizeX_size f g h) hist he _ s osqp_init (by rfl) hs).2,
    fun hist s he hs => (Solve.solves_sized Solve.mad_good Mad.keeps
      (fun f g _ _ _ _ _ h => Solve.resizeX_size f g h) hist he _ s (mad_init b) (by rfl) hs).2⟩

/-- **C85, solution.** On a two-level problem, however the object was used before: `solve` returns, and if the external
solver, which keeps its promises, succeeds, then the status is optimal and the vector returned is an optimal point of
the hierarchical problem.  `getObjectiveValue` is its cost at level 1 without the constant part; for qpmad it is
infinite.  (Problems with simple bounds are left out for qpmad, see `C47_positive_min`; problems of another size than
the template arguments for eiquadprog-rt, see `C44_rt_fewer`.) -/
theorem C85_solves_partial (nd b : Bool) (t : Status.HQPStatus) (i : Int) (v : Solve.Objective K) {n : Nat}
    {l0 l1 : Level K} (ha : Admissible n l0 (some l1)) :
    SolvesProblem Solve.eiq nd (Solve.Eiq.init t i v) EiqSat (fun a => ∃ w, a.objective = .num w) n true l0 l1
      (CostOf n true l1) ∧
    SolvesProblem Solve.fast nd (Solve.Eiq.init t i v) EiqSat (fun a => a.code = .optimal) n true l0 l1
      (CostOf n true l1) ∧
    (∀ fresh freshI, SolvesProblem Solve.rt nd
      (Solve.Rt.init fresh freshI n (Solver.count l0).1 (Solver.count l0).2 t i v) EiqSat (fun a => a.code = .optimal)
      n true l0 l1 (CostOf n true l1)) ∧
    SolvesProblem Solve.prox nd (Solve.Prox.init t i v) ProxSat (fun a => a.code = .solved) n false l0 l1
      (CostOf n false l1) ∧
    SolvesProblem Solve.osqp nd (Solve.Osqp.init t i v) OsqpSat (fun a => a.code = .solved) n false l0 l1
      (CostOf n false l1) ∧
    (¬ hasBound l0 → SolvesProblem Solve.mad nd (Solve.Mad.init b t i v) MadSat (fun a => a.code = .ok) n true l0 l1
      fun _ v => v = .plusInfinity) := by
  have hls : [l1].length ≤ 1 := le_refl _
  refine ⟨?_, ?_, ?_, ?_, ?_, ?_⟩
  · intro hist s hh hs fresh freshI engine he
    obtain ⟨z1, z2⟩ := Solve.solves_sized Solve.eiq_good (Eiq.keeps _)
      (fun f g _ _ _ _ _ h => Solve.resizeX_size f g h) hist hh _ s eiq_init (by rfl) hs
    obtain ⟨st, e, hn, _, _, _, hx, hq⟩ := (Eiq.fits (Solver.eiq (K := K)).reg).retrieve fresh nd true hls z1 ha
    obtain ⟨s', e', rfl, k1, k2, k3⟩ := Solve.solve_ok Solve.eiq_good he (freshI := freshI) (D := Solve.eiq)
      (Solve.resizeX_size fresh freshI z2) e hn (fun x => by rw [hx, true_and]) (hq l1 rfl)
    exact ⟨s', e', hn, k1, k2, k3⟩
  · intro hist s hh hs fresh freshI engine he
    obtain ⟨z1, z2⟩ := Solve.solves_sized Solve.fast_good (Eiq.keeps _)
      (fun f g _ _ _ _ _ h => Solve.fastResized_size f g h) hist hh _ s eiq_init (by rfl) hs
    obtain ⟨st, e, hn, _, _, _, hx, hq⟩ := (Eiq.fits id).retrieve fresh nd true hls z1 ha
    obtain ⟨s', e', rfl, k1, k2, k3⟩ := Solve.solve_ok Solve.fast_good he (freshI := freshI) (D := Solve.fast)
      (Solve.fastResized_size fresh freshI z2) e hn (fun x => by rw [hx, true_and]) (hq l1 rfl)
    exact ⟨s', e', hn, k1, k2, k3⟩
  · intro fresh0 freshI0 hist s hh hs fresh freshI engine he
    obtain ⟨z1, z2⟩ := Solve.solves_sized Solve.rt_good (Rt.keeps n (Solver.count l0).1 (Solver.count l0).2)
      rt_sized_resized hist hh _ s (rt_init fresh0 _ _ _) (rt_new_sized fresh0 freshI0 _ _ _ t i v) hs
    obtain ⟨m1, m2, m3, m4⟩ := z1
    obtain ⟨st, e, hn, _, _, _, hx, hq⟩ := Rt.fits.retrieve fresh nd true hls ⟨m1, m2.symm, by rw [m3, m4]⟩ ha
    obtain ⟨s', e', rfl, k1, k2, k3⟩ := Solve.solve_ok Solve.rt_good he (freshI := freshI) (D := Solve.rt)
      (show s.out.x.size = st.n by rw [hn, ← m2]; exact z2) e hn (fun x => by rw [hx, true_and]) (hq l1 rfl)
    exact ⟨s', e', hn, k1, k2, k3⟩
  · intro hist s hh hs fresh freshI engine he
    obtain ⟨z1, z2⟩ := Solve.solves_sized Solve.prox_good Prox.keeps
      (fun f g _ _ _ _ _ h => Solve.resizeX_size f g h) hist hh _ s prox_init (by rfl) hs
    obtain ⟨st, e, hn, _, _, _, hx, hq⟩ := Prox.fits.retrieve fresh nd false hls z1 ha
    obtain ⟨s', e', rfl, k1, k2, k3⟩ := Solve.solve_ok Solve.prox_good he (freshI := freshI) (D := Solve.prox)
      (Solve.resizeX_size fresh freshI z2) e hn (fun x => by rw [hx, true_and]) (hq l1 rfl)
    exact ⟨s', e', hn, k1, k2, k3⟩
  · intro hist s hh hs fresh freshI engine he
    obtain ⟨z1, z2⟩ := Solve.solves_sized Solve.osqp_good Osqp.keeps
      (fun f g _ _ _ _ _ h => Solve.resizeX_size f g h) hist hh _ s osqp_init (by rfl) hs
    obtain ⟨st, e, hn, _, _, _, hx, hq⟩ := Osqp.fits.retrieve fresh nd false hls z1 ha
    obtain ⟨s', e', rfl, k1, k2, k3⟩ := Solve.solve_ok Solve.osqp_good he (freshI := freshI) (D := Solve.osqp)
      (Solve.resizeX_size fresh freshI z2) e hn (fun x => by rw [hx, true_and]) (hq l1 rfl)
    exact ⟨s', e', hn, k1, k2, k3⟩
  · intro hb hist s hh hs fresh freshI engine he
    obtain ⟨z1, z2⟩ := Solve.solves_sized Solve.mad_good Mad.keeps
      (fun f g _ _ _ _ _ h => Solve.resizeX_size f g h) hist hh _ s (mad_init b) (by rfl) hs
    obtain ⟨st, e, hn, _, _, _, hx, hq⟩ := Mad.fits.retrieve fresh nd true hls ⟨z1, fun h => absurd h hb⟩ ha
    obtain ⟨s', e', rfl, k1, k2, k3⟩ := Solve.solve_ok Solve.mad_good he (freshI := freshI) (D := Solve.mad)
      (Solve.resizeX_size fresh freshI z2) e hn
      (fun x => by rw [hx]; exact and_iff_right fun h => absurd h hb) (hq l1 rfl)
    exact ⟨s', e', hn, k1, k2, fun h => ⟨(k3 h).1, rfl⟩⟩

/-- The ideal solver keeps its promises; it succeeds iff there is an optimal point. -/
theorem ideal_sound (Sat : R → (Nat → K) → Prop) (yes no : C) (Success : Solve.Answer C K → Prop)
    (hno : ∀ st : Solver.State K R, ∀ x, Success (ideal Sat yes no st x) ↔
      ∃ x, Optimal (Sat st.rows) (qpCost st.H st.g) x) : Sound Sat Success (ideal Sat yes no) := by
  refine ⟨?_, ?_, ?_, ?_⟩
  · intro st x _
    unfold ideal
    split <;> rfl
  · intro st x h
    have h' := (hno st x).1 h
    unfold ideal
    rw [dif_pos h']
    exact h'.choose_spec
  · intro st x h
    have h' := (hno st x).1 h
    unfold ideal
    rw [dif_pos h']
  · intro st x h
    have h' := (hno st x).1 h
    unfold ideal
    rw [dif_pos h']
    exact ⟨le_refl _, by simp⟩

/-- The problem of the examples has an optimal point. -/
theorem demo_optimal : Optimal (Feasible demo0') (target 2 true demo1) fun i => if i = 0 then (5 : ℚ) / 2 else -3 / 2 := by
  constructor
  · intro q hq
    simp only [demo0', demo0, List.take_succ_cons, List.take_zero, List.mem_cons, List.not_mem_nil, or_false] at hq
    rcases hq with rfl | rfl
    · intro i hi
      obtain rfl : i = 0 := by simp only at hi; omega
      decide +kernel
    · intro i hi
      obtain rfl : i = 0 := by simp only at hi; omega
      decide +kernel
  · intro y hy
    have h1 := hy _ (show _ ∈ demo0' from List.mem_cons_self) 0 (by decide)
    have h2 := hy _ (show _ ∈ demo0' from List.mem_cons_of_mem _ List.mem_cons_self) 0 (by decide)
    simp only [row, sum_range_succ, sum_range_zero, one_mul, zero_add, if_true, Nat.one_ne_zero, if_false] at h1 h2
    have e : y 1 = 1 - y 0 := by linarith
    have h3 : y 0 ≤ 5 / 2 := by linarith [h2.2]
    simp only [target, lsqCost, sqResidual, Spec.residual, row, demo1, List.map_cons, List.map_nil, List.sum_cons, List.sum_nil,
      sqNorm, sum_range_succ, sum_range_zero, if_true, Nat.one_ne_zero, if_false, defaultReg, e]
    nlinarith [mul_nonneg (sub_nonneg.2 h3) (sub_nonneg.2 h3)]

/-- The hypotheses of `C85_solves_partial` are met: eiquadprog, if it is ideal, solves this problem. -/
example : ∃ s', Solve.solve Solve.eiq (fun _ _ => 5) (fun _ => 7) true (ideal EiqSat () ())
      (Solve.Eiq.init .error 3 .nan) [demo0', demo1] = .ok s' () ∧ Solved 2 true demo0' demo1 s'.out ∧
    CostOf 2 true demo1 s'.out.x (Solve.getObjectiveValue Solve.eiq s') := by
  have hs : ∀ (st : Solver.State ℚ (EiqRows ℚ)) x, (∃ w, (ideal EiqSat () () st x).objective = .num w) ↔
      ∃ x, Optimal (EiqSat st.rows) (qpCost st.H st.g) x := by
    intro st x
    by_cases h : ∃ x, Optimal (EiqSat st.rows) (qpCost st.H st.g) x
    · refine iff_of_true ?_ h
      unfold ideal
      rw [dif_pos h]
      exact ⟨_, rfl⟩
    · refine iff_of_false ?_ h
      unfold ideal
      rw [dif_neg h]
      rintro ⟨_, hw⟩
      cases hw
  obtain ⟨s', e, -, -, -, k⟩ := (C85_solves_partial true false .error 3 .nan demo_admissible').1 [] _ (by simp) rfl
    (fun _ _ => 5) (fun _ => 7) _ (ideal_sound _ _ _ _ hs)
  refine ⟨s', e, k ((hs _ _).2 ?_)⟩
  obtain ⟨t1, -, -, -, -, -, ⟨r1, r2⟩, -⟩ := C48_back_ends true false true demo_admissible' demo_unbounded (fun _ _ => 5)
    (h1 := []) (h2 := []) (h3 := []) (h4 := []) (h5 := []) (h6 := []) rfl rfl rfl rfl rfl rfl
  have := Solve.solve_state (s' := s') (by rw [e]; rfl)
  have h1 : (retrieve Solver.eiq (fun _ _ => (5 : ℚ)) true Eiq.init [demo0', demo1] true).state? = some s'.st := this
  rw [r1] at h1
  cases h1
  exact ⟨_, (r2 _).2 demo_optimal⟩

/-! ### What is reported besides the solution -/

/-- **C85, details for eiquadprog-fast and eiquadprog-rt.** After a success, the multipliers and the iterations are those
of the external solver, and the active set is its array of active constraints without the equalities. -/
theorem C85_details_partial {D : Solve.Driver K (EiqRows K) Status.FastCode} (hD : D = Solve.fast ∨ D = Solve.rt)
    (fresh : Nat → Nat → K) (freshI : Nat → Int) (nd : Bool)
    (engine : Solver.State K (EiqRows K) → Vec K → Solve.Answer Status.FastCode K) (s s' : Solve.Object K (EiqRows K))
    (p : HQPData K) (h : Solve.solve D fresh freshI nd engine s p = .ok s' ()) :
    let a := engine s'.st (start D fresh freshI s s')
    a.code = .optimal → s'.out.lambda = a.multipliers ∧ s'.out.iterations = a.iterations ∧
      s'.out.activeSet.length + s'.st.neq = a.activeSize ∧
      ∀ k, k < s'.out.activeSet.length → s'.out.activeSet[k]? = a.active[s'.st.neq + k]? := by
  have hw : D.write = Solve.Fast.write := by rcases hD with rfl | rfl <;> rfl
  intro a hc
  obtain ⟨e', -⟩ := Solve.solve_result h
  change D.write s'.st a _ = _ at e'
  clear_value a
  rw [hw, Solve.Fast.write] at e'
  dsimp only at e'
  rw [if_pos hc] at e'
  split at e'
  · next act ea =>
    unfold Solve.activeInequalities at ea
    by_cases hle : s'.st.neq ≤ a.activeSize ∧ a.activeSize ≤ a.active.length
    · rw [if_pos hle] at ea
      cases ea
      rw [← Option.some.inj e']
      refine ⟨rfl, rfl, ?_, ?_⟩
      · dsimp only
        rw [List.length_take, List.length_drop]
        omega
      · intro k hk
        dsimp only at hk ⊢
        rw [List.length_take, List.length_drop] at hk
        rw [List.getElem?_take, if_pos (by omega), List.getElem?_drop]
    · rw [if_neg hle] at ea
      cases ea
  · cases e'

/-- A property of the output that neither `resize` nor the last statements of `solve` destroy holds after every
history. -/
theorem solves_inv {D : Solve.Driver K R C} {P : Solve.Output K → Prop}
    (h1 : ∀ fresh freshI old new o, P o → P (D.resized fresh freshI old new o))
    (h2 : ∀ st a o o', P o → D.write st a o = some o' → P o') {nd : Bool} :
    ∀ (h : List (SolveCall K R C)) (s s' : Solve.Object K R), P s.out → solves D nd s h = some s' → P s'.out := by
  intro h
  induction h with
  | nil => intro s s' hp e; cases e; exact hp
  | cons c h ih =>
    intro s s' hp e
    simp only [solves] at e
    split at e
    · next s1 e1 =>
      refine ih s1 s' ?_ e
      cases c with
      | solve fresh freshI p engine =>
        simp only [SolveCall.run, Solve.solve] at e1
        split at e1
        · split at e1
          · next o' e' => cases e1; exact h2 _ _ _ _ (h1 _ _ _ _ _ hp) e'
          · cases e1
        · cases e1; exact h1 _ _ _ _ _ hp
        · cases e1
        · cases e1
      | resize fresh freshI n neq nin =>
        simp only [SolveCall.run, Solve.resize] at e1
        split at e1
        · cases e1; exact h1 _ _ _ _ _ hp
        · cases e1; exact h1 _ _ _ _ _ hp
        · cases e1
        · cases e1
    · cases e

theorem resizeX_rest (fresh : Nat → Nat → K) (freshI : Nat → Int) (old new : Solver.State K R) (o : Solve.Output K) :
    (Solve.resizeX fresh freshI old new o).lambda = o.lambda ∧
    (Solve.resizeX fresh freshI old new o).activeSet = o.activeSet ∧
    (Solve.resizeX fresh freshI old new o).iterations = o.iterations ∧
    (Solve.resizeX fresh freshI old new o).status = o.status := by
  unfold Solve.resizeX
  split <;> exact ⟨rfl, rfl, rfl, rfl⟩

/-- **C85 fails for the details of four back-ends.** Whatever problems are solved: eiquadprog and qpmad never report
multipliers nor active constraints, and OSQP and ProxQP no active constraints; the number of iterations reported by
eiquadprog, qpmad and OSQP is what was in memory when the object was made. -/
theorem C85_unreported (nd b : Bool) (t : Status.HQPStatus) (i : Int) (v : Solve.Objective K) :
    (∀ h s, solves Solve.eiq nd (Solve.Eiq.init t i v) h = some s →
      s.out.lambda.size = 0 ∧ s.out.activeSet = [] ∧ s.out.iterations = i) ∧
    (∀ h s, solves Solve.mad nd (Solve.Mad.init b t i v) h = some s →
      s.out.lambda.size = 0 ∧ s.out.activeSet = [] ∧ s.out.iterations = i) ∧
    (∀ h s, solves Solve.osqp nd (Solve.Osqp.init t i v) h = some s →
      s.out.activeSet = [] ∧ s.out.iterations = i) ∧
    ∀ h s, solves Solve.prox nd (Solve.Prox.init t i v) h = some s → s.out.activeSet = [] := by
  refine ⟨fun h s e => ?_, fun h s e => ?_, fun h s e => ?_, fun h s e => ?_⟩
  · refine solves_inv (D := Solve.eiq) (P := fun o => o.lambda.size = 0 ∧ o.activeSet = [] ∧ o.iterations = i)
      ?_ ?_ h _ s ⟨rfl, rfl, rfl⟩ e
    · intro f g old new o hp
      obtain ⟨a, b, c, -⟩ := resizeX_rest f g old new o
      show (Solve.resizeX f g old new o).lambda.size = 0 ∧ _
      rw [a]
      exact ⟨hp.1, b.trans hp.2.1, c.trans hp.2.2⟩
    · intro st a o o' hp e; cases e; exact hp
  · refine solves_inv (D := Solve.mad) (P := fun o => o.lambda.size = 0 ∧ o.activeSet = [] ∧ o.iterations = i)
      ?_ ?_ h _ s ⟨rfl, rfl, rfl⟩ e
    · intro f g old new o hp
      obtain ⟨a, b, c, -⟩ := resizeX_rest f g old new o
      show (Solve.resizeX f g old new o).lambda.size = 0 ∧ _
      rw [a]
      exact ⟨hp.1, b.trans hp.2.1, c.trans hp.2.2⟩
    · intro st a o o' hp e; cases e; exact hp
  · refine solves_inv (D := Solve.osqp) (P := fun o => o.activeSet = [] ∧ o.iterations = i) ?_ ?_ h _ s ⟨rfl, rfl⟩ e
    · intro f g old new o hp
      obtain ⟨-, b, c, -⟩ := resizeX_rest f g old new o
      exact ⟨b.trans hp.1, c.trans hp.2⟩
    · intro st a o o' hp e
      simp only [Solve.osqp, Solve.Osqp.write] at e
      split at e <;> cases e <;> exact hp
  · refine solves_inv (D := Solve.prox) (P := fun o => o.activeSet = []) ?_ ?_ h _ s rfl e
    · intro f g old new o hp
      obtain ⟨-, b, c, -⟩ := resizeX_rest f g old new o
      exact b.trans hp
    · intro st a o o' hp e
      simp only [Solve.prox, Solve.Prox.write] at e
      split at e <;> cases e
      · show o.activeSet.map _ = []
        rw [hp]; rfl
      · exact hp

/-- **C85, multipliers of ProxQP and OSQP.** After a success they are those that the external solver gives for its
equalities (ProxQP, where those of the inequalities are left out) and for all its rows (OSQP). -/
theorem C85_multipliers_partial (fresh : Nat → Nat → K) (freshI : Nat → Int) (nd : Bool) (p : HQPData K) :
    (∀ (engine : Solver.State K (ProxRows K) → Vec K → Solve.Answer Status.ProxCode K) s s',
      Solve.solve Solve.prox fresh freshI nd engine s p = .ok s' () →
        let a := engine s'.st (start Solve.prox fresh freshI s s')
        a.code = .solved → s'.out.lambda = a.multipliers ∧ s'.out.iterations = a.iterations) ∧
    ∀ (engine : Solver.State K (OsqpRows K) → Vec K → Solve.Answer Status.OsqpCode K) s s',
      Solve.solve Solve.osqp fresh freshI nd engine s p = .ok s' () →
        let a := engine s'.st (start Solve.osqp fresh freshI s s')
        a.code = .solved → s'.out.lambda = a.multipliers := by
  constructor
  · intro engine s s' h a hc
    obtain ⟨e', -⟩ := Solve.solve_result h
    simp only [Solve.prox, Solve.Prox.write] at e'
    erw [if_pos hc] at e'
    rw [← Option.some.inj e']
    exact ⟨rfl, rfl⟩
  · intro engine s s' h a hc
    obtain ⟨e', -⟩ := Solve.solve_result h
    simp only [Solve.osqp, Solve.Osqp.write] at e'
    erw [if_pos hc] at e'
    rw [← Option.some.inj e']
    rfl

/-! ### Failures -/

/-- **C85 fails for failures.** When ProxQP or OSQP fail on a problem with as many variables as the one before, the
output holds the solution, multipliers, active set and iterations of an earlier problem. -/
theorem C85_failure_keeps (fresh : Nat → Nat → K) (freshI : Nat → Int) (nd : Bool) (p : HQPData K) :
    (∀ (engine : Solver.State K (ProxRows K) → Vec K → Solve.Answer Status.ProxCode K) s s',
      Solve.solve Solve.prox fresh freshI nd engine s p = .ok s' () →
        (engine s'.st (start Solve.prox fresh freshI s s')).code ≠ .solved →
        s'.st.n = s.st.n → ∃ t, s'.out = { s.out with status := t }) ∧
    ∀ (engine : Solver.State K (OsqpRows K) → Vec K → Solve.Answer Status.OsqpCode K) s s',
      Solve.solve Solve.osqp fresh freshI nd engine s p = .ok s' () →
        (engine s'.st (start Solve.osqp fresh freshI s s')).code ≠ .solved →
        s'.st.n = s.st.n → ∃ t, s'.out = { s.out with status := t } := by
  constructor
  · intro engine s s' h hf hn
    obtain ⟨e', -⟩ := Solve.solve_result h
    have e : (Solve.prox : Solve.Driver K (ProxRows K) _).resized fresh freshI s.st s'.st s.out = s.out := by
      show Solve.resizeX fresh freshI s.st s'.st s.out = s.out
      unfold Solve.resizeX
      rw [if_neg (by simp [hn])]
    rw [e] at e'
    simp only [Solve.prox, Solve.Prox.write] at e'
    erw [if_neg hf] at e'
    exact ⟨_, (Option.some.inj e').symm⟩
  · intro engine s s' h hf hn
    obtain ⟨e', -⟩ := Solve.solve_result h
    have e : (Solve.osqp : Solve.Driver K (OsqpRows K) _).resized fresh freshI s.st s'.st s.out = s.out := by
      show Solve.resizeX fresh freshI s.st s'.st s.out = s.out
      unfold Solve.resizeX
      rw [if_neg (by simp [hn])]
    rw [e] at e'
    simp only [Solve.osqp, Solve.Osqp.write] at e'
    erw [if_neg hf] at e'
    exact ⟨_, (Option.some.inj e').symm⟩

/-- `x₀ = 1` and `x₀ = 2`: no solution. -/
def demoContradiction : Level ℚ :=
  [(1, ⟨"a", .equality, ⟨1, 2, fun _ j => if j = 0 then 1 else 0⟩, ⟨1, fun _ => 1⟩, Vec.zero 0, Vec.zero 0⟩),
   (1, ⟨"b", .equality, ⟨1, 2, fun _ j => if j = 0 then 1 else 0⟩, ⟨1, fun _ => 2⟩, Vec.zero 0, Vec.zero 0⟩)]

/-- An answer of eiquadprog-fast with the given code. -/
def demoAnswer (c : Status.FastCode) : Solver.State ℚ (EiqRows ℚ) → Vec ℚ → Solve.Answer Status.FastCode ℚ :=
  fun st x => ⟨c, ⟨x.size, fun i => if i = 0 then 5 / 2 else -3 / 2⟩, ⟨1, fun _ => 4⟩, [-1, 1], st.neq + (2 - st.neq), 6, .num 0⟩

/-- eiquadprog-fast, after a success, on a problem without solution, when the external solver says so: the output claims
an optimal solution, with the active set and the iterations of the problem before. -/
theorem C85_claims_solution : ∃ s, solves Solve.fast true (Solve.Eiq.init .error 3 .nan)
      [.solve (fun _ _ => 5) (fun _ => 7) [demo0', demo1] (demoAnswer .optimal),
       .solve (fun _ _ => 5) (fun _ => 7) [demoContradiction, demo1] (demoAnswer .infeasible)] = some s ∧
    s.out.status = .optimal ∧ s.out.iterations = 6 ∧ ∀ x, ¬ Feasible demoContradiction x := by
  refine ⟨_, rfl, rfl, rfl, fun x hx => ?_⟩
  have h1 := hx _ (show _ ∈ demoContradiction from List.mem_cons_self) 0 (by decide)
  have h2 := hx _ (show _ ∈ demoContradiction from List.mem_cons_of_mem _ List.mem_cons_self) 0 (by decide)
  have : (1 : ℚ) = 2 := h1.symm.trans h2
  norm_num at this

/-! ### Before the first call of `solve` -/

/-- Only `resize` has been called. -/
def OnlyResized (h : List (SolveCall K R C)) : Prop :=
  ∀ c ∈ h, ∃ fresh freshI n neq nin, c = .resize fresh freshI n neq nin

theorem resized_inv {D : Solve.Driver K R C} {nd : Bool} {P : Solver.State K R → Solve.Output K → Prop}
    (h1 : ∀ fresh freshI old new o n neq nin, (D.backend.resize fresh nd old n neq nin).state? = some new → P old o →
      P new (D.resized fresh freshI old new o)) :
    ∀ (h : List (SolveCall K R C)) (s s' : Solve.Object K R), OnlyResized h → P s.st s.out →
      solves D nd s h = some s' → P s'.st s'.out := by
  intro h
  induction h with
  | nil => intro s s' _ hp e; cases e; exact hp
  | cons c h ih =>
    intro s s' ho hp e
    simp only [solves] at e
    split at e
    · next s1 e1 =>
      refine ih s1 s' (fun c hc => ho c (List.mem_cons_of_mem _ hc)) ?_ e
      obtain ⟨fresh, freshI, n, neq, nin, rfl⟩ := ho c List.mem_cons_self
      simp only [SolveCall.run, Solve.resize] at e1
      split at e1
      · next st u e2 => cases e1; exact h1 _ _ _ _ _ _ _ _ (by rw [e2]; rfl) hp
      · next st e2 => cases e1; exact h1 _ _ _ _ _ _ _ _ (by rw [e2]; rfl) hp
      · cases e1
      · cases e1
    · cases e

/-- The output as far as memory decides about it. -/
def Garbage (t : Status.HQPStatus) (i : Int) (o : Solve.Output K) : Prop := o.status = t ∧ o.iterations = i

theorem resizeX_garbage {t : Status.HQPStatus} {i : Int} {fresh : Nat → Nat → K} {freshI : Nat → Int}
    {old new : Solver.State K R} {o : Solve.Output K} (h : Garbage t i o) :
    Garbage t i (Solve.resizeX fresh freshI old new o) := by
  obtain ⟨-, -, a, b⟩ := resizeX_rest fresh freshI old new o
  exact ⟨b.trans h.1, a.trans h.2⟩

theorem fastResized_garbage {t : Status.HQPStatus} {i : Int} {fresh : Nat → Nat → K} {freshI : Nat → Int}
    {old new : Solver.State K R} {o : Solve.Output K} (h : Garbage t i o) :
    Garbage t i (Solve.Fast.resized fresh freshI old new o) := by
  have := resizeX_garbage (fresh := fresh) (freshI := freshI) (old := old) (new := new) h
  unfold Solve.Fast.resized
  dsimp only
  split
  · exact this
  · exact this

theorem resized_garbage {D : Solve.Driver K R C} {nd : Bool} {t : Status.HQPStatus} {i : Int} {s0 : Solve.Object K R}
    (hd : ∀ fresh freshI old new o, Garbage t i o → Garbage t i (D.resized fresh freshI old new o))
    (h0 : Garbage t i s0.out) (h : List (SolveCall K R C)) (s : Solve.Object K R) (ho : OnlyResized h)
    (e : solves D nd s0 h = some s) : Garbage t i s.out :=
  resized_inv (P := fun _ => Garbage t i) (fun _ _ _ _ _ _ _ _ _ hp => hd _ _ _ _ _ hp) h _ s ho h0 e

/-- **C85 fails before the first call of `solve`.** Status and number of iterations of the output are what was in memory
when the object was made, however often it was resized. -/
theorem C85_before_first_solve (nd b : Bool) (t : Status.HQPStatus) (i : Int) (v : Solve.Objective K) :
    (∀ h s, OnlyResized h → solves Solve.eiq nd (Solve.Eiq.init t i v) h = some s → Garbage t i s.out) ∧
    (∀ h s, OnlyResized h → solves Solve.fast nd (Solve.Eiq.init t i v) h = some s → Garbage t i s.out) ∧
    (∀ fresh freshI n neq nin h s, OnlyResized h →
      solves Solve.rt nd (Solve.Rt.init fresh freshI n neq nin t i v) h = some s → Garbage t i s.out) ∧
    (∀ h s, OnlyResized h → solves Solve.prox nd (Solve.Prox.init t i v) h = some s → Garbage t i s.out) ∧
    (∀ h s, OnlyResized h → solves Solve.osqp nd (Solve.Osqp.init t i v) h = some s → Garbage t i s.out) ∧
    ∀ h s, OnlyResized h → solves Solve.mad nd (Solve.Mad.init b t i v) h = some s → Garbage t i s.out :=
  ⟨resized_garbage (fun _ freshI _ _ _ h => resizeX_garbage (freshI := freshI) h) ⟨rfl, rfl⟩,
    resized_garbage (fun _ _ _ _ _ h => fastResized_garbage h) ⟨rfl, rfl⟩,
    fun _ _ _ _ _ => resized_garbage (fun _ _ _ _ _ h => h) ⟨rfl, rfl⟩,
    resized_garbage (fun _ freshI _ _ _ h => resizeX_garbage (freshI := freshI) h) ⟨rfl, rfl⟩,
    resized_garbage (fun _ freshI _ _ _ h => resizeX_garbage (freshI := freshI) h) ⟨rfl, rfl⟩,
    resized_garbage (fun _ freshI _ _ _ h => resizeX_garbage (freshI := freshI) h) ⟨rfl, rfl⟩⟩

/-- Room for the multipliers of all rows and for all inequalities, counted twice. -/
def Room (st : Solver.State K R) (o : Solve.Output K) : Prop :=
  o.lambda.size = st.neq + 2 * st.nin ∧ o.activeSet.length = 2 * st.nin

theorem resizeInts_length (freshI : Nat → Int) (l : List Int) (n : Nat) : (Solve.resizeInts freshI l n).length = n := by
  unfold Solve.resizeInts
  split
  · assumption
  · rw [List.length_map, List.length_range]

theorem resizeTo_length (fresh : Nat → Nat → K) (v : Vec K) (n : Nat) : (Solve.resizeTo fresh v n).size = n := by
  unfold Solve.resizeTo
  split
  · assumption
  · rfl

/-- **C85, room.** However often eiquadprog-fast and eiquadprog-rt have been resized before the first call of `solve`,
their output has room for the multipliers of the rows the external solver gets, and for its inequalities. -/
theorem C85_room (nd : Bool) (t : Status.HQPStatus) (i : Int) (v : Solve.Objective K) :
    (∀ h s, OnlyResized h → solves Solve.fast nd (Solve.Eiq.init t i v) h = some s → Room s.st s.out) ∧
    ∀ fresh freshI n neq nin h s, OnlyResized h →
      solves Solve.rt nd (Solve.Rt.init fresh freshI n neq nin t i v) h = some s → Room s.st s.out := by
  constructor
  · intro h s ho e
    refine resized_inv (P := Room) ?_ h _ s ho ⟨rfl, rfl⟩ e
    intro fresh freshI old new o n neq nin hs hp
    show Room new (Solve.Fast.resized fresh freshI old new o)
    obtain ⟨a, b, -⟩ := resizeX_rest fresh freshI old new o
    unfold Solve.Fast.resized
    dsimp only
    split
    · exact ⟨resizeTo_length .., resizeInts_length ..⟩
    · next hne =>
      push Not at hne
      obtain ⟨-, h2, h3⟩ := hne
      refine ⟨?_, ?_⟩
      · rw [a, h2, h3]; exact hp.1
      · rw [b, h3]; exact hp.2
  · intro fresh freshI n neq nin h s ho e
    refine resized_inv (P := Room) ?_ h _ s ho ⟨resizeTo_length .., resizeInts_length ..⟩ e
    intro fresh freshI old new o n neq nin hs hp
    have : new = old := by
      simp only [Solve.rt, Solver.rt, Rt.resize] at hs
      split at hs
      · cases hs; rfl
      · split at hs <;> cases hs; rfl
    subst this
    exact hp

/-- A solver of eiquadprog-fast, resized twice. -/
example : ∃ s : Solve.Object ℚ _, solves Solve.fast true (Solve.Eiq.init .error 3 .nan)
      [.resize (fun _ _ => 5) (fun _ => 7) 4 1 2, .resize (fun _ _ => 5) (fun _ => 7) 4 0 3] = some s ∧
    Garbage .error 3 s.out ∧ Room s.st s.out ∧ s.out.activeSet.length = 6 :=
  ⟨_, rfl, ⟨rfl, rfl⟩, ⟨rfl, rfl⟩, rfl⟩

/-- A success reported by eiquadprog-fast: one equality, then one active inequality. -/
example : ∃ s, solves Solve.fast true (Solve.Eiq.init .error 3 .nan)
      [.solve (fun _ _ => 5) (fun _ => 7) [demo0', demo1] (demoAnswer .optimal)] = some s ∧ s.out.activeSet = [1] ∧
    s.out.lambda.toList = [4] ∧ s.out.iterations = 6 ∧ s.out.x.toList = [5 / 2, -3 / 2] :=
  ⟨_, rfl, rfl, by decide +kernel⟩

end Tsid.Props
