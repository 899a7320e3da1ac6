import Verif.Props.EndToEnd
import Verif.Props.SolverOutput

/-!
# C85: a control cycle with `solve`
-/

set_option linter.unusedSectionVars false

namespace Tsid.Spec

/-- However the solver was used before: in state `s`, after `computeProblemData`, `solve` returns; its output can be
decoded, whatever the external solver answers; if the external solver succeeds, then the status is optimal, `ok` holds
for the output, and no vector that satisfies level 0 has a smaller cost at level 1. -/
def Controls {K R C : Type} [Field K] [LinearOrder K] (D : Solve.Driver K R C) (ndebug : Bool) (u0 : Solve.Object K R)
    (Sat : R → (Nat → K) → Prop) (Success : Solve.Answer C K → Prop) (reg : Bool) (s : State K)
    (ok : Vec K → Prop) : Prop :=
  ∀ hist u, (∀ c ∈ hist, c.Sized) → solves D ndebug u0 hist = some u →
    ∀ fresh freshI engine, Sound Sat Success engine →
      ∃ u', Solve.solve D fresh freshI ndebug engine u (problem s) = .ok u' () ∧
        (∃ dv f tau, (Formulation.getAccelerations s u'.out.x).val? = some dv ∧
          (Formulation.getContactForces s u'.out.x).val? = some f ∧
          (Formulation.getActuatorForces s u'.out.x).val? = some tau ∧
          dv.size = s.nv ∧ f.size = s.k ∧ tau.size = s.nv - s.nu) ∧
        (Success (engine u'.st (start D fresh freshI u u')) →
          u'.out.status = .optimal ∧ ok u'.out.x ∧
          ∀ l0 l1, problem s = [l0, l1] → ∀ y, Feasible l0 y →
            target (Formulation.nVar s) reg l1 u'.out.x ≤ target (Formulation.nVar s) reg l1 y)

end Tsid.Spec

namespace Tsid.Props

open Finset Formulation Spec

variable {K : Type} [Field K] [LinearOrder K] [HasSqrt K] [IsStrictOrderedRing K]

theorem controls_of {R C : Type} {D : Solve.Driver K R C} {nd : Bool} {u0 : Solve.Object K R}
    {Sat : R → (Nat → K) → Prop} {Success : Solve.Answer C K → Prop} {reg : Bool} {s : Tsid.State K}
    {ok : Vec K → Prop} {l0 l1 : Level K} {Obj : Vec K → Solve.Objective K → Prop} (hp : problem s = [l0, l1])
    (hx : ∀ x : Vec K, x.size = nVar s → ∃ dv f tau, (getAccelerations s x).val? = some dv ∧
      (getContactForces s x).val? = some f ∧ (getActuatorForces s x).val? = some tau ∧
      dv.size = s.nv ∧ f.size = s.k ∧ tau.size = s.nv - s.nu)
    (hk : ∀ x : Vec K, x.size = nVar s → Feasible l0 x → ok x)
    (h : SolvesProblem D nd u0 Sat Success (nVar s) reg l0 l1 Obj) : Controls D nd u0 Sat Success reg s ok := by
  intro hist u hh hu fresh freshI engine he
  obtain ⟨u', e, -, -, hz, g⟩ := h hist u hh hu fresh freshI engine he
  rw [hp]
  refine ⟨u', e, hx _ hz, fun hs => ?_⟩
  obtain ⟨⟨g1, -, g2⟩, -⟩ := g hs
  refine ⟨g1, hk _ hz g2.1, fun m0 m1 hm y hy => ?_⟩
  simp only [List.cons.injEq, and_true] at hm
  obtain ⟨rfl, rfl⟩ := hm
  exact g2.2 y hy

variable [LawfulSqrt K]

/-- **C85, a control cycle.** Under the hypotheses of C65, with a solver that was used arbitrarily before: `solve`
accepts the problem of the cycle and its output can always be decoded; if the external solver keeps its promises and
succeeds, then the status is optimal, the decoded solution is consistent (equations of motion, all constraints of level
0, limits of all contacts), and it has the least cost at level 1 among all vectors that satisfy level 0.
(Missing: as in C65.) -/
theorem C85_cycle_partial {nd : Bool} {W : World} {robot : Robot K} {obj : Nat → Contact K} {assoc : Nat → String}
    {ops : List (Op K)} {s0 s : Tsid.State K} {cy : Cycle K} {t : K} (h : TidyRun nd W robot obj assoc ops s0)
    (hno : Along nd W NoReassociation (Formulation.init robot obj assoc) ops)
    (hs : CycleSizes robot.nv cy) (hc : computeProblemData nd cy t s0 = .ok s ()) {items : List (Item K)}
    (hit : items = ((registrations nd W robot obj assoc ops).expire (fun c => (obj c).name) t).items)
    (hf : ∀ it ∈ items, it.Fits W obj s0.assoc robot.nv robot.na (items.filterMap Item.cid?) cy)
    (heq : ∀ fam tid w, .task fam tid 1 w ∈ items → (W.task tid).kind = .equality)
    (hunit : ∀ cid ∈ items.filterMap Item.cid?, (s.contactObj cid).kind ≠ .twoFrames →
      (s.contactObj cid).normal.dot (s.contactObj cid).normal = 1)
    (b : Bool) (t0 : Status.HQPStatus) (i : Int) (v : Solve.Objective K) :
    let ok := fun x : Vec K => Consistent robot.nv (robot.nv - robot.na) (robot.mass cy.M) cy items
      (registrations nd W robot obj assoc ops).measured s x
    Controls Solve.eiq nd (Solve.Eiq.init t0 i v) EiqSat (fun a => ∃ w, a.objective = .num w) true s ok ∧
    Controls Solve.fast nd (Solve.Eiq.init t0 i v) EiqSat (fun a => a.code = .optimal) true s ok ∧
    (∀ fresh freshI neq nin, (problem s).head?.map Solver.count = some (neq, nin) →
      Controls Solve.rt nd (Solve.Rt.init fresh freshI (nVar s) neq nin t0 i v) EiqSat (fun a => a.code = .optimal)
        true s ok) ∧
    Controls Solve.prox nd (Solve.Prox.init t0 i v) ProxSat (fun a => a.code = .solved) false s ok ∧
    Controls Solve.osqp nd (Solve.Osqp.init t0 i v) OsqpSat (fun a => a.code = .solved) false s ok ∧
    Controls Solve.mad nd (Solve.Mad.init b t0 i v) MadSat (fun a => a.code = .ok) true s ok := by
  subst hit
  intro ok
  obtain ⟨l0, l1, hp, ha, hb⟩ := problem_admissible h hno hs hc hf heq
  have hre : Reachable nd W s0 := ⟨robot, obj, assoc, ops, h.motors, h.built, h.run⟩
  have hnv : s.nv = robot.nv := by
    obtain ⟨s1, -, -, -, -, his, -⟩ := compute_spec (tidy_impl h).1 hc
    have e1 : s0.robot = robot := run_robot ops _ _ h.run
    have e2 := step_robot (nd := nd) (W := W) (s := s0) (o := .compute cy t) (s' := s)
      (by simp only [step, hc]; rfl)
    rw [← his.pre.rnv, e2, e1]
  have hx : ∀ x : Vec K, x.size = nVar s → ∃ dv f tau, (getAccelerations s x).val? = some dv ∧
      (getContactForces s x).val? = some f ∧ (getActuatorForces s x).val? = some tau ∧
      dv.size = s.nv ∧ f.size = s.k ∧ tau.size = s.nv - s.nu := by
    intro x hx
    obtain ⟨dv, f, tau, g1, g2, g3, g4, g5, g6, -⟩ := C01_equations_of_motion hre hc (by rw [hnv]; exact hs) x hx
    exact ⟨dv, f, tau, g1, g2, g3, g4, g5, g6⟩
  have hk : ∀ x : Vec K, x.size = nVar s → Feasible l0 x → ok x := fun x hx hfe =>
    feasible_consistent h hno hs hc hf hunit hp hx hfe
  obtain ⟨k1, k2, k3, k4, k5, k6⟩ := C85_solves_partial nd b t0 i v ha
  refine ⟨controls_of hp hx hk k1, controls_of hp hx hk k2, fun fresh freshI neq nin hcnt => ?_, controls_of hp hx hk k4,
    controls_of hp hx hk k5, controls_of hp hx hk (k6 hb)⟩
  rw [hp] at hcnt
  simp only [List.head?_cons, Option.map_some, Option.some.injEq] at hcnt
  have := k3 fresh freshI
  rw [hcnt] at this
  exact controls_of hp hx hk this

/-- The scenario of C65 meets the hypotheses. -/
example : ∃ s, computeProblemData false RealDemo.cycle 0 RealDemo.s3 = .ok s () ∧
    Controls Solve.osqp false (Solve.Osqp.init .unknown 0 .nan) OsqpSat (fun a => a.code = .solved) false s fun x =>
      Consistent 7 6 (RealDemo.robot.mass RealDemo.cycle.M) RealDemo.cycle
        [.task .motion 0 1 2, .contact 0 0 1 1, .task .motion 1 0 1] [] s x := by
  obtain ⟨s, hc, ho⟩ := RealDemo.computes
  have := (C85_cycle_partial RealDemo.tidyRun RealDemo.noReassociation ⟨rfl, rfl, rfl⟩ hc RealDemo.items.symm RealDemo.fits (by
      intro fam tid w h
      simp only [List.mem_cons, Item.task.injEq, List.not_mem_nil, or_false, reduceCtorEq, false_or] at h
      rcases h with ⟨-, rfl, -, -⟩ | ⟨-, -, h, -⟩
      · rfl
      · cases h) (by
      intro cid _ _
      rw [ho]
      show (⟨0, 0, 1⟩ : V3 ℝ).dot ⟨0, 0, 1⟩ = 1
      norm_num [V3.dot]) true .unknown 0 .nan).2.2.2.2.1
  rw [RealDemo.measured] at this
  exact ⟨s, hc, this⟩

end Tsid.Props
