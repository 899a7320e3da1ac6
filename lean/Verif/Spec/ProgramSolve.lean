import Verif.Spec.ProgramCost
import Verif.Spec.SolverOutput

/-!
# What a program gets from the solver
-/

namespace Tsid.Spec

open Finset Formulation

variable {K R C : Type} [Field K] [LinearOrder K] [FloorRing K] [HasSqrt K]

/-- What is minimised for the vector `x` with decoded values `d`: the cost that the text of the program describes, plus
the regularisation of the back-end. -/
def Setup.objective (S : Setup K) (E : Program.Env K) (W : World) (ops : List (Program.Op K)) (w : Snapshot K) (t : K)
    (s : Program.State K) (reg : Bool) (x : Vec K) (d : Decoded K) : K :=
  S.cost E W ops w t s d + if reg then 1 / 2 * (Solver.defaultReg * sqNorm (nVar s.form) x) else 0

/-- The vector satisfies the first level of the problem. -/
def Admits1 (s : Tsid.State K) (y : Vec K) : Prop := ∀ l0 l1, problem s = [l0, l1] → Feasible l0 y

/-- However the solver was used before: after the cycle that led to state `s`, `solve` returns, and its output can be
decoded whatever the external solver answers.  If the external solver succeeds, then the status is optimal, the solution
keeps what the text of the program promises, and no vector that satisfies the first level has a smaller objective. -/
def Delivers (D : Solve.Driver K R C) (u0 : Solve.Object K R) (Sat : R → (Nat → K) → Prop)
    (Success : Solve.Answer C K → Prop) (reg : Bool) (E : Program.Env K) (W : World) (S : Setup K)
    (ops : List (Program.Op K)) (w : Snapshot K) (t : K) (s : Program.State K) : Prop :=
  ∀ hist u, (∀ c ∈ hist, c.Sized) → solves D E.ndebug u0 hist = some u →
    ∀ fresh freshI engine, Sound Sat Success engine →
      ∃ u', Solve.solve D fresh freshI E.ndebug engine u (problem s.form) = .ok u' () ∧
        let names := ((S.registry E W ops t).items.filterMap Item.cid?).map fun c => (S.obj c).name
        ∃ d : Decoded K, d.From s.form u'.out.x names ∧
          (Success (engine u'.st (start D fresh freshI u u')) →
            u'.out.status = .optimal ∧ Kept E W S ops w t s u'.out.x ∧
            ∀ y : Vec K, y.size = nVar s.form → Admits1 s.form y →
              ∃ d' : Decoded K, d'.From s.form y names ∧
                S.objective E W ops w t s reg u'.out.x d ≤ S.objective E W ops w t s reg y d')

/-- The weights of a registered object at priority 1 are not negative. -/
def NonNegative : Item K → Prop
  | .task _ _ p k => p = 1 → 0 ≤ k
  | .contact _ p wm wf => (p = 1 → 0 ≤ wm) ∧ 0 ≤ wf

end Tsid.Spec
