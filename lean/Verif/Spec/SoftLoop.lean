import Verif.Spec.ProgramText
import Verif.Spec.ControlLimits

/-!
# Control loops with tasks of priority 1

What is weighed against each other need not be achieved exactly.
-/

namespace Tsid.Spec

open Formulation

variable {K : Type} [Field K] [LinearOrder K] [FloorRing K] [HasSqrt K]

/-- In every cycle of the loop the behaviour `b n` obeys the text of the program and none that obeys it is better. -/
def Loop.Optimal (L : Loop K) (E : Program.Env K) (W : World) (S : Setup K) (reg : Bool) (b : ℕ → Behaviour K) : Prop :=
  ∀ n, SnapshotOk E.robot.nv (L.robot n) ∧ Best E W S (L.text n) (L.robot n) (L.time n) reg (b n)

/-- A task is registered with priority 1 and a weight of at least `k` in every cycle; no weight is negative. -/
def Loop.Prefers (L : Loop K) (E : Program.Env K) (W : World) (S : Setup K) (tid : Nat) (k : K) : Prop :=
  ∀ n, (∀ it ∈ (S.registry E W (L.text n) (L.time n)).items, NonNegative it) ∧
    ∃ k', k ≤ k' ∧ .task .motion tid 1 k' ∈ (S.registry E W (L.text n) (L.time n)).items

/-- In cycle `n` some behaviour that obeys the text has a weighted sum of squared errors, with the regularisation of the
back-end, of at most `ε n`. -/
def Loop.Reconcilable (L : Loop K) (E : Program.Env K) (W : World) (S : Setup K) (reg : Bool) (ε : ℕ → K) : Prop :=
  ∀ n, ∃ b, Intended E W S (L.text n) (L.robot n) (L.time n) b ∧
    2 * S.aim E W (L.text n) (L.robot n) (L.time n) reg b ≤ ε n

/-- A controller that runs the loop with one solver object, which is `u0` at the beginning: after each cycle it solves the
problem, with success of the external solver `engine n`, and reads the behaviour `b n` with the getters. -/
def Loop.SolvedAs {R C : Type} (L : Loop K) (E : Program.Env K) (W : World) (S : Setup K) (D : Solve.Driver K R C)
    (u0 : Solve.Object K R) (Success : Solve.Answer C K → Prop)
    (engine : ℕ → Solver.State K R → Vec K → Solve.Answer C K) (b : ℕ → Behaviour K) : Prop :=
  ∃ u : ℕ → Solve.Object K R, u 0 = u0 ∧ ∀ n s0 s, Program.run E S.start (L.text n) = some s0 →
    Program.compute E (L.robot n) (L.time n) s0 = .ok s () → ∃ fresh freshI,
      Solve.solve D fresh freshI E.ndebug (engine n) (u n) (problem s.form) = .ok (u (n + 1)) () ∧
      Success (engine n (u (n + 1)).st (start D fresh freshI (u n) (u (n + 1)))) ∧
      (b n).Decodes E W S (L.text n) (L.time n) s.form (u (n + 1)).out.x

end Tsid.Spec
