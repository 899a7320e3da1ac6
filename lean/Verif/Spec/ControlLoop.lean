import Verif.Spec.ProgramExact
import Verif.Spec.ProgramRun
import Mathlib.Analysis.SpecificLimits.Basic

/-!
# Control loops

A program that runs one control cycle after the other, with any calls in between; the robot is accelerated by what the
solution of a cycle says until the next cycle.
-/

namespace Tsid.Spec

open Filter Formulation

/-! ## Motions sampled with a period -/

/-- Position `x` and velocity `v` at the beginning of the periods of length `h`, if the acceleration in period `n` is
`a n`. -/
def Sampled (h : ℝ) (x v a : ℕ → ℝ) : Prop :=
  ∀ n, x (n + 1) = x n + h * v n + h ^ 2 / 2 * a n ∧ v (n + 1) = v n + h * a n

/-- The same for a quantity with rate `d n` in period `n`. -/
def SampledRate (h : ℝ) (x d : ℕ → ℝ) : Prop := ∀ n, x (n + 1) = x n + h * d n

/-- The error `e` and its rate `de` decay geometrically, hence tend to zero. -/
def DiesOut (e de : ℕ → ℝ) : Prop :=
  (∃ C r : ℝ, 0 ≤ r ∧ r < 1 ∧ ∀ n, e n ^ 2 + de n ^ 2 ≤ C * r ^ n) ∧
  Tendsto e atTop (nhds 0) ∧ Tendsto de atTop (nhds 0)

/-! ## Loops -/

/-- A control loop: the calls before each cycle (those before the first cycle include the set-up), the state of the robot
in each cycle and the time that is passed to it. -/
structure Loop (K : Type) where
  calls : ℕ → List (Program.Op K)
  robot : ℕ → Snapshot K
  time : ℕ → K

variable {K : Type}

/-- The program up to cycle `n`, this cycle excluded. -/
def Loop.text (L : Loop K) : ℕ → List (Program.Op K)
  | 0 => L.calls 0
  | n + 1 => L.text n ++ .compute (L.robot n) (L.time n) :: L.calls (n + 1)

section
variable [Field K] [LinearOrder K] [FloorRing K] [HasSqrt K]

/-- Every cycle of the loop returns, and the accelerations `dv n` are decoded from a vector that satisfies the first level
of the problem of cycle `n`. -/
def Loop.Runs (L : Loop K) (E : Program.Env K) (W : World) (S : Setup K) (dv : ℕ → Vec K) : Prop :=
  ∀ n, ∃ s0 s l0 l1, ∃ x : Vec K, GoodProgram E W S (L.text n) s0 ∧ SnapshotOk E.robot.nv (L.robot n) ∧
    Program.compute E (L.robot n) (L.time n) s0 = .ok s () ∧ problem s.form = [l0, l1] ∧ x.size = nVar s.form ∧
    Feasible l0 x ∧ (getAccelerations s.form x).val? = some (dv n)

/-- Every cycle of the loop may follow what comes before it. -/
def Loop.Typed (L : Loop K) (E : Program.Env K) (W : World) (S : Setup K) : Prop :=
  ∀ n, WellTyped E W S (L.text n ++ [.compute (L.robot n) (L.time n)]) ∧ NoGradualRemoval (L.text n)

/-- A controller that runs the loop with one solver object, which is `u0` at the beginning: after each cycle it solves the
problem, with success of the external solver `engine n`, and decodes the accelerations `dv n` from the output. -/
def Loop.Solved {R C : Type} (L : Loop K) (E : Program.Env K) (S : Setup K) (D : Solve.Driver K R C)
    (u0 : Solve.Object K R) (Success : Solve.Answer C K → Prop)
    (engine : ℕ → Solver.State K R → Vec K → Solve.Answer C K) (dv : ℕ → Vec K) : Prop :=
  ∃ u : ℕ → Solve.Object K R, u 0 = u0 ∧ ∀ n s0 s, Program.run E S.start (L.text n) = some s0 →
    Program.compute E (L.robot n) (L.time n) s0 = .ok s () → ∃ fresh freshI,
      Solve.solve D fresh freshI E.ndebug (engine n) (u n) (problem s.form) = .ok (u (n + 1)) () ∧
      Success (engine n (u (n + 1)).st (start D fresh freshI (u n) (u (n + 1)))) ∧
      (getAccelerations s.form (u (n + 1)).out.x).val? = some (dv n)

/-- A task is registered with priority 0 in every cycle. -/
def Loop.Holds (L : Loop K) (E : Program.Env K) (W : World) (S : Setup K) (tid : Nat) : Prop :=
  ∀ n, ∃ k, .task .motion tid 0 k ∈ (S.registry E W (L.text n) (L.time n)).items

/-- A contact is registered in every cycle, with its motion at priority 0. -/
def Loop.Touches (L : Loop K) (E : Program.Env K) (W : World) (S : Setup K) (cid : Nat) : Prop :=
  ∀ n, ∃ wm wf, .contact cid 0 wm wf ∈ (S.registry E W (L.text n) (L.time n)).items

end

end Tsid.Spec
