import Verif.Spec.ControlLoop
import Verif.Spec.Feasibility

/-!
# Joint limits in a control loop
-/

namespace Tsid.Spec

open Formulation

variable {K : Type} [Field K] [LinearOrder K] [FloorRing K] [HasSqrt K]

/-- During the horizon `h` the acceleration `a` keeps a joint inside its position and velocity limits and in states from
which it can be stopped before its position limits, and is itself within its limits. -/
def SafeFor (h qMin qMax dqMax m q dq a : K) : Prop :=
  |a| ≤ m ∧ ∀ t, 0 ≤ t → t ≤ h → ViableState qMin qMax dqMax m (posAt q dq a t) (velAt dq a t)

/-- All limits are imposed on all joints. -/
def LimitSettings.Complete (na : Nat) (p : LimitSettings K) : Prop :=
  (∀ i, i < na → p.mask i = 1) ∧ p.impPos = true ∧ p.impVel = true ∧ p.impVia = true ∧ p.impAcc = true

/-- The limits that the text of a program sets for a task. -/
def limitsOf (na tid : Nat) (ops : List (Program.Op K)) : LimitSettings K :=
  (LimitSettings.fresh na).afterAll na ((taskCalls tid ops).filterMap posVelAcc?)

/-- The call switches the position limits on. -/
def turnsPos (na : Nat) : PosVelAcc.Op K → Bool
  | .setPositionBounds l u => decide (l.size = na ∧ u.size = na)
  | .setImposeBounds a _ _ _ => a
  | _ => false

/-- The call switches viability on. -/
def turnsVia (na : Nat) : PosVelAcc.Op K → Bool
  | .setPositionBounds l u => decide (l.size = na ∧ u.size = na)
  | .setImposeBounds _ _ c _ => c
  | _ => false

/-- During the horizon `h` the acceleration `a` keeps joint `j` inside its position limits, if they are imposed; at the end
its speed is within the limit, if it is imposed, and it can be stopped before its position limits, if viability is
imposed; the acceleration is within its limits, if they are imposed, and in any case, unless all kinds are imposed, below
`1e10`. -/
structure LimitSettings.Keeps (h : K) (p : LimitSettings K) (j : Nat) (q dq a : K) : Prop where
  pos : p.impPos = true → StaysInside (p.qMin j) (p.qMax j) h q dq a
  vel : p.impVel = true → |velAt dq a h| ≤ p.dqMax j
  via : p.impVia = true → StoppableAbove (p.qMax j) (p.ddqMax j) (posAt q dq a h) (velAt dq a h) ∧
    StoppableBelow (p.qMin j) (p.ddqMax j) (posAt q dq a h) (velAt dq a h)
  acc : p.impAcc = true → |a| ≤ p.ddqMax j
  rest : (p.impPos && p.impVel && p.impVia && p.impAcc) = false → |a| ≤ 10000000000

/-- What a user has to see to so that the limits of joint `j` can be kept: if position limits are imposed, the joint is
inside and not leaving; if viability is imposed, the acceleration limit is positive; and some acceleration keeps all
limits. -/
structure LimitSettings.Keepable (h : K) (p : LimitSettings K) (j : Nat) (q dq : K) : Prop where
  inside : p.impPos = true → Admits (p.qMin j) (p.qMax j) q dq
  brakes : p.impVia = true → 0 < p.ddqMax j
  possible : ∃ a, p.Keeps h j q dq a

/-- Position limits and viability that are not imposed were never imposed: the bounds of the last cycle that imposed
them would stay in force (C34). -/
def NeverOff (na : Nat) (p : LimitSettings K) (calls : List (PosVelAcc.Op K)) : Prop :=
  (p.impPos = true ∨ ∀ o ∈ calls, turnsPos na o = false) ∧ (p.impVia = true ∨ ∀ o ∈ calls, turnsVia na o = false)

/-- Every cycle of the loop returns.  The accelerations `dv n` are decoded from a vector that satisfies the first level of
the problem of cycle `n` if any vector does. -/
def Loop.Tries (L : Loop K) (E : Program.Env K) (W : World) (S : Setup K) (dv : ℕ → Vec K) : Prop :=
  ∀ n, ∃ s0 s l0 l1, ∃ x : Vec K, GoodProgram E W S (L.text n) s0 ∧ SnapshotOk E.robot.nv (L.robot n) ∧
    MayCycle E W S (L.text n) (L.robot n) (L.time n) ∧
    Program.compute E (L.robot n) (L.time n) s0 = .ok s () ∧ problem s.form = [l0, l1] ∧ x.size = nVar s.form ∧
    ((∃ y : Vec K, y.size = nVar s.form ∧ Feasible l0 y) → Feasible l0 x) ∧
    (getAccelerations s.form x).val? = some (dv n)

/-- A controller that runs the loop with one solver object, which is `u0` at the beginning: after each cycle it solves the
problem and decodes the accelerations `dv n` from the output.  The external solver `engine n` succeeds if the first level
can be satisfied. -/
def Loop.Attempted {R C : Type} (L : Loop K) (E : Program.Env K) (S : Setup K) (D : Solve.Driver K R C)
    (u0 : Solve.Object K R) (Success : Solve.Answer C K → Prop)
    (engine : ℕ → Solver.State K R → Vec K → Solve.Answer C K) (dv : ℕ → Vec K) : Prop :=
  ∃ u : ℕ → Solve.Object K R, u 0 = u0 ∧ ∀ n s0 s, Program.run E S.start (L.text n) = some s0 →
    Program.compute E (L.robot n) (L.time n) s0 = .ok s () → ∃ fresh freshI,
      Solve.solve D fresh freshI E.ndebug (engine n) (u n) (problem s.form) = .ok (u (n + 1)) () ∧
      (∀ l0 l1, problem s.form = [l0, l1] → (∃ y : Vec K, y.size = nVar s.form ∧ Feasible l0 y) →
        Success (engine n (u (n + 1)).st (start D fresh freshI (u n) (u (n + 1))))) ∧
      (getAccelerations s.form (u (n + 1)).out.x).val? = some (dv n)

/-- The only thing of priority 0 in the program is task `tid`, and there are no contacts. -/
def Setup.Only (E : Program.Env K) (W : World) (S : Setup K) (ops : List (Program.Op K)) (t : K) (tid : Nat) : Prop :=
  (∃ k, .task .motion tid 0 k ∈ (S.registry E W ops t).items) ∧
  (∀ fam i k, .task fam i 0 k ∈ (S.registry E W ops t).items → fam = .motion ∧ i = tid) ∧
  ∀ cid p wm wf, .contact cid p wm wf ∉ (S.registry E W ops t).items

/-- Every level-1 task is an equality, as the formulations of the back-ends require. -/
def Setup.SoftEqualities (E : Program.Env K) (W : World) (S : Setup K) (ops : List (Program.Op K)) (t : K) : Prop :=
  ∀ fam tid k, .task fam tid 1 k ∈ (S.registry E W ops t).items → (S.decl tid).kind = .equality

end Tsid.Spec
