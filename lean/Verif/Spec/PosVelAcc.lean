import Verif.Spec.Tasks
import Verif.Model.PosVelAcc

/-!
# What joint limits mean

Motion of one joint under constant acceleration, and the settings of the task that bounds it.
-/

namespace Tsid.Spec

variable {K : Type}

/-- Position after time `t` from position `q` and velocity `dq` with constant acceleration `a`. -/
def posAt [Field K] (q dq a t : K) : K := q + dq * t + a * (t * t) / 2

/-- Velocity after time `t`. -/
def velAt [Field K] (dq a t : K) : K := dq + a * t

/-- The joint is inside its limits and not leaving them. -/
def Admits [LT K] [LE K] [Zero K] (qMin qMax q dq : K) : Prop :=
  qMin ≤ q ∧ q ≤ qMax ∧ ¬ (q = qMin ∧ dq < 0) ∧ ¬ (q = qMax ∧ 0 < dq)

/-- The joint stays inside its limits during the horizon `h`. -/
def StaysInside [Field K] [LE K] (qMin qMax h q dq a : K) : Prop :=
  ∀ t, 0 ≤ t → t ≤ h → qMin ≤ posAt q dq a t ∧ posAt q dq a t ≤ qMax

/-- From position `q` and velocity `dq` the joint does not move towards the upper limit, or the maximum deceleration
`m` stops it before the limit. -/
def StoppableAbove [Field K] [LE K] (qMax m q dq : K) : Prop := dq ≤ 0 ∨ ∀ t, 0 ≤ t → posAt q dq (-m) t ≤ qMax

/-- From position `q` and velocity `dq` the joint does not move towards the lower limit, or the maximum deceleration
`m` stops it before the limit. -/
def StoppableBelow [Field K] [LE K] (qMin m q dq : K) : Prop := 0 ≤ dq ∨ ∀ t, 0 ≤ t → qMin ≤ posAt q dq m t

/-- Settings of the task. -/
structure LimitSettings (K : Type) where
  mask : Vec K
  qMin : Vec K
  qMax : Vec K
  dqMax : Vec K
  ddqMax : Vec K
  impPos : Bool
  impVel : Bool
  impVia : Bool
  impAcc : Bool

/-- Settings after one call other than `setTimeStep`, when the masks that are passed are admissible or of a wrong
size.  Setting limits switches them on. -/
def LimitSettings.after (na : Nat) (p : LimitSettings K) : PosVelAcc.Op K → LimitSettings K
  | .setTimeStep _ => p
  | .setPositionBounds l u =>
    if l.size = na ∧ u.size = na then { p with qMin := l, qMax := u, impPos := true, impVia := true } else p
  | .setVelocityBounds u => if u.size = na then { p with dqMax := u, impVel := true } else p
  | .setAccelerationBounds u => if u.size = na then { p with ddqMax := u, impAcc := true } else p
  | .setImposeBounds a b c d => { p with impPos := a, impVel := b, impVia := c, impAcc := d }
  | .setMask m => if m.size = na then { p with mask := m } else p
  | .compute _ _ => p

/-- Settings after a history of calls. -/
def LimitSettings.afterAll (na : Nat) (p : LimitSettings K) : List (PosVelAcc.Op K) → LimitSettings K
  | [] => p
  | o :: os => afterAll na (p.after na o) os

/-- Settings of a new task. -/
def LimitSettings.fresh [Field K] (na : Nat) : LimitSettings K :=
  ⟨⟨na, fun _ => 1⟩, ⟨na, fun _ => -10000000000⟩, ⟨na, fun _ => 10000000000⟩, ⟨na, fun _ => 10000000000⟩,
    ⟨na, fun _ => 10000000000⟩, false, false, false, false⟩

/-- The masks passed in a call are admissible or have a wrong size. -/
def GoodMask [Zero K] [One K] (na : Nat) : PosVelAcc.Op K → Prop
  | .setMask m => m.size = na → ValidMask na m
  | _ => True

/-- The call does not change the time step. -/
def KeepsTimeStep [Zero K] [LT K] : PosVelAcc.Op K → Prop
  | .setTimeStep dt => ¬ 0 < dt
  | _ => True

/-- The limits of all kinds of one joint allow the acceleration `a`. -/
def Allows [LE K] (lb ub : PosVelAcc.Four K) (a : K) : Prop :=
  (lb.pos ≤ a ∧ a ≤ ub.pos) ∧ (lb.via ≤ a ∧ a ≤ ub.via) ∧ (lb.vel ≤ a ∧ a ≤ ub.vel) ∧ (lb.acc ≤ a ∧ a ≤ ub.acc)

end Tsid.Spec
