import Verif.Spec.PosVelAcc

/-!
# Viable states of a joint
-/

namespace Tsid.Spec

variable {K : Type} [Field K] [LinearOrder K]

/-- The joint is inside its position and velocity limits and the maximum deceleration `m` can stop it before both
position limits. -/
def ViableState (qMin qMax dqMax m q dq : K) : Prop :=
  (qMin ≤ q ∧ q ≤ qMax) ∧ |dq| ≤ dqMax ∧ StoppableAbove qMax m q dq ∧ StoppableBelow qMin m q dq

/-- The same with a tolerance on positions and velocities. -/
def ViableUpTo (eps qMin qMax dqMax m q dq : K) : Prop :=
  (qMin - eps ≤ q ∧ q ≤ qMax + eps) ∧ |dq| ≤ dqMax + eps ∧ StoppableAbove qMax m q (dq - eps) ∧
    StoppableBelow qMin m q (dq + eps)

end Tsid.Spec
