import Verif.Spec.Manipulator
import Verif.Model.JointControl

/-!
# What the exercise on joint space control should be like
-/

namespace Tsid.Spec

open Finset Formulation

variable {K : Type}

section
variable [Field K] [LinearOrder K] [FloorRing K] [HasSqrt K]

/-- What the exercise constructs, and what it expects of its constants and of pinocchio: every degree of freedom has a motor. -/
structure IsJointArm (cf : JointControl.Conf K) (kin : Vec K → Vec K → Snapshot K) (E : Program.Env K) (W : World) (S : Setup K) :
    Prop where
  declared : Declared E W S
  posture : S.decl 0 = .posture
  kind : (W.task 0).kind = (S.decl 0).kind
  rows : (W.task 0).rows = E.robot.na
  fixed : E.robot.nv = E.robot.na
  joints : E.robot.neutral.size = E.robot.nqa
  w : 0 ≤ cf.w
  snap : ∀ q v, v.size = E.robot.nv → SnapshotOk E.robot.nv (kin q v)
  config : ∀ q v, (kin q v).q = q
  velocity : ∀ q v, (kin q v).v = v

/-- The configuration has one entry for each joint. -/
structure JointSized (R : PostureRobot K) (q : Vec K) : Prop where
  joints : q.size = R.nqa
  motors : q.size = R.na

/-- The state of the robot has the right sizes. -/
structure ProperJoint (R : PostureRobot K) (s : JointControl.Step K) : Prop where
  speed : s.v.size = R.nv
  config : R.na ≤ s.q.size

/-- The reference has the right sizes. -/
structure ProperRef (R : PostureRobot K) (r : Sample K) : Prop where
  pos : r.pos.size = R.nqa
  vel : r.vel.size = R.na
  acc : r.acc.size = R.na

/-- The equations of motion. -/
def JointObeys (S : Setup K) (w : Snapshot K) (dv tau : Nat → K) : Prop :=
  ∀ i, i < S.robot.nv → ∑ j ∈ range S.robot.nv, S.robot.mass w.M i j * dv j + w.nle i = tau i

/-- The acceleration that joint `j` should have: that of the reference, corrected in proportion to the errors of position and
velocity, with critical damping. -/
def desired (cf : JointControl.Conf K) (E : Program.Env K) (r : Sample K) (w : Snapshot K) (j : Nat) : K :=
  r.acc j - cf.kp * E.robot.difference r.pos w.q j - critical cf.kp * (w.v j - r.vel j)

/-- The weighted squared error of the accelerations, with the regularisation of the back-end. -/
def jointAim (reg : Bool) (cf : JointControl.Conf K) (E : Program.Env K) (r : Sample K) (w : Snapshot K) (dv : Nat → K) : K :=
  1 / 2 * (cf.w * ∑ j ∈ range E.robot.nv, (dv j - desired cf E r w j) ^ 2) +
    if reg then 1 / 2 * (1 / 100000000 * ∑ j ∈ range E.robot.nv, dv j ^ 2) else 0

/-- The part of the desired acceleration that is realised. -/
def share (reg : Bool) (cf : JointControl.Conf K) : K := if reg then cf.w / (cf.w + 1 / 100000000) else 1

/-- However the solver was used before: `solve` returns after the cycle that led to state `s`.  If the external solver succeeds, then
the status is optimal, the accelerations are the desired ones up to the factor `share`, and the torques are those that bring them
about. -/
def JointDriven {R C : Type} (D : Solve.Driver K R C) (u0 : Solve.Object K R) (Sat : R → (Nat → K) → Prop)
    (Success : Solve.Answer C K → Prop) (reg : Bool) (cf : JointControl.Conf K) (E : Program.Env K) (S : Setup K) (r : Sample K)
    (w : Snapshot K) (s : Program.State K) : Prop :=
  ∀ hist u, (∀ c ∈ hist, c.Sized) → solves D E.ndebug u0 hist = some u →
    ∀ fresh freshI engine, Sound Sat Success engine →
      ∃ u', Solve.solve D fresh freshI E.ndebug engine u (problem s.form) = .ok u' () ∧
        ∃ dv tau : Nat → K, Gives S s.form u'.out.x dv tau ∧
          (Success (engine u'.st (start D fresh freshI u u')) →
            u'.out.status = .optimal ∧ JointObeys S w dv tau ∧ ∀ j, j < S.robot.nv → dv j = share reg cf * desired cf E r w j)

end

end Tsid.Spec
