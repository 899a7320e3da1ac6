import Verif.Spec.Quadruped
import Verif.Model.Gripper

/-!
# What the gripper demo should be like
-/

namespace Tsid.Spec

open Finset Formulation

variable {K : Type}

/-- The names of the three tasks. -/
def gripName : Nat → String
  | 0 => "task-fingertip-position"
  | 1 => "task-posture"
  | _ => "task-actuation-bounds"

section
variable [Field K] [LinearOrder K] [FloorRing K] [HasSqrt K]

/-- What the demo constructs, and what it expects of its constants and of pinocchio: every degree of freedom is a joint. -/
structure IsGripper (cf : Gripper.Conf K) (kin : Vec K → Vec K → Snapshot K) (E : Program.Env K) (W : World) (S : Setup K) :
    Prop where
  declared : Declared E W S
  name : ∀ tid, tid < 3 → (W.task tid).name = gripName tid
  tip : S.decl 0 = .se3 cf.tip
  posture : S.decl 1 = .posture
  torque : S.decl 2 = .actBounds
  kind : ∀ tid, tid < 3 → (W.task tid).kind = (S.decl tid).kind
  tipRows : (W.task 0).rows = 6
  postureRows : (W.task 1).rows = E.robot.na
  torqueRows : (W.task 2).rows = E.robot.na
  contact : ∃ n mu, S.obj 0 = Contact.new "contact-two-frame-positions-fingertip-bottom-axis" .twoFrames (fun _ => 0) n mu
    cf.fMin cf.fMax
  motion : S.cdecl 0 = .pair cf.first cf.second
  fixed : E.robot.nv = E.robot.na
  joints : E.robot.neutral.size = E.robot.nqa
  two : 2 ≤ E.robot.na
  wEe : 0 ≤ cf.wEe
  wPosture : 0 ≤ cf.wPosture
  snap : ∀ q v, v.size = E.robot.nv → SnapshotOk E.robot.nv (kin q v)
  config : ∀ q v, (kin q v).q = q
  velocity : ∀ q v, (kin q v).v = v

/-- The effort limits and the configuration have one entry for each joint. -/
structure GripSized (cf : Gripper.Conf K) (R : PostureRobot K) (q : Vec K) : Prop where
  torque : cf.effort.size = R.na
  joints : q.size = R.nqa
  motors : q.size = R.na

/-- The state of the robot has the right sizes, and so has the reference of the fingertip. -/
structure ProperGrip (R : PostureRobot K) (s : Gripper.Step K) : Prop where
  pos : s.ref.pos.size = 12
  vel : s.ref.vel.size = 6
  acc : s.ref.acc.size = 6
  speed : s.v.size = R.nv
  config : R.na ≤ s.q.size

/-- The registered tasks and the contact. -/
def gripItems (cf : Gripper.Conf K) : List (Item K) :=
  [.task .motion 0 1 cf.wEe, .task .motion 1 1 cf.wPosture, .contact 0 1 1 cf.wForceRef, .task .actuation 2 0 1]

/-- Pose, velocity and acceleration in a sample of twelve, six and six numbers. -/
def sampleGoal (r : Sample K) : Goal K :=
  ⟨⟨⟨⟨r.pos 3, r.pos 4, r.pos 5⟩, ⟨r.pos 6, r.pos 7, r.pos 8⟩, ⟨r.pos 9, r.pos 10, r.pos 11⟩⟩, ⟨r.pos 0, r.pos 1, r.pos 2⟩⟩,
    ⟨⟨r.vel 0, r.vel 1, r.vel 2⟩, ⟨r.vel 3, r.vel 4, r.vel 5⟩⟩, ⟨⟨r.acc 0, r.acc 1, r.acc 2⟩, ⟨r.acc 3, r.acc 4, r.acc 5⟩⟩⟩

/-- What the gripper must do: the laws of mechanics hold, where the contact pulls at the two frames with opposite forces; the
components of this force are within the limits; the first two joints are passive, the torques of the others are within the effort
limits. -/
structure GripObeys (cf : Gripper.Conf K) (S : Setup K) (w : Snapshot K) (dv tau force : Nat → K) : Prop where
  dynamics : ∀ u : Nat → K,
    ∑ i ∈ range S.robot.nv, (∑ j ∈ range S.robot.nv, S.robot.mass w.M i j * dv j + w.nle i) * u i =
      ∑ i ∈ range S.robot.nv, tau i * u i +
      ∑ i ∈ range 3, force i * ((footVel S.robot.nv (w.frame cf.first) u).get i - (footVel S.robot.nv (w.frame cf.second) u).get i)
  pull : ∀ i, i < 3 → cf.fMin ≤ force i ∧ force i ≤ cf.fMax
  passive : ∀ i, i < S.robot.nv → i < 2 → tau i = 0
  torque : ∀ i, i < S.robot.nv → 2 ≤ i → |tau i| ≤ cf.effort i

/-- How far the relative acceleration of the two frames is from the one that closes the gap between them with critical damping. -/
def gapError (cf : Gripper.Conf K) (nv : Nat) (k1 k2 : FrameKin K) (dv : Nat → K) (i : Nat) : K :=
  (footAcc nv k1 dv).get i - (footAcc nv k2 dv).get i -
    (cf.kpLoop * (k2.pose.trans - k1.pose.trans).get i +
      critical cf.kpLoop * ((k2.pose.rot.mulVec k2.vel.lin).get i - (k1.pose.rot.mulVec k1.vel.lin).get i))

/-- What the gripper should make small: the fingertip should follow its goal, the joints should return to `q0`, the two frames should
stay together, each with critical damping; and the force of the contact should be small. -/
def gripCost (cf : Gripper.Conf K) (E : Program.Env K) (q0 : Vec K) (goal : Goal K) (w : Snapshot K) (dv force : Nat → K) : K :=
  let p : FrameSettings K := ⟨⟨6, fun _ => 1⟩, ⟨6, fun _ => cf.kpEe⟩, ⟨6, fun _ => critical cf.kpEe⟩, goal.pose, goal.vel, goal.acc,
    false⟩
  1 / 2 * (
    cf.wEe * ∑ i ∈ range 6, (p.achieved E.robot.nv (w.frame cf.tip) dv i - p.law E.log3 (w.frame cf.tip) i) ^ 2 +
    cf.wPosture * ∑ j ∈ range E.robot.nv,
      (dv j + cf.kpPosture * E.robot.difference q0 w.q j + critical cf.kpPosture * w.v j) ^ 2 +
    (∑ i ∈ range 3, gapError cf E.robot.nv (w.frame cf.first) (w.frame cf.second) dv i ^ 2 +
      cf.wForceRef * ∑ i ∈ range 3, force i ^ 2))

/-- The same with the regularisation of the back-end. -/
def gripAim (reg : Bool) (cf : Gripper.Conf K) (E : Program.Env K) (q0 : Vec K) (goal : Goal K) (w : Snapshot K)
    (dv force : Nat → K) : K :=
  gripCost cf E q0 goal w dv force + if reg then
    1 / 2 * (Solver.defaultReg * (∑ i ∈ range E.robot.nv, dv i ^ 2 + ∑ i ∈ range 3, force i ^ 2)) else 0

/-- The getters return these accelerations, torques and this force of the contact. -/
structure GripGives (S : Setup K) (s : Tsid.State K) (x : Vec K) (dv tau force : Nat → K) : Prop where
  dv : ∃ y, (getAccelerations s x).val? = some y ∧ y.size = S.robot.nv ∧ ∀ i, i < S.robot.nv → y i = dv i
  tau : ∃ y, (getActuatorForces s x).val? = some y ∧ y.size = S.robot.nv ∧ ∀ i, i < S.robot.nv → y i = tau i
  force : ∃ y, (getContactForcesOf s "contact-two-frame-positions-fingertip-bottom-axis" x).val? = some y ∧ y.size = 3 ∧
    ∀ i, i < 3 → y i = force i

/-- However the solver was used before: `solve` returns after the cycle that led to state `s`.  If the external solver
succeeds, then the status is optimal, and accelerations, torques and contact force are the best that the gripper may have. -/
def GripBest {R C : Type} (D : Solve.Driver K R C) (u0 : Solve.Object K R) (Sat : R → (Nat → K) → Prop)
    (Success : Solve.Answer C K → Prop) (reg : Bool) (cf : Gripper.Conf K) (E : Program.Env K) (S : Setup K) (q0 : Vec K)
    (goal : Goal K) (w : Snapshot K) (s : Program.State K) : Prop :=
  ∀ hist u, (∀ c ∈ hist, c.Sized) → solves D E.ndebug u0 hist = some u →
    ∀ fresh freshI engine, Sound Sat Success engine →
      ∃ u', Solve.solve D fresh freshI E.ndebug engine u (problem s.form) = .ok u' () ∧
        ∃ dv tau force, GripGives S s.form u'.out.x dv tau force ∧
          (Success (engine u'.st (start D fresh freshI u u')) →
            u'.out.status = .optimal ∧ GripObeys cf S w dv tau force ∧
            ∀ dv' tau' force', GripObeys cf S w dv' tau' force' →
              gripAim reg cf E q0 goal w dv force ≤ gripAim reg cf E q0 goal w dv' force')

end

end Tsid.Spec
