import Verif.Spec.BipedSettings
import Verif.Spec.ProgramText
import Verif.Model.Manipulator

/-!
# What a program that uses `TsidManipulator` should be like
-/

namespace Tsid.Spec

open Finset Formulation Manipulator

variable {K : Type}

/-- The names of the four tasks: `tsid_manipulator.py` 40-66. -/
def armName : Nat → String
  | 0 => "task-posture"
  | 1 => "task-ee"
  | 2 => "task-actuation-bounds"
  | _ => "task-joint-bounds"

section
variable [Field K] [LinearOrder K] [FloorRing K] [HasSqrt K]

/-- What the class constructs, and what it expects of the configuration file and of pinocchio: in particular every degree of
freedom has a motor. -/
structure IsArm (cf : Conf K) (kin : Vec K → Vec K → Snapshot K) (g : Nat → K) (E : Program.Env K) (W : World) (S : Setup K) :
    Prop where
  declared : Declared E W S
  name : ∀ tid, tid < 4 → (W.task tid).name = armName tid
  posture : S.decl 0 = .posture
  ee : S.decl 1 = .se3 cf.frame
  torque : S.decl 2 = .actBounds
  joint : S.decl 3 = .jointBounds cf.dt
  kind : ∀ tid, tid < 4 → (W.task tid).kind = (S.decl tid).kind
  rows : ∀ tid, tid < 4 → (W.task tid).rows =
    (S.decl tid).rows E.robot (if tid = 1 then [.se3 (.setMask g cf.eeMask)] else [])
  fixed : E.robot.nv = E.robot.na
  joints : E.robot.neutral.size = E.robot.nqa
  mask : ValidMask 6 cf.eeMask
  wPosture : 0 ≤ cf.wPosture
  wEe : 0 ≤ cf.wEe
  snap : ∀ q v, v.size = E.robot.nv → SnapshotOk E.robot.nv (kin q v)
  config : ∀ q v, (kin q v).q = q
  velocity : ∀ q v, (kin q v).v = v

/-- The limits and the reference configuration have the sizes that the robot wants. -/
structure ArmSized (cf : Conf K) (R : PostureRobot K) (q : Vec K) : Prop where
  torque : cf.tauMax.size = R.na
  speed : cf.vMax.size = R.na
  joints : q.size = R.nqa
  motors : q.size = R.na

/-- A reference has derivatives of the right size, and the state of the robot has the right sizes. -/
def ProperUse (R : PostureRobot K) : Manipulator.Call K → Prop
  | .setEe r => r.pos.size = 12 → r.vel.size = 6 ∧ r.acc.size = 6
  | .cycle _ q v => v.size = R.nv ∧ R.na ≤ q.size

/-- The registered tasks. -/
def armItems (cf : Conf K) : List (Item K) :=
  [.task .motion 0 1 cf.wPosture, .task .motion 1 1 cf.wEe] ++
  (if 0 < cf.wTorque then [.task .actuation 2 0 cf.wTorque] else []) ++
  (if 0 < cf.wJoint then [.task .motion 3 0 cf.wJoint] else [])

/-- Pose, velocity and acceleration that the end effector was asked to have last (the latest call comes first); at the
beginning the origin of the world. -/
def eeGoal : List (Manipulator.Call K) → Goal K
  | [] => ⟨⟨M3.one, ⟨0, 0, 0⟩⟩, ⟨⟨0, 0, 0⟩, ⟨0, 0, 0⟩⟩, ⟨⟨0, 0, 0⟩, ⟨0, 0, 0⟩⟩⟩
  | .setEe r :: cs =>
    if r.pos.size = 12 then
      ⟨⟨⟨⟨r.pos 3, r.pos 4, r.pos 5⟩, ⟨r.pos 6, r.pos 7, r.pos 8⟩, ⟨r.pos 9, r.pos 10, r.pos 11⟩⟩, ⟨r.pos 0, r.pos 1, r.pos 2⟩⟩,
        ⟨⟨r.vel 0, r.vel 1, r.vel 2⟩, ⟨r.vel 3, r.vel 4, r.vel 5⟩⟩, ⟨⟨r.acc 0, r.acc 1, r.acc 2⟩, ⟨r.acc 3, r.acc 4, r.acc 5⟩⟩⟩
    else eeGoal cs
  | .cycle _ _ _ :: cs => eeGoal cs

/-- What a robot arm must do: obey the equations of motion; keep the torque limits and, one time step later, the velocity
limits, if the configuration file gives the tasks a weight. -/
structure ArmObeys (cf : Conf K) (S : Setup K) (w : Snapshot K) (dv tau : Nat → K) : Prop where
  dynamics : ∀ i, i < S.robot.nv → ∑ j ∈ range S.robot.nv, S.robot.mass w.M i j * dv j + w.nle i = tau i
  torque : 0 < cf.wTorque → ∀ i, i < S.robot.nv → |tau i| ≤ cf.tauMax i
  speed : 0 < cf.wJoint → ∀ i, i < S.robot.nv → |w.v i + cf.dt * dv i| ≤ cf.vMax i ∧ |dv i| ≤ 10000000000

/-- What an arm should make small: the joints should return to the reference configuration `q0`, with critical damping; the
end effector should follow its goal on the axes of the mask, with critical damping. -/
def armCost (cf : Conf K) (E : Program.Env K) (q0 : Vec K) (goal : Goal K) (w : Snapshot K) (dv : Nat → K) : K :=
  let p : FrameSettings K := ⟨cf.eeMask, ⟨6, fun _ => cf.kpEe⟩, ⟨6, fun _ => critical cf.kpEe⟩, goal.pose, goal.vel, goal.acc,
    cf.eeLocal⟩
  1 / 2 * (cf.wPosture * ∑ j ∈ range E.robot.nv,
      (dv j + cf.kpPosture * E.robot.difference q0 w.q j + critical cf.kpPosture * w.v j) ^ 2 +
    cf.wEe * ∑ i ∈ range 6, if cf.eeMask i = 1 then
      (p.achieved E.robot.nv (w.frame cf.frame) dv i - p.law E.log3 (w.frame cf.frame) i) ^ 2 else 0)

/-- The same with the regularisation of the back-end. -/
def armAim (reg : Bool) (cf : Conf K) (E : Program.Env K) (q0 : Vec K) (goal : Goal K) (w : Snapshot K) (dv : Nat → K) : K :=
  armCost cf E q0 goal w dv + if reg then 1 / 2 * (Solver.defaultReg * ∑ i ∈ range E.robot.nv, dv i ^ 2) else 0

/-- The getters return these accelerations and torques. -/
def Gives (S : Setup K) (s : Tsid.State K) (x : Vec K) (dv tau : Nat → K) : Prop :=
  (∃ y, (getAccelerations s x).val? = some y ∧ y.size = S.robot.nv ∧ ∀ i, i < S.robot.nv → y i = dv i) ∧
  ∃ y, (getActuatorForces s x).val? = some y ∧ y.size = S.robot.nv ∧ ∀ i, i < S.robot.nv → y i = tau i

/-- However the solver was used before: `solve` returns after the cycle that led to state `s`.  If the external solver
succeeds, then the status is optimal, and accelerations and torques are the best that the arm may have. -/
def ArmBest {R C : Type} (D : Solve.Driver K R C) (u0 : Solve.Object K R) (Sat : R → (Nat → K) → Prop)
    (Success : Solve.Answer C K → Prop) (reg : Bool) (cf : Conf K) (E : Program.Env K) (S : Setup K) (q0 : Vec K)
    (goal : Goal K) (w : Snapshot K) (s : Program.State K) : Prop :=
  ∀ hist u, (∀ c ∈ hist, c.Sized) → solves D E.ndebug u0 hist = some u →
    ∀ fresh freshI engine, Sound Sat Success engine →
      ∃ u', Solve.solve D fresh freshI E.ndebug engine u (problem s.form) = .ok u' () ∧
        ∃ dv tau : Nat → K, Gives S s.form u'.out.x dv tau ∧
          (Success (engine u'.st (start D fresh freshI u u')) →
            u'.out.status = .optimal ∧ ArmObeys cf S w dv tau ∧
            ∀ dv' tau', ArmObeys cf S w dv' tau' → armAim reg cf E q0 goal w dv ≤ armAim reg cf E q0 goal w dv')

end

end Tsid.Spec
