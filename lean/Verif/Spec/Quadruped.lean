import Verif.Spec.BipedSettings
import Verif.Spec.ProgramText
import Verif.Model.Quadruped

/-!
# What the quadruped demo should be like
-/

namespace Tsid.Spec

open Finset Formulation Quadruped

variable {K : Type}

section
variable [Field K] [LinearOrder K] [FloorRing K] [HasSqrt K]

/-- What the demo constructs, and what it expects of its constants and of pinocchio: a floating base with six degrees of
freedom, the others have motors. -/
structure IsQuadruped (cf : Quadruped.Conf K) (kin : Vec K → Vec K → Snapshot K) (E : Program.Env K) (W : World) (S : Setup K) :
    Prop where
  declared : Declared E W S
  comName : (W.task 0).name = "task-com"
  postureName : (W.task 1).name = "task-posture"
  com : S.decl 0 = .com
  posture : S.decl 1 = .posture
  kind : ∀ tid, tid < 2 → (W.task tid).kind = .equality
  comRows : (W.task 0).rows = 3
  postureRows : (W.task 1).rows = E.robot.na
  contact : ∀ i, i < 4 → S.obj i = Contact.new (footName i) .point (fun _ => 0) ⟨0, 0, 1⟩ cf.mu cf.fMin cf.fMax
  motion : ∀ i, i < 4 → S.cdecl i = .point (cf.frame i)
  floating : E.robot.nv = E.robot.na + 6
  neutral : E.robot.neutral.size = E.robot.nqa + 7
  wCom : 0 ≤ cf.wCom
  wPosture : 0 ≤ cf.wPosture
  mu : 0 ≤ cf.mu
  moderate : 2 * cf.mu * cf.fMax ≤ 10 ^ 10
  snap : ∀ q v, v.size = E.robot.nv → SnapshotOk E.robot.nv (kin q v)
  config : ∀ q v, (kin q v).q = q
  velocity : ∀ q v, (kin q v).v = v

/-- The configuration has the entries of the base and one entry for each joint. -/
structure QuadSized (R : PostureRobot K) (q : Vec K) : Prop where
  joints : q.size - 7 = R.nqa
  motors : q.size - 7 = R.na

/-- The state of the robot has the right sizes, and so has the reference of the centre of mass. -/
structure ProperStep (R : PostureRobot K) (s : Quadruped.Step K) : Prop where
  pos : s.ref.pos.size = 3
  vel : s.ref.vel.size = 3
  acc : s.ref.acc.size = 3
  speed : s.v.size = R.nv
  config : R.na ≤ s.q.size

/-- The registered contacts and tasks: everything is at the lower priority. -/
def quadItems (cf : Quadruped.Conf K) : List (Item K) :=
  (List.range 4).map (fun i => .contact i 1 1 cf.wForceRef) ++ [.task .motion 0 1 cf.wCom, .task .motion 1 1 cf.wPosture]

/-- The velocity of a foot, in the axes of the world, when the degrees of freedom move with velocity `u`. -/
def footVel (nv : Nat) (k : FrameKin K) (u : Nat → K) : V3 K := k.pose.rot.mulVec (motionAcc nv k.jac 0 u).lin

/-- The acceleration of a foot in the axes of the world. -/
def footAcc (nv : Nat) (k : FrameKin K) (a : Nat → K) : V3 K := k.pose.rot.mulVec (motionAcc nv k.jac k.drift a).lin

/-- What the quadruped must do: the laws of mechanics hold (d'Alembert's principle), and every foot pushes with a force
between the limits, within the friction pyramid.  The forces are in the axes of the world. -/
structure QuadObeys (cf : Quadruped.Conf K) (S : Setup K) (w : Snapshot K) (dv tau : Nat → K) (force : Nat → Nat → K) : Prop where
  dynamics : ∀ u : Nat → K,
    ∑ i ∈ range S.robot.nv, (∑ j ∈ range S.robot.nv, S.robot.mass w.M i j * dv j + w.nle i) * u i =
      ∑ i ∈ range (S.robot.nv - 6), tau i * u (6 + i) +
      ∑ l ∈ range 4, ∑ i ∈ range 3, force l i * (footVel S.robot.nv (w.frame (cf.frame l)) u).get i
  push : ∀ l, l < 4 → cf.fMin ≤ force l 2 ∧ force l 2 ≤ cf.fMax
  friction : ∀ l, l < 4 → |force l 0| ≤ cf.mu * force l 2 ∧ |force l 1| ≤ cf.mu * force l 2

/-- How far the acceleration of foot `l` is from the one that brings it back to its place `p` with critical damping. -/
def footError (cf : Quadruped.Conf K) (nv : Nat) (p : V3 K) (k : FrameKin K) (dv : Nat → K) (i : Nat) : K :=
  (footAcc nv k dv).get i -
    (cf.kpContact * (p - k.pose.trans).get i - critical cf.kpContact * (k.pose.rot.mulVec k.vel.lin).get i)

/-- What the quadruped should make small: the centre of mass should follow the reference `r`, the joints should return to those
of `q0`, the feet should return to the places `places`, each with critical damping; and the contact forces should be small,
vertical components a thousandth as much. -/
def quadCost (cf : Quadruped.Conf K) (E : Program.Env K) (q0 : Vec K) (places : Nat → V3 K) (r : Sample K) (w : Snapshot K)
    (dv : Nat → K) (force : Nat → Nat → K) : K :=
  1 / 2 * (
    ∑ l ∈ range 4, (∑ i ∈ range 3, footError cf E.robot.nv (places l) (w.frame (cf.frame l)) dv i ^ 2 +
      cf.wForceRef * (force l 0 ^ 2 + force l 1 ^ 2 + (force l 2 / 1000) ^ 2)) +
    cf.wCom * ∑ i ∈ range 3, ((pointAcc E.robot.nv w.com.jac w.com.drift dv).get i -
      (r.acc i + cf.kpCom * (r.pos i - w.com.pos.get i) + critical cf.kpCom * (r.vel i - w.com.vel.get i))) ^ 2 +
    cf.wPosture * ∑ j ∈ range E.robot.na, (dv (6 + j) + cf.kpPosture * E.robot.difference
      ⟨E.robot.neutral.size, fun i => if i < 7 then E.robot.neutral i else q0 i⟩ w.q (6 + j) +
        critical cf.kpPosture * w.v (6 + j)) ^ 2)

/-- The same with the regularisation of the back-end. -/
def quadAim (reg : Bool) (cf : Quadruped.Conf K) (E : Program.Env K) (q0 : Vec K) (places : Nat → V3 K) (r : Sample K)
    (w : Snapshot K) (dv : Nat → K) (force : Nat → Nat → K) : K :=
  quadCost cf E q0 places r w dv force + if reg then
    1 / 2 * (Solver.defaultReg * (∑ i ∈ range E.robot.nv, dv i ^ 2 + ∑ l ∈ range 4, ∑ i ∈ range 3, force l i ^ 2)) else 0

/-- The places of the feet after the robot was lowered by the height of the first foot. -/
def feetPlaces (cf : Quadruped.Conf K) (kin : Vec K → Vec K → Snapshot K) (q v : Vec K) (l : Nat) : V3 K :=
  ((kin ⟨q.size, fun i => if i = 2 then q 2 - ((kin q v).frame (cf.frame 0)).pose.trans.z else q i⟩ v).frame
    (cf.frame l)).pose.trans

/-- The third coordinate of the configuration is the height of the base: if it changes, all feet rise as much and move neither
sideways nor forward. -/
def Lifts (cf : Quadruped.Conf K) (kin : Vec K → Vec K → Snapshot K) : Prop :=
  ∀ q v d l, l < 4 →
    ((kin ⟨q.size, fun i => if i = 2 then q 2 - d else q i⟩ v).frame (cf.frame l)).pose.trans =
      ⟨((kin q v).frame (cf.frame l)).pose.trans.x, ((kin q v).frame (cf.frame l)).pose.trans.y,
        ((kin q v).frame (cf.frame l)).pose.trans.z - d⟩

/-- The getters return these accelerations, torques and forces of the feet. -/
structure QuadGives (S : Setup K) (s : Tsid.State K) (x : Vec K) (dv tau : Nat → K) (force : Nat → Nat → K) : Prop where
  dv : ∃ y, (getAccelerations s x).val? = some y ∧ y.size = S.robot.nv ∧ ∀ i, i < S.robot.nv → y i = dv i
  tau : ∃ y, (getActuatorForces s x).val? = some y ∧ y.size = S.robot.nv - 6 ∧ ∀ i, i < S.robot.nv - 6 → y i = tau i
  force : ∀ l, l < 4 → ∃ y, (getContactForcesOf s (footName l) x).val? = some y ∧ y.size = 3 ∧ ∀ i, i < 3 → y i = force l i

/-- However the solver was used before: `solve` returns after the cycle that led to state `s`.  If the external solver
succeeds, then the status is optimal, and accelerations, torques and contact forces are the best that the quadruped may have. -/
def QuadBest {R C : Type} (D : Solve.Driver K R C) (u0 : Solve.Object K R) (Sat : R → (Nat → K) → Prop)
    (Success : Solve.Answer C K → Prop) (reg : Bool) (cf : Quadruped.Conf K) (E : Program.Env K) (S : Setup K) (q0 : Vec K)
    (places : Nat → V3 K) (r : Sample K) (w : Snapshot K) (s : Program.State K) : Prop :=
  ∀ hist u, (∀ c ∈ hist, c.Sized) → solves D E.ndebug u0 hist = some u →
    ∀ fresh freshI engine, Sound Sat Success engine →
      ∃ u', Solve.solve D fresh freshI E.ndebug engine u (problem s.form) = .ok u' () ∧
        ∃ dv tau force, QuadGives S s.form u'.out.x dv tau force ∧
          (Success (engine u'.st (start D fresh freshI u u')) →
            u'.out.status = .optimal ∧ QuadObeys cf S w dv tau force ∧
            ∀ dv' tau' force', QuadObeys cf S w dv' tau' force' →
              quadAim reg cf E q0 places r w dv force ≤ quadAim reg cf E q0 places r w dv' force')

end

end Tsid.Spec
