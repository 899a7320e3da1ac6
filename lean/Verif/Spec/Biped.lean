import Verif.Spec.Static
import Verif.Model.Biped

/-!
# What a program that uses `TsidBiped` should be like
-/

namespace Tsid.Spec

open Biped

variable {K : Type}

/-- The names of the eight tasks: `tsid_biped.py` 86-132. -/
def bipedName : Nat → String
  | 0 => "task-com"
  | 1 => "task-cop"
  | 2 => "task-am"
  | 3 => "task-posture"
  | 4 => "task-left-foot"
  | 5 => "task-right-foot"
  | 6 => "task-actuation-bounds"
  | _ => "task-joint-bounds"

/-- Does the robot stand on the foot after these calls?  At the beginning it stands on both. -/
def stands (f : Foot) (cs : List (Call K)) : Bool :=
  cs.foldl (fun b c =>
    match c with
    | .add g => if g = f then true else b
    | .remove g _ => if g = f then false else b
    | _ => b) true

/-- The weight of the centre-of-pressure task after these calls. -/
def copWeight (cf : Conf K) (cs : List (Call K)) : K :=
  cs.foldl (fun k c =>
    match c with
    | .weighCop w => w
    | _ => k) cf.wCop

section
variable [Field K] [LinearOrder K]

/-- The call may follow the calls `pre`: a foot is put down when it is in the air, and lifted, at once, when it stands; the
state of the robot has the right sizes. -/
def MayUse (R : PostureRobot K) (pre : List (Call K)) : Call K → Prop
  | .add f => stands f pre = false
  | .remove f time => stands f pre = true ∧ time ≤ 0
  | .cycle _ q v => v.size = R.nv ∧ R.na ≤ q.size
  | _ => True

/-- Every call may follow the calls before it. -/
def Proper (R : PostureRobot K) (cs : List (Call K)) : Prop :=
  ∀ pre c post, cs = pre ++ c :: post → MayUse R pre c

/-- The contact of a foot as it is registered: a constraint, or a task of level 1. -/
def footItem (cf : Conf K) (f : Foot) : Item K :=
  if 0 ≤ cf.wContact then .contact f.cid 1 cf.wContact cf.wForceRef else .contact f.cid 0 1 cf.wForceRef

/-- The tasks that are registered; `k` is the weight of the centre-of-pressure task. -/
def bodyItems (cf : Conf K) (k : K) : List (Item K) :=
  [.task .motion 0 1 cf.wCom, .task .force 1 1 k, .task .motion 2 1 cf.wAm, .task .motion 3 1 cf.wPosture,
   .task .motion 4 1 cf.wFoot, .task .motion 5 1 cf.wFoot] ++
  (if 0 < cf.wTorque then [.task .actuation 6 0 cf.wTorque] else []) ++
  (if 0 < cf.wJoint then [.task .motion 7 0 cf.wJoint] else [])

/-- The feet on which the robot stands. -/
def feet (cs : List (Call K)) : List Foot := [Foot.right, .left].filter fun f => stands f cs

/-- What is registered after a sequence of calls: the tasks, and the contacts of the feet on which the robot stands. -/
def itemsOf (cf : Conf K) (cs : List (Call K)) : List (Item K) := bodyItems cf (copWeight cf cs) ++ (feet cs).map (footItem cf)

/-- A call that leaves the contacts alone. -/
def NoCalls (R : PostureRobot K) : Call K → Prop
  | .add _ | .remove _ _ => False
  | .cycle _ q v => v.size = R.nv ∧ R.na ≤ q.size
  | _ => True

end

section
variable [Field K] [LinearOrder K] [FloorRing K] [HasSqrt K]

/-- What the class constructs, and what it expects of the configuration file and of pinocchio. -/
structure IsBiped (cf : Conf K) (kin : Vec K → Vec K → Snapshot K) (E : Program.Env K) (W : World) (S : Setup K) :
    Prop where
  declared : Declared E W S
  name : ∀ tid, tid < 8 → (W.task tid).name = bipedName tid
  com : S.decl 0 = .com
  cop : S.decl 1 = .cop
  am : S.decl 2 = .am
  posture : S.decl 3 = .posture
  foot : ∀ f : Foot, S.decl f.tid = .se3 (cf.frame f)
  torque : S.decl 6 = .actBounds
  joint : S.decl 7 = .jointBounds cf.dt
  kind : ∀ tid, tid < 8 → (W.task tid).kind = (S.decl tid).kind
  rows : ∀ tid, tid < 8 → (W.task tid).rows =
    (S.decl tid).rows E.robot (if tid = 3 then [.posture (.setMask cf.mask)] else [])
  contact : ∀ f : Foot, S.obj f.cid = Contact.new f.contactName .sixD (corners cf) cf.normal cf.mu cf.fMin cf.fMax
  motion : ∀ f : Foot, S.cdecl f.cid = .sixD (cf.frame f)
  mask : ValidMask E.robot.na cf.mask
  wCom : 0 ≤ cf.wCom
  wCop : 0 ≤ cf.wCop
  wAm : 0 ≤ cf.wAm
  wPosture : 0 ≤ cf.wPosture
  wFoot : 0 ≤ cf.wFoot
  snap : ∀ q v, v.size = E.robot.nv → SnapshotOk E.robot.nv (kin q v)
  config : ∀ q v, (kin q v).q = q

/-- Pose, velocity and acceleration a foot should have. -/
structure Goal (K : Type) where
  pose : SE3 K
  vel : Motion K
  acc : Motion K

/-- The state of the robot in the last cycle. -/
def lastSeen (kin : Vec K → Vec K → Snapshot K) (w : Snapshot K) (cs : List (Call K)) : Snapshot K :=
  cs.foldl (fun w c =>
    match c with
    | .cycle _ q v => kin q v
    | _ => w) w

/-- What the task of a foot asks for after a history of calls, of which the latest comes first: the last reference, with the
orientation the foot had in the constructor; or the place where the foot was when it was lifted; at the beginning, the
origin of the world. -/
def footGoal (cf : Conf K) (kin : Vec K → Vec K → Snapshot K) (w0 : Snapshot K) (f : Foot) : List (Call K) → Goal K
  | [] => ⟨⟨M3.one, ⟨0, 0, 0⟩⟩, ⟨⟨0, 0, 0⟩, ⟨0, 0, 0⟩⟩, ⟨⟨0, 0, 0⟩, ⟨0, 0, 0⟩⟩⟩
  | .setFoot g pos vel acc :: cs =>
    if g = f then ⟨⟨(w0.frame (cf.frame f)).pose.rot, pos⟩, ⟨vel, ⟨0, 0, 0⟩⟩, ⟨acc, ⟨0, 0, 0⟩⟩⟩ else footGoal cf kin w0 f cs
  | .remove g _ :: cs =>
    if g = f then
      ⟨((lastSeen kin w0 cs.reverse).frame (cf.frame f)).pose, ⟨⟨0, 0, 0⟩, ⟨0, 0, 0⟩⟩, ⟨⟨0, 0, 0⟩, ⟨0, 0, 0⟩⟩⟩
    else footGoal cf kin w0 f cs
  | _ :: cs => footGoal cf kin w0 f cs

/-- Where the contact of a foot should stay: where the foot was when it was put down last. -/
def contactGoal (cf : Conf K) (kin : Vec K → Vec K → Snapshot K) (w0 : Snapshot K) (f : Foot) : List (Call K) → SE3 K
  | [] => (w0.frame (cf.frame f)).pose
  | .add g :: cs =>
    if g = f then ((lastSeen kin w0 cs.reverse).frame (cf.frame f)).pose else contactGoal cf kin w0 f cs
  | _ :: cs => contactGoal cf kin w0 f cs

end

end Tsid.Spec
