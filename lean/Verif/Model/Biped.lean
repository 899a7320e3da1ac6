import Verif.Model.Program
import Verif.Model.Trajectory

/-!
# The class `TsidBiped`

`/repo/exercizes/tsid_biped.py`: a controller for a robot that stands on two feet, and the walking loops that use it
(`ex_4_walking.py`, `test_cop_task.py`).  The methods of the class make calls on the library; here each method is the
list of the calls it makes.  What pinocchio computes for a configuration and a velocity is a function `kin`.

Left out: the viewer, files, logs and plots, the solver object (it is a parameter where solutions matter), and
`get_LF_3d_pos_vel_acc`, `get_RF_3d_pos_vel_acc`, which only read.  The Python arrays hold three numbers where the model has
a vector with three components (numpy raises an exception otherwise).
-/

namespace Tsid.Biped

variable {K : Type}

/-- The two feet. -/
inductive Foot where
  | right
  | left
deriving DecidableEq, Repr

/-- The contact objects `contactRF`, `contactLF`: `tsid_biped.py` 40, 66. -/
def Foot.cid : Foot → Nat
  | .right => 0
  | .left => 1

/-- Their names: `tsid_biped.py` 41, 67. -/
def Foot.contactName : Foot → String
  | .right => "contact_rfoot"
  | .left => "contact_lfoot"

/-- The tasks `leftFootTask`, `rightFootTask`: `tsid_biped.py` 107, 115.  The tasks are numbered in the order of their
construction: centre of mass 0, centre of pressure 1, angular momentum 2, posture 3, feet 4 and 5, torque bounds 6, joint
bounds 7. -/
def Foot.tid : Foot → Nat
  | .left => 4
  | .right => 5

/-- The entries of the module `conf` that the class reads (`romeo_conf.py` 15-51); `tauMax`, `vMax` are the limits of the
model after scaling (`tsid_biped.py` 123, 133). -/
structure Conf (K : Type) where
  lxp : K
  lxn : K
  lyp : K
  lyn : K
  lz : K
  mu : K
  fMin : K
  fMax : K
  normal : V3 K
  frame : Foot → Nat
  kpContact : K
  kpCom : K
  kpAm : K
  kpPosture : K
  kpFoot : K
  gains : Vec K
  mask : Vec K
  wCom : K
  wCop : K
  wAm : K
  wPosture : K
  wFoot : K
  wContact : K
  wForceRef : K
  wTorque : K
  wJoint : K
  tauMax : Vec K
  vMax : Vec K
  dt : K

/-- The members of the class that its methods read and write: the data of the last `computeProblemData`
(`formulation.data()`), the flags `contact_RF_active`, `contact_LF_active` (172-173), and the samples of the feet
(`sample_RF_pos` and so on, 147-155). -/
structure St (K : Type) where
  data : Snapshot K
  active : Foot → Bool
  kept : Foot → Sample K

variable [Field K] [LinearOrder K] [FloorRing K] [HasSqrt K]

/-- `contact_Point`: `tsid_biped.py` 36-38.  The columns are the corners of the sole in the axes of the foot. -/
def corners (cf : Conf K) : Nat → V3 K
  | 0 => ⟨-cf.lxn, -cf.lyn, -cf.lz⟩
  | 1 => ⟨-cf.lxn, cf.lyp, -cf.lz⟩
  | 2 => ⟨cf.lxp, -cf.lyn, -cf.lz⟩
  | _ => ⟨cf.lxp, cf.lyp, -cf.lz⟩

/-- `k * np.ones(n)`. -/
def gain (n : Nat) (k : K) : Vec K := ⟨n, fun _ => k⟩

/-- `2.0 * np.sqrt(k) * np.ones(n)`. -/
def damping (n : Nat) (k : K) : Vec K := ⟨n, fun _ => 2 * sqrt k⟩

/-- `TrajectorySE3Constant(name, M).computeNext()`: `trajectory-se3.cpp` 18-35; the vector has 12 entries, so nothing is
thrown. -/
def poseSample (M : SE3 K) : Sample K :=
  match SE3Constant.newWith M with
  | .ok m _ => m
  | _ => Sample.zero 12 6

/-- `robot.framePosition(data, self.RF)`, `LF`: the placement of a foot (`tsid_biped.py` 219-223). -/
def placement (cf : Conf K) (w : Snapshot K) (f : Foot) : SE3 K := (w.frame (cf.frame f)).pose

/-- `q[2] -= H_rf_ref.translation[2] - conf.lz`: `tsid_biped.py` 56. -/
def ground (cf : Conf K) (q : Vec K) (w : Snapshot K) : Vec K :=
  q.put 2 (q 2 - ((placement cf w .right).trans.z - cf.lz))

/-- A foot is registered as a contact, with the motion as a constraint if `w_contact` is negative (`tsid_biped.py` 61-64,
81-84, 282-287, 294-299).  The overload with two arguments uses the defaults motion weight 1 and level 0
(`formulation.hpp` 93-98 of the bindings, `inverse-dynamics-formulation-acc-force.hpp` 65-67). -/
def register (cf : Conf K) (f : Foot) : Program.Op K :=
  if 0 ≤ cf.wContact then .form (.addRigidContact f.cid cf.wForceRef cf.wContact 1)
  else .form (.addRigidContact f.cid cf.wForceRef 1 0)

/-- Reference of a contact, and its registration: `tsid_biped.py` 60-64, 80-84, 280-287, 292-299. -/
def initFoot (cf : Conf K) (w : Snapshot K) (f : Foot) : List (Program.Op K) :=
  [.motion f.cid (.setReference (placement cf w f)), register cf f]

/-- Gains of a contact: `tsid_biped.py` 50-51, 76-77. -/
def contactGains (cf : Conf K) (f : Foot) : List (Program.Op K) :=
  [.motion f.cid (.setKp (gain 6 cf.kpContact)), .motion f.cid (.setKd (damping 6 cf.kpContact))]

/-- The task of a foot: `tsid_biped.py` 107-121. -/
def footTask (cf : Conf K) (f : Foot) : List (Program.Op K) :=
  [.task f.tid (.se3 (.setKp (gain 6 cf.kpFoot))), .task f.tid (.se3 (.setKd (damping 6 cf.kpFoot))),
   .form (.addMotionTask f.tid cf.wFoot 1 0)]

/-- The tasks up to the posture task: `tsid_biped.py` 86-105. -/
def bodyTasks (cf : Conf K) : List (Program.Op K) :=
  [.task 0 (.com (.setKp (gain 3 cf.kpCom))), .task 0 (.com (.setKd (damping 3 cf.kpCom))),
   .form (.addMotionTask 0 cf.wCom 1 0),
   .form (.addForceTask 1 cf.wCop 1 0),
   .task 2 (.am (.setKp ⟨3, fun i => if i < 2 then cf.kpAm else 0⟩)),
   .task 2 (.am (.setKd ⟨3, fun i => 2 * sqrt (if i < 2 then cf.kpAm else 0)⟩)),
   .form (.addMotionTask 2 cf.wAm 1 0),
   .task 2 (.am (.setReference (Sample.zero 3 3))),
   .task 3 (.posture (.setKp ⟨cf.gains.size, fun i => cf.kpPosture * cf.gains i⟩)),
   .task 3 (.posture (.setKd ⟨cf.gains.size, fun i => 2 * sqrt (cf.kpPosture * cf.gains i)⟩)),
   .task 3 (.posture (.setMask cf.mask)),
   .form (.addMotionTask 3 cf.wPosture 1 0)]

/-- The bounds: `tsid_biped.py` 123-137.  They are registered if their weight is positive. -/
def bounds (cf : Conf K) : List (Program.Op K) :=
  [.task 6 (.actBounds (.setBounds ⟨cf.tauMax.size, fun i => -cf.tauMax i⟩ cf.tauMax))] ++
  (if 0 < cf.wTorque then [.form (.addActuationTask 6 cf.wTorque 0 0)] else []) ++
  [.task 7 (.jointBounds (.setVelocityBounds ⟨cf.vMax.size, fun i => -cf.vMax i⟩ cf.vMax))] ++
  (if 0 < cf.wJoint then [.form (.addMotionTask 7 cf.wJoint 0 0)] else [])

/-- The second evaluation of the robot in the constructor, after the foot was put on the ground: `tsid_biped.py` 56-58. -/
def grounded (cf : Conf K) (kin : Vec K → Vec K → Snapshot K) (q v : Vec K) : Snapshot K :=
  kin (ground cf q (kin q v)) v

/-- The calls of the constructor: `tsid_biped.py` 19-173.  `q` is the reference configuration, `v` is zero. -/
def build (cf : Conf K) (kin : Vec K → Vec K → Snapshot K) (q v : Vec K) : List (Program.Op K) :=
  let w := grounded cf kin q v
  let q' := ground cf q (kin q v)
  [.compute (kin q v) 0] ++ contactGains cf .right ++ [.compute w 0] ++ initFoot cf w .right ++
  contactGains cf .left ++ initFoot cf w .left ++ bodyTasks cf ++ footTask cf .left ++ footTask cf .right ++ bounds cf ++
  [.task 3 (.posture (.setReference (EuclidianConstant.newWith ⟨q'.size - 7, fun i => q' (i + 7)⟩)))]

/-- The members after the constructor: `tsid_biped.py` 112, 120, 147-155, 172-173. -/
def start (cf : Conf K) (kin : Vec K → Vec K → Snapshot K) (q v : Vec K) : St K :=
  ⟨grounded cf kin q v, fun _ => true, fun f => poseSample (placement cf (grounded cf kin q v) f)⟩

/-- What a program does with the object: `set_com_ref` (225-229), `set_RF_3d_ref`, `set_LF_3d_ref` (231-247),
`remove_contact_RF`, `remove_contact_LF` (263-277), `add_contact_RF`, `add_contact_LF` (279-301; their argument
`transition_time` is not used), `copTask.setReference` (`test_cop_task.py` 122), `updateTaskWeight` of the centre-of-pressure
task (95), and a control cycle (`ex_4_walking.py` 146). -/
inductive Call (K : Type) where
  | setCom (pos vel acc : V3 K)
  | setFoot (f : Foot) (pos vel acc : V3 K)
  | remove (f : Foot) (time : K)
  | add (f : Foot)
  | setCop (p : V3 K)
  | weighCop (w : K)
  | cycle (t : K) (q v : Vec K)

/-- `a[:3] = x`. -/
def replace3 (a : Vec K) (x : V3 K) : Vec K := ⟨a.size, fun i => if i < 3 then x.get i else a i⟩

/-- The samples of a foot with new positions, velocities and accelerations: `tsid_biped.py` 232-237, 241-246. -/
def replaceSample (s : Sample K) (pos vel acc : V3 K) : Sample K :=
  ⟨replace3 s.pos pos, replace3 s.vel vel, replace3 s.acc acc⟩

/-- One use of the object: the calls it makes, and the members afterwards. -/
def use (cf : Conf K) (kin : Vec K → Vec K → Snapshot K) (s : St K) : Call K → List (Program.Op K) × St K
  | .setCom pos vel acc => ([.task 0 (.com (.setReference ⟨⟨3, pos.get⟩, ⟨3, vel.get⟩, ⟨3, acc.get⟩⟩))], s)
  | .setFoot f pos vel acc =>
    let k := replaceSample (s.kept f) pos vel acc
    ([.task f.tid (.se3 (.setReference k))], { s with kept := Function.update s.kept f k })
  | .remove f time =>
    ([.task f.tid (.se3 (.setReference (poseSample (placement cf s.data f)))),
      .form (.removeRigidContact f.contactName time)],
     { s with active := Function.update s.active f false })
  | .add f =>
    (initFoot cf s.data f, { s with active := Function.update s.active f true })
  | .setCop p => ([.task 1 (.cop (.setReference p))], s)
  | .weighCop w => ([.form (.updateTaskWeight "task-cop" w)], s)
  | .cycle t q v => ([.compute (kin q v) t], { s with data := kin q v })

/-- The calls and the members after a sequence of uses. -/
def uses (cf : Conf K) (kin : Vec K → Vec K → Snapshot K) : St K → List (Call K) → List (Program.Op K) × St K
  | s, [] => ([], s)
  | s, c :: cs =>
    let r := use cf kin s c
    let r' := uses cf kin r.2 cs
    (r.1 ++ r'.1, r'.2)

/-- A program that constructs the object and uses it. -/
def text (cf : Conf K) (kin : Vec K → Vec K → Snapshot K) (q v : Vec K) (cs : List (Call K)) : List (Program.Op K) :=
  build cf kin q v ++ (uses cf kin (start cf kin q v) cs).1

/-- The entries of `contact_phase`: the foot the robot stands on (`ex_4_walking.py` 130-135). -/
abbrev Phase := Foot

/-- Step `i ≥ 0` of the walking loop, contacts only: `ex_4_walking.py` 122-135 (`test_cop_task.py` 91-106).  `n` is the number
of entries of `contact_phase`. -/
def phaseCalls (phase : Nat → Phase) (n i : Nat) : List (Call K) :=
  if i = 0 then [.remove .left 0]
  else if i < n - 1 then
    if phase i ≠ phase (i - 1) then
      match phase i with
      | .left => [.add .left, .remove .right 0]
      | .right => [.add .right, .remove .left 0]
    else []
  else []

/-- The steps `0, …, m - 1` of the loop (`ex_4_walking.py` 119-146); `others i` is what step `i` does besides. -/
def walk (phase : Nat → Phase) (n : Nat) (others : Nat → List (Call K)) (m : Nat) : List (Call K) :=
  (List.range m).flatMap fun i => phaseCalls phase n i ++ others i

/-- The additional branch of `test_cop_task.py` (107-112) for step `n`: back to both feet. -/
def landing (phase : Nat → Phase) (n i : Nat) : List (Call K) :=
  if i = n ∧ 0 < i then
    match phase (n - 1) with
    | .left => [.add .right]
    | .right => [.add .left]
  else []

end Tsid.Biped
