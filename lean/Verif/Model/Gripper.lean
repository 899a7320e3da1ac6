import Verif.Model.Biped

/-!
# The gripper demo

`/repo/demo/demo_tsid_talos_gripper_closed_kinematic_chain.py`: a finger with a closed kinematic chain, which a
`ContactTwoFramePositions` closes.  As in `Model/Biped`, the program is the list of the library calls it makes, and `kin` is what
pinocchio computes for a configuration and a velocity.

Left out: the viewer, prints, and the solver object (it is a parameter where solutions matter).
-/

namespace Tsid.Gripper

variable {K : Type}

/-- The constants of the demo (25-31, 92-106): `tip` is the frame of the fingertip, `first` and `second` are the two frames that the
contact holds together, `effort` is `model.effortLimit[-robot.na:]` (112). -/
structure Conf (K : Type) where
  tip : Nat
  first : Nat
  second : Nat
  fMin : K
  fMax : K
  wEe : K
  wPosture : K
  wForceRef : K
  kpEe : K
  kpPosture : K
  kpLoop : K
  effort : Vec K
  dt : K

variable [Field K] [LinearOrder K] [FloorRing K] [HasSqrt K]

/-- `tau_max`, after the torques of the two passive joints were set to zero: `demo_tsid_talos_gripper_closed_kinematic_chain.py`
112-116 (there are at least two joints). -/
def tauMax (cf : Conf K) : Vec K := (cf.effort.put 0 0).put 1 0

/-- The calls before the loop: `demo_tsid_talos_gripper_closed_kinematic_chain.py` 63-120; task of the fingertip 0, posture 1, torque
bounds 2; the contact has number 0; `n` is `robot.nv`.  `g` is the memory of the gains of the contact that a contact between two
positions leaves unwritten. -/
def build (cf : Conf K) (kin : Vec K → Vec K → Snapshot K) (g : Nat → K) (n : Nat) (q v : Vec K) : List (Program.Op K) :=
  [.compute (kin q v) 0,
   .task 0 (.se3 (.useLocalFrame false)),
   .task 0 (.se3 (.setKp (Biped.gain 6 cf.kpEe))), .task 0 (.se3 (.setKd (Biped.damping 6 cf.kpEe))),
   .task 0 (.se3 (.setReference (Biped.poseSample ((kin q v).frame cf.tip).pose))),
   .form (.addMotionTask 0 cf.wEe 1 0),
   .task 1 (.posture (.setKp (Biped.gain n cf.kpPosture))), .task 1 (.posture (.setKd (Biped.damping n cf.kpPosture))),
   .form (.addMotionTask 1 cf.wPosture 1 0),
   .motion 0 (.pair (.setKp g (Biped.gain 3 cf.kpLoop))), .motion 0 (.pair (.setKd g (Biped.damping 3 cf.kpLoop))),
   .form (.addRigidContact 0 cf.wForceRef 1 1),
   .task 2 (.actBounds (.setBounds ⟨(tauMax cf).size, fun i => -tauMax cf i⟩ (tauMax cf))),
   .form (.addActuationTask 2 1 0 0)]

/-- What a step of the loop depends on: the sample of the fingertip, the time, and the state of the robot. -/
structure Step (K : Type) where
  ref : Sample K
  t : K
  q : Vec K
  v : Vec K

/-- The references of a step: `demo_tsid_talos_gripper_closed_kinematic_chain.py` 160-163. -/
def references (q : Vec K) (r : Sample K) : List (Program.Op K) :=
  [.task 0 (.se3 (.setReference r)), .task 1 (.posture (.setReference (EuclidianConstant.newWith q)))]

/-- The calls of a step: `demo_tsid_talos_gripper_closed_kinematic_chain.py` 160-166. -/
def step (kin : Vec K → Vec K → Snapshot K) (q : Vec K) (s : Step K) : List (Program.Op K) :=
  references q s.ref ++ [.compute (kin s.q s.v) s.t]

/-- The demo after some steps of its loop. -/
def text (cf : Conf K) (kin : Vec K → Vec K → Snapshot K) (g : Nat → K) (n : Nat) (q v : Vec K) (l : List (Step K)) :
    List (Program.Op K) :=
  build cf kin g n q v ++ l.flatMap (step kin q)

/-- The sample of the fingertip: `demo_tsid_talos_gripper_closed_kinematic_chain.py` 137-158; `start` is the vector of the sample of
the initial pose, `shift` is what is added to its position. -/
def wave (sn cs : K → K) (start : Vec K) (shift amp twoPiF : V3 K) (t : K) : Sample K :=
  ⟨⟨start.size, fun i => if i < 3 then start i + shift.get i + amp.get i * sn (twoPiF.get i * t) else start i⟩,
   ⟨6, fun i => if i < 3 then twoPiF.get i * amp.get i * cs (twoPiF.get i * t) else 0⟩,
   ⟨6, fun i => if i < 3 then -(twoPiF.get i * (twoPiF.get i * amp.get i)) * sn (twoPiF.get i * t) else 0⟩⟩

/-- The integration of the state: `demo_tsid_talos_gripper_closed_kinematic_chain.py` 181-183; `integrate` is pinocchio's. -/
def advance (integrate : Vec K → Vec K → Vec K) (dt : K) (q v dv : Vec K) : Vec K × Vec K :=
  (integrate q ⟨v.size, fun i => dt * (v i + 1 / 2 * dt * dv i)⟩, ⟨v.size, fun i => v i + dt * dv i⟩)

/-- The states of the robot in the loop that starts in `q`, `v` (149-184), if the solver finds the accelerations `dv i` in step
`i`. -/
def states (integrate : Vec K → Vec K → Vec K) (dt : K) (q v : Vec K) (dv : Nat → Vec K) : Nat → Vec K × Vec K
  | 0 => (q, v)
  | i + 1 => advance integrate dt (states integrate dt q v dv i).1 (states integrate dt q v dv i).2 (dv i)

/-- The time of step `i`: `t = 0.0`, and `t += dt` in every step (63, 184). -/
def timeAt (dt : K) : Nat → K
  | 0 => 0
  | i + 1 => timeAt dt i + dt

/-- The steps `0, …, n - 1` of the loop (149-193): `q i`, `v i` are configuration and velocity of step `i`. -/
def loop (ref : K → Sample K) (dt : K) (q v : Nat → Vec K) (n : Nat) : List (Step K) :=
  (List.range n).map fun i => ⟨ref (timeAt dt i), timeAt dt i, q i, v i⟩

end Tsid.Gripper
