import Verif.Model.Biped

/-!
# The exercise on joint space control

`/repo/exercizes/ex_0_ur5_joint_space_control.py`: an arm whose only task is to follow a reference of its joints.  As in
`Model/Biped`, the program is the list of the library calls it makes, and `kin` is what pinocchio computes for a configuration and a
velocity.

Left out: the viewer, prints, plots, and the solver object (it is a parameter where solutions matter).
-/

namespace Tsid.JointControl

variable {K : Type}

/-- The entries of `conf` that the exercise reads: `ur5_conf.py` 15, 25, 30. -/
structure Conf (K : Type) where
  kp : K
  w : K
  dt : K

variable [Field K] [LinearOrder K] [FloorRing K] [HasSqrt K]

/-- The calls before the loop: `ex_0_ur5_joint_space_control.py` 32-40; the posture task has number 0; `n` is `robot.nv`. -/
def build (cf : Conf K) (kin : Vec K → Vec K → Snapshot K) (n : Nat) (q v : Vec K) : List (Program.Op K) :=
  [.compute (kin q v) 0,
   .task 0 (.posture (.setKp (Biped.gain n cf.kp))), .task 0 (.posture (.setKd (Biped.damping n cf.kp))),
   .form (.addMotionTask 0 cf.w 1 0),
   .task 0 (.posture (.setReference (EuclidianConstant.newWith q)))]

/-- What a step of the loop depends on: the sample of the joints, the time, and the state of the robot. -/
structure Step (K : Type) where
  ref : Sample K
  t : K
  q : Vec K
  v : Vec K

/-- The calls of a step: `ex_0_ur5_joint_space_control.py` 100, 102. -/
def step (kin : Vec K → Vec K → Snapshot K) (s : Step K) : List (Program.Op K) :=
  [.task 0 (.posture (.setReference s.ref)), .compute (kin s.q s.v) s.t]

/-- The exercise after some steps of its loop. -/
def text (cf : Conf K) (kin : Vec K → Vec K → Snapshot K) (n : Nat) (q v : Vec K) (l : List (Step K)) : List (Program.Op K) :=
  build cf kin n q v ++ l.flatMap (step kin)

/-- The sample of the joints: `ex_0_ur5_joint_space_control.py` 80-84, 94-99. -/
def wave (sn cs : K → K) (q amp phi twoPiF : Vec K) (t : K) : Sample K :=
  ⟨⟨q.size, fun i => q i + amp i * sn (twoPiF i * t + phi i)⟩,
   ⟨q.size, fun i => twoPiF i * amp i * cs (twoPiF i * t + phi i)⟩,
   ⟨q.size, fun i => -(twoPiF i * (twoPiF i * amp i)) * sn (twoPiF i * t + phi i)⟩⟩

/-- The integration of the state: `ex_0_ur5_joint_space_control.py` 121-123; `integrate` is pinocchio's. -/
def advance (integrate : Vec K → Vec K → Vec K) (dt : K) (q v dv : Vec K) : Vec K × Vec K :=
  (integrate q ⟨v.size, fun i => dt * (v i + 1 / 2 * dt * dv i)⟩, ⟨v.size, fun i => v i + dt * dv i⟩)

/-- The states of the robot in the loop that starts in `q`, `v` (`ex_0_ur5_joint_space_control.py` 88-124), if the solver finds
the accelerations `dv i` in step `i`. -/
def states (integrate : Vec K → Vec K → Vec K) (dt : K) (q v : Vec K) (dv : Nat → Vec K) : Nat → Vec K × Vec K
  | 0 => (q, v)
  | i + 1 => advance integrate dt (states integrate dt q v dv i).1 (states integrate dt q v dv i).2 (dv i)

/-- The time of step `i`: `t = 0.0`, and `t += conf.dt` in every step (`ex_0_ur5_joint_space_control.py` 86, 124). -/
def timeAt (dt : K) : Nat → K
  | 0 => 0
  | i + 1 => timeAt dt i + dt

/-- The steps `0, …, n - 1` of the loop (`ex_0_ur5_joint_space_control.py` 90-124). -/
def loop (ref : K → Sample K) (dt : K) (q v : Nat → Vec K) (n : Nat) : List (Step K) :=
  (List.range n).map fun i => ⟨ref (timeAt dt i), timeAt dt i, q i, v i⟩

end Tsid.JointControl
