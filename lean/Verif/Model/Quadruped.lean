import Verif.Model.Biped

/-!
# The quadruped demo

`/repo/demo/demo_quadruped.py`: a controller for a robot on four point feet that moves its centre of mass.  As in `Model/Biped`,
the program is the list of the library calls it makes, and `kin` is what pinocchio computes for a configuration and a
velocity.

Left out: the viewer, prints and plots, and the solver object (it is a parameter where solutions matter).
-/

namespace Tsid.Quadruped

variable {K : Type}

/-- The constants at the beginning of the demo (`demo_quadruped.py` 25-41); `frame i` is the number of frame
`contact_frames[i]`. -/
structure Conf (K : Type) where
  frame : Nat → Nat
  mu : K
  fMin : K
  fMax : K
  wCom : K
  wPosture : K
  wForceRef : K
  kpContact : K
  kpCom : K
  kpPosture : K
  dt : K

/-- `contact_frames`: `demo_quadruped.py` 28.  The contacts have the names of the frames (100). -/
def footName : Nat → String
  | 0 => "BL_contact"
  | 1 => "BR_contact"
  | 2 => "FL_contact"
  | _ => "FR_contact"

variable [Field K] [LinearOrder K] [FloorRing K] [HasSqrt K]

/-- `q[2] -= robot.framePosition(data, id_contact).translation[2]`: `demo_quadruped.py` 94-95. -/
def ground (cf : Conf K) (q : Vec K) (w : Snapshot K) : Vec K := q.put 2 (q 2 - (w.frame (cf.frame 0)).pose.trans.z)

/-- What the robot is like after `robot.computeAllTerms(data, q, v)`: `demo_quadruped.py` 96.  (This changes the data of
pinocchio only: no object of the library is computed.) -/
def grounded (cf : Conf K) (kin : Vec K → Vec K → Snapshot K) (q v : Vec K) : Snapshot K := kin (ground cf q (kin q v)) v

/-- One round of the loop over the feet: `demo_quadruped.py` 99-106.  `g` is the memory of the gains of the contact that only a
3d motion leaves unwritten. -/
def foot (cf : Conf K) (g : Nat → K) (w : Snapshot K) (i : Nat) : List (Program.Op K) :=
  [.motion i (.point (.setKp g (Biped.gain 3 cf.kpContact))), .motion i (.point (.setKd g (Biped.damping 3 cf.kpContact))),
   .motion i (.point (.setReference (w.frame (cf.frame i)).pose)), .motion i (.point (.useLocalFrame false)),
   .form (.addRigidContact i cf.wForceRef 1 1)]

/-- The two tasks: `demo_quadruped.py` 108-116; centre of mass 0, posture 1; `n` is `robot.nv`. -/
def tasks (cf : Conf K) (n : Nat) : List (Program.Op K) :=
  [.task 0 (.com (.setKp (Biped.gain 3 cf.kpCom))), .task 0 (.com (.setKd (Biped.damping 3 cf.kpCom))),
   .form (.addMotionTask 0 cf.wCom 1 0),
   .task 1 (.posture (.setKp (Biped.gain (n - 6) cf.kpPosture))), .task 1 (.posture (.setKd (Biped.damping (n - 6) cf.kpPosture))),
   .form (.addMotionTask 1 cf.wPosture 1 0)]

/-- The calls before the loop: `demo_quadruped.py` 88-116. -/
def build (cf : Conf K) (kin : Vec K → Vec K → Snapshot K) (g : Nat → K) (n : Nat) (q v : Vec K) : List (Program.Op K) :=
  [.compute (kin q v) 0] ++ (List.range 4).flatMap (foot cf g (grounded cf kin q v)) ++ tasks cf n

/-- `q_ref = q[7:]`: `demo_quadruped.py` 122, after the robot was put on the ground. -/
def joints (cf : Conf K) (kin : Vec K → Vec K → Snapshot K) (q v : Vec K) : Vec K :=
  let q' := ground cf q (kin q v)
  ⟨q'.size - 7, fun i => q' (i + 7)⟩

/-- What a step of the loop depends on: the sample of the centre of mass, the time, and the state of the robot. -/
structure Step (K : Type) where
  ref : Sample K
  t : K
  q : Vec K
  v : Vec K

/-- The references of a step: `demo_quadruped.py` 161-163. -/
def references (j : Vec K) (r : Sample K) : List (Program.Op K) :=
  [.task 0 (.com (.setReference r)), .task 1 (.posture (.setReference (EuclidianConstant.newWith j)))]

/-- The calls of a step: `demo_quadruped.py` 161-165. -/
def step (kin : Vec K → Vec K → Snapshot K) (j : Vec K) (s : Step K) : List (Program.Op K) :=
  references j s.ref ++ [.compute (kin s.q s.v) s.t]

/-- The demo after some steps of its loop. -/
def text (cf : Conf K) (kin : Vec K → Vec K → Snapshot K) (g : Nat → K) (n : Nat) (q v : Vec K) (l : List (Step K)) :
    List (Program.Op K) :=
  build cf kin g n q v ++ l.flatMap (step kin (joints cf kin q v))

/-- The reference of the centre of mass: `demo_quadruped.py` 148-159; `offset` is the centre of mass after grounding. -/
def wave (sn cs : K → K) (offset amp twoPiF : V3 K) (t : K) : Sample K :=
  ⟨⟨3, fun i => offset.get i + amp.get i * sn (twoPiF.get i * t)⟩,
   ⟨3, fun i => twoPiF.get i * amp.get i * cs (twoPiF.get i * t)⟩,
   ⟨3, fun i => twoPiF.get i * (twoPiF.get i * amp.get i) * -sn (twoPiF.get i * t)⟩⟩

/-- The integration of the state: `demo_quadruped.py` 200-202; `integrate` is pinocchio's. -/
def advance (integrate : Vec K → Vec K → Vec K) (dt : K) (q v dv : Vec K) : Vec K × Vec K :=
  (integrate q ⟨v.size, fun i => dt * (v i + 1 / 2 * dt * dv i)⟩, ⟨v.size, fun i => v i + dt * dv i⟩)

/-- The states of the robot in the loop that starts in `q`, `v` (`demo_quadruped.py` 154-203), if the solver finds the accelerations
`dv i` in step `i`. -/
def states (integrate : Vec K → Vec K → Vec K) (dt : K) (q v : Vec K) (dv : Nat → Vec K) : Nat → Vec K × Vec K
  | 0 => (q, v)
  | i + 1 => advance integrate dt (states integrate dt q v dv i).1 (states integrate dt q v dv i).2 (dv i)

/-- The time of step `i`: `t = 0.0`, and `t += dt` in every step (`demo_quadruped.py` 88, 203). -/
def timeAt (dt : K) : Nat → K
  | 0 => 0
  | i + 1 => timeAt dt i + dt

/-- The steps `0, …, n - 1` of the loop (`demo_quadruped.py` 154-203): `q i`, `v i` are configuration and velocity of step
`i`. -/
def loop (ref : K → Sample K) (dt : K) (q v : Nat → Vec K) (n : Nat) : List (Step K) :=
  (List.range n).map fun i => ⟨ref (timeAt dt i), timeAt dt i, q i, v i⟩

end Tsid.Quadruped
