import Verif.Model.Biped

/-!
# The class `TsidManipulator`

`/repo/exercizes/tsid_manipulator.py`: a controller for a robot arm with a fixed base, and the loop of the exercise
`ex_1_ur5.py` that uses it.  As in `Model/Biped`, the methods are the lists of the library calls they make, and `kin` is what
pinocchio computes for a configuration and a velocity.

Left out: the viewer, files, logs and plots, and the solver object (it is a parameter where solutions matter).
-/

namespace Tsid.Manipulator

variable {K : Type}

/-- The entries of the module `conf` that the class reads (`ur5_reaching_conf.py` 15-37); `tauMax`, `vMax` are the limits of
the model after scaling (`tsid_manipulator.py` 57, 67), `frame` is `self.EE` (52). -/
structure Conf (K : Type) where
  kpPosture : K
  wPosture : K
  kpEe : K
  eeMask : Vec K
  eeLocal : Bool
  wEe : K
  frame : Nat
  tauMax : Vec K
  vMax : Vec K
  wTorque : K
  wJoint : K
  dt : K

variable [Field K] [LinearOrder K] [FloorRing K] [HasSqrt K]

/-- The calls of the constructor: `tsid_manipulator.py` 38-74.  `n` is `robot.nv`, `q` the reference configuration, `v` is
zero.  The tasks are numbered in the order of their construction: posture 0, end effector 1, torque bounds 2, joint bounds
3.  `g` is the memory that `setMask` of the task of the end effector reads before it is written. -/
def build (cf : Conf K) (kin : Vec K → Vec K → Snapshot K) (g : Nat → K) (n : Nat) (q v : Vec K) : List (Program.Op K) :=
  [.compute (kin q v) 0,
   .task 0 (.posture (.setKp (Biped.gain n cf.kpPosture))), .task 0 (.posture (.setKd (Biped.damping n cf.kpPosture))),
   .form (.addMotionTask 0 cf.wPosture 1 0),
   .task 1 (.se3 (.setKp (Biped.gain 6 cf.kpEe))), .task 1 (.se3 (.setKd (Biped.damping 6 cf.kpEe))),
   .task 1 (.se3 (.setMask g cf.eeMask)), .task 1 (.se3 (.useLocalFrame cf.eeLocal)),
   .form (.addMotionTask 1 cf.wEe 1 0),
   .task 2 (.actBounds (.setBounds ⟨cf.tauMax.size, fun i => -cf.tauMax i⟩ cf.tauMax))] ++
  (if 0 < cf.wTorque then [.form (.addActuationTask 2 cf.wTorque 0 0)] else []) ++
  [.task 3 (.jointBounds (.setVelocityBounds ⟨cf.vMax.size, fun i => -cf.vMax i⟩ cf.vMax))] ++
  (if 0 < cf.wJoint then [.form (.addMotionTask 3 cf.wJoint 0 0)] else []) ++
  [.task 0 (.posture (.setReference (EuclidianConstant.newWith q)))]

/-- What a program does with the object: `eeTask.setReference` (`ex_1_ur5.py` 66) and a control cycle (68). -/
inductive Call (K : Type) where
  | setEe (r : Sample K)
  | cycle (t : K) (q v : Vec K)

/-- The library call. -/
def use (kin : Vec K → Vec K → Snapshot K) : Call K → Program.Op K
  | .setEe r => .task 1 (.se3 (.setReference r))
  | .cycle t q v => .compute (kin q v) t

/-- A program that constructs the object and uses it. -/
def text (cf : Conf K) (kin : Vec K → Vec K → Snapshot K) (g : Nat → K) (n : Nat) (q v : Vec K) (cs : List (Call K)) :
    List (Program.Op K) :=
  build cf kin g n q v ++ cs.map (use kin)

/-- `integrate_dv`: `tsid_manipulator.py` 111-115; `integrate` is pinocchio's.  (The array `v` is changed in place; the value
that is returned is what the loop stores for the next step.) -/
def integrateDv (integrate : Vec K → Vec K → Vec K) (q v dv : Vec K) (dt : K) : Vec K × Vec K :=
  (integrate q ⟨v.size, fun i => dt * (v i + 1 / 2 * dt * dv i)⟩, ⟨v.size, fun i => v i + dt * dv i⟩)

/-- The entries of `conf` that describe the reference: `ur5_reaching_conf.py` 19-21. -/
structure Wave (K : Type) where
  amp : V3 K
  phi : V3 K
  twoPiF : V3 K

/-- The sample of a step of the loop: `ex_1_ur5.py` 41-49, 60-65; `start` is the position of the end effector at the beginning
plus `conf.offset`.  The orientation is the identity. -/
def wave (sn cs : K → K) (start : V3 K) (r : Wave K) (t : K) : Sample K :=
  ⟨⟨12, fun i =>
      if i < 3 then start.get i + r.amp.get i * sn (r.twoPiF.get i * t + r.phi.get i)
      else if i = 3 ∨ i = 7 ∨ i = 11 then 1 else 0⟩,
   ⟨6, fun i => if i < 3 then r.twoPiF.get i * r.amp.get i * cs (r.twoPiF.get i * t + r.phi.get i) else 0⟩,
   ⟨6, fun i => if i < 3 then
      -(r.twoPiF.get i * (r.twoPiF.get i * r.amp.get i)) * sn (r.twoPiF.get i * t + r.phi.get i) else 0⟩⟩

/-- The time of step `i`: `t = 0.0`, and `t += conf.dt` in every step (`ex_1_ur5.py` 54, 100). -/
def timeAt (dt : K) : Nat → K
  | 0 => 0
  | i + 1 => timeAt dt i + dt

/-- The steps `0, …, n - 1` of the loop (`ex_1_ur5.py` 57-100): `q i`, `v i` are configuration and velocity of step `i`. -/
def loop (ref : K → Sample K) (dt : K) (q v : Nat → Vec K) (n : Nat) : List (Call K) :=
  (List.range n).flatMap fun i => [.setEe (ref (timeAt dt i)), .cycle (timeAt dt i) (q i) (v i)]

end Tsid.Manipulator
