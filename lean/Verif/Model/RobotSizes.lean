import Verif.Model.Robot

/-!
# Sizes of a robot

The four constructors of `RobotWrapper` (`/repo/src/robots/robot-wrapper.cpp` 21-81).
-/

namespace Tsid

/-- Number of configuration and velocity coordinates of a joint of pinocchio. -/
structure JointSize where
  nq : Nat
  nv : Nat
deriving DecidableEq, Repr

/-- A `pinocchio::Model`, as far as sizes go: the joint that links the base to the world, if there is one, and the other
joints, which have motors. -/
structure Mechanism where
  base : Option JointSize
  joints : List JointSize

/-- `model.nq`: all joints. -/
def Mechanism.nq (m : Mechanism) : Nat := (m.base.map JointSize.nq).getD 0 + (m.joints.map JointSize.nq).sum

/-- `model.nv`: all joints. -/
def Mechanism.nv (m : Mechanism) : Nat := (m.base.map JointSize.nv).getD 0 + (m.joints.map JointSize.nv).sum

/-- The constructors of `RobotWrapper` (`/repo/include/tsid/robots/robot-wrapper.hpp` 61-76). -/
inductive RobotCtor where
  | urdf
  | urdfRoot
  | model
  | modelRoot (root : RootJoint)
deriving DecidableEq

/-- `m_na`, `m_nq_actuated` and `m_is_fixed_base` (`robot-wrapper.hpp` 172-176). -/
structure RobotSizes where
  na : Int
  nqa : Int
  isFixedBase : Bool
deriving DecidableEq

/-- The four constructors: `robot-wrapper.cpp` 21-30, 32-43, 45-53, 55-74. -/
def RobotSizes.new (c : RobotCtor) (m : Mechanism) : RobotSizes :=
  match c with
  | .urdf => ⟨m.nv, m.nq, true⟩
  | .urdfRoot => ⟨m.nv - 6, m.nq - 7, false⟩
  | .model => ⟨m.nv - 6, m.nq - 7, false⟩
  | .modelRoot .fixedBase => ⟨m.nv, m.nq, true⟩
  | .modelRoot .floatingBase => ⟨m.nv - 6, m.nq - 7, false⟩

/-- `init()`: `robot-wrapper.cpp` 76-81: `setZero(m_na)`; `none`: the size is negative. -/
def RobotSizes.init {K : Type} [Zero K] (s : RobotSizes) (m : Mechanism) : Option (Robot K) :=
  if 0 ≤ s.na then some ⟨m.nv, s.na.toNat, Vec.zero s.na.toNat, Vec.zero s.na.toNat, Vec.zero s.na.toNat⟩ else none

end Tsid
