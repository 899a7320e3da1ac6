import Verif.Model.Basic
import Verif.Model.Geometry

/-!
# Joint torques of measured forces

`Measured6Dwrench`, `Measured3Dforce` (`/repo/src/contacts/measured-6d-wrench.cpp`, `measured-3d-force.cpp`).

A spatial force is stored in a `Motion` (linear part: force, angular part: moment), as in the coefficient order of
`Vector6`.  A `6 × nv` Jacobian is the list of its columns.
-/

namespace Tsid

/-- What `computeJointTorques` reads from the robot: the placement of the frame and the columns of its Jacobian in local
axes. -/
structure FrameJac (K : Type) where
  pose : SE3 K
  col : Nat → Motion K

namespace FrameJac
variable {K : Type} [Field K]

/-- `RobotWrapper::frameJacobianLocal` (`/repo/src/robots/robot-wrapper.cpp` 325-331): pinocchio's `getFrameJacobian`
writes the columns of the joints between the frame and the root (`supp`) and leaves the others as they are. -/
def writeLocal (k : FrameJac K) (supp : Nat → Bool) (J : Nat → Motion K) : Nat → Motion K :=
  fun c => if supp c then k.col c else J c

/-- `oMi_rotation_only`: `measured-6d-wrench.cpp` 36-39. -/
def rotOnly (k : FrameJac K) : SE3 K := ⟨k.pose.rot, 0⟩

end FrameJac

/-- Members of `Measured6Dwrench` (`/repo/include/tsid/contacts/measured-6d-wrench.hpp` 46-53) except the temporary
`m_J_rotated`; of the frame only the supporting columns `supp` matter. -/
structure Measured6D (K : Type) where
  nv : Nat
  supp : Nat → Bool
  fext : Motion K
  J : Nat → Motion K
  tau : Vec K
  loc : Bool

namespace Measured6D
variable {K : Type} [Field K]

/-- Constructor: `measured-6d-wrench.cpp` 17-29. -/
def new (nv : Nat) (supp : Nat → Bool) : Measured6D K := ⟨nv, supp, 0, fun _ => 0, Vec.zero nv, true⟩

/-- Coefficient of `m_J.transpose() * m_fext`. -/
def pair (m f : Motion K) : K := m.lin.dot f.lin + m.ang.dot f.ang

/-- `computeJointTorques`: `measured-6d-wrench.cpp` 31-49. -/
def compute (s : Measured6D K) (k : FrameJac K) : Measured6D K × Vec K :=
  let J0 := k.writeLocal s.supp s.J
  let J := if s.loc = false then fun c => k.rotOnly.act (J0 c) else J0
  let tau : Vec K := ⟨s.nv, fun c => pair (J c) s.fext⟩
  ({ s with J := J, tau := tau }, tau)

/-- The calls a user can make. -/
inductive Op (K : Type) where
  | setForce (f : Motion K)
  | useLocalFrame (b : Bool)
  | compute (k : FrameJac K)

/-- One call: `measured-6d-wrench.cpp` 51-61. -/
def step (s : Measured6D K) : Op K → Measured6D K
  | .setForce f => { s with fext := f }
  | .useLocalFrame b => { s with loc := b }
  | .compute k => (s.compute k).1

/-- A history of calls on a new object. -/
def run (nv : Nat) (supp : Nat → Bool) (ops : List (Op K)) : Measured6D K := ops.foldl step (new nv supp)

end Measured6D

/-- Members of `Measured3Dforce` (`/repo/include/tsid/contacts/measured-3d-force.hpp` 46-53) except the temporary
`m_J_rotated`; of the frame only the supporting columns `supp` matter. -/
structure Measured3D (K : Type) where
  nv : Nat
  supp : Nat → Bool
  fext : V3 K
  J : Nat → V3 K
  tau : Vec K
  loc : Bool

namespace Measured3D
variable {K : Type} [Field K]

/-- Constructor: `measured-3d-force.cpp` 19-31. -/
def new (nv : Nat) (supp : Nat → Bool) : Measured3D K := ⟨nv, supp, 0, fun _ => 0, Vec.zero nv, true⟩

/-- `computeJointTorques`: `measured-3d-force.cpp` 33-55.  The Jacobian is a zeroed local variable. -/
def compute (s : Measured3D K) (k : FrameJac K) : Measured3D K × Vec K :=
  let J6 := k.writeLocal s.supp fun _ => 0
  let J := if s.loc = false then fun c => (k.rotOnly.act (J6 c)).lin else fun c => (J6 c).lin
  let tau : Vec K := ⟨s.nv, fun c => (J c).dot s.fext⟩
  ({ s with J := J, tau := tau }, tau)

/-- The calls a user can make. -/
inductive Op (K : Type) where
  | setForce (f : V3 K)
  | useLocalFrame (b : Bool)
  | compute (k : FrameJac K)

/-- One call: `measured-3d-force.cpp` 57-67. -/
def step (s : Measured3D K) : Op K → Measured3D K
  | .setForce f => { s with fext := f }
  | .useLocalFrame b => { s with loc := b }
  | .compute k => (s.compute k).1

/-- A history of calls on a new object. -/
def run (nv : Nat) (supp : Nat → Bool) (ops : List (Op K)) : Measured3D K := ops.foldl step (new nv supp)

end Measured3D

end Tsid
