import Verif.Model.Trajectory
import Verif.Model.CartesianTasks

/-!
# Poses, trajectories: what the code should do
-/

namespace Tsid.Spec

variable {K : Type} [Field K]

/-- Determinant of the matrix with columns `a`, `b`, `c`. -/
def det3 (a b c : V3 K) : K :=
  a.x * (b.y * c.z - b.z * c.y) - b.x * (a.y * c.z - a.z * c.y) + c.x * (a.y * b.z - a.z * b.y)

/-- A rotation: orthogonal with determinant one. -/
def IsRotation (R : M3 K) : Prop := R.Orthogonal ∧ det3 R.c0 R.c1 R.c2 = 1

/-- What is assumed of pinocchio's logarithm: among rotations, only the identity has a zero rotation vector. -/
def LogFaithful (log3 : M3 K → V3 K) : Prop := ∀ R, IsRotation R → (log3 R = ⟨0, 0, 0⟩ ↔ R = M3.one)

/-- A sample that stays at `x`: zero velocity and acceleration, of size `d`. -/
structure AtRest (d : Nat) (x : Vec K) (m : Sample K) : Prop where
  posSize : m.pos.size = x.size
  pos : ∀ i, i < x.size → m.pos i = x i
  velSize : m.vel.size = d
  vel : ∀ i, i < d → m.vel i = 0
  accSize : m.acc.size = d
  acc : ∀ i, i < d → m.acc i = 0

/-- The last reference of a history of calls on a vector trajectory. -/
def lastVec (x : Vec K) : List (EuclidianConstant.Op K) → Vec K
  | [] => x
  | .setReference r :: os => lastVec r os
  | .query _ :: os => lastVec x os

/-- The last reference of a history of calls on a pose trajectory. -/
def lastPose (M : SE3 K) : List (SE3Constant.Op K) → SE3 K
  | [] => M
  | .setReference N :: os => lastPose N os
  | .query _ :: os => lastPose M os

end Tsid.Spec
