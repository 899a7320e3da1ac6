import Verif.Model.RobotProgram
import Verif.Spec.Poses

/-!
# Robot wrapper: what the code should do
-/

namespace Tsid.Spec

variable {K : Type}

/-- The rotor inertias and gear ratios of a robot. -/
structure Motors (K : Type) where
  rotor : Vec K
  gear : Vec K

/-- A new robot with `na` motors has zero inertias and ratios. -/
def Motors.fresh [Zero K] (na : Nat) : Motors K := ⟨Vec.zero na, Vec.zero na⟩

/-- The parameters after one call: vectors of a wrong size are ignored. -/
def Motors.after (na : Nat) (p : Motors K) : Robot.Op K → Motors K
  | .setRotor v => if v.size = na then { p with rotor := v } else p
  | .setGear v => if v.size = na then { p with gear := v } else p
  | .mass _ => p

/-- The parameters after a history of calls. -/
def Motors.afterAll (na : Nat) (p : Motors K) : List (Robot.Op K) → Motors K
  | [] => p
  | o :: os => afterAll na (p.after na o) os

/-- Entry `(i, j)` of the inertia of a robot with `nv` velocities whose last `na` are driven by motors: the inertia of
the bodies plus the reflected inertia of the rotors on the diagonal. -/
def inertia [Field K] (nv na : Nat) (p : Motors K) (M : Nat → Nat → K) (i j : Nat) : K :=
  if i = j ∧ nv - na ≤ i then M i j + p.gear (i - (nv - na)) ^ 2 * p.rotor (i - (nv - na)) else M i j

/-- Number of motors. -/
def motorCount (nv : Nat) : RootJoint → Nat
  | .fixedBase => nv
  | .floatingBase => nv - 6

end Tsid.Spec
