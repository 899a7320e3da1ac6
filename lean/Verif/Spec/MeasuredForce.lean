import Verif.Model.MeasuredForce

/-!
# Measured forces: virtual work
-/

namespace Tsid.Spec

open Finset

variable {K : Type} [Field K]

/-- Velocity of the frame in local axes when the joints move with velocity `v`: only the joints between the frame and
the root contribute. -/
def frameTwist (nv : Nat) (supp : Nat → Bool) (k : FrameJac K) (v : Nat → K) : Motion K :=
  let part (f : Motion K → K) : K := ∑ c ∈ (range nv).filter (fun c => supp c = true), f (k.col c) * v c
  ⟨⟨part fun m => m.lin.x, part fun m => m.lin.y, part fun m => m.lin.z⟩,
   ⟨part fun m => m.ang.x, part fun m => m.ang.y, part fun m => m.ang.z⟩⟩

/-- The axes in which a force is given: those of the frame or those of the world. -/
def inAxes (loc : Bool) (R : M3 K) (a : V3 K) : V3 K := if loc then a else R.mulVec a

/-- Power of a force and a moment at a frame that moves with the given velocity, both in the same axes. -/
def powerOf (f m vel ω : V3 K) : K := f.dot vel + m.dot ω

/-- Measured wrench after a history: the last one set, zero at first. -/
def lastWrench : List (Measured6D.Op K) → Motion K → Motion K
  | [], f => f
  | .setForce f :: os, _ => lastWrench os f
  | _ :: os, f => lastWrench os f

/-- Choice of axes after a history: the last one, the axes of the frame at first. -/
def lastAxes6 : List (Measured6D.Op K) → Bool → Bool
  | [], b => b
  | .useLocalFrame b :: os, _ => lastAxes6 os b
  | _ :: os, b => lastAxes6 os b

/-- Measured force after a history. -/
def lastForce : List (Measured3D.Op K) → V3 K → V3 K
  | [], f => f
  | .setForce f :: os, _ => lastForce os f
  | _ :: os, f => lastForce os f

/-- Choice of axes after a history. -/
def lastAxes3 : List (Measured3D.Op K) → Bool → Bool
  | [], b => b
  | .useLocalFrame b :: os, _ => lastAxes3 os b
  | _ :: os, b => lastAxes3 os b

end Tsid.Spec
