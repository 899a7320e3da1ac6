import Verif.Spec.Constraint
import Verif.Spec.Registry

/-!
# Specification of contacts

Friction cones, generalized forces of point forces, and the parameters a user has given to a contact object.
-/

namespace Tsid.Spec

open Finset Formulation

variable {K : Type} [Field K]

/-- Force at contact point `i` in the force vector of a contact. -/
def cornerForce (f : Nat → K) (i : Nat) : V3 K := ⟨f (3 * i), f (3 * i + 1), f (3 * i + 2)⟩

/-- Unit vectors that are pairwise orthogonal. -/
def Orthonormal (a b c : V3 K) : Prop :=
  a.dot a = 1 ∧ b.dot b = 1 ∧ c.dot c = 1 ∧ a.dot b = 0 ∧ a.dot c = 0 ∧ b.dot c = 0

/-- Force pyramid: the components along the tangents are at most `mu` times the normal component. -/
def Pyramid [LinearOrder K] (n t1 t2 : V3 K) (mu : K) (f : V3 K) : Prop :=
  |t1.dot f| ≤ mu * n.dot f ∧ |t2.dot f| ≤ mu * n.dot f

/-- The limit that stands for "no lower bound". -/
def BelowLimit [LinearOrder K] (n t1 t2 : V3 K) (mu : K) (f : V3 K) : Prop :=
  mu * n.dot f + |t1.dot f| ≤ 10 ^ 10 ∧ mu * n.dot f + |t2.dot f| ≤ 10 ^ 10

/-- Component of a force orthogonal to the normal. -/
def tangential (n f : V3 K) : V3 K := f - V3.smul (n.dot f) n

/-- Coulomb friction cone: the normal component pushes, and the tangential component is at most `mu` times as long. -/
def Coulomb [LE K] (n : V3 K) (mu : K) (f : V3 K) : Prop :=
  0 ≤ n.dot f ∧ (tangential n f).dot (tangential n f) ≤ (mu * n.dot f) * (mu * n.dot f)

/-- Column `q` of a spatial Jacobian as a velocity: linear and angular part. -/
def jacLin (J : Mat K) (q : Nat) : V3 K := ⟨J 0 q, J 1 q, J 2 q⟩
def jacAng (J : Mat K) (q : Nat) : V3 K := ⟨J 3 q, J 4 q, J 5 q⟩

/-- Velocity of the point `p` of a body with linear velocity `v` (at the origin) and angular velocity `w`. -/
def pointVelocity (v w p : V3 K) : V3 K := v + w.cross p

/-- The parameters a user has given to a contact; `regPoints` are the contact points at the time the force
regularisation was last refreshed. -/
structure Params (K : Type) where
  points : Nat → V3 K
  normal : V3 K
  mu : K
  fMin : K
  fMax : K
  fRef : Vec K
  regW : Vec K
  regPoints : Nat → V3 K

/-- Effect of an accepted setter call on the parameters. -/
def Params.set (kind : ContactKind) (p : Params K) : ContactSet K → Params K
  | .points P => { p with points := fun i => ⟨P 0 i, P 1 i, P 2 i⟩ }
  | .normal n => if kind = .twoFrames then p else { p with normal := ⟨n 0, n 1, n 2⟩ }
  | .friction mu => if kind = .twoFrames then p else { p with mu := mu }
  | .fMin m => { p with fMin := m }
  | .fMax m => { p with fMax := m }
  | .forceRef f => { p with fRef := f, regPoints := p.points }
  | .regWeights w => { p with regW := w, regPoints := p.points }

variable [LinearOrder K] [HasSqrt K]

/-- The contact object after a history of setter calls, exceptions being caught by the caller. -/
def applySets (c : Contact K) : List (ContactSet K) → Option (Contact K)
  | [] => some c
  | u :: us => match (applySet c u).state? with
    | some c' => applySets c' us
    | none => none

/-- The parameters after a history of setter calls. -/
def paramsAfter (c : Contact K) (p : Params K) : List (ContactSet K) → Params K
  | [] => p
  | u :: us => match (applySet c u).state? with
    | some c' => paramsAfter c' (if (applySet c u).threw then p else p.set c.kind u) us
    | none => p

/-- The parameters of a new contact. -/
def newParams (kind : ContactKind) (points : Nat → V3 K) (normal : V3 K) (mu fMin fMax : K) : Params K :=
  ⟨if kind = .sixD then points else fun _ => ⟨0, 0, 0⟩, normal, mu, fMin, fMax,
    Vec.zero (if kind = .sixD then 6 else 3),
    Vec.ofList (match kind with
      | .sixD => [1, 1, 1 / 1000, 2, 2, 2]
      | .point => [1, 1, 1 / 1000]
      | .twoFrames => [1, 1, 1]),
    if kind = .sixD then points else fun _ => ⟨0, 0, 0⟩⟩

/-- The arguments a setter accepts. -/
def Accepts (c : Contact K) : ContactSet K → Prop
  | .points P => P.rows = 3 ∧ P.cols = 4
  | .normal n => c.kind = .twoFrames ∨ n.size = 3
  | .friction mu => c.kind = .twoFrames ∨ 0 < mu
  | .fMin m => c.kind = .twoFrames ∨ (0 < m ∧ m ≤ c.fMax)
  | .fMax m => c.kind = .twoFrames ∨ c.fMin ≤ m
  | .forceRef f => c.kind ≠ .point ∨ f.size = 3
  | .regWeights _ => True

/-- Wrench (force and moment about the origin) of point forces. -/
def wrench (np : Nat) (points : Nat → V3 K) (f : Nat → K) (i : Nat) : K :=
  if i < 3 then ∑ j ∈ range np, (cornerForce f j).get i
  else ∑ j ∈ range np, ((points j).cross (cornerForce f j)).get (i - 3)

end Tsid.Spec

namespace Tsid.Spec

/-- Number of points at which a contact transmits a force. -/
def nPoints (kind : ContactKind) : Nat := if kind = .sixD then 4 else 1

end Tsid.Spec
