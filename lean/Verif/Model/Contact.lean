import Verif.Model.Constraint
import Verif.Model.Geometry

/-!
# Rigid contacts

Model of `Contact6d`, `ContactPoint`, `ContactTwoFramePositions`
(`/repo/src/contacts/contact-6d.cpp`, `contact-point.cpp`, `contact-two-frame-positions.cpp`).
The motion task inside a contact is modelled with the SE3 tasks; here only its number of rows appears.
-/

namespace Tsid

open Finset

/-- The three contact classes. -/
inductive ContactKind where
  | point
  | sixD
  | twoFrames
deriving DecidableEq, Repr

/-- A contact object: members of `Contact6d` (`contact-6d.hpp` 108-125), `ContactPoint`
(`contact-point.hpp`), `ContactTwoFramePositions`.  `points i` is column `i` of `m_contactPoints`. -/
structure Contact (K : Type) where
  name : String
  kind : ContactKind
  points : Nat → V3 K
  normal : V3 K
  mu : K
  fMin : K
  fMax : K
  regW : Vec K
  fRef : Vec K
  forceGen : Mat K
  forceIneq : Constraint K
  forceReg : Constraint K

namespace Contact
variable {K : Type}

/-- `n_force()`: `contact-6d.cpp` 131, `contact-point.cpp` 101, `contact-two-frame-positions.cpp` 88. -/
def kindForce : ContactKind → Nat
  | .sixD => 12
  | .point => 3
  | .twoFrames => 3

/-- Number of rows of the motion constraint: 6 for `Contact6d` (`contact-6d.cpp` 130), 3 for the two other
classes, whose constructor masks the rotation (`contact-point.cpp` 39-41,
`contact-two-frame-positions.cpp` 43-45). -/
def kindMotion : ContactKind → Nat
  | .sixD => 6
  | .point => 3
  | .twoFrames => 3

/-- `n_force()` of a contact object. -/
def nForce (c : Contact K) : Nat := kindForce c.kind

/-- Rows of `getMotionConstraint()`. -/
def nMotion (c : Contact K) : Nat := kindMotion c.kind

section
variable [Field K] [LinearOrder K] [HasSqrt K]

/-- First tangent before normalisation: `contact-6d.cpp` 71-72, `contact-point.cpp` 55-56. -/
def rawT1 (n : V3 K) : V3 K :=
  let t1 := n.cross V3.unitX
  if t1.norm < 1 / 100000 then n.cross V3.unitY else t1

/-- First tangent: `contact-6d.cpp` 74. -/
def tangent1 (n : V3 K) : V3 K := (rawT1 n).normalized

/-- Second tangent, `n × t1` before `t1` is normalised, then normalised: `contact-6d.cpp` 73, 75. -/
def tangent2 (n : V3 K) : V3 K := (n.cross (rawT1 n)).normalized

/-- The four friction rows of one contact point: `contact-6d.cpp` 77-80, `contact-point.cpp` 61-64. -/
def frictionRow (n : V3 K) (mu : K) (r : Nat) : V3 K :=
  match r with
  | 0 => -(tangent1 n) - V3.smul mu n
  | 1 => tangent1 n - V3.smul mu n
  | 2 => -(tangent2 n) - V3.smul mu n
  | _ => tangent2 n - V3.smul mu n

/-- Matrix `B` of the force inequality of a contact with `np` contact points:
`contact-6d.cpp` 66-89 (`np = 4`), `contact-point.cpp` 50-66 (`np = 1`).  Rows `4 i .. 4 i + 3` hold the
friction rows of point `i` in columns `3 i .. 3 i + 2`; the last row holds the normal for every point. -/
def frictionMat (np : Nat) (n : V3 K) (mu : K) : Mat K :=
  ⟨4 * np + 1, 3 * np, fun r c =>
    if r = 4 * np then n.get (c % 3)
    else if c / 3 = r / 4 then (frictionRow n mu (r % 4)).get (c % 3) else 0⟩

/-- `lb`: `contact-6d.cpp` 69, 91; `contact-point.cpp` 53, 68. -/
def frictionLb (np : Nat) (fMin : K) : Vec K :=
  ⟨4 * np + 1, fun r => if r = 4 * np then fMin else -(10 ^ 10)⟩

/-- `ub`: `contact-6d.cpp` 70, 90; `contact-point.cpp` 54, 67. -/
def frictionUb (np : Nat) (fMax : K) : Vec K :=
  ⟨4 * np + 1, fun r => if r = 4 * np then fMax else 0⟩

/-- Number of contact points of the frictional contacts. -/
def kindPoints : ContactKind → Nat
  | .sixD => 4
  | _ => 1

/-- `updateForceInequalityConstraints()`: `contact-6d.cpp` 64-96, `contact-point.cpp` 48-73,
`contact-two-frame-positions.cpp` 48-57. -/
def updateForceInequality (c : Contact K) : Contact K :=
  match c.kind with
  | .twoFrames =>
    { c with forceIneq := { c.forceIneq with
        mat := Mat.identity 3, lb := ⟨3, fun _ => c.fMin⟩, ub := ⟨3, fun _ => c.fMax⟩ } }
  | k =>
    { c with forceIneq := { c.forceIneq with
        mat := frictionMat (kindPoints k) c.normal c.mu,
        lb := frictionLb (kindPoints k) c.fMin,
        ub := frictionUb (kindPoints k) c.fMax } }

/-- Force generator of a 6d contact: identities on top, `skew(p_i)` below: `contact-6d.cpp` 120-128. -/
def forceGen6d (points : Nat → V3 K) : Mat K :=
  ⟨6, 12, fun r c =>
    if r < 3 then (if r = c % 3 then 1 else 0)
    else (M3.skew (points (c / 3))).get (r - 3) (c % 3)⟩

/-- `updateForceGeneratorMatrix()`: `contact-6d.cpp` 120-128, `contact-point.cpp` 98,
`contact-two-frame-positions.cpp` 81-83. -/
def updateForceGenerator (c : Contact K) : Contact K :=
  match c.kind with
  | .sixD => { c with forceGen := forceGen6d c.points }
  | _ => { c with forceGen := Mat.identity 3 }

/-- `updateForceRegularizationTask()`: `contact-6d.cpp` 112-118 (matrix `A * m_forceGenMat`),
`contact-point.cpp` 91-96 and `contact-two-frame-positions.cpp` 73-79 (matrix `A`); `A` is the diagonal
matrix of the weights. -/
def updateForceReg (c : Contact K) : Contact K :=
  match c.kind with
  | .sixD =>
    { c with forceReg := { c.forceReg with
        mat := ⟨6, 12, fun i j => c.regW i * c.forceGen i j⟩,
        vec := ⟨6, fun i => c.regW i * c.fRef i⟩ } }
  | _ =>
    { c with forceReg := { c.forceReg with
        mat := ⟨3, 3, fun i j => if i = j then c.regW i else 0⟩,
        vec := ⟨3, fun i => c.regW i * c.fRef i⟩ } }

/-- Default regularisation weights: `contact-6d.cpp` 56, `contact-point.cpp` 30,
`contact-two-frame-positions.cpp` 29. -/
def defaultRegW : ContactKind → Vec K
  | .sixD => Vec.ofList [1, 1, 1 / 1000, 2, 2, 2]
  | .point => Vec.ofList [1, 1, 1 / 1000]
  | .twoFrames => Vec.ofList [1, 1, 1]

/-- Number of rows and columns of the force inequality given to its constructor: `contact-6d.cpp` 24,
`contact-point.cpp` 24, `contact-two-frame-positions.cpp` 25. -/
def kindIneqRows : ContactKind → Nat
  | .sixD => 17
  | .point => 5
  | .twoFrames => 3

/-- Rows of the regularisation task: `contact-6d.cpp` 25, `contact-point.cpp` 25,
`contact-two-frame-positions.cpp` 26. -/
def kindRegRows : ContactKind → Nat
  | .sixD => 6
  | .point => 3
  | .twoFrames => 3

/-- Constructors: `contact-6d.cpp` 17-62, `contact-point.cpp` 16-42, `contact-two-frame-positions.cpp` 16-46.
No argument is validated.  (`Contact6d` expects four contact points; a `ContactPoint` and a
`ContactTwoFramePositions` have the single point zero.) -/
def new (name : String) (kind : ContactKind) (points : Nat → V3 K) (normal : V3 K)
    (mu fMin fMax : K) : Contact K :=
  let pts := match kind with
    | .sixD => points
    | _ => fun _ => 0
  let c : Contact K :=
    { name := name, kind := kind, points := pts, normal := normal, mu := mu, fMin := fMin, fMax := fMax,
      regW := defaultRegW kind, fRef := Vec.zero (kindRegRows kind),
      forceGen := Mat.zero (kindRegRows kind) (kindForce kind),
      forceIneq := Constraint.mkIneq name (kindIneqRows kind) (kindForce kind),
      forceReg := Constraint.mkEq name (kindRegRows kind) (kindForce kind) }
  updateForceReg (updateForceInequality (updateForceGenerator c))

/-- `getNormalForce(f)`: `contact-6d.cpp` 98-105, `contact-point.cpp` 75-80 (`none` = exception on a wrong
size), `contact-two-frame-positions.cpp` 59-61 (always 0). -/
def getNormalForce (c : Contact K) (f : Vec K) : Option K :=
  match c.kind with
  | .twoFrames => some 0
  | k =>
    if f.size = c.nForce then
      some (∑ i ∈ range (kindPoints k), c.normal.dot ⟨f (3 * i), f (3 * i + 1), f (3 * i + 2)⟩)
    else none

/-- `setContactPoints(P)`: `contact-6d.cpp` 138-147; throws unless `P` is 3x4; updates the force generator
but *not* the regularisation task.  The two other classes have no such method. -/
def setContactPoints (c : Contact K) (P : Mat K) : Res (Contact K) Bool :=
  match c.kind with
  | .sixD =>
    if P.rows = 3 then
      if P.cols = 4 then
        .ok (updateForceGenerator { c with points := fun i => V3.ofFn fun r => P r i }) true
      else .throw c
    else .throw c
  | _ => .ub

/-- `setContactNormal(n)`: `contact-6d.cpp` 151-159, `contact-point.cpp` 129-137,
`contact-two-frame-positions.cpp` 114-116 (no effect). -/
def setContactNormal (c : Contact K) (n : Vec K) : Res (Contact K) Bool :=
  match c.kind with
  | .twoFrames => .ok c true
  | _ =>
    if n.size = 3 then .ok (updateForceInequality { c with normal := V3.ofFn n.get }) true
    else .throw c

/-- `setFrictionCoefficient(mu)`: `contact-6d.cpp` 161-169, `contact-point.cpp` 139-146,
`contact-two-frame-positions.cpp` 118-121 (no effect). -/
def setFrictionCoefficient (c : Contact K) (mu : K) : Res (Contact K) Bool :=
  match c.kind with
  | .twoFrames => .ok c true
  | _ => if 0 < mu then .ok (updateForceInequality { c with mu := mu }) true else .throw c

/-- Overwrite the last entry of a vector: `lb(lb.size() - 1) = ...`. -/
def setLast (v : Vec K) (a : K) : Vec K := ⟨v.size, fun i => if i = v.size - 1 then a else v i⟩

/-- `setMinNormalForce(m)`: `contact-6d.cpp` 171-181, `contact-point.cpp` 148-158,
`contact-two-frame-positions.cpp` 123-127 (unchecked). -/
def setMinNormalForce (c : Contact K) (m : K) : Res (Contact K) Bool :=
  match c.kind with
  | .twoFrames => .ok (updateForceInequality { c with fMin := m }) true
  | _ =>
    if 0 < m ∧ m ≤ c.fMax then
      .ok { c with fMin := m, forceIneq := { c.forceIneq with lb := setLast c.forceIneq.lb m } } true
    else .throw c

/-- `setMaxNormalForce(m)`: `contact-6d.cpp` 183-192, `contact-point.cpp` 160-169,
`contact-two-frame-positions.cpp` 129-133 (unchecked). -/
def setMaxNormalForce (c : Contact K) (m : K) : Res (Contact K) Bool :=
  match c.kind with
  | .twoFrames => .ok (updateForceInequality { c with fMax := m }) true
  | _ =>
    if c.fMin ≤ m then
      .ok { c with fMax := m, forceIneq := { c.forceIneq with ub := setLast c.forceIneq.ub m } } true
    else .throw c

/-- `setForceReference(f)`: `contact-6d.cpp` 194-197 (assignment to a fixed-size vector: undefined unless the
size is 6), `contact-point.cpp` 171-176 (throws unless the size is 3),
`contact-two-frame-positions.cpp` 135-138 (undefined unless the size is 3). -/
def setForceReference (c : Contact K) (f : Vec K) : Res (Contact K) Unit :=
  match c.kind with
  | .sixD => if f.size = 6 then .ok (updateForceReg { c with fRef := f }) () else .ub
  | .point => if f.size = 3 then .ok (updateForceReg { c with fRef := f }) () else .throw c
  | .twoFrames => if f.size = 3 then .ok (updateForceReg { c with fRef := f }) () else .ub

/-- `setRegularizationTaskWeightVector(w)`: `contact-6d.cpp` 107-110, `contact-point.cpp` 86-89,
`contact-two-frame-positions.cpp` 67-71 (assignment to a fixed-size vector). -/
def setRegularizationWeights (c : Contact K) (w : Vec K) : Res (Contact K) Unit :=
  if w.size = kindRegRows c.kind then .ok (updateForceReg { c with regW := w }) () else .ub

end

end Contact

end Tsid
