import Verif.Model.Basic
import Verif.Model.Geometry

/-!
# Robot wrapper

Model of the parts of `RobotWrapper` (`/repo/src/robots/robot-wrapper.cpp`) that are computed in tsid:
number of actuated joints, rotor inertias, mass matrix, frame velocities and accelerations.
The rigid-body algorithms themselves belong to pinocchio and are inputs here.
-/

namespace Tsid

/-- Members `m_model.nv`, `m_na`, `m_rotor_inertias`, `m_gear_ratios`, `m_Md`
(`robot-wrapper.hpp` 172-187). -/
structure Robot (K : Type) where
  nv : Nat
  na : Nat
  rotor : Vec K
  gear : Vec K
  md : Vec K

/-- `RootJointType` (`/repo/include/tsid/robots/robot-wrapper.hpp` 56-59). -/
inductive RootJoint where
  | fixedBase
  | floatingBase
deriving DecidableEq

namespace Robot
variable {K : Type}

/-- Constructor `RobotWrapper(model, rootJoint)` followed by `init()`: `robot-wrapper.cpp` 55-81.
`none`: a floating base needs at least six velocities (otherwise `m_na` is negative and
`setZero(m_na)` fails). -/
def new [Zero K] (nv : Nat) (root : RootJoint) : Option (Robot K) :=
  match root with
  | .fixedBase => some ⟨nv, nv, Vec.zero nv, Vec.zero nv, Vec.zero nv⟩
  | .floatingBase =>
    if 6 ≤ nv then some ⟨nv, nv - 6, Vec.zero (nv - 6), Vec.zero (nv - 6), Vec.zero (nv - 6)⟩
    else none

/-- `updateMd()`: `robot-wrapper.cpp` 127-130. -/
def updateMd [Mul K] (r : Robot K) : Robot K :=
  { r with md := ⟨r.gear.size, fun i => r.gear i * (r.gear i * r.rotor i)⟩ }

/-- `rotor_inertias(v)`: `robot-wrapper.cpp` 109-116. -/
def setRotor [Mul K] (r : Robot K) (v : Vec K) : Res (Robot K) Bool :=
  if v.size = r.rotor.size then .ok (updateMd { r with rotor := v }) true else .throw r

/-- `gear_ratios(v)`: `robot-wrapper.cpp` 118-125. -/
def setGear [Mul K] (r : Robot K) (v : Vec K) : Res (Robot K) Bool :=
  if v.size = r.gear.size then .ok (updateMd { r with gear := v }) true else .throw r

/-- `mass(data)`: `robot-wrapper.cpp` 151-155: `data.M` with `m_Md` added to the last `na` diagonal
entries. -/
def mass [Add K] (r : Robot K) (M : Mat K) : Mat K :=
  ⟨M.rows, M.cols, fun i j =>
    if i = j ∧ M.rows - r.na ≤ i then M i j + r.md (i - (M.rows - r.na)) else M i j⟩

/-- The part of `computeAllTerms` done by tsid: the strictly lower triangle of `data.M` is overwritten by
the transposed upper one: `robot-wrapper.cpp` 95-96. -/
def symmetrise (M : Mat K) : Mat K := ⟨M.rows, M.cols, fun i j => if j < i then M j i else M i j⟩

/-- The calls on a robot that concern the mass matrix: the setters and `mass(data)` itself, which stores its result in
the member `m_M` (overwritten by every call, not modelled). -/
inductive Op (K : Type) where
  | setRotor (v : Vec K)
  | setGear (v : Vec K)
  | mass (M : Mat K)

/-- One call. -/
def step [Mul K] (r : Robot K) : Op K → Res (Robot K) Unit
  | .setRotor v =>
    match r.setRotor v with
    | .ok r' _ => .ok r' ()
    | .throw r' => .throw r'
    | .abort => .abort
    | .ub => .ub
  | .setGear v =>
    match r.setGear v with
    | .ok r' _ => .ok r' ()
    | .throw r' => .throw r'
    | .abort => .abort
    | .ub => .ub
  | .mass _ => .ok r ()

/-! ### Frames

The joint placements, velocities and accelerations `data.oMi`, `data.v`, `data.a` are inputs. -/

/-- A frame of the pinocchio model: `parentJoint` and `placement`. -/
structure Frame (K : Type) where
  parent : Nat
  placement : SE3 K

/-- The joint quantities in `data` that the frame functions read. -/
structure JointData (K : Type) where
  oMi : Nat → SE3 K
  v : Nat → Motion K
  a : Nat → Motion K

section
variable [Field K]

/-- `framePosition(data, index)`: `robot-wrapper.cpp` 203-220; `none`: throws. -/
def framePosition (frames : List (Frame K)) (d : JointData K) (index : Nat) : Option (SE3 K) :=
  match frames[index]? with
  | some f => some ⟨(d.oMi f.parent).rot.mul f.placement.rot,
      (d.oMi f.parent).trans + (d.oMi f.parent).rot.mulVec f.placement.trans⟩
  | none => none

/-- `frameVelocity(data, index)`: `robot-wrapper.cpp` 222-239. -/
def frameVelocity (frames : List (Frame K)) (d : JointData K) (index : Nat) : Option (Motion K) :=
  match frames[index]? with
  | some f => some (f.placement.actInv (d.v f.parent))
  | none => none

/-- `frameAcceleration(data, index)`: `robot-wrapper.cpp` 252-269. -/
def frameAcceleration (frames : List (Frame K)) (d : JointData K) (index : Nat) : Option (Motion K) :=
  match frames[index]? with
  | some f => some (f.placement.actInv (d.a f.parent))
  | none => none

/-- `frameClassicAcceleration(data, index)`: `robot-wrapper.cpp` 282-304. -/
def frameClassicAcceleration (frames : List (Frame K)) (d : JointData K) (index : Nat) : Option (Motion K) :=
  match frames[index]? with
  | some f =>
    let a := f.placement.actInv (d.a f.parent)
    let v := f.placement.actInv (d.v f.parent)
    some ⟨a.lin + v.ang.cross v.lin, a.ang⟩
  | none => none

/-- The last lines of `frameVelocityWorldOriented`, `frameAccelerationWorldOriented`,
`frameClassicAccelerationWorldOriented`: `robot-wrapper.cpp` 241-250, 271-280, 306-315: `oMi_rotation_only` is default
constructed (pinocchio leaves the coefficients uninitialised) and only its rotation is assigned; `garbage` is the
content of its translation. -/
def rotationOnly (garbage : V3 K) (oMf : Option (SE3 K)) (m : Option (Motion K)) : Option (Motion K) :=
  match oMf, m with
  | some M, some x => some (SE3.act ⟨M.rot, garbage⟩ x)
  | _, _ => none

/-- `frameVelocityWorldOriented(data, index)`: `robot-wrapper.cpp` 241-250. -/
def frameVelocityWorld (garbage : V3 K) (frames : List (Frame K)) (d : JointData K) (index : Nat) : Option (Motion K) :=
  rotationOnly garbage (framePosition frames d index) (frameVelocity frames d index)

/-- `frameAccelerationWorldOriented(data, index)`: `robot-wrapper.cpp` 271-280. -/
def frameAccelerationWorld (garbage : V3 K) (frames : List (Frame K)) (d : JointData K) (index : Nat) :
    Option (Motion K) :=
  rotationOnly garbage (framePosition frames d index) (frameAcceleration frames d index)

/-- `frameClassicAccelerationWorldOriented(data, index)`: `robot-wrapper.cpp` 306-315. -/
def frameClassicAccelerationWorld (garbage : V3 K) (frames : List (Frame K)) (d : JointData K) (index : Nat) :
    Option (Motion K) :=
  rotationOnly garbage (framePosition frames d index) (frameClassicAcceleration frames d index)

end

end Robot

end Tsid
