import Verif.Model.Mask

/-!
# Joint-space tasks

`TaskJointBounds`, `TaskJointPosture`, `TaskActuationBounds`, `TaskActuationEquality`
(`/repo/src/tasks/task-joint-bounds.cpp`, `task-joint-posture.cpp`, `task-actuation-bounds.cpp`,
`task-actuation-equality.cpp`).
-/

namespace Tsid

/-- The constant `1e10` used for "no bound". -/
def big {K : Type} [Field K] : K := 10000000000

/-! ## Velocity and acceleration bounds -/

/-- Members of `TaskJointBounds` (`/repo/include/tsid/tasks/task-joint-bounds.hpp` 54-60).  `m_mask` is stored and
never read (`task-joint-bounds.cpp` 87, 98). -/
structure JointBounds (K : Type) where
  nv : Nat
  na : Nat
  dt : K
  vLb : Vec K
  vUb : Vec K
  aLb : Vec K
  aUb : Vec K
  con : Constraint K

namespace JointBounds
variable {K : Type} [Field K] [LinearOrder K]

/-- Constructor: `task-joint-bounds.cpp` 14-34; `none`: throws.  The bounds of the constraint are zero except on the
base rows, which get `± 1e10`. -/
def new (name : String) (nv na : Nat) (dt : K) : Option (JointBounds K) :=
  if 0 < dt then
    some
      { nv := nv, na := na, dt := dt
        vLb := ⟨na, fun _ => -big⟩, vUb := ⟨na, fun _ => big⟩
        aLb := ⟨na, fun _ => -big⟩, aUb := ⟨na, fun _ => big⟩
        con := { Constraint.mkBound name nv with
          lb := ⟨nv, fun i => if i < nv - na then -big else 0⟩
          ub := ⟨nv, fun i => if i < nv - na then big else 0⟩ } }
  else none

/-- `setTimeStep`: `task-joint-bounds.cpp` 50-53. -/
def setTimeStep (s : JointBounds K) (dt : K) : Res (JointBounds K) Unit :=
  if 0 < dt then .ok { s with dt := dt } () else .throw s

/-- `setVelocityBounds`: `task-joint-bounds.cpp` 55-67. -/
def setVelocityBounds (s : JointBounds K) (l u : Vec K) : Res (JointBounds K) Unit :=
  if l.size = s.na then
    if u.size = s.na then .ok { s with vLb := l, vUb := u } () else .throw s
  else .throw s

/-- `setAccelerationBounds`: `task-joint-bounds.cpp` 69-81. -/
def setAccelerationBounds (s : JointBounds K) (l u : Vec K) : Res (JointBounds K) Unit :=
  if l.size = s.na then
    if u.size = s.na then .ok { s with aLb := l, aUb := u } () else .throw s
  else .throw s

/-- `compute`: `task-joint-bounds.cpp` 89-105.  `v.tail(m_na)` needs `na ≤ v.size()`. -/
def compute (s : JointBounds K) (v : Vec K) : Res (JointBounds K) (Constraint K) :=
  if s.na ≤ v.size then
    let va := v.tail s.na
    let off := s.nv - s.na
    let inJoint := fun i => off ≤ i ∧ i < off + s.na
    let c : Constraint K := { s.con with
      ub := ⟨s.con.ub.size, fun i =>
        if inJoint i then min ((s.vUb (i - off) - va (i - off)) / s.dt) (s.aUb (i - off)) else s.con.ub i⟩
      lb := ⟨s.con.lb.size, fun i =>
        if inJoint i then max ((s.vLb (i - off) - va (i - off)) / s.dt) (s.aLb (i - off)) else s.con.lb i⟩ }
    .ok { s with con := c } c
  else .ub

/-- The calls a user can make. -/
inductive Op (K : Type) where
  | setTimeStep (dt : K)
  | setVelocityBounds (l u : Vec K)
  | setAccelerationBounds (l u : Vec K)
  | setMask (m : Vec K)
  | compute (v : Vec K)

/-- One call. -/
def step (s : JointBounds K) : Op K → Res (JointBounds K) Unit
  | .setTimeStep dt => s.setTimeStep dt
  | .setVelocityBounds l u => s.setVelocityBounds l u
  | .setAccelerationBounds l u => s.setAccelerationBounds l u
  | .setMask _ => .ok s ()
  | .compute v =>
    match s.compute v with
    | .ok s' _ => .ok s' ()
    | .throw s' => .throw s'
    | .abort => .abort
    | .ub => .ub

end JointBounds

/-! ## Posture -/

/-- `TrajectorySample` (`/repo/include/tsid/trajectories/trajectory-base.hpp` 34-75). -/
structure Sample (K : Type) where
  pos : Vec K
  vel : Vec K
  acc : Vec K

/-- `TrajectorySample(n, d)` / `resize(n, d)`: `trajectory-base.hpp` 54-64. -/
def Sample.zero {K : Type} [Zero K] (n d : Nat) : Sample K := ⟨Vec.zero n, Vec.zero d, Vec.zero d⟩

/-- What the posture task reads from the robot: the sizes, the neutral configuration and pinocchio's `difference`. -/
structure PostureRobot (K : Type) where
  nv : Nat
  na : Nat
  nqa : Nat
  neutral : Vec K
  difference : Vec K → Vec K → Vec K

/-- Members of `TaskJointPosture` (`/repo/include/tsid/tasks/task-joint-posture.hpp` 71-80); `refAug` is
`m_ref_q_augmented`, `p` is `m_p`, the others are named alike. The getters (`task-joint-posture.cpp` 26, 58-60, 93-117)
return the members. -/
structure Posture (K : Type) where
  kp : Vec K
  kd : Vec K
  ref : Sample K
  refAug : Vec K
  pErr : Vec K
  vErr : Vec K
  p : Vec K
  v : Vec K
  aDes : Vec K
  m : Masked K

namespace Posture
variable {K : Type} [Field K] [LinearOrder K] [FloorRing K]

/-- `setMask`: `task-joint-posture.cpp` 34-54. -/
def setMask (R : PostureRobot K) (s : Posture K) (m : Vec K) : Res (Posture K) Unit :=
  match s.m.setMask R.na R.nv (R.nv - R.na) (fun _ => 1) m with
  | .ok m' _ => .ok { s with m := m' } ()
  | .throw m' => .throw { s with m := m' }
  | .abort => .abort
  | .ub => .ub

/-- Members before the call of `setMask` in the constructor: `task-joint-posture.cpp` 15-22. -/
def pre (R : PostureRobot K) (name : String) : Posture K :=
  { kp := Vec.zero R.na, kd := Vec.zero R.na, ref := Sample.zero R.nqa R.na, refAug := R.neutral
    pErr := Vec.zero 0, vErr := Vec.zero 0, p := Vec.zero 0, v := Vec.zero 0, aDes := Vec.zero 0
    m := ⟨Vec.zero 0, [], Constraint.mkEq name R.na R.nv⟩ }

/-- Constructor: `task-joint-posture.cpp` 15-24. -/
def new (R : PostureRobot K) (name : String) : Res (Posture K) Unit :=
  setMask R (pre R name) ⟨R.na, fun _ => 1⟩

/-- `Kp(v)`: `task-joint-posture.cpp` 62-67. -/
def setKp (R : PostureRobot K) (s : Posture K) (k : Vec K) : Res (Posture K) Unit :=
  if k.size = R.na then .ok { s with kp := k } () else .throw s

/-- `Kd(v)`: `task-joint-posture.cpp` 69-74. -/
def setKd (R : PostureRobot K) (s : Posture K) (k : Vec K) : Res (Posture K) Unit :=
  if k.size = R.na then .ok { s with kd := k } () else .throw s

/-- `setReference`: `task-joint-posture.cpp` 76-91. -/
def setReference (R : PostureRobot K) (s : Posture K) (r : Sample K) : Res (Posture K) Unit :=
  if r.pos.size = R.nqa then
    if r.vel.size = R.na then
      if r.acc.size = R.na then .ok { s with ref := r } () else .throw s
    else .throw s
  else .throw s

/-- `m_ref_q_augmented.tail(nq_actuated) = m_ref.getValue()`: `task-joint-posture.cpp` 125. -/
def augment (R : PostureRobot K) (aug : Vec K) (r : Vec K) : Vec K :=
  ⟨aug.size, fun i => if aug.size - R.nqa ≤ i then r (i - (aug.size - R.nqa)) else aug i⟩

/-- `compute`: `task-joint-posture.cpp` 123-139. The blocks need `nqa ≤ m_ref_q_augmented.size()`,
`na ≤ v.size()` and a difference with at least `na` entries. -/
def compute (R : PostureRobot K) (s : Posture K) (q v : Vec K) : Res (Posture K) (Constraint K) :=
  if R.nqa ≤ s.refAug.size ∧ s.ref.pos.size = R.nqa ∧ R.na ≤ v.size then
    let aug := augment R s.refAug s.ref.pos
    let d := R.difference aug q
    if R.na ≤ d.size then
      let pe := d.tail R.na
      let va := v.tail R.na
      let ve := va.sub s.ref.vel
      let ad : Vec K := ⟨R.na, fun i => -(s.kp i * pe i) - s.kd i * ve i + s.ref.acc i⟩
      match fillVec R.na ad.get s.m.axes s.m.con.vec with
      | some b =>
        let c := { s.m.con with vec := b }
        .ok { s with refAug := aug, pErr := pe, vErr := ve, v := va, aDes := ad, m := { s.m with con := c } } c
      | none => .ub
    else .ub
  else .ub

/-- `getAcceleration(dv)`: `task-joint-posture.cpp` 99-101. -/
def getAcceleration (s : Posture K) (dv : Vec K) : Vec K := s.m.con.mat.mulVec dv

/-- The calls a user can make. -/
inductive Op (K : Type) where
  | setMask (m : Vec K)
  | setKp (k : Vec K)
  | setKd (k : Vec K)
  | setReference (r : Sample K)
  | compute (q v : Vec K)

/-- One call. -/
def step (R : PostureRobot K) (s : Posture K) : Op K → Res (Posture K) Unit
  | .setMask m => s.setMask R m
  | .setKp k => s.setKp R k
  | .setKd k => s.setKd R k
  | .setReference r => s.setReference R r
  | .compute q v =>
    match s.compute R q v with
    | .ok s' _ => .ok s' ()
    | .throw s' => .throw s'
    | .abort => .abort
    | .ub => .ub

end Posture

/-! ## Actuation bounds -/

namespace ActBounds
variable {K : Type} [Field K] [LinearOrder K] [FloorRing K]

/-- `mask(m)`: `task-actuation-bounds.cpp` 23-42. -/
def setMask (na : Nat) (s : Masked K) (m : Vec K) : Res (Masked K) Unit := s.setMask na na 0 (fun _ => 1) m

/-- Constructor: `task-actuation-bounds.cpp` 14-19. -/
def new (name : String) (na : Nat) : Res (Masked K) Unit :=
  setMask na ⟨Vec.zero 0, [], Constraint.mkIneq name na na⟩ ⟨na, fun _ => 1⟩

/-- `setBounds(lower, upper)`: `task-actuation-bounds.cpp` 54-66. -/
def setBounds (s : Masked K) (l u : Vec K) : Res (Masked K) Unit :=
  if (l.size : Int) = s.dim then
    if (u.size : Int) = s.dim then .ok { s with con := { s.con with lb := l, ub := u } } () else .throw s
  else .throw s

/-- `compute` returns the constraint: `task-actuation-bounds.cpp` 72-75. -/
def compute (s : Masked K) : Constraint K := s.con

/-- The calls a user can make. -/
inductive Op (K : Type) where
  | mask (m : Vec K)
  | setBounds (l u : Vec K)

/-- One call. -/
def step (na : Nat) (s : Masked K) : Op K → Res (Masked K) Unit
  | .mask m => setMask na s m
  | .setBounds l u => setBounds s l u

end ActBounds

/-! ## Actuation equality -/

/-- Members of `TaskActuationEquality` (`/repo/include/tsid/tasks/task-actuation-equality.hpp` 55-59). -/
structure ActEq (K : Type) where
  ref : Vec K
  weights : Vec K
  m : Masked K

namespace ActEq
variable {K : Type} [Field K] [LinearOrder K] [FloorRing K]

/-- The loop that writes the vector: `task-actuation-equality.cpp` 46-48, 62-64. -/
def refill (na : Nat) (s : ActEq K) : Res (ActEq K) Unit :=
  match fillVec na (fun i => s.ref i * s.weights i) s.m.axes s.m.con.vec with
  | some b => .ok { s with m := { s.m with con := { s.m.con with vec := b } } } ()
  | none => .ub

/-- `mask(m)`: `task-actuation-equality.cpp` 24-49. -/
def setMask (na : Nat) (s : ActEq K) (m : Vec K) : Res (ActEq K) Unit :=
  match s.m.setMask na na 0 s.weights.get m with
  | .ok m' _ => refill na { s with m := m' }
  | .throw m' => .throw { s with m := m' }
  | .abort => .abort
  | .ub => .ub

/-- Constructor: `task-actuation-equality.cpp` 13-20. -/
def new (name : String) (na : Nat) : Res (ActEq K) Unit :=
  setMask na ⟨Vec.zero na, ⟨na, fun _ => 1⟩, ⟨Vec.zero 0, [], Constraint.mkEq name na na⟩⟩ ⟨na, fun _ => 1⟩

/-- `setReference(ref)`: `task-actuation-equality.cpp` 55-65. -/
def setReference (na : Nat) (s : ActEq K) (r : Vec K) : Res (ActEq K) Unit :=
  if r.size = na then refill na { s with ref := r } else .throw s

/-- The matrix written by `setWeightVector`: entry `(i, m_activeAxes(i))` of every row that has an axis
(`task-actuation-equality.cpp` 79). -/
def reweigh (w : Nat → K) (axes : List (Option Nat)) (S : Mat K) : Mat K :=
  ⟨S.rows, S.cols, fun k j => match axes[k]? with | some (some i) => if j = i then w i else S k j | _ => S k j⟩

/-- `setWeightVector(w)`: `task-actuation-equality.cpp` 71-83. -/
def setWeights (na : Nat) (s : ActEq K) (w : Vec K) : Res (ActEq K) Unit :=
  if w.size = na then
    if s.m.axes.length ≤ s.m.con.mat.rows then
      refill na { s with weights := w, m := { s.m with con := { s.m.con with mat := reweigh w.get s.m.axes s.m.con.mat } } }
    else .ub
  else .throw s

/-- `compute` returns the constraint: `task-actuation-equality.cpp` 93-97. -/
def compute (s : ActEq K) : Constraint K := s.m.con

/-- The calls a user can make. -/
inductive Op (K : Type) where
  | mask (m : Vec K)
  | setReference (r : Vec K)
  | setWeights (w : Vec K)

/-- One call. -/
def step (na : Nat) (s : ActEq K) : Op K → Res (ActEq K) Unit
  | .mask m => setMask na s m
  | .setReference r => setReference na s r
  | .setWeights w => setWeights na s w

end ActEq

end Tsid
