import Verif.Model.JointTasks

/-!
# Joint position, velocity and acceleration bounds

`TaskJointPosVelAccBounds` (`/repo/src/tasks/task-joint-posVelAcc-bounds.cpp`).  The vector expressions of the code
are component-wise, so the computations are transcribed for one joint.  The messages printed when `verbose` is set,
and `isStateViable`, whose result is only used for messages, have no influence on the constraint
(`isStateViable` is transcribed below all the same).
-/

namespace Tsid

/-- Members of `TaskJointPosVelAccBounds` (`/repo/include/tsid/tasks/task-joint-posVelAcc-bounds.hpp` 110-178)
that survive a call: `m_dt` and the factors derived from it, the limits, the flags, the bounds of the last
computation. -/
structure PosVelAcc (K : Type) where
  nv : Nat
  na : Nat
  dt : K
  twoDtSq : K
  dtSquare : K
  twoA : K
  qMin : Vec K
  qMax : Vec K
  dqMax : Vec K
  ddqMax : Vec K
  impPos : Bool
  impVel : Bool
  impVia : Bool
  impAcc : Bool
  lbPos : Vec K
  ubPos : Vec K
  lbVia : Vec K
  ubVia : Vec K
  ddqLB : Vec K
  ddqUB : Vec K
  m : Masked K

namespace PosVelAcc
variable {K : Type} [Field K] [LinearOrder K]

/-- `computeAccLimitsFromPosLimits` for one joint (lower, upper): `task-joint-posVelAcc-bounds.cpp` 266-309.
`dt` is `m_dt`, `twoDtSq` is `m_two_dt_sq`. -/
def fromPos (dt twoDtSq qMin qMax q dq : K) : K × K :=
  let maxQ3 := twoDtSq * (qMax - q - dt * dq)
  let minQ3 := twoDtSq * (qMin - q - dt * dq)
  let minusDqOverDt := -dq / dt
  if dq ≤ 0 then
    (if minQ3 < minusDqOverDt then minQ3
     else if q ≠ qMin then max ((dq * dq) / (2 * (q - qMin))) minusDqOverDt
     else 0,
     maxQ3)
  else
    (minQ3,
     if maxQ3 > minusDqOverDt then maxQ3
     else if q ≠ qMax then min (-(dq * dq) / (2 * (qMax - q))) minusDqOverDt
     else 0)

/-- `computeAccLimitsFromViability` for one joint (lower, upper): `task-joint-posVelAcc-bounds.cpp` 310-354.
`dtSquare` is `m_dt_square`, `twoA` is `m_two_a`. -/
def fromVia [HasSqrt K] (dt dtSquare twoA qMin qMax ddqMax q dq : K) : K × K :=
  let dtDq := dt * dq
  let minusDqOverDt := -dq / dt
  let dtTwoDq := 2 * dtDq
  let twoDdqMax := 2 * ddqMax
  let dtDdqMaxDt := ddqMax * dtSquare
  let dqSquare := dq * dq
  let qPlus := q + dtDq
  let b1 := dtTwoDq + dtDdqMaxDt
  let b2 := dtTwoDq - dtDdqMaxDt
  let c1 := dqSquare - twoDdqMax * (qMax - qPlus)
  let delta1 := b1 * b1 - 2 * twoA * c1
  let c2 := dqSquare - twoDdqMax * (qPlus - qMin)
  let delta2 := b2 * b2 - 2 * twoA * c2
  let ddq1 := if 0 ≤ delta1 then (-b1 + sqrt delta1) / twoA else minusDqOverDt
  let ddq2 := if 0 ≤ delta2 then (-b2 - sqrt delta2) / twoA else minusDqOverDt
  (min ddq2 minusDqOverDt, max ddq1 minusDqOverDt)

/-- The bounds of the four kinds of limits of one joint, in the order position, viability, velocity, acceleration
(`task-joint-posVelAcc-bounds.cpp` 399-407). -/
structure Four (K : Type) where
  pos : K
  via : K
  vel : K
  acc : K

/-- `m_lb.maxCoeff()`. -/
def Four.max (f : Four K) : K := Max.max (Max.max f.pos f.via) (Max.max f.vel f.acc)

/-- `m_ub.minCoeff()`. -/
def Four.min (f : Four K) : K := Min.min (Min.min f.pos f.via) (Min.min f.vel f.acc)

/-- Combination of the limits of one joint (lower, upper): `task-joint-posVelAcc-bounds.cpp` 398-433. -/
def combine (lb ub : Four K) : K × K :=
  let l := lb.max
  let u := ub.min
  if u < l then (if u = ub.pos then (u, u) else (l, l)) else (l, u)

/-- `computeAccLimits`: `task-joint-posVelAcc-bounds.cpp` 356-434, after `m_qa = q.tail(m_na)`,
`m_dqa = dq.tail(m_na)`.  The bounds due to the position limits and to viability are kept from an earlier call when
the corresponding flag is off. -/
def accLimits [HasSqrt K] (s : PosVelAcc K) (qa dqa : Vec K) : PosVelAcc K :=
  let pos := fun i => fromPos s.dt s.twoDtSq (s.qMin i) (s.qMax i) (qa i) (dqa i)
  let via := fun i => fromVia s.dt s.dtSquare s.twoA (s.qMin i) (s.qMax i) (s.ddqMax i) (qa i) (dqa i)
  let lbPos : Vec K := if s.impPos then ⟨s.na, fun i => (pos i).1⟩ else s.lbPos
  let ubPos : Vec K := if s.impPos then ⟨s.na, fun i => (pos i).2⟩ else s.ubPos
  let lbVia : Vec K := if s.impVia then ⟨s.na, fun i => (via i).1⟩ else s.lbVia
  let ubVia : Vec K := if s.impVia then ⟨s.na, fun i => (via i).2⟩ else s.ubVia
  let lbVel := fun i => if s.impVel then (-s.dqMax i - dqa i) / s.dt else -big
  let ubVel := fun i => if s.impVel then (s.dqMax i - dqa i) / s.dt else big
  let lbAcc := fun i => if s.impAcc then -s.ddqMax i else -big
  let ubAcc := fun i => if s.impAcc then s.ddqMax i else big
  let r := fun i => combine ⟨lbPos i, lbVia i, lbVel i, lbAcc i⟩ ⟨ubPos i, ubVia i, ubVel i, ubAcc i⟩
  { s with
    lbPos := lbPos, ubPos := ubPos, lbVia := lbVia, ubVia := ubVia
    ddqLB := ⟨s.na, fun i => (r i).1⟩, ddqUB := ⟨s.na, fun i => (r i).2⟩ }

/-- `compute`: `task-joint-posVelAcc-bounds.cpp` 188-201: the bounds of the constraint become the vectors of size
`na`, whatever the number of rows of its matrix. -/
def compute [HasSqrt K] (s : PosVelAcc K) (q v : Vec K) : Res (PosVelAcc K) (Constraint K) :=
  if s.na ≤ q.size ∧ s.na ≤ v.size then
    let s' := s.accLimits (q.tail s.na) (v.tail s.na)
    let c := { s.m.con with ub := s'.ddqUB, lb := s'.ddqLB }
    .ok { s' with m := { s.m with con := c } } c
  else .ub

/-- `setTimeStep`: `task-joint-posVelAcc-bounds.cpp` 143-146. -/
def setTimeStep (s : PosVelAcc K) (dt : K) : Res (PosVelAcc K) Unit :=
  if 0 < dt then .ok { s with dt := dt } () else .throw s

/-- `setPositionBounds`: `task-joint-posVelAcc-bounds.cpp` 150-164. -/
def setPositionBounds (s : PosVelAcc K) (l u : Vec K) : Res (PosVelAcc K) Unit :=
  if l.size = s.na then
    if u.size = s.na then .ok { s with qMin := l, qMax := u, impPos := true, impVia := true } () else .throw s
  else .throw s

/-- `setVelocityBounds`: `task-joint-posVelAcc-bounds.cpp` 166-173. -/
def setVelocityBounds (s : PosVelAcc K) (u : Vec K) : Res (PosVelAcc K) Unit :=
  if u.size = s.na then .ok { s with dqMax := u, impVel := true } () else .throw s

/-- `setAccelerationBounds`: `task-joint-posVelAcc-bounds.cpp` 175-182. -/
def setAccelerationBounds (s : PosVelAcc K) (u : Vec K) : Res (PosVelAcc K) Unit :=
  if u.size = s.na then .ok { s with ddqMax := u, impAcc := true } () else .throw s

/-- `setImposeBounds`: `task-joint-posVelAcc-bounds.cpp` 203-210. -/
def setImposeBounds (s : PosVelAcc K) (pos vel via acc : Bool) : PosVelAcc K :=
  { s with impPos := pos, impVel := vel, impVia := via, impAcc := acc }

/-- `setMask`: `task-joint-posVelAcc-bounds.cpp` 104-123. -/
def setMask [FloorRing K] (s : PosVelAcc K) (m : Vec K) : Res (PosVelAcc K) Unit :=
  match s.m.setMask s.na s.nv (s.nv - s.na) (fun _ => 1) m with
  | .ok m' _ => .ok { s with m := m' } ()
  | .throw m' => .throw { s with m := m' }
  | .abort => .abort
  | .ub => .ub

/-- `dim()`: `task-joint-posVelAcc-bounds.cpp` 125. -/
def dim (s : PosVelAcc K) : Nat := s.na

/-- Members before the call of `setMask` in the constructor: `task-joint-posVelAcc-bounds.cpp` 22-85. -/
def pre (name : String) (nv na : Nat) (dt : K) : PosVelAcc K :=
  let h := 2 * dt
  let up : Vec K := ⟨na, fun _ => big⟩
  let down : Vec K := ⟨na, fun _ => -big⟩
  { nv := nv, na := na, dt := h, twoDtSq := 2 / (h * h), dtSquare := h * h, twoA := 2 * (h * h)
    qMin := down, qMax := up, dqMax := up, ddqMax := up
    impPos := false, impVel := false, impVia := false, impAcc := false
    lbPos := down, ubPos := up, lbVia := down, ubVia := up, ddqLB := down, ddqUB := up
    m := ⟨Vec.zero 0, [], Constraint.mkIneq name na nv⟩ }

/-- Constructor: `task-joint-posVelAcc-bounds.cpp` 22-94; `none`: throws. After `setMask` the bounds of the
constraint are set to `± 1e10`. -/
def new [FloorRing K] (name : String) (nv na : Nat) (dt : K) : Option (PosVelAcc K) :=
  if 0 < dt then
    match (pre name nv na dt).setMask ⟨na, fun _ => 1⟩ with
    | .ok s _ =>
      some { s with m := { s.m with con := { s.m.con with ub := ⟨na, fun _ => big⟩, lb := ⟨na, fun _ => -big⟩ } } }
    | _ => none
  else none

/-- The calls a user can make. -/
inductive Op (K : Type) where
  | setTimeStep (dt : K)
  | setPositionBounds (l u : Vec K)
  | setVelocityBounds (u : Vec K)
  | setAccelerationBounds (u : Vec K)
  | setImposeBounds (pos vel via acc : Bool)
  | setMask (m : Vec K)
  | compute (q v : Vec K)

/-- One call. -/
def step [FloorRing K] [HasSqrt K] (s : PosVelAcc K) : Op K → Res (PosVelAcc K) Unit
  | .setTimeStep dt => s.setTimeStep dt
  | .setPositionBounds l u => s.setPositionBounds l u
  | .setVelocityBounds u => s.setVelocityBounds u
  | .setAccelerationBounds u => s.setAccelerationBounds u
  | .setImposeBounds a b c d => .ok (s.setImposeBounds a b c d) ()
  | .setMask m => s.setMask m
  | .compute q v =>
    match s.compute q v with
    | .ok s' _ => .ok s' ()
    | .throw s' => .throw s'
    | .abort => .abort
    | .ub => .ub

/-- `m_viabViol[i]` computed by `isStateViable` (`task-joint-posVelAcc-bounds.cpp` 212-264): later assignments
overwrite earlier ones. `eps` is `m_eps`. -/
def viabViol [HasSqrt K] (eps qMin qMax dqMax ddqMax q dq : K) : K :=
  let dqMaxViab := sqrt (max 0 (2 * ddqMax * (qMax - q)))
  let dqMinViab := -sqrt (max 0 (2 * ddqMax * (q - qMin)))
  let v0 := 0
  let v1 := if q < qMin - eps then qMin - q else v0
  let v2 := if q > qMax + eps then q - qMax else v1
  let v3 := if |dq| > dqMax + eps then |dq| - dqMax else v2
  let v4 := if dq > dqMaxViab + eps then dq - dqMaxViab else v3
  if dq < dqMinViab + eps then dqMinViab - dq else v4

/-- `isStateViable(qa, dqa)`: the vector `m_viabViol` it computes; the loop runs over the `na` actuated joints. -/
def isStateViable [HasSqrt K] (eps : K) (s : PosVelAcc K) (qa dqa : Vec K) : Res (PosVelAcc K) (Vec K) :=
  if s.na ≤ qa.size ∧ s.na ≤ dqa.size then
    .ok s ⟨s.na, fun i => viabViol eps (s.qMin i) (s.qMax i) (s.dqMax i) (s.ddqMax i) (qa i) (dqa i)⟩
  else .ub

end PosVelAcc

end Tsid
