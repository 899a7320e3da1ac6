import Verif.Model.Mask
import Verif.Model.JointTasks
import Verif.Model.SE3Utils

/-!
# Cartesian equality tasks

`TaskSE3Equality`, `TaskTwoFramesEquality`, `TaskComEquality`, `TaskAMEquality`
(`/repo/src/tasks/task-{se3,two-frames,com,angular-momentum}-equality.cpp`).  What the tasks read from pinocchio through
`RobotWrapper` (placement, velocity, drift and Jacobian of a frame; position, velocity, drift and Jacobian of the
centre of mass; momentum matrix and momentum drift) are inputs of `compute`.  Memory that Eigen leaves uninitialised is
an input `g`.
-/

namespace Tsid

/-- `VectorXd::resize(n)`: keeps the contents when the size does not change, otherwise the new memory `g` is not
initialised. -/
def Vec.resize {K : Type} (g : Nat → K) (v : Vec K) (n : Nat) : Vec K := if v.size = n then v else ⟨n, g⟩

/-- `v(i) = x`; the caller checks the index. -/
def Vec.put {K : Type} (v : Vec K) (i : Nat) (x : K) : Vec K := ⟨v.size, fun k => if k = i then x else v k⟩

/-- The members the masked Cartesian tasks have in common: `m_mask`, `m_constraint`, `m_a_des_masked`,
`m_drift_masked`, `m_p_error_masked_vec`, `m_v_error_masked_vec` (`task-se3-equality.hpp` 108-122,
`task-two-frames-equality.hpp` 103-117, `task-com-equality.hpp` 70-79). -/
structure CartRows (K : Type) where
  mask : Vec K
  con : Constraint K
  aDes : Vec K
  drift : Vec K
  pErr : Vec K
  vErr : Vec K

/-- The quantities of one compute before masking, by axis: the row of the Jacobian, `m_a_des`, `m_drift`,
`m_p_error_vec`, `m_v_error_vec`. -/
structure CartLaw (K : Type) where
  jac : Nat → Nat → K
  aDes : Nat → K
  drift : Nat → K
  pErr : Nat → K
  vErr : Nat → K

namespace CartRows
variable {K : Type} [Field K] [LinearOrder K] [FloorRing K]

/-- `dim()`: `task-se3-equality.cpp` 60, `task-two-frames-equality.cpp` 63, `task-com-equality.cpp` 41. -/
def dim (s : CartRows K) : Int := trunc s.mask.sum

/-- `setMask(mask)` after the check of the size (only `TaskComEquality` has one): `task-se3-equality.cpp` 50-58,
`task-two-frames-equality.cpp` 53-61, `task-com-equality.cpp` 32-38.  A negative number of rows is undefined
behaviour. -/
def setMask (g : Nat → K) (cols : Nat) (s : CartRows K) (m : Vec K) : Res (CartRows K) Unit :=
  let n := trunc m.sum
  if n < 0 then .ub
  else
    match s.con.resize n.toNat cols with
    | .ok c _ =>
      .ok ⟨m, c, s.aDes.resize g n.toNat, s.drift.resize g n.toNat, s.pErr.resize g n.toNat, s.vErr.resize g n.toNat⟩ ()
    | _ => .ub

/-- One pass of the loop for a selected axis: `task-se3-equality.cpp` 194-199, `task-two-frames-equality.cpp` 156-161,
`task-com-equality.cpp` 118-124.  The caller checks that row `idx` exists. -/
def write (L : CartLaw K) (s : CartRows K) (idx i : Nat) : CartRows K :=
  { s with
    con := { s.con with
      mat := ⟨s.con.mat.rows, s.con.mat.cols, fun r c => if r = idx then L.jac i c else s.con.mat r c⟩
      vec := s.con.vec.put idx (L.aDes i - L.drift i) }
    aDes := s.aDes.put idx (L.aDes i)
    drift := s.drift.put idx (L.drift i)
    pErr := s.pErr.put idx (L.pErr i)
    vErr := s.vErr.put idx (L.vErr i) }

/-- The row `idx` exists in the constraint and in the four vectors. -/
def HasRow (s : CartRows K) (idx : Nat) : Prop :=
  idx < s.con.mat.rows ∧ idx < s.con.vec.size ∧ idx < s.aDes.size ∧ idx < s.drift.size ∧ idx < s.pErr.size ∧
    idx < s.vErr.size

instance (s : CartRows K) (idx : Nat) : Decidable (s.HasRow idx) := by unfold HasRow; infer_instance

/-- The loop `for i: if (m_mask(i) != 1.) continue; ...; idx += 1`: `task-se3-equality.cpp` 190-202,
`task-two-frames-equality.cpp` 152-164, `task-com-equality.cpp` 114-127.  `none`: an index out of range. -/
def fill (L : CartLaw K) : List Nat → Nat → CartRows K → Option (CartRows K)
  | [], _, s => some s
  | i :: is, idx, s =>
    if i < s.mask.size then
      if s.mask i = 1 then
        if s.HasRow idx then fill L is (idx + 1) (s.write L idx i) else none
      else fill L is idx s
    else none

end CartRows

/-! ## One frame -/

/-- What the tasks read about a frame: `framePosition`, `frameVelocity`, `frameClassicAcceleration`,
`frameJacobianLocal` (columns). -/
structure FrameKin (K : Type) where
  pose : SE3 K
  vel : Motion K
  drift : Motion K
  jac : Nat → Motion K

/-- Members of `TaskSE3Equality` (`/repo/include/tsid/tasks/task-se3-equality.hpp` 104-124).  `m_wMl` has translation
zero at all times and the rotation of the frame after `compute`. -/
structure SE3Task (K : Type) where
  nv : Nat
  kp : Vec K
  kd : Vec K
  ref : Sample K
  mRef : SE3 K
  vRef : Motion K
  aRef : Motion K
  p : Vec K
  v : Vec K
  pRef : Vec K
  vRefVec : Vec K
  loc : Bool
  rows : CartRows K

/-- The motion with the coefficients `f 0 … f 5` (`Motion(v)`, pinocchio). -/
def Motion.ofCoeffs {K : Type} (f : Nat → K) : Motion K := ⟨⟨f 0, f 1, f 2⟩, ⟨f 3, f 4, f 5⟩⟩

namespace SE3Task
variable {K : Type} [Field K] [LinearOrder K] [FloorRing K]

/-- `setMask`: `task-se3-equality.cpp` 50-58. -/
def setMask (g : Nat → K) (s : SE3Task K) (m : Vec K) : Res (SE3Task K) Unit :=
  match s.rows.setMask g s.nv m with
  | .ok r _ => .ok { s with rows := r } ()
  | .throw r => .throw { s with rows := r }
  | .abort => .abort
  | .ub => .ub

/-- Members before the call of `setMask` in the constructor: `task-se3-equality.cpp` 18-44, 47. -/
def pre (g : Nat → K) (name : String) (nv : Nat) : SE3Task K :=
  { nv := nv, kp := Vec.zero 6, kd := Vec.zero 6, ref := Sample.zero 12 6, mRef := SE3.one, vRef := 0, aRef := 0
    p := ⟨12, g⟩, v := ⟨6, g⟩, pRef := ⟨12, g⟩, vRefVec := ⟨6, g⟩, loc := true
    rows := ⟨Vec.zero 0, Constraint.mkEq name 6 nv, Vec.zero 0, Vec.zero 0, Vec.zero 0, Vec.zero 0⟩ }

/-- Constructor: `task-se3-equality.cpp` 16-48; throws when the frame does not exist (then there is no object; the
model returns the members). -/
def new (g : Nat → K) (name : String) (nv : Nat) (frameExists : Bool) : Res (SE3Task K) Unit :=
  if frameExists then setMask g (pre g name nv) ⟨6, fun _ => 1⟩ else .throw (pre g name nv)

/-- `Kp(v)`: `task-se3-equality.cpp` 66-70. -/
def setKp (s : SE3Task K) (k : Vec K) : Res (SE3Task K) Unit :=
  if k.size = 6 then .ok { s with kp := k } () else .throw s

/-- `Kd(v)`: `task-se3-equality.cpp` 72-76. -/
def setKd (s : SE3Task K) (k : Vec K) : Res (SE3Task K) Unit :=
  if k.size = 6 then .ok { s with kd := k } () else .throw s

/-- `setReference(sample)`: `task-se3-equality.cpp` 78-89.  The sample is stored before its size is checked. -/
def setReference (s : SE3Task K) (r : Sample K) : Res (SE3Task K) Unit :=
  if r.pos.size = 12 then
    if r.vel.size = 6 ∧ r.acc.size = 6 then
      .ok { s with ref := r, mRef := SE3.ofCoeffs r.pos.get, vRef := Motion.ofCoeffs r.vel.get,
                   aRef := Motion.ofCoeffs r.acc.get } ()
    else .ub
  else .throw { s with ref := r }

/-- `setReference(SE3)`: `task-se3-equality.cpp` 91-98. -/
def setReferencePose (s : SE3Task K) (M : SE3 K) : Res (SE3Task K) Unit :=
  match M.toVector (Sample.zero 12 6 : Sample K).pos with
  | some p => s.setReference { Sample.zero 12 6 with pos := p }
  | none => .throw s

/-- `useLocalFrame(b)`: `task-se3-equality.cpp` 132-134. -/
def useLocalFrame (s : SE3Task K) (b : Bool) : SE3Task K := { s with loc := b }

/-- The quantities computed before the loop: `task-se3-equality.cpp` 148-188. -/
def law (log3 : M3 K → V3 K) (s : SE3Task K) (k : FrameKin K) : CartLaw K :=
  let e := SE3.error log3 k.pose s.mRef
  let wMl : SE3 K := ⟨k.pose.rot, 0⟩
  if s.loc then
    let ve := wMl.actInv s.vRef - k.vel
    { jac := fun i c => (k.jac c).get i
      aDes := fun i => s.kp i * e.get i + s.kd i * ve.get i + (wMl.actInv s.aRef).get i
      drift := k.drift.get
      pErr := e.get
      vErr := ve.get }
  else
    let ew := wMl.act e
    let ve := s.vRef - wMl.act k.vel
    { jac := fun i c => (wMl.act (k.jac c)).get i
      aDes := fun i => s.kp i * ew.get i + s.kd i * ve.get i + s.aRef.get i
      drift := (wMl.act k.drift).get
      pErr := ew.get
      vErr := ve.get }

/-- `compute`: `task-se3-equality.cpp` 136-205.  The products need gains of size 6, `SE3ToVector` vectors of size 12. -/
def compute (log3 : M3 K → V3 K) (s : SE3Task K) (k : FrameKin K) : Res (SE3Task K) (Constraint K) :=
  match s.mRef.toVector s.pRef, k.pose.toVector s.p with
  | some pr, some p =>
    if s.kp.size = 6 ∧ s.kd.size = 6 then
      match s.rows.fill (s.law log3 k) (List.range 6) 0 with
      | some r => .ok { s with pRef := pr, p := p, v := ⟨6, k.vel.get⟩, vRefVec := ⟨6, s.vRef.get⟩, rows := r } r.con
      | none => .ub
    else .ub
  | some pr, none => .throw { s with pRef := pr }
  | none, _ => .throw s

/-- `getAcceleration(dv)`: `task-se3-equality.cpp` 122-124. -/
def getAcceleration (s : SE3Task K) (dv : Vec K) : Vec K := (s.rows.con.mat.mulVec dv).add s.rows.drift

/-- The calls a user can make.  `g`: contents of memory allocated by the call. -/
inductive Op (K : Type) where
  | setMask (g : Nat → K) (m : Vec K)
  | setKp (k : Vec K)
  | setKd (k : Vec K)
  | setReference (r : Sample K)
  | setReferencePose (M : SE3 K)
  | useLocalFrame (b : Bool)
  | compute (k : FrameKin K)

/-- One call. -/
def step (log3 : M3 K → V3 K) (s : SE3Task K) : Op K → Res (SE3Task K) Unit
  | .setMask g m => s.setMask g m
  | .setKp k => s.setKp k
  | .setKd k => s.setKd k
  | .setReference r => s.setReference r
  | .setReferencePose M => s.setReferencePose M
  | .useLocalFrame b => .ok (s.useLocalFrame b) ()
  | .compute k =>
    match s.compute log3 k with
    | .ok s' _ => .ok s' ()
    | .throw s' => .throw s'
    | .abort => .abort
    | .ub => .ub

end SE3Task

/-! ## Two frames -/

/-- Members of `TaskTwoFramesEquality` (`/repo/include/tsid/tasks/task-two-frames-equality.hpp` 99-117) that are used:
`m_p`, `m_v`, `m_p_ref`, `m_v_ref_vec`, `m_v_ref`, `m_a_ref` are set in the constructor and never read.
`useLocalFrame` (96) is declared and never defined. -/
structure TwoFrames (K : Type) where
  nv : Nat
  kp : Vec K
  kd : Vec K
  rows : CartRows K

namespace TwoFrames
variable {K : Type} [Field K] [LinearOrder K] [FloorRing K]

/-- `setMask`: `task-two-frames-equality.cpp` 53-61. -/
def setMask (g : Nat → K) (s : TwoFrames K) (m : Vec K) : Res (TwoFrames K) Unit :=
  match s.rows.setMask g s.nv m with
  | .ok r _ => .ok { s with rows := r } ()
  | .throw r => .throw { s with rows := r }
  | .abort => .abort
  | .ub => .ub

/-- Constructor: `task-two-frames-equality.cpp` 17-51, for frames that exist (otherwise an `assert` fails, or the
frame index is out of range). -/
def new (g : Nat → K) (name : String) (nv : Nat) : Res (TwoFrames K) Unit :=
  setMask g ⟨nv, Vec.zero 6, Vec.zero 6,
    ⟨Vec.zero 0, Constraint.mkEq name 6 nv, Vec.zero 0, Vec.zero 0, Vec.zero 0, Vec.zero 0⟩⟩ ⟨6, fun _ => 1⟩

/-- `Kp(v)`: `task-two-frames-equality.cpp` 69-72: the size is checked by an `assert` only. -/
def setKp (ndebug : Bool) (s : TwoFrames K) (k : Vec K) : Res (TwoFrames K) Unit :=
  if k.size = 6 then .ok { s with kp := k } () else if ndebug then .ok { s with kp := k } () else .abort

/-- `Kd(v)`: `task-two-frames-equality.cpp` 74-77. -/
def setKd (ndebug : Bool) (s : TwoFrames K) (k : Vec K) : Res (TwoFrames K) Unit :=
  if k.size = 6 then .ok { s with kd := k } () else if ndebug then .ok { s with kd := k } () else .abort

/-- The quantities computed before the loop: `task-two-frames-equality.cpp` 120-150. -/
def law (log3 : M3 K → V3 K) (s : TwoFrames K) (k1 k2 : FrameKin K) : CartLaw K :=
  let w1 : SE3 K := ⟨k1.pose.rot, 0⟩
  let w2 : SE3 K := ⟨k2.pose.rot, 0⟩
  let e := w1.act (SE3.error log3 k1.pose k2.pose)
  let ve := w2.act k2.vel - w1.act k1.vel
  { jac := fun i c => (w1.act (k1.jac c)).get i - (w2.act (k2.jac c)).get i
    aDes := fun i => s.kp i * e.get i + s.kd i * ve.get i
    drift := (w1.act k1.drift - w2.act k2.drift).get
    pErr := e.get
    vErr := ve.get }

/-- `compute`: `task-two-frames-equality.cpp` 103-167. -/
def compute (log3 : M3 K → V3 K) (s : TwoFrames K) (k1 k2 : FrameKin K) : Res (TwoFrames K) (Constraint K) :=
  if s.kp.size = 6 ∧ s.kd.size = 6 then
    match s.rows.fill (s.law log3 k1 k2) (List.range 6) 0 with
    | some r => .ok { s with rows := r } r.con
    | none => .ub
  else .ub

/-- `getAcceleration(dv)`: `task-two-frames-equality.cpp` 91-93. -/
def getAcceleration (s : TwoFrames K) (dv : Vec K) : Vec K := (s.rows.con.mat.mulVec dv).add s.rows.drift

/-- The calls a user can make. -/
inductive Op (K : Type) where
  | setMask (g : Nat → K) (m : Vec K)
  | setKp (k : Vec K)
  | setKd (k : Vec K)
  | compute (k1 k2 : FrameKin K)

/-- One call. -/
def step (ndebug : Bool) (log3 : M3 K → V3 K) (s : TwoFrames K) : Op K → Res (TwoFrames K) Unit
  | .setMask g m => s.setMask g m
  | .setKp k => s.setKp ndebug k
  | .setKd k => s.setKd ndebug k
  | .compute k1 k2 =>
    match s.compute log3 k1 k2 with
    | .ok s' _ => .ok s' ()
    | .throw s' => .throw s'
    | .abort => .abort
    | .ub => .ub

end TwoFrames

/-! ## Centre of mass -/

/-- What the task reads about the centre of mass: `com(data, ...)` and `Jcom(data)` (columns). -/
structure ComKin (K : Type) where
  pos : V3 K
  vel : V3 K
  drift : V3 K
  jac : Nat → V3 K

/-- Members of `TaskComEquality` (`/repo/include/tsid/tasks/task-com-equality.hpp` 68-79) that are read: `p`, `v` are
`m_p_com`, `m_v_com`. -/
structure ComTask (K : Type) where
  nv : Nat
  kp : V3 K
  kd : V3 K
  ref : Sample K
  p : V3 K
  v : V3 K
  rows : CartRows K

namespace ComTask
variable {K : Type} [Field K] [LinearOrder K] [FloorRing K]

/-- `setMask`: `task-com-equality.cpp` 29-39. -/
def setMask (g : Nat → K) (s : ComTask K) (m : Vec K) : Res (ComTask K) Unit :=
  if m.size = 3 then
    match s.rows.setMask g s.nv m with
    | .ok r _ => .ok { s with rows := r } ()
    | .throw r => .throw { s with rows := r }
    | .abort => .abort
    | .ub => .ub
  else .throw s

/-- Constructor: `task-com-equality.cpp` 14-27. -/
def new (g : Nat → K) (name : String) (nv : Nat) : Res (ComTask K) Unit :=
  setMask g ⟨nv, 0, 0, Sample.zero 3 3, 0, 0,
    ⟨Vec.zero 0, Constraint.mkEq name 3 nv, Vec.zero 0, Vec.zero 0, Vec.zero 0, Vec.zero 0⟩⟩ ⟨3, fun _ => 1⟩

/-- `Kp(v)`: `task-com-equality.cpp` 47-51. -/
def setKp (s : ComTask K) (k : Vec K) : Res (ComTask K) Unit :=
  if k.size = 3 then .ok { s with kp := V3.ofFn k.get } () else .throw s

/-- `Kd(v)`: `task-com-equality.cpp` 53-57. -/
def setKd (s : ComTask K) (k : Vec K) : Res (ComTask K) Unit :=
  if k.size = 3 then .ok { s with kd := V3.ofFn k.get } () else .throw s

/-- `setReference(ref)`: `task-com-equality.cpp` 59. -/
def setReference (s : ComTask K) (r : Sample K) : ComTask K := { s with ref := r }

/-- The quantities computed before the loop: `task-com-equality.cpp` 97-112. -/
def law (s : ComTask K) (k : ComKin K) : CartLaw K :=
  let pe := fun i => k.pos.get i - s.ref.pos i
  let ve := fun i => k.vel.get i - s.ref.vel i
  { jac := fun i c => (k.jac c).get i
    aDes := fun i => -(s.kp.get i * pe i) - s.kd.get i * ve i + s.ref.acc i
    drift := k.drift.get
    pErr := pe
    vErr := ve }

/-- `compute`: `task-com-equality.cpp` 93-130.  The differences need a reference of size 3. -/
def compute (s : ComTask K) (k : ComKin K) : Res (ComTask K) (Constraint K) :=
  if s.ref.pos.size = 3 ∧ s.ref.vel.size = 3 ∧ s.ref.acc.size = 3 then
    match s.rows.fill (s.law k) (List.range 3) 0 with
    | some r => .ok { s with p := k.pos, v := k.vel, rows := r } r.con
    | none => .ub
  else .ub

/-- `getAcceleration(dv)`: `task-com-equality.cpp` 67-69. -/
def getAcceleration (s : ComTask K) (dv : Vec K) : Vec K := (s.rows.con.mat.mulVec dv).sub s.rows.drift

/-- The calls a user can make. -/
inductive Op (K : Type) where
  | setMask (g : Nat → K) (m : Vec K)
  | setKp (k : Vec K)
  | setKd (k : Vec K)
  | setReference (r : Sample K)
  | compute (k : ComKin K)

/-- One call. -/
def step (s : ComTask K) : Op K → Res (ComTask K) Unit
  | .setMask g m => s.setMask g m
  | .setKp k => s.setKp k
  | .setKd k => s.setKd k
  | .setReference r => .ok (s.setReference r) ()
  | .compute k =>
    match s.compute k with
    | .ok s' _ => .ok s' ()
    | .throw s' => .throw s'
    | .abort => .abort
    | .ub => .ub

end ComTask

/-! ## Angular momentum -/

/-- Members of `TaskAMEquality` (`/repo/include/tsid/tasks/task-angular-momentum-equality.hpp` 69-77); `m_dL_error` and
`m_dL` are never assigned after the constructor.  `mask` is `m_mask` of `TaskMotion` (initially empty). -/
structure AmTask (K : Type) where
  nv : Nat
  kp : V3 K
  kd : V3 K
  lErr : V3 K
  dLDes : V3 K
  drift : V3 K
  l : V3 K
  ref : Sample K
  mask : Vec K
  con : Constraint K

namespace AmTask
variable {K : Type} [Field K]

/-- Constructor: `task-angular-momentum-equality.cpp` 16-26.  `m_drift` is not initialised. -/
def new (g : Nat → K) (name : String) (nv : Nat) : AmTask K :=
  { nv := nv, kp := 0, kd := 0, lErr := 0, dLDes := 0, drift := V3.ofFn g, l := 0, ref := Sample.zero 3 3
    mask := Vec.zero 0, con := Constraint.mkEq name 3 nv }

/-- `setMask(mask)`, inherited: `/repo/src/tasks/task-motion.cpp` 16. -/
def setMask (s : AmTask K) (m : Vec K) : AmTask K := { s with mask := m }

/-- `Kp(v)`: `task-angular-momentum-equality.cpp` 37-41. -/
def setKp (s : AmTask K) (k : Vec K) : Res (AmTask K) Unit :=
  if k.size = 3 then .ok { s with kp := V3.ofFn k.get } () else .throw s

/-- `Kd(v)`: `task-angular-momentum-equality.cpp` 43-47. -/
def setKd (s : AmTask K) (k : Vec K) : Res (AmTask K) Unit :=
  if k.size = 3 then .ok { s with kd := V3.ofFn k.get } () else .throw s

/-- `setReference(ref)`: `task-angular-momentum-equality.cpp` 49. -/
def setReference (s : AmTask K) (r : Sample K) : AmTask K := { s with ref := r }

/-- `compute`: `task-angular-momentum-equality.cpp` 74-94.  `A` is `momentumJacobian(data)` (6 rows), `h` is
`angularMomentumTimeVariation(data)`. -/
def compute (s : AmTask K) (v : Vec K) (A : Mat K) (h : V3 K) : Res (AmTask K) (Constraint K) :=
  if 3 ≤ A.rows ∧ A.cols = v.size ∧ s.ref.pos.size = 3 ∧ s.ref.vel.size = 3 then
    let J := A.bottomRows 3
    let L := V3.ofFn (J.mulVec v).get
    let e : V3 K := ⟨L.x - s.ref.pos 0, L.y - s.ref.pos 1, L.z - s.ref.pos 2⟩
    let d : V3 K := ⟨-(s.kp.x * e.x) + s.ref.vel 0, -(s.kp.y * e.y) + s.ref.vel 1, -(s.kp.z * e.z) + s.ref.vel 2⟩
    let s' := { s with l := L, lErr := e, dLDes := d, drift := h }
    match s.con.setMatrix J with
    | .ok c _ =>
      match c.setVector true ⟨3, (d - h).get⟩ with
      | .ok c' _ => .ok { s' with con := c' } c'
      | _ => .ub
    | .throw c => .throw { s' with con := c }
    | _ => .ub
  else .ub

/-- `getdMomentum(dv)`: `task-angular-momentum-equality.cpp` 57-59. -/
def getdMomentum (s : AmTask K) (dv : Vec K) : V3 K := V3.ofFn (s.con.mat.mulVec dv).get - s.drift

/-- The calls a user can make. -/
inductive Op (K : Type) where
  | setMask (m : Vec K)
  | setKp (k : Vec K)
  | setKd (k : Vec K)
  | setReference (r : Sample K)
  | compute (v : Vec K) (A : Mat K) (h : V3 K)

/-- One call. -/
def step (s : AmTask K) : Op K → Res (AmTask K) Unit
  | .setMask m => .ok (s.setMask m) ()
  | .setKp k => s.setKp k
  | .setKd k => s.setKd k
  | .setReference r => .ok (s.setReference r) ()
  | .compute v A h =>
    match s.compute v A h with
    | .ok s' _ => .ok s' ()
    | .throw s' => .throw s'
    | .abort => .abort
    | .ub => .ub

end AmTask

/-! ## Motion tasks of the contacts -/

/-- `ContactPoint::Kp(v)`, `Kd(v)`: `/repo/src/contacts/contact-point.cpp` 113-127, and
`ContactTwoFramePositions::Kp(v)`, `Kd(v)`: `/repo/src/contacts/contact-two-frame-positions.cpp` 100-112: a `Vector6`
whose first three coefficients are assigned; `g` is the content of the others. -/
def gains6 {K : Type} (g : Nat → K) (k : Vec K) : Vec K := ⟨6, fun i => if i < 3 then k i else g i⟩

/-- `motion_mask << 1., 1., 1., 0., 0., 0.` (`contact-point.cpp` 39-40, `contact-two-frame-positions.cpp` 43-44). -/
def positionMask {K : Type} [Zero K] [One K] : Vec K := ⟨6, fun i => if i < 3 then 1 else 0⟩

/-! The motion task of a `ContactPoint`. -/
namespace PointMotion
variable {K : Type} [Field K] [LinearOrder K] [FloorRing K]

/-- Constructor: `contact-point.cpp` 23, 39-41. -/
def new (g g' : Nat → K) (name : String) (nv : Nat) (frameExists : Bool) : Res (SE3Task K) Unit :=
  match SE3Task.new g name nv frameExists with
  | .ok s _ => s.setMask g' positionMask
  | r => r

/-- The calls that reach the motion task: `Kp`, `Kd` (`contact-point.cpp` 113-127), `setReference`
(178-180), `useLocalFrame` (44-46), `computeMotionTask`. -/
inductive Op (K : Type) where
  | setKp (g : Nat → K) (k : Vec K)
  | setKd (g : Nat → K) (k : Vec K)
  | setReference (M : SE3 K)
  | useLocalFrame (b : Bool)
  | compute (k : FrameKin K)

/-- One call. -/
def step (log3 : M3 K → V3 K) (s : SE3Task K) : Op K → Res (SE3Task K) Unit
  | .setKp g k => if k.size = 3 then s.setKp (gains6 g k) else .throw s
  | .setKd g k => if k.size = 3 then s.setKd (gains6 g k) else .throw s
  | .setReference M => s.setReferencePose M
  | .useLocalFrame b => .ok (s.useLocalFrame b) ()
  | .compute k => SE3Task.step log3 s (.compute k)

/-- `Kp()`: `contact-point.cpp` 103-106. -/
def kp3 (s : SE3Task K) : Vec K := s.kp.head 3

/-- `Kd()`: `contact-point.cpp` 108-111. -/
def kd3 (s : SE3Task K) : Vec K := s.kd.head 3

end PointMotion

/-! The motion task of a `ContactTwoFramePositions`. -/
namespace PairMotion
variable {K : Type} [Field K] [LinearOrder K] [FloorRing K]

/-- Constructor: `contact-two-frame-positions.cpp` 22-24, 43-45. -/
def new (g g' : Nat → K) (name : String) (nv : Nat) : Res (TwoFrames K) Unit :=
  match TwoFrames.new g name nv with
  | .ok s _ => s.setMask g' positionMask
  | r => r

/-- The calls that reach the motion task: `Kp`, `Kd` (`contact-two-frame-positions.cpp` 100-112),
`computeMotionTask`. -/
inductive Op (K : Type) where
  | setKp (g : Nat → K) (k : Vec K)
  | setKd (g : Nat → K) (k : Vec K)
  | compute (k1 k2 : FrameKin K)

/-- One call.  Gains of another size fail an `assert`, or an assignment of Eigen. -/
def step (ndebug : Bool) (log3 : M3 K → V3 K) (s : TwoFrames K) : Op K → Res (TwoFrames K) Unit
  | .setKp g k => if k.size = 3 then s.setKp ndebug (gains6 g k) else if ndebug then .ub else .abort
  | .setKd g k => if k.size = 3 then s.setKd ndebug (gains6 g k) else if ndebug then .ub else .abort
  | .compute k1 k2 => TwoFrames.step ndebug log3 s (.compute k1 k2)

end PairMotion

/-! ## Getters that are not overridden -/

/-- `m_dummy`, returned by the getters of `TaskMotion` (`/repo/src/tasks/task-motion.cpp` 26-35); it is never
assigned. -/
def motionDummy {K : Type} [Zero K] : Vec K := Vec.zero 0

/-- `position()`, `velocity()`, `position_ref()`, `velocity_ref()` of a `TaskTwoFramesEquality`, which inherits them. -/
def TwoFrames.position {K : Type} [Zero K] (_ : TwoFrames K) : Vec K := motionDummy

/-- `position()`, `velocity()`, `position_error()`, `velocity_error()`, `position_ref()`, `velocity_ref()`,
`getDesiredAcceleration()`, `getAcceleration(dv)` of a `TaskAMEquality`, which inherits them. -/
def AmTask.position {K : Type} [Zero K] (_ : AmTask K) : Vec K := motionDummy

end Tsid
