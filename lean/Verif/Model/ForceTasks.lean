import Verif.Model.Contact
import Verif.Model.CartesianTasks

/-!
# Contact-force tasks and the capture-point task

`TaskCopEquality`, `TaskContactForceEquality`, `TaskCapturePointInequality`
(`/repo/src/tasks/task-cop-equality.cpp`, `task-contact-force-equality.cpp`, `task-capture-point-inequality.cpp`).
-/

namespace Tsid

/-! ## Centre of pressure -/

/-- What `TaskCopEquality::compute` reads from one entry of the contact list: the contact, the index of its first force
variable (`/repo/include/tsid/formulations/contact-level.hpp` 20-31) and the placement of its frame in the current
cycle. -/
structure CopContact (K : Type) where
  contact : Contact K
  index : Nat
  pose : SE3 K

/-- Members of `TaskCopEquality` (`/repo/include/tsid/tasks/task-cop-equality.hpp` 68-72).  `listSet`: `m_contacts` has
been assigned (the constructor leaves the pointer uninitialised). -/
structure CopTask (K : Type) where
  normal : V3 K
  ref : V3 K
  con : Constraint K
  listSet : Bool

namespace CopTask
variable {K : Type} [Field K]

/-- Constructor: `task-cop-equality.cpp` 13-19. -/
def new (name : String) : CopTask K := ⟨⟨0, 0, 1⟩, ⟨0, 0, 0⟩, Constraint.mkEq name 3 3, false⟩

/-- `M.middleCols(col, 3) = d * normal.transpose()`: `task-cop-equality.cpp` 67. -/
def writePoint (M : Nat → Nat → K) (col : Nat) (d n : V3 K) : Nat → Nat → K :=
  fun r c => if col ≤ c ∧ c < col + 3 then d.get r * n.get (c - col) else M r c

/-- The inner loop over the points of one contact: `task-cop-equality.cpp` 51-68. -/
def writeContact (ref n : V3 K) (M : Nat → Nat → K) (c : CopContact K) : Nat → Nat → K :=
  (List.range (Contact.kindPoints c.contact.kind)).foldl
    (fun M j => writePoint M (c.index + 3 * j) (c.pose.actPoint (c.contact.points j) - ref) n) M

/-- The contact can be handled: its motion task is a `TaskSE3Equality` (the `static_cast` at lines 56-57 is undefined
behaviour for the `TaskTwoFramesEquality` of a `ContactTwoFramePositions`), and its columns exist. -/
def usable (n : Nat) (c : CopContact K) : Bool :=
  c.contact.kind != .twoFrames && decide (c.index + 3 * Contact.kindPoints c.contact.kind ≤ n)

/-- `compute(t, q, v, data)`: `task-cop-equality.cpp` 38-71, where `*m_contacts` contains `cs`.  `M.resize(3, n)` keeps
the entries if the size does not change and otherwise leaves them uninitialised (`g`). -/
def compute (g : Nat → Nat → K) (s : CopTask K) (cs : List (CopContact K)) : Res (CopTask K) (Constraint K) :=
  if s.listSet then
    let n := (cs.map fun c => c.contact.nForce).sum
    if cs.all (usable n) then
      let M0 := if s.con.mat.rows = 3 ∧ s.con.mat.cols = n then s.con.mat.get else g
      let s' := { s with con := { s.con with mat := ⟨3, n, cs.foldl (writeContact s.ref s.normal) M0⟩ } }
      .ok s' s'.con
    else .ub
  else .ub

/-- The calls a user can make.  `compute5` is the overload with the contact list, called by the formulation. -/
inductive Op (K : Type) where
  | setReference (p : V3 K)
  | setContactNormal (n : V3 K)
  | setContactList
  | compute (g : Nat → Nat → K) (cs : List (CopContact K))
  | compute5 (g : Nat → Nat → K) (cs : List (CopContact K))

/-- One call: `task-cop-equality.cpp` 21-24, 32-37, 77-81, 85. -/
def step (s : CopTask K) : Op K → Res (CopTask K) (Option (Constraint K))
  | .setReference p => .ok { s with ref := p } none
  | .setContactNormal n => .ok { s with normal := n } none
  | .setContactList => .ok { s with listSet := true } none
  | .compute g cs =>
    match compute g s cs with
    | .ok s' c => .ok s' (some c)
    | _ => .ub
  | .compute5 g cs =>
    match compute g { s with listSet := true } cs with
    | .ok s' c => .ok s' (some c)
    | _ => .ub

end CopTask

/-! ## Tracking of a contact force -/

/-- Members of `TaskContactForceEquality` (`/repo/include/tsid/tasks/task-contact-force-equality.hpp` 76-88);
`contact` is the identity of `*m_contact`. -/
structure ForceTask (K : Type) where
  contact : Nat
  cname : String
  con : Constraint K
  ref : Sample K
  fext : Sample K
  int : Vec K
  kp : Vec K
  kd : Vec K
  ki : Vec K
  dt : K
  leak : K

namespace ForceTask
variable {K : Type} [Field K]

/-- Constructor: `task-contact-force-equality.cpp` 15-27.  The gains stay empty.  `cname` is the name of the contact. -/
def new (name : String) (dt : K) (contact : Nat) (cname : String) : ForceTask K :=
  ⟨contact, cname, Constraint.mkEq name 6 12, Sample.zero 6 6, Sample.zero 6 6, Vec.zero 6, Vec.zero 0, Vec.zero 0,
    Vec.zero 0, dt, 1 / 20⟩

/-- `compute(t, q, v, data)`: `task-contact-force-equality.cpp` 116-134, where `gen` is the force generator of the
associated contact.  Vectors of different sizes in one expression are undefined behaviour. -/
def compute (s : ForceTask K) (gen : Mat K) : Res (ForceTask K) (Constraint K) :=
  let n := s.ref.pos.size
  if s.fext.pos.size = n ∧ s.kp.size = n ∧ s.kd.size = n ∧ s.ki.size = n ∧ s.ref.vel.size = n ∧
      s.fext.vel.size = n ∧ s.int.size = n then
    let err := s.ref.pos.sub s.fext.pos
    let fRef : Vec K := ⟨n, fun i => s.ref.pos i + s.kp i * err i + s.kd i * (s.ref.vel i - s.fext.vel i) +
      s.ki i * s.int i⟩
    let s' := { s with
      con := { s.con with mat := gen, vec := fRef }
      int := ⟨n, fun i => s.int i + (err i - s.leak * s.int i) * s.dt⟩ }
    .ok s' s'.con
  else .ub

/-- `compute(t, q, v, data, contacts)`: `task-contact-force-equality.cpp` 90-114, where `names` are the names of the
listed contacts. -/
def compute5 (s : ForceTask K) (gen : Mat K) (names : List String) : Res (ForceTask K) (Constraint K) :=
  if s.cname ≠ "" then
    if s.cname ∈ names then compute s gen else .ok s s.con
  else .ok s s.con

/-- The calls a user can make. -/
inductive Op (K : Type) where
  | setKp (k : Vec K)
  | setKd (k : Vec K)
  | setKi (k : Vec K)
  | setLeakRate (l : K)
  | setAssociatedContact (contact : Nat) (cname : String)
  | setReference (r : Sample K)
  | setExternalForce (f : Sample K)
  | compute (gen : Mat K)
  | compute5 (gen : Mat K) (names : List String)

/-- One call: setters `task-contact-force-equality.cpp` 38-56, 66-74, 81-83. -/
def step (s : ForceTask K) : Op K → Res (ForceTask K) (Option (Constraint K))
  | .setKp k => if k.size = 6 then .ok { s with kp := k } none else .throw s
  | .setKd k => if k.size = 6 then .ok { s with kd := k } none else .throw s
  | .setKi k => if k.size = 6 then .ok { s with ki := k } none else .throw s
  | .setLeakRate l => .ok { s with leak := l } none
  | .setAssociatedContact c n => .ok { s with contact := c, cname := n } none
  | .setReference r => .ok { s with ref := r } none
  | .setExternalForce f => .ok { s with fext := f } none
  | .compute gen =>
    match compute s gen with
    | .ok s' c => .ok s' (some c)
    | _ => .ub
  | .compute5 gen names =>
    match compute5 s gen names with
    | .ok s' c => .ok s' (some c)
    | _ => .ub

end ForceTask

/-! ## Capture point -/

/-- Members of `TaskCapturePointInequality` (`/repo/include/tsid/tasks/task-capture-point-inequality.hpp` 63-84) that
are read across calls.  Pairs are `Vector`s of size 2. -/
structure CaptureTask (K : Type) where
  nv : Nat
  con : Constraint K
  margin : K × K
  limX : K × K
  limY : K × K
  dt : K
  g : K
  drift : V3 K

namespace CaptureTask
variable {K : Type} [Field K] [LinearOrder K] [HasSqrt K]

/-- Constructor: `task-capture-point-inequality.cpp` 21-46; `gravity` is `robot.model().gravity.linear()`.  `m_drift` is
not initialised (`d`). -/
def new (name : String) (nv : Nat) (gravity : V3 K) (dt : K) (d : V3 K) : CaptureTask K :=
  ⟨nv, Constraint.mkIneq name 2 nv, (0, 0), (0, 0), (0, 0), dt, gravity.norm, d⟩

/-- `compute`: `task-capture-point-inequality.cpp` 85-119. -/
def compute (s : CaptureTask K) (k : ComKin K) : Res (CaptureTask K) (Constraint K) :=
  let w := sqrt (s.g / k.pos.z)
  let ka := (2 * w) / ((w * s.dt + 2) * s.dt)
  let rpMin : Nat → K := fun i => if i = 0 then s.limX.1 + s.margin.1 else s.limY.1 + s.margin.2
  let rpMax : Nat → K := fun i => if i = 0 then s.limX.2 - s.margin.1 else s.limY.2 - s.margin.2
  let b : (Nat → K) → Nat → K := fun rp i => ka * (rp i - k.pos.get i - k.vel.get i * (s.dt + 1 / w))
  let c : Constraint K := { s.con with
    lb := ⟨2, fun i => b rpMin i - k.drift.get i⟩
    ub := ⟨2, fun i => b rpMax i - k.drift.get i⟩ }
  match c.setMatrix ⟨2, s.nv, fun i j => (k.jac j).get i⟩ with
  | .ok c' _ => .ok { s with con := c', drift := k.drift } c'
  | _ => .throw { s with con := c, drift := k.drift }

/-- `getAcceleration(dv)`: `task-capture-point-inequality.cpp` 50-52: `matrix * dv - m_drift`, where `m_drift` has three
rows. -/
def getAcceleration (s : CaptureTask K) (dv : Vec K) : Res (CaptureTask K) (Vec K) :=
  if s.con.mat.cols = dv.size ∧ s.con.mat.rows = 3 then
    .ok s ⟨3, fun i => s.con.mat.mulVec dv i - s.drift.get i⟩
  else .ub

/-- The calls a user can make. -/
inductive Op (K : Type) where
  | setX (lo hi : K)
  | setY (lo hi : K)
  | setMargin (x y : K)
  | compute (k : ComKin K)

/-- One call: setters `task-capture-point-inequality.cpp` 59-83. -/
def step (s : CaptureTask K) : Op K → Res (CaptureTask K) (Option (Constraint K))
  | .setX lo hi => if lo ≤ hi then .ok { s with limX := (lo, hi) } none else .throw s
  | .setY lo hi => if lo ≤ hi then .ok { s with limY := (lo, hi) } none else .throw s
  | .setMargin x y => .ok { s with margin := (x, y) } none
  | .compute k =>
    match compute s k with
    | .ok s' c => .ok s' (some c)
    | .throw s' => .throw s'
    | .abort => .abort
    | .ub => .ub

end CaptureTask

end Tsid
