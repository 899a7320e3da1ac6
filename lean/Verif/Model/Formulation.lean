import Verif.Model.Constraint
import Verif.Model.Contact
import Verif.Model.Robot
import Mathlib.Logic.Function.Basic

/-!
# Inverse-dynamics formulation (accelerations and contact forces as variables)

Model of `InverseDynamicsFormulationAccForce`
(`/repo/src/formulations/inverse-dynamics-formulation-acc-force.cpp`, cited below as `accforce.cpp`, and
`/repo/include/tsid/formulations/inverse-dynamics-formulation-{acc-force,base}.hpp`,
`contact-level.hpp`).

* `std::shared_ptr<ConstraintBase>` objects live in `State.heap`, indexed by allocation number; the HQP data
  and the task/contact lists hold indices, so that writes through one are visible through the other.
* Tasks, contacts and measured forces are user objects, referenced by an identity (`Nat`).  Contact objects
  are part of the state since the formulation modifies them (`setMaxNormalForce`).
* `task.compute(...)`, `contact.computeMotionTask(...)`, `measuredForce.computeJointTorques(...)` and the
  rigid-body quantities of the current cycle are the arguments collected in `Cycle`.
* Counters `m_eq`, `m_in` (`unsigned int`) are integers here: no wrap-around.
-/

namespace Tsid

open Finset

/-- What the formulation reads from a task object when it is added or removed: `task.name()`,
`task.getConstraint().name()`, kind and rows of `task.getConstraint()`. -/
structure TaskInfo where
  name : String
  cname : String
  kind : Kind
  rows : Nat

/-- The task and measured-force objects of the user program. -/
structure World where
  task : Nat → TaskInfo
  mfName : Nat → String

/-- `TaskLevel` / `TaskLevelForce` (`inverse-dynamics-formulation-base.hpp` 28-46). -/
structure TaskLevel where
  tid : Nat
  prio : Nat
  cref : Nat
deriving DecidableEq, Repr

/-- `ContactLevel` (`contact-level.hpp` 20-31). -/
structure ContactLevel where
  cid : Nat
  index : Nat
  motion : Nat
  force : Nat
  reg : Nat
deriving DecidableEq, Repr

/-- `ContactTransitionInfo` (`inverse-dynamics-formulation-acc-force.hpp` 16-25); of the contact level only
the contact object is used. -/
structure Transition (K : Type) where
  tStart : K
  tEnd : K
  fStart : K
  fEnd : K
  cid : Nat

/-- Members of the formulation (`inverse-dynamics-formulation-acc-force.hpp` 108-131) and the user objects it
modifies (`contactObj`) or re-reads (`assoc`, the associated contact name of force tasks).
`mass`, `nle` stand for `m_robot.mass(m_data)` and `m_robot.nonLinearEffects(m_data)`. -/
structure State (K : Type) where
  robot : Robot K
  nv : Nat
  nu : Nat
  k : Nat
  nEq : Int
  nIn : Int
  t : K
  heap : Nat → Constraint K
  next : Nat
  baseId : Nat
  hqp : List (List (K × Nat))
  motions : List TaskLevel
  forces : List TaskLevel
  acts : List TaskLevel
  contacts : List ContactLevel
  measured : List Nat
  trans : List (Transition K)
  Jc : Mat K
  hfext : Vec K
  mass : Mat K
  nle : Vec K
  decoded : Bool
  dv : Vec K
  f : Vec K
  tau : Vec K
  contactObj : Nat → Contact K
  assoc : Nat → String

/-- Results of the computations of one control cycle that are external to the formulation: `data.M` (already
symmetrised), `data.nle`, and the constraints returned by the tasks and contacts and torques of the
measured forces, by object identity. -/
structure Cycle (K : Type) where
  M : Mat K
  nle : Vec K
  motionOut : Nat → Constraint K
  forceOut : Nat → Constraint K
  actOut : Nat → Constraint K
  contactMotion : Nat → Constraint K
  torque : Nat → Vec K

namespace Formulation
variable {K : Type} [Field K] [LinearOrder K] [HasSqrt K]

/-- Constructor: `accforce.cpp` 20-39.  `m_robot` is a *copy* of the robot
(`inverse-dynamics-formulation-base.hpp` 157, `RobotWrapper m_robot`).  `m_data`, hence mass matrix and
nonlinear effects, start from pinocchio's zero-initialised `Data`. -/
def init (robot : Robot K) (contactObj : Nat → Contact K) (assoc : Nat → String) : State K :=
  { robot := robot, nv := robot.nv, nu := robot.nv - robot.na, k := 0
    nEq := (robot.nv - robot.na : Nat), nIn := 0, t := 0
    heap := fun _ => Constraint.mkEq "base-dynamics" (robot.nv - robot.na) robot.nv
    next := 1, baseId := 0
    hqp := [[(1, 0)], []]
    motions := [], forces := [], acts := [], contacts := [], measured := [], trans := []
    Jc := Mat.zero 0 robot.nv
    hfext := Vec.zero robot.nv
    mass := robot.mass (Mat.zero robot.nv robot.nv), nle := Vec.zero robot.nv
    decoded := false, dv := Vec.zero 0, f := Vec.zero 0, tau := Vec.zero 0
    contactObj := contactObj, assoc := assoc }

/-- `nVar()`: `accforce.cpp` 43-45. -/
def nVar (s : State K) : Nat := s.nv + s.k

/-- All constraint objects in the HQP data, level by level. -/
def hqpIds (hqp : List (List (K × Nat))) : List Nat := hqp.flatten.map Prod.snd

/-- `constraint->resize(r, c)` for the equality and inequality constraints the formulation allocates
(`constraint-equality.cpp` 47-50, `constraint-inequality.cpp` 40-44); a bound would throw when `r ≠ c`, but
is never allocated by the formulation. -/
def zeroed (c : Constraint K) (r cols : Nat) : Constraint K :=
  match c.resize r cols with
  | .ok c' _ => c'
  | _ => c

/-- `resizeHqpData()`: `accforce.cpp` 51-59. -/
def resizeHqpData (s : State K) : State K :=
  let h1 := Function.update s.heap s.baseId (zeroed (s.heap s.baseId) s.nu (s.nv + s.k))
  { s with
    Jc := Mat.zero s.k s.nv
    heap := fun i => if i ∈ hqpIds s.hqp then zeroed (h1 i) (h1 i).rows (s.nv + s.k) else h1 i }

/-- `m_hqpData[p].push_back(x)`; `none` when `p` is out of bounds (undefined behaviour). -/
def pushLevel {α : Type} (l : List (List α)) (p : Nat) (x : α) : Option (List (List α)) :=
  if p < l.length then some (l.modify p (fun lv => lv ++ [x])) else none

/-- `if (priorityLevel > m_hqpData.size()) m_hqpData.resize(priorityLevel)`: `accforce.cpp` 65, 128. -/
def growLevels {α : Type} (l : List (List α)) (p : Nat) : List (List α) :=
  if p > l.length then l ++ List.replicate (p - l.length) [] else l

/-- `addTask(tl, weight, priorityLevel)`: `accforce.cpp` 61-83, and the same statements in
`addActuationTask`, lines 128-145.  Returns the new state and the index of the new constraint; `none` is the
out-of-bounds access of `m_hqpData[priorityLevel]`. -/
def addTask (W : World) (s : State K) (tid : Nat) (weight : K) (p : Nat) : Option (State K × Nat) :=
  let hqp1 := growLevels s.hqp p
  let info := W.task tid
  let c : Constraint K :=
    if info.kind = .equality then Constraint.mkEq info.cname info.rows (s.nv + s.k)
    else Constraint.mkIneq info.cname info.rows (s.nv + s.k)
  let nEq := if info.kind = .equality ∧ p = 0 then s.nEq + info.rows else s.nEq
  let nIn := if info.kind ≠ .equality ∧ p = 0 then s.nIn + info.rows else s.nIn
  match pushLevel hqp1 p (weight, s.next) with
  | none => none
  | some hqp2 =>
    some ({ s with heap := Function.update s.heap s.next c, next := s.next + 1
                   hqp := hqp2, nEq := nEq, nIn := nIn }, s.next)

/-- `addMotionTask`: `accforce.cpp` 85-99. -/
def addMotionTask (W : World) (s : State K) (tid : Nat) (weight : K) (p : Nat) (dur : K) :
    Res (State K) Bool :=
  if 0 ≤ weight then
    if 0 ≤ dur then
      match addTask W s tid weight p with
      | none => .ub
      | some (s', id) => .ok { s' with motions := s'.motions ++ [⟨tid, p, id⟩] } true
    else .throw s
  else .throw s

/-- `addForceTask`: `accforce.cpp` 101-114. -/
def addForceTask (W : World) (s : State K) (tid : Nat) (weight : K) (p : Nat) (dur : K) :
    Res (State K) Bool :=
  if 0 ≤ weight then
    if 0 ≤ dur then
      match addTask W s tid weight p with
      | none => .ub
      | some (s', id) => .ok { s' with forces := s'.forces ++ [⟨tid, p, id⟩] } true
    else .throw s
  else .throw s

/-- `addActuationTask`: `accforce.cpp` 116-148. -/
def addActuationTask (W : World) (s : State K) (tid : Nat) (weight : K) (p : Nat) (dur : K) :
    Res (State K) Bool :=
  if 0 ≤ weight then
    if 0 ≤ dur then
      match addTask W s tid weight p with
      | none => .ub
      | some (s', id) => .ok { s' with acts := s'.acts ++ [⟨tid, p, id⟩] } true
    else .throw s
  else .throw s

/-- Does an HQP entry refer to a constraint of the given name? -/
def named (heap : Nat → Constraint K) (name : String) (e : K × Nat) : Bool :=
  (heap e.2).name == name

/-- Inner loops of `updateTaskWeight`: set the weight of the first entry of that name. -/
def setWeight (heap : Nat → Constraint K) (name : String) (w : K) :
    List (K × Nat) → List (K × Nat) × Bool
  | [] => ([], false)
  | e :: l =>
    if named heap name e then ((w, e.2) :: l, true)
    else
      let r := setWeight heap name w l
      (e :: r.1, r.2)

/-- Outer loop of `updateTaskWeight` over the levels. -/
def setWeightLevels (heap : Nat → Constraint K) (name : String) (w : K) :
    List (List (K × Nat)) → List (List (K × Nat)) × Bool
  | [] => ([], false)
  | l :: ls =>
    let r := setWeight heap name w l
    if r.2 then (r.1 :: ls, true)
    else
      let r' := setWeightLevels heap name w ls
      (l :: r'.1, r'.2)

/-- `updateTaskWeight(name, w)`: `accforce.cpp` 150-163; level 0 is skipped. -/
def updateTaskWeight (s : State K) (name : String) (w : K) : Res (State K) Bool :=
  match s.hqp with
  | [] => .ok s false
  | l0 :: ls =>
    let r := setWeightLevels s.heap name w ls
    .ok { s with hqp := l0 :: r.1 } r.2

/-- `addRigidContact(contact, force_regularization_weight, motion_weight, motionPriorityLevel)`:
`accforce.cpp` 165-200. -/
def addRigidContact (s : State K) (cid : Nat) (wForce wMotion : K) (p : Nat) : Res (State K) Bool :=
  let c := s.contactObj cid
  let index := s.k
  let s1 := resizeHqpData { s with k := s.k + c.nForce }
  let nvar := s1.nv + s1.k
  let id1 := s1.next
  let id2 := s1.next + 1
  let id3 := s1.next + 2
  let heap := Function.update (Function.update (Function.update s1.heap
    id1 (Constraint.mkEq (c.name ++ "_motion_task") c.nMotion nvar))
    id2 (Constraint.mkIneq (c.name ++ "_force_constraint") c.forceIneq.rows nvar))
    id3 (Constraint.mkEq (c.name ++ "_force_reg_task") c.forceReg.rows nvar)
  match pushLevel s1.hqp p (wMotion, id1) with
  | none => .ub
  | some hqp1 =>
    match pushLevel hqp1 0 (1, id2) with
    | none => .ub
    | some hqp2 =>
      match pushLevel hqp2 1 (wForce, id3) with
      | none => .ub
      | some hqp3 =>
        .ok { s1 with
              heap := heap, next := s1.next + 3, hqp := hqp3
              contacts := s1.contacts ++ [⟨cid, index, id1, id2, id3⟩]
              nEq := if p = 0 then s1.nEq + c.nMotion else s1.nEq
              nIn := s1.nIn + c.forceIneq.rows } true

/-- Deprecated overload `addRigidContact(contact)`: `accforce.cpp` 202-207, with the default motion weight 1 and
motion priority level 0 of `inverse-dynamics-formulation-acc-force.hpp` 66-68. -/
def addRigidContactDefault (s : State K) (cid : Nat) : Res (State K) Bool :=
  addRigidContact s cid (1 / 100000) 1 0

/-- State of the scan of `updateRigidContactWeights`. -/
structure Scan (K : Type) where
  out : List (K × Nat)
  returned : Bool
  regFound : Bool
  motFound : Bool

/-- Inner loop of `updateRigidContactWeights`: `accforce.cpp` 217-230. -/
def scanLevel (heap : Nat → Constraint K) (cname : String) (wf wm : K) :
    List (K × Nat) → Bool → Bool → Scan K
  | [], rf, mf => ⟨[], false, rf, mf⟩
  | e :: l, rf, mf =>
    if named heap (cname ++ "_force_reg_task") e then
      let e' := if 0 ≤ wf then (wf, e.2) else e
      if mf ∨ wm < 0 then ⟨e' :: l, true, rf, mf⟩
      else
        let r := scanLevel heap cname wf wm l true mf
        { r with out := e' :: r.out }
    else if named heap (cname ++ "_motion_task") e then
      let e' := if 0 ≤ wm then (wm, e.2) else e
      if rf then ⟨e' :: l, true, rf, mf⟩
      else
        let r := scanLevel heap cname wf wm l rf true
        { r with out := e' :: r.out }
    else
      let r := scanLevel heap cname wf wm l rf mf
      { r with out := e :: r.out }

/-- Outer loop of `updateRigidContactWeights`: `accforce.cpp` 216-232. -/
def scanLevels (heap : Nat → Constraint K) (cname : String) (wf wm : K) :
    List (List (K × Nat)) → Bool → Bool → List (List (K × Nat)) × Bool
  | [], _, _ => ([], false)
  | l :: ls, rf, mf =>
    let r := scanLevel heap cname wf wm l rf mf
    if r.returned then (r.out :: ls, true)
    else
      let r' := scanLevels heap cname wf wm ls r.regFound r.motFound
      (r.out :: r'.1, r'.2)

/-- `updateRigidContactWeights(name, wf, wm)`: `accforce.cpp` 209-233. -/
def updateRigidContactWeights (s : State K) (cname : String) (wf wm : K) : Res (State K) Bool :=
  match s.hqp with
  | [] => .ok s false
  | l0 :: ls =>
    let r := scanLevels s.heap cname wf wm ls false false
    .ok { s with hqp := l0 :: r.1 } r.2

/-- `addMeasuredForce`: `accforce.cpp` 235-241. -/
def addMeasuredForce (s : State K) (mid : Nat) : Res (State K) Bool :=
  .ok { s with measured := s.measured ++ [mid] } true

/-- `removeMeasuredForce(name)`: `accforce.cpp` 568-577. -/
def removeMeasuredForce (W : World) (s : State K) (name : String) : Res (State K) Bool :=
  if s.measured.any (fun m => W.mfName m == name) then
    .ok { s with measured := s.measured.eraseP (fun m => W.mfName m == name) } true
  else .ok s false

/-- Loops of `removeFromHqpData`: `accforce.cpp` 579-593. -/
def removeFromLevels (heap : Nat → Constraint K) (name : String) :
    List (List (K × Nat)) → List (List (K × Nat)) × Bool
  | [] => ([], false)
  | l :: ls =>
    if l.any (named heap name) then (l.eraseP (named heap name) :: ls, true)
    else
      let r := removeFromLevels heap name ls
      (l :: r.1, r.2)

/-- `removeFromHqpData(name)`: `accforce.cpp` 579-593. -/
def removeFromHqpData (s : State K) (name : String) : State K × Bool :=
  let r := removeFromLevels s.heap name s.hqp
  ({ s with hqp := r.1 }, r.2)

/-- `getTaskPriority(name)`: `accforce.cpp` 595-607; `none` when the name is not found
(`assert(false)`, else `(unsigned)-1`). -/
def getTaskPriority (s : State K) (name : String) : Option Nat :=
  s.hqp.findIdx? (fun l => l.any (named s.heap name))

/-- `removeTask(name)`: `accforce.cpp` 465-506.  In a debug build the call aborts when no HQP entry has the
name.  A removed motion or actuation task of level 0 decreases the counters, a removed force task does not
(lines 486-492). -/
def removeTask (ndebug : Bool) (W : World) (s : State K) (name : String) : Res (State K) Bool :=
  let r := removeFromHqpData s name
  let s1 := r.1
  if !r.2 && !ndebug then .abort
  else
    let isName : TaskLevel → Bool := fun l => (W.task l.tid).name == name
    let dec (s1 : State K) (l : TaskLevel) : State K :=
      if l.prio = 0 then
        if (s1.heap l.cref).kind = .equality then { s1 with nEq := s1.nEq - (s1.heap l.cref).rows }
        else { s1 with nIn := s1.nIn - (s1.heap l.cref).rows }
      else s1
    match s1.motions.find? isName with
    | some l => .ok { dec s1 l with motions := s1.motions.eraseP isName } true
    | none =>
      if s1.forces.any isName then .ok { s1 with forces := s1.forces.eraseP isName } true
      else
        match s1.acts.find? isName with
        | some l => .ok { dec s1 l with acts := s1.acts.eraseP isName } true
        | none => .ok s1 false

/-- Re-indexing of the contacts: `accforce.cpp` 559-563. -/
def reindex (obj : Nat → Contact K) : Nat → List ContactLevel → List ContactLevel
  | _, [] => []
  | k, c :: cs => { c with index := k } :: reindex obj (k + (obj c.cid).nForce) cs

/-- Immediate part of `removeRigidContact` (`transition_duration ≤ 0`): `accforce.cpp` 532-566. -/
def removeContactNow (ndebug : Bool) (s : State K) (name : String) : Res (State K) Bool :=
  let prio := getTaskPriority s (name ++ "_motion_task")
  if prio = none ∧ ndebug = false then .abort
  else
    let isMotion : Bool := prio = some 0
    let r1 := removeFromHqpData s (name ++ "_motion_task")
    let r2 := removeFromHqpData r1.1 (name ++ "_force_constraint")
    let r3 := removeFromHqpData r2.1 (name ++ "_force_reg_task")
    if ndebug = false ∧ (r1.2 && r2.2 && r3.2) = false then .abort
    else
      let s3 := r3.1
      let isName : ContactLevel → Bool := fun c => (s3.contactObj c.cid).name == name
      match s3.contacts.find? isName with
      | some c =>
        let s4 := resizeHqpData { s3 with
          k := s3.k - (s3.contactObj c.cid).nForce
          nEq := if isMotion then s3.nEq - (s3.heap c.motion).rows else s3.nEq
          nIn := s3.nIn - (s3.heap c.force).rows
          contacts := s3.contacts.eraseP isName }
        .ok { s4 with contacts := reindex s4.contactObj 0 s4.contacts } (r1.2 && r2.2 && r3.2)
      | none => .ok { s3 with contacts := reindex s3.contactObj 0 s3.contacts } false

/-- `removeRigidContact(name, transition_duration)`: `accforce.cpp` 508-566. -/
def removeRigidContact (ndebug : Bool) (s : State K) (name : String) (dur : K) : Res (State K) Bool :=
  if 0 < dur then
    match s.contacts.find? (fun c => (s.contactObj c.cid).name == name) with
    | none => .ok s false
    | some c =>
      let obj := s.contactObj c.cid
      let fStart : Option K :=
        if c.index + obj.nForce ≤ s.f.size then obj.getNormalForce (s.f.segment c.index obj.nForce)
        else some obj.fMax
      match fStart with
      | none => .throw s
      | some f0 =>
        .ok { s with trans := s.trans ++ [⟨s.t, s.t + dur, f0, obj.fMin + 1 / 1000, c.cid⟩] } true
  else removeContactNow ndebug s name

/-- Interpolated bound: `accforce.cpp` 252-254. -/
def interpolate (tr : Transition K) (t : K) : K :=
  tr.fStart + (t - tr.tStart) / (tr.tEnd - tr.tStart) * (tr.fEnd - tr.fStart)

/-- Transition loop of `computeProblemData`: `accforce.cpp` 247-266.  `pre` are the transitions already
visited (kept), the second list those still to visit. -/
def runTransitions (ndebug : Bool) :
    List (Transition K) → List (Transition K) → State K → Res (State K) Unit
  | _, [], s => .ok s ()
  | pre, tr :: rest, s =>
    if ndebug = false ∧ ¬ tr.tStart ≤ s.t then .abort
    else if s.t ≤ tr.tEnd then
      match (s.contactObj tr.cid).setMaxNormalForce (interpolate tr s.t) with
      | .ok c' _ =>
        runTransitions ndebug (pre ++ [tr]) rest
          { s with contactObj := Function.update s.contactObj tr.cid c' }
      | .throw _ => .throw s
      | .abort => .abort
      | .ub => .ub
    else
      match removeContactNow ndebug s (s.contactObj tr.cid).name with
      | .ok s' _ => .ok { s' with trans := pre ++ rest } ()
      | .throw s' => .throw s'
      | .abort => .abort
      | .ub => .ub

/-- Constraint heap and contact Jacobian during assembly. -/
abbrev Asm (K : Type) := (Nat → Constraint K) × Mat K

/-- One contact in `computeProblemData`: `accforce.cpp` 270-292.  `none` = Eigen size mismatch. -/
def assembleContact (cy : Cycle K) (obj : Nat → Contact K) (nv : Nat) (a : Asm K) (cl : ContactLevel) :
    Option (Asm K) :=
  let c := obj cl.cid
  let m := c.nForce
  let mc := cy.contactMotion cl.cid
  match (a.1 cl.motion).mat.setCols 0 nv mc.mat with
  | none => none
  | some A1 =>
    let h1 := Function.update a.1 cl.motion { a.1 cl.motion with mat := A1, vec := mc.vec }
    if c.forceGen.rows = mc.mat.rows then
      match a.2.setRows cl.index m (c.forceGen.transpose.mul mc.mat) with
      | none => none
      | some Jc =>
        match (h1 cl.force).mat.setCols (nv + cl.index) m c.forceIneq.mat with
        | none => none
        | some A2 =>
          let h2 := Function.update h1 cl.force
            { h1 cl.force with mat := A2, lb := c.forceIneq.lb, ub := c.forceIneq.ub }
          match (h2 cl.reg).mat.setCols (nv + cl.index) m c.forceReg.mat with
          | none => none
          | some A3 =>
            some (Function.update h2 cl.reg { h2 cl.reg with mat := A3, vec := c.forceReg.vec }, Jc)
    else none

/-- Loop over the contacts. -/
def assembleContacts (cy : Cycle K) (obj : Nat → Contact K) (nv : Nat) :
    List ContactLevel → Asm K → Option (Asm K)
  | [], a => some a
  | cl :: cls, a =>
    match assembleContact cy obj nv a cl with
    | none => none
    | some a' => assembleContacts cy obj nv cls a'

/-- `h_fext`: `accforce.cpp` 295-298; `none` when a torque vector has a wrong size. -/
def sumTorques (cy : Cycle K) (nv : Nat) : List Nat → Vec K → Option (Vec K)
  | [], h => some h
  | m :: ms, h =>
    if (cy.torque m).size = nv then sumTorques cy nv ms (h.add (cy.torque m)) else none

/-- Base dynamics: `accforce.cpp` 304-311. -/
def assembleBase (s : State K) (mass : Mat K) (nle hfext : Vec K) (Jc : Mat K)
    (heap : Nat → Constraint K) : Option (Nat → Constraint K) :=
  let b := heap s.baseId
  match b.mat.setCols 0 s.nv (mass.topRows s.nu) with
  | none => none
  | some A1 =>
    match A1.setCols (A1.cols - s.k) s.k ((Jc.leftCols s.nu).transpose.neg) with
    | none => none
    | some A2 =>
      some (Function.update heap s.baseId
        { b with mat := A2, vec := ((nle.head s.nu).sub (hfext.head s.nu)).neg })

/-- One motion task: `accforce.cpp` 315-329.  `none` = Eigen size mismatch, or the task returned a constraint
of another kind than the one it was added with (`assert(false)` in the accessors). -/
def assembleMotion (cy : Cycle K) (nv : Nat) (heap : Nat → Constraint K) (tl : TaskLevel) :
    Option (Nat → Constraint K) :=
  let c := cy.motionOut tl.tid
  let d := heap tl.cref
  match c.kind with
  | .equality =>
    match d.mat.setCols 0 nv c.mat with
    | some A => if d.kind = .equality then
        some (Function.update heap tl.cref { d with mat := A, vec := c.vec }) else none
    | none => none
  | .inequality =>
    match d.mat.setCols 0 nv c.mat with
    | some A => if d.kind = .inequality then
        some (Function.update heap tl.cref { d with mat := A, lb := c.lb, ub := c.ub }) else none
    | none => none
  | .bound =>
    match d.mat.setCols 0 nv (Mat.identity nv) with
    | some A => if d.kind = .inequality then
        some (Function.update heap tl.cref { d with mat := A, lb := c.lb, ub := c.ub }) else none
    | none => none

/-- Columns assigned to a force task: `accforce.cpp` 334-349. -/
def forceBlock (obj : Nat → Contact K) (contacts : List ContactLevel) (k : Nat) (assoc : String) :
    Nat × Nat :=
  if assoc ≠ "" then
    match contacts.find? (fun cl => assoc == (obj cl.cid).name) with
    | some cl => (cl.index, (obj cl.cid).nForce)
    | none => (0, k)
  else (0, k)

/-- One force task: `accforce.cpp` 331-371. -/
def assembleForce (cy : Cycle K) (nv : Nat) (blk : Nat → Nat × Nat) (heap : Nat → Constraint K)
    (tl : TaskLevel) : Option (Nat → Constraint K) :=
  let c := cy.forceOut tl.tid
  let d := heap tl.cref
  let i0 := nv + (blk tl.tid).1
  let cs := (blk tl.tid).2
  match c.kind with
  | .equality =>
    match d.mat.setCols i0 cs c.mat with
    | some A => if d.kind = .equality then
        some (Function.update heap tl.cref { d with mat := A, vec := c.vec }) else none
    | none => none
  | .inequality =>
    match d.mat.setCols i0 cs c.mat with
    | some A => if d.kind = .inequality then
        some (Function.update heap tl.cref { d with mat := A, lb := c.lb, ub := c.ub }) else none
    | none => none
  | .bound =>
    match d.mat.setCols i0 cs (Mat.identity cs) with
    | some A => if d.kind = .inequality then
        some (Function.update heap tl.cref { d with mat := A, lb := c.lb, ub := c.ub }) else none
    | none => none

/-- One actuation task: `accforce.cpp` 373-396.  `Ma`, `ha`, `Ja` are the actuated rows/columns of mass
matrix, bias force and contact Jacobian (lines 300-303). -/
def assembleAct (cy : Cycle K) (nv k : Nat) (Ma : Mat K) (ha : Vec K) (Ja : Mat K)
    (heap : Nat → Constraint K) (tl : TaskLevel) : Option (Nat → Constraint K) :=
  let c := cy.actOut tl.tid
  let d := heap tl.cref
  match c.kind with
  | .equality =>
    if c.mat.cols = Ma.rows ∧ c.vec.size = c.mat.rows ∧ d.kind = .equality then
      match d.mat.setCols 0 nv (c.mat.mul Ma) with
      | some A1 =>
        match A1.setCols (A1.cols - k) k (c.mat.neg.mul Ja.transpose) with
        | some A2 =>
          some (Function.update heap tl.cref { d with mat := A2, vec := c.vec.sub (c.mat.mulVec ha) })
        | none => none
      | none => none
    else none
  | .inequality =>
    if c.mat.cols = Ma.rows ∧ c.lb.size = c.mat.rows ∧ c.ub.size = c.mat.rows ∧ d.kind = .inequality then
      match d.mat.setCols 0 nv (c.mat.mul Ma) with
      | some A1 =>
        match A1.setCols (A1.cols - k) k (c.mat.neg.mul Ja.transpose) with
        | some A2 =>
          some (Function.update heap tl.cref { d with
            mat := A2, lb := c.lb.sub (c.mat.mulVec ha), ub := c.ub.sub (c.mat.mulVec ha) })
        | none => none
      | none => none
    else none
  | .bound =>
    if c.lb.size = ha.size ∧ c.ub.size = ha.size ∧ d.kind = .inequality then
      match d.mat.setCols 0 nv Ma with
      | some A1 =>
        match A1.setCols (A1.cols - k) k Ja.transpose.neg with
        | some A2 =>
          some (Function.update heap tl.cref { d with mat := A2, lb := c.lb.sub ha, ub := c.ub.sub ha })
        | none => none
      | none => none
    else none

/-- Left-to-right loop over levels with possible undefined behaviour. -/
def loop {α H : Type} (step : H → α → Option H) : List α → H → Option H
  | [], h => some h
  | a :: as, h =>
    match step h a with
    | none => none
    | some h' => loop step as h'

/-- Body of `computeProblemData` after the transitions: `accforce.cpp` 268-400.
`none` = Eigen size mismatch. -/
def assemble (cy : Cycle K) (s : State K) : Option (State K) :=
  let mass := s.robot.mass cy.M
  let nle := cy.nle
  match assembleContacts cy s.contactObj s.nv s.contacts (s.heap, s.Jc) with
  | none => none
  | some (h1, Jc) =>
    match sumTorques cy s.nv s.measured (Vec.zero s.nv) with
    | none => none
    | some hfext =>
      let na := s.nv - s.nu
      let Ma := mass.bottomRows na
      let ha := (nle.tail na).sub (hfext.tail na)
      let Ja := Jc.rightCols na
      match assembleBase s mass nle hfext Jc h1 with
      | none => none
      | some h2 =>
        match loop (assembleMotion cy s.nv) s.motions h2 with
        | none => none
        | some h3 =>
          match loop (assembleForce cy s.nv
              (fun tid => forceBlock s.contactObj s.contacts s.k (s.assoc tid))) s.forces h3 with
          | none => none
          | some h4 =>
            match loop (assembleAct cy s.nv s.k Ma ha Ja) s.acts h4 with
            | none => none
            | some h5 =>
              some { s with heap := h5, Jc := Jc, hfext := hfext, mass := mass, nle := nle
                            decoded := false }

/-- `computeProblemData(time, q, v)`: `accforce.cpp` 243-401. -/
def computeProblemData (ndebug : Bool) (cy : Cycle K) (t : K) (s : State K) : Res (State K) Unit :=
  let s0 := { s with t := t }
  match runTransitions ndebug [] s0.trans s0 with
  | .ok s1 _ =>
    match assemble cy s1 with
    | some s2 => .ok s2 ()
    | none => .ub
  | .throw s1 => .throw s1
  | .abort => .abort
  | .ub => .ub

/-- `decodeSolution(sol)`: `accforce.cpp` 403-417; `none` when the solution is too short for `head` or `tail`. -/
def decodeSolution (s : State K) (x : Vec K) : Option (State K) :=
  if s.decoded then some s
  else if s.nv ≤ x.size ∧ s.k ≤ x.size then
    let na := s.nv - s.nu
    let Ma := s.mass.bottomRows na
    let ha := (s.nle.tail na).sub (s.hfext.tail na)
    let Ja := s.Jc.rightCols na
    let dv := x.head s.nv
    let f := x.tail s.k
    some { s with dv := dv, f := f
                  tau := (ha.add (Ma.mulVec dv)).sub (Ja.transpose.mulVec f)
                  decoded := true }
  else none

/-- `getActuatorForces(sol)`: `accforce.cpp` 419-423. -/
def getActuatorForces (s : State K) (x : Vec K) : Res (State K) (Vec K) :=
  match decodeSolution s x with
  | some s' => .ok s' s'.tau
  | none => .ub

/-- `getAccelerations(sol)`: `accforce.cpp` 425-429. -/
def getAccelerations (s : State K) (x : Vec K) : Res (State K) (Vec K) :=
  match decodeSolution s x with
  | some s' => .ok s' s'.dv
  | none => .ub

/-- `getContactForces(sol)`: `accforce.cpp` 431-435. -/
def getContactForces (s : State K) (x : Vec K) : Res (State K) (Vec K) :=
  match decodeSolution s x with
  | some s' => .ok s' s'.f
  | none => .ub

/-- `getContactForces(name, sol)`: `accforce.cpp` 437-449. -/
def getContactForcesOf (s : State K) (name : String) (x : Vec K) : Res (State K) (Vec K) :=
  match decodeSolution s x with
  | none => .ub
  | some s' =>
    match s'.contacts.find? (fun c => (s'.contactObj c.cid).name == name) with
    | some c =>
      let n := (s'.contactObj c.cid).nForce
      if c.index + n ≤ s'.f.size then .ok s' (s'.f.segment c.index n) else .ub
    | none => .ok s' (Vec.zero 0)

/-- `getContactForces(name, sol, f)`: `accforce.cpp` 451-463: returns the Boolean result and the final value of
the output argument `f`.  A wrong size of `f` is an assertion failure of Eigen. -/
def getContactForcesInto (s : State K) (name : String) (x : Vec K) (out : Vec K) :
    Res (State K) (Bool × Vec K) :=
  match decodeSolution s x with
  | none => .ub
  | some s' =>
    match s'.contacts.find? (fun c => (s'.contactObj c.cid).name == name) with
    | some c =>
      let n := (s'.contactObj c.cid).nForce
      if out.size = n ∧ c.index + n ≤ s'.f.size then .ok s' (true, s'.f.segment c.index n) else .ub
    | none => .ok s' (false, out)

/-- Calls that change a contact object directly (`contact.setXxx(...)` by the user). -/
inductive ContactSet (K : Type) where
  | points (P : Mat K)
  | normal (n : Vec K)
  | friction (mu : K)
  | fMin (m : K)
  | fMax (m : K)
  | forceRef (f : Vec K)
  | regWeights (w : Vec K)

/-- Forget the result of a call. -/
def void {σ α : Type} : Res σ α → Res σ Unit
  | .ok s _ => .ok s ()
  | .throw s => .throw s
  | .abort => .abort
  | .ub => .ub

/-- Apply a setter to a contact object. -/
def applySet (c : Contact K) : ContactSet K → Res (Contact K) Unit
  | .points P => void (c.setContactPoints P)
  | .normal n => void (c.setContactNormal n)
  | .friction mu => void (c.setFrictionCoefficient mu)
  | .fMin m => void (c.setMinNormalForce m)
  | .fMax m => void (c.setMaxNormalForce m)
  | .forceRef f => c.setForceReference f
  | .regWeights w => c.setRegularizationWeights w

/-- The calls a user program can make on the formulation and on the objects it refers to. -/
inductive Op (K : Type) where
  | addMotionTask (tid : Nat) (w : K) (p : Nat) (dur : K)
  | addForceTask (tid : Nat) (w : K) (p : Nat) (dur : K)
  | addActuationTask (tid : Nat) (w : K) (p : Nat) (dur : K)
  | updateTaskWeight (name : String) (w : K)
  | addRigidContact (cid : Nat) (wf wm : K) (p : Nat)
  | updateRigidContactWeights (name : String) (wf wm : K)
  | addMeasuredForce (mid : Nat)
  | removeMeasuredForce (name : String)
  | removeTask (name : String)
  | removeRigidContact (name : String) (dur : K)
  | removeFromHqpData (name : String)
  | resizeHqpData
  | compute (cy : Cycle K) (t : K)
  | decode (x : Vec K)
  | setContact (cid : Nat) (u : ContactSet K)
  | setAssociated (tid : Nat) (cname : String)

/-- One call. -/
def step (ndebug : Bool) (W : World) (s : State K) : Op K → Res (State K) Unit
  | .addMotionTask tid w p dur => void (addMotionTask W s tid w p dur)
  | .addForceTask tid w p dur => void (addForceTask W s tid w p dur)
  | .addActuationTask tid w p dur => void (addActuationTask W s tid w p dur)
  | .updateTaskWeight n w => void (updateTaskWeight s n w)
  | .addRigidContact cid wf wm p => void (addRigidContact s cid wf wm p)
  | .updateRigidContactWeights n wf wm => void (updateRigidContactWeights s n wf wm)
  | .addMeasuredForce m => void (addMeasuredForce s m)
  | .removeMeasuredForce n => void (removeMeasuredForce W s n)
  | .removeTask n => void (removeTask ndebug W s n)
  | .removeRigidContact n dur => void (removeRigidContact ndebug s n dur)
  | .removeFromHqpData n => .ok (removeFromHqpData s n).1 ()
  | .resizeHqpData => .ok (resizeHqpData s) ()
  | .compute cy t => computeProblemData ndebug cy t s
  | .decode x =>
    match decodeSolution s x with
    | some s' => .ok s' ()
    | none => .ub
  | .setContact cid u =>
    match applySet (s.contactObj cid) u with
    | .ok c _ => .ok { s with contactObj := Function.update s.contactObj cid c } ()
    | .throw c => .throw { s with contactObj := Function.update s.contactObj cid c }
    | .abort => .abort
    | .ub => .ub
  | .setAssociated tid n => .ok { s with assoc := Function.update s.assoc tid n } ()

/-- State after a history of calls, exceptions being caught by the caller; `none` if the program aborted or ran
into undefined behaviour. -/
def run (ndebug : Bool) (W : World) : State K → List (Op K) → Option (State K)
  | s, [] => some s
  | s, o :: os =>
    match (step ndebug W s o).state? with
    | some s' => run ndebug W s' os
    | none => none

end Formulation

end Tsid
