import Verif.Spec.Formulation

/-!
# Specification of the registrations

What a user believes the formulation to be: an ordered list of registered tasks and contacts with their levels
and weights, pending contact breaks and measured forces.  The problem handed to the solver is a function of it.
-/

namespace Tsid

/-- Did the call end with an exception? -/
def Res.threw {σ α : Type} : Res σ α → Bool
  | .throw _ => true
  | _ => false

end Tsid

namespace Tsid.Spec

variable {K : Type}

/-- The three families of tasks. -/
inductive Family where
  | motion
  | force
  | actuation
deriving DecidableEq, Repr

/-- A registered object. -/
inductive Item (K : Type) where
  | task (fam : Family) (tid : Nat) (level : Nat) (w : K)
  | contact (cid : Nat) (level : Nat) (wMotion wForce : K)

/-- One line of the problem: weight, name, kind and number of rows of a constraint. -/
structure Entry (K : Type) where
  weight : K
  name : String
  kind : Kind
  rows : Nat

/-- A bound is handed over as an inequality. -/
def entryKind : Kind → Kind
  | .equality => .equality
  | _ => .inequality

/-- The lines an object contributes to priority level `lvl`. -/
def Item.entries [One K] (W : World) (nm : Nat → String) (ck : Nat → ContactKind) (lvl : Nat) :
    Item K → List (Entry K)
  | .task _ tid p w =>
    if p = lvl then [⟨w, (W.task tid).cname, entryKind (W.task tid).kind, (W.task tid).rows⟩] else []
  | .contact cid p wm wf =>
    (if p = lvl then [⟨wm, nm cid ++ "_motion_task", .equality, Contact.kindMotion (ck cid)⟩] else []) ++
    (if lvl = 0 then [⟨1, nm cid ++ "_force_constraint", .inequality, Contact.kindIneqRows (ck cid)⟩] else []) ++
    (if lvl = 1 then [⟨wf, nm cid ++ "_force_reg_task", .equality, Contact.kindRegRows (ck cid)⟩] else [])

/-- Registered objects, measured forces, time of the last cycle, and pending contact breaks
(end time, contact). -/
structure Registry (K : Type) where
  items : List (Item K)
  measured : List Nat
  time : K
  breaking : List (K × Nat)

/-- Is the item the task of this name? -/
def Item.isTask (W : World) (n : String) : Item K → Bool
  | .task _ tid _ _ => (W.task tid).name == n
  | _ => false

/-- Is the item the contact of this name? -/
def Item.isContact (nm : Nat → String) (n : String) : Item K → Bool
  | .contact cid _ _ _ => nm cid == n
  | _ => false

/-- The contact registered under an item. -/
def Item.cid? : Item K → Option Nat
  | .contact cid _ _ _ => some cid
  | _ => none

/-- Effect of `updateTaskWeight(n, w)`: entries of level 1 and more get the weight `w` if their name is `n`. -/
def Item.setWeight (W : World) (nm : Nat → String) (n : String) (w : K) : Item K → Item K
  | .task fam tid p w0 => .task fam tid p (if (W.task tid).cname = n ∧ p ≠ 0 then w else w0)
  | .contact cid p wm wf =>
    .contact cid p (if nm cid ++ "_motion_task" = n ∧ p ≠ 0 then w else wm)
      (if nm cid ++ "_force_reg_task" = n then w else wf)

/-- Effect of `updateRigidContactWeights(n, wf, wm)`. -/
def Item.setContactWeights [Zero K] [LE K] [DecidableLE K] (nm : Nat → String) (n : String) (wf wm : K) :
    Item K → Item K
  | .task fam tid p w0 => .task fam tid p w0
  | .contact cid p wm0 wf0 =>
    .contact cid p (if nm cid = n ∧ p ≠ 0 ∧ 0 ≤ wm then wm else wm0)
      (if nm cid = n ∧ 0 ≤ wf then wf else wf0)

open Formulation

namespace Registry

/-- Nothing registered. -/
def empty [Zero K] : Registry K := ⟨[], [], 0, []⟩

/-- Remove the contact named `n`. -/
def dropContact (nm : Nat → String) (r : Registry K) (n : String) : Registry K :=
  { r with items := r.items.filter fun it => !it.isContact nm n }

/-- Effect of a control cycle at time `t`: the first pending break that is over takes its contact away. -/
def expire [LinearOrder K] (nm : Nat → String) (r : Registry K) (t : K) : Registry K :=
  match r.breaking.find? (fun b => decide (b.1 < t)) with
  | none => { r with time := t }
  | some b =>
    { r with
      time := t
      items := r.items.filter fun it => !it.isContact nm (nm b.2)
      breaking := r.breaking.eraseP fun b => decide (b.1 < t) }

/-- Effect of a call on the registrations; `threw` tells whether the call ended with an exception. -/
def next [Field K] [LinearOrder K] (W : World) (nm : Nat → String) (threw : Bool) (r : Registry K) :
    Op K → Registry K
  | .addMotionTask tid w p _ => if threw then r else { r with items := r.items ++ [.task .motion tid p w] }
  | .addForceTask tid w p _ => if threw then r else { r with items := r.items ++ [.task .force tid p w] }
  | .addActuationTask tid w p _ => if threw then r else { r with items := r.items ++ [.task .actuation tid p w] }
  | .updateTaskWeight n w => { r with items := r.items.map (Item.setWeight W nm n w) }
  | .addRigidContact cid wf wm p => { r with items := r.items ++ [.contact cid p wm wf] }
  | .updateRigidContactWeights n wf wm => { r with items := r.items.map (Item.setContactWeights nm n wf wm) }
  | .addMeasuredForce m => { r with measured := r.measured ++ [m] }
  | .removeMeasuredForce n => { r with measured := r.measured.eraseP fun m => W.mfName m == n }
  | .removeTask n => { r with items := r.items.filter fun it => !it.isTask W n }
  | .removeRigidContact n dur =>
    if threw then r
    else if 0 < dur then
      match (r.items.filterMap Item.cid?).find? (fun c => nm c == n) with
      | none => r
      | some cid => { r with breaking := r.breaking ++ [(r.time + dur, cid)] }
    else r.dropContact nm n
  | .removeFromHqpData _ => r
  | .resizeHqpData => r
  | .compute _ t => if threw then { r with time := t } else r.expire nm t
  | .decode _ => r
  | .setContact _ _ => r
  | .setAssociated _ _ => r

/-- The lines of the problem, level by level: the base dynamics, then the objects in registration order. -/
def problem [One K] (W : World) (nm : Nat → String) (ck : Nat → ContactKind) (nu : Nat) (r : Registry K) :
    List (List (Entry K)) :=
  [⟨1, "base-dynamics", .equality, nu⟩ :: r.items.flatMap (Item.entries W nm ck 0),
   r.items.flatMap (Item.entries W nm ck 1)]

end Registry

/-- A history annotated with the calls that ended with an exception. -/
def outcomes [Field K] [LinearOrder K] [HasSqrt K] (nd : Bool) (W : World) :
    State K → List (Op K) → List (Op K × Bool)
  | _, [] => []
  | s, o :: os =>
    (o, (step nd W s o).threw) :: match (step nd W s o).state? with
      | some s' => outcomes nd W s' os
      | none => []

/-- The registrations after an annotated history. -/
def Registry.after [Field K] [LinearOrder K] (W : World) (nm : Nat → String) (r : Registry K)
    (h : List (Op K × Bool)) : Registry K :=
  h.foldl (fun r e => r.next W nm e.2 e.1) r

/-- The lines of the problem held by a formulation. -/
def entries (s : State K) : List (List (Entry K)) :=
  s.hqp.map fun l => l.map fun e =>
    ⟨e.1, (s.heap e.2).name, (s.heap e.2).kind, (s.heap e.2).mat.rows⟩

/-- Number of rows of the constraints of a kind at priority level 0. -/
def level0Rows (k : Kind) (s : State K) : Nat :=
  ((((entries s).headD []).filter fun e => e.kind = k).map Entry.rows).sum

/-- Adding a task of a family. -/
def addCall [Field K] [LinearOrder K] [HasSqrt K] (W : World) (s : State K) (fam : Family) (tid : Nat) (w : K)
    (p : Nat) (dur : K) : Res (State K) Bool :=
  match fam with
  | .motion => addMotionTask W s tid w p dur
  | .force => addForceTask W s tid w p dur
  | .actuation => addActuationTask W s tid w p dur

/-- What `updateRigidContactWeights(n, wf, wm)` is asked to do. -/
def Item.requestContactWeights [Zero K] [LE K] [DecidableLE K] (nm : Nat → String) (n : String) (wf wm : K) :
    Item K → Item K
  | .task fam tid p w0 => .task fam tid p w0
  | .contact cid p wm0 wf0 =>
    .contact cid p (if nm cid = n ∧ 0 ≤ wm then wm else wm0) (if nm cid = n ∧ 0 ≤ wf then wf else wf0)

/-- Names that the formulation uses for the base dynamics and for the entries of contacts. -/
def Reserved (n : String) : Prop :=
  n = "base-dynamics" ∨ ∃ m, n = m ++ "_motion_task" ∨ n = m ++ "_force_constraint" ∨ n = m ++ "_force_reg_task"

/-- Tasks give their constraint their own name, and do not use reserved names. -/
def Hygienic (W : World) : Prop := ∀ tid, (W.task tid).cname = (W.task tid).name ∧ ¬ Reserved (W.task tid).name

/-- Calls that respect the naming discipline: no two registered tasks and no two registered contacts have the
same name, and entries of contacts and the base dynamics are not removed behind the formulation's back. -/
def Tidy (W : World) (s : State K) : Op K → Prop
  | .addMotionTask tid _ _ _ | .addForceTask tid _ _ _ | .addActuationTask tid _ _ _ =>
    ∀ tl ∈ s.motions ++ (s.forces ++ s.acts), (W.task tl.tid).name ≠ (W.task tid).name
  | .addRigidContact cid _ _ _ => ∀ cl ∈ s.contacts, (s.contactObj cl.cid).name ≠ (s.contactObj cid).name
  | .removeTask n => ¬ Reserved n
  | .removeFromHqpData _ => False
  | _ => True

/-- A history from the constructor that respects the naming discipline. -/
structure TidyRun [Field K] [LinearOrder K] [HasSqrt K] (nd : Bool) (W : World) (robot : Robot K)
    (obj : Nat → Contact K) (assoc : Nat → String) (ops : List (Op K)) (s : State K) : Prop where
  hygienic : Hygienic W
  motors : robot.na ≤ robot.nv
  built : ∀ cid, ∃ name kind points normal mu fMin fMax, obj cid = Contact.new name kind points normal mu fMin fMax
  run : run nd W (init robot obj assoc) ops = some s
  tidy : Along nd W (Tidy W) (init robot obj assoc) ops

/-- The registrations after a history from the constructor. -/
def registrations [Field K] [LinearOrder K] [HasSqrt K] (nd : Bool) (W : World) (robot : Robot K)
    (obj : Nat → Contact K) (assoc : Nat → String) (ops : List (Op K)) : Registry K :=
  Registry.empty.after W (fun c => (obj c).name) (outcomes nd W (init robot obj assoc) ops)

end Tsid.Spec
