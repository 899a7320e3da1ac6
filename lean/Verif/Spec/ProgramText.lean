import Verif.Spec.ProgramExact
import Verif.Spec.ControlLimits

/-!
# What the text of a program asks of the robot

Nothing here refers to the objects of the library during or after the run, to the problem that is handed to the solver or
to its variables: what the robot does is described by accelerations, torques and contact forces, and what it should do by
what was constructed, by the calls in the text of the program (and which of them were refused), and by the state of the
robot.
-/

namespace Tsid.Spec

open Finset Formulation

variable {K : Type}

/-- What a robot does at an instant: the accelerations of its degrees of freedom, the torques of its motors, and the
point forces of its contacts. -/
structure Behaviour (K : Type) where
  dv : Nat → K
  tau : Nat → K
  force : Nat → Nat → K

section
variable [Field K] [LinearOrder K] [FloorRing K] [HasSqrt K]

/-! ## Velocities and powers -/

/-- The velocity of a contact when the degrees of freedom move with velocity `v`. -/
def ContactDecl.velocity (E : Program.Env K) (w : Snapshot K) (calls : List (ContactCall K)) (v : Nat → K) (i : Nat) :
    ContactDecl → K
  | .point fr =>
    ((PointSettings.fresh (K := K)).afterAll (calls.filterMap point?)).achieved E.robot.nv
      { w.frame fr with drift := 0 } v i
  | .sixD fr =>
    ((FrameSettings.fresh (K := K)).afterAll (calls.filterMap sixD?)).achieved E.robot.nv
      { w.frame fr with drift := 0 } v i
  | .pair f1 f2 => relativeAcc E.robot.nv { w.frame f1 with drift := 0 } { w.frame f2 with drift := 0 } v i

/-- The power of a measured force when the degrees of freedom move with velocity `v`. -/
def MeasuredDecl.power (nv : Nat) (w : Snapshot K) (calls : List (MeasuredCall K)) (v : Nat → K) : MeasuredDecl → K
  | .wrench fr supp =>
    let f := lastWrench (calls.filterMap wrench?) 0
    let loc := lastAxes6 (calls.filterMap wrench?) true
    let k : FrameJac K := ⟨(w.frame fr).pose, (w.frame fr).jac⟩
    powerOf f.lin f.ang (inAxes loc k.pose.rot (frameTwist nv supp k v).lin)
      (inAxes loc k.pose.rot (frameTwist nv supp k v).ang)
  | .force fr supp =>
    let f := lastForce (calls.filterMap pointForce?) 0
    let loc := lastAxes3 (calls.filterMap pointForce?) true
    let k : FrameJac K := ⟨(w.frame fr).pose, (w.frame fr).jac⟩
    f.dot (inAxes loc k.pose.rot (frameTwist nv supp k v).lin)

/-! ## Contacts -/

/-- The registered contacts. -/
def Setup.cids (S : Setup K) (E : Program.Env K) (W : World) (ops : List (Program.Op K)) (t : K) : List Nat :=
  (S.registry E W ops t).items.filterMap Item.cid?

/-- The components of the wrench of a contact. -/
def nWrench (kind : ContactKind) : Nat := if kind = .sixD then 6 else 3

/-- Points, reference force and weights that the text gives to a contact. -/
def Setup.regOf (S : Setup K) (ops : List (Program.Op K)) (cid : Nat) : RegSettings K :=
  (RegSettings.of (S.obj cid)).afterAll (S.obj cid).kind (contactSets cid ops)

/-- Normal, friction coefficient and force limits that the text gives to a contact. -/
def Setup.limitsOf (S : Setup K) (ops : List (Program.Op K)) (cid : Nat) : ForceLimits K :=
  (ForceLimits.of (S.obj cid)).afterAll (S.obj cid).kind (contactSets cid ops)

/-- Component `i` of the wrench of a contact. -/
def Setup.wrenchOf (S : Setup K) (ops : List (Program.Op K)) (b : Behaviour K) (cid i : Nat) : K :=
  wrench (nPoints (S.obj cid).kind) (S.regOf ops cid).points (b.force cid) i

/-- D'Alembert's principle: whatever the velocities of the degrees of freedom are, the power of the inertial, gravity and
Coriolis forces is the power of the motors, of the contacts and of the measured forces. -/
def Setup.Balanced (S : Setup K) (E : Program.Env K) (W : World) (ops : List (Program.Op K)) (w : Snapshot K) (t : K)
    (b : Behaviour K) : Prop :=
  ∀ v : Nat → K,
    ∑ i ∈ range S.robot.nv, ((∑ j ∈ range S.robot.nv, S.robot.mass w.M i j * b.dv j) + w.nle i) * v i =
      ∑ i ∈ range S.robot.na, b.tau i * v (S.robot.nv - S.robot.na + i) +
      ((S.cids E W ops t).map fun c => ∑ i ∈ range (nWrench (S.obj c).kind),
        S.wrenchOf ops b c i * (S.cdecl c).velocity E w (contactCalls c ops) v i).sum +
      ((S.registry E W ops t).measured.map fun m => (S.mdecl m).power S.robot.nv w (measuredCalls m ops) v).sum

/-! ## Tasks -/

/-- What a task reads that has nothing to do with contacts. -/
def alone (S : Setup K) (w : Snapshot K) : TaskObj.Ctx K := ⟨w, [], S.obj, fun _ => SE3.one⟩

/-- The part of the behaviour that a task is about. -/
def Behaviour.part (b : Behaviour K) : Family → Nat → K
  | .actuation => b.tau
  | _ => b.dv

/-- The moment-like sum that a centre-of-pressure task wants to vanish: over all points of all contacts, the normal force
times the distance of the point from the reference, along axis `i`. -/
def Setup.pressureMoment (S : Setup K) (E : Program.Env K) (W : World) (ops : List (Program.Op K)) (w : Snapshot K) (t : K)
    (b : Behaviour K) (p : CopSettings K) (i : Nat) : K :=
  ((S.cids E W ops t).map fun c => ∑ j ∈ range (nPoints (S.obj c).kind),
    let pose := (w.frame (E.contactFrame c)).pose
    p.normal.dot (cornerForce (b.force c) j) *
      ((pose.trans + pose.rot.mulVec ((S.regOf ops c).points j)).get i - p.ref.get i)).sum

/-- The squared error of a task. -/
def Setup.miss (S : Setup K) (E : Program.Env K) (W : World) (ops : List (Program.Op K)) (w : Snapshot K) (t : K)
    (b : Behaviour K) (fam : Family) (tid : Nat) : K :=
  match S.decl tid with
  | .force dt contact cname =>
    let cid := lastContact ((taskCalls tid ops).filterMap force?) contact
    let p := (ForceSettings.fresh (K := K) cname).afterAll ((history E S.start ops tid).filterMap force?)
    ∑ i ∈ range (nWrench (S.obj cid).kind), (S.wrenchOf ops b cid i - p.law dt i) ^ 2
  | .cop =>
    let p := (CopSettings.fresh (K := K)).afterAll ((taskCalls tid ops).filterMap cop?)
    ∑ i ∈ range 3, S.pressureMoment E W ops w t b p i ^ 2
  | d => d.Error E (alone S w) (taskCalls tid ops) [] (b.part fam)

/-- What a task of priority 0 wants: the joint limits that are imposed are kept for two time steps (`Keeps`; with all kinds
imposed this is safety during the two time steps, C104); other limits are respected; otherwise the error vanishes. -/
def Setup.Wants (S : Setup K) (E : Program.Env K) (W : World) (ops : List (Program.Op K)) (w : Snapshot K) (t : K)
    (b : Behaviour K) (fam : Family) (tid : Nat) : Prop :=
  match S.decl tid with
  | .posVelAcc dt =>
    let p := Spec.limitsOf E.robot.na tid ops
    ∀ j, j < E.robot.na → p.Keeps (2 * dt) j (w.q (w.q.size - E.robot.na + j)) (w.v (E.robot.nv - E.robot.na + j))
      (b.dv (E.robot.nv - E.robot.na + j))
  | .capture g dt => (TaskDecl.capture g dt).Demands E (alone S w) (taskCalls tid ops) [] (S.task tid) (b.part fam)
  | .jointBounds dt => (TaskDecl.jointBounds dt).Demands E (alone S w) (taskCalls tid ops) [] (S.task tid) (b.part fam)
  | .actBounds => TaskDecl.actBounds.Demands E (alone S w) (taskCalls tid ops) [] (S.task tid) (b.part fam)
  | _ => S.miss E W ops w t b fam tid = 0

/-! ## The whole text -/

/-- The behaviour obeys the text of the program when the limits of contact forces are `lim`: laws of mechanics, everything
registered at priority 0, and the limits of the forces of every registered contact. -/
structure IntendedWith (lim : Nat → ForceLimits K) (E : Program.Env K) (W : World) (S : Setup K) (ops : List (Program.Op K))
    (w : Snapshot K) (t : K) (b : Behaviour K) : Prop where
  dynamics : S.Balanced E W ops w t b
  task : ∀ fam tid k, .task fam tid 0 k ∈ (S.registry E W ops t).items → S.Wants E W ops w t b fam tid
  contactMotion : ∀ cid wm wf, .contact cid 0 wm wf ∈ (S.registry E W ops t).items →
    (S.cdecl cid).Error E w (contactCalls cid ops) b.dv = 0
  contactForce : ∀ cid p wm wf, .contact cid p wm wf ∈ (S.registry E W ops t).items →
    (lim cid).Respected (S.obj cid).kind (b.force cid)

/-- The behaviour obeys the text of the program; the limits of contact forces are those of the text. -/
def Intended (E : Program.Env K) (W : World) (S : Setup K) (ops : List (Program.Op K)) (w : Snapshot K) (t : K)
    (b : Behaviour K) : Prop :=
  IntendedWith (S.limitsOf ops) E W S ops w t b

/-- The weighted squared error of a registered object. -/
def Setup.loss (S : Setup K) (E : Program.Env K) (W : World) (ops : List (Program.Op K)) (w : Snapshot K) (t : K)
    (b : Behaviour K) : Item K → K
  | .task fam tid p k => if p = 1 then k * S.miss E W ops w t b fam tid else 0
  | .contact cid p wm wf =>
    (if p = 1 then wm * (S.cdecl cid).Error E w (contactCalls cid ops) b.dv else 0) +
    wf * (S.regOf ops cid).Error (S.obj cid).kind (b.force cid)

/-- What the text asks to minimise. -/
def Setup.losses (S : Setup K) (E : Program.Env K) (W : World) (ops : List (Program.Op K)) (w : Snapshot K) (t : K)
    (b : Behaviour K) : K :=
  1 / 2 * ((S.registry E W ops t).items.map (S.loss E W ops w t b)).sum

/-- The sum of the squares of accelerations and contact forces. -/
def Setup.effort (S : Setup K) (E : Program.Env K) (W : World) (ops : List (Program.Op K)) (t : K) (b : Behaviour K) : K :=
  ∑ i ∈ range S.robot.nv, b.dv i ^ 2 +
  ((S.cids E W ops t).map fun c => ∑ i ∈ range (Contact.kindForce (S.obj c).kind), b.force c i ^ 2).sum

/-- What is minimised: the losses, plus the regularisation of the back-end. -/
def Setup.aim (S : Setup K) (E : Program.Env K) (W : World) (ops : List (Program.Op K)) (w : Snapshot K) (t : K)
    (reg : Bool) (b : Behaviour K) : K :=
  S.losses E W ops w t b + if reg then 1 / 2 * (Solver.defaultReg * S.effort E W ops t b) else 0

/-! ## Decoding -/

/-- The getters return this behaviour. -/
structure Behaviour.Decodes (b : Behaviour K) (E : Program.Env K) (W : World) (S : Setup K) (ops : List (Program.Op K)) (t : K)
    (s : Tsid.State K) (x : Vec K) : Prop where
  dv : ∃ y, (getAccelerations s x).val? = some y ∧ y.size = S.robot.nv ∧ ∀ i, i < S.robot.nv → y i = b.dv i
  tau : ∃ y, (getActuatorForces s x).val? = some y ∧ y.size = S.robot.na ∧ ∀ i, i < S.robot.na → y i = b.tau i
  force : ∀ cid ∈ S.cids E W ops t, ∃ y, (getContactForcesOf s (S.obj cid).name x).val? = some y ∧
    y.size = Contact.kindForce (S.obj cid).kind ∧ ∀ i, i < Contact.kindForce (S.obj cid).kind → y i = b.force cid i

/-- For every task of combined joint limits at priority 0: no joint is masked out, position limits and viability that are off
were never on, and the limits that are imposed can be kept. -/
def Setup.Viable (S : Setup K) (E : Program.Env K) (W : World) (ops : List (Program.Op K)) (w : Snapshot K) (t : K) : Prop :=
  ∀ fam tid k dt, .task fam tid 0 k ∈ (S.registry E W ops t).items → S.decl tid = .posVelAcc dt →
    let p := Spec.limitsOf E.robot.na tid ops
    (∀ i, i < E.robot.na → p.mask i = 1) ∧ NeverOff E.robot.na p ((taskCalls tid ops).filterMap posVelAcc?) ∧
    ∀ j, j < E.robot.na → p.Keepable (2 * dt) j (w.q (w.q.size - E.robot.na + j)) (w.v (E.robot.nv - E.robot.na + j))

/-- However the solver was used before: after the cycle that led to state `s`, `solve` returns.  If the external solver
succeeds, then the status is optimal, and the getters return a behaviour that obeys the text of the program; no
behaviour that obeys the text is better.  The limits of contact forces are `lim`. -/
def FulfilsWith (lim : Nat → ForceLimits K) {R C : Type} (D : Solve.Driver K R C) (u0 : Solve.Object K R) (Sat : R → (Nat → K) → Prop)
    (Success : Solve.Answer C K → Prop) (reg : Bool) (E : Program.Env K) (W : World) (S : Setup K)
    (ops : List (Program.Op K)) (w : Snapshot K) (t : K) (s : Program.State K) : Prop :=
  ∀ hist u, (∀ c ∈ hist, c.Sized) → solves D E.ndebug u0 hist = some u →
    ∀ fresh freshI engine, Sound Sat Success engine →
      ∃ u', Solve.solve D fresh freshI E.ndebug engine u (problem s.form) = .ok u' () ∧
        ∃ b : Behaviour K, b.Decodes E W S ops t s.form u'.out.x ∧
          (Success (engine u'.st (start D fresh freshI u u')) →
            u'.out.status = .optimal ∧ IntendedWith lim E W S ops w t b ∧
            ∀ b', IntendedWith lim E W S ops w t b' → S.aim E W ops w t reg b ≤ S.aim E W ops w t reg b')

/-- The same with the limits of the text. -/
def Fulfils {R C : Type} (D : Solve.Driver K R C) (u0 : Solve.Object K R) (Sat : R → (Nat → K) → Prop)
    (Success : Solve.Answer C K → Prop) (reg : Bool) (E : Program.Env K) (W : World) (S : Setup K)
    (ops : List (Program.Op K)) (w : Snapshot K) (t : K) (s : Program.State K) : Prop :=
  FulfilsWith (S.limitsOf ops) D u0 Sat Success reg E W S ops w t s

/-- The behaviour obeys the text, and none that obeys it is better. -/
def Best (E : Program.Env K) (W : World) (S : Setup K) (ops : List (Program.Op K)) (w : Snapshot K) (t : K) (reg : Bool)
    (b : Behaviour K) : Prop :=
  Intended E W S ops w t b ∧ ∀ b', Intended E W S ops w t b' → S.aim E W ops w t reg b ≤ S.aim E W ops w t reg b'

/-- The same accelerations, the same torques, and the same forces of the contacts `cids`. -/
structure Setup.Same (S : Setup K) (cids : List Nat) (b b' : Behaviour K) : Prop where
  dv : ∀ i, i < S.robot.nv → b.dv i = b'.dv i
  tau : ∀ i, i < S.robot.na → b.tau i = b'.tau i
  force : ∀ c ∈ cids, ∀ i, i < Contact.kindForce (S.obj c).kind → b.force c i = b'.force c i

/-- Two programs make the same calls on every object and register the same objects with the same priorities and weights,
possibly in another order; the integrals of force tasks have the same history. -/
structure Rearranged (E : Program.Env K) (W : World) (S : Setup K) (ops ops' : List (Program.Op K)) (t : K) : Prop where
  items : (S.registry E W ops t).items.Perm (S.registry E W ops' t).items
  measured : (S.registry E W ops t).measured.Perm (S.registry E W ops' t).measured
  task : ∀ tid, taskCalls tid ops = taskCalls tid ops'
  contact : ∀ cid, contactCalls cid ops = contactCalls cid ops'
  sets : ∀ cid, contactSets cid ops = contactSets cid ops'
  force : ∀ mid, measuredCalls mid ops = measuredCalls mid ops'
  history : ∀ tid, (history E S.start ops tid).filterMap force? = (history E S.start ops' tid).filterMap force?

end

end Tsid.Spec
