import Verif.Spec.ProgramProgress
import Verif.Spec.Solver

/-!
# What a solution costs

The errors of the tasks of priority 1, of the motion of the contacts and of their forces, read off the text of the
program; the cost is their weighted sum.
-/

namespace Tsid.Spec

open Finset Formulation

variable {K : Type}

section
variable [Field K] [LinearOrder K] [FloorRing K] [HasSqrt K]

/-- The sum of the squared errors of the axes that a mask selects. -/
def selected (m : Vec K) (e : Nat → K) : K := ∑ i ∈ range m.size, if m i = 1 then e i ^ 2 else 0

/-- The squared error of a task: how far the vector `y` (accelerations, contact forces or torques) is from what the task
asks for; arguments as for `TaskDecl.Demands`.  Tasks that are bounds or inequalities have no error: the back-ends
refuse them at priority 1. -/
def TaskDecl.Error (E : Program.Env K) (x : TaskObj.Ctx K) (calls hist : List (TaskCall K)) (y : Nat → K) :
    TaskDecl K → K
  | .se3 fr =>
    let p := (FrameSettings.fresh (K := K)).afterAll (calls.filterMap se3?)
    selected p.mask fun i => p.achieved E.robot.nv (x.w.frame fr) y i - p.law E.log3 (x.w.frame fr) i
  | .twoFrames f1 f2 =>
    let p := (PairSettings.fresh (K := K)).afterAll (calls.filterMap pair?)
    selected p.mask fun i =>
      relativeAcc E.robot.nv (x.w.frame f1) (x.w.frame f2) y i - p.law E.log3 (x.w.frame f1) (x.w.frame f2) i
  | .com =>
    let p := (ComSettings.fresh (K := K)).afterAll (calls.filterMap com?)
    selected p.mask fun i => (pointAcc E.robot.nv x.w.com.jac x.w.com.drift y).get i - p.law x.w.com i
  | .am =>
    let p := (AmSettings.fresh (K := K)).afterAll (calls.filterMap am?)
    ∑ i ∈ range 3, (angularMomentum x.w.Ag y i + x.w.dh.get i - p.law x.w.Ag x.w.v.get i) ^ 2
  | .posture =>
    let p := (PostureSettings.fresh E.robot).afterAll E.robot (calls.filterMap posture?)
    selected p.mask fun j => y (E.robot.nv - E.robot.na + j) - p.law E.robot x.w.q x.w.v j
  | .actEq =>
    let p := (TorqueSettings.fresh (K := K) E.robot.na).afterAll E.robot.na (calls.filterMap actEq?)
    selected p.mask fun i => p.weights i * (y i - p.ref i)
  | .force dt contact cname =>
    let p := (ForceSettings.fresh (K := K) cname).afterAll (hist.filterMap force?)
    let gen := (x.obj (lastContact (calls.filterMap force?) contact)).forceGen
    ∑ i ∈ range gen.rows, (∑ j ∈ range gen.cols, gen i j * y j - p.law dt i) ^ 2
  | .cop =>
    let p := (CopSettings.fresh (K := K)).afterAll (calls.filterMap cop?)
    ∑ i ∈ range 3, (((pressures p.normal (fun _ => M3.one) 0 x.cop y).map fun q =>
      q.force * (q.point.get i - p.ref.get i)).sum) ^ 2
  | _ => 0

/-- The squared error of the motion of a contact. -/
def ContactDecl.Error (E : Program.Env K) (w : Snapshot K) (calls : List (ContactCall K)) (y : Nat → K) :
    ContactDecl → K
  | .point fr =>
    let p := (PointSettings.fresh (K := K)).afterAll (calls.filterMap point?)
    ∑ i ∈ range 3, (p.achieved E.robot.nv (w.frame fr) y i - p.law (w.frame fr) i) ^ 2
  | .sixD fr =>
    let p := (FrameSettings.fresh (K := K)).afterAll (calls.filterMap sixD?)
    ∑ i ∈ range 6, (p.achieved E.robot.nv (w.frame fr) y i - p.law E.log3 (w.frame fr) i) ^ 2
  | .pair f1 f2 =>
    let p := (⟨⟨0, 0, 0⟩, ⟨0, 0, 0⟩⟩ : PairGains K).afterAll (calls.filterMap gains?)
    ∑ i ∈ range 3, (relativeAcc E.robot.nv (w.frame f1) (w.frame f2) y i - p.law (w.frame f1) (w.frame f2) i) ^ 2

/-! ## Force regularisation -/

/-- Reference force and weights of a contact, and its points; `used` are the points at the time of the last call that
refreshed the regularisation (C26). -/
structure RegSettings (K : Type) where
  ref : Vec K
  weights : Vec K
  points : Nat → V3 K
  used : Nat → V3 K

/-- Settings after a call: wrong sizes are refused. -/
def RegSettings.after (kind : ContactKind) (p : RegSettings K) : ContactSet K → RegSettings K
  | .points P => if P.rows = 3 ∧ P.cols = 4 then { p with points := fun i => ⟨P 0 i, P 1 i, P 2 i⟩ } else p
  | .forceRef f => if kind = .point ∧ f.size ≠ 3 then p else { p with ref := f, used := p.points }
  | .regWeights w => { p with weights := w, used := p.points }
  | _ => p

/-- Settings after a history of calls. -/
def RegSettings.afterAll (kind : ContactKind) (p : RegSettings K) : List (ContactSet K) → RegSettings K
  | [] => p
  | u :: us => afterAll kind (p.after kind u) us

/-- Settings of a contact object. -/
def RegSettings.of (c : Contact K) : RegSettings K := ⟨c.fRef, c.regW, c.points, c.points⟩

/-- The calls on one contact object. -/
def contactSets (cid : Nat) : List (Program.Op K) → List (ContactSet K)
  | [] => []
  | .form (.setContact i u) :: os => if i = cid then u :: contactSets cid os else contactSets cid os
  | _ :: os => contactSets cid os

/-- Squared error of the force of a contact: weighted difference between the wrench of the point forces and the
reference; six components for a surface contact, three otherwise. -/
def RegSettings.Error (kind : ContactKind) (p : RegSettings K) (f : Nat → K) : K :=
  ∑ i ∈ range (if kind = .sixD then 6 else 3), (p.weights i * (wrench (nPoints kind) p.used f i - p.ref i)) ^ 2

/-! ## The cost -/

/-- What is decoded from a solution: accelerations, contact forces, torques, forces by contact. -/
structure Decoded (K : Type) where
  dv : Vec K
  f : Vec K
  tau : Vec K
  of : String → Vec K

/-- The getters return these values. -/
structure Decoded.From (d : Decoded K) (s : Tsid.State K) (x : Vec K) (names : List String) : Prop where
  dv : (getAccelerations s x).val? = some d.dv
  f : (getContactForces s x).val? = some d.f
  tau : (getActuatorForces s x).val? = some d.tau
  of : ∀ n ∈ names, (getContactForcesOf s n x).val? = some (d.of n)

/-- The weighted squared error of a registered object. -/
def Setup.penalty (S : Setup K) (E : Program.Env K) (ops : List (Program.Op K)) (w : Snapshot K) (s : Program.State K)
    (d : Decoded K) : Item K → K
  | .task fam tid p k =>
    let e := fun y : Vec K =>
      (S.decl tid).Error E (ctx E w s.form) (taskCalls tid ops) (history E S.start ops tid) y
    if p = 1 then
      match fam, S.decl tid with
      | .motion, _ => k * e d.dv
      | .actuation, _ => k * e d.tau
      | .force, .force _ _ cname => k * e (d.of (lastName ((taskCalls tid ops).filterMap force?) cname))
      | .force, _ => k * e d.f
    else 0
  | .contact cid p wm wf =>
    (if p = 1 then wm * (S.cdecl cid).Error E w (contactCalls cid ops) d.dv else 0) +
    wf * ((RegSettings.of (S.obj cid)).afterAll (S.obj cid).kind (contactSets cid ops)).Error (S.obj cid).kind
      (d.of (S.obj cid).name)

/-- The cost that the text of the program asks to minimise: half the weighted sum of the squared errors. -/
def Setup.cost (S : Setup K) (E : Program.Env K) (W : World) (ops : List (Program.Op K)) (w : Snapshot K) (t : K)
    (s : Program.State K) (d : Decoded K) : K :=
  1 / 2 * ((S.registry E W ops t).items.map (S.penalty E ops w s d)).sum

end

end Tsid.Spec
