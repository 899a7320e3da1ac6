import Verif.Model.ForceTasks
import Verif.Spec.Constraint

/-!
# What the force tasks and the capture-point task ask for
-/

namespace Tsid.Spec

open Finset

variable {K : Type} [Field K]

/-! ## Centre of pressure -/

/-- A point of the world with the force that acts on it along the normal of the ground. -/
structure Pressure (K : Type) where
  point : V3 K
  force : K

/-- The pressures of the contacts `cs` when their point forces are stacked in `f` from `off` on; the forces of contact
`c` are expressed in the axes `axes c`, and `n` is the normal of the ground. -/
def pressures (n : V3 K) (axes : CopContact K → M3 K) : Nat → List (CopContact K) → (Nat → K) → List (Pressure K)
  | _, [], _ => []
  | off, c :: cs, f =>
    ((List.range (Contact.kindPoints c.contact.kind)).map fun j =>
      ⟨c.pose.trans + c.pose.rot.mulVec (c.contact.points j),
        n.dot ((axes c).mulVec ⟨f (off + 3 * j), f (off + 3 * j + 1), f (off + 3 * j + 2)⟩)⟩) ++
    pressures n axes (off + 3 * Contact.kindPoints c.contact.kind) cs f

/-- Total force. -/
def totalForce (l : List (Pressure K)) : K := (l.map Pressure.force).sum

/-- The centre of pressure: the mean of the points weighted by the forces. -/
def centreOfPressure (l : List (Pressure K)) : V3 K :=
  ⟨(l.map fun p => p.force * p.point.x).sum / totalForce l, (l.map fun p => p.force * p.point.y).sum / totalForce l,
    (l.map fun p => p.force * p.point.z).sum / totalForce l⟩

/-- Reference and normal of a centre-of-pressure task after a history of calls. -/
structure CopSettings (K : Type) where
  ref : V3 K
  normal : V3 K

/-- Settings of a new task: the origin, and the vertical. -/
def CopSettings.fresh : CopSettings K := ⟨⟨0, 0, 0⟩, ⟨0, 0, 1⟩⟩

/-- Settings after one call. -/
def CopSettings.after (p : CopSettings K) : CopTask.Op K → CopSettings K
  | .setReference r => { p with ref := r }
  | .setContactNormal n => { p with normal := n }
  | _ => p

/-- Settings after a history of calls. -/
def CopSettings.afterAll (p : CopSettings K) : List (CopTask.Op K) → CopSettings K
  | [] => p
  | o :: os => afterAll (p.after o) os

/-- The force variables of the contacts follow each other from `off` on. -/
def Stacked : Nat → List (CopContact K) → Prop
  | _, [] => True
  | off, c :: cs => c.index = off ∧ Stacked (off + c.contact.nForce) cs

/-! ## Force tracking -/

/-- Settings of a force task after a history of calls, and the errors of the past cycles with the leak rates in force
then, oldest first. -/
structure ForceSettings (K : Type) where
  kp : Vec K
  kd : Vec K
  ki : Vec K
  leak : K
  ref : Sample K
  fext : Sample K
  cname : String
  past : List ((Nat → K) × K)

/-- Settings of a new task. -/
def ForceSettings.fresh (cname : String) : ForceSettings K :=
  ⟨Vec.zero 0, Vec.zero 0, Vec.zero 0, 1 / 20, Sample.zero 6 6, Sample.zero 6 6, cname, []⟩

/-- Error of the current cycle. -/
def ForceSettings.error (p : ForceSettings K) (i : Nat) : K := p.ref.pos i - p.fext.pos i

/-- A control cycle. -/
def ForceSettings.cycle (p : ForceSettings K) : ForceSettings K :=
  { p with past := p.past ++ [(p.error, p.leak)] }

/-- Settings after one call.  A cycle in which the contact is not active is skipped. -/
def ForceSettings.after (p : ForceSettings K) : ForceTask.Op K → ForceSettings K
  | .setKp k => if k.size = 6 then { p with kp := k } else p
  | .setKd k => if k.size = 6 then { p with kd := k } else p
  | .setKi k => if k.size = 6 then { p with ki := k } else p
  | .setLeakRate l => { p with leak := l }
  | .setAssociatedContact _ n => { p with cname := n }
  | .setReference r => { p with ref := r }
  | .setExternalForce f => { p with fext := f }
  | .compute _ => p.cycle
  | .compute5 _ names => if p.cname ≠ "" ∧ p.cname ∈ names then p.cycle else p

/-- Settings after a history of calls. -/
def ForceSettings.afterAll (p : ForceSettings K) : List (ForceTask.Op K) → ForceSettings K
  | [] => p
  | o :: os => afterAll (p.after o) os

/-- Integral of the errors of the past cycles, where an error counts less by the factor `1 - leak dt` per later
cycle. -/
def leakyIntegral (dt : K) : List ((Nat → K) × K) → Nat → K
  | [], _ => 0
  | (e, _) :: l, i => dt * e i * (l.map fun x => 1 - x.2 * dt).prod + leakyIntegral dt l i

/-- Axis `i` of the force that is asked for. -/
def ForceSettings.law (dt : K) (p : ForceSettings K) (i : Nat) : K :=
  p.ref.pos i + p.kp i * (p.ref.pos i - p.fext.pos i) + p.kd i * (p.ref.vel i - p.fext.vel i) +
    p.ki i * leakyIntegral dt p.past i

/-- The settings allow a cycle: gains have been set, references and measurements have six components. -/
def ForceSettings.Ready (p : ForceSettings K) : Prop :=
  p.kp.size = 6 ∧ p.kd.size = 6 ∧ p.ki.size = 6 ∧ p.ref.pos.size = 6 ∧ p.ref.vel.size = 6 ∧ p.fext.pos.size = 6 ∧
    p.fext.vel.size = 6

/-- Every cycle of a history comes when the settings allow it. -/
def ForceSettings.ReadyAlong : ForceSettings K → List (ForceTask.Op K) → Prop
  | _, [] => True
  | p, o :: os =>
    (match o with
      | .compute _ => p.Ready
      | .compute5 _ names => p.cname ≠ "" ∧ p.cname ∈ names → p.Ready
      | _ => True) ∧ ReadyAlong (p.after o) os

/-! ## Capture point -/

/-- Limits of the support region and margins, by axis. -/
structure CaptureSettings (K : Type) where
  lo : Nat → K
  hi : Nat → K
  margin : Nat → K

/-- Settings of a new task. -/
def CaptureSettings.fresh : CaptureSettings K := ⟨fun _ => 0, fun _ => 0, fun _ => 0⟩

/-- Settings after one call: empty intervals are refused. -/
def CaptureSettings.after [LE K] [DecidableLE K] (p : CaptureSettings K) : CaptureTask.Op K → CaptureSettings K
  | .setX a b => if a ≤ b then { p with lo := Function.update p.lo 0 a, hi := Function.update p.hi 0 b } else p
  | .setY a b => if a ≤ b then { p with lo := Function.update p.lo 1 a, hi := Function.update p.hi 1 b } else p
  | .setMargin x y => { p with margin := fun i => if i = 0 then x else y }
  | .compute _ => p

/-- Settings after a history of calls. -/
def CaptureSettings.afterAll [LE K] [DecidableLE K] (p : CaptureSettings K) :
    List (CaptureTask.Op K) → CaptureSettings K
  | [] => p
  | o :: os => afterAll (p.after o) os

/-- Coordinate `i` of the capture point, with natural frequency `w`, after a time step `dt` of constant acceleration
`a`. -/
def nextCapture (w dt : K) (p v : V3 K) (a : Nat → K) (i : Nat) : K :=
  let p' := p.get i + dt * v.get i + dt ^ 2 / 2 * a i
  let v' := v.get i + dt * a i
  p' + v' / w

end Tsid.Spec
