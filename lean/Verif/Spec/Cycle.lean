import Verif.Spec.Problem
import Verif.Spec.Contact

/-!
# Specification of control cycles

Feasibility and cost of a level, measured forces of a history, admissible contact breaks.
-/

namespace Tsid.Spec

open Finset Formulation

variable {K : Type} [Field K] [LinearOrder K] [HasSqrt K]

/-- Weighted sum of the squared residuals of the constraints of a level. -/
def cost (l : List (K × Constraint K)) (x : Nat → K) : K :=
  (l.map fun e => e.1 * ∑ i ∈ range e.2.mat.rows, residual e.2 x i ^ 2).sum

/-- The measured forces registered by a history: additions append, a removal takes away the first force of the
name. -/
def measuredAfter (W : World) : List (Op K) → List Nat → List Nat
  | [], l => l
  | .addMeasuredForce m :: os, l => measuredAfter W os (l ++ [m])
  | .removeMeasuredForce n :: os, l => measuredAfter W os (l.eraseP fun m => W.mfName m == n)
  | _ :: os, l => measuredAfter W os l

/-- Normal force that a contact transmits: the sum of the normal components of the forces at its points; a contact
between two frames has no normal. -/
def normalForce (c : Contact K) (f : Nat → K) : K :=
  match c.kind with
  | .twoFrames => 0
  | .point => c.normal.dot (cornerForce f 0)
  | .sixD => c.normal.dot (cornerForce f 0) + c.normal.dot (cornerForce f 1) + c.normal.dot (cornerForce f 2) +
      c.normal.dot (cornerForce f 3)

/-- Normal force of a contact when its break begins: that of the last decoded solution, or the maximum normal force
when no decoded force vector covers the contact. -/
def breakForce (s : State K) (c : ContactLevel) : K :=
  let obj := s.contactObj c.cid
  if c.index + obj.nForce ≤ s.f.size then normalForce obj fun i => s.f (c.index + i) else obj.fMax

/-- Contact breaks begin with at least the minimum normal force, and the minimum normal force of a contact is not
changed while a break of the contact is pending. -/
def BreakOk (s : State K) : Op K → Prop
  | .removeRigidContact n dur => 0 < dur → ∀ c ∈ s.contacts, (s.contactObj c.cid).name = n →
      (s.contactObj c.cid).kind = .twoFrames ∨ (s.contactObj c.cid).fMin ≤ breakForce s c
  | .setContact cid (.fMin _) => ∀ tr ∈ s.trans, tr.cid ≠ cid
  | _ => True

/-- Adding a task of a family, as a call. -/
def addOp (fam : Family) (tid : Nat) (w : K) (p : Nat) (dur : K) : Op K :=
  match fam with
  | .motion => .addMotionTask tid w p dur
  | .force => .addForceTask tid w p dur
  | .actuation => .addActuationTask tid w p dur

end Tsid.Spec
