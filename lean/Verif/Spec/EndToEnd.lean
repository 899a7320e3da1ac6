import Verif.Spec.Sizes
import Verif.Spec.Contact

/-!
# Specification of a consistent solution

What a user expects of the accelerations, forces and torques that are decoded from a solution.
-/

namespace Tsid.Spec

open Finset Formulation

variable {K : Type} [Field K] [LinearOrder K] [HasSqrt K]

/-- The force of a contact respects its parameters: friction pyramid at every contact point and limits on the total
normal force; limits on the components for two-frame contacts. -/
def WithinLimits (c : Contact K) (f : Nat → K) : Prop :=
  match c.kind with
  | .twoFrames => ∀ i, i < 3 → c.fMin ≤ f i ∧ f i ≤ c.fMax
  | _ =>
    (∃ t1 t2 : V3 K, Orthonormal t1 t2 c.normal ∧
      ∀ i, i < nPoints c.kind → Pyramid c.normal t1 t2 c.mu (cornerForce f i)) ∧
    c.fMin ≤ ∑ i ∈ range (nPoints c.kind), c.normal.dot (cornerForce f i) ∧
    ∑ i ∈ range (nPoints c.kind), c.normal.dot (cornerForce f i) ≤ c.fMax

/-- What the getters decode from `x` in state `s` satisfies the equations of motion, the constraints of the tasks
registered at level 0, the motion constraints of the contacts registered at level 0, and the limits of all registered
contacts. -/
structure Consistent (nv nu : Nat) (M : Mat K) (cy : Cycle K) (items : List (Item K)) (measured : List Nat)
    (s : State K) (x : Vec K) : Prop where
  dynamics : ∃ dv f tau, (getAccelerations s x).val? = some dv ∧ (getContactForces s x).val? = some f ∧
    (getActuatorForces s x).val? = some tau ∧
    EquationsOfMotion nv nu M cy.nle
      ((items.filterMap Item.cid?).map fun c => ((cy.contactMotion c).mat, (s.contactObj c).forceGen))
      (measured.map cy.torque) dv f tau
  motion : ∀ tid w, .task .motion tid 0 w ∈ items →
    ∃ dv, (getAccelerations s x).val? = some dv ∧ Sat (cy.motionOut tid) dv
  force : ∀ tid w, .task .force tid 0 w ∈ items →
    ∃ f, (if s.assoc tid = "" then getContactForces s x else getContactForcesOf s (s.assoc tid) x).val? = some f ∧
      Sat (cy.forceOut tid) f
  actuation : ∀ tid w, .task .actuation tid 0 w ∈ items →
    ∃ tau, (getActuatorForces s x).val? = some tau ∧ Sat (cy.actOut tid) tau
  contactMotion : ∀ cid wm wf, .contact cid 0 wm wf ∈ items →
    ∃ dv, (getAccelerations s x).val? = some dv ∧ Sat (cy.contactMotion cid) dv
  contactForce : ∀ cid p wm wf, .contact cid p wm wf ∈ items →
    ∃ f, (getContactForcesOf s (s.contactObj cid).name x).val? = some f ∧ WithinLimits (s.contactObj cid) f

end Tsid.Spec
