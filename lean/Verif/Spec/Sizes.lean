import Verif.Spec.Cycle

/-!
# Specification of sizes

What the formulation may expect of the constraints that tasks and contacts hand over in a control cycle.
-/

namespace Tsid.Spec

open Formulation

variable {K : Type}

/-- A well-formed constraint of the announced kind, with `rows` rows, on `n` variables. -/
def FitsOn (kind : Kind) (rows n : Nat) (c : Constraint K) : Prop :=
  c.kind = kind ∧ WellFormed c ∧ c.mat.rows = rows ∧ c.mat.cols = n

/-- The constraints handed over for an item have the announced kinds and sizes: motion tasks act on the `nv`
accelerations, actuation tasks on the `na` torques, force tasks on the force variables of their contact, which must
be registered, or on all force variables if they have none. -/
def Item.Fits (W : World) (obj : Nat → Contact K) (assoc : Nat → String) (nv na : Nat) (cids : List Nat)
    (cy : Cycle K) : Item K → Prop
  | .task fam tid _ _ =>
    let fits := FitsOn (W.task tid).kind (W.task tid).rows
    match fam with
    | .motion => fits nv (cy.motionOut tid)
    | .force =>
      (assoc tid = "" ∧ fits (nForces obj cids) (cy.forceOut tid)) ∨
      (assoc tid ≠ "" ∧ ∃ cid ∈ cids, (obj cid).name = assoc tid ∧ fits (obj cid).nForce (cy.forceOut tid))
    | .actuation => fits na (cy.actOut tid)
  | .contact cid _ _ _ => FitsOn .equality (obj cid).nMotion nv (cy.contactMotion cid)

end Tsid.Spec
