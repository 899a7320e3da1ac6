import Verif.Spec.Constraint
import Verif.Model.Formulation

/-!
# Specification of the formulation

Rigid-body dynamics with contacts, written from the textbook formula
`M dv + h = Sᵀ tau + Σ_c J_cᵀ T_c f_c + Σ_m tau_m`, and the vocabulary to speak about histories of calls.
-/

namespace Tsid.Spec

open Finset

variable {K : Type}

/-- Row `i` of `Jᵀ T f_c`, where `f_c` are the entries of `f` from `off` on. -/
def contactTerm [Field K] (J T : Mat K) (off : Nat) (f : Nat → K) (i : Nat) : K :=
  ∑ r ∈ range J.rows, J r i * ∑ c ∈ range T.cols, T r c * f (off + c)

/-- Sum of the contact terms of contacts `(J, T)` whose forces are stacked in `f`, starting at `off`. -/
def contactTerms [Field K] : List (Mat K × Mat K) → Nat → (Nat → K) → Nat → K
  | [], _, _, _ => 0
  | (J, T) :: l, off, f, i => contactTerm J T off f i + contactTerms l (off + T.cols) f i

/-- All `nv` rows of the equations of motion; the first `nu` degrees of freedom are not actuated. -/
def EquationsOfMotion [Field K] (nv nu : Nat) (M : Mat K) (h : Nat → K) (contacts : List (Mat K × Mat K))
    (torques : List (Vec K)) (dv f tau : Nat → K) : Prop :=
  ∀ i, i < nv →
    (∑ j ∈ range nv, M i j * dv j) + h i =
      (if i < nu then 0 else tau (i - nu)) + contactTerms contacts 0 f i + (torques.map fun t => t i).sum

open Formulation

variable [Field K] [LinearOrder K] [HasSqrt K]

/-- `s` results from the constructor and a finite history of calls; contact objects come from their
constructors, and the robot has at most as many actuators as degrees of freedom. -/
def Reachable (nd : Bool) (W : World) (s : State K) : Prop :=
  ∃ (robot : Robot K) (obj : Nat → Contact K) (assoc : Nat → String) (ops : List (Op K)),
    robot.na ≤ robot.nv ∧
    (∀ cid, ∃ name kind points normal mu fMin fMax, obj cid = Contact.new name kind points normal mu fMin fMax) ∧
    run nd W (init robot obj assoc) ops = some s

/-- A condition on every call of a history, evaluated in the state in which the call is made. -/
def Along (nd : Bool) (W : World) (G : State K → Op K → Prop) : State K → List (Op K) → Prop
  | _, [] => True
  | s, o :: os =>
    G s o ∧ match (step nd W s o).state? with
      | some s' => Along nd W G s' os
      | none => True

/-- A call does not re-associate a registered force task. -/
def NoReassociation (s : State K) : Op K → Prop
  | .setAssociated tid n => s.assoc tid = n ∨ ∀ tl ∈ s.forces, tl.tid ≠ tid
  | _ => True

/-- A call does not remove a force task of level 0. -/
def KeepsForceRows (W : World) (s : State K) : Op K → Prop
  | .removeTask n => ∀ tl ∈ s.forces, (W.task tl.tid).name = n → tl.prio ≠ 0
  | _ => True

/-- The sizes pinocchio guarantees for the quantities of a cycle. -/
def CycleSizes (nv : Nat) (cy : Cycle K) : Prop := cy.M.rows = nv ∧ cy.M.cols = nv ∧ cy.nle.size = nv

/-- The returned HQP data: weighted constraints, level by level. -/
def problem (s : State K) : List (List (K × Constraint K)) :=
  s.hqp.map fun l => l.map fun e => (e.1, s.heap e.2)

/-- Names of the registered contacts, in registration order. -/
def contactNames (s : State K) : List String := s.contacts.map fun c => (s.contactObj c.cid).name

end Tsid.Spec
