import Verif.Spec.Registry

/-!
# Specification of the contents of the problem

Every constraint of the problem handed to the solver, written as a function of the registrations, of the
contact objects and of the quantities of the current cycle.  Nothing else (in particular no past) enters.
-/

namespace Tsid.Spec

open Finset Formulation

variable {K : Type}

/-- What the contents of the problem depend on, besides the registered objects. -/
structure Env (K : Type) where
  nv : Nat
  nu : Nat
  mass : Mat K
  obj : Nat → Contact K
  assoc : Nat → String
  cy : Cycle K

/-- A matrix that vanishes outside a block of columns. -/
def block [Zero K] (rows cols j0 n : Nat) (B : Nat → Nat → K) : Mat K :=
  ⟨rows, cols, fun i j => if j0 ≤ j ∧ j < j0 + n then B i (j - j0) else 0⟩

/-- Two matrices side by side. -/
def sideBySide [Zero K] (rows n m : Nat) (A B : Nat → Nat → K) : Mat K :=
  ⟨rows, n + m, fun i j => if j < n then A i j else if j < n + m then B i (j - n) else 0⟩

/-- The constraint `c` on the `n` variables from `j0` on, as a constraint on all variables. -/
def embed [Zero K] [One K] (name : String) (rows cols j0 n : Nat) (c : Constraint K) : Constraint K :=
  match c.kind with
  | .equality =>
    ⟨name, .equality, block rows cols j0 n c.mat.get, c.vec, Constraint.noVec, Constraint.noVec⟩
  | .inequality => ⟨name, .inequality, block rows cols j0 n c.mat.get, Constraint.noVec, c.lb, c.ub⟩
  | .bound =>
    ⟨name, .inequality, block rows cols j0 n fun i j => if i = j then 1 else 0, Constraint.noVec, c.lb, c.ub⟩

/-- First force variable of a contact among the registered contacts. -/
def offset (obj : Nat → Contact K) : List Nat → Nat → Nat
  | [], _ => 0
  | c :: cs, cid => if c = cid then 0 else (obj c).nForce + offset obj cs cid

/-- Number of force variables. -/
def nForces (obj : Nat → Contact K) (cids : List Nat) : Nat := (cids.map fun c => (obj c).nForce).sum

/-- First variable and number of variables of the force a force task acts on. -/
def forceVars (obj : Nat → Contact K) (cids : List Nat) (assoc : String) : Nat × Nat :=
  if assoc = "" then (0, nForces obj cids)
  else match cids.find? fun c => (obj c).name == assoc with
    | some c => (offset obj cids c, (obj c).nForce)
    | none => (0, nForces obj cids)

variable [Field K]

/-- Row `r` of the stacked `Tᵀ J` of the contacts. -/
def stackedJac (obj : Nat → Contact K) (J : Nat → Mat K) : List Nat → Nat → Nat → K
  | [], _, _ => 0
  | c :: cs, r, i =>
    if r < (obj c).nForce then ∑ q ∈ range (obj c).forceGen.rows, (obj c).forceGen q r * J c q i
    else stackedJac obj J cs (r - (obj c).nForce) i

/-- Bias force: nonlinear effects minus the torques of the measured forces. -/
def bias (e : Env K) (measured : List Nat) (i : Nat) : K :=
  e.cy.nle i - ((measured.map e.cy.torque).map fun t => t i).sum

/-- The base dynamics: unactuated rows of `M dv - Jᵀ f = - bias`. -/
def baseConstraint (e : Env K) (cids measured : List Nat) : Constraint K :=
  ⟨"base-dynamics", .equality,
    sideBySide e.nu e.nv (nForces e.obj cids) (fun i j => e.mass i j)
      (fun i j => -stackedJac e.obj (fun c => (e.cy.contactMotion c).mat) cids j i),
    ⟨e.nu, fun i => -bias e measured i⟩, Constraint.noVec, Constraint.noVec⟩

/-- A constraint on the actuator torques, as a constraint on accelerations and forces: torques are
`M_a dv - J_aᵀ f + bias_a`. -/
def actConstraint (e : Env K) (cids measured : List Nat) (name : String) (rows : Nat) (c : Constraint K) :
    Constraint K :=
  let J := stackedJac e.obj (fun c => (e.cy.contactMotion c).mat) cids
  let h : Nat → K := fun i => bias e measured (e.nu + i)
  let A := sideBySide rows e.nv (nForces e.obj cids)
    (fun i j => ∑ q ∈ range c.mat.cols, c.mat i q * e.mass (e.nu + q) j)
    (fun i j => ∑ q ∈ range c.mat.cols, -c.mat i q * J j (e.nu + q))
  let Ah : Nat → K := fun i => ∑ q ∈ range c.mat.cols, c.mat i q * h q
  match c.kind with
  | .equality => ⟨name, .equality, A, ⟨c.vec.size, fun i => c.vec i - Ah i⟩, Constraint.noVec, Constraint.noVec⟩
  | .inequality =>
    ⟨name, .inequality, A, Constraint.noVec, ⟨c.lb.size, fun i => c.lb i - Ah i⟩, ⟨c.ub.size, fun i => c.ub i - Ah i⟩⟩
  | .bound =>
    ⟨name, .inequality,
      sideBySide rows e.nv (nForces e.obj cids) (fun i j => e.mass (e.nu + i) j) (fun i j => -J j (e.nu + i)),
      Constraint.noVec, ⟨c.lb.size, fun i => c.lb i - h i⟩, ⟨c.ub.size, fun i => c.ub i - h i⟩⟩

/-- The constraint of a registered task. -/
def taskConstraint (W : World) (e : Env K) (cids measured : List Nat) (fam : Family) (tid : Nat) :
    Constraint K :=
  let info := W.task tid
  let cols := e.nv + nForces e.obj cids
  match fam with
  | .motion => embed info.cname info.rows cols 0 e.nv (e.cy.motionOut tid)
  | .force =>
    let v := forceVars e.obj cids (e.assoc tid)
    embed info.cname info.rows cols (e.nv + v.1) v.2 (e.cy.forceOut tid)
  | .actuation => actConstraint e cids measured info.cname info.rows (e.cy.actOut tid)

/-- The motion constraint of a registered contact. -/
def contactMotionConstraint (e : Env K) (cids : List Nat) (cid : Nat) : Constraint K :=
  ⟨(e.obj cid).name ++ "_motion_task", .equality,
    block (e.obj cid).nMotion (e.nv + nForces e.obj cids) 0 e.nv (e.cy.contactMotion cid).mat.get,
    (e.cy.contactMotion cid).vec, Constraint.noVec, Constraint.noVec⟩

/-- The force constraint of a registered contact. -/
def contactForceConstraint (e : Env K) (cids : List Nat) (cid : Nat) : Constraint K :=
  ⟨(e.obj cid).name ++ "_force_constraint", .inequality,
    block (Contact.kindIneqRows (e.obj cid).kind) (e.nv + nForces e.obj cids) (e.nv + offset e.obj cids cid)
      (e.obj cid).nForce (e.obj cid).forceIneq.mat.get,
    Constraint.noVec, (e.obj cid).forceIneq.lb, (e.obj cid).forceIneq.ub⟩

/-- The force regularisation of a registered contact. -/
def contactRegConstraint (e : Env K) (cids : List Nat) (cid : Nat) : Constraint K :=
  ⟨(e.obj cid).name ++ "_force_reg_task", .equality,
    block (Contact.kindRegRows (e.obj cid).kind) (e.nv + nForces e.obj cids) (e.nv + offset e.obj cids cid)
      (e.obj cid).nForce (e.obj cid).forceReg.mat.get,
    (e.obj cid).forceReg.vec, Constraint.noVec, Constraint.noVec⟩

/-- Weighted constraints an object contributes to priority level `lvl`. -/
def Item.lines (W : World) (e : Env K) (cids measured : List Nat) (lvl : Nat) : Item K → List (K × Constraint K)
  | .task fam tid p w => if p = lvl then [(w, taskConstraint W e cids measured fam tid)] else []
  | .contact cid p wm wf =>
    (if p = lvl then [(wm, contactMotionConstraint e cids cid)] else []) ++
    (if lvl = 0 then [(1, contactForceConstraint e cids cid)] else []) ++
    (if lvl = 1 then [(wf, contactRegConstraint e cids cid)] else [])

/-- The problem of the registered objects. -/
def contents (W : World) (e : Env K) (items : List (Item K)) (measured : List Nat) :
    List (List (K × Constraint K)) :=
  let cids := items.filterMap Item.cid?
  [(1, baseConstraint e cids measured) :: items.flatMap (Item.lines W e cids measured 0),
   items.flatMap (Item.lines W e cids measured 1)]

end Tsid.Spec
