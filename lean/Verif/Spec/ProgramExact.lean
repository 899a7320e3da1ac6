import Verif.Spec.ProgramSolve

/-!
# What the first level of the problem asks for, no more and no less
-/

namespace Tsid.Spec

open Finset Formulation

variable {K : Type}

/-! ## Limits of contact forces -/

/-- Normal, friction coefficient and limits of the normal force of a contact. -/
structure ForceLimits (K : Type) where
  normal : V3 K
  mu : K
  fMin : K
  fMax : K

section
variable [Field K] [LinearOrder K]

/-- Limits after a call: contacts between two frames have neither a normal nor a friction coefficient to set, and take
any limits; the other contacts refuse a normal of a wrong size, a friction coefficient or a minimum that is not positive
and a minimum above the maximum. -/
def ForceLimits.after (kind : ContactKind) (p : ForceLimits K) : ContactSet K → ForceLimits K
  | .normal n => if kind = .twoFrames ∨ n.size ≠ 3 then p else { p with normal := ⟨n 0, n 1, n 2⟩ }
  | .friction m => if kind = .twoFrames ∨ m ≤ 0 then p else { p with mu := m }
  | .fMin m => if kind = .twoFrames ∨ (0 < m ∧ m ≤ p.fMax) then { p with fMin := m } else p
  | .fMax m => if kind = .twoFrames ∨ p.fMin ≤ m then { p with fMax := m } else p
  | _ => p

/-- Limits after a history of calls. -/
def ForceLimits.afterAll (kind : ContactKind) (p : ForceLimits K) : List (ContactSet K) → ForceLimits K
  | [] => p
  | u :: us => afterAll kind (p.after kind u) us

/-- The limits that a contact object holds. -/
def ForceLimits.of (c : Contact K) : ForceLimits K := ⟨c.normal, c.mu, c.fMin, c.fMax⟩

end

section
variable [Field K] [LinearOrder K] [FloorRing K] [HasSqrt K]

/-- The force `f` respects the limits: for contacts between two frames a box; otherwise the friction pyramid over the two
tangents that the class picks (they are orthonormal for a unit normal, C22) at every contact point, and the limits of the
sum of the normal components.  `BelowLimit` is the 10¹⁰ that stands for "no limit". -/
def ForceLimits.Respected (kind : ContactKind) (p : ForceLimits K) (f : Nat → K) : Prop :=
  match kind with
  | .twoFrames => ∀ i, i < 3 → p.fMin ≤ f i ∧ f i ≤ p.fMax
  | _ =>
    (∀ i, i < nPoints kind →
      Pyramid p.normal (Contact.tangent1 p.normal) (Contact.tangent2 p.normal) p.mu (cornerForce f i) ∧
      BelowLimit p.normal (Contact.tangent1 p.normal) (Contact.tangent2 p.normal) p.mu (cornerForce f i)) ∧
    p.fMin ≤ ∑ i ∈ range (nPoints kind), p.normal.dot (cornerForce f i) ∧
    ∑ i ∈ range (nPoints kind), p.normal.dot (cornerForce f i) ≤ p.fMax

/-! ## Tasks -/

/-- What a task of priority 0 asks of the vector `y`: that its error vanishes, or that its limits hold.  For the task of
combined joint limits this is the constraint of the object `o` (C29–C35 say what it allows). -/
def TaskDecl.Asks (E : Program.Env K) (x : TaskObj.Ctx K) (calls hist : List (TaskCall K)) (o : TaskObj K) (y : Nat → K)
    (d : TaskDecl K) : Prop :=
  match d with
  | .posVelAcc _ => Sat o.con y
  | .capture _ _ | .jointBounds _ | .actBounds => d.Demands E x calls hist o y
  | _ => d.Error E x calls hist y = 0

/-- A capture-point task has a time step, a gravity and a robot whose centre of mass is above the ground. -/
def TaskDecl.Upright (w : Snapshot K) : TaskDecl K → Prop
  | .capture gravity dt => 0 < dt ∧ 0 < gravity.norm ∧ 0 < w.com.pos.z
  | _ => True

/-- The vector that a registered task is about. -/
def Setup.read (S : Setup K) (ops : List (Program.Op K)) (d : Decoded K) (fam : Family) (tid : Nat) : Vec K :=
  match fam, S.decl tid with
  | .motion, _ => d.dv
  | .actuation, _ => d.tau
  | .force, .force _ _ cname => d.of (lastName ((taskCalls tid ops).filterMap force?) cname)
  | .force, _ => d.f

/-- Decoded accelerations, forces and torques that obey the text of the program in the cycle that led to state `s`: the
equations of motion, everything registered at priority 0, and the limits of the forces of every registered contact. -/
structure Obeyed (E : Program.Env K) (W : World) (S : Setup K) (ops : List (Program.Op K)) (w : Snapshot K) (t : K)
    (s : Program.State K) (d : Decoded K) : Prop where
  dynamics : EquationsOfMotion S.robot.nv (S.robot.nv - S.robot.na) (S.robot.mass w.M) w.nle
    (((S.registry E W ops t).items.filterMap Item.cid?).map fun c =>
      ((s.motion c).con.mat, (s.form.contactObj c).forceGen))
    ((S.registry E W ops t).measured.map fun m => (s.measured m).tau) d.dv d.f d.tau
  task : ∀ fam tid k, .task fam tid 0 k ∈ (S.registry E W ops t).items →
    (S.decl tid).Asks E (ctx E w s.form) (taskCalls tid ops) (history E S.start ops tid) (s.task tid)
      (S.read ops d fam tid)
  contactMotion : ∀ cid wm wf, .contact cid 0 wm wf ∈ (S.registry E W ops t).items →
    (S.cdecl cid).Error E w (contactCalls cid ops) d.dv = 0
  contactForce : ∀ cid p wm wf, .contact cid p wm wf ∈ (S.registry E W ops t).items →
    (ForceLimits.of (s.form.contactObj cid)).Respected (S.obj cid).kind (d.of (S.obj cid).name)

/-- The program removes no contact gradually. -/
def NoGradualRemoval (ops : List (Program.Op K)) : Prop :=
  ∀ n dur, .form (.removeRigidContact n dur) ∈ ops → ¬ 0 < dur

/-- However the solver was used before: after the cycle that led to state `s`, `solve` returns, and its output can be
decoded whatever the external solver answers.  If the external solver succeeds, then the status is optimal, the decoded
output obeys the text of the program, and nothing that obeys the text has a smaller objective. -/
def DeliversBest {R C : Type} (D : Solve.Driver K R C) (u0 : Solve.Object K R) (Sat : R → (Nat → K) → Prop)
    (Success : Solve.Answer C K → Prop) (reg : Bool) (E : Program.Env K) (W : World) (S : Setup K)
    (ops : List (Program.Op K)) (w : Snapshot K) (t : K) (s : Program.State K) : Prop :=
  ∀ hist u, (∀ c ∈ hist, c.Sized) → solves D E.ndebug u0 hist = some u →
    ∀ fresh freshI engine, Sound Sat Success engine →
      ∃ u', Solve.solve D fresh freshI E.ndebug engine u (problem s.form) = .ok u' () ∧
        let names := ((S.registry E W ops t).items.filterMap Item.cid?).map fun c => (S.obj c).name
        ∃ d : Decoded K, d.From s.form u'.out.x names ∧
          (Success (engine u'.st (start D fresh freshI u u')) →
            u'.out.status = .optimal ∧ Obeyed E W S ops w t s d ∧
            ∀ y : Vec K, y.size = nVar s.form → ∃ d' : Decoded K, d'.From s.form y names ∧
              (Obeyed E W S ops w t s d' →
                S.objective E W ops w t s reg u'.out.x d ≤ S.objective E W ops w t s reg y d'))

end

end Tsid.Spec
