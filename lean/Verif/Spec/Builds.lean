import Verif.Spec.Story

/-!
# Debug and release builds

Where the assertions of a debug build can fail, in the terms of a user.
-/

namespace Tsid.Spec

open Formulation

variable {K : Type}

/-- A debug build stops at an assertion, or does the same as a release build. -/
def SameOrStops {σ α : Type} (debug release : Res σ α) : Prop := debug = .abort ∨ debug = release

/-- The same program environment in another build. -/
def build (E : Program.Env K) (nd : Bool) : Program.Env K := { E with ndebug := nd }

section
variable [Field K] [LinearOrder K]

/-- A contact of this name is registered. -/
def Registry.hasContact (nm : Nat → String) (r : Registry K) (n : String) : Prop := ∃ it ∈ r.items, it.isContact nm n = true

/-- A task of this name is registered. -/
def Registry.hasTask (W : World) (r : Registry K) (n : String) : Prop := ∃ it ∈ r.items, it.isTask W n = true

/-- An assertion fails in a control cycle at time `t`: among the contacts that are being let go and that the cycle
considers there is one for which this began after `t`, or one whose time has run out and that is no longer
registered. -/
def Story.fails (kind : Nat → ContactKind) (nm : Nat → String) (r : Registry K) (st : Story K) (t : K) : Prop :=
  ∃ pre p post, st.fading = pre ++ p :: post ∧ (∀ q ∈ pre, q.lasts t = true ∧ q.fits kind st.limits t = true) ∧
    (t < p.since ∨ (p.lasts t = false ∧ ¬ r.hasContact nm (nm p.cid)))

/-- An assertion fails in a call of the formulation: something is removed that is not there, or a cycle fails. -/
def Fails (W : World) (obj : Nat → Contact K) (r : Registry K) (st : Story K) : Formulation.Op K → Prop
  | .removeTask n => ¬ r.hasTask W n
  | .removeRigidContact n dur => dur ≤ 0 ∧ ¬ r.hasContact (fun c => (obj c).name) n
  | .compute _ t => st.fails (fun c => (obj c).kind) (fun c => (obj c).name) r t
  | _ => False

/-- The care that a call takes: only what is registered is removed, nothing is done to a contact that is being let go, and
times do not decrease. -/
def Careful (W : World) (obj : Nat → Contact K) (r : Registry K) (st : Story K) : Formulation.Op K → Prop
  | .removeTask n => r.hasTask W n
  | .removeRigidContact n dur =>
    (dur ≤ 0 → r.hasContact (fun c => (obj c).name) n) ∧ ∀ p ∈ st.fading, (obj p.cid).name ≠ n
  | .compute _ t => r.time ≤ t
  | _ => True

end

section
variable [Field K] [LinearOrder K] [FloorRing K] [HasSqrt K]

/-- An assertion fails in the next call of a program. -/
def Setup.fails (S : Setup K) (E : Program.Env K) (W : World) (ops : List (Program.Op K)) : Program.Op K → Prop
  | .form o => Fails W S.obj (S.registered E W ops) (S.story E W ops) o
  | .compute _ t => (S.story E W ops).fails (fun c => (S.obj c).kind) (fun c => (S.obj c).name) (S.registered E W ops) t
  | _ => False

/-- The care that the next call of a program takes. -/
def Setup.careful (S : Setup K) (E : Program.Env K) (W : World) (ops : List (Program.Op K)) : Program.Op K → Prop
  | .form o => Careful W S.obj (S.registered E W ops) (S.story E W ops) o
  | .compute _ t => (S.registered E W ops).time ≤ t
  | _ => True

end

end Tsid.Spec
