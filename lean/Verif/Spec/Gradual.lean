import Verif.Spec.Exceptions
import Verif.Spec.Story

/-!
# Checking by reading, with contacts that are let go gradually

As `Spec/Static` and `Spec/Exceptions`, for all programs: what is registered, the limits of contact forces and the contacts
that are being let go are computed from the text.
-/

namespace Tsid.Spec

open Formulation

variable {K : Type} [Field K] [LinearOrder K] [FloorRing K] [HasSqrt K]

/-- What the text says after one more call: the registrations, and the story of the contact forces.  A cycle that stops
with an exception takes no contact away. -/
def Setup.note (S : Setup K) (W : World) (l : Registry K × Story K) : Program.Op K → Registry K × Story K
  | .form o => (l.1.next W (fun c => (S.obj c).name) (refused o) o, l.2.next S.obj l.1 o)
  | .compute _ t =>
    (if l.2.stops (fun c => (S.obj c).kind) t then { l.1 with time := t } else l.1.expire (fun c => (S.obj c).name) t,
      l.2.cycle (fun c => (S.obj c).kind) t)
  | _ => l

/-- What the text says. -/
def Setup.log (S : Setup K) (W : World) (ops : List (Program.Op K)) : Registry K × Story K :=
  ops.foldl (S.note W) (Registry.empty, Story.begin S.obj)

/-- A task of this family may be added when `r` is registered (as `Addable`). -/
structure Setup.Joins (S : Setup K) (E : Program.Env K) (W : World) (r : Registry K) (ops : List (Program.Op K))
    (fam : Family) (tid p : Nat) : Prop where
  family : (S.decl tid).family = fam
  level : p < 2
  fresh : ¬ r.hasTask W (W.task tid).name
  kind : (W.task tid).kind = (S.decl tid).kind
  rows : (W.task tid).rows = (S.decl tid).rows E.robot (taskCalls tid ops)
  whole : (S.decl tid).Whole E.robot (taskCalls tid ops)

/-- The calls of the formulation that may follow the text.  In a debug build only what is registered is removed at once. -/
def Setup.PassesCall (S : Setup K) (E : Program.Env K) (W : World) (ops : List (Program.Op K)) : Formulation.Op K → Prop
  | .addMotionTask tid _ p _ => S.Joins E W (S.log W ops).1 ops .motion tid p
  | .addForceTask tid _ p _ => S.Joins E W (S.log W ops).1 ops .force tid p
  | .addActuationTask tid _ p _ => S.Joins E W (S.log W ops).1 ops .actuation tid p
  | .addRigidContact cid _ _ p => p < 2 ∧ ¬ (S.log W ops).1.hasContact (fun c => (S.obj c).name) (S.obj cid).name
  | .removeTask n => ¬ Reserved n ∧ (E.ndebug = false → (S.log W ops).1.hasTask W n)
  | .removeRigidContact n dur =>
    E.ndebug = false → dur ≤ 0 → (S.log W ops).1.hasContact (fun c => (S.obj c).name) n
  | .setContact cid u => Takes (S.obj cid).kind u
  | .decode x => S.robot.nv + nForces S.obj ((S.log W ops).1.items.filterMap Item.cid?) ≤ x.size
  | .removeFromHqpData _ | .compute _ _ | .setAssociated _ _ => False
  | _ => True

/-- The calls that may follow the text.  In a debug build a cycle may not come before the beginning of a gradual removal,
and a contact whose time has run out must still be there. -/
def Setup.Passes (S : Setup K) (E : Program.Env K) (W : World) (ops : List (Program.Op K)) : Program.Op K → Prop
  | .task tid c => (S.decl tid).Accepts E.robot c
  | .associate tid cid n => (∃ dt c n', S.decl tid = .force dt c n') ∧ (S.obj cid).name = n ∧
    ∀ fam p k, .task fam tid p k ∉ (S.log W ops).1.items
  | .motion cid c => (S.cdecl cid).Accepts c
  | .measured mid c => (S.mdecl mid).Accepts c
  | .form o => S.PassesCall E W ops o
  | .compute w t => SnapshotOk E.robot.nv w ∧ E.robot.na ≤ w.q.size ∧
    (∀ fam tid p k, .task fam tid p k ∈ ((S.log W ops).1.expire (fun c => (S.obj c).name) t).items →
      (W.task tid).kind = (S.decl tid).kind ∧ (W.task tid).rows = (S.decl tid).rows E.robot (taskCalls tid ops) ∧
      (S.decl tid).Supported E.robot S.obj
        (((S.log W ops).1.expire (fun c => (S.obj c).name) t).items.filterMap Item.cid?) (taskCalls tid ops)) ∧
    (E.ndebug = false →
      ¬ (S.log W ops).2.fails (fun c => (S.obj c).kind) (fun c => (S.obj c).name) (S.log W ops).1 t)

/-- Every call of the text may follow the calls before it. -/
def Vetted (E : Program.Env K) (W : World) (S : Setup K) (ops : List (Program.Op K)) : Prop :=
  ∀ pre o post, ops = pre ++ o :: post → S.Passes E W pre o

/-- The call ends with an exception when it follows the text: as `Refuses`, but the limits of contacts are those that the
gradual removals have left, and a cycle that would lower the limit of a contact below its minimum is refused. -/
def Setup.Declines (S : Setup K) (E : Program.Env K) (W : World) (ops : List (Program.Op K)) : Program.Op K → Prop
  | .form (.setContact cid u) => ((S.log W ops).2.limits cid).Refuses (S.obj cid).kind u
  | .compute _ t => (S.log W ops).2.stops (fun c => (S.obj c).kind) t = true
  | o => S.Refuses E ops o

/-- No call of the text is refused. -/
def Undeclined (E : Program.Env K) (W : World) (S : Setup K) (ops : List (Program.Op K)) : Prop :=
  ∀ pre o post, ops = pre ++ o :: post → ¬ S.Declines E W pre o

end Tsid.Spec
