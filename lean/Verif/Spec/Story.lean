import Verif.Spec.Release

/-!
# The limits of contact forces throughout any program

How the calls of a program, gradual removals included, set the limits of contact forces: who is being let go, since when
and from which force on, and what the control cycles do about it.
-/

namespace Tsid.Spec

open Finset Formulation

variable {K : Type}

/-- A contact that is being let go: since when, how long it takes, from which normal force, and to which. -/
structure Fading (K : Type) where
  cid : Nat
  since : K
  dur : K
  top : K
  goal : K

/-- What there is to tell about contact forces: the limits of every contact, the contacts that are being let go in the
order in which this began, the contact forces that were read last, and whether the next solution will be read. -/
structure Story (K : Type) where
  limits : Nat → ForceLimits K
  fading : List (Fading K)
  forces : Vec K
  unread : Bool

section
variable [Field K] [LinearOrder K]

/-- The limit at time `t`. -/
def Fading.limit (p : Fading K) (t : K) : K := ramp p.top p.goal p.since p.dur t

/-- The time has not run out. -/
def Fading.lasts (p : Fading K) (t : K) : Bool := decide (t ≤ p.since + p.dur)

/-- The contact accepts the limit: it is not below the minimum. -/
def Fading.fits (kind : Nat → ContactKind) (lim : Nat → ForceLimits K) (t : K) (p : Fading K) : Bool :=
  decide (kind p.cid = .twoFrames ∨ (lim p.cid).fMin ≤ p.limit t)

/-- The maxima at time `t`.  If a contact is let go twice at the same time, the later call counts. -/
def fade (t : K) : List (Fading K) → (Nat → ForceLimits K) → Nat → ForceLimits K
  | [], lim => lim
  | p :: ps, lim => fade t ps (Function.update lim p.cid { lim p.cid with fMax := p.limit t })

/-- A control cycle at time `t`.  The contacts that are being let go are considered in turn.  The limit of one whose time
has not run out is lowered; if it would be lowered below the minimum, the cycle stops with an exception.  The first one
whose time has run out is gone, and the others are not considered in this cycle. -/
def Story.cycle (kind : Nat → ContactKind) (st : Story K) (t : K) : Story K :=
  let on := st.fading.takeWhile fun p => p.lasts t && p.fits kind st.limits t
  match st.fading.drop on.length with
  | [] => { st with limits := fade t on st.limits, unread := true }
  | p :: ps =>
    if p.lasts t then { st with limits := fade t on st.limits }
    else { st with limits := fade t on st.limits, fading := on ++ ps, unread := true }

/-- A cycle at time `t` stops with an exception. -/
def Story.stops (kind : Nat → ContactKind) (st : Story K) (t : K) : Bool :=
  ((st.fading.takeWhile fun p => p.lasts t).all fun p => p.fits kind st.limits t) == false

variable [HasSqrt K]

/-- The normal force of contact `c` when the contacts `cids` are registered and the program begins to let it go: from the
forces read last, which are taken to be those of the contacts registered now, one after the other; its maximum if these
are too few.  A contact between two frames has no normal force. -/
def Story.normalForce (obj : Nat → Contact K) (cids : List Nat) (st : Story K) (c : Nat) : K :=
  if offset obj cids c + Contact.kindForce (obj c).kind ≤ st.forces.size then
    if (obj c).kind = .twoFrames then 0
    else ∑ i ∈ range (nPoints (obj c).kind), (st.limits c).normal.dot
      (cornerForce (fun j => st.forces (offset obj cids c + j)) i)
  else (st.limits c).fMax

/-- One call, `r` being what is registered before: setters change the limits; reading the first time after a cycle gives
the forces of the registered contacts; letting go begins at the time of the last cycle and aims at a thousandth above the
minimum. -/
def Story.next (obj : Nat → Contact K) (r : Registry K) (st : Story K) : Formulation.Op K → Story K
  | .setContact c u => { st with limits := Function.update st.limits c ((st.limits c).after (obj c).kind u) }
  | .removeRigidContact n dur =>
    if 0 < dur then
      match (r.items.filterMap Item.cid?).find? (fun c => (obj c).name == n) with
      | none => st
      | some c => { st with fading := st.fading ++ [⟨c, r.time, dur,
          st.normalForce obj (r.items.filterMap Item.cid?) c, (st.limits c).fMin + 1 / 1000⟩] }
    else st
  | .compute _ t => st.cycle (fun c => (obj c).kind) t
  | .decode x =>
    if st.unread then { st with forces := x.tail (nForces obj (r.items.filterMap Item.cid?)), unread := false } else st
  | _ => st

/-- A history of calls. -/
def Story.after (obj : Nat → Contact K) (W : World) : Story K → Registry K → List (Formulation.Op K × Bool) → Story K
  | st, _, [] => st
  | st, r, (o, threw) :: h => Story.after obj W (st.next obj r o) (r.next W (fun c => (obj c).name) threw o) h

/-- Before the first call. -/
def Story.begin (obj : Nat → Contact K) : Story K := ⟨fun c => ForceLimits.of (obj c), [], Vec.zero 0, true⟩

end

section
variable [Field K] [LinearOrder K] [FloorRing K] [HasSqrt K]

/-- The story of a program. -/
def Setup.story (S : Setup K) (E : Program.Env K) (W : World) (ops : List (Program.Op K)) : Story K :=
  (Story.begin S.obj).after S.obj W Registry.empty
    (outcomes E.ndebug W (Formulation.init S.robot S.obj fun tid => (S.task tid).assoc) (formCalls E S.start ops))

/-- The limits of contact forces in a cycle at time `t` after the program. -/
def Setup.limitsAt (S : Setup K) (E : Program.Env K) (W : World) (ops : List (Program.Op K)) (t : K) : Nat → ForceLimits K :=
  ((S.story E W ops).cycle (fun c => (S.obj c).kind) t).limits

end

end Tsid.Spec
