import Verif.Spec.ProgramText
import Verif.Spec.ProgramProgress

/-!
# Letting go of a contact

Terms in which the gradual removal of a contact is described, as far as the text of the program and the behaviour of the
robot are concerned.
-/

namespace Tsid.Spec

open Finset Formulation

variable {K : Type}

section
variable [Field K] [LinearOrder K]

/-- A straight line from `f0` at time `t0` to `f1` at time `t0 + dur`. -/
def ramp (f0 f1 t0 dur t : K) : K := f0 + (t - t0) / dur * (f1 - f0)

/-- What a program may do while it lets go of contact `cid`, named `n`, from time `t0` to time `t1`: everything, but it does
not remove this contact, begin to remove another one gradually, or change the minimum normal force of this contact, and
its control cycles take place in the meantime. -/
def LettingGo (n : String) (cid : Nat) (t0 t1 : K) : Program.Op K → Prop
  | .form (.removeRigidContact m dur) => m ≠ n ∧ ¬ 0 < dur
  | .form (.setContact c (.fMin _)) => c ≠ cid
  | .form (.compute _ t) => t0 ≤ t ∧ t ≤ t1
  | .compute _ t => t0 ≤ t ∧ t ≤ t1
  | _ => True

/-- The program removes no contact gradually up to a control cycle at time `t0`, takes over the solution `x0` of the
cycle, begins to let go of the contact named `n`, and goes on with the calls `mid`. -/
def releaseText (pre : List (Program.Op K)) (w0 : Snapshot K) (t0 : K) (x0 : Vec K) (n : String) (dur : K)
    (mid : List (Program.Op K)) : List (Program.Op K) :=
  pre ++ .compute w0 t0 :: .form (.decode x0) :: .form (.removeRigidContact n dur) :: mid

end

section
variable [Field K] [LinearOrder K] [FloorRing K] [HasSqrt K]

/-- The normal force of a contact in a behaviour. -/
def Setup.pushing (S : Setup K) (ops : List (Program.Op K)) (b : Behaviour K) (cid : Nat) : K :=
  ∑ i ∈ range (nPoints (S.obj cid).kind), (S.limitsOf ops cid).normal.dot (cornerForce (b.force cid) i)

/-- The limits of the text, except that the normal force of contact `cid` is at most `m`. -/
def Setup.releasing (S : Setup K) (ops : List (Program.Op K)) (cid : Nat) (m : K) (c : Nat) : ForceLimits K :=
  if c = cid then { S.limitsOf ops c with fMax := m } else S.limitsOf ops c

/-- The program begins to let go of contact `cid`, named `n`, within the time `dur`, and `b0` is what the robot did in the
control cycle before: no contact was removed gradually before; the getters return `b0` after the cycle at time `t0`. -/
structure LetsGo (E : Program.Env K) (W : World) (S : Setup K) (pre : List (Program.Op K)) (w0 : Snapshot K) (t0 : K)
    (x0 : Vec K) (b0 : Behaviour K) (n : String) (cid : Nat) (dur : K) (mid : List (Program.Op K)) : Prop where
  before : NoGradualRemoval pre
  cycle : MayCycle E W S pre w0 t0
  held : cid ∈ S.cids E W pre t0
  name : (S.obj cid).name = n
  pushes : (S.obj cid).kind ≠ .twoFrames
  long : 0 < dur
  quiet : ∀ o ∈ mid, LettingGo n cid t0 (t0 + dur) o
  solution : ∃ sp s0, Program.run E S.start pre = some sp ∧ Program.compute E w0 t0 sp = .ok s0 () ∧
    x0.size = nVar s0.form ∧ b0.Decodes E W S pre t0 s0.form x0

/-- The maximum normal force of the contact at time `t`: on the straight line from the normal force before to a thousandth
above the minimum. -/
def Setup.releaseMax (S : Setup K) (pre : List (Program.Op K)) (b0 : Behaviour K) (cid : Nat) (t0 dur t : K) : K :=
  ramp (S.pushing pre b0 cid) ((S.limitsOf pre cid).fMin + 1 / 1000) t0 dur t

end

end Tsid.Spec
