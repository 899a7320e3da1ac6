import Verif.Spec.Viability

/-!
# A joint under control, cycle after cycle
-/

namespace Tsid.Spec

variable {K : Type} [Field K] [LinearOrder K]

/-- The last `na` of the coordinates move from one cycle to the next with constant acceleration during `d`: `q`, `v` at
the beginning, `q'`, `v'` at the end.  The vectors have `nq` and `nv` entries. -/
def MovesTo (nq nv na : Nat) (d : K) (q v : Vec K) (a : Nat → K) (q' v' : Vec K) : Prop :=
  ∀ j, j < na →
    q' (nq - na + j) = posAt (q (nq - na + j)) (v (nv - na + j)) (a (nv - na + j)) d ∧
    v' (nv - na + j) = velAt (v (nv - na + j)) (a (nv - na + j)) d

/-- The limits of a joint leave room for braking: during the horizon `h` the maximum acceleration changes the speed by at
most the speed limit, and the range is at least twice the distance of braking from that speed. -/
def Roomy (h qMin qMax dqMax m : K) : Prop := 0 < m ∧ m * h ≤ dqMax ∧ m * (h * h) ≤ qMax - qMin

/-- All joints of the settings are in viable states. -/
def AllViable (nq nv na : Nat) (p : LimitSettings K) (q v : Vec K) : Prop :=
  ∀ j, j < na → ViableState (p.qMin j) (p.qMax j) (p.dqMax j) (p.ddqMax j) (q (nq - na + j)) (v (nv - na + j))

end Tsid.Spec
