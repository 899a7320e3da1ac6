import Verif.Spec.Feasibility
import Verif.Lemmas.Feasible
import Verif.Props.PosVelAcc

/-!
# C78: joint limits hold in all control cycles
-/

set_option linter.unusedSectionVars false

namespace Tsid.Props

open Spec PosVelAcc

variable {K : Type} [Field K] [LinearOrder K] [IsStrictOrderedRing K] [HasSqrt K] [LawfulSqrt K]

/-- The lower limits of the four kinds of one joint, all imposed, as the code computes them. -/
def lowerFour (h qMin qMax V m q dq : K) : Four K :=
  ⟨(fromPos h (2 / (h * h)) qMin qMax q dq).1, (fromVia h (h * h) (2 * (h * h)) qMin qMax m q dq).1,
    (-V - dq) / h, -m⟩

/-- The upper limits. -/
def upperFour (h qMin qMax V m q dq : K) : Four K :=
  ⟨(fromPos h (2 / (h * h)) qMin qMax q dq).2, (fromVia h (h * h) (2 * (h * h)) qMin qMax m q dq).2,
    (V - dq) / h, m⟩

theorem admits_of_viable {qMin qMax V m q dq : K} (hv : ViableState qMin qMax V m q dq) (hm : 0 < m) :
    Admits qMin qMax q dq := by
  obtain ⟨⟨h1, h2⟩, -, h4, h5⟩ := hv
  refine ⟨h1, h2, ?_, ?_⟩
  · rintro ⟨e, hd⟩
    rcases sq_of_stoppableBelow hm h5 with h6 | h6
    · linarith
    · rw [e, sub_self, mul_zero] at h6; nlinarith
  · rintro ⟨e, hd⟩
    rcases sq_of_stoppableAbove hm h4 with h6 | h6
    · linarith
    · rw [e, sub_self, mul_zero] at h6; nlinarith

/-- **C78, no contradiction.** In every viable state of a joint with enough room the limits of the four kinds are
compatible. -/
theorem C78_compatible {h qMin qMax V m q dq : K} (hh : 0 < h) (hr : Roomy h qMin qMax V m)
    (hv : ViableState qMin qMax V m q dq) :
    ∃ a, Allows (lowerFour h qMin qMax V m q dq) (upperFour h qMin qMax V m q dq) a := by
  obtain ⟨hm, hV, hL⟩ := hr
  obtain ⟨a, h1, h2, h3, h4, h5⟩ := exists_good hh hm hV hL hv
  obtain ⟨p1, p2⟩ := C29_needed hh (admits_of_viable hv hm) h1
  rw [abs_le] at h2 h3
  refine ⟨a, ⟨p1, p2⟩, ⟨fromVia_needed_lower (qMax := qMax) hh hm h5, fromVia_needed (qMin := qMin) hh hm h4⟩, ⟨?_, ?_⟩, h3⟩
  · show (-V - dq) / h ≤ a
    rw [div_le_iff₀ hh]; linarith [h2.1]
  · show a ≤ (V - dq) / h
    rw [le_div_iff₀ hh]; linarith [h2.2]

/-- **C78, one cycle.** An acceleration that respects the limits of the four kinds keeps the joint viable at every
instant of the horizon. -/
theorem C78_stays_viable {h qMin qMax V m q dq a t : K} (hh : 0 < h) (hm : 0 < m)
    (hv : ViableState qMin qMax V m q dq)
    (ha : Allows (lowerFour h qMin qMax V m q dq) (upperFour h qMin qMax V m q dq) a) (h0 : 0 ≤ t) (h1 : t ≤ h) :
    ViableState qMin qMax V m (posAt q dq a t) (velAt dq a t) := by
  obtain ⟨⟨a1, a2⟩, ⟨a3, a4⟩, ⟨a5, a6⟩, a7, a8⟩ := ha
  have hin := C29_position hh (admits_of_viable hv hm) a1 a2
  have hup := C30_viability_upper (qMin := qMin) hh hm.le a4
  have hlo := C30_viability_lower (qMax := qMax) hh hm.le a3
  change (-V - dq) / h ≤ a at a5
  change a ≤ (V - dq) / h at a6
  change -m ≤ a at a7
  change a ≤ m at a8
  rw [div_le_iff₀ hh] at a5
  rw [le_div_iff₀ hh] at a6
  have hd := abs_le.1 hv.2.1
  refine ⟨hin t h0 h1, ?_, ?_, ?_⟩
  · unfold velAt
    rw [abs_le]
    constructor
    · have e : h * (dq + a * t + V) = (h - t) * (dq + V) + t * (dq + a * h + V) := by ring
      have : 0 ≤ h * (dq + a * t + V) := by
        rw [e]
        exact add_nonneg (mul_nonneg (by linarith) (by linarith)) (mul_nonneg h0 (by linarith))
      linarith [nonneg_of_mul_nonneg_right this hh]
    · have e : h * (V - (dq + a * t)) = (h - t) * (V - dq) + t * (V - (dq + a * h)) := by ring
      have : 0 ≤ h * (V - (dq + a * t)) := by
        rw [e]
        exact add_nonneg (mul_nonneg (by linarith) (by linarith)) (mul_nonneg h0 (by linarith))
      linarith [nonneg_of_mul_nonneg_right this hh]
  · exact stoppable_before (fun t h0 h1 => (hin t h0 h1).2) a7 hm hup h0 h1
  · rw [stoppable_mirror', show -posAt q dq a t = posAt (-q) (-dq) (-a) t by unfold posAt; ring,
      show -velAt dq a t = velAt (-dq) (-a) t by unfold velAt; ring]
    refine stoppable_before (h := h) ?_ (by linarith) hm ?_ h0 h1
    · intro t h0 h1
      have := (hin t h0 h1).1
      rw [show posAt (-q) (-dq) (-a) t = -posAt q dq a t by unfold posAt; ring]
      linarith
    · rw [show posAt (-q) (-dq) (-a) h = -posAt q dq a h by unfold posAt; ring,
        show velAt (-dq) (-a) h = -velAt dq a h by unfold velAt; ring]
      exact stoppable_mirror'.1 hlo

section
variable [FloorRing K]

/-- What the task computes for joint `j` when all kinds of limits are imposed. -/
theorem fours_of_compute {nv na : Nat} {h : K} {p : LimitSettings K} {s s' : PosVelAcc K} {q v : Vec K}
    {c : Constraint K} (hi : LimInv nv na p s) (ht : TimeInv h s) (hv : v.size = nv)
    (hp : p.impPos = true ∧ p.impVel = true ∧ p.impVia = true ∧ p.impAcc = true)
    (hc : s.compute q v = .ok s' c) (j : Nat) :
    s'.lower (v (nv - na + j)) j =
      lowerFour h (p.qMin j) (p.qMax j) (p.dqMax j) (p.ddqMax j) (q (q.size - na + j)) (v (nv - na + j)) ∧
    s'.upper (v (nv - na + j)) j =
      upperFour h (p.qMin j) (p.qMax j) (p.dqMax j) (p.ddqMax j) (q (q.size - na + j)) (v (nv - na + j)) := by
  obtain ⟨p1, p2, p3, p4⟩ := hp
  have hsz : s.na ≤ q.size ∧ s.na ≤ v.size := by
    by_contra h
    unfold compute at hc; rw [if_neg h] at hc; cases hc
  rw [compute_ok hsz.1 hsz.2] at hc
  cases hc
  have hv' : (v.tail s.na) j = v (nv - na + j) := by simp [Vec.tail, hv, hi.naEq]
  have hq' : (q.tail s.na) j = q (q.size - na + j) := by simp [Vec.tail, hi.naEq]
  constructor
  · simp only [PosVelAcc.lower, lowerFour, accLimits, hi.impPos, hi.impVel, hi.impVia, hi.impAcc, p1, p2, p3, p4,
      if_true, ht.dt, ht.twoDtSq, ht.dtSquare, ht.twoA, hi.qMin, hi.qMax, hi.dqMax, hi.ddqMax, hv', hq']
  · simp only [PosVelAcc.upper, upperFour, accLimits, hi.impPos, hi.impVel, hi.impVia, hi.impAcc, p1, p2, p3, p4,
      if_true, ht.dt, ht.twoDtSq, ht.dtSquare, ht.twoA, hi.qMin, hi.qMax, hi.dqMax, hi.ddqMax, hv', hq']

/-- One cycle of the task from a viable state: the constraint can be satisfied, and every acceleration that satisfies it
keeps all joints viable during the horizon. -/
theorem cycle_viable {nv na : Nat} {h : K} {p : LimitSettings K} {s s' : PosVelAcc K} {q v : Vec K}
    {c : Constraint K} (hna : na ≤ nv) (hh : 0 < h) (hi : LimInv nv na p s) (ht : TimeInv h s) (hv : v.size = nv)
    (hfull : ∀ i, i < na → p.mask i = 1)
    (hp : p.impPos = true ∧ p.impVel = true ∧ p.impVia = true ∧ p.impAcc = true)
    (hroom : ∀ j, j < na → Roomy h (p.qMin j) (p.qMax j) (p.dqMax j) (p.ddqMax j))
    (hvia : AllViable q.size nv na p q v) (hc : s.compute q v = .ok s' c) :
    (∃ a, Sat c a) ∧
    ∀ a, Sat c a → ∀ j, j < na → ∀ t, 0 ≤ t → t ≤ h →
      ViableState (p.qMin j) (p.qMax j) (p.dqMax j) (p.ddqMax j)
        (posAt (q (q.size - na + j)) (v (nv - na + j)) (a (nv - na + j)) t)
        (velAt (v (nv - na + j)) (a (nv - na + j)) t) := by
  have hcomp : ∀ j, j < na → ∃ b, Allows (s'.lower (v (nv - na + j)) j) (s'.upper (v (nv - na + j)) j) b := by
    intro j hj
    obtain ⟨e1, e2⟩ := fours_of_compute hi ht hv hp hc j
    rw [e1, e2]
    exact C78_compatible hh (hroom j hj) (hvia j hj)
  constructor
  · choose! f hf using hcomp
    refine ⟨fun i => f (i - (nv - na)), (full_sat hna hi hfull hv hc _).2 fun j hj => ?_⟩
    rw [C31_intersection (⟨_, hf j hj⟩), show nv - na + j - (nv - na) = j by omega]
    exact hf j hj
  · intro a hsat j hj t h0 h1
    have hs := (full_sat hna hi hfull hv hc a).1 hsat j hj
    rw [C31_intersection (hcomp j hj)] at hs
    obtain ⟨e1, e2⟩ := fours_of_compute hi ht hv hp hc j
    rw [e1, e2] at hs
    exact C78_stays_viable hh (hroom j hj).1 (hvia j hj) hs h0 h1

/-- **C78.** A task is created and set up by any history of calls that keeps the time step `dt` and ends with all limits
imposed on all joints; all joints are in viable states and have enough room.  Then, for any number `N` of control cycles
of any lengths up to `2 dt`, in each of which the robot is accelerated within the constraint computed for its current
state: at every instant of every cycle all joints are inside their position and velocity limits and can be stopped before
their position limits; and in every cycle the constraint can be satisfied. -/
theorem C78_forever {name : String} {nq nv na N : Nat} {dt : K} {s0 : PosVelAcc K} {os : List (PosVelAcc.Op K)}
    {s : Nat → PosVelAcc K} {c : Nat → Constraint K} {q v : Nat → Vec K} {a : Nat → Nat → K} {d : Nat → K}
    (hna : na ≤ nv) (h0 : PosVelAcc.new name nv na dt = some s0) (hr : runOps PosVelAcc.step s0 os = some (s 0))
    (hg : ∀ o ∈ os, GoodMask na o) (ht : ∀ o ∈ os, KeepsTimeStep o) :
    let p := (LimitSettings.fresh (K := K) na).afterAll na os
    (∀ i, i < na → p.mask i = 1) →
    (p.impPos = true ∧ p.impVel = true ∧ p.impVia = true ∧ p.impAcc = true) →
    (∀ j, j < na → Roomy (2 * dt) (p.qMin j) (p.qMax j) (p.dqMax j) (p.ddqMax j)) →
    AllViable nq nv na p (q 0) (v 0) →
    (∀ n, n ≤ N → (q n).size = nq ∧ (v n).size = nv) →
    (∀ n, n ≤ N → (s n).compute (q n) (v n) = .ok (s (n + 1)) (c n)) →
    (∀ n, n < N → Sat (c n) (a n) ∧ 0 ≤ d n ∧ d n ≤ 2 * dt ∧ MovesTo nq nv na (d n) (q n) (v n) (a n) (q (n + 1)) (v (n + 1))) →
    (∀ n, n ≤ N → AllViable nq nv na p (q n) (v n) ∧ ∃ b, Sat (c n) b) ∧
    ∀ n, n < N → ∀ j, j < na → ∀ t, 0 ≤ t → t ≤ d n →
      ViableState (p.qMin j) (p.qMax j) (p.dqMax j) (p.ddqMax j)
        (posAt (q n (nq - na + j)) (v n (nv - na + j)) (a n (nv - na + j)) t)
        (velAt (v n (nv - na + j)) (a n (nv - na + j)) t) := by
  intro p hfull hp hroom hvia hsize hcomp hmove
  obtain ⟨hi0, ht0, hdt⟩ := limInv_new hna h0
  have hi : LimInv nv na p (s 0) := limInv_run hna hi0 hg hr
  have hti : TimeInv (2 * dt) (s 0) := timeInv_run ht0 ht hr
  have hh : 0 < 2 * dt := by linarith
  have inv : ∀ n, n ≤ N → LimInv nv na p (s n) ∧ TimeInv (2 * dt) (s n) ∧ AllViable nq nv na p (q n) (v n) := by
    intro n
    induction n with
    | zero => exact fun _ => ⟨hi, hti, hvia⟩
    | succ n ih =>
      intro hn
      obtain ⟨i1, i2, i3⟩ := ih (by omega)
      obtain ⟨z1, z2⟩ := hsize n (by omega)
      have hc := hcomp n (by omega)
      have hstep : ((s n).step (.compute (q n) (v n))).state? = some (s (n + 1)) := by
        simp only [PosVelAcc.step, hc, Res.state?]
      refine ⟨limInv_step (o := .compute (q n) (v n)) hna i1 trivial hstep, timeInv_step (o := .compute (q n) (v n)) i2 trivial hstep, ?_⟩
      obtain ⟨m1, m2, m3, m4⟩ := hmove n (by omega)
      intro j hj
      rw [(m4 j hj).1, (m4 j hj).2, ← z1]
      rw [← z1] at i3
      exact (cycle_viable hna hh i1 i2 z2 hfull hp hroom i3 hc).2 (a n) m1 j hj (d n) m2 m3
  constructor
  · intro n hn
    obtain ⟨i1, i2, i3⟩ := inv n hn
    obtain ⟨z1, z2⟩ := hsize n hn
    refine ⟨i3, ?_⟩
    rw [← z1] at i3
    exact (cycle_viable hna hh i1 i2 z2 hfull hp hroom i3 (hcomp n hn)).1
  · intro n hn j hj t h0 h1
    obtain ⟨i1, i2, i3⟩ := inv n hn.le
    obtain ⟨z1, z2⟩ := hsize n hn.le
    obtain ⟨m1, m2, m3, m4⟩ := hmove n hn
    rw [← z1] at i3 ⊢
    exact (cycle_viable hna hh i1 i2 z2 hfull hp hroom i3 (hcomp n hn.le)).2 (a n) m1 j hj t h0 (le_trans h1 m3)

end

/-- Without room for braking the limits of a viable state may contradict each other: range 1/10, horizon 1, maximum
acceleration 1, maximum speed 1, position 1/50, velocity −1/5. -/
theorem C78_needs_room :
    ViableState (0 : ℚ) (1 / 10) 1 1 (1 / 50) (-1 / 5) ∧
    ¬ ∃ a, Allows (lowerFour (1 : ℚ) 0 (1 / 10) 1 1 (1 / 50) (-1 / 5)) (upperFour (1 : ℚ) 0 (1 / 10) 1 1 (1 / 50) (-1 / 5)) a := by
  constructor
  · refine ⟨by norm_num, by norm_num [abs_le], Or.inl (by norm_num), Or.inr fun t _ => ?_⟩
    unfold posAt
    nlinarith [sq_nonneg (t - 1 / 5)]
  · rintro ⟨a, ⟨h1, h2⟩, -⟩
    have : (upperFour (1 : ℚ) 0 (1 / 10) 1 1 (1 / 50) (-1 / 5)).pos < (lowerFour (1 : ℚ) 0 (1 / 10) 1 1 (1 / 50) (-1 / 5)).pos := by
      decide +kernel
    linarith

/-- Non-vacuity: two cycles of a joint with limits ±2, speed limit 3, acceleration limit 2 and time step 1/2: the task
computes the bounds ±2 in the first cycle; with acceleration 2 for half a second the joint is at 1/4 with speed 1. -/
example : Roomy (2 * (1 / 2) : ℚ) (-2) 2 3 2 ∧ posAt (0 : ℚ) 0 2 (1 / 2) = 1 / 4 ∧ velAt (0 : ℚ) 2 (1 / 2) = 1 ∧
    ViableState (-2 : ℚ) 2 3 2 0 0 ∧
    (((PosVelAcc.new "l" 1 1 (1/2 : ℚ)).bind fun s0 =>
      (runOps PosVelAcc.step s0
        [.setPositionBounds (Vec.ofList [-2]) (Vec.ofList [2]), .setVelocityBounds (Vec.ofList [3]),
         .setAccelerationBounds (Vec.ofList [2]), .compute (Vec.ofList [0]) (Vec.ofList [0])]).bind fun s =>
      (s.compute (Vec.ofList [1 / 4]) (Vec.ofList [1])).val?.map (fun c => (c.lb.toList, decide (c.ub 0 < 2)))) =
      some ([-2], true)) := by
  refine ⟨?_, ?_, ?_, ?_, by decide +kernel⟩
  · unfold Roomy; norm_num
  · norm_num [posAt]
  · norm_num [velAt]
  · exact ⟨⟨by norm_num, by norm_num⟩, by norm_num, Or.inl le_rfl, Or.inl le_rfl⟩

end Tsid.Props
