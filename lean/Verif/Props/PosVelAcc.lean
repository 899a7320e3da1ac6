import Mathlib.Tactic.NormNum
import Verif.Lemmas.PosVelAccRun

/-!
# C29 - C35: bounds on position, velocity and acceleration of the joints
-/

set_option linter.unusedSectionVars false

namespace Tsid.Props

open Spec Finset PosVelAcc

variable {K : Type} [Field K] [LinearOrder K] [IsStrictOrderedRing K]

/-! ## C29 -/

/-- **C29.** A joint that is inside its limits and not leaving them, and that is accelerated within the bounds derived
from its position limits, stays inside the limits at every instant of the prediction horizon `h` (`m_dt`). -/
theorem C29_position {h q dq a qMin qMax : K} (hh : 0 < h) (hq : Admits qMin qMax q dq)
    (hl : (fromPos h (2 / (h * h)) qMin qMax q dq).1 ≤ a) (hu : a ≤ (fromPos h (2 / (h * h)) qMin qMax q dq).2) :
    StaysInside qMin qMax h q dq a :=
  fun _ h0 h1 => fromPos_safe hh hq.1 hq.2.1 hq.2.2.1 hq.2.2.2 hl hu h0 h1

/-- **C29, exactness.** The bounds are not tighter than needed: an acceleration that keeps the joint inside its limits
during the horizon respects them. -/
theorem C29_needed {h q dq a qMin qMax : K} (hh : 0 < h) (hq : Admits qMin qMax q dq)
    (hs : StaysInside qMin qMax h q dq a) :
    (fromPos h (2 / (h * h)) qMin qMax q dq).1 ≤ a ∧ a ≤ (fromPos h (2 / (h * h)) qMin qMax q dq).2 := by
  rcases le_or_gt dq 0 with hd | hd
  · exact fromPos_needed hh hq.1 hq.2.2.1 hd hs
  · have hm := fromPos_mirror (h := h) (c := 2 / (h * h)) (qMin := qMin) (qMax := qMax) (q := q) hd.ne'
    have := fromPos_needed (h := h) (q := -q) (dq := -dq) (a := -a) (qMin := -qMax) (qMax := -qMin) hh
      (by linarith [hq.2.1]) (fun h1 => hq.2.2.2 ⟨by linarith [h1.1], hd⟩) (by linarith) (by
        intro t h0 h1
        obtain ⟨h2, h3⟩ := hs t h0 h1
        unfold posAt at *
        constructor <;> linarith)
    rw [hm] at this
    constructor <;> linarith [this.1, this.2]

/-- Why joints leaving the limits are excluded: at the lower limit with velocity -1 the bounds allow acceleration 0. -/
theorem C29_leaving :
    (fromPos (1 : ℚ) (2 / (1 * 1)) 0 1 0 (-1)).1 ≤ 0 ∧ (0 : ℚ) ≤ (fromPos (1 : ℚ) (2 / (1 * 1)) 0 1 0 (-1)).2 ∧
    ¬ StaysInside (0 : ℚ) 1 1 0 (-1) 0 := by
  refine ⟨by decide +kernel, by decide +kernel, ?_⟩
  intro h
  have := (h 1 (by norm_num) (by norm_num)).1
  norm_num [posAt] at this

/-- A joint between -1 and 1 moving up at speed 1 from 1/2, with horizon 2: it has to brake with at least 1. -/
example : Admits (-1 : ℚ) 1 (1/2) 1 ∧ fromPos (2 : ℚ) (2 / (2 * 2)) (-1) 1 (1/2) 1 = (-7/4, -1) := by
  refine ⟨by unfold Admits; norm_num, ?_⟩
  decide +kernel

/-! ## C30 -/

/-- **C30, upper limit.** After one horizon with an acceleration below the viability bound the joint does not move
towards its upper limit, or the maximum deceleration stops it before the limit. -/
theorem C30_viability_upper [HasSqrt K] [LawfulSqrt K] {h q dq a qMin qMax m : K} (hh : 0 < h) (hm : 0 ≤ m)
    (ha : a ≤ (fromVia h (h * h) (2 * (h * h)) qMin qMax m q dq).2) :
    StoppableAbove qMax m (posAt q dq a h) (velAt dq a h) := by
  have hq : q + h * dq + h * h * a / 2 = posAt q dq a h := by unfold posAt; ring
  have hv : dq + h * a = velAt dq a h := by unfold velAt; ring
  have := fromVia_upper hh hm ha
  rw [hq, hv] at this
  generalize posAt q dq a h = x at *
  generalize velAt dq a h = y at *
  rcases this with h1 | h1
  · exact Or.inl h1
  rcases hm.eq_or_lt with h0 | hpos
  · left
    rw [← h0] at h1
    have : y * y = 0 := le_antisymm (by linarith) (mul_self_nonneg y)
    have : y = 0 := by simpa using this
    exact this.le
  · right
    intro t _
    unfold posAt
    have h2 : 0 ≤ (y - m * t) * (y - m * t) := mul_self_nonneg _
    have h3 : 0 ≤ 2 * m * (qMax - (x + y * t + -m * (t * t) / 2)) := by nlinarith
    have := nonneg_of_mul_nonneg_right h3 (by linarith)
    linarith

/-- **C30, lower limit.** -/
theorem C30_viability_lower [HasSqrt K] [LawfulSqrt K] {h q dq a qMin qMax m : K} (hh : 0 < h) (hm : 0 ≤ m)
    (ha : (fromVia h (h * h) (2 * (h * h)) qMin qMax m q dq).1 ≤ a) :
    StoppableBelow qMin m (posAt q dq a h) (velAt dq a h) := by
  have := C30_viability_upper (h := h) (q := -q) (dq := -dq) (a := -a) (qMin := -qMax) (qMax := -qMin) (m := m) hh hm
    (by rw [fromVia_mirror]; simpa using ha)
  rcases this with h1 | h1
  · left; unfold velAt at h1 ⊢; linarith
  · right
    intro t ht
    have := h1 t ht
    unfold posAt velAt at *
    linarith

/-- A joint at rest at 0 with limits ±2, horizon 1 and maximum acceleration 2: the viability bounds are ±2, and with
the acceleration 2 it ends at position 1 with velocity 2, from where it stops exactly at the limit. -/
example : fromVia (1 : ℚ) (1 * 1) (2 * (1 * 1)) (-2) 2 2 0 0 = (-2, 2) ∧
    posAt (0 : ℚ) 0 2 1 = 1 ∧ velAt (0 : ℚ) 2 1 = 2 ∧ posAt (1 : ℚ) 2 (-2) 1 = 2 := by
  refine ⟨by decide +kernel, ?_, ?_, ?_⟩ <;> norm_num [posAt, velAt]

/-- The hypotheses of C30 can be met over the reals, with a positive bound. -/
example : (2 : ℝ) ≤ (fromVia (1 : ℝ) (1 * 1) (2 * (1 * 1)) (-2) 2 2 0 0).2 := by
  have : (sqrt (36 : ℝ)) = 6 := by
    change Real.sqrt 36 = 6
    rw [show (36 : ℝ) = 6 * 6 by norm_num, Real.sqrt_mul_self (by norm_num)]
  norm_num [fromVia, this]

/-! ## C31 -/

/-- **C31.** The bounds that `computeAccLimits` makes of the limits of the four kinds are never contradictory. -/
theorem C31_ordered (lb ub : Four K) : (combine lb ub).1 ≤ (combine lb ub).2 := combine_le lb ub

/-- **C31, compatible limits.** When some acceleration respects the limits of all kinds, the bounds allow exactly the
accelerations that do. -/
theorem C31_intersection {lb ub : Four K} (h : ∃ a, Allows lb ub a) (a : K) :
    ((combine lb ub).1 ≤ a ∧ a ≤ (combine lb ub).2) ↔ Allows lb ub a := by
  obtain ⟨b, ⟨h1, h2⟩, ⟨h3, h4⟩, ⟨h5, h6⟩, h7, h8⟩ := h
  have hc : lb.max ≤ ub.min := le_trans (four_max_le.2 ⟨h1, h3, h5, h7⟩) (le_four_min.2 ⟨h2, h4, h6, h8⟩)
  rw [combine_compatible hc]
  simp only [four_max_le, le_four_min, Allows]
  tauto

section
variable [FloorRing K] [HasSqrt K]

/-- The constraint computed after a history: which accelerations it allows, the mask being full. -/
theorem full_sat {nv na : Nat} (hna : na ≤ nv) {p : LimitSettings K} {s s' : PosVelAcc K} {q v : Vec K}
    {c : Constraint K} (hi : LimInv nv na p s) (hfull : ∀ i, i < na → p.mask i = 1)
    (hv : v.size = nv) (hc : s.compute q v = .ok s' c) (a : Nat → K) :
    Sat c a ↔ ∀ j, j < na →
      (combine (s'.lower (v (nv - na + j)) j) (s'.upper (v (nv - na + j)) j)).1 ≤ a (nv - na + j) ∧
      a (nv - na + j) ≤ (combine (s'.lower (v (nv - na + j)) j) (s'.upper (v (nv - na + j)) j)).2 := by
  have hcount : ∀ n, n ≤ na → countSelected p.mask n = n := by
    intro n
    induction n with
    | zero => intro _; rfl
    | succ n ih => intro h; rw [countSelected, ih (by omega), if_pos (hfull n (by omega))]
  by_cases hs : s.na ≤ q.size ∧ s.na ≤ v.size
  swap
  · unfold compute at hc; rw [if_neg hs] at hc; cases hc
  rw [compute_ok hs.1 hs.2] at hc
  cases hc
  rw [sat_compute hna hi]
  have hb := accLimits_bounds s (q.tail s.na) (v.tail s.na)
  have hv' : ∀ j, (v.tail s.na) j = v (nv - na + j) := by intro j; simp [Vec.tail, hv, hi.naEq]
  have hl : ∀ j, (s.accLimits (q.tail s.na) (v.tail s.na)).ddqLB j =
      (combine ((s.accLimits (q.tail s.na) (v.tail s.na)).lower (v (nv - na + j)) j)
        ((s.accLimits (q.tail s.na) (v.tail s.na)).upper (v (nv - na + j)) j)).1 := by
    intro j; have := hb j; rw [hv'] at this; rw [← this]
  have hu : ∀ j, (s.accLimits (q.tail s.na) (v.tail s.na)).ddqUB j =
      (combine ((s.accLimits (q.tail s.na) (v.tail s.na)).lower (v (nv - na + j)) j)
        ((s.accLimits (q.tail s.na) (v.tail s.na)).upper (v (nv - na + j)) j)).2 := by
    intro j; have := hb j; rw [hv'] at this; rw [← this]
  constructor
  · intro h j hj
    have := h j ⟨by rw [hi.adm.1]; exact hj, hfull j hj⟩
    rw [hcount j hj.le, hl, hu] at this
    exact this
  · intro h j hj
    have hjn : j < na := by rw [← hi.adm.1]; exact hj.1
    rw [hcount j hjn.le, hl, hu]
    exact h j hjn

/-- **C29, C30, C31 together.** For every history of calls that keeps the time step `dt` and the full mask, every
state and every acceleration satisfying the constraint of the task: each joint whose limits can be met at all
(together with the bounds kept from earlier cycles for the kinds that are switched off)
* stays inside its position limits during `2 dt`, if these are imposed and the joint is inside and not leaving,
* is within its velocity limits after `2 dt`, if these are imposed,
* can still be stopped before its position limits after `2 dt`, if viability is imposed,
* is accelerated within its acceleration limits, if these are imposed. -/
theorem C31_imposed [LawfulSqrt K] {name : String} {nv na : Nat} {dt : K} {s0 s s' : PosVelAcc K}
    {os : List (PosVelAcc.Op K)} {q v : Vec K} {c : Constraint K}
    (hna : na ≤ nv) (h0 : PosVelAcc.new name nv na dt = some s0) (hr : runOps PosVelAcc.step s0 os = some s)
    (hg : ∀ o ∈ os, GoodMask na o) (ht : ∀ o ∈ os, KeepsTimeStep o)
    (hfull : ∀ i, i < na → ((LimitSettings.fresh (K := K) na).afterAll na os).mask i = 1)
    (hv : v.size = nv) (hc : s.compute q v = .ok s' c) {a : Nat → K} (hsat : Sat c a) {j : Nat} (hj : j < na)
    (hcomp : ∃ b, Allows (s'.lower (v (nv - na + j)) j) (s'.upper (v (nv - na + j)) j) b) :
    let p := (LimitSettings.fresh (K := K) na).afterAll na os
    let x := q (q.size - na + j)
    let dx := v (nv - na + j)
    let ddx := a (nv - na + j)
    (p.impPos = true → Admits (p.qMin j) (p.qMax j) x dx → StaysInside (p.qMin j) (p.qMax j) (2 * dt) x dx ddx) ∧
    (p.impVel = true → -p.dqMax j ≤ velAt dx ddx (2 * dt) ∧ velAt dx ddx (2 * dt) ≤ p.dqMax j) ∧
    (p.impVia = true → 0 ≤ p.ddqMax j →
      StoppableAbove (p.qMax j) (p.ddqMax j) (posAt x dx ddx (2 * dt)) (velAt dx ddx (2 * dt)) ∧
      StoppableBelow (p.qMin j) (p.ddqMax j) (posAt x dx ddx (2 * dt)) (velAt dx ddx (2 * dt))) ∧
    (p.impAcc = true → -p.ddqMax j ≤ ddx ∧ ddx ≤ p.ddqMax j) := by
  obtain ⟨hi0, ht0, hdt⟩ := limInv_new hna h0
  have hi := limInv_run hna hi0 hg hr
  have hti := timeInv_run ht0 ht hr
  generalize (LimitSettings.fresh (K := K) na).afterAll na os = p at *
  have hpos : 0 < 2 * dt := by linarith
  have hs := (full_sat hna hi hfull hv hc a).1 hsat j hj
  rw [C31_intersection hcomp] at hs
  have hsz : s.na ≤ q.size ∧ s.na ≤ v.size := by
    by_contra h
    unfold compute at hc; rw [if_neg h] at hc; cases hc
  rw [compute_ok hsz.1 hsz.2] at hc
  cases hc
  obtain ⟨⟨a1, a2⟩, ⟨a3, a4⟩, ⟨a5, a6⟩, a7, a8⟩ := hs
  have hv' : (v.tail s.na) j = v (nv - na + j) := by simp [Vec.tail, hv, hi.naEq]
  have hq' : (q.tail s.na) j = q (q.size - na + j) := by simp [Vec.tail, hi.naEq]
  refine ⟨?_, ?_, ?_, ?_⟩
  · intro hp hadm
    simp only [PosVelAcc.lower, PosVelAcc.upper, accLimits, hi.impPos, hp, if_true, hti.dt, hti.twoDtSq, hi.qMin,
      hi.qMax, hv', hq'] at a1 a2
    exact C29_position hpos hadm a1 a2
  · intro hp
    simp only [PosVelAcc.lower, PosVelAcc.upper, accLimits, hi.impVel, hp, if_true, hti.dt, hi.dqMax] at a5 a6
    rw [div_le_iff₀ hpos] at a5
    rw [le_div_iff₀ hpos] at a6
    unfold velAt
    constructor <;> linarith
  · intro hp hm
    simp only [PosVelAcc.lower, PosVelAcc.upper, accLimits, hi.impVia, hp, if_true, hti.dt, hti.dtSquare, hti.twoA,
      hi.qMin, hi.qMax, hi.ddqMax, hv', hq'] at a3 a4
    exact ⟨C30_viability_upper hpos hm a4, C30_viability_lower hpos hm a3⟩
  · intro hp
    simp only [PosVelAcc.lower, PosVelAcc.upper, accLimits, hi.impAcc, hp, if_true, hi.ddqMax] at a7 a8
    exact ⟨a7, a8⟩

end

/-- A joint of a fixed-base robot with position limits ±2, velocity limit 3 and acceleration limit 2, time step 1/2:
from rest at 0 the accelerations between -2 and 2 are allowed, so the hypotheses can be met. -/
example :
    ((PosVelAcc.new "l" 1 1 (1/2 : ℚ)).bind fun s0 =>
      (runOps PosVelAcc.step s0
        [.setPositionBounds (Vec.ofList [-2]) (Vec.ofList [2]), .setVelocityBounds (Vec.ofList [3]),
         .setAccelerationBounds (Vec.ofList [2]), .setMask (Vec.ofList [1])]).bind fun s =>
      (s.compute (Vec.ofList [0]) (Vec.ofList [0])).val?.map (fun c => (c.lb.toList, c.ub.toList))) =
      some ([-2], [2]) := by
  decide +kernel

/-! ## C32 -/

/-- **C32 fails.** Position limits that allow the accelerations 0 to 2 are overruled: with the upper acceleration
limit 1 and the lower velocity limit 3 the bounds become 3. -/
theorem C32_overruled :
    let lb : Four ℚ := ⟨0, -10, 3, -10⟩
    let ub : Four ℚ := ⟨2, 10, 10, 1⟩
    lb.pos ≤ ub.pos ∧ combine lb ub = (3, 3) ∧ ¬ (combine lb ub).1 ≤ ub.pos := by
  decide +kernel

/-- **C32, what holds.** When the position limits are compatible with each other the lower one always holds; the upper
one holds exactly when the limits are all compatible, or it is the smallest upper limit, or no lower limit exceeds
it.  Missing for the full property: the upper position limit when another upper limit is smaller. -/
theorem C32_position_wins_partial {lb ub : Four K} (h : lb.pos ≤ ub.pos) :
    lb.pos ≤ (combine lb ub).1 ∧
    ((combine lb ub).2 ≤ ub.pos ↔ (lb.max ≤ ub.min ∨ ub.min = ub.pos ∨ lb.max ≤ ub.pos)) := by
  have h1 : lb.pos ≤ lb.max := (four_max_le.1 le_rfl).1
  have h2 : ub.min ≤ ub.pos := (le_four_min.1 le_rfl).1
  unfold combine
  simp only
  split_ifs with hc he
  · exact ⟨by rw [he]; exact h, by simp [he]⟩
  · refine ⟨h1, ?_⟩
    constructor
    · intro h; exact Or.inr (Or.inr h)
    · rintro (h | h | h)
      · exact absurd h (not_le.2 hc)
      · exact absurd h he
      · exact h
  · exact ⟨h1, by simp [h2, not_lt.1 hc]⟩

/-- **C32, repaired rule.** Deciding in favour of the position limit whenever it is the conflicting one would do:
clamping the interval of the position limits. This is the statement the code would have to satisfy. -/
theorem C32_clamp {lb ub : Four K} (h : lb.pos ≤ ub.pos) :
    let l := min lb.max ub.pos
    let u := max l (min ub.min ub.pos)
    lb.pos ≤ l ∧ u ≤ ub.pos ∧ l ≤ u := by
  have h1 : lb.pos ≤ lb.max := (four_max_le.1 le_rfl).1
  exact ⟨le_min h1 h, max_le (min_le_right _ _) (min_le_right _ _), le_max_left _ _⟩

/-! ## C33 -/

section
variable [FloorRing K] [HasSqrt K]

/-- Two tasks that only differ in time step, derived factors and results. -/
structure SameSettings (s t : PosVelAcc K) : Prop where
  nv : s.nv = t.nv
  na : s.na = t.na
  qMin : s.qMin = t.qMin
  qMax : s.qMax = t.qMax
  dqMax : s.dqMax = t.dqMax
  ddqMax : s.ddqMax = t.ddqMax
  impPos : s.impPos = false ∧ t.impPos = false
  impVel : s.impVel = t.impVel
  impVia : s.impVia = false ∧ t.impVia = false
  impAcc : s.impAcc = t.impAcc
  lbPos : s.lbPos = t.lbPos
  ubPos : s.ubPos = t.ubPos
  lbVia : s.lbVia = t.lbVia
  ubVia : s.ubVia = t.ubVia
  mask : s.m.mask = t.m.mask
  axes : s.m.axes = t.m.axes
  name : s.m.con.name = t.m.con.name
  kind : s.m.con.kind = t.m.con.kind
  mat : s.m.con.mat = t.m.con.mat
  vec : s.m.con.vec = t.m.con.vec

/-- The call neither changes the time step nor imposes position limits or viability. -/
def OnlyVelAcc : PosVelAcc.Op K → Prop
  | .setTimeStep _ => False
  | .setPositionBounds _ _ => False
  | .setImposeBounds a _ c _ => a = false ∧ c = false
  | _ => True

theorem same_setMask {s t : PosVelAcc K} (h : SameSettings s t) (hkind : s.m.con.kind = .inequality) (m : Vec K) :
    match s.setMask m, t.setMask m with
    | .ok s' _, .ok t' _ => SameSettings s' t' ∧ s'.m.con.kind = .inequality
    | .throw s', .throw t' => SameSettings s' t' ∧ s'.m.con.kind = .inequality
    | .abort, .abort => True
    | .ub, .ub => True
    | _, _ => False := by
  have hk2 : t.m.con.kind = .inequality := by rw [← h.kind]; exact hkind
  unfold PosVelAcc.setMask Masked.setMask
  rw [← h.na, ← h.nv, ← h.axes]
  by_cases hsz : m.size = s.na
  swap
  · simp only [if_neg hsz]; exact ⟨⟨rfl, rfl, h.qMin, h.qMax, h.dqMax, h.ddqMax, h.impPos, h.impVel, h.impVia, h.impAcc, h.lbPos,
      h.ubPos, h.lbVia, h.ubVia, h.mask, h.axes, h.name, h.kind, h.mat, h.vec⟩, hkind⟩
  simp only [if_pos hsz]
  by_cases hd : trunc m.sum < 0
  · simp only [if_pos hd]
  simp only [if_neg hd]
  cases maskLoop m (s.nv - s.na) (fun _ => 1) (List.range m.size) (Mat.zero (trunc m.sum).toNat s.nv)
      (resizeAxes s.m.axes (trunc m.sum).toNat) 0 with
  | ub => simp only
  | abort => simp only
  | throw ax =>
    simp only
    exact ⟨⟨rfl, rfl, h.qMin, h.qMax, h.dqMax, h.ddqMax, h.impPos, h.impVel, h.impVia, h.impAcc, h.lbPos, h.ubPos,
      h.lbVia, h.ubVia, rfl, rfl, h.name, h.kind, h.mat, h.vec⟩, hkind⟩
  | ok ax S =>
    simp only [Constraint.resize, hkind, hk2, Constraint.setMatrix, Mat.zero]
    by_cases e1 : s.nv = S.cols
    · by_cases e2 : (trunc m.sum).toNat = S.rows
      · simp only [if_pos e1, if_pos e2]
        exact ⟨⟨rfl, rfl, h.qMin, h.qMax, h.dqMax, h.ddqMax, h.impPos, h.impVel, h.impVia, h.impAcc, h.lbPos,
          h.ubPos, h.lbVia, h.ubVia, rfl, rfl, h.name, rfl, rfl, h.vec⟩, trivial⟩
      · simp only [if_pos e1, if_neg e2]
        exact ⟨⟨rfl, rfl, h.qMin, h.qMax, h.dqMax, h.ddqMax, h.impPos, h.impVel, h.impVia, h.impAcc, h.lbPos,
          h.ubPos, h.lbVia, h.ubVia, rfl, rfl, h.name, rfl, rfl, h.vec⟩, trivial⟩
    · simp only [if_neg e1]
      exact ⟨⟨rfl, rfl, h.qMin, h.qMax, h.dqMax, h.ddqMax, h.impPos, h.impVel, h.impVia, h.impAcc, h.lbPos,
        h.ubPos, h.lbVia, h.ubVia, rfl, rfl, h.name, rfl, rfl, h.vec⟩, trivial⟩

theorem same_step {s t s' t' : PosVelAcc K} {o : PosVelAcc.Op K} (h : SameSettings s t)
    (hkind : s.m.con.kind = .inequality) (ho : OnlyVelAcc o)
    (hs : (s.step o).state? = some s') (ht : (t.step o).state? = some t') :
    SameSettings s' t' ∧ s'.m.con.kind = .inequality := by
  cases o with
  | setTimeStep dt => cases ho
  | setPositionBounds l u => cases ho
  | setVelocityBounds u =>
    simp only [step, setVelocityBounds, ← h.na] at hs ht
    by_cases h1 : u.size = s.na <;> simp only [h1, if_true, if_false] at hs ht <;> cases hs <;> cases ht
    · exact ⟨⟨h.nv, rfl, h.qMin, h.qMax, rfl, h.ddqMax, h.impPos, rfl, h.impVia, h.impAcc, h.lbPos, h.ubPos,
        h.lbVia, h.ubVia, h.mask, h.axes, h.name, h.kind, h.mat, h.vec⟩, hkind⟩
    · exact ⟨h, hkind⟩
  | setAccelerationBounds u =>
    simp only [step, setAccelerationBounds, ← h.na] at hs ht
    by_cases h1 : u.size = s.na <;> simp only [h1, if_true, if_false] at hs ht <;> cases hs <;> cases ht
    · exact ⟨⟨h.nv, rfl, h.qMin, h.qMax, h.dqMax, rfl, h.impPos, h.impVel, h.impVia, rfl, h.lbPos, h.ubPos,
        h.lbVia, h.ubVia, h.mask, h.axes, h.name, h.kind, h.mat, h.vec⟩, hkind⟩
    · exact ⟨h, hkind⟩
  | setImposeBounds a b c d =>
    cases hs; cases ht
    exact ⟨⟨h.nv, h.na, h.qMin, h.qMax, h.dqMax, h.ddqMax, ⟨ho.1, ho.1⟩, rfl, ⟨ho.2, ho.2⟩, rfl, h.lbPos, h.ubPos,
      h.lbVia, h.ubVia, h.mask, h.axes, h.name, h.kind, h.mat, h.vec⟩, hkind⟩
  | setMask m =>
    have hm := same_setMask h hkind m
    simp only [step] at hs ht
    cases e1 : s.setMask m <;> cases e2 : t.setMask m <;> rw [e1, e2] at hm <;> rw [e1] at hs <;> rw [e2] at ht <;>
      first | exact hm.elim | cases hs <;> cases ht <;> exact hm
  | compute q v =>
    obtain ⟨a1, a2, c1, hc1⟩ := step_compute hs
    obtain ⟨b1, b2, c2, hc2⟩ := step_compute ht
    rw [compute_ok a1 a2] at hc1
    rw [compute_ok b1 b2] at hc2
    cases hc1; cases hc2
    refine ⟨⟨h.nv, h.na, h.qMin, h.qMax, h.dqMax, h.ddqMax, h.impPos, h.impVel, h.impVia, h.impAcc, ?_, ?_,
        ?_, ?_, h.mask, h.axes, h.name, h.kind, h.mat, h.vec⟩, hkind⟩ <;>
      simp only [accLimits, h.impPos.1, h.impPos.2, h.impVia.1, h.impVia.2, Bool.false_eq_true, if_false, h.lbPos,
        h.ubPos, h.lbVia, h.ubVia]

theorem same_run : ∀ {os : List (PosVelAcc.Op K)} {s t s' t' : PosVelAcc K}, SameSettings s t →
    s.m.con.kind = .inequality → (∀ o ∈ os, OnlyVelAcc o) →
    runOps PosVelAcc.step s os = some s' → runOps PosVelAcc.step t os = some t' → SameSettings s' t' := by
  intro os
  induction os with
  | nil => intro s t s' t' h _ _ h1 h2; cases h1; cases h2; exact h
  | cons o os ih =>
    intro s t s' t' h hk ho h1 h2
    rw [runOps] at h1 h2
    cases e1 : (s.step o).state? with
    | none => rw [e1] at h1; cases h1
    | some s1 =>
      cases e2 : (t.step o).state? with
      | none => rw [e2] at h2; cases h2
      | some t1 =>
        rw [e1] at h1; rw [e2] at h2
        have := same_step h hk (ho o List.mem_cons_self) e1 e2
        exact ih this.1 this.2 (fun o' h' => ho o' (List.mem_cons_of_mem _ h')) h1 h2

theorem same_new {name : String} {nv na : Nat} {dt dt' : K} {s t : PosVelAcc K} (hna : na ≤ nv)
    (hs : PosVelAcc.new name nv na dt = some s) (ht : PosVelAcc.new name nv na dt' = some t) : SameSettings s t := by
  obtain ⟨_, rfl⟩ := new_eq hna hs
  obtain ⟨_, rfl⟩ := new_eq hna ht
  exact ⟨rfl, rfl, rfl, rfl, rfl, rfl, ⟨rfl, rfl⟩, rfl, ⟨rfl, rfl⟩, rfl, rfl, rfl, rfl, rfl, rfl, rfl, rfl, rfl, rfl,
    rfl⟩

/-- **C33, what holds.** As long as only velocity and acceleration limits are imposed, a task constructed with any time
step and then given `setTimeStep (2 dt)` computes the same constraint as a task constructed with `dt`: the constructor
stores twice the time step, `setTimeStep` stores its argument.  Missing for the full property: the factor two, and
the position and viability limits, whose factors are not updated. -/
theorem C33_setTimeStep_partial {name : String} {nv na : Nat} {dt dt' : K} {s0 s t0 t s1 : PosVelAcc K}
    {os : List (PosVelAcc.Op K)} {q v : Vec K} (hna : na ≤ nv)
    (hs0 : PosVelAcc.new name nv na dt' = some s0) (ht0 : PosVelAcc.new name nv na dt = some t0)
    (hs : runOps PosVelAcc.step s0 os = some s) (ht : runOps PosVelAcc.step t0 os = some t)
    (ho : ∀ o ∈ os, OnlyVelAcc o) (h1 : s.setTimeStep (2 * dt) = .ok s1 ()) :
    (s1.compute q v).val? = (t.compute q v).val? := by
  obtain ⟨hi, _, _⟩ := limInv_new hna hs0
  obtain ⟨hj, htime, hdt⟩ := limInv_new hna ht0
  have hnew : SameSettings s0 t0 := same_new hna hs0 ht0
  have h := same_run hnew hi.kind ho hs ht
  have hkeep : ∀ o ∈ os, KeepsTimeStep o := by
    intro o hm
    have := ho o hm
    cases o <;> simp_all [OnlyVelAcc, KeepsTimeStep]
  have htt := timeInv_run htime hkeep ht
  have hd1 : s1 = { s with dt := 2 * dt } := by
    unfold PosVelAcc.setTimeStep at h1
    split at h1 <;> cases h1
    rfl
  subst hd1
  unfold PosVelAcc.compute accLimits
  simp only [h.na, h.impPos.1, h.impPos.2, h.impVia.1, h.impVia.2, Bool.false_eq_true, if_false, h.impVel, h.impAcc,
    h.dqMax, h.ddqMax, h.lbPos, h.ubPos, h.lbVia, h.ubVia, htt.dt]
  split
  · simp only [Res.val?, Option.some.injEq, Constraint.mk.injEq, and_true]
    exact ⟨h.name, h.kind, h.mat, h.vec⟩
  · rfl

end

/-- The bounds computed for one joint at position 0 with the velocity `v` by a task constructed with `dt`, after
velocity limit 1 and the further calls `os`. -/
def oneJoint (dt v : ℚ) (os : List (PosVelAcc.Op ℚ)) : Option (List ℚ × List ℚ) :=
  (PosVelAcc.new "l" 1 1 dt).bind fun s0 =>
    (runOps PosVelAcc.step s0 os).bind fun s =>
      (s.compute (Vec.ofList [0]) (Vec.ofList [v])).val?.map (fun c => (c.lb.toList, c.ub.toList))

/-- **C33 fails.** With velocity limit 1 a task constructed with time step 1 bounds the acceleration by 1/2, a task that
is given the same time step with `setTimeStep` by 1; it would have to be given 2. -/
theorem C33_doubled :
    oneJoint 1 0 [.setVelocityBounds (Vec.ofList [1])] = some ([-1/2], [1/2]) ∧
    oneJoint (1/100) 0 [.setVelocityBounds (Vec.ofList [1]), .setTimeStep 1] = some ([-1], [1]) ∧
    oneJoint (1/100) 0 [.setVelocityBounds (Vec.ofList [1]), .setTimeStep 2] = some ([-1/2], [1/2]) := by
  decide +kernel

/-- **C33 fails for position limits.** A task constructed with time step 1/20 and switched to the time step 1 allows
the acceleration 200, which brings a joint with limits ±1 to position 100 within one step; a task constructed with
time step 1 allows 1/2. -/
theorem C33_stale_factor :
    oneJoint (1/20) 0 [.setPositionBounds (Vec.ofList [-1]) (Vec.ofList [1]), .setImposeBounds true false false false,
      .setTimeStep 1] = some ([-200], [200]) ∧
    oneJoint 1 0 [.setPositionBounds (Vec.ofList [-1]) (Vec.ofList [1]), .setImposeBounds true false false false]
      = some ([-1/2], [1/2]) ∧
    posAt (0 : ℚ) 0 200 1 = 100 := by
  refine ⟨by decide +kernel, by decide +kernel, by norm_num [posAt]⟩

/-! ## C34 -/

section
variable [FloorRing K] [HasSqrt K]

/-- **C34, what holds.** The computed constraint does not depend on the velocity limits when they are switched off, nor
on the acceleration limits when neither they nor viability are imposed, nor on the position limits when neither they
nor viability are imposed; this holds for any two states of the task, whatever was computed before.  Missing for the
full property: with position limits or viability switched off the bounds of the last cycle that imposed them are
used (`C34_stale`). -/
theorem C34_off_partial {s t : PosVelAcc K} {q v : Vec K}
    (hna : s.na = t.na) (hdt : s.dt = t.dt) (h2 : s.twoDtSq = t.twoDtSq) (h3 : s.dtSquare = t.dtSquare)
    (h4 : s.twoA = t.twoA) (hm : s.m.con.name = t.m.con.name ∧ s.m.con.kind = t.m.con.kind ∧
      s.m.con.mat = t.m.con.mat ∧ s.m.con.vec = t.m.con.vec)
    (hp : s.impPos = t.impPos) (hv : s.impVel = t.impVel) (hw : s.impVia = t.impVia) (ha : s.impAcc = t.impAcc)
    (hpos : s.impPos = true ∨ s.impVia = true → s.qMin = t.qMin ∧ s.qMax = t.qMax)
    (hvel : s.impVel = true → s.dqMax = t.dqMax)
    (hacc : s.impAcc = true ∨ s.impVia = true → s.ddqMax = t.ddqMax)
    (hstale : s.impPos = false → s.lbPos = t.lbPos ∧ s.ubPos = t.ubPos)
    (hstale' : s.impVia = false → s.lbVia = t.lbVia ∧ s.ubVia = t.ubVia) :
    (s.compute q v).val? = (t.compute q v).val? := by
  unfold PosVelAcc.compute accLimits
  rw [← hna, ← hdt, ← h2, ← h3, ← h4, ← hp, ← hv, ← hw, ← ha]
  split
  swap
  · rfl
  simp only [Res.val?, Option.some.injEq, Constraint.mk.injEq, hm.1, hm.2.1, hm.2.2.1, hm.2.2.2, true_and]
  cases e1 : s.impPos <;> cases e2 : s.impVia <;> cases e3 : s.impVel <;> cases e4 : s.impAcc <;>
    simp_all

/-- **C34, never imposed.** In histories that never impose a kind of limits, this kind restricts nothing beyond the
constant `1e10`. -/
theorem C34_never {name : String} {nv na : Nat} {dt : K} {s0 s : PosVelAcc K} {os : List (PosVelAcc.Op K)}
    (hna : na ≤ nv) (h0 : PosVelAcc.new name nv na dt = some s0) (hr : runOps PosVelAcc.step s0 os = some s)
    (ho : ∀ o ∈ os, OnlyVelAcc o) (j : Nat) :
    s.lbPos j = -10000000000 ∧ s.ubPos j = 10000000000 ∧ s.lbVia j = -10000000000 ∧ s.ubVia j = 10000000000 := by
  have hkind := (limInv_new hna h0).1.kind
  have hnew : SameSettings s0 s0 ∧ s0.lbPos j = -10000000000 ∧ s0.ubPos j = 10000000000 ∧
      s0.lbVia j = -10000000000 ∧ s0.ubVia j = 10000000000 := by
    refine ⟨same_new hna h0 h0, ?_⟩
    obtain ⟨_, rfl⟩ := new_eq hna h0
    exact ⟨rfl, rfl, rfl, rfl⟩
  obtain ⟨hsame, hvals⟩ := hnew
  clear h0
  induction os generalizing s0 with
  | nil => cases hr; exact hvals
  | cons o os ih =>
    rw [runOps] at hr
    cases e1 : (s0.step o).state? with
    | none => rw [e1] at hr; cases hr
    | some s1 =>
      rw [e1] at hr
      have hstep := same_step hsame hkind (ho o List.mem_cons_self) e1 e1
      refine ih hr (fun o' h' => ho o' (List.mem_cons_of_mem _ h')) hstep.2 hstep.1 ?_
      have hoo := ho o List.mem_cons_self
      cases o with
      | setTimeStep dt => cases hoo
      | setPositionBounds l u => cases hoo
      | setVelocityBounds u =>
        simp only [step, setVelocityBounds] at e1
        split at e1 <;> cases e1 <;> exact hvals
      | setAccelerationBounds u =>
        simp only [step, setAccelerationBounds] at e1
        split at e1 <;> cases e1 <;> exact hvals
      | setImposeBounds a b c d => cases e1; exact hvals
      | setMask m =>
        simp only [step, PosVelAcc.setMask] at e1
        cases hm : s0.m.setMask s0.na s0.nv (s0.nv - s0.na) (fun _ => 1) m <;> rw [hm] at e1 <;> cases e1 <;>
          exact hvals
      | compute q v =>
        obtain ⟨a1, a2, c1, hc1⟩ := step_compute e1
        rw [compute_ok a1 a2] at hc1
        cases hc1
        simpa only [accLimits, hsame.impPos.1, hsame.impVia.1, Bool.false_eq_true, if_false] using hvals

end

/-- **C34 fails.** After one cycle with position limits ±1 these limits are switched off and a bound of 10 on the
acceleration is imposed: the task still bounds the acceleration by 1/2, which came from the position limits. -/
theorem C34_stale :
    oneJoint 1 0 [.setPositionBounds (Vec.ofList [-1]) (Vec.ofList [1]), .setImposeBounds true false false false,
      .compute (Vec.ofList [0]) (Vec.ofList [0]), .setAccelerationBounds (Vec.ofList [10]),
      .setImposeBounds false false false true] = some ([-1/2], [1/2]) ∧
    oneJoint 1 0 [.setAccelerationBounds (Vec.ofList [10]), .setImposeBounds false false false true]
      = some ([-10], [10]) := by
  decide +kernel

/-! ## C35 -/

section
variable [FloorRing K] [HasSqrt K]

/-- **C35, what holds.** With a full mask the constraint is well formed and bounds every joint by its own bounds.
Missing for the full property: every other mask (`C35_illformed`, `C35_wrong_joint`). -/
theorem C35_full_mask_partial {name : String} {nv na : Nat} {dt : K} {s0 s : PosVelAcc K}
    {os : List (PosVelAcc.Op K)} {q v : Vec K} (hna : na ≤ nv)
    (h0 : PosVelAcc.new name nv na dt = some s0) (hr : runOps PosVelAcc.step s0 os = some s)
    (hg : ∀ o ∈ os, GoodMask na o)
    (hfull : ∀ i, i < na → ((LimitSettings.fresh (K := K) na).afterAll na os).mask i = 1)
    (hq : na ≤ q.size) (hv : na ≤ v.size) :
    ∃ s' c, s.compute q v = .ok s' c ∧ WellFormed c ∧ c.lb.size = na ∧
      ∀ a, Sat c a ↔ ∀ i, i < na → c.lb i ≤ a (nv - na + i) ∧ a (nv - na + i) ≤ c.ub i := by
  obtain ⟨hi0, _, _⟩ := limInv_new hna h0
  have hi := limInv_run hna hi0 hg hr
  generalize (LimitSettings.fresh (K := K) na).afterAll na os = p at *
  refine ⟨_, _, compute_ok (by rw [hi.naEq]; exact hq) (by rw [hi.naEq]; exact hv), ?_, ?_, ?_⟩
  · simp only [WellFormed, hi.kind, hi.mat, selMat, sel_full hfull, List.length_range]
    exact ⟨hi.naEq, hi.naEq⟩
  · exact hi.naEq
  · intro a
    rw [sat_compute hna hi]
    have hcount : ∀ n, n ≤ na → countSelected p.mask n = n := by
      intro n
      induction n with
      | zero => intro _; rfl
      | succ n ih => intro h; rw [countSelected, ih (by omega), if_pos (hfull n (by omega))]
    constructor
    · intro h i hlt
      have := h i ⟨by rw [hi.adm.1]; exact hlt, hfull i hlt⟩
      rwa [hcount i hlt.le] at this
    · intro h i hs
      have hlt : i < na := by rw [← hi.adm.1]; exact hs.1
      rw [hcount i hlt.le]
      exact h i hlt

/-- **C35 fails for every other mask.** The bounds have `na` entries whatever the mask, so the constraint is not well
formed as soon as one joint is not selected, and a selected joint is compared with the bounds of the joint whose number
is its position among the selected joints. -/
theorem C35_illformed {name : String} {nv na : Nat} {dt : K} {s0 s s' : PosVelAcc K}
    {os : List (PosVelAcc.Op K)} {q v : Vec K} {c : Constraint K} (hna : na ≤ nv)
    (h0 : PosVelAcc.new name nv na dt = some s0) (hr : runOps PosVelAcc.step s0 os = some s)
    (hg : ∀ o ∈ os, GoodMask na o) (hc : s.compute q v = .ok s' c) :
    (∀ i, i < na → ((LimitSettings.fresh (K := K) na).afterAll na os).mask i ≠ 1 → ¬ WellFormed c) ∧
    ∀ a, Sat c a ↔ ∀ i, Selects ((LimitSettings.fresh (K := K) na).afterAll na os).mask i →
      c.lb (countSelected ((LimitSettings.fresh (K := K) na).afterAll na os).mask i) ≤ a (nv - na + i) ∧
      a (nv - na + i) ≤ c.ub (countSelected ((LimitSettings.fresh (K := K) na).afterAll na os).mask i) := by
  obtain ⟨hi0, _, _⟩ := limInv_new hna h0
  have hi := limInv_run hna hi0 hg hr
  generalize (LimitSettings.fresh (K := K) na).afterAll na os = p at *
  have hsz : s.na ≤ q.size ∧ s.na ≤ v.size := by
    by_contra h
    unfold compute at hc; rw [if_neg h] at hc; cases hc
  rw [compute_ok hsz.1 hsz.2] at hc
  cases hc
  refine ⟨?_, fun a => sat_compute hna hi a⟩
  intro i hlt hne hwf
  simp only [WellFormed, hi.kind, hi.mat, selMat] at hwf
  have h1 : s.na = (sel p.mask (List.range na)).length := hwf.1
  rw [hi.naEq] at h1
  have h2 : (sel p.mask (List.range na)).length < (List.range na).length := by
    unfold sel
    refine List.length_filter_lt_length_iff_exists.2 ⟨i, List.mem_range.2 hlt, ?_⟩
    simpa using hne
  rw [List.length_range] at h2
  omega

end

/-- **C35, wrong joint.** Two joints with velocity limits 1 and 100, only the second selected: the constraint has one
row, for the second joint, and bounds its acceleration by the limit of the first. -/
theorem C35_wrong_joint :
    ((PosVelAcc.new "l" 2 2 (1/2 : ℚ)).bind fun s0 =>
      (runOps PosVelAcc.step s0 [.setVelocityBounds (Vec.ofList [1, 100]), .setMask (Vec.ofList [0, 1])]).bind fun s =>
      (s.compute (Vec.ofList [0, 0]) (Vec.ofList [0, 0])).val?.map
        (fun c => (c.mat.toLists, c.lb.toList, c.ub.toList))) =
      some ([[0, 1]], [-1, -100], [1, 100]) := by
  decide +kernel

/-- A mask with entries other than 0 and 1 is not always rejected: `[1, -1]` announces no row and writes one. -/
theorem C35_mask_ub :
    ((PosVelAcc.new "l" 2 2 (1/2 : ℚ)).map fun s0 => (s0.setMask (Vec.ofList [1, -1])).isUB) = some true := by
  decide +kernel

end Tsid.Props
