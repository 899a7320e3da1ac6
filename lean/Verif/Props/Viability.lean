import Mathlib.Tactic.Ring
import Mathlib.Tactic.Linarith
import Mathlib.Tactic.FieldSimp
import Verif.Spec.Viability

/-!
# Report on viability (C77)
-/

set_option linter.unusedSectionVars false

namespace Tsid.Props

open Spec PosVelAcc

variable {K : Type} [Field K] [LinearOrder K] [IsStrictOrderedRing K]

theorem stoppable_above_mirror {qMax m q dq : K} :
    StoppableAbove qMax m q dq ↔ StoppableBelow (-qMax) m (-q) (-dq) := by
  unfold StoppableAbove StoppableBelow posAt
  constructor
  · rintro (h | h)
    · exact Or.inl (by linarith)
    · exact Or.inr fun t ht => by linarith [h t ht]
  · rintro (h | h)
    · exact Or.inl (by linarith)
    · exact Or.inr fun t ht => by linarith [h t ht]

variable [HasSqrt K] [LawfulSqrt K]

/-- The speed below which a joint can be stopped before its lower limit. -/
theorem stoppable_below_iff {qMin m q dq : K} (hm : 0 < m) :
    StoppableBelow qMin m q dq ↔ -sqrt (max 0 (2 * m * (q - qMin))) ≤ dq := by
  have h0 := LawfulSqrt.sqrt_nonneg (max 0 (2 * m * (q - qMin)))
  have h1 := LawfulSqrt.sq_sqrt (max 0 (2 * m * (q - qMin))) (le_max_left _ _)
  generalize sqrt (max 0 (2 * m * (q - qMin))) = s at h0 h1
  unfold StoppableBelow posAt
  constructor
  · rintro (h | h)
    · linarith
    · by_contra hlt
      push Not at hlt
      have hdq : dq < 0 := by linarith
      have ht := h (-dq / m) (div_nonneg (by linarith) hm.le)
      have e : q + dq * (-dq / m) + m * (-dq / m * (-dq / m)) / 2 = q - dq * dq / (2 * m) := by
        field_simp
        ring
      rw [e] at ht
      have h2 : dq * dq ≤ 2 * m * (q - qMin) := by
        have h3 : dq * dq / (2 * m) ≤ q - qMin := by linarith
        rw [div_le_iff₀ (by linarith)] at h3
        linarith
      have h4 : dq * dq ≤ s * s := by rw [h1]; exact le_trans h2 (le_max_right _ _)
      nlinarith
  · intro h
    by_cases hdq : 0 ≤ dq
    · exact Or.inl hdq
    · right
      push Not at hdq
      intro t ht
      have h4 : dq * dq ≤ s * s := by nlinarith
      have hpos : 0 < dq * dq := by nlinarith
      have h5 : dq * dq ≤ 2 * m * (q - qMin) := by
        rw [h1] at h4
        rcases le_total (2 * m * (q - qMin)) 0 with h6 | h6
        · rw [max_eq_left h6] at h4; linarith
        · rwa [max_eq_right h6] at h4
      have h7 : 0 ≤ (dq + m * t) * (dq + m * t) := mul_self_nonneg _
      have h8 : 0 ≤ 2 * m * (q - qMin) + 2 * m * (dq * t) + m * m * (t * t) := by nlinarith
      have h9 : 0 ≤ 2 * m * (q + dq * t + m * (t * t) / 2 - qMin) := by
        have : 2 * m * (q + dq * t + m * (t * t) / 2 - qMin) =
            2 * m * (q - qMin) + 2 * m * (dq * t) + m * m * (t * t) := by ring
        rw [this]; exact h8
      have := nonneg_of_mul_nonneg_right h9 (by linarith : 0 < 2 * m)
      linarith

theorem stoppable_above_iff {qMax m q dq : K} (hm : 0 < m) :
    StoppableAbove qMax m q dq ↔ dq ≤ sqrt (max 0 (2 * m * (qMax - q))) := by
  rw [stoppable_above_mirror, stoppable_below_iff hm, show -q - -qMax = qMax - q by ring]
  constructor <;> intro h <;> linarith

/-- **C77.** A positive entry is reported only for states that are not viable. -/
theorem C77_positive_sound {eps qMin qMax dqMax m q dq : K} (heps : 0 ≤ eps) (hm : 0 < m)
    (h : 0 < viabViol eps qMin qMax dqMax m q dq) : ¬ ViableState qMin qMax dqMax m q dq := by
  rintro ⟨⟨h1, h2⟩, h3, h4, h5⟩
  rw [stoppable_above_iff hm] at h4
  rw [stoppable_below_iff hm] at h5
  revert h
  unfold viabViol
  simp only
  rw [if_neg (by linarith : ¬ q < qMin - eps), if_neg (by linarith : ¬ q > qMax + eps),
    if_neg (by linarith : ¬ |dq| > dqMax + eps),
    if_neg (by linarith : ¬ dq > sqrt (max 0 (2 * m * (qMax - q))) + eps)]
  split
  · intro h; linarith
  · intro h; exact lt_irrefl _ h

/-- **C77** (part): a state that is viable up to the tolerance is reported with zero, provided it is at least the
tolerance away from the speed at which it could no more be stopped before the lower limit.  Missing: the states nearer to
that speed, which the code reports with a value that is not zero (`C77_viable_reported`). -/
theorem C77_zero_partial {eps qMin qMax dqMax m q dq : K} (hm : 0 < m)
    (h : ViableUpTo eps qMin qMax dqMax m q dq) (hs : StoppableBelow qMin m q (dq - eps)) :
    viabViol eps qMin qMax dqMax m q dq = 0 := by
  obtain ⟨⟨h1, h2⟩, h3, h4, -⟩ := h
  rw [stoppable_above_iff hm] at h4
  rw [stoppable_below_iff hm] at hs
  unfold viabViol
  simp only
  rw [if_neg (by linarith : ¬ q < qMin - eps), if_neg (by linarith : ¬ q > qMax + eps),
    if_neg (by linarith : ¬ |dq| > dqMax + eps),
    if_neg (by linarith : ¬ dq > sqrt (max 0 (2 * m * (qMax - q))) + eps), if_neg (by linarith)]

/-- **C77** (part): a state that is not viable up to the tolerance is reported with a positive value, unless its speed is
within the tolerance above the one at which it could no more be stopped before the lower limit.  Missing: that band,
where the last test of the code overwrites what the others found (`C77_missed`). -/
theorem C77_detects_partial {eps qMin qMax dqMax m q dq : K} (heps : 0 ≤ eps) (hm : 0 < m)
    (h : ¬ ViableUpTo eps qMin qMax dqMax m q dq)
    (hs : StoppableBelow qMin m q (dq - eps) ∨ ¬ StoppableBelow qMin m q dq) :
    0 < viabViol eps qMin qMax dqMax m q dq := by
  unfold ViableUpTo at h
  rw [stoppable_above_iff hm, stoppable_below_iff hm] at h
  rw [stoppable_below_iff hm, stoppable_below_iff hm] at hs
  unfold viabViol
  simp only
  by_cases h5 : dq < -sqrt (max 0 (2 * m * (q - qMin))) + eps
  · rw [if_pos h5]
    rcases hs with hs | hs
    · linarith
    · push Not at hs; linarith
  · rw [if_neg h5]
    by_cases h4 : dq > sqrt (max 0 (2 * m * (qMax - q))) + eps
    · rw [if_pos h4]; linarith
    · rw [if_neg h4]
      by_cases h3 : |dq| > dqMax + eps
      · rw [if_pos h3]; linarith
      · rw [if_neg h3]
        by_cases h2 : q > qMax + eps
        · rw [if_pos h2]; linarith
        · rw [if_neg h2]
          by_cases h1 : q < qMin - eps
          · rw [if_pos h1]; linarith
          · exfalso
            push Not at h1 h2 h3 h4 h5
            exact h ⟨⟨h1, h2⟩, h3, by linarith, by linarith⟩

/-- The code violates C77: however far a joint at rest is below its lower limit, the report is zero. -/
theorem C77_missed {eps qMin qMax dqMax m q : K} (heps : 0 < eps) (hm : 0 < m) (hq : q ≤ qMin) :
    viabViol eps qMin qMax dqMax m q 0 = 0 ∧ (q < qMin - eps → ¬ ViableUpTo eps qMin qMax dqMax m q 0) := by
  refine ⟨?_, fun h hv => by linarith [hv.1.1]⟩
  have h0 : sqrt (max 0 (2 * m * (q - qMin))) = (0 : K) := by
    have e : max 0 (2 * m * (q - qMin)) = 0 := max_eq_left (by nlinarith)
    have := LawfulSqrt.sq_sqrt (0 : K) le_rfl
    rw [e]
    exact mul_self_eq_zero.1 this
  unfold viabViol
  simp only
  rw [h0, if_pos (by linarith)]
  ring

/-- The code violates C77: a joint on its lower limit that moves away from it slowly is viable, and reported with a
value that is not zero. -/
theorem C77_viable_reported {eps qMin qMax dqMax m : K} (heps : 0 < eps) (hm : 0 < m) (hq : qMin < qMax)
    (hv : eps / 2 ≤ dqMax) (hroom : eps * eps / 4 ≤ 2 * m * (qMax - qMin)) :
    ViableState qMin qMax dqMax m qMin (eps / 2) ∧ viabViol eps qMin qMax dqMax m qMin (eps / 2) = -(eps / 2) := by
  have h0 : sqrt (max 0 (2 * m * (qMin - qMin))) = (0 : K) := by
    have e : max 0 (2 * m * (qMin - qMin)) = 0 := by rw [sub_self, mul_zero, max_self]
    have := LawfulSqrt.sq_sqrt (0 : K) le_rfl
    rw [e]
    exact mul_self_eq_zero.1 this
  constructor
  · refine ⟨⟨le_rfl, hq.le⟩, by rwa [abs_of_pos (by linarith)], ?_, Or.inl (by linarith)⟩
    rw [stoppable_above_iff hm]
    have h1 := LawfulSqrt.sq_sqrt (max 0 (2 * m * (qMax - qMin))) (le_max_left _ _)
    have h2 := LawfulSqrt.sqrt_nonneg (max 0 (2 * m * (qMax - qMin)))
    have h3 := le_max_right 0 (2 * m * (qMax - qMin))
    generalize sqrt (max 0 (2 * m * (qMax - qMin))) = s at h1 h2
    by_contra hlt
    push Not at hlt
    nlinarith
  · unfold viabViol
    simp only
    rw [h0, if_pos (by linarith)]
    ring

/-- **C77** for the vector of the task: the entry of joint `i` is about joint `i`. -/
theorem C77_vector {eps : K} {s s' : PosVelAcc K} {qa dqa viol : Vec K}
    (h : isStateViable eps s qa dqa = .ok s' viol) :
    s' = s ∧ viol.size = s.na ∧
      ∀ i, i < s.na → 0 ≤ eps → 0 < s.ddqMax i → 0 < viol i →
        ¬ ViableState (s.qMin i) (s.qMax i) (s.dqMax i) (s.ddqMax i) (qa i) (dqa i) := by
  unfold isStateViable at h
  by_cases hc : s.na ≤ qa.size ∧ s.na ≤ dqa.size
  · rw [if_pos hc] at h
    cases h
    exact ⟨rfl, rfl, fun i _ he hm hv => C77_positive_sound he hm hv⟩
  · rw [if_neg hc] at h
    cases h

/-- Non-vacuity: too fast for the upper limit, inside all other limits; and a viable state. -/
example : 0 < viabViol (1 / 1000 : ℝ) (-1) 1 10 2 1 1 ∧ ¬ ViableUpTo (1 / 1000 : ℝ) (-1) 1 10 2 1 1 ∧
    ViableState (-1 : ℝ) 1 10 2 (-1) 0 := by
  have h1 : ¬ StoppableAbove (1 : ℝ) 2 1 (1 - 1 / 1000) := by
    rintro (h | h)
    · norm_num at h
    · have := h (1 / 10) (by norm_num)
      unfold posAt at this
      norm_num at this
  have h2 : ¬ ViableUpTo (1 / 1000 : ℝ) (-1) 1 10 2 1 1 := fun h => h1 h.2.2.1
  refine ⟨C77_detects_partial (by norm_num) (by norm_num) h2 (Or.inl (Or.inl (by norm_num))), h2, ?_⟩
  exact ⟨⟨le_rfl, by norm_num⟩, by norm_num, Or.inl le_rfl, Or.inl le_rfl⟩

end Tsid.Props
