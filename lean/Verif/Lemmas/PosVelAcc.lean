import Mathlib.Tactic.FieldSimp
import Mathlib.Tactic.Positivity
import Verif.Lemmas.Mask
import Verif.Spec.PosVelAcc

/-!
# Lemmas about position, velocity and acceleration bounds
-/

set_option linter.unusedSectionVars false

namespace Tsid

open Spec Finset

variable {K : Type} [Field K] [LinearOrder K] [IsStrictOrderedRing K]

/-! ## Motion with constant acceleration -/

/-- A joint that does not move up stays below the limit if it is below it at the end. -/
theorem below_of_end {h q dq a t qMax : K} (hh : 0 < h) (hq : q ≤ qMax) (hdq : dq ≤ 0)
    (ha : a ≤ 2 / (h * h) * (qMax - q - h * dq)) (h0 : 0 ≤ t) (h1 : t ≤ h) : q + dq * t + a * (t * t) / 2 ≤ qMax := by
  have hend : a * (h * h) ≤ 2 * (qMax - q - h * dq) := by
    have hpos : 0 < h * h := by positivity
    rw [div_mul_eq_mul_div, le_div_iff₀ hpos] at ha
    exact ha
  rcases le_or_gt a 0 with hneg | hpos
  · have h2 : dq * t ≤ 0 := mul_nonpos_of_nonpos_of_nonneg hdq h0
    have h3 : a * (t * t) ≤ 0 := mul_nonpos_of_nonpos_of_nonneg hneg (by positivity)
    linarith
  · have h2 : h * (dq * t + a * (t * t) / 2) ≤ t * (qMax - q) := by
      have h3 : 0 ≤ a * t * (h - t) := by
        have : 0 ≤ h - t := by linarith
        positivity
      have h4 : t * (a * (h * h)) ≤ t * (2 * (qMax - q - h * dq)) := mul_le_mul_of_nonneg_left hend h0
      nlinarith
    have h5 : t * (qMax - q) ≤ h * (qMax - q) := mul_le_mul_of_nonneg_right h1 (by linarith)
    have h6 : dq * t + a * (t * t) / 2 ≤ qMax - q := le_of_mul_le_mul_left (le_trans h2 h5) hh
    linarith

/-- A joint that moves down and cannot turn within the horizon before the limit. -/
theorem above_of_end {h q dq a t qMin : K} (hh : 0 < h) (hdq : dq ≤ 0)
    (hc : 2 / (h * h) * (qMin - q - h * dq) < -dq / h) (ha : 2 / (h * h) * (qMin - q - h * dq) ≤ a)
    (h0 : 0 ≤ t) (h1 : t ≤ h) : qMin ≤ q + dq * t + a * (t * t) / 2 := by
  have hhh : 0 < h * h := by positivity
  have hend : 2 * (qMin - q - h * dq) ≤ a * (h * h) := by
    rw [div_mul_eq_mul_div, div_le_iff₀ hhh] at ha
    exact ha
  have hc' : -(h * dq) < 2 * (q - qMin) := by
    rw [div_mul_eq_mul_div, div_lt_iff₀ hhh] at hc
    have : -dq / h * (h * h) = -dq * h := by field_simp
    rw [this] at hc
    linarith
  rcases le_or_gt (a * h + dq) 0 with hs | hs
  · have h2 : dq + a * (t + h) / 2 ≤ 0 := by
      rcases le_or_gt a 0 with ha0 | ha0
      · have : a * (t + h) ≤ 0 := mul_nonpos_of_nonpos_of_nonneg ha0 (by linarith)
        linarith
      · have : a * (t + h) ≤ a * (2 * h) := mul_le_mul_of_nonneg_left (by linarith) ha0.le
        linarith
    have h3 : 0 ≤ (h - t) * -(dq + a * (t + h) / 2) := mul_nonneg (by linarith) (by linarith)
    nlinarith
  · have h2 : -(h * dq) * t ≤ -(h * dq) * h := mul_le_mul_of_nonneg_left h1 (by nlinarith)
    have h3 : -dq * (t * t) ≤ a * h * (t * t) := mul_le_mul_of_nonneg_right (by linarith) (by positivity)
    have h4 : 0 ≤ -dq * ((h - t) * (h - t)) := mul_nonneg (by linarith) (mul_self_nonneg _)
    have h5 : 0 ≤ h * (q - qMin + dq * t + a * (t * t) / 2) := by
      have : 0 ≤ h * (2 * (q - qMin) + h * dq) := mul_nonneg hh.le (by linarith)
      nlinarith
    have h6 := nonneg_of_mul_nonneg_right h5 hh
    linarith

/-- A joint that moves down and turns before the limit. -/
theorem above_of_turn {q dq a t qMin : K} (hq : qMin < q) (ha : dq * dq / (2 * (q - qMin)) ≤ a) :
    qMin ≤ q + dq * t + a * (t * t) / 2 := by
  have hE : 0 < 2 * (q - qMin) := by linarith
  have h1 : dq * dq ≤ a * (2 * (q - qMin)) := (div_le_iff₀ hE).1 ha
  have ha0 : 0 ≤ a := le_trans (div_nonneg (mul_self_nonneg dq) hE.le) ha
  rcases ha0.eq_or_lt with h0 | hpos
  · rw [← h0] at h1 ⊢
    have : dq * dq = 0 := le_antisymm (by linarith) (mul_self_nonneg _)
    have : dq = 0 := by simpa using this
    rw [this]; linarith
  · have h2 : 0 ≤ (2 * a) * (q - qMin + dq * t + a * (t * t) / 2) := by
      have := mul_self_nonneg (dq + a * t)
      nlinarith
    have h3 := nonneg_of_mul_nonneg_right h2 (by linarith)
    linarith

namespace PosVelAcc

/-- The lower bound due to the position limits protects the lower limit when the joint does not move up. -/
theorem fromPos_lower {h q dq a t qMin qMax : K} (hh : 0 < h) (hdq : dq ≤ 0) (hq : qMin ≤ q)
    (hout : ¬ (q = qMin ∧ dq < 0)) (ha : (fromPos h (2 / (h * h)) qMin qMax q dq).1 ≤ a) (h0 : 0 ≤ t) (h1 : t ≤ h) :
    qMin ≤ q + dq * t + a * (t * t) / 2 := by
  simp only [fromPos, if_pos hdq] at ha
  split at ha
  · next hc => exact above_of_end hh hdq hc ha h0 h1
  · split at ha
    · next hne => exact above_of_turn (lt_of_le_of_ne hq (Ne.symm hne)) (le_trans (le_max_left _ _) ha)
    · next heq =>
      have heq : q = qMin := by simpa using heq
      have hz : dq = 0 := le_antisymm hdq (not_lt.1 fun hlt => hout ⟨heq, hlt⟩)
      have : 0 ≤ a * (t * t) := mul_nonneg ha (mul_self_nonneg t)
      rw [hz, heq]; linarith

/-- Mirror image of the bounds due to the position limits. -/
theorem fromPos_mirror {h c qMin qMax q dq : K} (hdq : dq ≠ 0) :
    fromPos h c (-qMax) (-qMin) (-q) (-dq) =
      (-(fromPos h c qMin qMax q dq).2, -(fromPos h c qMin qMax q dq).1) := by
  have e1 : c * (-qMax - -q - h * -dq) = -(c * (qMax - q - h * dq)) := by ring
  have e2 : c * (-qMin - -q - h * -dq) = -(c * (qMin - q - h * dq)) := by ring
  have e3 : - -dq / h = -(-dq / h) := by ring
  have e4 : -dq * -dq / (2 * (-q - -qMax)) = -(-(dq * dq) / (2 * (qMax - q))) := by ring
  have e5 : -(-dq * -dq) / (2 * (-qMin - -q)) = -(dq * dq / (2 * (q - qMin))) := by
    rw [show 2 * (-qMin - -q) = 2 * (q - qMin) by ring]; ring
  unfold fromPos
  simp only [e1, e2, e3, e4, e5]
  rcases lt_or_gt_of_ne hdq with hlt | hgt
  · rw [if_neg (show ¬ -dq ≤ 0 by linarith), if_pos hlt.le]
    simp only [gt_iff_lt, neg_lt_neg_iff, ne_eq, neg_inj, min_neg_neg]
    split_ifs <;> simp
  · rw [if_pos (show -dq ≤ 0 by linarith), if_neg (show ¬ dq ≤ 0 by linarith)]
    simp only [gt_iff_lt, neg_lt_neg_iff, ne_eq, neg_inj, max_neg_neg]
    split_ifs <;> simp

/-- The acceleration bounds due to the position limits keep the joint inside over the whole horizon. -/
theorem fromPos_safe {h q dq a t qMin qMax : K} (hh : 0 < h) (hq : qMin ≤ q) (hq' : q ≤ qMax)
    (hout : ¬ (q = qMin ∧ dq < 0)) (hout' : ¬ (q = qMax ∧ 0 < dq))
    (hl : (fromPos h (2 / (h * h)) qMin qMax q dq).1 ≤ a) (hu : a ≤ (fromPos h (2 / (h * h)) qMin qMax q dq).2)
    (h0 : 0 ≤ t) (h1 : t ≤ h) :
    qMin ≤ q + dq * t + a * (t * t) / 2 ∧ q + dq * t + a * (t * t) / 2 ≤ qMax := by
  rcases le_or_gt dq 0 with hdq | hdq
  · refine ⟨fromPos_lower hh hdq hq hout hl h0 h1, ?_⟩
    simp only [fromPos, if_pos hdq] at hu
    exact below_of_end hh hq' hdq hu h0 h1
  · have hm := fromPos_mirror (h := h) (c := 2 / (h * h)) (qMin := qMin) (qMax := qMax) (q := q) hdq.ne'
    constructor
    · have hl' : 2 / (h * h) * (qMin - q - h * dq) ≤ a := by
        have := hl
        simpa only [fromPos, if_neg (not_le.2 hdq)] using this
      have := below_of_end (h := h) (q := -q) (dq := -dq) (a := -a) (t := t) (qMax := -qMin) hh (by linarith)
        (by linarith) (by
          rw [show 2 / (h * h) * (-qMin - -q - h * -dq) = -(2 / (h * h) * (qMin - q - h * dq)) by ring]
          linarith) h0 h1
      linarith
    · have := fromPos_lower (h := h) (q := -q) (dq := -dq) (a := -a) (t := t) (qMin := -qMax) (qMax := -qMin) hh
        (by linarith) (by linarith) (by rintro ⟨e, _⟩; exact hout' ⟨by linarith, hdq⟩)
        (by rw [hm]; simpa using hu) h0 h1
      linarith

/-! ## Viability -/

theorem fromVia_upper [HasSqrt K] [LawfulSqrt K] {h qMin qMax M q dq a : K} (hh : 0 < h) (hM : 0 ≤ M)
    (ha : a ≤ (fromVia h (h * h) (2 * (h * h)) qMin qMax M q dq).2) :
    dq + h * a ≤ 0 ∨ (dq + h * a) * (dq + h * a) ≤ 2 * M * (qMax - (q + h * dq + h * h * a / 2)) := by
  rcases le_or_gt a (-dq / h) with hs | hs
  · left
    have := (le_div_iff₀ hh).1 hs
    linarith
  · right
    simp only [fromVia] at ha
    rcases le_max_iff.1 ha with h1 | h1
    swap
    · exact absurd h1 (not_le.2 hs)
    split at h1
    swap
    · exact absurd h1 (not_le.2 hs)
    next hd =>
    generalize hδ : (2 * (h * dq) + M * (h * h)) * (2 * (h * dq) + M * (h * h)) -
      2 * (2 * (h * h)) * (dq * dq - 2 * M * (qMax - (q + h * dq))) = δ at hd h1
    have hpos : 0 < 2 * (h * h) := by positivity
    have h2 := (le_div_iff₀ hpos).1 h1
    have hr := LawfulSqrt.sq_sqrt δ hd
    have hr0 := LawfulSqrt.sqrt_nonneg δ
    have hs' := (div_lt_iff₀ hh).1 hs
    -- distance of `a` from the vertex of the parabola
    have hy : 0 ≤ a * (2 * (h * h)) + (2 * (h * dq) + M * (h * h)) := by
      have : 0 ≤ h * (2 * (a * h + dq)) := mul_nonneg hh.le (by linarith)
      have : 0 ≤ M * (h * h) := mul_nonneg hM (by positivity)
      nlinarith
    have hsq : (a * (2 * (h * h)) + (2 * (h * dq) + M * (h * h))) * (a * (2 * (h * h)) + (2 * (h * dq) + M * (h * h))) ≤
        sqrt δ * sqrt δ := mul_self_le_mul_self hy (by linarith)
    rw [hr, ← hδ] at hsq
    have key : (4 * (h * h)) * ((dq + h * a) * (dq + h * a)) ≤
        (4 * (h * h)) * (2 * M * (qMax - (q + h * dq + h * h * a / 2))) := by nlinarith
    exact le_of_mul_le_mul_left key (by positivity)

theorem fromVia_mirror [HasSqrt K] {h h2 h3 qMin qMax M q dq : K} :
    fromVia h h2 h3 (-qMax) (-qMin) M (-q) (-dq) =
      (-(fromVia h h2 h3 qMin qMax M q dq).2, -(fromVia h h2 h3 qMin qMax M q dq).1) := by
  unfold fromVia
  have b1 : 2 * (h * -dq) + M * h2 = -(2 * (h * dq) - M * h2) := by ring
  have b2 : 2 * (h * -dq) - M * h2 = -(2 * (h * dq) + M * h2) := by ring
  have c1 : -dq * -dq - 2 * M * (-qMin - (-q + h * -dq)) = dq * dq - 2 * M * (q + h * dq - qMin) := by ring
  have c2 : -dq * -dq - 2 * M * (-q + h * -dq - -qMax) = dq * dq - 2 * M * (qMax - (q + h * dq)) := by ring
  have e3 : - -dq / h = -(-dq / h) := by ring
  have n1 : ∀ x y : K, -x * -x - y = x * x - y := by intro x y; ring
  have n2 : ∀ x y z : K, (- -x + y) / z = -((-x - y) / z) := by intro x y z; ring
  have n3 : ∀ x y z : K, (- -x - y) / z = -((-x + y) / z) := by intro x y z; ring
  simp only [b1, b2, c1, c2, e3, n1, n2, n3]
  ext
  · simp only
    rw [← min_neg_neg]
    split_ifs <;> rfl
  · simp only
    rw [← max_neg_neg]
    split_ifs <;> rfl

theorem fromVia_lower [HasSqrt K] [LawfulSqrt K] {h qMin qMax M q dq a : K} (hh : 0 < h) (hM : 0 ≤ M)
    (ha : (fromVia h (h * h) (2 * (h * h)) qMin qMax M q dq).1 ≤ a) :
    0 ≤ dq + h * a ∨ (dq + h * a) * (dq + h * a) ≤ 2 * M * (q + h * dq + h * h * a / 2 - qMin) := by
  have := fromVia_upper (h := h) (qMin := -qMax) (qMax := -qMin) (M := M) (q := -q) (dq := -dq) (a := -a) hh hM
    (by rw [fromVia_mirror]; simpa using ha)
  rcases this with h1 | h1
  · left; linarith
  · right; nlinarith

/-- A joint not moving up that stays inside its limits is accelerated within the bounds derived from them. -/
theorem fromPos_needed {h q dq a qMin qMax : K} (hh : 0 < h) (hq : qMin ≤ q) (hout : ¬ (q = qMin ∧ dq < 0))
    (hd : dq ≤ 0) (hs : StaysInside qMin qMax h q dq a) :
    (fromPos h (2 / (h * h)) qMin qMax q dq).1 ≤ a ∧ a ≤ (fromPos h (2 / (h * h)) qMin qMax q dq).2 := by
  have hhh : 0 < h * h := mul_pos hh hh
  obtain ⟨h1, h2⟩ := hs h hh.le le_rfl
  unfold posAt at h1 h2
  have hend : 2 / (h * h) * (qMin - q - h * dq) ≤ a := by
    rw [div_mul_eq_mul_div, div_le_iff₀ hhh]; nlinarith
  have hend' : a ≤ 2 / (h * h) * (qMax - q - h * dq) := by
    rw [div_mul_eq_mul_div, le_div_iff₀ hhh]; nlinarith
  unfold fromPos
  simp only [if_pos hd]
  refine ⟨?_, hend'⟩
  split_ifs with c1 c2
  · exact hend
  · have hlt : qMin < q := lt_of_le_of_ne hq (Ne.symm c2)
    have hturn : -dq / h ≤ a := le_trans (not_lt.1 c1) hend
    refine max_le ?_ hturn
    rw [div_le_iff₀ (by linarith)]
    rcases hd.eq_or_lt with h0 | hneg
    · rw [h0]
      have : 0 ≤ a := by simpa [h0] using hturn
      nlinarith
    · have ha : 0 < a := lt_of_lt_of_le (div_pos (by linarith) hh) hturn
      have ht : -dq / a ≤ h := by
        rw [div_le_iff₀ hh] at hturn
        rw [div_le_iff₀ ha]; linarith
      have h3 := (hs (-dq / a) (div_nonneg (by linarith) ha.le) ht).1
      unfold posAt at h3
      have h4 : q + dq * (-dq / a) + a * (-dq / a * (-dq / a)) / 2 = q - dq * dq / (2 * a) := by
        field_simp; ring
      rw [h4] at h3
      have h5 : dq * dq / (2 * a) ≤ q - qMin := by linarith
      rw [div_le_iff₀ (by linarith)] at h5
      linarith
  · push Not at c2
    have h0 : dq = 0 := by
      by_contra hne
      exact hout ⟨c2, lt_of_le_of_ne hd hne⟩
    simpa [c2, h0] using hend

/-! ## Combination -/

theorem combine_le (lb ub : Four K) : (combine lb ub).1 ≤ (combine lb ub).2 := by
  unfold combine
  simp only
  split_ifs with h h'
  · exact le_refl _
  · exact le_refl _
  · exact not_lt.1 h

theorem four_max_le {lb : Four K} {a : K} : lb.max ≤ a ↔ lb.pos ≤ a ∧ lb.via ≤ a ∧ lb.vel ≤ a ∧ lb.acc ≤ a := by
  simp [Four.max, max_le_iff, and_assoc]

theorem le_four_min {ub : Four K} {a : K} : a ≤ ub.min ↔ a ≤ ub.pos ∧ a ≤ ub.via ∧ a ≤ ub.vel ∧ a ≤ ub.acc := by
  simp [Four.min, le_min_iff, and_assoc]

theorem combine_compatible {lb ub : Four K} (h : lb.max ≤ ub.min) : combine lb ub = (lb.max, ub.min) := by
  unfold combine
  simp only
  rw [if_neg (not_lt.2 h)]

end PosVelAcc

end Tsid
