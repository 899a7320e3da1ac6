import Mathlib.Tactic.Ring
import Mathlib.Tactic.Linarith
import Mathlib.Tactic.FieldSimp
import Verif.Spec.Viability
import Verif.Lemmas.PosVelAcc

/-!
# Viable states have an acceleration that respects all limits
-/

set_option linter.unusedSectionVars false

namespace Tsid

open Spec PosVelAcc

variable {K : Type} [Field K] [LinearOrder K] [IsStrictOrderedRing K]

/-- Speed from which a joint can be stopped before the upper limit. -/
theorem sq_of_stoppableAbove {qMax m q dq : K} (hm : 0 < m) (h : StoppableAbove qMax m q dq) :
    dq ≤ 0 ∨ dq * dq ≤ 2 * m * (qMax - q) := by
  rcases h with h | h
  · exact Or.inl h
  · rcases le_or_gt dq 0 with hd | hd
    · exact Or.inl hd
    right
    have h1 := h (dq / m) (div_nonneg hd.le hm.le)
    unfold posAt at h1
    have e : q + dq * (dq / m) + -m * (dq / m * (dq / m)) / 2 = q + dq * dq / (2 * m) := by
      field_simp
      ring
    rw [e] at h1
    have h2 : dq * dq / (2 * m) ≤ qMax - q := by linarith
    rw [div_le_iff₀ (by linarith)] at h2
    linarith

theorem stoppableAbove_of_sq {qMax m q dq : K} (hm : 0 < m)
    (h : dq ≤ 0 ∨ dq * dq ≤ 2 * m * (qMax - q)) : StoppableAbove qMax m q dq := by
  rcases h with h | h
  · exact Or.inl h
  · right
    intro t _
    unfold posAt
    have h2 : 0 ≤ (dq - m * t) * (dq - m * t) := mul_self_nonneg _
    have h3 : 0 ≤ 2 * m * (qMax - (q + dq * t + -m * (t * t) / 2)) := by nlinarith
    have := nonneg_of_mul_nonneg_right h3 (by linarith)
    linarith

theorem stoppable_mirror {qMax m q dq : K} :
    StoppableAbove qMax m q dq ↔ StoppableBelow (-qMax) m (-q) (-dq) := by
  unfold StoppableAbove StoppableBelow posAt
  constructor
  · rintro (h | h)
    · exact Or.inl (by linarith)
    · exact Or.inr fun t ht => by linarith [h t ht]
  · rintro (h | h)
    · exact Or.inl (by linarith)
    · exact Or.inr fun t ht => by linarith [h t ht]

theorem stoppable_mirror' {qMin m q dq : K} :
    StoppableBelow qMin m q dq ↔ StoppableAbove (-qMin) m (-q) (-dq) := by
  rw [stoppable_mirror]; simp

theorem sq_of_stoppableBelow {qMin m q dq : K} (hm : 0 < m) (h : StoppableBelow qMin m q dq) :
    0 ≤ dq ∨ dq * dq ≤ 2 * m * (q - qMin) := by
  rw [stoppable_mirror'] at h
  rcases sq_of_stoppableAbove hm h with h1 | h1
  · exact Or.inl (by linarith)
  · right; nlinarith

theorem stoppableBelow_of_sq {qMin m q dq : K} (hm : 0 < m)
    (h : 0 ≤ dq ∨ dq * dq ≤ 2 * m * (q - qMin)) : StoppableBelow qMin m q dq := by
  rw [stoppable_mirror']
  apply stoppableAbove_of_sq hm
  rcases h with h1 | h1
  · exact Or.inl (by linarith)
  · right; nlinarith

/-- What an acceleration has to achieve during the horizon `h`. -/
def GoodAcc (qMin qMax V m h q dq a : K) : Prop :=
  StaysInside qMin qMax h q dq a ∧ |dq + a * h| ≤ V ∧ |a| ≤ m ∧
    StoppableAbove qMax m (posAt q dq a h) (velAt dq a h) ∧ StoppableBelow qMin m (posAt q dq a h) (velAt dq a h)

theorem goodAcc_mirror {qMin qMax V m h q dq a : K} (hg : GoodAcc (-qMax) (-qMin) V m h (-q) (-dq) (-a)) :
    GoodAcc qMin qMax V m h q dq a := by
  obtain ⟨h1, h2, h3, h4, h5⟩ := hg
  have e1 : ∀ t, posAt (-q) (-dq) (-a) t = -posAt q dq a t := by intro t; unfold posAt; ring
  have e2 : velAt (-dq) (-a) h = -velAt dq a h := by unfold velAt; ring
  rw [e1, e2] at h4 h5
  refine ⟨fun t h0 ht => ?_, ?_, by rwa [abs_neg] at h3, ?_, ?_⟩
  · have := h1 t h0 ht
    rw [e1] at this
    constructor <;> linarith [this.1, this.2]
  · rwa [show -dq + -a * h = -(dq + a * h) by ring, abs_neg] at h2
  · rw [stoppable_mirror]; exact h5
  · rw [stoppable_mirror']; exact h4

theorem viable_mirror {qMin qMax V m q dq : K} (hv : ViableState qMin qMax V m q dq) :
    ViableState (-qMax) (-qMin) V m (-q) (-dq) := by
  obtain ⟨⟨h1, h2⟩, h3, h4, h5⟩ := hv
  refine ⟨⟨by linarith, by linarith⟩, by rwa [abs_neg], ?_, ?_⟩
  · exact stoppable_mirror'.1 h5
  · exact stoppable_mirror.1 h4

private theorem good_up {qMin qMax V m h q dq : K} (hh : 0 < h) (hm : 0 < m) (hV : m * h ≤ V)
    (hL : m * (h * h) ≤ qMax - qMin) (hv : ViableState qMin qMax V m q dq) (hd : 0 ≤ dq) :
    ∃ a, GoodAcc qMin qMax V m h q dq a := by
  obtain ⟨⟨h1, h2⟩, h3, h4, -⟩ := hv
  rw [abs_of_nonneg hd] at h3
  have hmh : 0 < m * h := mul_pos hm hh
  have hmhh : 0 < m * (h * h) := mul_pos hm (mul_pos hh hh)
  by_cases hz : dq ≤ m * h ∧ q + h * dq / 2 ≤ qMax
  · -- stop at the end of the horizon
    obtain ⟨hz1, hz2⟩ := hz
    have hend : dq + -dq / h * h = 0 := by rw [div_mul_cancel₀ _ hh.ne']; ring
    refine ⟨-dq / h, ?_, ?_, ?_, ?_, ?_⟩
    · intro t ht0 ht1
      have e : posAt q dq (-dq / h) t = q + dq * (t * (2 * h - t)) / (2 * h) := by
        unfold posAt; field_simp; ring
      rw [e]
      have hp : 0 ≤ t * (2 * h - t) := mul_nonneg ht0 (by linarith)
      have hq : t * (2 * h - t) ≤ h * h := by nlinarith [mul_self_nonneg (h - t)]
      have hA : 0 ≤ dq * (t * (2 * h - t)) / (2 * h) := div_nonneg (mul_nonneg hd hp) (by linarith)
      have hB : dq * (t * (2 * h - t)) / (2 * h) ≤ h * dq / 2 := by
        rw [div_le_iff₀ (by linarith)]
        nlinarith [mul_le_mul_of_nonneg_left hq hd]
      constructor <;> linarith
    · rw [hend, abs_zero]; linarith
    · rw [abs_div, abs_neg, abs_of_nonneg hd, abs_of_pos hh, div_le_iff₀ hh]; exact hz1
    · left; unfold velAt; rw [hend]
    · left; unfold velAt; rw [hend]
  · -- brake with the maximum deceleration
    have hpos : 0 < dq := by
      rcases hd.eq_or_lt with h0 | h0
      · exfalso; apply hz; rw [← h0]; constructor <;> linarith
      · exact h0
    have hstop : ∀ t, 0 ≤ t → posAt q dq (-m) t ≤ qMax := by
      rcases h4 with h4 | h4
      · linarith
      · exact h4
    have hsq : dq * dq ≤ 2 * m * (qMax - q) := by
      rcases sq_of_stoppableAbove hm h4 with h5 | h5
      · linarith
      · exact h5
    have hcase : m * h < dq ∨ (dq ≤ m * h ∧ qMax < q + h * dq / 2) := by
      rcases lt_or_ge (m * h) dq with h5 | h5
      · exact Or.inl h5
      · refine Or.inr ⟨h5, ?_⟩
        by_contra h6
        exact hz ⟨h5, not_lt.1 h6⟩
    have hendpos : qMin ≤ q + dq * h + -m * (h * h) / 2 := by
      rcases hcase with h5 | ⟨h5, h6⟩
      · have : m * h * h ≤ dq * h := mul_le_mul_of_nonneg_right h5.le hh.le
        nlinarith
      · have : 0 ≤ dq * h := mul_nonneg hd hh.le
        nlinarith
    refine ⟨-m, ?_, ?_, ?_, ?_, ?_⟩
    · intro t ht0 ht1
      refine ⟨?_, hstop t ht0⟩
      -- the parabola is above its chord
      unfold posAt
      have e : h * (q + dq * t + -m * (t * t) / 2 - qMin) =
          (h - t) * (q - qMin) + t * (q + dq * h + -m * (h * h) / 2 - qMin) + m * (t * (h - t)) * h / 2 := by ring
      have : 0 ≤ h * (q + dq * t + -m * (t * t) / 2 - qMin) := by
        rw [e]
        have a1 : 0 ≤ (h - t) * (q - qMin) := mul_nonneg (by linarith) (by linarith)
        have a2 : 0 ≤ t * (q + dq * h + -m * (h * h) / 2 - qMin) := mul_nonneg ht0 (by linarith)
        have a3 : 0 ≤ m * (t * (h - t)) * h := mul_nonneg (mul_nonneg hm.le (mul_nonneg ht0 (by linarith))) hh.le
        linarith
      have := nonneg_of_mul_nonneg_right this hh
      linarith
    · rw [abs_le]; constructor <;> nlinarith
    · rw [abs_neg, abs_of_pos hm]
    · apply stoppableAbove_of_sq hm
      unfold posAt velAt
      rcases le_or_gt (dq + -m * h) 0 with h5 | h5
      · exact Or.inl h5
      · right; nlinarith
    · apply stoppableBelow_of_sq hm
      unfold posAt velAt
      rcases hcase with h5 | ⟨h5, h6⟩
      · left; nlinarith
      · right
        have hA : 0 ≤ (m * h - dq) * dq := mul_nonneg (by linarith) hd
        have hB : m * (m * (h * h)) ≤ m * (qMax - qMin) := mul_le_mul_of_nonneg_left hL hm.le
        have hC : m * qMax ≤ m * (q + h * dq / 2) := mul_le_mul_of_nonneg_left h6.le hm.le
        nlinarith

/-- From a viable state some acceleration keeps the joint inside its limits and viable, when the speed limit is at least
the change of speed during the horizon under full acceleration and the range of the joint is not too small. -/
theorem exists_good {qMin qMax V m h q dq : K} (hh : 0 < h) (hm : 0 < m) (hV : m * h ≤ V)
    (hL : m * (h * h) ≤ qMax - qMin) (hv : ViableState qMin qMax V m q dq) :
    ∃ a, GoodAcc qMin qMax V m h q dq a := by
  rcases le_total 0 dq with hd | hd
  · exact good_up hh hm hV hL hv hd
  · obtain ⟨a, ha⟩ := good_up (qMin := -qMax) (qMax := -qMin) hh hm hV (by linarith) (viable_mirror hv) (by linarith)
    refine ⟨-a, goodAcc_mirror ?_⟩
    rwa [neg_neg]

/-- An acceleration after which the joint can be stopped respects the viability bound. -/
theorem fromVia_needed [HasSqrt K] [LawfulSqrt K] {h qMin qMax m q dq a : K} (hh : 0 < h) (hm : 0 < m)
    (ha : StoppableAbove qMax m (posAt q dq a h) (velAt dq a h)) :
    a ≤ (fromVia h (h * h) (2 * (h * h)) qMin qMax m q dq).2 := by
  simp only [fromVia]
  rw [le_max_iff]
  rcases le_or_gt a (-dq / h) with hs | hs
  · exact Or.inr hs
  left
  have hs' := (div_lt_iff₀ hh).1 hs
  have hsq : (dq + a * h) * (dq + a * h) ≤ 2 * m * (qMax - (q + dq * h + a * (h * h) / 2)) := by
    rcases sq_of_stoppableAbove hm ha with h1 | h1
    · unfold velAt at h1; linarith
    · unfold velAt posAt at h1; exact h1
  have hhh : 0 < h * h := mul_pos hh hh
  generalize hδ : (2 * (h * dq) + m * (h * h)) * (2 * (h * dq) + m * (h * h)) -
    2 * (2 * (h * h)) * (dq * dq - 2 * m * (qMax - (q + h * dq))) = δ
  have hle : (a * (2 * (h * h)) + (2 * (h * dq) + m * (h * h))) * (a * (2 * (h * h)) + (2 * (h * dq) + m * (h * h))) ≤
      δ := by
    rw [← hδ]
    have h4 := mul_le_mul_of_nonneg_left hsq (by positivity : 0 ≤ 4 * (h * h))
    nlinarith
  have hd : 0 ≤ δ := le_trans (mul_self_nonneg _) hle
  rw [if_pos hd, le_div_iff₀ (by linarith)]
  have hr := LawfulSqrt.sq_sqrt δ hd
  have hr0 := LawfulSqrt.sqrt_nonneg δ
  rw [← hr] at hle
  have := abs_le_of_sq_le_sq' (by nlinarith : (a * (2 * (h * h)) + (2 * (h * dq) + m * (h * h))) ^ 2 ≤ sqrt δ ^ 2) hr0
  linarith [this.2]

theorem fromVia_needed_lower [HasSqrt K] [LawfulSqrt K] {h qMin qMax m q dq a : K} (hh : 0 < h) (hm : 0 < m)
    (ha : StoppableBelow qMin m (posAt q dq a h) (velAt dq a h)) :
    (fromVia h (h * h) (2 * (h * h)) qMin qMax m q dq).1 ≤ a := by
  have := fromVia_needed (h := h) (q := -q) (dq := -dq) (a := -a) (qMin := -qMax) (qMax := -qMin) (m := m) hh hm (by
    rw [show posAt (-q) (-dq) (-a) h = -posAt q dq a h by unfold posAt; ring,
      show velAt (-dq) (-a) h = -velAt dq a h by unfold velAt; ring]
    exact stoppable_mirror'.1 ha)
  rw [fromVia_mirror] at this
  simpa using this

/-- During the horizon the joint is in viable states if it stays inside, is not accelerated too much and is viable at the
end: braking earlier is no worse. -/
theorem stoppable_before {qMax m h q dq a t : K} (hin : ∀ t, 0 ≤ t → t ≤ h → posAt q dq a t ≤ qMax) (ha : -m ≤ a)
    (hm : 0 < m) (hend : StoppableAbove qMax m (posAt q dq a h) (velAt dq a h)) (h0 : 0 ≤ t) (h1 : t ≤ h) :
    StoppableAbove qMax m (posAt q dq a t) (velAt dq a t) := by
  right
  intro s hs
  rcases le_or_gt s (h - t) with hc | hc
  · have h2 := hin (t + s) (by linarith) (by linarith)
    have h3 : 0 ≤ (a + m) * (s * s) := mul_nonneg (by linarith) (mul_self_nonneg s)
    unfold posAt velAt at *
    nlinarith
  · -- compare with braking from the end of the horizon on
    have hr : 0 ≤ h - t := by linarith
    have hE : posAt (posAt q dq a h) (velAt dq a h) (-m) (s - (h - t)) ≤ qMax := by
      rcases hend with h2 | h2
      · have h3 := hin h (by linarith) le_rfl
        have h4 : velAt dq a h * (s - (h - t)) ≤ 0 := mul_nonpos_of_nonpos_of_nonneg h2 (by linarith)
        have h5 : 0 ≤ m * ((s - (h - t)) * (s - (h - t))) := mul_nonneg hm.le (mul_self_nonneg _)
        have e : posAt (posAt q dq a h) (velAt dq a h) (-m) (s - (h - t)) =
            posAt q dq a h + velAt dq a h * (s - (h - t)) - m * ((s - (h - t)) * (s - (h - t))) / 2 := by
          generalize posAt q dq a h = x
          unfold posAt; ring
        rw [e]; linarith
      · exact h2 _ (by linarith)
    have hD : posAt (posAt q dq a h) (velAt dq a h) (-m) (s - (h - t)) -
        posAt (posAt q dq a t) (velAt dq a t) (-m) s = (a + m) * ((h - t) * (h - t)) / 2 +
          (a + m) * ((h - t) * (s - (h - t))) := by
      unfold posAt velAt; ring
    have h6 : 0 ≤ (a + m) * ((h - t) * (h - t)) := mul_nonneg (by linarith) (mul_self_nonneg _)
    have h7 : 0 ≤ (a + m) * ((h - t) * (s - (h - t))) := mul_nonneg (by linarith) (mul_nonneg hr (by linarith))
    linarith

end Tsid
