import Verif.Spec.Timing
import Verif.Model.Mask
import Mathlib.Order.Bounds.Basic
import Mathlib.Algebra.BigOperators.Group.List.Basic
import Mathlib.Tactic.Ring
import Mathlib.Tactic.Linarith
import Mathlib.Tactic.FieldSimp

/-!
# C60, C61: statistics and stopwatch
-/

set_option linter.unusedSectionVars false

namespace Tsid.Props

open Spec

variable {K : Type} [Field K] [LinearOrder K]

/-! ## C60 -/

/-- Greatest of zero and the values. -/
def MaxZero (l : List K) (m : K) : Prop := 0 ≤ m ∧ (m = 0 ∨ m ∈ l) ∧ ∀ v ∈ l, v ≤ m

/-- Least value, if there are values and none is zero. -/
def MinNonzero (l : List K) (m : K) : Prop := 0 ∉ l → (l = [] → m = 0) ∧ (l ≠ [] → m ∈ l ∧ ∀ v ∈ l, m ≤ v)

theorem maxZero_nil : MaxZero ([] : List K) 0 := ⟨le_rfl, Or.inl rfl, by simp⟩

theorem minNonzero_nil : MinNonzero ([] : List K) 0 := fun _ => ⟨fun _ => rfl, fun h => absurd rfl h⟩

theorem maxZero_snoc {l : List K} {m : K} (h : MaxZero l m) (v : K) : MaxZero (l ++ [v]) (if m ≤ v then v else m) := by
  obtain ⟨h1, h2, h3⟩ := h
  by_cases hv : m ≤ v
  · rw [if_pos hv]
    refine ⟨h1.trans hv, Or.inr (by simp), fun w hw => ?_⟩
    rcases List.mem_append.1 hw with h | h
    · exact (h3 w h).trans hv
    · rw [List.mem_singleton.1 h]
  · rw [if_neg hv]
    refine ⟨h1, h2.imp id fun h => List.mem_append_left _ h, fun w hw => ?_⟩
    rcases List.mem_append.1 hw with h | h
    · exact h3 w h
    · rw [List.mem_singleton.1 h]; exact (not_le.1 hv).le

theorem minNonzero_snoc {l : List K} {m : K} (h : MinNonzero l m) (v : K) :
    MinNonzero (l ++ [v]) (if v ≤ m ∨ m = 0 then v else m) := by
  intro h0
  have h0' : 0 ∉ l := fun hh => h0 (List.mem_append_left _ hh)
  obtain ⟨h1, h2⟩ := h h0'
  refine ⟨fun hh => by simp at hh, fun _ => ?_⟩
  by_cases hl : l = []
  · rw [if_pos (Or.inr (h1 hl)), hl]
    simp
  · obtain ⟨h3, h4⟩ := h2 hl
    have hm : m ≠ 0 := fun hh => h0' (hh ▸ h3)
    by_cases hv : v ≤ m
    · rw [if_pos (Or.inl hv)]
      refine ⟨by simp, fun w hw => ?_⟩
      rcases List.mem_append.1 hw with h | h
      · exact hv.trans (h4 w h)
      · rw [List.mem_singleton.1 h]
    · rw [if_neg (by rintro (h | h); exacts [hv h, hm h])]
      refine ⟨List.mem_append_left _ h3, fun w hw => ?_⟩
      rcases List.mem_append.1 hw with h | h
      · exact h4 w h
      · rw [List.mem_singleton.1 h]; exact (not_le.1 hv).le

/-- What one record knows about the values. -/
structure RecordInv (l : List K) (q : Quantity K) : Prop where
  total : q.total = l.sum
  stops : q.stops = l.length
  last : q.last = l.getLastD 0
  max : MaxZero l q.max
  min : MinNonzero l q.min

theorem record_blank : RecordInv ([] : List K) Stats.blank := ⟨rfl, rfl, rfl, maxZero_nil, minNonzero_nil⟩

theorem record_update {l : List K} {q : Quantity K} (h : RecordInv l q) (v : K) :
    RecordInv (l ++ [v]) (Stats.update q v) :=
  ⟨by simp [Stats.update, h.total], by simp [Stats.update, h.stops], by simp [Stats.update],
    maxZero_snoc h.max v, minNonzero_snoc h.min v⟩

/-- The records agree with the ledger. -/
structure StatsInv (g : Ledger K) (s : Stats K) : Prop where
  active : s.active = g.active
  unknown : ∀ n, g.values n = none → s.records n = none
  known : ∀ n l, g.values n = some l → ∃ q, s.records n = some q ∧ RecordInv l q

theorem stats_step {g : Ledger K} {s : Stats K} (hi : StatsInv g s) (o : Stats.Op K) :
    ∃ s', (s.step o).state? = some s' ∧ StatsInv (g.after o) s' := by
  cases o with
  | store n v =>
    simp only [Stats.step, Ledger.after, hi.active]
    by_cases ha : g.active = true
    · rw [if_pos ha, if_pos ha]
      refine ⟨_, rfl, hi.active, fun m hm => ?_, fun m l hm => ?_⟩
      · simp only at hm
        by_cases h : m = n
        · rw [if_pos h] at hm; cases hm
        · rw [if_neg h] at hm
          simp only [Stats.setRec, if_neg h]
          exact hi.unknown m hm
      · simp only at hm
        by_cases h : m = n
        · rw [if_pos h] at hm
          simp only [Stats.setRec, if_pos h]
          cases hm
          refine ⟨_, rfl, record_update ?_ v⟩
          cases hg : g.values n with
          | none => rw [hi.unknown n hg]; exact record_blank
          | some l =>
            obtain ⟨q, e, hq⟩ := hi.known n l hg
            rw [e]; exact hq
        · rw [if_neg h] at hm
          simp only [Stats.setRec, if_neg h]
          exact hi.known m l hm
    · rw [if_neg ha, if_neg ha]; exact ⟨_, rfl, hi⟩
  | reset n =>
    simp only [Stats.step, Ledger.after, hi.active]
    by_cases ha : g.active = true
    · rw [if_pos ha, if_pos ha]
      cases hg : g.values n with
      | none =>
        rw [hi.unknown n hg]
        refine ⟨_, rfl, hi.active, fun m hm => ?_, fun m l hm => ?_⟩
        · simp only [Option.map_none] at hm
          by_cases h : m = n
          · rw [h]; exact hi.unknown n hg
          · rw [if_neg h] at hm; exact hi.unknown m hm
        · simp only [Option.map_none] at hm
          by_cases h : m = n
          · rw [if_pos h] at hm; cases hm
          · rw [if_neg h] at hm; exact hi.known m l hm
      | some l0 =>
        obtain ⟨q, e, -⟩ := hi.known n l0 hg
        rw [e]
        refine ⟨_, rfl, hi.active, fun m hm => ?_, fun m l hm => ?_⟩
        · simp only [Option.map_some] at hm
          by_cases h : m = n
          · rw [if_pos h] at hm; cases hm
          · rw [if_neg h] at hm
            simp only [Stats.setRec, if_neg h]
            exact hi.unknown m hm
        · simp only [Option.map_some] at hm
          by_cases h : m = n
          · rw [if_pos h] at hm
            cases hm
            simp only [Stats.setRec, if_pos h]
            exact ⟨_, rfl, record_blank⟩
          · rw [if_neg h] at hm
            simp only [Stats.setRec, if_neg h]
            exact hi.known m l hm
    · rw [if_neg ha, if_neg ha]; exact ⟨_, rfl, hi⟩
  | resetAll =>
    simp only [Stats.step, Ledger.after, hi.active]
    by_cases ha : g.active = true
    · rw [if_pos ha, if_pos ha]
      refine ⟨_, rfl, rfl, fun m hm => ?_, fun m l hm => ?_⟩
      · simp only [Option.map_eq_none_iff] at hm ⊢
        exact hi.unknown m hm
      · simp only [Option.map_eq_some_iff] at hm
        obtain ⟨l0, e, rfl⟩ := hm
        obtain ⟨q, e1, -⟩ := hi.known m l0 e
        exact ⟨_, by simp only [e1, Option.map_some], record_blank⟩
    · rw [if_neg ha, if_neg ha]; exact ⟨_, rfl, hi⟩
  | turnOn => exact ⟨_, rfl, rfl, hi.unknown, hi.known⟩
  | turnOff => exact ⟨_, rfl, rfl, hi.unknown, hi.known⟩

theorem stats_run (os : List (Stats.Op K)) : ∀ {g : Ledger K} {s : Stats K}, StatsInv g s →
    ∃ s', runOps Stats.step s os = some s' ∧ StatsInv (g.afterAll os) s' := by
  induction os with
  | nil => intro g s hi; exact ⟨s, rfl, hi⟩
  | cons o os ih =>
    intro g s hi
    obtain ⟨s1, e1, h1⟩ := stats_step hi o
    obtain ⟨s2, e2, h2⟩ := ih h1
    exact ⟨s2, by rw [runOps, e1]; exact e2, h2⟩

theorem stats_new : StatsInv (Ledger.fresh (K := K)) Stats.new :=
  ⟨rfl, fun _ _ => rfl, fun _ _ h => (by cases h)⟩

/-- **C60, sums.** After any history: for a quantity that was stored, total and last value are those of the values in the
ledger, and so is the average as soon as there are values; for all others the getters throw. -/
theorem C60_sums (hist : List (Stats.Op K)) :
    ∃ s, runOps Stats.step Stats.new hist = some s ∧
      (∀ n l, (Ledger.fresh.afterAll hist).values n = some l →
        s.getTotal n = .ok s l.sum ∧ s.getLast n = .ok s (l.getLastD 0) ∧ s.getAverage n = .ok s (l.sum / l.length)) ∧
      (∀ n, (Ledger.fresh.afterAll hist).values n = none →
        s.getTotal n = .throw s ∧ s.getLast n = .throw s ∧ s.getAverage n = .throw s ∧ s.getMin n = .throw s ∧
          s.getMax n = .throw s) := by
  obtain ⟨s, e, hi⟩ := stats_run hist stats_new
  refine ⟨s, e, fun n l h => ?_, fun n h => ?_⟩
  · obtain ⟨q, e1, hq⟩ := hi.known n l h
    simp only [Stats.getTotal, Stats.getLast, Stats.getAverage, Stats.get, e1, hq.total, hq.last, hq.stops, and_self]
  · simp only [Stats.getTotal, Stats.getLast, Stats.getAverage, Stats.getMin, Stats.getMax, Stats.get,
      hi.unknown n h, and_self]

/-- **C60, extremes**, of quantities none of whose values is zero (for the minimum) and one of whose values is not
negative (for the maximum).  Missing with respect to C60: zeros and all-negative quantities, for which the claims are false
(`C60_min_zero`, `C60_max_negative`). -/
theorem C60_extremes_partial (hist : List (Stats.Op K)) {n : String} {l : List K}
    (h : (Ledger.fresh.afterAll hist).values n = some l) :
    ∃ s, runOps Stats.step Stats.new hist = some s ∧
      (l ≠ [] → 0 ∉ l → ∃ m, s.getMin n = .ok s m ∧ IsLeast {v | v ∈ l} m) ∧
      ((∃ v ∈ l, 0 ≤ v) → ∃ m, s.getMax n = .ok s m ∧ IsGreatest {v | v ∈ l} m) := by
  obtain ⟨s, e, hi⟩ := stats_run hist stats_new
  obtain ⟨q, e1, hq⟩ := hi.known n l h
  refine ⟨s, e, fun hl h0 => ⟨q.min, by simp only [Stats.getMin, Stats.get, e1], ?_⟩,
    fun ⟨v, hv, hv0⟩ => ⟨q.max, by simp only [Stats.getMax, Stats.get, e1], ?_⟩⟩
  · obtain ⟨h1, h2⟩ := (hq.min h0).2 hl
    exact ⟨h1, fun w hw => h2 w hw⟩
  · obtain ⟨h1, h2, h3⟩ := hq.max
    refine ⟨?_, fun w hw => h3 w hw⟩
    rcases h2 with h2 | h2
    · have := h3 v hv
      have : v = 0 := le_antisymm (h2 ▸ this) hv0
      show q.max ∈ l
      rw [h2, ← this]; exact hv
    · exact h2

/-- **C60, errors.** After any history a call throws exactly when it resets, while the statistics are active, a quantity
that was never stored; it then changes nothing. -/
theorem C60_throws (hist : List (Stats.Op K)) :
    ∃ s, runOps Stats.step Stats.new hist = some s ∧ ∀ o : Stats.Op K, ((s.step o).isThrow = true ↔
        (Ledger.fresh.afterAll hist).active = true ∧ ∃ n, o = .reset n ∧ (Ledger.fresh.afterAll hist).values n = none) ∧
      ((s.step o).isThrow = true → (s.step o).state? = some s) := by
  obtain ⟨s, e, hi⟩ := stats_run hist stats_new
  refine ⟨s, e, fun o => ?_⟩
  rw [← hi.active]
  cases o with
  | store n v => simp only [Stats.step]; split <;> simp [Res.isThrow]
  | reset n =>
    simp only [Stats.step]
    by_cases ha : s.active = true
    · rw [if_pos ha]
      cases hg : (Ledger.fresh.afterAll hist).values n with
      | none =>
        rw [hi.unknown n hg]
        exact ⟨⟨fun _ => ⟨ha, n, rfl, hg⟩, fun _ => rfl⟩, fun _ => rfl⟩
      | some l =>
        obtain ⟨q, e1, -⟩ := hi.known n l hg
        rw [e1]
        refine ⟨⟨fun h => (by cases h), ?_⟩, fun h => (by cases h)⟩
        rintro ⟨-, m, hm, hv⟩
        cases hm
        rw [hg] at hv; cases hv
    · rw [if_neg ha]
      exact ⟨⟨fun h => (by cases h), fun h => absurd h.1 ha⟩, fun h => (by cases h)⟩
  | resetAll => simp only [Stats.step]; split <;> simp [Res.isThrow]
  | turnOn => simp [Stats.step, Res.isThrow]
  | turnOff => simp [Stats.step, Res.isThrow]

/-- **C60 fails for the minimum when a value is zero**: after 0 and 5 the reported minimum is 5. -/
theorem C60_min_zero : ∃ s : Stats ℚ, runOps Stats.step Stats.new [.store "x" 0, .store "x" 5] = some s ∧
    s.getMin "x" = .ok s 5 := ⟨_, rfl, by simp only [Stats.getMin, Stats.get]; rfl⟩

/-- **C60 fails for the maximum of negative values**: after -1 the reported maximum is 0. -/
theorem C60_max_negative : ∃ s : Stats ℚ, runOps Stats.step Stats.new [.store "x" (-1)] = some s ∧
    s.getMax "x" = .ok s 0 := ⟨_, rfl, by simp only [Stats.getMax, Stats.get]; rfl⟩

/-- A history with two quantities, a reset and a pause in recording: the ledger of "a" holds 2 and -3. -/
example : (Ledger.fresh.afterAll [.store "a" (7 : ℚ), .store "b" 1, .reset "a", .store "a" 2, .turnOff, .store "a" 100,
    .turnOn, .store "a" (-3), .reset "c"]).values "a" = some [2, -3] := by decide +kernel

/-! ## C61 -/

variable [IsStrictOrderedRing K]

/-- What one record of the stopwatch knows. -/
structure LapInv (perSec : K) (a : Activity K) (p : Perf K) : Prop where
  total : p.total = a.laps.sum
  stops : p.stops = a.laps.length
  last : p.last = a.laps.getLastD 0
  max : MaxZero a.laps p.max
  min : MinNonzero a.laps p.min
  idle : a.started = none → p.start = 0
  running : ∀ c t, a.started = some (c, t) → p.start ≠ 0 ∧ (if c = .cpu then p.start / perSec else p.start) = t

theorem lap_blank (perSec : K) : LapInv perSec ⟨none, []⟩ (Watch.blank (K := K)) :=
  ⟨rfl, rfl, rfl, maxZero_nil, minNonzero_nil, fun _ => rfl, fun _ _ h => (by cases h)⟩

/-- The records agree with the laps. -/
structure WatchInv (perSec : K) (g : Laps K) (s : Watch K) : Prop where
  active : s.active = g.active
  modeEq : s.mode = g.mode
  unknown : ∀ n, g.acts n = none → s.records n = none
  known : ∀ n a, g.acts n = some a → ∃ p, s.records n = some p ∧ LapInv perSec a p

theorem take_time {mode : ClockMode} (hm : mode ≠ .none) (perSec : K) (r : Watch.Reading K) :
    ∃ t, Watch.takeTime mode r = some t ∧ (if mode = .cpu then t / perSec else t) = seconds perSec mode r := by
  cases mode with
  | none => exact absurd rfl hm
  | cpu => exact ⟨_, rfl, rfl⟩
  | real => exact ⟨_, rfl, rfl⟩

theorem watch_step {perSec : K} {g : Laps K} {s : Watch K}
    (hi : WatchInv perSec g s) (o : Watch.Op K) (ho : Plain perSec g o) :
    ∃ s', (s.step perSec o).state? = some s' ∧ WatchInv perSec (g.after perSec o) s' := by
  cases o with
  | start n r =>
    simp only [Watch.step, Laps.after, hi.active, hi.modeEq]
    by_cases ha : g.active = true
    · rw [if_pos ha, if_pos ha]
      obtain ⟨hm, ho⟩ := ho ha
      obtain ⟨t, et, et'⟩ := take_time hm perSec r
      simp only [et]
      have ht0 : t ≠ 0 := by
        rintro rfl
        apply ho
        rw [← et']
        split <;> simp
      refine ⟨_, rfl, hi.active, hi.modeEq, fun m hm => ?_, fun m a hm => ?_⟩
      · simp only at hm
        by_cases h : m = n
        · rw [if_pos h] at hm; cases hm
        · rw [if_neg h] at hm
          simp only [Watch.setRec, if_neg h]
          exact hi.unknown m hm
      · simp only at hm
        by_cases h : m = n
        · rw [if_pos h] at hm
          simp only [Watch.setRec, if_pos h]
          cases hm
          refine ⟨_, rfl, ?_⟩
          cases hg : g.acts n with
          | none =>
            rw [hi.unknown n hg]
            exact ⟨rfl, rfl, rfl, maxZero_nil, minNonzero_nil, fun h => (by cases h),
              fun c t' h => (by cases h; exact ⟨ht0, et'⟩)⟩
          | some a =>
            obtain ⟨p, e, hq⟩ := hi.known n a hg
            rw [e]
            exact ⟨hq.total, hq.stops, hq.last, hq.max, hq.min, fun h => (by cases h),
              fun c t' h => (by cases h; exact ⟨ht0, et'⟩)⟩
        · rw [if_neg h] at hm
          simp only [Watch.setRec, if_neg h]
          exact hi.known m a hm
    · rw [if_neg ha, if_neg ha]; exact ⟨_, rfl, hi⟩
  | stop n r =>
    simp only [Watch.step, Laps.after, hi.active, hi.modeEq]
    by_cases ha : g.active = true
    · rw [if_pos ha, if_pos ha]
      obtain ⟨hm, ho⟩ := ho ha
      obtain ⟨t, et, et'⟩ := take_time hm perSec r
      simp only [et]
      cases hg : g.acts n with
      | none =>
        rw [hi.unknown n hg]
        refine ⟨_, rfl, hi.active, hi.modeEq, fun m hm => ?_, fun m a hm => ?_⟩
        · simp only [Option.map_none] at hm
          by_cases h : m = n
          · rw [h]; exact hi.unknown n hg
          · rw [if_neg h] at hm; exact hi.unknown m hm
        · simp only [Option.map_none] at hm
          by_cases h : m = n
          · rw [if_pos h] at hm; cases hm
          · rw [if_neg h] at hm; exact hi.known m a hm
      | some a0 =>
        obtain ⟨p, e, hq⟩ := hi.known n a0 hg
        rw [e]
        simp only
        cases hst : a0.started with
        | none =>
          rw [if_pos (hq.idle hst)]
          refine ⟨_, rfl, hi.active, hi.modeEq, fun m hm => ?_, fun m a hm => ?_⟩
          · simp only [Option.map_some] at hm
            by_cases h : m = n
            · rw [if_pos h] at hm; cases hm
            · rw [if_neg h] at hm; exact hi.unknown m hm
          · simp only [Option.map_some] at hm
            by_cases h : m = n
            · rw [if_pos h] at hm
              simp only [hst] at hm
              cases hm
              rw [h]; exact ⟨p, e, hq⟩
            · rw [if_neg h] at hm; exact hi.known m a hm
        | some ct0 =>
          obtain ⟨c0, t0⟩ := ct0
          obtain ⟨h0, h1⟩ := hq.running c0 t0 hst
          rw [if_neg h0]
          obtain rfl := ho a0 c0 t0 hg hst
          have hl : (if g.mode = .cpu then (t - p.start) / perSec else t - p.start) = seconds perSec g.mode r - t0 := by
            rw [← et', ← h1]
            by_cases hc : g.mode = .cpu
            · simp only [hc, if_true]; ring
            · simp only [hc, if_false]
          refine ⟨_, rfl, hi.active, hi.modeEq, fun m hm => ?_, fun m a hm => ?_⟩
          · simp only [Option.map_some] at hm
            by_cases h : m = n
            · rw [if_pos h] at hm; cases hm
            · rw [if_neg h] at hm
              simp only [Watch.setRec, if_neg h]
              exact hi.unknown m hm
          · simp only [Option.map_some] at hm
            by_cases h : m = n
            · rw [if_pos h] at hm
              simp only [hst] at hm
              cases hm
              simp only [Watch.setRec, if_pos h]
              refine ⟨_, rfl, ?_, ?_, ?_, ?_, ?_, fun h => (by cases h), fun c' t' h' => ?_⟩
              · simp [Watch.lap, hl, hq.total]
              · simp [Watch.lap, hq.stops]
              · simp [Watch.lap, hl]
              · simp only [Watch.lap, hl]; exact maxZero_snoc hq.max _
              · simp only [Watch.lap, hl]; exact minNonzero_snoc hq.min _
              · cases h'
                exact ⟨h0, h1⟩
            · rw [if_neg h] at hm
              simp only [Watch.setRec, if_neg h]
              exact hi.known m a hm
    · rw [if_neg ha, if_neg ha]; exact ⟨_, rfl, hi⟩
  | reset n =>
    simp only [Watch.step, Laps.after, hi.active]
    by_cases ha : g.active = true
    · rw [if_pos ha, if_pos ha]
      cases hg : g.acts n with
      | none =>
        rw [hi.unknown n hg]
        refine ⟨_, rfl, hi.active, hi.modeEq, fun m hm => ?_, fun m l hm => ?_⟩
        · simp only [Option.map_none] at hm
          by_cases h : m = n
          · rw [h]; exact hi.unknown n hg
          · rw [if_neg h] at hm; exact hi.unknown m hm
        · simp only [Option.map_none] at hm
          by_cases h : m = n
          · rw [if_pos h] at hm; cases hm
          · rw [if_neg h] at hm; exact hi.known m l hm
      | some l0 =>
        obtain ⟨q, e, -⟩ := hi.known n l0 hg
        rw [e]
        refine ⟨_, rfl, hi.active, hi.modeEq, fun m hm => ?_, fun m l hm => ?_⟩
        · simp only [Option.map_some] at hm
          by_cases h : m = n
          · rw [if_pos h] at hm; cases hm
          · rw [if_neg h] at hm
            simp only [Watch.setRec, if_neg h]
            exact hi.unknown m hm
        · simp only [Option.map_some] at hm
          by_cases h : m = n
          · rw [if_pos h] at hm
            cases hm
            simp only [Watch.setRec, if_pos h]
            exact ⟨_, rfl, lap_blank perSec⟩
          · rw [if_neg h] at hm
            simp only [Watch.setRec, if_neg h]
            exact hi.known m l hm
    · rw [if_neg ha, if_neg ha]; exact ⟨_, rfl, hi⟩
  | resetAll =>
    simp only [Watch.step, Laps.after, hi.active]
    by_cases ha : g.active = true
    · rw [if_pos ha, if_pos ha]
      refine ⟨_, rfl, rfl, hi.modeEq, fun m hm => ?_, fun m l hm => ?_⟩
      · simp only [Option.map_eq_none_iff] at hm ⊢
        exact hi.unknown m hm
      · simp only [Option.map_eq_some_iff] at hm
        obtain ⟨l0, e, rfl⟩ := hm
        obtain ⟨q, e1, -⟩ := hi.known m l0 e
        exact ⟨_, by simp only [e1, Option.map_some], lap_blank perSec⟩
    · rw [if_neg ha, if_neg ha]; exact ⟨_, rfl, hi⟩
  | turnOn => exact ⟨_, rfl, rfl, hi.modeEq, hi.unknown, hi.known⟩
  | turnOff => exact ⟨_, rfl, rfl, hi.modeEq, hi.unknown, hi.known⟩
  | pause n r => exact absurd ho id
  | setMode m => exact ⟨_, rfl, hi.active, rfl, hi.unknown, hi.known⟩

theorem watch_run {perSec : K} (os : List (Watch.Op K)) :
    ∀ {g : Laps K} {s : Watch K}, WatchInv perSec g s → PlainRun perSec g os →
    ∃ s', runOps (Watch.step perSec) s os = some s' ∧ WatchInv perSec (g.afterAll perSec os) s' := by
  induction os with
  | nil => intro g s hi _; exact ⟨s, rfl, hi⟩
  | cons o os ih =>
    intro g s hi ho
    obtain ⟨s1, e1, h1⟩ := watch_step hi o ho.1
    obtain ⟨s2, e2, h2⟩ := ih h1 ho.2
    exact ⟨s2, by rw [runOps, e1]; exact e2, h2⟩

/-- **C61**, for histories of start, stop, reset, changes of the clock and switching on and off, on any activities: the
total is the sum of the laps, last and average are those of the laps, the minimum is the least lap unless a lap has no duration, and the maximum
the greatest one if some lap is not negative.  Missing with respect to C61: `pause`, which is wrong (`C61_pause`),
activities stopped by another clock than the one that started them (`C61_other_clock`) or without a clock, and activities
started at reading zero of their clock (`C61_time_zero`). -/
theorem C61_partial {perSec : K} {mode : ClockMode} (hist : List (Watch.Op K))
    (ho : PlainRun perSec (Laps.fresh mode) hist) {n : String} {a : Activity K}
    (h : ((Laps.fresh mode).afterAll perSec hist).acts n = some a) :
    ∃ s, runOps (Watch.step perSec) (Watch.new mode) hist = some s ∧ s.getTotal n = .ok s a.laps.sum ∧
      s.getLast n = .ok s (a.laps.getLastD 0) ∧ s.getAverage n = .ok s (a.laps.sum / a.laps.length) ∧
      (a.laps ≠ [] → 0 ∉ a.laps → ∃ m, s.getMin n = .ok s m ∧ IsLeast {v | v ∈ a.laps} m) ∧
      ((∃ v ∈ a.laps, 0 ≤ v) → ∃ m, s.getMax n = .ok s m ∧ IsGreatest {v | v ∈ a.laps} m) := by
  have h0 : WatchInv perSec (Laps.fresh mode) (Watch.new mode) :=
    ⟨rfl, rfl, fun _ _ => rfl, fun _ _ h => (by cases h)⟩
  obtain ⟨s, e, hi⟩ := watch_run hist h0 ho
  obtain ⟨q, e1, hq⟩ := hi.known n a h
  refine ⟨s, e, by simp only [Watch.getTotal, Watch.get, e1, hq.total],
    by simp only [Watch.getLast, Watch.get, e1, hq.last],
    by simp only [Watch.getAverage, Watch.get, e1, hq.total, hq.stops],
    fun hl h0 => ⟨q.min, by simp only [Watch.getMin, Watch.get, e1], ?_⟩,
    fun ⟨v, hv, hv0⟩ => ⟨q.max, by simp only [Watch.getMax, Watch.get, e1], ?_⟩⟩
  · obtain ⟨h1, h2⟩ := (hq.min h0).2 hl
    exact ⟨h1, fun w hw => h2 w hw⟩
  · obtain ⟨h1, h2, h3⟩ := hq.max
    refine ⟨?_, fun w hw => h3 w hw⟩
    rcases h2 with h2 | h2
    · have := h3 v hv
      have : v = 0 := le_antisymm (h2 ▸ this) hv0
      show q.max ∈ a.laps
      rw [h2, ← this]; exact hv
    · exact h2

/-- **C61, names and time so far.** For the same histories: the time so far of a started activity is the time since its
last start; every getter of an activity that was never started throws, and so do `stop`, `pause` and `reset` while the
stopwatch is active. -/
theorem C61_so_far {perSec : K} {mode : ClockMode} (hist : List (Watch.Op K))
    (ho : PlainRun perSec (Laps.fresh mode) hist) :
    let g := (Laps.fresh mode).afterAll perSec hist
    ∃ s, runOps (Watch.step perSec) (Watch.new mode) hist = some s ∧
      (g.mode ≠ .none → ∀ n a t r, g.acts n = some a → a.started = some (g.mode, t) →
        s.getSoFar perSec n r = .ok s (seconds perSec g.mode r - t)) ∧
      ∀ n, g.acts n = none → (∀ r, s.getSoFar perSec n r = .throw s) ∧ s.getTotal n = .throw s ∧
        s.getLast n = .throw s ∧ s.getAverage n = .throw s ∧ s.getMin n = .throw s ∧ s.getMax n = .throw s ∧
        (g.active = true → (∀ r, s.step perSec (.stop n r) = .throw s) ∧ (∀ r, s.step perSec (.pause n r) = .throw s) ∧
          s.step perSec (.reset n) = .throw s) := by
  intro g
  have h0 : WatchInv perSec (Laps.fresh mode) (Watch.new mode) :=
    ⟨rfl, rfl, fun _ _ => rfl, fun _ _ h => (by cases h)⟩
  obtain ⟨s, e, hi⟩ := watch_run hist h0 ho
  refine ⟨s, e, fun hm n a t r ha ht => ?_, fun n hn => ?_⟩
  · obtain ⟨p, e1, hq⟩ := hi.known n a ha
    obtain ⟨u, et, et'⟩ := take_time hm perSec r
    have hmode : s.mode = g.mode := hi.modeEq
    simp only [Watch.getSoFar, e1, hmode, et]
    rw [← et', ← (hq.running _ t ht).2]
    by_cases hc : g.mode = .cpu
    · simp only [hc, if_true, sub_div]
    · simp only [hc, if_false]
  · have hu := hi.unknown n hn
    simp only [Watch.getSoFar, Watch.getTotal, Watch.getLast, Watch.getAverage, Watch.getMin, Watch.getMax, Watch.get, hu,
      true_and, implies_true]
    intro ha
    have hs : s.active = true := hi.active.trans ha
    refine ⟨fun r => ?_, fun r => ?_, ?_⟩
    · simp only [Watch.step, if_pos hs, hu]
      cases Watch.takeTime s.mode r <;> rfl
    · simp only [Watch.step, if_pos hs, hu]
    · simp only [Watch.step, if_pos hs, hu]

/-- **C61 fails for every `pause` by the processor clock**: it adds the time since the last start in ticks instead of
seconds, too much by the factor `CLOCKS_PER_SEC`, to the total and to the last lap. -/
theorem C61_pause_ticks {perSec : K} (hp : perSec ≠ 0) {mode : ClockMode} (hist : List (Watch.Op K))
    (ho : PlainRun perSec (Laps.fresh mode) hist) {n : String} {a : Activity K} {t : K}
    (h : ((Laps.fresh mode).afterAll perSec hist).acts n = some a) (ht : a.started = some (.cpu, t))
    (hact : ((Laps.fresh mode).afterAll perSec hist).active = true) (r : Watch.Reading K) :
    ∃ s, runOps (Watch.step perSec) (Watch.new mode) (hist ++ [.pause n r]) = some s ∧
      s.getTotal n = .ok s (a.laps.sum + perSec * (seconds perSec .cpu r - t)) ∧
      s.getLast n = .ok s (a.laps.getLastD 0 + perSec * (seconds perSec .cpu r - t)) := by
  have h0 : WatchInv perSec (Laps.fresh mode) (Watch.new mode) :=
    ⟨rfl, rfl, fun _ _ => rfl, fun _ _ h => (by cases h)⟩
  obtain ⟨s, e, hi⟩ := watch_run hist h0 ho
  obtain ⟨p, e1, hq⟩ := hi.known n a h
  obtain ⟨hst, hst'⟩ := hq.running _ t ht
  rw [if_pos rfl] at hst'
  have hs : s.active = true := hi.active.trans hact
  have hl : r.ticks - p.start = perSec * (seconds perSec .cpu r - t) := by
    rw [← hst', seconds, if_pos rfl]
    field_simp
  have happ : ∀ (os : List (Watch.Op K)) (w w' : Watch K) (o : Watch.Op K), runOps (Watch.step perSec) w os = some w' →
      runOps (Watch.step perSec) w (os ++ [o]) = (w'.step perSec o).state? := by
    intro os
    induction os with
    | nil =>
      intro w w' o hw
      cases hw
      simp only [List.nil_append, runOps]
      cases (w.step perSec o).state? <;> rfl
    | cons o1 os ih =>
      intro w w' o hw
      rw [runOps] at hw
      rw [List.cons_append, runOps]
      cases hx : (w.step perSec o1).state? with
      | none => rw [hx] at hw; cases hw
      | some w1 => rw [hx] at hw; exact ih w1 w' o hw
  refine ⟨s.setRec n { p with last := p.last + (r.ticks - p.start), total := p.total + (r.ticks - p.start) }, ?_, ?_, ?_⟩
  · rw [happ _ _ _ _ e]
    simp only [Watch.step, if_pos hs, e1, if_neg hst]
    rfl
  · simp only [Watch.getTotal, Watch.get, Watch.setRec, if_true, hl, hq.total]
  · simp only [Watch.getLast, Watch.get, Watch.setRec, if_true, hl, hq.last]

/-- A started activity with a lap, by the processor clock. -/
example : (((Laps.fresh .cpu).afterAll 10 [.start "a" ⟨10, (1 : ℚ)⟩, .stop "a" ⟨30, 3⟩, .start "a" ⟨50, 6⟩]).acts "a").map
    (fun a => (a.started, a.laps)) = some (some (.cpu, 5), [2]) := by decide +kernel

/-- **C61 fails for `pause`**: started at 1000 s and paused two seconds (and two million processor ticks) later, the
activity has a total of 1999000, whatever the mode set for the clock. -/
theorem C61_pause : ∃ s : Watch ℚ, runOps (Watch.step 1000000) (Watch.new .real)
    [.start "a" ⟨0, 1000⟩, .pause "a" ⟨2000000, 1002⟩] = some s ∧ s.getTotal "a" = .ok s 1999000 :=
  ⟨_, rfl, by simp only [Watch.getTotal, Watch.get]; norm_num [Watch.setRec, Watch.new, Watch.blank]⟩

/-- **C61 fails for an activity started at reading zero** of the processor clock: its lap is dropped. -/
theorem C61_time_zero : ∃ s : Watch ℚ, runOps (Watch.step 1000000) (Watch.new .cpu)
    [.start "a" ⟨0, 1000⟩, .stop "a" ⟨2000000, 1002⟩] = some s ∧ s.getTotal "a" = .ok s 0 :=
  ⟨_, rfl, by simp only [Watch.getTotal, Watch.get]; rfl⟩

/-- A start without a clock throws but leaves a record behind: an activity that was never timed is known from then on, with
no time and no stops, and the other activities are as they were. -/
theorem C61_refused_start {perSec : K} {s : Watch K} (ha : s.active = true) (hm : s.mode = .none) {n : String}
    (hn : s.getTotal n = .throw s) (r : Watch.Reading K) :
    ∃ s', s.step perSec (.start n r) = .throw s' ∧ s'.getTotal n = .ok s' 0 ∧ s'.getLast n = .ok s' 0 ∧
      s'.getMin n = .ok s' 0 ∧ s'.getMax n = .ok s' 0 ∧ s'.active = true ∧ s'.mode = .none ∧
      ∀ m, m ≠ n → s'.records m = s.records m := by
  have hr : s.records n = none := by
    cases e : s.records n with
    | none => rfl
    | some p => simp only [Watch.getTotal, Watch.get, e] at hn; cases hn
  refine ⟨s.setRec n Watch.blank, ?_, ?_, ?_, ?_, ?_, ha, hm, fun m h => if_neg h⟩
  · simp only [Watch.step, ha, if_true, hm, Watch.takeTime, hr, Option.getD_none]
  all_goals simp [Watch.getTotal, Watch.getLast, Watch.getMin, Watch.getMax, Watch.get, Watch.setRec, Watch.blank]

example : (Watch.new ClockMode.none : Watch ℚ).getTotal "a" = .throw (Watch.new .none) := rfl

/-- A stop that is not preceded by a new start counts the time since the last start once more: six seconds are reported
although four have passed. -/
theorem C61_second_stop : ∃ s : Watch ℚ, runOps (Watch.step 1000000) (Watch.new .real)
    [.start "a" ⟨0, 1⟩, .stop "a" ⟨0, 3⟩, .stop "a" ⟨0, 5⟩] = some s ∧ s.getTotal "a" = .ok s 6 :=
  ⟨_, rfl, by
    simp only [Watch.getTotal, Watch.get]
    norm_num [Watch.setRec, Watch.new, Watch.blank, Watch.lap, show (ClockMode.real = ClockMode.cpu) = False by simp]⟩

/-- **C61 fails for an activity that is stopped by another clock** than the one that started it: two seconds after a
start by the processor clock, a stop by the wall clock reports a negative time. -/
theorem C61_other_clock : ∃ s : Watch ℚ, runOps (Watch.step 1000000) (Watch.new .cpu)
    [.start "a" ⟨1000000, 1000⟩, .setMode .real, .stop "a" ⟨3000000, 1002⟩] = some s ∧ s.getTotal "a" = .ok s (-998998) :=
  ⟨_, rfl, by
    simp only [Watch.getTotal, Watch.get]
    norm_num [Watch.setRec, Watch.new, Watch.blank, Watch.lap, show (ClockMode.real = ClockMode.cpu) = False by simp]⟩

/-- Both clocks in one history: a lap of two seconds by the processor clock, another of five by the wall clock. -/
example : PlainRun 10 (Laps.fresh .cpu) [.start "a" ⟨10, (1 : ℚ)⟩, .stop "a" ⟨30, 3⟩, .setMode .real, .start "a" ⟨50, 6⟩,
      .stop "a" ⟨60, 11⟩] ∧
    (((Laps.fresh .cpu).afterAll 10 [.start "a" ⟨10, (1 : ℚ)⟩, .stop "a" ⟨30, 3⟩, .setMode .real, .start "a" ⟨50, 6⟩,
      .stop "a" ⟨60, 11⟩]).acts "a").map (fun a => (a.started, a.laps)) = some (some (.real, 6), [2, 5]) :=
  ⟨by
    simp [PlainRun, Plain, Laps.after, Laps.fresh, seconds]
    exact ⟨fun a c t e h => (by subst e; cases h; rfl), fun a c t e h => (by subst e; cases h; rfl)⟩, by decide +kernel⟩

/-- Two interleaved activities: the laps of "a" are 4 and 1. -/
example : (((Laps.fresh .real).afterAll 10 [.start "a" ⟨0, (1 : ℚ)⟩, .start "b" ⟨0, 2⟩, .stop "b" ⟨0, 3⟩, .stop "a" ⟨0, 5⟩,
    .start "a" ⟨0, 6⟩, .turnOff, .stop "a" ⟨0, 8⟩, .turnOn, .stop "a" ⟨0, 7⟩]).acts "a").map Activity.laps =
    some [4, 1] := by decide +kernel

end Tsid.Props
