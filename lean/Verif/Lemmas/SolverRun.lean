import Verif.Lemmas.Solver

/-!
# Lemmas on whole assemblies and on histories of problems
-/

set_option linter.unusedSectionVars false

namespace Tsid.Solver

open Finset Spec

variable {K R : Type} [Field K] [CharZero K] [LinearOrder K] [IsStrictOrderedRing K]

/-- Condition on an object under which a back-end assembles level 0 correctly. -/
structure Fits (B : Backend K R) (Inv : Nat → R → Level K → Prop) (Upto Final : R → (Nat → K) → Prop)
    (Good : State K R → Nat → Level K → Prop) (Extra : Nat → Level K → (Nat → K) → Prop) : Prop where
  works : Works B Inv Upto
  resize : ∀ (fresh : Nat → Nat → K) (nd : Bool) (s : State K R) (n : Nat) (l : Level K), Good s n l →
    ∃ s', B.resize fresh nd { s with rows := B.pre l s.rows } n (B.count l).1 (B.count l).2 = .ok s' () ∧ s'.n = n ∧
      s'.H.rows = n ∧ s'.H.cols = n ∧ s'.g.size = n ∧ Inv n (B.start s'.rows) l ∧
      ∀ x, Upto (B.start s'.rows) x ↔ Extra n l x
  final : ∀ (n : Nat) (r : R) (x : Nat → K), Inv n r [] → (Upto r x ↔ Final r x)

theorem cost_ok {B : Backend K R} {reg : Bool} {l : Option (Level K)} {s : State K R} {n : Nat}
    (hl : ∀ l', l = some l' → AllEq l' ∧ LevelOK n l') (h1 : s.H.rows = n) (h2 : s.H.cols = n) (h3 : s.g.size = n) :
    ∃ s', cost B reg l s = .ok s' () ∧ s'.n = s.n ∧ s'.neq = s.neq ∧ s'.nin = s.nin ∧ s'.rows = s.rows ∧
      s'.H.rows = n ∧ s'.H.cols = n ∧ s'.g.size = n ∧
      ∀ l', l = some l' → ∀ x, qpCost s'.H s'.g x =
        lsqCost l' x - dropped l' + if B.reg reg then 1 / 2 * (defaultReg * sqNorm n x) else 0 := by
  cases l with
  | none => exact ⟨s, rfl, rfl, rfl, rfl, rfl, h1, h2, h3, by simp⟩
  | some l =>
    obtain ⟨ha, hb⟩ := hl l rfl
    obtain ⟨⟨H, g⟩, e⟩ := costLoop_isOk l (Mat.zero s.H.rows s.H.cols, Vec.zero s.g.size) ha hb h1 h2 h3
    obtain ⟨r1, r2, r3, _, _⟩ := costLoop_ok l _ _ _ e
    have hrr : (regularise (B.reg reg) H).rows = H.rows ∧ (regularise (B.reg reg) H).cols = H.cols := by
      unfold regularise; split <;> exact ⟨rfl, rfl⟩
    refine ⟨{ s with H := regularise (B.reg reg) H, g := g }, by simp only [cost, e], rfl, rfl, rfl, rfl, ?_, ?_, ?_, ?_⟩
    · exact hrr.1.trans (r1.trans h1)
    · exact hrr.2.trans (r2.trans h2)
    · exact r3.trans h3
    · intro l' hl' x
      cases hl'
      have hH : H.rows = n := r1.trans h1
      have hC : H.cols = H.rows := (r2.trans h2).trans hH.symm
      have := costLoop_cost l _ _ _ e h1 h2 h3 x
      dsimp only at this ⊢
      rw [qpCost_regularise _ _ hC, this, h1, h2, h3, qpCost_zero, hH]
      ring

/-- **One assembly.** -/
theorem Fits.retrieve {B : Backend K R} {Inv : Nat → R → Level K → Prop} {Upto Final : R → (Nat → K) → Prop}
    {Good : State K R → Nat → Level K → Prop} {Extra : Nat → Level K → (Nat → K) → Prop}
    (hf : Fits B Inv Upto Final Good Extra) (fresh : Nat → Nat → K) (nd reg : Bool) {s : State K R} {n : Nat}
    {l0 : Level K} {ls : List (Level K)} (hls : ls.length ≤ 1) (hg : Good s n l0) (ha : Admissible n l0 ls.head?) :
    ∃ s', Solver.retrieve B fresh nd s (l0 :: ls) reg = .ok s' () ∧ s'.n = n ∧ s'.H.rows = n ∧ s'.H.cols = n ∧
      s'.g.size = n ∧ (∀ x, Final s'.rows x ↔ Extra n l0 x ∧ Feasible l0 x) ∧
      ∀ l', ls.head? = some l' → ∀ x, qpCost s'.H s'.g x =
        lsqCost l' x - dropped l' + if B.reg reg then 1 / 2 * (defaultReg * sqNorm n x) else 0 := by
  obtain ⟨hne, hl0, hl1⟩ := ha
  cases l0 with
  | nil => exact absurd rfl hne
  | cons q l =>
    obtain ⟨w, c0⟩ := q
    have hc0 : c0.cols = n := (hl0 (w, c0) (by simp)).2
    obtain ⟨s1, e1, n1, H1, H2, g1, i1, u1⟩ := hf.resize fresh nd s n _ hg
    obtain ⟨r, e2, i2, u2⟩ := hf.works.putAll _ _ hl0 i1
    obtain ⟨s', e3, a1, a2, a3, a4, a5, a6, a7, a8⟩ := cost_ok (B := B) (reg := reg) (s := { s1 with rows := r }) hl1 H1 H2 g1
    refine ⟨s', ?_, by rw [a1]; exact n1, a5, a6, a7, ?_, a8⟩
    · have hany : (!nd && ((w, c0) :: l).any fun q => decide (q.2.cols ≠ c0.cols)) = false := by
        have : ((w, c0) :: l).any (fun q => decide (q.2.cols ≠ c0.cols)) = false := by
          rw [List.any_eq_false]
          intro q hq
          have := (hl0 q hq).2
          simp [this, hc0]
        rw [this, Bool.and_false]
      simp only [Solver.retrieve]
      rw [if_neg (by simp; omega)]
      simp only [hany, Bool.false_eq_true, if_false]
      rw [hc0, e1]
      simp only
      rw [n1, e2]
      rw [← n1]
      exact e3
    · intro x
      rw [a4, ← hf.final n r x i2, u2, u1]

/-- A level 1 with something else than equalities makes the loop throw. -/
theorem costLoop_isThrow {n : Nat} : ∀ (l : Level K) (s : Mat K × Vec K), ¬ AllEq l → LevelOK n l → s.1.rows = n →
    s.1.cols = n → s.2.size = n → ∃ s', costLoop l s = .throw s' := by
  intro l
  induction l with
  | nil => intro s h; exact absurd (by simp [AllEq]) h
  | cons q l ih =>
    intro s he hl h1 h2 h3
    obtain ⟨w, c⟩ := q
    by_cases hk : c.kind = .equality
    · obtain ⟨hc1, hc2⟩ := hl (w, c) (by simp)
      simp only [WellFormed, hk] at hc1
      simp only [Constraint.cols, hk] at hc2
      simp only [costLoop, hk, ne_eq, not_true_eq_false, if_false, hc2, h1, h2, h3, hc1, and_self, if_true]
      refine ih _ (fun h => he ?_) (fun q hq => hl q (by simp [hq])) rfl rfl rfl
      intro q hq
      rcases List.mem_cons.1 hq with rfl | hq
      · exact hk
      · exact h q hq
    · exact ⟨s, by simp only [costLoop, ne_eq, hk, not_false_eq_true, if_true]⟩

/-- **A rejected assembly.** -/
theorem Fits.rejects {B : Backend K R} {Inv : Nat → R → Level K → Prop} {Upto Final : R → (Nat → K) → Prop}
    {Good : State K R → Nat → Level K → Prop} {Extra : Nat → Level K → (Nat → K) → Prop}
    (hf : Fits B Inv Upto Final Good Extra) (fresh : Nat → Nat → K) (nd reg : Bool) {s : State K R} {n : Nat}
    {l0 l1 : Level K} (hg : Good s n l0) (hne : l0 ≠ []) (hl0 : LevelOK n l0) (hl1 : LevelOK n l1) (hq : ¬ AllEq l1) :
    ∃ s', Solver.retrieve B fresh nd s [l0, l1] reg = .throw s' := by
  cases l0 with
  | nil => exact absurd rfl hne
  | cons q l =>
    obtain ⟨w, c0⟩ := q
    have hc0 : c0.cols = n := (hl0 (w, c0) (by simp)).2
    obtain ⟨s1, e1, n1, H1, H2, g1, i1, u1⟩ := hf.resize fresh nd s n _ hg
    obtain ⟨r, e2, i2, u2⟩ := hf.works.putAll _ _ hl0 i1
    obtain ⟨⟨H, g⟩, e3⟩ := costLoop_isThrow l1 (Mat.zero s1.H.rows s1.H.cols, Vec.zero s1.g.size) hq hl1 H1 H2 g1
    refine ⟨{ s1 with rows := r, H := H, g := g }, ?_⟩
    have hany : (!nd && ((w, c0) :: l).any fun q => decide (q.2.cols ≠ c0.cols)) = false := by
      have : ((w, c0) :: l).any (fun q => decide (q.2.cols ≠ c0.cols)) = false := by
        rw [List.any_eq_false]
        intro q hq
        have := (hl0 q hq).2
        simp [this, hc0]
      rw [this, Bool.and_false]
    simp only [Solver.retrieve]
    rw [if_neg (by simp)]
    simp only [hany, Bool.false_eq_true, if_false]
    rw [hc0, e1]
    simp only
    rw [n1, e2]
    simp only [Solver.cost, List.head?_cons, e3]

/-! ## The back-ends -/

theorem resizeIf_rows (p : Prop) [Decidable p] (fresh : Nat → Nat → K) (m : Mat K) (r c : Nat) :
    (m.resizeIf p fresh r c).rows = if p then r else m.rows := by
  unfold Mat.resizeIf; split <;> rfl

theorem resizeIf_cols (p : Prop) [Decidable p] (fresh : Nat → Nat → K) (m : Mat K) (r c : Nat) :
    (m.resizeIf p fresh r c).cols = if p then c else m.cols := by
  unfold Mat.resizeIf; split <;> rfl

theorem resizeIf_size (p : Prop) [Decidable p] (fresh : Nat → Nat → K) (v : Vec K) (n : Nat) :
    (v.resizeIf p fresh n).size = if p then n else v.size := by
  unfold Vec.resizeIf; split <;> rfl

/-- Sizes after the conditional resizings. -/
local macro "sized" : tactic => `(tactic|
  (simp only [resizeIf_rows, resizeIf_cols, resizeIf_size] <;> (repeat' split) <;> omega))

/-- The sizes of the members agree. -/
def Eiq.Sized (s : State K (EiqRows K)) : Prop :=
  s.H.rows = s.n ∧ s.H.cols = s.n ∧ s.g.size = s.n ∧ s.rows.CE.rows = s.neq ∧ s.rows.CE.cols = s.n ∧
  s.rows.ce0.size = s.neq ∧ s.rows.CI.rows = 2 * s.nin ∧ s.rows.CI.cols = s.n ∧ s.rows.ci0.size = 2 * s.nin

theorem Eiq.resize_sized (fresh : Nat → Nat → K) (nd : Bool) {s : State K (EiqRows K)} (n neq nin : Nat)
    (h : Eiq.Sized s) : ∃ s', Eiq.resize fresh nd s n neq nin = .ok s' () ∧ s'.n = n ∧ s'.neq = neq ∧ s'.nin = nin ∧
      Eiq.Sized s' := by
  obtain ⟨h1, h2, h3, h4, h5, h6, h7, h8, h9⟩ := h
  refine ⟨_, rfl, rfl, rfl, rfl, ?_, ?_, ?_, ?_, ?_, ?_, ?_, ?_, ?_⟩ <;> sized

theorem Eiq.fits (rg : Bool → Bool) : Fits { (eiq : Backend K (EiqRows K)) with reg := rg } Eiq.Inv Eiq.Upto EiqSat
    (fun s _ _ => Eiq.Sized s) (fun _ _ _ => True) where
  works := ⟨Eiq.works.put⟩
  resize := by
    intro fresh nd s n l h
    obtain ⟨s', e, a1, a2, a3, h1, h2, h3, h4, h5, h6, h7, h8, h9⟩ :=
      Eiq.resize_sized fresh nd n (count l).1 (count l).2 h
    refine ⟨s', e, a1, by omega, by omega, by omega, ?_, ?_⟩
    · refine ⟨?_, ?_, ?_, ?_, ?_, ?_⟩ <;> dsimp only [eiq] <;> omega
    · intro x
      simp [eiq, Eiq.Upto]
  final := by
    intro n r x ⟨h1, h2, h3, h4, h5, h6⟩
    simp only [count, Nat.add_zero, Nat.mul_zero] at h3 h5
    simp only [Eiq.Upto, EiqSat, h3, h5]

/-- `SolverHQuadProgRT`: the sizes of the problem must be the template arguments. -/
theorem Rt.fits : Fits (rt : Backend K (EiqRows K)) Eiq.Inv Eiq.Upto EiqSat
    (fun s n l => Eiq.Sized s ∧ n = s.n ∧ count l = (s.neq, s.nin)) (fun _ _ _ => True) where
  works := ⟨Eiq.works.put⟩
  resize := by
    intro fresh nd s n l ⟨⟨h1, h2, h3, h4, h5, h6, h7, h8, h9⟩, hn, hc⟩
    refine ⟨s, ?_, hn.symm, ?_, ?_, ?_, ?_, ?_⟩
    · show Rt.resize fresh nd s n (count l).1 (count l).2 = _
      unfold Rt.resize
      rw [if_pos ⟨hn, by rw [hc], by rw [hc]⟩]
    · omega
    · omega
    · omega
    · refine ⟨?_, ?_, ?_, ?_, ?_, ?_⟩ <;> simp only [rt, eiq, hc] <;> omega
    · intro x
      simp [rt, eiq, Eiq.Upto]
  final := (Eiq.fits id).final

def Prox.Sized (s : State K (ProxRows K)) : Prop :=
  s.H.rows = s.n ∧ s.H.cols = s.n ∧ s.g.size = s.n ∧ s.rows.CE.rows = s.neq ∧ s.rows.CE.cols = s.n ∧
  s.rows.ce0.size = s.neq ∧ s.rows.CI.rows = s.nin ∧ s.rows.CI.cols = s.n ∧ s.rows.lb.size = s.nin ∧
  s.rows.ub.size = s.nin

theorem Prox.resize_sized (fresh : Nat → Nat → K) (nd : Bool) {s : State K (ProxRows K)} (n neq nin : Nat)
    (h : Prox.Sized s) : ∃ s', Prox.resize fresh nd s n neq nin = .ok s' () ∧ s'.n = n ∧ s'.neq = neq ∧ s'.nin = nin ∧
      Prox.Sized s' := by
  obtain ⟨h1, h2, h3, h4, h5, h6, h7, h8, h9, h10⟩ := h
  refine ⟨_, rfl, rfl, rfl, rfl, ?_, ?_, ?_, ?_, ?_, ?_, ?_, ?_, ?_, ?_⟩ <;> sized

theorem Prox.fits : Fits (prox : Backend K (ProxRows K)) Prox.Inv Prox.Upto ProxSat
    (fun s _ _ => Prox.Sized s) (fun _ _ _ => True) where
  works := Prox.works
  resize := by
    intro fresh nd s n l h
    obtain ⟨s', e, a1, a2, a3, h1, h2, h3, h4, h5, h6, h7, h8, h9, h10⟩ :=
      Prox.resize_sized fresh nd n (count l).1 (count l).2 h
    refine ⟨s', e, a1, by omega, by omega, by omega, ?_, ?_⟩
    · refine ⟨?_, ?_, ?_, ?_, ?_, ?_, ?_⟩ <;> dsimp only [prox] <;> omega
    · intro x
      simp [prox, Prox.Upto]
  final := by
    intro n r x ⟨h1, h2, h3, h4, h5, h6, h7⟩
    simp only [count, Nat.add_zero] at h3 h5
    simp only [Prox.Upto, ProxSat, h3, h5]

def Osqp.Sized (s : State K (OsqpRows K)) : Prop :=
  s.H.rows = s.n ∧ s.H.cols = s.n ∧ s.g.size = s.n ∧ s.rows.CI.rows = s.nin + s.neq ∧ s.rows.CI.cols = s.n ∧
  s.rows.lb.size = s.nin + s.neq ∧ s.rows.ub.size = s.nin + s.neq

theorem Osqp.resize_sized (fresh : Nat → Nat → K) (nd : Bool) {s : State K (OsqpRows K)} (n neq nin : Nat)
    (h : Osqp.Sized s) : ∃ s', Osqp.resize fresh nd s n neq nin = .ok s' () ∧ s'.n = n ∧ s'.neq = neq ∧ s'.nin = nin ∧
      Osqp.Sized s' := by
  obtain ⟨h1, h2, h3, h4, h5, h6, h7⟩ := h
  refine ⟨_, rfl, rfl, rfl, rfl, ?_, ?_, ?_, ?_, ?_, ?_, ?_⟩ <;> sized

theorem Osqp.fits : Fits (osqp : Backend K (OsqpRows K)) Osqp.Inv Osqp.Upto OsqpSat
    (fun s _ _ => Osqp.Sized s) (fun _ _ _ => True) where
  works := Osqp.works
  resize := by
    intro fresh nd s n l h
    obtain ⟨s', e, a1, a2, a3, h1, h2, h3, h4, h5, h6, h7⟩ :=
      Osqp.resize_sized fresh nd n (count l).1 (count l).2 h
    refine ⟨s', e, a1, by omega, by omega, by omega, ?_, ?_⟩
    · refine ⟨?_, ?_, ?_, ?_⟩ <;> dsimp only [osqp] <;> omega
    · intro x
      simp [osqp, Osqp.Upto]
  final := by
    intro n r x ⟨h1, h2, h3, h4⟩
    simp only [count, Nat.add_zero] at h2
    simp only [Osqp.Upto, OsqpSat, h2]

/-- The vectors of bounds are only resized when there are bounds. -/
def Mad.Sized (s : State K (MadRows K)) : Prop :=
  s.H.rows = s.n ∧ s.H.cols = s.n ∧ s.g.size = s.n ∧ s.rows.C.rows = s.nin ∧ s.rows.C.cols = s.n ∧
  s.rows.cl.size = s.nin ∧ s.rows.cu.size = s.nin

theorem Mad.resize_sized (fresh : Nat → Nat → K) (nd : Bool) {s : State K (MadRows K)} (n neq nin : Nat)
    (h : Mad.Sized s) : ∃ s', Mad.resize fresh nd s n neq nin = .ok s' () ∧ s'.n = n ∧ s'.nin = neq + nin ∧
      Mad.Sized s' ∧ s'.rows.hasBounds = s.rows.hasBounds ∧
      (s.rows.hasBounds = true → (n = s.n → s.rows.lb.size = n ∧ s.rows.ub.size = n) →
        s'.rows.lb.size = n ∧ s'.rows.ub.size = n) := by
  obtain ⟨h1, h2, h3, h4, h5, h6, h7⟩ := h
  refine ⟨_, rfl, rfl, rfl, ⟨?_, ?_, ?_, ?_, ?_, ?_, ?_⟩, rfl, ?_⟩
  · sized
  · sized
  · sized
  · sized
  · sized
  · sized
  · sized
  · intro hb hn
    simp only [resizeIf_size, hb, and_true]
    by_cases e : n = s.n
    · simpa [e] using hn e
    · simp [e]

/-- If the problem has bounds, the vectors for them have the right size or will be resized. -/
theorem Mad.fits : Fits (mad : Backend K (MadRows K)) Mad.Inv Mad.Upto MadSat
    (fun s n l => Mad.Sized s ∧ (hasBound l → n = s.n → s.rows.lb.size = n ∧ s.rows.ub.size = n))
    (fun n l x => hasBound l → ∀ i, i < n → dblMin ≤ x i ∧ x i ≤ dblMax) where
  works := Mad.works
  resize := by
    intro fresh nd s n l ⟨h, hb⟩
    have hany : (l.any fun q => decide (q.2.kind = .bound)) = true ↔ hasBound l := by
      simp [hasBound]
    obtain ⟨s', e, a1, a2, ⟨h1, h2, h3, h4, h5, h6, h7⟩, a4, a5⟩ :=
      Mad.resize_sized fresh nd (s := { s with rows := mad.pre l s.rows }) n (Mad.count l).1 (Mad.count l).2 h
    have a4' : s'.rows.hasBounds = l.any fun q => decide (q.2.kind = .bound) := a4
    refine ⟨s', e, a1, by omega, by omega, by omega, ?_, ?_⟩
    · by_cases hh : hasBound l
      · have h' := hany.2 hh
        obtain ⟨b1, b2⟩ := a5 h' (hb hh)
        refine ⟨?_, ?_, ?_, ?_, ?_, ?_⟩ <;> simp only [mad, a4', h', if_true]
        · omega
        · omega
        · omega
        · omega
        · simp
        · exact fun _ => ⟨b1, b2⟩
      · have h' : (l.any fun q => decide (q.2.kind = .bound)) = false := by
          rw [← Bool.not_eq_true, hany]; exact hh
        refine ⟨?_, ?_, ?_, ?_, ?_, ?_⟩ <;> simp only [mad, a4', h', Bool.false_eq_true, if_false]
        · omega
        · omega
        · omega
        · omega
        · exact hh
        · simp
    · intro x
      by_cases hh : hasBound l
      · have h' := hany.2 hh
        obtain ⟨b1, b2⟩ := a5 h' (hb hh)
        simp only [mad, a4', h', if_true, Mad.Upto, Nat.not_lt_zero, false_implies, implies_true, true_and, hh,
          true_implies, b1]
      · have h' : (l.any fun q => decide (q.2.kind = .bound)) = false := by
          rw [← Bool.not_eq_true, hany]; exact hh
        simp [mad, a4', h', Mad.Upto, hh]
  final := by
    intro n r x ⟨h1, h2, h3, h4, h5, h6⟩
    simp only [Mad.count, Nat.add_zero] at h2
    simp only [Mad.Upto, MadSat, h2]

/-! ## Histories -/

theorem costLoop_throw : ∀ (l : Level K) (s s' : Mat K × Vec K), costLoop l s = .throw s' →
    s'.1.rows = s.1.rows ∧ s'.1.cols = s.1.cols ∧ s'.2.size = s.2.size ∧ ¬ AllEq l := by
  intro l
  induction l with
  | nil => intro s s' h; cases h
  | cons q l ih =>
    intro s s' h
    obtain ⟨w, c⟩ := q
    simp only [costLoop] at h
    split at h
    · next hk =>
      cases h
      exact ⟨rfl, rfl, rfl, fun ha => hk (ha (w, c) (by simp))⟩
    · split at h
      · obtain ⟨a, b, d, e⟩ := ih _ _ h
        exact ⟨a, b, d, fun ha => e fun q hq => ha q (by simp [hq])⟩
      · cases h

/-- A property of the sizes of the members that every step of an assembly keeps. -/
structure Keeps (B : Backend K R) (Sz : State K R → Prop) : Prop where
  pre : ∀ s l, Sz s → Sz { s with rows := B.pre l s.rows }
  resize : ∀ fresh nd s n neq nin, Sz s →
    (∃ s', B.resize fresh nd s n neq nin = .ok s' () ∧ Sz s') ∨ B.resize fresh nd s n neq nin = .abort
  start : ∀ s, Sz s → Sz { s with rows := B.start s.rows }
  put : ∀ s n c r, Sz s → B.put n s.rows c = some r → Sz { s with rows := r }
  cost : ∀ s H g, Sz s → H.rows = s.H.rows → H.cols = s.H.cols → g.size = s.g.size → Sz { s with H := H, g := g }

theorem Keeps.putAll {B : Backend K R} {Sz : State K R → Prop} (hk : Keeps B Sz) {n : Nat} :
    ∀ (l : Level K) (s : State K R) (r : R), Sz s → Solver.putAll B n l s.rows = some r → Sz { s with rows := r } := by
  intro l
  induction l with
  | nil => intro s r h e; cases e; exact h
  | cons q l ih =>
    intro s r h e
    obtain ⟨w, c⟩ := q
    simp only [Solver.putAll] at e
    split at e
    · next r1 e1 => exact ih { s with rows := r1 } r (hk.put s n c r1 h e1) e
    · cases e

theorem Keeps.costs {B : Backend K R} {Sz : State K R → Prop} (hk : Keeps B Sz) {reg : Bool} {l : Option (Level K)}
    {s s' : State K R} (h : Sz s) (e : (Solver.cost B reg l s).state? = some s') : Sz s' := by
  unfold Solver.cost at e
  split at e
  · cases e; exact h
  · next l' =>
    split at e
    · next H g u e1 =>
      cases e
      obtain ⟨r1, r2, r3, _, _⟩ := costLoop_ok l' _ _ _ e1
      have hrr : (regularise (B.reg reg) H).rows = H.rows ∧ (regularise (B.reg reg) H).cols = H.cols := by
        unfold regularise; split <;> exact ⟨rfl, rfl⟩
      exact hk.cost _ _ _ h (hrr.1.trans r1) (hrr.2.trans r2) r3
    · next H g e1 =>
      cases e
      obtain ⟨r1, r2, r3, _⟩ := costLoop_throw l' _ _ e1
      exact hk.cost _ _ _ h r1 r2 r3
    · cases e
    · cases e

theorem Keeps.retrieve {B : Backend K R} {Sz : State K R → Prop} (hk : Keeps B Sz) {fresh : Nat → Nat → K}
    {nd reg : Bool} {s s' : State K R} {p : HQPData K} (h : Sz s)
    (e : (Solver.retrieve B fresh nd s p reg).state? = some s') : Sz s' := by
  unfold Solver.retrieve at e
  split at e
  · cases e; exact h
  · cases p with
    | nil => cases e
    | cons l0 ls =>
      have h1 := hk.pre s l0 h
      cases l0 with
      | nil =>
        rcases hk.resize fresh nd _ s.n 0 0 h1 with ⟨s2, e2, h2⟩ | e2
        · simp only [e2] at e
          exact hk.costs h2 e
        · simp only [e2] at e; cases e
      | cons q l =>
        obtain ⟨w, c0⟩ := q
        dsimp only at e
        split at e
        · cases e
        · rcases hk.resize fresh nd _ c0.cols (B.count ((w, c0) :: l)).1 (B.count ((w, c0) :: l)).2 h1 with ⟨s2, e2, h2⟩ | e2
          · simp only [e2] at e
            split at e
            · next r er => exact hk.costs (hk.putAll _ { s2 with rows := B.start s2.rows } r (hk.start s2 h2) er) e
            · cases e
          · simp only [e2] at e; cases e

theorem Keeps.retrieves {B : Backend K R} {Sz : State K R → Prop} (hk : Keeps B Sz) {nd : Bool} :
    ∀ (hist : List (SolverCall K)) (s s' : State K R), Sz s →
      Spec.retrieves B nd s hist = some s' → Sz s' := by
  intro hist
  induction hist with
  | nil => intro s s' h e; cases e; exact h
  | cons q hist ih =>
    intro s s' h e
    simp only [Spec.retrieves] at e
    split at e
    · next s1 e1 =>
      cases q with
      | retrieve fresh p reg => exact ih s1 s' (hk.retrieve h e1) e
      | resize fresh n neq nin =>
        rcases hk.resize fresh nd s n neq nin h with ⟨s2, e2, h2⟩ | e2
        · simp only [SolverCall.run, e2, Res.state?, Option.some.injEq] at e1
          subst e1
          exact ih s2 s' h2 e
        · simp only [SolverCall.run, e2, Res.state?, reduceCtorEq] at e1
    · cases e

/-- The cost after any successful assembly, from the sizes alone. -/
theorem Keeps.ok {B : Backend K R} {Sz : State K R → Prop} (hk : Keeps B Sz)
    (hsz : ∀ s, Sz s → s.H.rows = s.n ∧ s.H.cols = s.n ∧ s.g.size = s.n) {fresh : Nat → Nat → K}
    {nd reg : Bool} {s s' : State K R} {l0 l1 : Level K} (h : Sz s)
    (e : Solver.retrieve B fresh nd s [l0, l1] reg = .ok s' ()) :
    AllEq l1 ∧ (∀ q ∈ l1, q.2.cols = s'.n) ∧ ∀ x, qpCost s'.H s'.g x =
        lsqCost l1 x - dropped l1 + if B.reg reg then 1 / 2 * (defaultReg * sqNorm s'.n x) else 0 := by
  have key : ∀ s2 : State K R, Sz s2 → Solver.cost B reg (some l1) s2 = .ok s' () →
      AllEq l1 ∧ (∀ q ∈ l1, q.2.cols = s'.n) ∧ ∀ x, qpCost s'.H s'.g x =
        lsqCost l1 x - dropped l1 + if B.reg reg then 1 / 2 * (defaultReg * sqNorm s'.n x) else 0 := by
    intro s2 h2 e
    obtain ⟨z1, z2, z3⟩ := hsz s2 h2
    simp only [Solver.cost] at e
    split at e
    · next H g u e1 =>
      cases e
      obtain ⟨r1, r2, r3, r4, r5⟩ := costLoop_ok l1 _ _ _ e1
      refine ⟨r4, ?_, ?_⟩
      · intro q hq
        have := (r5 q hq).1
        simp only [Constraint.cols, r4 q hq]
        exact this.trans z1
      · intro x
        have hH : H.rows = s2.n := r1.trans z1
        have hC : H.cols = H.rows := (r2.trans z2).trans hH.symm
        have := costLoop_cost l1 _ _ _ e1 z1 z2 z3 x
        dsimp only at this ⊢
        rw [qpCost_regularise _ _ hC, this, z1, z2, z3, qpCost_zero, hH]
        ring
    · cases e
    · cases e
    · cases e
  unfold Solver.retrieve at e
  rw [if_neg (by simp)] at e
  have h1 := hk.pre s l0 h
  cases l0 with
  | nil =>
    rcases hk.resize fresh nd _ s.n 0 0 h1 with ⟨s2, e2, h2⟩ | e2
    · simp only [e2] at e
      exact key s2 h2 e
    · simp only [e2] at e; cases e
  | cons q l =>
    obtain ⟨w, c0⟩ := q
    dsimp only at e
    split at e
    · cases e
    · rcases hk.resize fresh nd _ c0.cols (B.count ((w, c0) :: l)).1 (B.count ((w, c0) :: l)).2 h1 with ⟨s2, e2, h2⟩ | e2
      · simp only [e2] at e
        split at e
        · next r er => exact key _ (hk.putAll _ { s2 with rows := B.start s2.rows } r (hk.start s2 h2) er) e
        · cases e
      · simp only [e2] at e; cases e

theorem Eiq.put_sizes {n : Nat} {r r' : EiqRows K} {c : Constraint K} (h : Eiq.put n r c = some r') :
    r'.CE.rows = r.CE.rows ∧ r'.CE.cols = r.CE.cols ∧ r'.ce0.size = r.ce0.size ∧ r'.CI.rows = r.CI.rows ∧
    r'.CI.cols = r.CI.cols ∧ r'.ci0.size = r.ci0.size := by
  have pair : ∀ k A A' lb ub, Eiq.putPair r k A A' lb ub = some r' →
      r'.CE.rows = r.CE.rows ∧ r'.CE.cols = r.CE.cols ∧ r'.ce0.size = r.ce0.size ∧ r'.CI.rows = r.CI.rows ∧
      r'.CI.cols = r.CI.cols ∧ r'.ci0.size = r.ci0.size := by
    intro k A A' lb ub h
    unfold Eiq.putPair at h
    split at h
    · next e1 e2 =>
      split at h
      · next e3 e4 =>
        cases h
        have a := setRows_rows e1
        have b := setRows_rows e3
        have c := setSeg_size e2
        have d := setSeg_size e4
        dsimp only
        omega
      · cases h
    · cases h
  unfold Eiq.put at h
  split at h
  · split at h
    · next e1 e2 =>
      cases h
      have a := setRows_rows e1
      have c := setSeg_size e2
      dsimp only
      omega
    · cases h
  · exact pair _ _ _ _ _ h
  · exact pair _ _ _ _ _ h

theorem Eiq.keeps (rg : Bool → Bool) : Keeps { (eiq : Backend K (EiqRows K)) with reg := rg } Eiq.Sized where
  pre := fun _ _ h => h
  resize := fun fresh nd s n neq nin h => by
    obtain ⟨s', e, _, _, _, h'⟩ := Eiq.resize_sized fresh nd n neq nin h
    exact .inl ⟨s', e, h'⟩
  start := fun _ h => h
  put := fun s n c r h e => by
    have := Eiq.put_sizes (n := n) e
    unfold Eiq.Sized at h ⊢
    dsimp only
    omega
  cost := fun s H g h a b c => by
    unfold Eiq.Sized at h ⊢
    dsimp only
    omega

/-- The sizes of `SolverHQuadProgRT` never change. -/
def Rt.Sized (nVars nEq nIn : Nat) (s : State K (EiqRows K)) : Prop :=
  Eiq.Sized s ∧ s.n = nVars ∧ s.neq = nEq ∧ s.nin = nIn

theorem Rt.keeps (a b c : Nat) : Keeps (rt : Backend K (EiqRows K)) (Rt.Sized a b c) where
  pre := fun _ _ h => h
  resize := fun fresh nd s n neq nin h => by
    show (∃ s', Rt.resize fresh nd s n neq nin = .ok s' () ∧ _) ∨ Rt.resize fresh nd s n neq nin = .abort
    unfold Rt.resize
    split
    · exact .inl ⟨s, rfl, h⟩
    · split
      · exact .inl ⟨s, rfl, h⟩
      · exact .inr rfl
  start := fun _ h => h
  put := fun s n c r h e => ⟨(Eiq.keeps id).put s n c r h.1 e, h.2⟩
  cost := fun s H g h a b c => ⟨(Eiq.keeps id).cost s H g h.1 a b c, h.2⟩

theorem Prox.put_sizes {n : Nat} {r r' : ProxRows K} {c : Constraint K} (h : Prox.put n r c = some r') :
    r'.CE.rows = r.CE.rows ∧ r'.CE.cols = r.CE.cols ∧ r'.ce0.size = r.ce0.size ∧ r'.CI.rows = r.CI.rows ∧
    r'.CI.cols = r.CI.cols ∧ r'.lb.size = r.lb.size ∧ r'.ub.size = r.ub.size := by
  have pair : ∀ k A lb ub, Prox.putPair r k A lb ub = some r' →
      r'.CE.rows = r.CE.rows ∧ r'.CE.cols = r.CE.cols ∧ r'.ce0.size = r.ce0.size ∧ r'.CI.rows = r.CI.rows ∧
      r'.CI.cols = r.CI.cols ∧ r'.lb.size = r.lb.size ∧ r'.ub.size = r.ub.size := by
    intro k A lb ub h
    unfold Prox.putPair at h
    split at h
    · next e1 e2 e3 =>
      cases h
      have a := setRows_rows e1
      have c := setSeg_size e2
      have d := setSeg_size e3
      dsimp only
      omega
    · cases h
  unfold Prox.put at h
  split at h
  · split at h
    · next e1 e2 =>
      cases h
      have a := setRows_rows e1
      have c := setSeg_size e2
      dsimp only
      omega
    · cases h
  · exact pair _ _ _ _ h
  · exact pair _ _ _ _ h

theorem Prox.keeps : Keeps (prox : Backend K (ProxRows K)) Prox.Sized where
  pre := fun _ _ h => h
  resize := fun fresh nd s n neq nin h => by
    obtain ⟨s', e, _, _, _, h'⟩ := Prox.resize_sized fresh nd n neq nin h
    exact .inl ⟨s', e, h'⟩
  start := fun _ h => h
  put := fun s n c r h e => by
    have := Prox.put_sizes (n := n) e
    unfold Prox.Sized at h ⊢
    dsimp only
    omega
  cost := fun s H g h a b c => by
    unfold Prox.Sized at h ⊢
    dsimp only
    omega

theorem Osqp.put_sizes {n : Nat} {r r' : OsqpRows K} {c : Constraint K} (h : Osqp.put n r c = some r') :
    r'.CI.rows = r.CI.rows ∧ r'.CI.cols = r.CI.cols ∧ r'.lb.size = r.lb.size ∧ r'.ub.size = r.ub.size := by
  have pair : ∀ k A lb ub, Osqp.putPair r k A lb ub = some r' →
      r'.CI.rows = r.CI.rows ∧ r'.CI.cols = r.CI.cols ∧ r'.lb.size = r.lb.size ∧ r'.ub.size = r.ub.size := by
    intro k A lb ub h
    unfold Osqp.putPair at h
    split at h
    · next e1 e2 e3 =>
      cases h
      have a := setRows_rows e1
      have c := setSeg_size e2
      have d := setSeg_size e3
      dsimp only
      omega
    · cases h
  unfold Osqp.put at h
  split at h
  · exact pair _ _ _ _ h
  · exact pair _ _ _ _ h
  · exact pair _ _ _ _ h

theorem Osqp.keeps : Keeps (osqp : Backend K (OsqpRows K)) Osqp.Sized where
  pre := fun _ _ h => h
  resize := fun fresh nd s n neq nin h => by
    obtain ⟨s', e, _, _, _, h'⟩ := Osqp.resize_sized fresh nd n neq nin h
    exact .inl ⟨s', e, h'⟩
  start := fun _ h => h
  put := fun s n c r h e => by
    have := Osqp.put_sizes (n := n) e
    unfold Osqp.Sized at h ⊢
    dsimp only
    omega
  cost := fun s H g h a b c => by
    unfold Osqp.Sized at h ⊢
    dsimp only
    omega

theorem Mad.put_sizes {n : Nat} {r r' : MadRows K} {c : Constraint K} (h : Mad.put n r c = some r') :
    r'.C.rows = r.C.rows ∧ r'.C.cols = r.C.cols ∧ r'.cl.size = r.cl.size ∧ r'.cu.size = r.cu.size ∧
    r'.lb.size = r.lb.size ∧ r'.ub.size = r.ub.size := by
  have pair : ∀ k A lb ub, Mad.putPair r k A lb ub = some r' →
      r'.C.rows = r.C.rows ∧ r'.C.cols = r.C.cols ∧ r'.cl.size = r.cl.size ∧ r'.cu.size = r.cu.size ∧
      r'.lb.size = r.lb.size ∧ r'.ub.size = r.ub.size := by
    intro k A lb ub h
    unfold Mad.putPair at h
    split at h
    · next e1 e2 e3 =>
      cases h
      have a := setRows_rows e1
      have c := setSeg_size e2
      have d := setSeg_size e3
      dsimp only
      omega
    · cases h
  unfold Mad.put at h
  split at h
  · exact pair _ _ _ _ h
  · exact pair _ _ _ _ h
  · split at h
    · cases h; exact ⟨rfl, rfl, rfl, rfl, rfl, rfl⟩
    · cases h

theorem Mad.keeps : Keeps (mad : Backend K (MadRows K)) Mad.Sized where
  pre := fun _ _ h => h
  resize := fun fresh nd s n neq nin h => by
    obtain ⟨s', e, _, _, h', _⟩ := Mad.resize_sized fresh nd n neq nin h
    exact .inl ⟨s', e, h'⟩
  start := fun s h => by
    unfold Mad.Sized at h ⊢
    simp only [mad]
    split <;> exact h
  put := fun s n c r h e => by
    have := Mad.put_sizes (n := n) e
    unfold Mad.Sized at h ⊢
    dsimp only
    omega
  cost := fun s H g h a b c => by
    unfold Mad.Sized at h ⊢
    dsimp only
    omega

end Tsid.Solver
