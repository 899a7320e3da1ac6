import Verif.Spec.Solver
import Verif.Lemmas.Block
import Mathlib.Tactic.Ring
import Mathlib.Tactic.Linarith
import Mathlib.Tactic.FieldSimp

/-!
# Lemmas on the assembly of the quadratic program
-/

set_option linter.unusedSectionVars false

namespace Tsid

open Finset Spec

variable {K : Type}

theorem Vec.setSeg_some {v b v' : Vec K} {i0 n : Nat} (h : v.setSeg i0 n b = some v') :
    b.size = n ∧ i0 + n ≤ v.size ∧
    v' = ⟨v.size, fun i => if i0 ≤ i ∧ i < i0 + n then b (i - i0) else v i⟩ := by
  unfold setSeg at h
  split at h
  · next hc => exact ⟨hc.1, hc.2, (Option.some.inj h).symm⟩
  · cases h

theorem Vec.setSeg_isSome {v b : Vec K} {i0 n : Nat} (h1 : b.size = n) (h2 : i0 + n ≤ v.size) :
    v.setSeg i0 n b = some ⟨v.size, fun i => if i0 ≤ i ∧ i < i0 + n then b (i - i0) else v i⟩ := by
  unfold setSeg
  rw [if_pos ⟨h1, h2⟩]

/-- A property of the indices below `i0 + n` splits. -/
theorem forall_append {p p' q : Nat → Prop} {i0 n : Nat} (h1 : ∀ i, i < i0 → (p' i ↔ p i))
    (h2 : ∀ i, i < n → (p' (i0 + i) ↔ q i)) :
    (∀ i, i < i0 + n → p' i) ↔ (∀ i, i < i0 → p i) ∧ ∀ i, i < n → q i := by
  constructor
  · intro h
    exact ⟨fun i hi => (h1 i hi).1 (h i (by omega)), fun i hi => (h2 i hi).1 (h (i0 + i) (by omega))⟩
  · rintro ⟨a, b⟩ i hi
    rcases Nat.lt_or_ge i i0 with h | h
    · exact (h1 i h).2 (a i h)
    · have e : i0 + (i - i0) = i := by omega
      rw [← e]
      exact (h2 _ (by omega)).2 (b _ (by omega))

variable [Field K]

theorem row_setRows_lt {A B A' : Mat K} {i0 n : Nat} (h : A.setRows i0 n B = some A') (x : Nat → K) {i : Nat}
    (hi : i < i0) : row A' x i = row A x i := by
  obtain ⟨_, h2, _, rfl⟩ := Mat.setRows_some h
  unfold row
  apply sum_congr rfl
  intro j _
  have : ¬ (i0 ≤ i ∧ i < i0 + n) := by omega
  simp only [if_neg this]

theorem row_setRows_ge {A B A' : Mat K} {i0 n : Nat} (h : A.setRows i0 n B = some A') (x : Nat → K) {i : Nat}
    (hi : i < n) : row A' x (i0 + i) = row B x i := by
  obtain ⟨_, h2, _, rfl⟩ := Mat.setRows_some h
  unfold row
  dsimp only
  rw [h2]
  apply sum_congr rfl
  intro j _
  have : i0 ≤ i0 + i ∧ i0 + i < i0 + n := by omega
  simp only [if_pos this, Nat.add_sub_cancel_left]

theorem setRows_rows {A B A' : Mat K} {i0 n : Nat} (h : A.setRows i0 n B = some A') :
    A'.rows = A.rows ∧ A'.cols = A.cols := by
  obtain ⟨_, _, _, rfl⟩ := Mat.setRows_some h
  exact ⟨rfl, rfl⟩

theorem setSeg_size {v b v' : Vec K} {i0 n : Nat} (h : v.setSeg i0 n b = some v') : v'.size = v.size := by
  obtain ⟨_, _, rfl⟩ := Vec.setSeg_some h
  rfl

theorem setSeg_lt {v b v' : Vec K} {i0 n : Nat} (h : v.setSeg i0 n b = some v') {i : Nat} (hi : i < i0) :
    v' i = v i := by
  obtain ⟨_, _, rfl⟩ := Vec.setSeg_some h
  have : ¬ (i0 ≤ i ∧ i < i0 + n) := by omega
  simp only [if_neg this]

theorem setSeg_ge {v b v' : Vec K} {i0 n : Nat} (h : v.setSeg i0 n b = some v') {i : Nat} (hi : i < n) :
    v' (i0 + i) = b i := by
  obtain ⟨_, _, rfl⟩ := Vec.setSeg_some h
  have : i0 ≤ i0 + i ∧ i0 + i < i0 + n := by omega
  simp only [if_pos this, Nat.add_sub_cancel_left]

theorem row_neg (A : Mat K) (x : Nat → K) (i : Nat) : row A.neg x i = - row A x i := by
  unfold row Mat.neg
  simp only [neg_mul, sum_neg_distrib]

theorem row_identityRows {r n i : Nat} (x : Nat → K) (hi : i < n) : row (Solver.identityRows (K := K) r n) x i = x i := by
  unfold row Solver.identityRows
  dsimp only
  rw [sum_eq_single i]
  · simp
  · intro b _ hb
    simp [hb.symm]
  · intro h
    exact absurd (mem_range.2 hi) h

namespace Solver

/-! ## The loop over level 0 -/

variable {R : Type}

/-- What the body of the loop must do for the loop to do its job: `Inv n r l` says that the data `r` has room for the
remaining constraints `l`, `Upto r x` that `x` satisfies the part already written. -/
structure Works [LE K] (B : Backend K R) (Inv : Nat → R → Level K → Prop) (Upto : R → (Nat → K) → Prop) : Prop where
  put : ∀ (n : Nat) (r : R) (w : K) (c : Constraint K) (l : Level K), WellFormed c → c.cols = n →
    Inv n r ((w, c) :: l) → ∃ r', B.put n r c = some r' ∧ Inv n r' l ∧ ∀ x, Upto r' x ↔ Upto r x ∧ Sat c x

theorem Works.putAll [LE K] {B : Backend K R} {Inv : Nat → R → Level K → Prop} {Upto : R → (Nat → K) → Prop}
    (hw : Works B Inv Upto) {n : Nat} : ∀ (l : Level K) (r : R), LevelOK n l → Inv n r l →
      ∃ r', Solver.putAll B n l r = some r' ∧ Inv n r' [] ∧ ∀ x, Upto r' x ↔ Upto r x ∧ Feasible l x := by
  intro l
  induction l with
  | nil =>
    intro r _ h
    exact ⟨r, rfl, h, fun x => by simp [Feasible]⟩
  | cons q l ih =>
    intro r hl h
    obtain ⟨w, c⟩ := q
    obtain ⟨hc1, hc2⟩ := hl (w, c) (by simp)
    obtain ⟨r1, e1, i1, u1⟩ := hw.put n r w c l hc1 hc2 h
    obtain ⟨r2, e2, i2, u2⟩ := ih r1 (fun q hq => hl q (by simp [hq])) i1
    refine ⟨r2, ?_, i2, fun x => ?_⟩
    · simp only [Solver.putAll, e1, e2]
    · rw [u2, u1]
      simp [Feasible, and_assoc]

/-! ## The cost -/

/-- The closed form of the cost loop. -/
theorem costLoop_ok : ∀ (l : Level K) (s s' : Mat K × Vec K) (u : Unit), costLoop l s = .ok s' u →
    s'.1.rows = s.1.rows ∧ s'.1.cols = s.1.cols ∧ s'.2.size = s.2.size ∧ AllEq l ∧
    (∀ q ∈ l, q.2.mat.cols = s.1.rows ∧ q.2.vec.size = q.2.mat.rows) := by
  intro l
  induction l with
  | nil =>
    intro s s' u h
    cases h
    exact ⟨rfl, rfl, rfl, by simp [AllEq], by simp⟩
  | cons q l ih =>
    intro s s' u h
    obtain ⟨w, c⟩ := q
    simp only [costLoop] at h
    split at h
    · cases h
    · next hk =>
      split at h
      · next hs =>
        obtain ⟨a, b, d, e, f⟩ := ih _ _ _ h
        refine ⟨a, b, d, ?_, ?_⟩
        · intro q hq
          rcases List.mem_cons.1 hq with rfl | hq
          · simpa using hk
          · exact e q hq
        · intro q hq
          rcases List.mem_cons.1 hq with rfl | hq
          · exact ⟨hs.1, hs.2.2.2⟩
          · exact f q hq
      · cases h

/-- The loop succeeds on equalities of the right size. -/
theorem costLoop_isOk {n : Nat} : ∀ (l : Level K) (s : Mat K × Vec K), AllEq l → LevelOK n l → s.1.rows = n →
    s.1.cols = n → s.2.size = n → ∃ s', costLoop l s = .ok s' () := by
  intro l
  induction l with
  | nil => intro s _ _ _ _ _; exact ⟨s, rfl⟩
  | cons q l ih =>
    intro s he hl h1 h2 h3
    obtain ⟨w, c⟩ := q
    have hk : c.kind = .equality := he (w, c) (by simp)
    obtain ⟨hc1, hc2⟩ := hl (w, c) (by simp)
    simp only [WellFormed, hk] at hc1
    simp only [Constraint.cols, hk] at hc2
    simp only [costLoop, hk, ne_eq, not_true_eq_false, if_false, hc2, h1, h2, h3, hc1, and_self, if_true]
    exact ih _ (fun q hq => he q (by simp [hq])) (fun q hq => hl q (by simp [hq])) rfl rfl rfl

theorem quad_add (x : Nat → K) (A B : Nat → Nat → K) (n : Nat) :
    ∑ i ∈ range n, x i * ∑ j ∈ range n, (A i j + B i j) * x j =
      ∑ i ∈ range n, x i * ∑ j ∈ range n, A i j * x j + ∑ i ∈ range n, x i * ∑ j ∈ range n, B i j * x j := by
  rw [← sum_add_distrib]
  apply sum_congr rfl
  intro i _
  rw [← mul_add, ← sum_add_distrib]
  congr 1
  apply sum_congr rfl
  intro j _
  ring

/-- `x' AᵀA x` is the squared norm of `A x`. -/
theorem quad_gram (x : Nat → K) (A : Nat → Nat → K) (w : K) (m n : Nat) :
    ∑ i ∈ range n, x i * ∑ j ∈ range n, (w * ∑ k ∈ range m, A k i * A k j) * x j =
      w * ∑ k ∈ range m, (∑ j ∈ range n, A k j * x j) * (∑ j ∈ range n, A k j * x j) := by
  have h1 : ∀ i, ∑ j ∈ range n, (w * ∑ k ∈ range m, A k i * A k j) * x j =
      w * ∑ k ∈ range m, A k i * ∑ j ∈ range n, A k j * x j := by
    intro i
    have : ∀ j, (w * ∑ k ∈ range m, A k i * A k j) * x j = w * ∑ k ∈ range m, A k i * (A k j * x j) := by
      intro j
      rw [mul_assoc, sum_mul]
      congr 1
      exact sum_congr rfl fun k _ => by ring
    simp only [this]
    rw [← mul_sum, sum_comm]
    congr 1
    exact sum_congr rfl fun k _ => by rw [mul_sum]
  simp only [h1]
  have h2 : ∀ i, x i * (w * ∑ k ∈ range m, A k i * ∑ j ∈ range n, A k j * x j) =
      w * ∑ k ∈ range m, A k i * x i * ∑ j ∈ range n, A k j * x j := by
    intro i
    rw [mul_left_comm, mul_sum]
    congr 1
    exact sum_congr rfl fun k _ => by ring
  simp only [h2]
  rw [← mul_sum, sum_comm]
  congr 1
  exact sum_congr rfl fun k _ => by rw [sum_mul]

theorem lin_gram (x b : Nat → K) (A : Nat → Nat → K) (w : K) (m n : Nat) :
    ∑ i ∈ range n, (w * ∑ k ∈ range m, A k i * b k) * x i =
      w * ∑ k ∈ range m, b k * ∑ j ∈ range n, A k j * x j := by
  have : ∀ i, (w * ∑ k ∈ range m, A k i * b k) * x i = w * ∑ k ∈ range m, b k * (A k i * x i) := by
    intro i
    rw [mul_assoc, sum_mul]
    congr 1
    exact sum_congr rfl fun k _ => by ring
  simp only [this]
  rw [← mul_sum, sum_comm]
  congr 1
  exact sum_congr rfl fun k _ => by rw [mul_sum]

variable [CharZero K]

/-- **The cost loop adds the least-squares cost.** -/
theorem costLoop_cost {n : Nat} : ∀ (l : Level K) (s s' : Mat K × Vec K) (u : Unit), costLoop l s = .ok s' u →
    s.1.rows = n → s.1.cols = n → s.2.size = n → ∀ x : Nat → K,
    qpCost s'.1 s'.2 x = qpCost s.1 s.2 x + lsqCost l x - dropped l := by
  intro l
  induction l with
  | nil =>
    intro s s' u h _ _ _ x
    cases h
    simp [lsqCost, dropped]
  | cons q l ih =>
    intro s s' u h h1 h2 h3 x
    obtain ⟨w, c⟩ := q
    simp only [costLoop] at h
    split at h
    · cases h
    · split at h
      · next hs =>
        rw [ih _ _ _ h h1 h2 h3 x]
        have hc : c.mat.cols = n := hs.1.trans h1
        have e : lsqCost ((w, c) :: l) x = 1 / 2 * (w * sqResidual c x) + lsqCost l x := by
          simp only [lsqCost, List.map_cons, List.sum_cons]; ring
        have e' : dropped ((w, c) :: l) = 1 / 2 * (w * sqResidual c fun _ => 0) + dropped l := by
          simp only [dropped, lsqCost, List.map_cons, List.sum_cons]; ring
        rw [e, e']
        have key : qpCost (⟨s.1.rows, s.1.cols, fun i j => s.1 i j + w * ∑ k ∈ range c.mat.rows, c.mat k i * c.mat k j⟩ : Mat K)
            (⟨s.2.size, fun i => s.2 i - w * ∑ k ∈ range c.mat.rows, c.mat k i * c.vec k⟩ : Vec K) x =
            qpCost s.1 s.2 x + 1 / 2 * (w * sqResidual c x) - 1 / 2 * (w * sqResidual c fun _ => 0) := by
          unfold qpCost row
          simp only [h1, h2, h3]
          rw [quad_add, quad_gram]
          have e3 : ∑ i ∈ range n, (s.2 i - w * ∑ k ∈ range c.mat.rows, c.mat k i * c.vec k) * x i =
              ∑ i ∈ range n, s.2 i * x i - ∑ i ∈ range n, (w * ∑ k ∈ range c.mat.rows, c.mat k i * c.vec k) * x i := by
            rw [← sum_sub_distrib]
            exact sum_congr rfl fun i _ => by ring
          rw [e3, lin_gram]
          have e4 : sqResidual c x = ∑ k ∈ range c.mat.rows, (∑ j ∈ range n, c.mat k j * x j) * (∑ j ∈ range n, c.mat k j * x j)
              - 2 * ∑ k ∈ range c.mat.rows, c.vec k * (∑ j ∈ range n, c.mat k j * x j)
              + ∑ k ∈ range c.mat.rows, c.vec k * c.vec k := by
            unfold sqResidual Spec.residual row
            rw [hc, mul_sum, ← sum_sub_distrib, ← sum_add_distrib]
            exact sum_congr rfl fun i _ => by ring
          have e5 : (sqResidual c fun _ => 0) = ∑ k ∈ range c.mat.rows, c.vec k * c.vec k := by
            unfold sqResidual Spec.residual row
            exact sum_congr rfl fun i _ => by simp
          rw [e4, e5]
          ring
        rw [key]
        ring
      · cases h

theorem qpCost_zero (n : Nat) (x : Nat → K) : qpCost (Mat.zero n n) (Vec.zero n) x = 0 := by
  simp [qpCost, row, Mat.zero, Vec.zero]

theorem qpCost_regularise (b : Bool) {H : Mat K} (g : Vec K) (h : H.cols = H.rows) (x : Nat → K) :
    qpCost (regularise b H) g x = qpCost H g x + if b then 1 / 2 * (defaultReg * sqNorm H.rows x) else 0 := by
  cases b
  · simp [regularise]
  · unfold qpCost row regularise
    simp only [if_true, h]
    rw [quad_add]
    have : ∑ i ∈ range H.rows, x i * ∑ j ∈ range H.rows, (if i = j then defaultReg else 0) * x j =
        defaultReg * sqNorm H.rows x := by
      unfold sqNorm
      rw [mul_sum]
      apply sum_congr rfl
      intro i hi
      rw [sum_eq_single i]
      · simp; ring
      · intro j _ hj; simp [hj.symm]
      · intro h; exact absurd hi h
    rw [this]
    ring

/-! ## eiquadprog -/

section
variable [LinearOrder K] [IsStrictOrderedRing K]

/-- The data has exactly the room that the remaining constraints need. -/
def Eiq.Inv (n : Nat) (r : EiqRows K) (l : Level K) : Prop :=
  r.CE.cols = n ∧ r.CI.cols = n ∧ r.CE.rows = r.iEq + (count l).1 ∧ r.ce0.size = r.CE.rows ∧
  r.CI.rows = r.iIn + 2 * (count l).2 ∧ r.ci0.size = r.CI.rows

/-- The rows already written are satisfied. -/
def Eiq.Upto (r : EiqRows K) (x : Nat → K) : Prop :=
  (∀ i, i < r.iEq → row r.CE x i + r.ce0 i = 0) ∧ ∀ i, i < r.iIn → 0 ≤ row r.CI x i + r.ci0 i

theorem Eiq.putPair_spec {n : Nat} {r : EiqRows K} {l : Level K} {k : Nat} {A A' : Mat K} {lb ub : Vec K}
    (h1 : r.CE.cols = n) (h2 : r.CI.cols = n) (h3 : r.CE.rows = r.iEq + (count l).1) (h4 : r.ce0.size = r.CE.rows)
    (h5 : r.CI.rows = r.iIn + 2 * ((count l).2 + k)) (h6 : r.ci0.size = r.CI.rows) (hA : A.rows = k) (hAc : A.cols = n)
    (hA' : A'.rows = k) (hAc' : A'.cols = n) (hl : lb.size = k) (hu : ub.size = k)
    (hn : ∀ x i, i < k → row A' x i = - row A x i) :
    ∃ r', Eiq.putPair r k A A' lb ub = some r' ∧ Eiq.Inv n r' l ∧
      ∀ x, Eiq.Upto r' x ↔ Eiq.Upto r x ∧ ∀ i, i < k → lb i ≤ row A x i ∧ row A x i ≤ ub i := by
  have e1 := Mat.setRows_isSome (A := r.CI) (B := A) (j0 := r.iIn) (n := k) hA (by omega) (by omega)
  have e2 := Vec.setSeg_isSome (v := r.ci0) (b := lb.neg) (i0 := r.iIn) (n := k) hl (by omega)
  generalize hm1 : (⟨r.CI.rows, r.CI.cols, fun i j => if r.iIn ≤ i ∧ i < r.iIn + k then A (i - r.iIn) j else r.CI i j⟩ : Mat K)
    = M1 at e1
  generalize hv1 : (⟨r.ci0.size, fun i => if r.iIn ≤ i ∧ i < r.iIn + k then lb.neg (i - r.iIn) else r.ci0 i⟩ : Vec K)
    = v1 at e2
  obtain ⟨m1, m2⟩ := setRows_rows e1
  have m3 := setSeg_size e2
  have e3 := Mat.setRows_isSome (A := M1) (B := A') (j0 := r.iIn + k) (n := k) hA' (by omega) (by omega)
  have e4 := Vec.setSeg_isSome (v := v1) (b := ub) (i0 := r.iIn + k) (n := k) hu (by omega)
  generalize (⟨M1.rows, M1.cols, fun i j => if r.iIn + k ≤ i ∧ i < r.iIn + k + k then A' (i - (r.iIn + k)) j else M1 i j⟩ : Mat K)
    = M2 at e3
  generalize (⟨v1.size, fun i => if r.iIn + k ≤ i ∧ i < r.iIn + k + k then ub (i - (r.iIn + k)) else v1 i⟩ : Vec K)
    = v2 at e4
  obtain ⟨m4, m5⟩ := setRows_rows e3
  have m6 := setSeg_size e4
  refine ⟨{ r with CI := M2, ci0 := v2, iIn := r.iIn + k + k }, ?_, ?_, ?_⟩
  · simp only [Eiq.putPair, e1, e2, e3, e4]
  · refine ⟨h1, ?_, h3, h4, ?_, ?_⟩ <;> dsimp only <;> omega
  · intro x
    unfold Eiq.Upto
    dsimp only
    rw [forall_append (p := fun i => 0 ≤ row M1 x i + v1 i) (q := fun i => 0 ≤ - row A x i + ub i),
      forall_append (p := fun i => 0 ≤ row r.CI x i + r.ci0 i) (q := fun i => 0 ≤ row A x i - lb i)]
    · constructor
      · rintro ⟨a, ⟨b, c⟩, d⟩
        exact ⟨⟨a, b⟩, fun i hi => ⟨by linarith [c i hi], by linarith [d i hi]⟩⟩
      · rintro ⟨⟨a, b⟩, c⟩
        exact ⟨a, ⟨b, fun i hi => by linarith [(c i hi).1]⟩, fun i hi => by linarith [(c i hi).2]⟩
    · intro i hi
      rw [row_setRows_lt e1 x hi, setSeg_lt e2 hi]
    · intro i hi
      rw [row_setRows_ge e1 x hi, setSeg_ge e2 hi, sub_eq_add_neg]
      rfl
    · intro i hi
      rw [row_setRows_lt e3 x hi, setSeg_lt e4 hi]
    · intro i hi
      rw [row_setRows_ge e3 x hi, setSeg_ge e4 hi, hn x i hi]

theorem Eiq.works : Works (eiq (K := K)) Eiq.Inv Eiq.Upto where
  put := by
    intro n r w c l hw hc ⟨h1, h2, h3, h4, h5, h6⟩
    show ∃ r', Eiq.put n r c = some r' ∧ _
    cases hk : c.kind with
    | equality =>
      simp only [WellFormed, hk] at hw
      simp only [Constraint.cols, hk] at hc
      have hr : c.rows = c.mat.rows := by simp [Constraint.rows, hk]
      simp only [count, hk, if_true] at h3 h5
      have e1 := Mat.setRows_isSome (A := r.CE) (B := c.mat) (j0 := r.iEq) (n := c.rows) hr.symm (by omega) (by omega)
      have e2 := Vec.setSeg_isSome (v := r.ce0) (b := c.vec.neg) (i0 := r.iEq) (n := c.rows)
        (show c.vec.size = c.rows by omega) (by omega)
      generalize (⟨r.CE.rows, r.CE.cols, fun i j => if r.iEq ≤ i ∧ i < r.iEq + c.rows then c.mat (i - r.iEq) j else r.CE i j⟩ : Mat K)
        = M at e1
      generalize (⟨r.ce0.size, fun i => if r.iEq ≤ i ∧ i < r.iEq + c.rows then c.vec.neg (i - r.iEq) else r.ce0 i⟩ : Vec K)
        = v at e2
      obtain ⟨m1, m2⟩ := setRows_rows e1
      have m3 := setSeg_size e2
      refine ⟨{ r with CE := M, ce0 := v, iEq := r.iEq + c.rows }, ?_, ?_, ?_⟩
      · simp only [Eiq.put, hk, e1, e2]
      · refine ⟨?_, h2, ?_, ?_, h5, h6⟩ <;> dsimp only <;> omega
      · intro x
        unfold Eiq.Upto
        dsimp only
        rw [forall_append (p := fun i => row r.CE x i + r.ce0 i = 0) (q := fun i => row c.mat x i = c.vec i)]
        · simp only [Sat, hk, hr]
          tauto
        · intro i hi
          rw [row_setRows_lt e1 x hi, setSeg_lt e2 hi]
        · intro i hi
          rw [row_setRows_ge e1 x hi, setSeg_ge e2 hi]
          show _ + - c.vec i = 0 ↔ _
          exact add_neg_eq_zero
    | inequality =>
      simp only [WellFormed, hk] at hw
      simp only [Constraint.cols, hk] at hc
      have hr : c.rows = c.mat.rows := by simp [Constraint.rows, hk]
      simp only [count, hk, reduceCtorEq, if_false] at h3 h5
      obtain ⟨r', a, b, d⟩ := Eiq.putPair_spec (l := l) (k := c.rows) (A := c.mat) (A' := c.mat.neg) (lb := c.lb)
        (ub := c.ub) h1 h2 h3 h4 h5 h6 hr.symm hc hr.symm hc (by omega) (by omega) (fun x i _ => row_neg _ x i)
      refine ⟨r', ?_, b, ?_⟩
      · simp only [Eiq.put, hk, a]
      · intro x; rw [d]; simp only [Sat, hk, hr]
    | bound =>
      simp only [WellFormed, hk] at hw
      simp only [Constraint.cols, hk] at hc
      have hr : c.rows = c.lb.size := by simp [Constraint.rows, hk]
      simp only [count, hk, reduceCtorEq, if_false] at h3 h5
      have hid : ∀ (x : Nat → K) i, i < c.rows → row (identityRows (K := K) c.rows r.CI.cols) x i = x i :=
        fun x i hi => row_identityRows x (by omega)
      obtain ⟨r', a, b, d⟩ := Eiq.putPair_spec (l := l) (k := c.rows) (A := identityRows c.rows r.CI.cols)
        (A' := (Mat.identity n).neg) (lb := c.lb)
        (ub := c.ub) h1 h2 h3 h4 h5 h6 rfl h2 (show n = c.rows by omega) rfl (by omega) (by omega) (by
          intro x i hi
          rw [row_neg, hid x i hi]
          exact congrArg _ (row_identityRows (r := n) x (by omega)))
      refine ⟨r', ?_, b, ?_⟩
      · simp only [Eiq.put, hk, a]
      · intro x
        rw [d]
        simp only [Sat, hk, hr]
        rw [← hr]
        constructor
        · rintro ⟨u, v⟩
          exact ⟨u, fun i hi => by have := v i hi; rwa [hid x i hi] at this⟩
        · rintro ⟨u, v⟩
          exact ⟨u, fun i hi => by rw [hid x i hi]; exact v i hi⟩

/-! ## Two-sided rows -/

/-- Writing a block of two-sided rows behind those already written. -/
theorem pair_spec {M A M' : Mat K} {lo up a b lo' up' : Vec K} {i0 k : Nat} (e1 : M.setRows i0 k A = some M')
    (e2 : lo.setSeg i0 k a = some lo') (e3 : up.setSeg i0 k b = some up') (x : Nat → K) :
    (∀ i, i < i0 + k → lo' i ≤ row M' x i ∧ row M' x i ≤ up' i) ↔
      (∀ i, i < i0 → lo i ≤ row M x i ∧ row M x i ≤ up i) ∧ ∀ i, i < k → a i ≤ row A x i ∧ row A x i ≤ b i := by
  refine forall_append (q := fun i => a i ≤ row A x i ∧ row A x i ≤ b i) (fun i hi => ?_) (fun i hi => ?_)
  · rw [row_setRows_lt e1 x hi, setSeg_lt e2 hi, setSeg_lt e3 hi]
  · rw [row_setRows_ge e1 x hi, setSeg_ge e2 hi, setSeg_ge e3 hi]

/-- Writing a block of equality rows behind those already written. -/
theorem eq_spec {M A M' : Mat K} {v a v' : Vec K} {i0 k : Nat} (e1 : M.setRows i0 k A = some M')
    (e2 : v.setSeg i0 k a = some v') (x : Nat → K) :
    (∀ i, i < i0 + k → row M' x i = v' i) ↔ (∀ i, i < i0 → row M x i = v i) ∧ ∀ i, i < k → row A x i = a i := by
  refine forall_append (q := fun i => row A x i = a i) (fun i hi => ?_) (fun i hi => ?_)
  · rw [row_setRows_lt e1 x hi, setSeg_lt e2 hi]
  · rw [row_setRows_ge e1 x hi, setSeg_ge e2 hi]

/-! ## ProxQP -/

def Prox.Inv (n : Nat) (r : ProxRows K) (l : Level K) : Prop :=
  r.CE.cols = n ∧ r.CI.cols = n ∧ r.CE.rows = r.iEq + (count l).1 ∧ r.ce0.size = r.CE.rows ∧
  r.CI.rows = r.iIn + (count l).2 ∧ r.lb.size = r.CI.rows ∧ r.ub.size = r.CI.rows

def Prox.Upto (r : ProxRows K) (x : Nat → K) : Prop :=
  (∀ i, i < r.iEq → row r.CE x i = r.ce0 i) ∧
    ∀ i, i < r.iIn → r.lb i ≤ row r.CI x i ∧ row r.CI x i ≤ r.ub i

theorem Prox.putPair_spec {n : Nat} {r : ProxRows K} {l : Level K} {k : Nat} {A : Mat K} {lb ub : Vec K}
    (h1 : r.CE.cols = n) (h2 : r.CI.cols = n) (h3 : r.CE.rows = r.iEq + (count l).1) (h4 : r.ce0.size = r.CE.rows)
    (h5 : r.CI.rows = r.iIn + ((count l).2 + k)) (h6 : r.lb.size = r.CI.rows) (h7 : r.ub.size = r.CI.rows)
    (hA : A.rows = k) (hAc : A.cols = n) (hl : lb.size = k) (hu : ub.size = k) :
    ∃ r', Prox.putPair r k A lb ub = some r' ∧ Prox.Inv n r' l ∧
      ∀ x, Prox.Upto r' x ↔ Prox.Upto r x ∧ ∀ i, i < k → lb i ≤ row A x i ∧ row A x i ≤ ub i := by
  have e1 := Mat.setRows_isSome (A := r.CI) (B := A) (j0 := r.iIn) (n := k) hA (by omega) (by omega)
  have e2 := Vec.setSeg_isSome (v := r.lb) (b := lb) (i0 := r.iIn) (n := k) hl (by omega)
  have e3 := Vec.setSeg_isSome (v := r.ub) (b := ub) (i0 := r.iIn) (n := k) hu (by omega)
  refine ⟨_, by simp only [Prox.putPair, e1, e2, e3]; rfl, ?_, ?_⟩
  · refine ⟨h1, ?_, h3, h4, ?_, ?_, ?_⟩ <;> dsimp only <;> omega
  · intro x
    have := pair_spec e1 e2 e3 x
    unfold Prox.Upto
    dsimp only at this ⊢
    rw [this]
    tauto

theorem Prox.works : Works (prox (K := K)) Prox.Inv Prox.Upto where
  put := by
    intro n r w c l hw hc ⟨h1, h2, h3, h4, h5, h6, h7⟩
    show ∃ r', Prox.put n r c = some r' ∧ _
    cases hk : c.kind with
    | equality =>
      simp only [WellFormed, hk] at hw
      simp only [Constraint.cols, hk] at hc
      have hr : c.rows = c.mat.rows := by simp [Constraint.rows, hk]
      simp only [count, hk, if_true] at h3 h5
      have e1 := Mat.setRows_isSome (A := r.CE) (B := c.mat) (j0 := r.iEq) (n := c.rows) hr.symm (by omega) (by omega)
      have e2 := Vec.setSeg_isSome (v := r.ce0) (b := c.vec) (i0 := r.iEq) (n := c.rows) (by omega) (by omega)
      refine ⟨_, by simp only [Prox.put, hk, e1, e2]; rfl, ?_, ?_⟩
      · refine ⟨?_, h2, ?_, ?_, h5, h6, h7⟩ <;> dsimp only <;> omega
      · intro x
        unfold Prox.Upto
        have := eq_spec e1 e2 x
        dsimp only at this ⊢
        rw [this]
        simp only [Sat, hk, hr]
        tauto
    | inequality =>
      simp only [WellFormed, hk] at hw
      simp only [Constraint.cols, hk] at hc
      have hr : c.rows = c.mat.rows := by simp [Constraint.rows, hk]
      simp only [count, hk, reduceCtorEq, if_false] at h3 h5
      obtain ⟨r', a, b, d⟩ := Prox.putPair_spec (l := l) (k := c.rows) (A := c.mat) (lb := c.lb)
        (ub := c.ub) h1 h2 h3 h4 h5 h6 h7 hr.symm hc (by omega) (by omega)
      refine ⟨r', ?_, b, ?_⟩
      · simp only [Prox.put, hk, a]
      · intro x; rw [d]; simp only [Sat, hk, hr]
    | bound =>
      simp only [WellFormed, hk] at hw
      simp only [Constraint.cols, hk] at hc
      have hr : c.rows = c.lb.size := by simp [Constraint.rows, hk]
      simp only [count, hk, reduceCtorEq, if_false] at h3 h5
      have hid : ∀ (x : Nat → K) i, i < c.rows → row (identityRows (K := K) c.rows r.CI.cols) x i = x i :=
        fun x i hi => row_identityRows x (by omega)
      obtain ⟨r', a, b, d⟩ := Prox.putPair_spec (l := l) (k := c.rows) (A := identityRows c.rows r.CI.cols) (lb := c.lb)
        (ub := c.ub) h1 h2 h3 h4 h5 h6 h7 rfl h2 (by omega) (by omega)
      refine ⟨r', ?_, b, ?_⟩
      · simp only [Prox.put, hk, a]
      · intro x
        rw [d]
        simp only [Sat, hk]
        rw [← hr]
        constructor
        · rintro ⟨u, v⟩
          exact ⟨u, fun i hi => by have := v i hi; rwa [hid x i hi] at this⟩
        · rintro ⟨u, v⟩
          exact ⟨u, fun i hi => by rw [hid x i hi]; exact v i hi⟩

/-! ## OSQP -/

def Osqp.Inv (n : Nat) (r : OsqpRows K) (l : Level K) : Prop :=
  r.CI.cols = n ∧ r.CI.rows = r.iIn + ((count l).2 + (count l).1) ∧ r.lb.size = r.CI.rows ∧ r.ub.size = r.CI.rows

def Osqp.Upto (r : OsqpRows K) (x : Nat → K) : Prop :=
  ∀ i, i < r.iIn → r.lb i ≤ row r.CI x i ∧ row r.CI x i ≤ r.ub i

theorem Osqp.putPair_spec {n : Nat} {r : OsqpRows K} {l : Level K} {k : Nat} {A : Mat K} {lb ub : Vec K}
    (h2 : r.CI.cols = n) (h5 : r.CI.rows = r.iIn + ((count l).2 + (count l).1 + k)) (h6 : r.lb.size = r.CI.rows)
    (h7 : r.ub.size = r.CI.rows) (hA : A.rows = k) (hAc : A.cols = n) (hl : lb.size = k) (hu : ub.size = k) :
    ∃ r', Osqp.putPair r k A lb ub = some r' ∧ Osqp.Inv n r' l ∧
      ∀ x, Osqp.Upto r' x ↔ Osqp.Upto r x ∧ ∀ i, i < k → lb i ≤ row A x i ∧ row A x i ≤ ub i := by
  have e1 := Mat.setRows_isSome (A := r.CI) (B := A) (j0 := r.iIn) (n := k) hA (by omega) (by omega)
  have e2 := Vec.setSeg_isSome (v := r.lb) (b := lb) (i0 := r.iIn) (n := k) hl (by omega)
  have e3 := Vec.setSeg_isSome (v := r.ub) (b := ub) (i0 := r.iIn) (n := k) hu (by omega)
  refine ⟨_, by simp only [Osqp.putPair, e1, e2, e3]; rfl, ?_, ?_⟩
  · refine ⟨?_, ?_, ?_, ?_⟩ <;> dsimp only <;> omega
  · intro x
    have := pair_spec e1 e2 e3 x
    unfold Osqp.Upto
    dsimp only at this ⊢
    rw [this]

theorem Osqp.works : Works (osqp (K := K)) Osqp.Inv Osqp.Upto where
  put := by
    intro n r w c l hw hc ⟨h2, h5, h6, h7⟩
    show ∃ r', Osqp.put n r c = some r' ∧ _
    cases hk : c.kind with
    | equality =>
      simp only [WellFormed, hk] at hw
      simp only [Constraint.cols, hk] at hc
      have hr : c.rows = c.mat.rows := by simp [Constraint.rows, hk]
      simp only [count, hk, if_true] at h5
      obtain ⟨r', a, b, d⟩ := Osqp.putPair_spec (l := l) (k := c.rows) (A := c.mat) (lb := c.vec)
        (ub := c.vec) h2 (by omega) h6 h7 hr.symm hc (by omega) (by omega)
      refine ⟨r', ?_, b, ?_⟩
      · simp only [Osqp.put, hk, a]
      · intro x; rw [d]; simp only [Sat, hk, hr]
        refine and_congr_right fun _ => forall_congr' fun i => forall_congr' fun _ => ?_
        exact ⟨fun h => le_antisymm h.2 h.1, fun h => ⟨h.ge, h.le⟩⟩
    | inequality =>
      simp only [WellFormed, hk] at hw
      simp only [Constraint.cols, hk] at hc
      have hr : c.rows = c.mat.rows := by simp [Constraint.rows, hk]
      simp only [count, hk, reduceCtorEq, if_false] at h5
      obtain ⟨r', a, b, d⟩ := Osqp.putPair_spec (l := l) (k := c.rows) (A := c.mat) (lb := c.lb)
        (ub := c.ub) h2 (by omega) h6 h7 hr.symm hc (by omega) (by omega)
      refine ⟨r', ?_, b, ?_⟩
      · simp only [Osqp.put, hk, a]
      · intro x; rw [d]; simp only [Sat, hk, hr]
    | bound =>
      simp only [WellFormed, hk] at hw
      simp only [Constraint.cols, hk] at hc
      have hr : c.rows = c.lb.size := by simp [Constraint.rows, hk]
      simp only [count, hk, reduceCtorEq, if_false] at h5
      have hid : ∀ (x : Nat → K) i, i < c.rows → row (identityRows (K := K) c.rows r.CI.cols) x i = x i :=
        fun x i hi => row_identityRows x (by omega)
      obtain ⟨r', a, b, d⟩ := Osqp.putPair_spec (l := l) (k := c.rows) (A := identityRows c.rows r.CI.cols) (lb := c.lb)
        (ub := c.ub) h2 (by omega) h6 h7 rfl h2 (by omega) (by omega)
      refine ⟨r', ?_, b, ?_⟩
      · simp only [Osqp.put, hk, a]
      · intro x
        rw [d]
        simp only [Sat, hk]
        rw [← hr]
        constructor
        · rintro ⟨u, v⟩
          exact ⟨u, fun i hi => by have := v i hi; rwa [hid x i hi] at this⟩
        · rintro ⟨u, v⟩
          exact ⟨u, fun i hi => by rw [hid x i hi]; exact v i hi⟩

/-! ## qpmad -/

def Mad.Inv (n : Nat) (r : MadRows K) (l : Level K) : Prop :=
  r.C.cols = n ∧ r.C.rows = r.i + ((Mad.count l).1 + (Mad.count l).2) ∧ r.cl.size = r.C.rows ∧
  r.cu.size = r.C.rows ∧ (hasBound l → r.hasBounds = true) ∧ (r.hasBounds = true → r.lb.size = n ∧ r.ub.size = n)

def Mad.Upto (r : MadRows K) (x : Nat → K) : Prop :=
  (∀ i, i < r.i → r.cl i ≤ row r.C x i ∧ row r.C x i ≤ r.cu i) ∧
    (r.hasBounds = true → ∀ i, i < r.lb.size → r.lb i ≤ x i ∧ x i ≤ r.ub i)

theorem Mad.putPair_spec {n : Nat} {r : MadRows K} {l : Level K} {k : Nat} {A : Mat K} {lb ub : Vec K}
    (h2 : r.C.cols = n) (h5 : r.C.rows = r.i + ((Mad.count l).1 + (Mad.count l).2 + k)) (h6 : r.cl.size = r.C.rows)
    (h7 : r.cu.size = r.C.rows) (h8 : hasBound l → r.hasBounds = true)
    (h9 : r.hasBounds = true → r.lb.size = n ∧ r.ub.size = n)
    (hA : A.rows = k) (hAc : A.cols = n) (hl : lb.size = k) (hu : ub.size = k) :
    ∃ r', Mad.putPair r k A lb ub = some r' ∧ Mad.Inv n r' l ∧
      ∀ x, Mad.Upto r' x ↔ Mad.Upto r x ∧ ∀ i, i < k → lb i ≤ row A x i ∧ row A x i ≤ ub i := by
  have e1 := Mat.setRows_isSome (A := r.C) (B := A) (j0 := r.i) (n := k) hA (by omega) (by omega)
  have e2 := Vec.setSeg_isSome (v := r.cl) (b := lb) (i0 := r.i) (n := k) hl (by omega)
  have e3 := Vec.setSeg_isSome (v := r.cu) (b := ub) (i0 := r.i) (n := k) hu (by omega)
  refine ⟨_, by simp only [Mad.putPair, e1, e2, e3]; rfl, ?_, ?_⟩
  · refine ⟨?_, ?_, ?_, ?_, h8, h9⟩ <;> dsimp only <;> omega
  · intro x
    have := pair_spec e1 e2 e3 x
    unfold Mad.Upto
    dsimp only at this ⊢
    rw [this]
    tauto

theorem Mad.works : Works (mad (K := K)) Mad.Inv Mad.Upto where
  put := by
    intro n r w c l hw hc ⟨h2, h5, h6, h7, h8, h9⟩
    show ∃ r', Mad.put n r c = some r' ∧ _
    have h8' : hasBound l → r.hasBounds = true := fun ⟨q, hq, e⟩ => h8 ⟨q, by simp [hq], e⟩
    cases hk : c.kind with
    | equality =>
      simp only [WellFormed, hk] at hw
      simp only [Constraint.cols, hk] at hc
      have hr : c.rows = c.mat.rows := by simp [Constraint.rows, hk]
      simp only [Mad.count, hk] at h5
      obtain ⟨r', a, b, d⟩ := Mad.putPair_spec (l := l) (k := c.rows) (A := c.mat) (lb := c.vec)
        (ub := c.vec) h2 (by omega) h6 h7 h8' h9 hr.symm hc (by omega) (by omega)
      refine ⟨r', ?_, b, ?_⟩
      · simp only [Mad.put, hk, a]
      · intro x; rw [d]; simp only [Sat, hk, hr]
        refine and_congr_right fun _ => forall_congr' fun i => forall_congr' fun _ => ?_
        exact ⟨fun h => le_antisymm h.2 h.1, fun h => ⟨h.ge, h.le⟩⟩
    | inequality =>
      simp only [WellFormed, hk] at hw
      simp only [Constraint.cols, hk] at hc
      have hr : c.rows = c.mat.rows := by simp [Constraint.rows, hk]
      simp only [Mad.count, hk] at h5
      obtain ⟨r', a, b, d⟩ := Mad.putPair_spec (l := l) (k := c.rows) (A := c.mat) (lb := c.lb)
        (ub := c.ub) h2 (by omega) h6 h7 h8' h9 hr.symm hc (by omega) (by omega)
      refine ⟨r', ?_, b, ?_⟩
      · simp only [Mad.put, hk, a]
      · intro x; rw [d]; simp only [Sat, hk, hr]
    | bound =>
      simp only [WellFormed, hk] at hw
      simp only [Constraint.cols, hk] at hc
      simp only [Mad.count, hk] at h5
      have hb : r.hasBounds = true := h8 ⟨(w, c), by simp, hk⟩
      obtain ⟨s1, s2⟩ := h9 hb
      have hs : r.lb.size = c.lb.size ∧ r.ub.size = c.ub.size := by omega
      refine ⟨_, by simp only [Mad.put, hk, if_pos hs]; rfl, ?_, ?_⟩
      · exact ⟨h2, h5, h6, h7, h8', h9⟩
      · intro x
        unfold Mad.Upto
        simp only [Sat, hk, hb, true_implies, sup_le_iff, le_inf_iff]
        rw [← hs.1]
        constructor
        · rintro ⟨a, b⟩
          exact ⟨⟨a, fun i hi => ⟨(b i hi).1.1, (b i hi).2.1⟩⟩, fun i hi => ⟨(b i hi).1.2, (b i hi).2.2⟩⟩
        · rintro ⟨⟨a, b⟩, d⟩
          exact ⟨a, fun i hi => ⟨⟨(b i hi).1, (d i hi).1⟩, (b i hi).2, (d i hi).2⟩⟩

end

end Solver

end Tsid
