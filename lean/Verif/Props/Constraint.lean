import Mathlib.Tactic.NormNum
import Verif.Spec.Constraint
import Verif.Model.Mask

/-!
# C63, C64: constraint objects
-/

set_option linter.unusedSectionVars false

namespace Tsid.Props

open Spec Finset

variable {K : Type}

/-! ## C64 -/

/-- The modifications C64 is about. -/
inductive ConOp (K : Type) where
  | setMatrix (A : Mat K)
  | resize (r c : Nat)

/-- One modification. -/
def ConOp.apply [Zero K] [One K] (s : Constraint K) : ConOp K → Res (Constraint K) Unit
  | .setMatrix A =>
    match s.setMatrix A with
    | .ok s' _ => .ok s' ()
    | .throw s' => .throw s'
    | .abort => .abort
    | .ub => .ub
  | .resize r c => s.resize r c

/-- The object was built by one of the constructors that give sizes. -/
def Built [Zero K] [One K] (s : Constraint K) : Prop :=
  (∃ n r c, s = Constraint.mkEq n r c) ∨ (∃ n r c, s = Constraint.mkIneq n r c) ∨ (∃ n k, s = Constraint.mkBound n k) ∨
  (∃ n A b, Constraint.newEq n A b = some s) ∨ (∃ n A l u, Constraint.newIneq n A l u = some s) ∨
  (∃ n l u, Constraint.newBound n l u = some s)

/-- **C64, constructors.** Constructors throw exactly on a size mismatch, and what they build is well formed. -/
theorem C64_constructors [Zero K] [One K] :
    (∀ (n : String) (A : Mat K) (b : Vec K), (Constraint.newEq n A b).isSome ↔ A.rows = b.size) ∧
    (∀ (n : String) (A : Mat K) (l u : Vec K),
      (Constraint.newIneq n A l u).isSome ↔ A.rows = l.size ∧ A.rows = u.size) ∧
    (∀ (n : String) (l u : Vec K), (Constraint.newBound n l u).isSome ↔ l.size = u.size) ∧
    ∀ s : Constraint K, Built s → WellFormed s := by
  refine ⟨?_, ?_, ?_, ?_⟩
  · intro n A b; unfold Constraint.newEq; split <;> simp_all
  · intro n A l u; unfold Constraint.newIneq; split_ifs <;> simp_all
  · intro n l u; unfold Constraint.newBound; split <;> simp_all
  · rintro s (⟨n, r, c, rfl⟩ | ⟨n, r, c, rfl⟩ | ⟨n, k, rfl⟩ | ⟨n, A, b, h⟩ | ⟨n, A, l, u, h⟩ | ⟨n, l, u, h⟩)
    · rfl
    · exact ⟨rfl, rfl⟩
    · exact ⟨rfl, rfl, rfl⟩
    · unfold Constraint.newEq at h
      split at h <;> cases h
      next h => exact h.symm
    · unfold Constraint.newIneq at h
      split_ifs at h with h1 h2
      cases h
      exact ⟨h1.symm, h2.symm⟩
    · unfold Constraint.newBound at h
      split at h <;> cases h
      next h => exact ⟨h, rfl, rfl⟩

theorem wellFormed_apply [Zero K] [One K] {s s' : Constraint K} {o : ConOp K} (h : WellFormed s)
    (ho : (o.apply s).state? = some s') : WellFormed s' := by
  cases o with
  | setMatrix A =>
    simp only [ConOp.apply, Constraint.setMatrix] at ho
    by_cases h1 : s.mat.cols = A.cols
    · by_cases h2 : s.mat.rows = A.rows
      · rw [if_pos h1, if_pos h2] at ho
        cases ho
        unfold WellFormed at h ⊢
        simp only
        cases hk : s.kind <;> rw [hk] at h <;> simp only at h ⊢
        · rw [← h2]; exact h
        · rw [← h2]; exact h
        · rw [← h2, ← h1]; exact h
      · rw [if_pos h1, if_neg h2] at ho; cases ho; exact h
    · rw [if_neg h1] at ho; cases ho; exact h
  | resize r c =>
    simp only [ConOp.apply, Constraint.resize] at ho
    cases hk : s.kind <;> rw [hk] at ho <;> simp only at ho
    · cases ho; simp [WellFormed, hk, Vec.zero, Mat.zero]
    · cases ho; simp [WellFormed, hk, Vec.zero, Mat.zero]
    · split at ho <;> cases ho
      · simp [WellFormed, hk, Vec.zero, Mat.identity]
      · exact h

/-- **C64.** Every constraint built by a non-throwing constructor and modified by any history of `setMatrix` and
`resize` (exceptions being caught) is well formed: bounds and right-hand sides have as many entries as the matrix has
rows; no such history ends the program. -/
theorem C64_histories [Zero K] [One K] {s0 : Constraint K} (h0 : Built s0) (os : List (ConOp K)) :
    ∃ s, runOps ConOp.apply s0 os = some s ∧ WellFormed s ∧ s.kind = s0.kind := by
  have h := (C64_constructors (K := K)).2.2.2 s0 h0
  clear h0
  induction os generalizing s0 with
  | nil => exact ⟨s0, rfl, h, rfl⟩
  | cons o os ih =>
    have hex : ∃ s1, (o.apply s0).state? = some s1 ∧ s1.kind = s0.kind := by
      cases o with
      | setMatrix A => simp only [ConOp.apply, Constraint.setMatrix]; split_ifs <;> exact ⟨_, rfl, rfl⟩
      | resize r c =>
        simp only [ConOp.apply, Constraint.resize]
        cases hk : s0.kind <;> simp only
        · exact ⟨_, rfl, rfl⟩
        · exact ⟨_, rfl, rfl⟩
        · split
          · exact ⟨_, rfl, rfl⟩
          · exact ⟨_, rfl, hk⟩
    obtain ⟨s1, h1, h2⟩ := hex
    obtain ⟨s, h3, h4, h5⟩ := ih (wellFormed_apply h h1)
    exact ⟨s, by rw [runOps, h1]; exact h3, h4, h5.trans h2⟩

/-- **C64, setMatrix.** It throws exactly on a size mismatch, changing nothing, and otherwise replaces the matrix. -/
theorem C64_setMatrix [Zero K] [One K] (s : Constraint K) (A : Mat K) :
    s.setMatrix A = if s.mat.rows = A.rows ∧ s.mat.cols = A.cols then .ok { s with mat := A } true else .throw s := by
  unfold Constraint.setMatrix
  by_cases h1 : s.mat.cols = A.cols <;> by_cases h2 : s.mat.rows = A.rows <;> simp [h1, h2]

/-- A history with accepted and rejected modifications. -/
example : (runOps ConOp.apply (Constraint.mkBound (K := ℚ) "b" 2)
    [.resize 2 3, .resize 3 3, .setMatrix (Mat.zero 2 2)]).map
      (fun s => (s.mat.toLists, s.lb.toList, s.ub.toList)) =
    some ([[1, 0, 0], [0, 1, 0], [0, 0, 1]], [0, 0, 0], [0, 0, 0]) := by decide +kernel

/-- `setVector`, `setLowerBound`, `setUpperBound` are outside of C64: they accept vectors of any size. -/
theorem C64_vectors_unchecked :
    ((Constraint.mkEq (K := ℚ) "e" 2 3).setVector true (Vec.zero 5)).val? = some true ∧
    ∀ s, ((Constraint.mkEq (K := ℚ) "e" 2 3).setVector true (Vec.zero 5)).state? = some s → ¬ WellFormed s := by
  refine ⟨rfl, ?_⟩
  intro s h
  cases h
  simp [WellFormed, Constraint.mkEq, Vec.zero, Mat.zero]

/-- **C64, setters.** A setter of a member that the class has stores its argument, leaves the other members alone and
reports success; on another class it changes nothing and reports failure, or ends a debug build. -/
theorem C64_setters (nd : Bool) (s : Constraint K) (b : Vec K) :
    (s.kind = .equality →
      (∃ s', s.setVector nd b = .ok s' true ∧ s'.vec = b ∧ s'.name = s.name ∧ s'.kind = s.kind ∧ s'.mat = s.mat ∧
        s'.lb = s.lb ∧ s'.ub = s.ub) ∧
      (nd = true → s.setLowerBound nd b = .ok s false ∧ s.setUpperBound nd b = .ok s false) ∧
      (nd = false → s.setLowerBound nd b = .abort ∧ s.setUpperBound nd b = .abort)) ∧
    (s.kind ≠ .equality →
      (∃ s', s.setLowerBound nd b = .ok s' true ∧ s'.lb = b ∧ s'.name = s.name ∧ s'.kind = s.kind ∧ s'.mat = s.mat ∧
        s'.vec = s.vec ∧ s'.ub = s.ub) ∧
      (∃ s', s.setUpperBound nd b = .ok s' true ∧ s'.ub = b ∧ s'.name = s.name ∧ s'.kind = s.kind ∧ s'.mat = s.mat ∧
        s'.vec = s.vec ∧ s'.lb = s.lb) ∧
      (nd = true → s.setVector nd b = .ok s false) ∧ (nd = false → s.setVector nd b = .abort)) := by
  unfold Constraint.setVector Constraint.setLowerBound Constraint.setUpperBound
  constructor
  · intro h
    rw [h]
    exact ⟨⟨_, rfl, rfl, rfl, rfl, rfl, rfl, rfl⟩, by rintro rfl; exact ⟨rfl, rfl⟩, by rintro rfl; exact ⟨rfl, rfl⟩⟩
  · intro h
    cases hk : s.kind with
    | equality => exact absurd hk h
    | inequality => exact ⟨⟨_, rfl, rfl, rfl, rfl, rfl, rfl, rfl⟩, ⟨_, rfl, rfl, rfl, rfl, rfl, rfl, rfl⟩, by rintro rfl; rfl,
        by rintro rfl; rfl⟩
    | bound => exact ⟨⟨_, rfl, rfl, rfl, rfl, rfl, rfl, rfl⟩, ⟨_, rfl, rfl, rfl, rfl, rfl, rfl, rfl⟩, by rintro rfl; rfl,
        by rintro rfl; rfl⟩

/-- A bound, the setters of which report what they did. -/
example :
    (((Constraint.mkBound "b" 1 : Constraint ℚ).setUpperBound false ⟨1, fun _ => 2⟩).val? = some true) ∧
    (((Constraint.mkBound "b" 1 : Constraint ℚ).setVector true ⟨1, fun _ => 2⟩).val? = some false) := by decide +kernel

/-! ## C63 -/

variable [Field K] [LinearOrder K] [IsStrictOrderedRing K] [HasSqrt K]

/-- **C63, satisfaction implies the check.** For every positive tolerance. -/
theorem C63_of_sat [LawfulSqrt K] {c : Constraint K} {x : Vec K} {tol : K} (hw : WellFormed c) (hx : x.size = c.cols)
    (ht : 0 < tol) (h : Sat c x.get) : c.checkConstraint x tol = true := by
  unfold Constraint.checkConstraint Sat WellFormed at *
  cases hk : c.kind <;> rw [hk] at h hw <;> simp only at h hw ⊢
  · have h0 : Constraint.norm ((c.mat.mulVec x).sub c.vec) = 0 := by
      unfold Constraint.norm
      rw [Finset.sum_eq_zero]
      · exact mul_self_eq_zero.1 (LawfulSqrt.sq_sqrt (0 : K) le_rfl)
      intro i hi
      have hi : i < c.mat.rows := by simpa [Vec.sub, Mat.mulVec] using hi
      have := h i hi
      simp only [Vec.sub, Mat.mulVec, row] at this ⊢
      rw [this, sub_self, zero_mul]
    rw [h0]
    exact decide_eq_true ht
  · simp only [Bool.and_eq_true, List.all_eq_true, List.mem_range, decide_eq_true_eq]
    refine ⟨fun i hi => ?_, fun i hi => ?_⟩ <;> have := h i hi <;> simp only [row] at this <;>
      simp only [Mat.mulVec] <;> linarith [this.1, this.2]
  · simp only [Constraint.cols, hk] at hx
    simp only [Bool.and_eq_true, List.all_eq_true, List.mem_range, decide_eq_true_eq]
    refine ⟨fun i hi => ?_, fun i hi => ?_⟩ <;> have := h i (by omega) <;> linarith [this.1, this.2]

/-- **C63, monotone.** What passes the check passes it with every larger tolerance. -/
theorem C63_monotone {c : Constraint K} {x : Vec K} {tol tol' : K} (hle : tol ≤ tol')
    (h : c.checkConstraint x tol = true) : c.checkConstraint x tol' = true := by
  unfold Constraint.checkConstraint at *
  cases hk : c.kind <;> rw [hk] at h <;>
    simp only [Bool.and_eq_true, List.all_eq_true, List.mem_range, decide_eq_true_eq] at h ⊢
  · exact lt_of_lt_of_le h hle
  · exact ⟨fun i hi => by linarith [h.1 i hi], fun i hi => by linarith [h.2 i hi]⟩
  · exact ⟨fun i hi => by linarith [h.1 i hi], fun i hi => by linarith [h.2 i hi]⟩

/-- **C63, inequalities and bounds.** The check passes iff every row is violated by at most the tolerance. -/
theorem C63_rows {c : Constraint K} {x : Vec K} {tol : K} :
    (c.kind = .inequality → (c.checkConstraint x tol = true ↔
      ∀ i, i < c.mat.rows → c.lb i - row c.mat x.get i ≤ tol ∧ row c.mat x.get i - c.ub i ≤ tol)) ∧
    (c.kind = .bound → x.size = c.lb.size → (c.checkConstraint x tol = true ↔
      ∀ i, i < c.lb.size → c.lb i - x i ≤ tol ∧ x i - c.ub i ≤ tol)) := by
  unfold Constraint.checkConstraint
  constructor
  · intro hk
    simp only [hk, Bool.and_eq_true, List.all_eq_true, List.mem_range, decide_eq_true_eq]
    simp only [Mat.mulVec, row]
    constructor
    · intro h i hi; constructor <;> linarith [h.1 i hi, h.2 i hi]
    · intro h; exact ⟨fun i hi => by linarith [(h i hi).2], fun i hi => by linarith [(h i hi).1]⟩
  · intro hk hx
    simp only [hk, Bool.and_eq_true, List.all_eq_true, List.mem_range, decide_eq_true_eq, hx]
    constructor
    · intro h i hi; constructor <;> linarith [h.1 i hi, h.2 i hi]
    · intro h; exact ⟨fun i hi => by linarith [(h i hi).2], fun i hi => by linarith [(h i hi).1]⟩

/-- **C63, equalities.** The check passes iff the Euclidean norm of the residual is less than the tolerance; then every
row is off by less than the tolerance. -/
theorem C63_equality [LawfulSqrt K] {c : Constraint K} {x : Vec K} {tol : K} (hk : c.kind = .equality) (ht : 0 < tol) :
    (c.checkConstraint x tol = true ↔ ∑ i ∈ range c.mat.rows, Spec.residual c x.get i ^ 2 < tol ^ 2) ∧
    (c.checkConstraint x tol = true → ∀ i, i < c.mat.rows → |Spec.residual c x.get i| < tol) := by
  have hsum : ∑ i ∈ range ((c.mat.mulVec x).sub c.vec).size,
      ((c.mat.mulVec x).sub c.vec) i * ((c.mat.mulVec x).sub c.vec) i =
      ∑ i ∈ range c.mat.rows, Spec.residual c x.get i ^ 2 := by
    simp only [Vec.sub, Mat.mulVec, Spec.residual, row, pow_two]
  have hnn : 0 ≤ ∑ i ∈ range c.mat.rows, Spec.residual c x.get i ^ 2 := Finset.sum_nonneg (fun _ _ => sq_nonneg _)
  have key : c.checkConstraint x tol = true ↔ ∑ i ∈ range c.mat.rows, Spec.residual c x.get i ^ 2 < tol ^ 2 := by
    unfold Constraint.checkConstraint Constraint.norm
    simp only [hk, decide_eq_true_eq]
    rw [hsum]
    have h1 := LawfulSqrt.sqrt_nonneg (∑ i ∈ range c.mat.rows, Spec.residual c x.get i ^ 2)
    have h2 := LawfulSqrt.sq_sqrt _ hnn
    constructor
    · intro h; nlinarith
    · intro h; by_contra hc; push Not at hc; nlinarith
  refine ⟨key, fun h i hi => ?_⟩
  have h := key.1 h
  have hle : Spec.residual c x.get i ^ 2 ≤ ∑ i ∈ range c.mat.rows, Spec.residual c x.get i ^ 2 :=
    Finset.single_le_sum (f := fun i => Spec.residual c x.get i ^ 2) (fun _ _ => sq_nonneg _) (Finset.mem_range.2 hi)
  exact abs_lt_of_sq_lt_sq (lt_of_le_of_lt hle h) ht.le

/-- The norm matters: two rows that are both off by 3/4 pass separately, not together. -/
example : (Constraint.mkEq (K := ℚ) "e" 1 1 |>.checkConstraint (Vec.ofList [0]) 1) = true ∧
    (⟨"e", .equality, Mat.identity 2, Vec.ofList [3, 4], Vec.zero 0, Vec.zero 0⟩ : Constraint ℚ).checkConstraint
      (Vec.ofList [0, 0]) 5 = false ∧
    (⟨"e", .equality, Mat.identity 2, Vec.ofList [3, 4], Vec.zero 0, Vec.zero 0⟩ : Constraint ℚ).checkConstraint
      (Vec.ofList [0, 0]) (51/10) = true ∧
    (⟨"i", .inequality, Mat.ofLists 2 [[1, 1]], Vec.zero 0, Vec.ofList [0], Vec.ofList [1]⟩ : Constraint ℚ).checkConstraint
      (Vec.ofList [1, 1/10]) (1/10) = true := by decide +kernel

end Tsid.Props
