import Verif.Lemmas.Svd

/-!
# C56, C57, C75: pseudo-inverses, damped solutions and null spaces

`svd` is an arbitrary function that meets the contract `IsSvd` of a singular value decomposition for the matrix at hand.
-/

set_option linter.unusedSectionVars false

namespace Tsid.Props

open Finset Matrix Spec MathUtils

variable {K : Type} [Field K] [LinearOrder K] [IsStrictOrderedRing K]
variable {svd : Mat K → SvdOptions → SvdData K} {A : Mat K} {o : SvdOptions}

/-- Both factors are requested. -/
def BothFactors (o : SvdOptions) : Prop := (o.fullU || o.thinU) = true ∧ (o.fullV || o.thinV) = true

omit [IsStrictOrderedRing K] in
theorem hasUV_of {d : SvdData K} (h : IsSvd A o d) (ho : BothFactors o) : d.hasUV = true := by
  simp only [SvdData.hasUV, h.options, ho.1, ho.2, Bool.and_self]

theorem not_none {o : SvdOptions} (ho : BothFactors o) : o.none? = false := by
  obtain ⟨a, b, c, d⟩ := o
  simp only [BothFactors, Bool.or_eq_true] at ho
  simp only [SvdOptions.none?, Bool.not_eq_false', Bool.or_eq_true]
  tauto

omit [IsStrictOrderedRing K] in
theorem size_uCols {d : SvdData K} (h : IsSvd A o d) : d.sv.size ≤ d.U.cols := by
  rw [h.uCols, h.size]; split <;> omega

omit [IsStrictOrderedRing K] in
theorem size_vCols {d : SvdData K} (h : IsSvd A o d) : d.sv.size ≤ d.V.cols := by
  rw [h.vCols, h.size]; split <;> omega

omit [IsStrictOrderedRing K] in
theorem assemble_ok {d : SvdData K} (h : IsSvd A o d) (ho : BothFactors o) {Apinv : Mat K}
    (h1 : Apinv.rows = A.cols) (h2 : Apinv.cols = A.rows) (t : Nat → K) :
    ∃ X, assemblePinv d t Apinv = .ok X () ∧ X.rows = A.cols ∧ X.cols = A.rows ∧
      mathlibMat A.cols A.rows X = mathlibMat A.cols d.sv.size d.V * diagonal (fun l : Fin d.sv.size => t l) *
        (mathlibMat A.rows d.sv.size d.U)ᵀ := by
  refine ⟨⟨Apinv.rows, Apinv.cols, fun i j => ∑ l ∈ range d.sv.size, d.V i l * t l * d.U j l⟩, ?_, h1, h2, ?_⟩
  · simp only [assemblePinv]
    rw [if_pos ⟨hasUV_of h ho, size_uCols h, size_vCols h, h1.trans h.vRows.symm, h2.trans h.uRows.symm⟩]
  · exact factor_mat fun i j _ _ => rfl

omit [IsStrictOrderedRing K] in
theorem pinv_ok (h : IsSvd A o (svd A o)) (ho : BothFactors o) {Apinv : Mat K} (h1 : Apinv.rows = A.cols)
    (h2 : Apinv.cols = A.rows) (tol : K) :
    ∃ X, pseudoInverse svd A tol none o Apinv = .ok X none ∧ X.rows = A.cols ∧ X.cols = A.rows ∧
      mathlibMat A.cols A.rows X = mathlibMat A.cols (svd A o).sv.size (svd A o).V *
        diagonal (fun l : Fin (svd A o).sv.size => if 0 < tol ∧ tol < (svd A o).sv l then 1 / (svd A o).sv l else 0) *
        (mathlibMat A.rows (svd A o).sv.size (svd A o).U)ᵀ := by
  obtain ⟨X, e, e1, e2, e3⟩ :=
    assemble_ok h ho h1 h2 (fun l => if 0 < tol ∧ tol < (svd A o).sv l then 1 / (svd A o).sv l else 0)
  exact ⟨X, by simp only [pseudoInverse, not_none ho, e]; rfl, e1, e2, e3⟩

/-- **C56, all tolerances.** For every positive tolerance, `pseudoInverse` returns the Moore-Penrose inverse of the
matrix without the singular values up to the tolerance. -/
theorem C56_truncated (h : IsSvd A o (svd A o)) (ho : BothFactors o) {Apinv : Mat K} (h1 : Apinv.rows = A.cols)
    (h2 : Apinv.cols = A.rows) {tol : K} (ht : 0 < tol) :
    ∃ X, pseudoInverse svd A tol none o Apinv = .ok X none ∧ X.rows = A.cols ∧ X.cols = A.rows ∧
      Penrose (mathlibMat A.rows A.cols (truncated A (svd A o) tol)) (mathlibMat A.cols A.rows X) := by
  obtain ⟨X, e, e1, e2, e3⟩ := pinv_ok h ho h1 h2 tol
  refine ⟨X, e, e1, e2, ?_⟩
  rw [e3, factor_mat (A := truncated A (svd A o) tol)
    (s := fun l => if tol < (svd A o).sv l then (svd A o).sv l else 0) (fun i j _ _ => rfl)]
  refine core_penrose (orthonormal_mat h.uOrth (size_uCols h)) (orthonormal_mat h.vOrth (size_vCols h)) ?_ ?_
  all_goals
    intro l
    simp only [ht, true_and]
    by_cases hl : tol < (svd A o).sv l
    · have : (svd A o).sv l ≠ 0 := by
        intro h0; rw [h0] at hl; exact absurd hl (not_lt.2 ht.le)
      simp only [hl, if_true]
      field_simp
    · simp only [hl, if_false, mul_zero]

/-- **C56.** If the singular values that are not zero exceed the positive tolerance, `pseudoInverse` returns the matrix
that satisfies the four Penrose conditions; there is no other. -/
theorem C56_pseudo_inverse (h : IsSvd A o (svd A o)) (ho : BothFactors o) {Apinv : Mat K} (h1 : Apinv.rows = A.cols)
    (h2 : Apinv.cols = A.rows) {tol : K} (ht : 0 < tol)
    (hs : ∀ l, l < (svd A o).sv.size → (svd A o).sv l ≠ 0 → tol < (svd A o).sv l) :
    ∃ X, pseudoInverse svd A tol none o Apinv = .ok X none ∧ X.rows = A.cols ∧ X.cols = A.rows ∧
      Penrose (mathlibMat A.rows A.cols A) (mathlibMat A.cols A.rows X) ∧
      ∀ Y, Penrose (mathlibMat A.rows A.cols A) Y → Y = mathlibMat A.cols A.rows X := by
  obtain ⟨X, e, e1, e2, e3⟩ := C56_truncated h ho h1 h2 ht
  have : mathlibMat A.rows A.cols (truncated A (svd A o) tol) = mathlibMat A.rows A.cols A := by
    ext i j
    simp only [mathlibMat, Matrix.of_apply, truncated]
    rw [h.factor i j i.2 j.2]
    refine Finset.sum_congr rfl fun l hl => ?_
    by_cases h0 : (svd A o).sv l = 0
    · rw [h0, ite_self]
    · rw [if_pos (hs l (mem_range.1 hl) h0)]
  rw [this] at e3
  exact ⟨X, e, e1, e2, e3, fun Y hY => hY.unique e3⟩

/-- **C56 with a tolerance of zero** (or a negative one): `pseudoInverse` returns the zero matrix, which is the
Moore-Penrose inverse of the zero matrix only. -/
theorem C56_zero_tolerance (h : IsSvd A o (svd A o)) (ho : BothFactors o) {Apinv : Mat K} (h1 : Apinv.rows = A.cols)
    (h2 : Apinv.cols = A.rows) {tol : K} (ht : tol ≤ 0) :
    ∃ X, pseudoInverse svd A tol none o Apinv = .ok X none ∧ mathlibMat A.cols A.rows X = 0 ∧
      (Penrose (mathlibMat A.rows A.cols A) (mathlibMat A.cols A.rows X) → mathlibMat A.rows A.cols A = 0) := by
  obtain ⟨X, e, e1, e2, e3⟩ := pinv_ok h ho h1 h2 tol
  have e0 : mathlibMat A.cols A.rows X = 0 := by
    rw [e3]
    have : (fun l : Fin (svd A o).sv.size =>
        if 0 < tol ∧ tol < (svd A o).sv l then 1 / (svd A o).sv l else 0) = fun _ => (0 : K) := by
      funext l
      rw [if_neg fun hh => absurd hh.1 (not_lt.2 ht)]
    rw [this]
    simp
  refine ⟨X, e, e0, fun hp => ?_⟩
  have := hp.axa
  rw [e0] at this
  simpa using this.symm

omit [IsStrictOrderedRing K] in
/-- **C56 without options**: nothing is computed, `Apinv` keeps whatever it contained. -/
theorem C56_no_options (tol : K) (buffer : Option Nat) (Apinv : Mat K) :
    pseudoInverse svd A tol buffer ⟨false, false, false, false⟩ Apinv = .ok Apinv none := rfl

/-- **C57 for `dampedPseudoInverse`.** For every right-hand side, the damped pseudo-inverse yields the unique minimiser
of the regularised residual. -/
theorem C57_damped_inverse (h : IsSvd A o (svd A o)) (ho : BothFactors o) {Apinv : Mat K} (h1 : Apinv.rows = A.cols)
    (h2 : Apinv.cols = A.rows) (tol : K) {damping : K} (hd : damping ≠ 0) :
    ∃ X, dampedPseudoInverse svd A tol damping none o Apinv = .ok X none ∧ X.rows = A.cols ∧ X.cols = A.rows ∧
      ∀ b : Fin A.rows → K,
        UniqueMin (regularised (mathlibMat A.rows A.cols A) b damping) (mathlibMat A.cols A.rows X *ᵥ b) := by
  obtain ⟨X, e, e1, e2, e3⟩ := assemble_ok h ho h1 h2
    (fun l => (svd A o).sv l / ((svd A o).sv l * (svd A o).sv l + damping * damping))
  refine ⟨X, by simp only [dampedPseudoInverse, not_none ho, e]; rfl, e1, e2, fun b => regularised_unique hd ?_⟩
  rw [e3, factor_mat h.factor]
  refine core_normal (orthonormal_mat h.uOrth (size_uCols h)) (orthonormal_mat h.vOrth (size_vCols h)) ?_ b
  intro l
  have : (svd A o).sv l * (svd A o).sv l + damping * damping ≠ 0 := by
    have h1 := mul_self_nonneg ((svd A o).sv l)
    have h2 : 0 < damping * damping := mul_self_pos.2 hd
    exact (by linarith : (0 : K) < _).ne'
  field_simp

omit [IsStrictOrderedRing K] in
/-- The solution computed from the decomposition, with the factor of the singular values that are not zero. -/
theorem solve_ok {d : SvdData K} (h : IsSvd A o d) (ho : BothFactors o) {b sol : Vec K} (hb : b.size = A.rows)
    (hsol : sol.size = A.cols) (damping : K) :
    ∃ x, solveWithDampingFromSvd d b sol damping = .ok x () ∧ x.size = A.cols ∧
      mathlibVec A.cols x = (mathlibMat A.cols d.sv.size d.V *
        diagonal (fun l : Fin d.sv.size =>
          if (l : Nat) < d.nonzero then d.sv l / (d.sv l * d.sv l + damping * damping) else 0) *
        (mathlibMat A.rows d.sv.size d.U)ᵀ) *ᵥ mathlibVec A.rows b := by
  simp only [solveWithDampingFromSvd]
  rw [if_neg (by rw [h.rows, hb]; simp), if_pos ⟨hasUV_of h ho, h.count.trans (size_uCols h),
    h.count.trans (size_vCols h), h.count, h.uRows.trans hb.symm, hsol.trans h.vRows.symm⟩]
  refine ⟨_, rfl, hsol, ?_⟩
  rw [← factor_mat (A := ⟨A.cols, A.rows, fun i j => ∑ l ∈ range d.sv.size, d.V i l *
    (if l < d.nonzero then d.sv l / (d.sv l * d.sv l + damping * damping) else 0) * d.U j l⟩) (fun i j _ _ => rfl)]
  funext j
  simp only [mathlibVec, Matrix.mulVec, dotProduct, mathlibMat, Matrix.of_apply]
  rw [Fin.sum_univ_eq_sum_range (fun i => (∑ l ∈ range d.sv.size, d.V j l *
    (if l < d.nonzero then d.sv l / (d.sv l * d.sv l + damping * damping) else 0) * d.U i l) * b i) A.rows]
  rw [← hb]
  simp only [Finset.sum_mul, Finset.mul_sum]
  rw [Finset.sum_comm (s := range b.size)]
  have hsub : range d.nonzero ⊆ range d.sv.size := by
    intro a ha
    exact mem_range.2 (lt_of_lt_of_le (mem_range.1 ha) h.count)
  rw [← Finset.sum_subset hsub (f := fun l => ∑ i ∈ range b.size, d.V j l *
    (if l < d.nonzero then d.sv l / (d.sv l * d.sv l + damping * damping) else 0) * d.U i l * b i)]
  · refine Finset.sum_congr rfl fun l hl => Finset.sum_congr rfl fun i _ => ?_
    rw [if_pos (mem_range.1 hl)]
    ring
  · intro l _ hl
    refine Finset.sum_eq_zero fun i _ => ?_
    rw [if_neg (fun h => hl (mem_range.2 h)), mul_zero, zero_mul, zero_mul]

/-- **C57 for `solveWithDampingFromSvd`.** The unique minimiser of the regularised residual. -/
theorem C57_damped_solution {d : SvdData K} (h : IsSvd A o d) (ho : BothFactors o) {b sol : Vec K}
    (hb : b.size = A.rows) (hsol : sol.size = A.cols) {damping : K} (hd : damping ≠ 0) :
    ∃ x, solveWithDampingFromSvd d b sol damping = .ok x () ∧ x.size = A.cols ∧
      UniqueMin (regularised (mathlibMat A.rows A.cols A) (mathlibVec A.rows b) damping) (mathlibVec A.cols x) := by
  obtain ⟨x, e, e1, e2⟩ := solve_ok h ho hb hsol damping
  refine ⟨x, e, e1, regularised_unique hd ?_⟩
  rw [e2, factor_mat h.factor]
  refine core_normal (orthonormal_mat h.uOrth (size_uCols h)) (orthonormal_mat h.vOrth (size_vCols h)) ?_ _
  intro l
  have : d.sv l * d.sv l + damping * damping ≠ 0 := by
    have h1 := mul_self_nonneg (d.sv l)
    have h2 : 0 < damping * damping := mul_self_pos.2 hd
    exact (by linarith : (0 : K) < _).ne'
  by_cases hl : (l : Nat) < d.nonzero
  · simp only [hl, if_true]
    field_simp
  · have h0 : d.sv l = 0 := by
      by_contra h0
      exact hl ((h.nonzero l l.2).2 h0)
    simp only [hl, if_false, h0, mul_zero, add_zero]

/-- **C57 for `svdSolveWithDamping`**, which decomposes the matrix itself. -/
theorem C57_svd_solve (h : IsSvd A ⟨false, true, false, true⟩ (svd A ⟨false, true, false, true⟩)) {b sol : Vec K}
    (hb : b.size = A.rows) (hsol : sol.size = A.cols) {damping : K} (hd : damping ≠ 0) :
    ∃ x, svdSolveWithDamping svd A b sol damping = .ok x () ∧ x.size = A.cols ∧
      UniqueMin (regularised (mathlibMat A.rows A.cols A) (mathlibVec A.rows b) damping) (mathlibVec A.cols x) := by
  obtain ⟨x, e, e1, e2⟩ := C57_damped_solution h ⟨rfl, rfl⟩ hb hsol hd
  exact ⟨x, by simp only [svdSolveWithDamping]; rw [if_neg (by rw [hb]; simp), e], e1, e2⟩

/-- **C57 without damping**: `solveWithDampingFromSvd` yields a least-squares solution, the one of least norm. -/
theorem C57_undamped {d : SvdData K} (h : IsSvd A o d) (ho : BothFactors o) {b sol : Vec K}
    (hb : b.size = A.rows) (hsol : sol.size = A.cols) :
    ∃ x, solveWithDampingFromSvd d b sol 0 = .ok x () ∧ x.size = A.cols ∧ ∀ y,
      regularised (mathlibMat A.rows A.cols A) (mathlibVec A.rows b) 0 (mathlibVec A.cols x) ≤
        regularised (mathlibMat A.rows A.cols A) (mathlibVec A.rows b) 0 y ∧
      (regularised (mathlibMat A.rows A.cols A) (mathlibVec A.rows b) 0 y =
        regularised (mathlibMat A.rows A.cols A) (mathlibVec A.rows b) 0 (mathlibVec A.cols x) →
        mathlibVec A.cols x ⬝ᵥ mathlibVec A.cols x ≤ y ⬝ᵥ y) := by
  obtain ⟨x, e, e1, e2⟩ := solve_ok h ho hb hsol 0
  have hU := orthonormal_mat h.uOrth (size_uCols h)
  have hV := orthonormal_mat h.vOrth (size_vCols h)
  have hs : ∀ l : Fin d.sv.size, d.sv l * d.sv l *
      (if (l : Nat) < d.nonzero then d.sv l / (d.sv l * d.sv l + 0 * 0) else 0) = d.sv l := by
    intro l
    by_cases hl : (l : Nat) < d.nonzero
    · have h0 := (h.nonzero l l.2).1 hl
      simp only [hl, if_true, mul_zero, add_zero]
      field_simp
    · have h0 : d.sv l = 0 := by
        by_contra h0
        exact hl ((h.nonzero l l.2).2 h0)
      simp only [hl, if_false, h0, mul_zero]
  have ht : ∀ l : Fin d.sv.size, d.sv l = 0 →
      (if (l : Nat) < d.nonzero then d.sv l / (d.sv l * d.sv l + 0 * 0) else 0) = 0 := by
    intro l hl
    simp only [hl, zero_div, ite_self]
  refine ⟨x, e, e1, fun y => ?_⟩
  rw [e2, factor_mat h.factor]
  constructor
  · have := regularised_expand (core_normal hU hV (damping := 0) (s := fun l : Fin d.sv.size => d.sv l)
      (t := fun l => if (l : Nat) < d.nonzero then d.sv l / (d.sv l * d.sv l + 0 * 0) else 0)
      (fun l => by rw [hs l]; simp) (mathlibVec A.rows b)) y
    rw [this]
    exact le_add_of_nonneg_right (add_nonneg (dot_self_nonneg _) (by simp))
  · exact core_least_norm hU hV hs ht _ y

omit [IsStrictOrderedRing K] in
theorem null_ok {d : SvdData K} (h : IsSvd A o d) (hf : o.fullV = true) {rank : Nat} (hr : rank ≤ d.sv.size)
    {cap : Nat} (hc : A.cols * A.cols ≤ cap) (h1 : ∀ l, l < rank → d.sv l ≠ 0)
    (h0 : ∀ l, rank ≤ l → l < d.sv.size → d.sv l = 0) :
    ∃ N, nullSpaceBasis d rank cap = .ok () N ∧ N.rows = A.cols ∧ N.cols = A.cols - rank ∧
      NullBasis (mathlibMat A.rows A.cols A) (mathlibMat A.cols (A.cols - rank) N) := by
  have hv : d.V.cols = A.cols := by rw [h.vCols, if_pos hf]
  have hk : d.sv.size ≤ A.cols := by rw [h.size]; omega
  have hcap : A.cols * (A.cols - rank) ≤ cap := (Nat.mul_le_mul_left _ (Nat.sub_le _ _)).trans hc
  simp only [nullSpaceBasis]
  rw [if_pos ⟨by simp only [h.options, hf, Bool.true_or], by omega, by omega, by rw [h.vRows, hv],
    by rw [hv]; simpa using hcap⟩]
  refine ⟨_, rfl, hv, by simp only [hv, Int.toNat_natCast], ?_⟩
  have hU : OrthoCols A.rows d.sv.size d.U := fun a b ha hb =>
    h.uOrth a b (ha.trans_le (size_uCols h)) (hb.trans_le (size_uCols h))
  have hV : OrthoCols A.cols A.cols d.V := by have := h.vOrth; rwa [hv] at this
  have := core_null hk hr hU hV h.factor h1 h0
  simpa only [mathlibMat, Int.toNat_natCast] using this

/-- **C75.** If the full second factor is computed, the singular values that are not zero exceed the positive tolerance
and the buffer is large enough, `pseudoInverse` writes an orthonormal basis of the null space. -/
theorem C75_pseudo_inverse (h : IsSvd A o (svd A o)) (ho : BothFactors o) (hf : o.fullV = true) {Apinv : Mat K}
    (h1 : Apinv.rows = A.cols) (h2 : Apinv.cols = A.rows) {tol : K} (ht : 0 < tol)
    (hs : ∀ l, l < (svd A o).sv.size → (svd A o).sv l ≠ 0 → tol < (svd A o).sv l) {cap : Nat}
    (hc : A.cols * A.cols ≤ cap) :
    ∃ X N k, pseudoInverse svd A tol (some cap) o Apinv = .ok X (some N) ∧ N.rows = A.cols ∧ N.cols = k ∧
      NullBasis (mathlibMat A.rows A.cols A) (mathlibMat A.cols k N) := by
  obtain ⟨X, e, -⟩ :=
    assemble_ok h ho h1 h2 (fun l => if 0 < tol ∧ tol < (svd A o).sv l then 1 / (svd A o).sv l else 0)
  have hcount : rankAbove (svd A o) tol = ((range (svd A o).sv.size).filter fun l => tol < (svd A o).sv l).card := by
    simp only [rankAbove, ht, true_and]
  have hle : rankAbove (svd A o) tol ≤ (svd A o).sv.size := by
    rw [rankAbove]
    exact (card_filter_le _ _).trans (card_range _).le
  obtain ⟨N, e1, e2, e3, e4⟩ := null_ok h hf hle hc (fun l hl => by
      have hl' : l < (svd A o).sv.size := hl.trans_le hle
      have := (count_sorted h.sorted tol hl').2 (by rw [← hcount]; exact hl)
      intro h0
      rw [h0] at this
      exact absurd this (not_lt.2 ht.le))
    (fun l hl hl' => by
      by_contra h0
      have := (count_sorted h.sorted tol hl').1 (hs l hl' h0)
      rw [← hcount] at this
      omega)
  refine ⟨X, N, _, ?_, e2, e3, e4⟩
  simp only [pseudoInverse, not_none ho, e, hf, e1]
  rfl

/-- **C75 for `nullSpaceBasisFromDecomposition` with a tolerance.** -/
theorem C75_decomposition {d : SvdData K} (h : IsSvd A o d) (hf : o.fullV = true) {tol : K} (ht : 0 < tol)
    (hs : ∀ l, l < d.sv.size → d.sv l ≠ 0 → tol < d.sv l) {cap : Nat} (hc : A.cols * A.cols ≤ cap) :
    ∃ N k, nullSpaceBasisTol d tol cap = .ok () N ∧ N.rows = A.cols ∧ N.cols = k ∧
      NullBasis (mathlibMat A.rows A.cols A) (mathlibMat A.cols k N) := by
  have hcount : rankAbove d tol = ((range d.sv.size).filter fun l => tol < d.sv l).card := by
    simp only [rankAbove, ht, true_and]
  have hle : rankAbove d tol ≤ d.sv.size := by
    rw [rankAbove]
    exact (card_filter_le _ _).trans (card_range _).le
  obtain ⟨N, e1, e2, e3, e4⟩ := null_ok h hf hle hc (fun l hl => by
      have hl' : l < d.sv.size := hl.trans_le hle
      have := (count_sorted h.sorted tol hl').2 (by rw [← hcount]; exact hl)
      intro h0
      rw [h0] at this
      exact absurd this (not_lt.2 ht.le))
    (fun l hl hl' => by
      by_contra h0
      have := (count_sorted h.sorted tol hl').1 (hs l hl' h0)
      rw [← hcount] at this
      omega)
  exact ⟨N, _, e1, e2, e3, e4⟩

/-- **C75 for `dampedPseudoInverse`**: here a tolerance of zero is right. -/
theorem C75_damped (h : IsSvd A o (svd A o)) (ho : BothFactors o) (hf : o.fullV = true) {Apinv : Mat K}
    (h1 : Apinv.rows = A.cols) (h2 : Apinv.cols = A.rows) {tol : K} (ht : 0 ≤ tol) (damping : K)
    (hs : ∀ l, l < (svd A o).sv.size → (svd A o).sv l ≠ 0 → tol < (svd A o).sv l) {cap : Nat}
    (hc : A.cols * A.cols ≤ cap) :
    ∃ X N k, dampedPseudoInverse svd A tol damping (some cap) o Apinv = .ok X (some N) ∧ N.rows = A.cols ∧ N.cols = k ∧
      NullBasis (mathlibMat A.rows A.cols A) (mathlibMat A.cols k N) := by
  obtain ⟨X, e, -⟩ := assemble_ok h ho h1 h2
    (fun l => (svd A o).sv l / ((svd A o).sv l * (svd A o).sv l + damping * damping))
  have hle : ((range (svd A o).sv.size).filter fun l => tol < (svd A o).sv l).card ≤ (svd A o).sv.size :=
    (card_filter_le _ _).trans (card_range _).le
  obtain ⟨N, e1, e2, e3, e4⟩ := null_ok h hf hle hc (fun l hl => by
      have hl' : l < (svd A o).sv.size := hl.trans_le hle
      have := (count_sorted h.sorted tol hl').2 hl
      intro h0
      rw [h0] at this
      exact absurd this (not_lt.2 ht))
    (fun l hl hl' => by
      by_contra h0
      have := (count_sorted h.sorted tol hl').1 (hs l hl' h0)
      omega)
  refine ⟨X, N, _, ?_, e2, e3, e4⟩
  simp only [dampedPseudoInverse, not_none ho, e, hf, e1]
  rfl

omit [IsStrictOrderedRing K] in
/-- **C75 with a tolerance of zero** (or a negative one): `pseudoInverse` counts rank zero and reports all columns of the
second factor as null space; the columns are a basis of the null space of the zero matrix only. -/
theorem C75_zero_tolerance (h : IsSvd A o (svd A o)) (ho : BothFactors o) (hf : o.fullV = true) {Apinv : Mat K}
    (h1 : Apinv.rows = A.cols) (h2 : Apinv.cols = A.rows) {tol : K} (ht : tol ≤ 0) {cap : Nat}
    (hc : A.cols * A.cols ≤ cap) :
    ∃ X N, pseudoInverse svd A tol (some cap) o Apinv = .ok X (some N) ∧ N.cols = A.cols ∧
      (mathlibMat A.rows A.cols A * mathlibMat A.cols A.cols N = 0 → mathlibMat A.rows A.cols A = 0) := by
  obtain ⟨X, e, -⟩ :=
    assemble_ok h ho h1 h2 (fun l => if 0 < tol ∧ tol < (svd A o).sv l then 1 / (svd A o).sv l else 0)
  have hr : rankAbove (svd A o) tol = 0 := by
    rw [rankAbove, card_eq_zero, filter_eq_empty_iff]
    exact fun l _ hh => absurd hh.1 (not_lt.2 ht)
  have hv : (svd A o).V.cols = A.cols := by rw [h.vCols, if_pos hf]
  have hn : nullSpaceBasis (svd A o) (rankAbove (svd A o) tol) cap =
      .ok () ⟨(svd A o).V.cols, (svd A o).V.cols - ((0 : Nat) : Int).toNat,
        fun i j => (svd A o).V i (((0 : Nat) : Int).toNat + j)⟩ := by
    rw [hr]
    simp only [nullSpaceBasis]
    rw [if_pos ⟨by simp only [h.options, hf, Bool.true_or], by omega, by omega, by rw [h.vRows, hv],
      by rw [hv]; simpa using hc⟩]
  refine ⟨X, ⟨(svd A o).V.cols, (svd A o).V.cols - ((0 : Nat) : Int).toNat,
        fun i j => (svd A o).V i (((0 : Nat) : Int).toNat + j)⟩,
    by simp only [pseudoInverse, not_none ho, e, hf, hn]; rfl, hv, fun hz => ?_⟩
  have hV : OrthoCols A.cols A.cols (svd A o).V := by have := h.vOrth; rwa [hv] at this
  have hVV := mul_eq_one_comm.1 (orthonormal_mat hV le_rfl)
  have e4 : mathlibMat A.cols A.cols ⟨(svd A o).V.cols, (svd A o).V.cols - ((0 : Nat) : Int).toNat,
      fun i j => (svd A o).V i (((0 : Nat) : Int).toNat + j)⟩ = mathlibMat A.cols A.cols (svd A o).V := by
    ext i j
    simp [mathlibMat]
  rw [e4] at hz
  calc mathlibMat A.rows A.cols A
      = mathlibMat A.rows A.cols A * (mathlibMat A.cols A.cols (svd A o).V * (mathlibMat A.cols A.cols (svd A o).V)ᵀ) := by
        rw [hVV, Matrix.mul_one]
    _ = 0 := by rw [← Matrix.mul_assoc, hz, Matrix.zero_mul]

omit [IsStrictOrderedRing K] in
/-- **C75 for a thin decomposition**: for a matrix with more columns than rows `nullSpaceBasisFromDecomposition` is
undefined behaviour (it takes the number of columns of the second factor for its number of rows). -/
theorem C75_thin {d : SvdData K} (h : IsSvd A o d) (hf : o.fullV = false) (hmn : A.rows < A.cols) (tol : K)
    (cap : Nat) : (nullSpaceBasisTol d tol cap).isUB = true := by
  simp only [nullSpaceBasisTol, nullSpaceBasis]
  rw [if_neg]
  · rfl
  · rintro ⟨-, -, -, h4, -⟩
    rw [h.vRows, h.vCols, hf] at h4
    simp only [Bool.false_eq_true, if_false] at h4
    omega

/-- A matrix of rank one with two rows and three columns, and its full decomposition: the hypotheses of C56, C57 and C75
are met with tolerance one. -/
def rankOne : Mat ℚ := ⟨2, 3, fun i j => if j = 1 then (if i = 0 then 6 / 5 else 8 / 5) else 0⟩

def rankOneSvd : SvdData ℚ where
  rows := 2
  cols := 3
  options := ⟨true, false, true, false⟩
  U := Mat.ofLists 2 [[3 / 5, -4 / 5], [4 / 5, 3 / 5]]
  V := Mat.ofLists 3 [[0, 1, 0], [1, 0, 0], [0, 0, 1]]
  sv := Vec.ofList [2, 0]
  nonzero := 1

theorem rankOne_svd : IsSvd rankOne ⟨true, false, true, false⟩ rankOneSvd where
  rows := rfl
  cols := rfl
  options := rfl
  uRows := rfl
  vRows := rfl
  size := rfl
  uCols := rfl
  vCols := rfl
  uOrth := by
    have : ∀ a < 2, ∀ b < 2, ∑ i ∈ range 2, rankOneSvd.U i a * rankOneSvd.U i b = if a = b then 1 else 0 := by
      decide +kernel
    exact fun a b ha hb => this a ha b hb
  vOrth := by
    have : ∀ a < 3, ∀ b < 3, ∑ i ∈ range 3, rankOneSvd.V i a * rankOneSvd.V i b = if a = b then 1 else 0 := by
      decide +kernel
    exact fun a b ha hb => this a ha b hb
  nonneg := by
    have : ∀ l < 2, 0 ≤ rankOneSvd.sv l := by decide +kernel
    exact this
  sorted := by
    have : ∀ l' < 2, ∀ l < 2, l ≤ l' → rankOneSvd.sv l' ≤ rankOneSvd.sv l := by decide +kernel
    exact fun l l' h h' => this l' h' l (lt_of_le_of_lt h h') h
  count := by decide
  nonzero := by
    have : ∀ l < 2, (l < 1 ↔ rankOneSvd.sv l ≠ 0) := by decide +kernel
    exact this
  factor := by
    have : ∀ i < 2, ∀ j < 3, rankOne i j = ∑ l ∈ range 2, rankOneSvd.U i l * rankOneSvd.sv l * rankOneSvd.V j l := by
      decide +kernel
    exact fun i j hi hj => this i hi j hj

example : IsSvd rankOne ⟨true, false, true, false⟩ rankOneSvd ∧ BothFactors ⟨true, false, true, false⟩ ∧
    (∀ l, l < rankOneSvd.sv.size → rankOneSvd.sv l ≠ 0 → 1 < rankOneSvd.sv l) ∧
    (∃ X N, pseudoInverse (fun _ _ => rankOneSvd) rankOne 1 (some 9) ⟨true, false, true, false⟩ (Mat.zero 3 2) =
      .ok X (some N) ∧ X.toLists = [[0, 0], [3 / 10, 2 / 5], [0, 0]] ∧ N.toLists = [[1, 0], [0, 0], [0, 1]]) ∧
    (∃ x, solveWithDampingFromSvd rankOneSvd (Vec.ofList [5, 0]) (Vec.zero 3) 1 = .ok x () ∧
      x.toList = [0, 6 / 5, 0]) := by
  refine ⟨rankOne_svd, ⟨rfl, rfl⟩, ?_, ⟨_, _, rfl, by decide +kernel, by decide +kernel⟩, ⟨_, rfl, by decide +kernel⟩⟩
  have : ∀ l < 2, rankOneSvd.sv l ≠ 0 → 1 < rankOneSvd.sv l := by decide +kernel
  exact this

end Tsid.Props
