import Mathlib.Analysis.InnerProductSpace.PiL2
import Mathlib.Tactic.LinearCombination
import Mathlib.Tactic.FinCases
import Verif.Spec.Primitives
import Verif.Spec.MathUtils
import Verif.Spec.Poses
import Verif.Lemmas.Geometry

/-!
# C96: the vector and matrix operations are the usual ones
-/

set_option linter.unusedSectionVars false

namespace Tsid.Props

open Finset Matrix Spec

section Small
variable {K : Type} [Field K]

/-- Nothing is lost by passing to Mathlib. -/
theorem C96_faithful : Function.Bijective (arr3 (K := K)) ∧ Function.Bijective (arr33 (K := K)) ∧
    Function.Injective (hom (K := K)) ∧ Function.Injective (twist (K := K)) := by
  refine ⟨⟨?_, ?_⟩, ⟨?_, ?_⟩, ?_, ?_⟩
  · intro a b h
    exact V3.ext (congrFun h 0) (congrFun h 1) (congrFun h 2)
  · intro f
    refine ⟨⟨f 0, f 1, f 2⟩, ?_⟩
    ext i
    fin_cases i <;> rfl
  · intro a b h
    have g := fun i j => congrFun (congrFun h i) j
    exact M3.ext (V3.ext (g 0 0) (g 1 0) (g 2 0)) (V3.ext (g 0 1) (g 1 1) (g 2 1)) (V3.ext (g 0 2) (g 1 2) (g 2 2))
  · intro f
    refine ⟨⟨⟨f 0 0, f 1 0, f 2 0⟩, ⟨f 0 1, f 1 1, f 2 1⟩, ⟨f 0 2, f 1 2, f 2 2⟩⟩, ?_⟩
    ext i j
    fin_cases i <;> fin_cases j <;> rfl
  · intro a b h
    have g := fun i j => congrFun (congrFun h i) j
    exact SE3.ext (M3.ext (V3.ext (g 0 0) (g 1 0) (g 2 0)) (V3.ext (g 0 1) (g 1 1) (g 2 1))
      (V3.ext (g 0 2) (g 1 2) (g 2 2))) (V3.ext (g 0 3) (g 1 3) (g 2 3))
  · intro a b h
    have g := fun i j => congrFun (congrFun h i) j
    exact Motion.ext (V3.ext (g 0 3) (g 1 3) (g 2 3)) (V3.ext (g 2 1) (g 0 2) (g 1 0))

/-- **C96, three-dimensional vectors**: sums, differences, opposites, multiples, dot and cross products, the
coefficients. -/
theorem C96_vectors (a b : V3 K) (c : K) :
    arr3 (0 : V3 K) = 0 ∧ arr3 (a + b) = arr3 a + arr3 b ∧ arr3 (a - b) = arr3 a - arr3 b ∧ arr3 (-a) = -arr3 a ∧
    arr3 (V3.smul c a) = c • arr3 a ∧ a.dot b = arr3 a ⬝ᵥ arr3 b ∧ arr3 (a.cross b) = crossProduct (arr3 a) (arr3 b) ∧
    (∀ i : Fin 3, a.get i = arr3 a i) ∧ arr3 (V3.unitX : V3 K) = Pi.single 0 1 ∧
    arr3 (V3.unitY : V3 K) = Pi.single 1 1 := by
  refine ⟨?_, ?_, ?_, ?_, ?_, ?_, ?_, ?_, ?_, ?_⟩
  · ext i; fin_cases i <;> rfl
  · ext i; fin_cases i <;> rfl
  · ext i; fin_cases i <;> rfl
  · ext i; fin_cases i <;> rfl
  · ext i; fin_cases i <;> rfl
  · simp [V3.dot, arr3, dotProduct, Fin.sum_univ_three]
  · rw [cross_apply]; rfl
  · intro i; fin_cases i <;> rfl
  · ext i; fin_cases i <;> rfl
  · ext i; fin_cases i <;> rfl

/-- **C96, 3x3 matrices**: products, transposition, the identity, the skew-symmetric matrix of a vector,
orthogonality, the determinant. -/
theorem C96_matrices (A B : M3 K) (v w : V3 K) :
    arr3 (A.mulVec v) = arr33 A *ᵥ arr3 v ∧ arr33 (A.mul B) = arr33 A * arr33 B ∧ arr33 A.transpose = (arr33 A)ᵀ ∧
    arr33 (M3.one : M3 K) = 1 ∧ arr33 (M3.skew v) *ᵥ arr3 w = crossProduct (arr3 v) (arr3 w) ∧
    (A.Orthogonal ↔ arr33 A ∈ Matrix.orthogonalGroup (Fin 3) K) ∧
    det3 A.c0 A.c1 A.c2 = (arr33 A).det ∧
    (IsRotation A ↔ arr33 A ∈ Matrix.specialOrthogonalGroup (Fin 3) K) ∧
    (∀ i j : Fin 3, A.get i j = arr33 A i j) := by
  have h1 : ∀ (A : M3 K) (v : V3 K), arr3 (A.mulVec v) = arr33 A *ᵥ arr3 v := by
    intro A v
    ext i
    fin_cases i <;> simp [arr3, arr33, M3.mulVec, Matrix.mulVec, dotProduct, Fin.sum_univ_three]
  have h2 : ∀ A B : M3 K, arr33 (A.mul B) = arr33 A * arr33 B := by
    intro A B
    ext i j
    fin_cases i <;> fin_cases j <;>
      simp [arr33, M3.mul, M3.mulVec, Matrix.mul_apply, Fin.sum_univ_three]
  have h3 : ∀ A : M3 K, arr33 A.transpose = (arr33 A)ᵀ := by
    intro A
    ext i j
    fin_cases i <;> fin_cases j <;> rfl
  have h4 : arr33 (M3.one : M3 K) = 1 := by
    ext i j
    fin_cases i <;> fin_cases j <;> rfl
  have h5 : A.Orthogonal ↔ arr33 A ∈ Matrix.orthogonalGroup (Fin 3) K := by
    rw [Matrix.mem_orthogonalGroup_iff]
    unfold M3.Orthogonal
    constructor
    · rintro ⟨-, h⟩
      have := congrArg arr33 h
      rw [h2, h3, h4] at this
      exact this
    · intro h
      have h' : arr33 A * (arr33 A)ᵀ = 1 := h
      have h'' : (arr33 A)ᵀ * arr33 A = 1 := mul_eq_one_comm.1 h'
      constructor
      · apply C96_faithful.2.1.1
        rw [h2, h3, h4, h'']
      · apply C96_faithful.2.1.1
        rw [h2, h3, h4, h']
  have h6 : det3 A.c0 A.c1 A.c2 = (arr33 A).det := by
    rw [Matrix.det_fin_three]
    simp only [det3, arr33, Matrix.of_apply, Matrix.cons_val', Matrix.cons_val_zero, Matrix.cons_val_one,
      Matrix.cons_val]
    ring
  refine ⟨h1 A v, h2 A B, h3 A, h4, ?_, h5, h6, ?_, ?_⟩
  · rw [← h1, cross_apply]
    simp only [arr3, M3.mulVec, M3.skew, Matrix.cons_val_zero, Matrix.cons_val_one, Matrix.cons_val]
    apply vec3_eq <;> ring
  · unfold IsRotation
    rw [h5, h6, Matrix.mem_specialOrthogonalGroup_iff]
  · intro i j
    fin_cases i <;> fin_cases j <;> rfl

/-- Rotations commute with the cross product. -/
theorem rotation_cross {R : M3 K} (hR : IsRotation R) (a b : V3 K) :
    R.mulVec (a.cross b) = (R.mulVec a).cross (R.mulVec b) := by
  obtain ⟨ho, hdet⟩ := hR
  have ht := fun v => mul_transpose_mulVec ho v
  obtain ⟨⟨x0, y0, z0⟩, ⟨x1, y1, z1⟩, ⟨x2, y2, z2⟩⟩ := R
  simp only [det3] at hdet
  have k0 := ht (V3.cross ⟨x1, y1, z1⟩ ⟨x2, y2, z2⟩)
  have k1 := ht (V3.cross ⟨x2, y2, z2⟩ ⟨x0, y0, z0⟩)
  have k2 := ht (V3.cross ⟨x0, y0, z0⟩ ⟨x1, y1, z1⟩)
  simp only [M3.mulVec, M3.transpose, V3.cross, V3.mk.injEq] at k0 k1 k2 ⊢
  obtain ⟨k0x, k0y, k0z⟩ := k0
  obtain ⟨k1x, k1y, k1z⟩ := k1
  obtain ⟨k2x, k2y, k2z⟩ := k2
  have p0x : x0 = y1 * z2 - z1 * y2 := by linear_combination k0x - x0 * hdet
  have p0y : y0 = z1 * x2 - x1 * z2 := by linear_combination k0y - y0 * hdet
  have p0z : z0 = x1 * y2 - y1 * x2 := by linear_combination k0z - z0 * hdet
  have p1x : x1 = y2 * z0 - z2 * y0 := by linear_combination k1x - x1 * hdet
  have p1y : y1 = z2 * x0 - x2 * z0 := by linear_combination k1y - y1 * hdet
  have p1z : z1 = x2 * y0 - y2 * x0 := by linear_combination k1z - z1 * hdet
  have p2x : x2 = y0 * z1 - z0 * y1 := by linear_combination k2x - x2 * hdet
  have p2y : y2 = z0 * x1 - x0 * z1 := by linear_combination k2y - y2 * hdet
  have p2z : z2 = x0 * y1 - y0 * x1 := by linear_combination k2z - z2 * hdet
  refine ⟨?_, ?_, ?_⟩
  · linear_combination (a.y * b.z - a.z * b.y) * p0x + (a.z * b.x - a.x * b.z) * p1x + (a.x * b.y - a.y * b.x) * p2x
  · linear_combination (a.y * b.z - a.z * b.y) * p0y + (a.z * b.x - a.x * b.z) * p1y + (a.x * b.y - a.y * b.x) * p2y
  · linear_combination (a.y * b.z - a.z * b.y) * p0z + (a.z * b.x - a.x * b.z) * p1z + (a.x * b.y - a.y * b.x) * p2z

/-- **C96, placements**: `act` on a point is the product with the homogeneous matrix, `actInv` on a placement is the
product with the inverse matrix, and `act` / `actInv` on a velocity is conjugation with the homogeneous matrix, i.e.
the adjoint action and its inverse. -/
theorem C96_placements {M : SE3 K} (hM : IsRotation M.rot) (N : SE3 K) (p : V3 K) (m : Motion K) :
    homPoint (M.actPoint p) = hom M *ᵥ homPoint p ∧
    hom M * hom (M.actInvSE3 N) = hom N ∧ hom (M.actInvSE3 N) = (hom M)⁻¹ * hom N ∧
    twist (M.act m) = hom M * twist m * (hom M)⁻¹ ∧
    twist (M.actInv m) = (hom M)⁻¹ * twist m * hom M := by
  obtain ⟨⟨ho1, ho2⟩, hdet⟩ := hM
  have hpt : ∀ p, homPoint (M.actPoint p) = hom M *ᵥ homPoint p := by
    intro p
    ext i
    fin_cases i <;>
      simp [homPoint, hom, SE3.actPoint, M3.mulVec, V3.add_def, Matrix.mulVec, dotProduct, Fin.sum_univ_four]
  have hinv : ∀ N, hom M * hom (M.actInvSE3 N) = hom N := by
    intro N
    have e1 : M.rot.mul (M.rot.transpose.mul N.rot) = N.rot := by
      simp only [M3.mul, mul_transpose_mulVec ⟨ho1, ho2⟩]
    have e2 : M.rot.mulVec (M.rot.transpose.mulVec (N.trans - M.trans)) = N.trans - M.trans :=
      mul_transpose_mulVec ⟨ho1, ho2⟩ _
    have e3 : hom M * hom (M.actInvSE3 N) =
        hom ⟨M.rot.mul (M.rot.transpose.mul N.rot), M.rot.mulVec (M.rot.transpose.mulVec (N.trans - M.trans)) + M.trans⟩ := by
      ext i j
      fin_cases i <;> fin_cases j <;>
        simp [hom, SE3.actInvSE3, M3.mul, M3.mulVec, V3.add_def, Matrix.mul_apply, Fin.sum_univ_four]
    rw [e3, e1, e2]
    congr 1
    simp [V3.sub_def, V3.add_def]
  have hone : hom (⟨M3.one, 0⟩ : SE3 K) = 1 := by
    ext i j
    fin_cases i <;> fin_cases j <;> rfl
  have hdet' : IsUnit (hom M).det := by
    have := hinv ⟨M3.one, 0⟩
    rw [hone] at this
    exact Matrix.isUnit_det_of_right_inverse this
  have hrot : ∀ m : Motion K, hom M * twist m = twist (M.act m) * hom M := by
    intro m
    have g0 := rotation_cross ⟨⟨ho1, ho2⟩, hdet⟩ m.ang ⟨1, 0, 0⟩
    have g1 := rotation_cross ⟨⟨ho1, ho2⟩, hdet⟩ m.ang ⟨0, 1, 0⟩
    have g2 := rotation_cross ⟨⟨ho1, ho2⟩, hdet⟩ m.ang ⟨0, 0, 1⟩
    simp only [M3.mulVec, V3.cross, V3.mk.injEq] at g0 g1 g2
    obtain ⟨g0x, g0y, g0z⟩ := g0
    obtain ⟨g1x, g1y, g1z⟩ := g1
    obtain ⟨g2x, g2y, g2z⟩ := g2
    ext i j
    fin_cases i <;> fin_cases j <;>
      simp [hom, twist, SE3.act, M3.mulVec, V3.cross, V3.add_def, Matrix.mul_apply, Fin.sum_univ_four]
    · linear_combination g0x
    · linear_combination g1x
    · linear_combination g2x
    · ring
    · linear_combination g0y
    · linear_combination g1y
    · linear_combination g2y
    · ring
    · linear_combination g0z
    · linear_combination g1z
    · linear_combination g2z
    · ring
  refine ⟨hpt p, hinv N, ?_, ?_, ?_⟩
  · rw [← hinv N, ← Matrix.mul_assoc, Matrix.nonsing_inv_mul _ hdet', Matrix.one_mul]
  · rw [hrot, Matrix.mul_assoc, Matrix.mul_nonsing_inv _ hdet', Matrix.mul_one]
  · have e : M.act (M.actInv m) = m := by
      simp only [SE3.act, SE3.actInv, mul_transpose_mulVec (R := M.rot) ⟨ho1, ho2⟩]
      ext <;> simp [V3.add_def, V3.sub_def]
    have := hrot (M.actInv m)
    rw [e] at this
    rw [Matrix.mul_assoc, ← this, ← Matrix.mul_assoc, Matrix.nonsing_inv_mul _ hdet', Matrix.one_mul]

/-- A quarter turn about the vertical axis is a rotation. -/
example : IsRotation (⟨⟨0, 1, 0⟩, ⟨-1, 0, 0⟩, ⟨0, 0, 1⟩⟩ : M3 ℚ) := by
  unfold IsRotation M3.Orthogonal
  decide +kernel

/-- It moves the velocity of a frame at (1, 2, 3) that turns about its own first axis. -/
example : (⟨⟨⟨0, 1, 0⟩, ⟨-1, 0, 0⟩, ⟨0, 0, 1⟩⟩, ⟨1, 2, 3⟩⟩ : SE3 ℚ).act ⟨⟨0, 0, 0⟩, ⟨1, 0, 0⟩⟩ =
    ⟨⟨-3, 0, 1⟩, ⟨0, 1, 0⟩⟩ := by decide +kernel

/-- Orthogonality alone is not enough: a reflection does not commute with the cross product. -/
theorem C96_reflection : ∃ R : M3 ℚ, R.Orthogonal ∧ ∃ a b, R.mulVec (V3.cross a b) ≠ (R.mulVec a).cross (R.mulVec b) := by
  refine ⟨⟨⟨-1, 0, 0⟩, ⟨0, 1, 0⟩, ⟨0, 0, 1⟩⟩, ?_, ⟨0, 1, 0⟩, ⟨0, 0, 1⟩, by decide +kernel⟩
  unfold M3.Orthogonal
  decide +kernel

end Small

/-- **C96, norms**: over the reals `norm` is the Euclidean norm and `normalized` divides by it. -/
theorem C96_norm (a : V3 ℝ) : a.norm = ‖WithLp.toLp 2 (arr3 a)‖ ∧
    arr3 a.normalized = ‖WithLp.toLp 2 (arr3 a)‖⁻¹ • arr3 a := by
  have h1 : a.norm = ‖WithLp.toLp 2 (arr3 a)‖ := by
    rw [EuclideanSpace.norm_eq]
    show Real.sqrt (V3.dot a a) = _
    congr 1
    simp [V3.dot, arr3, Fin.sum_univ_three, sq]
  refine ⟨h1, ?_⟩
  rw [← h1]
  unfold V3.normalized
  split
  · ext i
    fin_cases i <;> simp [arr3, div_eq_inv_mul]
  · next h =>
    have h0 : a.dot a = 0 := le_antisymm (not_lt.1 h)
      (by unfold V3.dot; nlinarith [mul_self_nonneg a.x, mul_self_nonneg a.y, mul_self_nonneg a.z])
    have e : a = ⟨0, 0, 0⟩ := by
      unfold V3.dot at h0
      have hx := mul_self_nonneg a.x
      have hy := mul_self_nonneg a.y
      have hz := mul_self_nonneg a.z
      exact V3.ext (mul_self_eq_zero.1 (by linarith)) (mul_self_eq_zero.1 (by linarith)) (mul_self_eq_zero.1 (by linarith))
    subst e
    ext i
    fin_cases i <;> simp [arr3]

/-- The vector (3, 0, 4) has norm five. -/
example : (⟨3, 0, 4⟩ : V3 ℚ).norm = 5 ∧ (⟨3, 0, 4⟩ : V3 ℚ).normalized = ⟨3 / 5, 0, 4 / 5⟩ := by decide +kernel

section Dynamic
variable {K : Type} [Field K] [LinearOrder K]

/-- **C96, dynamic vectors**: parts of a vector are parts of its list of coefficients, the operations are
coefficient-wise, the dot product is Mathlib's. -/
theorem C96_dynamic_vectors (a b : Vec K) (c : K) :
    (∀ n, n ≤ a.size → (a.head n).toList = a.toList.take n) ∧
    (∀ n, n ≤ a.size → (a.tail n).toList = a.toList.drop (a.size - n)) ∧
    (∀ i n, i + n ≤ a.size → (a.segment i n).toList = (a.toList.drop i).take n) ∧
    (∀ n, (Vec.zero n : Vec K).toList = List.replicate n 0) ∧
    (∀ l : List K, (Vec.ofList l).toList = l) ∧
    (a.size = b.size → mathlibVec a.size (a.add b) = mathlibVec a.size a + mathlibVec a.size b ∧
      mathlibVec a.size (a.sub b) = mathlibVec a.size a - mathlibVec a.size b ∧
      a.dot b = mathlibVec a.size a ⬝ᵥ mathlibVec a.size b) ∧
    mathlibVec a.size a.neg = - mathlibVec a.size a ∧ mathlibVec a.size (Vec.smul c a) = c • mathlibVec a.size a ∧
    (a.Same b ↔ a.toList = b.toList) := by
  refine ⟨?_, ?_, ?_, ?_, ?_, ?_, rfl, rfl, ?_⟩
  · intro n hn
    simp only [Vec.head, Vec.toList, ← List.map_take, List.take_range, Nat.min_eq_left hn]
  · intro n hn
    apply List.ext_getElem
    · simp [Vec.tail, Vec.toList]; omega
    · intro i h1 h2
      simp [Vec.tail, Vec.toList]
  · intro i n hn
    apply List.ext_getElem
    · simp [Vec.segment, Vec.toList]; omega
    · intro j h1 h2
      simp [Vec.segment, Vec.toList]
  · intro n
    apply List.ext_getElem
    · simp [Vec.zero, Vec.toList]
    · intro i h1 h2
      simp [Vec.zero, Vec.toList]
  · intro l
    apply List.ext_getElem
    · simp [Vec.ofList, Vec.toList]
    · intro i h1 h2
      simp only [Vec.ofList, Vec.toList, List.getElem_map, List.getElem_range]
      rw [List.getD_eq_getElem?_getD, List.getElem?_eq_getElem h2, Option.getD_some]
  · intro h
    refine ⟨rfl, rfl, ?_⟩
    simp only [Vec.dot, dotProduct, mathlibVec]
    exact Finset.sum_range (fun i => a i * b i)
  · constructor
    · rintro ⟨h1, h2⟩
      apply List.ext_getElem
      · simp [Vec.toList, h1]
      · intro i g1 g2
        simp only [Vec.toList, List.getElem_map, List.getElem_range]
        exact h2 i (by simpa [Vec.toList] using g1)
    · intro h
      have hl : a.size = b.size := by simpa [Vec.toList] using congrArg List.length h
      refine ⟨hl, fun i hi => ?_⟩
      have := List.getElem_of_eq h (i := i) (by simpa [Vec.toList] using hi)
      simpa [Vec.toList] using this

/-- **C96, dynamic matrices**: products, transposition, the identity and parts of matrices. -/
theorem C96_dynamic_matrices (A B : Mat K) (x : Vec K) :
    mathlibMat A.cols A.rows A.transpose = (mathlibMat A.rows A.cols A)ᵀ ∧
    mathlibMat A.rows A.cols A.neg = - mathlibMat A.rows A.cols A ∧
    mathlibMat A.rows B.cols (A.mul B) = mathlibMat A.rows A.cols A * mathlibMat A.cols B.cols B ∧
    mathlibVec A.rows (A.mulVec x) = mathlibMat A.rows A.cols A *ᵥ mathlibVec A.cols x ∧
    (∀ n, mathlibMat n n (Mat.identity n : Mat K) = 1) ∧
    (∀ m n, mathlibMat m n (Mat.zero m n : Mat K) = 0) ∧
    (∀ n, n ≤ A.rows → (A.topRows n).toLists = A.toLists.take n) ∧
    (∀ n, n ≤ A.rows → (A.bottomRows n).toLists = A.toLists.drop (A.rows - n)) ∧
    (∀ n, n ≤ A.cols → (A.leftCols n).toLists = A.toLists.map (List.take n)) ∧
    (∀ n, n ≤ A.cols → (A.rightCols n).toLists = A.toLists.map (List.drop (A.cols - n))) := by
  refine ⟨rfl, rfl, ?_, ?_, ?_, ?_, ?_, ?_, ?_, ?_⟩
  · ext i j
    rw [Matrix.mul_apply]
    exact Finset.sum_range (fun l => A i l * B l j)
  · ext i
    simp only [mathlibVec, Mat.mulVec, Matrix.mulVec, dotProduct, mathlibMat, Matrix.of_apply]
    exact Finset.sum_range (fun l => A i l * x l)
  · intro n
    ext i j
    simp only [mathlibMat, Matrix.of_apply, Mat.identity, Matrix.one_apply, Fin.ext_iff]
  · intro m n
    rfl
  · intro n hn
    simp only [Mat.topRows, Mat.toLists, ← List.map_take, List.take_range, Nat.min_eq_left hn]
  · intro n hn
    apply List.ext_getElem
    · simp [Mat.bottomRows, Mat.toLists]; omega
    · intro i h1 h2
      simp [Mat.bottomRows, Mat.toLists]
  · intro n hn
    simp only [Mat.leftCols, Mat.toLists, List.map_map]
    apply List.map_congr_left
    intro i _
    simp only [Function.comp_apply, ← List.map_take, List.take_range, Nat.min_eq_left hn]
  · intro n hn
    simp only [Mat.rightCols, Mat.toLists, List.map_map]
    apply List.map_congr_left
    intro i _
    simp only [Function.comp_apply]
    apply List.ext_getElem
    · simp; omega
    · intro j h1 h2
      simp

/-- **C96, assignment to columns and rows**: the columns in the range come from the new block, the others stay; without
matching sizes the assignment is an error. -/
theorem C96_blocks (A B : Mat K) (k n : Nat) :
    (∀ C, A.setCols k n B = some C ↔ B.rows = A.rows ∧ B.cols = n ∧ k + n ≤ A.cols ∧
      C.rows = A.rows ∧ C.cols = A.cols ∧ ∀ i, C i = fun j => if j < k then A i j else if j < k + n then B i (j - k)
        else A i j) ∧
    (∀ C, A.setRows k n B = some C ↔ B.rows = n ∧ B.cols = A.cols ∧ k + n ≤ A.rows ∧
      C.rows = A.rows ∧ C.cols = A.cols ∧ ∀ i, C i = if i < k then A i else if i < k + n then B (i - k) else A i) := by
  constructor
  · intro C
    unfold Mat.setCols
    have e : (fun i j => if k ≤ j ∧ j < k + n then B i (j - k) else A i j) =
        fun i j => if j < k then A i j else if j < k + n then B i (j - k) else A i j := by
      funext i j
      by_cases h1 : j < k
      · rw [if_pos h1, if_neg (by omega)]
      · rw [if_neg h1]
        by_cases h2 : j < k + n
        · rw [if_pos ⟨by omega, h2⟩, if_pos h2]
        · rw [if_neg (by omega), if_neg h2]
    rw [e]
    constructor
    · intro h
      split at h
      · next h0 =>
        cases h
        exact ⟨h0.1, h0.2.1, h0.2.2, rfl, rfl, fun _ => rfl⟩
      · cases h
    · rintro ⟨h1, h2, h3, h4, h5, h6⟩
      rw [if_pos ⟨h1, h2, h3⟩]
      obtain ⟨r, c, g⟩ := C
      simp only at h4 h5 h6
      subst h4 h5
      congr 2
      funext i
      exact (h6 i).symm
  · intro C
    unfold Mat.setRows
    have e : (fun i j => if k ≤ i ∧ i < k + n then B (i - k) j else A i j) =
        fun i => if i < k then A i else if i < k + n then B (i - k) else A i := by
      funext i
      by_cases h1 : i < k
      · rw [if_pos h1]; funext j; rw [if_neg (by omega)]
      · rw [if_neg h1]
        by_cases h2 : i < k + n
        · rw [if_pos h2]; funext j; rw [if_pos ⟨by omega, h2⟩]
        · rw [if_neg h2]; funext j; rw [if_neg (by omega)]
    rw [e]
    constructor
    · intro h
      split at h
      · next h0 =>
        cases h
        exact ⟨h0.1, h0.2.1, h0.2.2, rfl, rfl, fun _ => rfl⟩
      · cases h
    · rintro ⟨h1, h2, h3, h4, h5, h6⟩
      rw [if_pos ⟨h1, h2, h3⟩]
      obtain ⟨r, c, g⟩ := C
      simp only at h4 h5 h6
      subst h4 h5
      congr 2
      funext i
      exact (h6 i).symm

/-- A product and a block assignment. -/
example : ((Mat.ofLists 2 [[1, 2], [3, 4]]).mul (Mat.ofLists 1 [[5], [6]]) : Mat ℚ).toLists = [[17], [39]] ∧
    ((Mat.ofLists 3 [[1, 2, 3], [4, 5, 6]] : Mat ℚ).setCols 1 1 (Mat.ofLists 1 [[7], [8]])).map Mat.toLists =
      some [[1, 7, 3], [4, 8, 6]] ∧
    ((Vec.ofList [1, 2, 3, 4] : Vec ℚ).segment 1 2).toList = [2, 3] := by decide +kernel

end Dynamic

end Tsid.Props
