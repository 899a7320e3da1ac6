import Verif.Model.Formulation
import Verif.Spec.Constraint
import Mathlib.Algebra.BigOperators.Ring.Finset
import Mathlib.Tactic.Linarith

/-!
# Lemmas on block assignments and matrix rows
-/

namespace Tsid

open Finset

variable {K : Type}

namespace Mat

theorem setCols_some {A B A' : Mat K} {j0 n : Nat} (h : A.setCols j0 n B = some A') :
    B.rows = A.rows ∧ B.cols = n ∧ j0 + n ≤ A.cols ∧
    A' = ⟨A.rows, A.cols, fun i j => if j0 ≤ j ∧ j < j0 + n then B i (j - j0) else A i j⟩ := by
  unfold setCols at h
  split at h
  · next hc => exact ⟨hc.1, hc.2.1, hc.2.2, (Option.some.inj h).symm⟩
  · cases h

theorem setRows_some {A B A' : Mat K} {j0 n : Nat} (h : A.setRows j0 n B = some A') :
    B.rows = n ∧ B.cols = A.cols ∧ j0 + n ≤ A.rows ∧
    A' = ⟨A.rows, A.cols, fun i j => if j0 ≤ i ∧ i < j0 + n then B (i - j0) j else A i j⟩ := by
  unfold setRows at h
  split at h
  · next hc => exact ⟨hc.1, hc.2.1, hc.2.2, (Option.some.inj h).symm⟩
  · cases h

theorem setCols_isSome {A B : Mat K} {j0 n : Nat} (h1 : B.rows = A.rows) (h2 : B.cols = n)
    (h3 : j0 + n ≤ A.cols) :
    A.setCols j0 n B =
      some ⟨A.rows, A.cols, fun i j => if j0 ≤ j ∧ j < j0 + n then B i (j - j0) else A i j⟩ := by
  unfold setCols
  rw [if_pos ⟨h1, h2, h3⟩]

theorem setRows_isSome {A B : Mat K} {j0 n : Nat} (h1 : B.rows = n) (h2 : B.cols = A.cols)
    (h3 : j0 + n ≤ A.rows) :
    A.setRows j0 n B =
      some ⟨A.rows, A.cols, fun i j => if j0 ≤ i ∧ i < j0 + n then B (i - j0) j else A i j⟩ := by
  unfold setRows
  rw [if_pos ⟨h1, h2, h3⟩]

end Mat

/-- A sum over a range is carried by a block outside which the terms vanish. -/
theorem sum_block [AddCommMonoid K] (f : Nat → K) (N j0 n : Nat) (h : j0 + n ≤ N)
    (hz : ∀ j, j < N → ¬ (j0 ≤ j ∧ j < j0 + n) → f j = 0) :
    ∑ j ∈ range N, f j = ∑ c ∈ range n, f (j0 + c) := by
  have h1 : ∑ j ∈ range N, f j = ∑ j ∈ Ico j0 (j0 + n), f j := by
    symm
    apply Finset.sum_subset
    · intro j hj
      rw [mem_Ico] at hj
      rw [mem_range]; omega
    · intro j hj hn
      rw [mem_range] at hj
      rw [mem_Ico] at hn
      exact hz j hj hn
  rw [h1, Finset.sum_Ico_eq_sum_range]
  simp

namespace Spec

/-- Row of a matrix that is zero outside a block of columns. -/
theorem row_block [Field K] (A : Mat K) (x : Nat → K) (i j0 n : Nat) (h : j0 + n ≤ A.cols)
    (hz : ∀ j, j < A.cols → ¬ (j0 ≤ j ∧ j < j0 + n) → A i j = 0) :
    row A x i = ∑ c ∈ range n, A i (j0 + c) * x (j0 + c) := by
  unfold row
  apply sum_block (fun j => A i j * x j) A.cols j0 n h
  intro j hj hn
  simp [hz j hj hn]

theorem row_split [Field K] (A : Mat K) (x : Nat → K) (i n k : Nat) (h : A.cols = n + k) :
    row A x i = ∑ j ∈ range n, A i j * x j + ∑ j ∈ range k, A i (n + j) * x (n + j) := by
  unfold row
  rw [h, Finset.sum_range_add]

end Spec

end Tsid
