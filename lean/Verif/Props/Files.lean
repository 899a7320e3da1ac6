import Verif.Model.Files
import Mathlib.Tactic.Linarith
import Mathlib.Tactic.Ring

/-!
# C58, C59: matrix files and special values
-/

set_option linter.unusedSectionVars false

namespace Tsid.Props

theorem toBytes_length (k n : Nat) : (toBytes k n).length = k := by
  induction k generalizing n with
  | zero => rfl
  | succ k ih => simp [toBytes, ih]

theorem ofBytes_toBytes (k n : Nat) : ofBytes (toBytes k n) = n % 256 ^ k := by
  induction k generalizing n with
  | zero => simp [toBytes, ofBytes, Nat.mod_one]
  | succ k ih =>
    simp only [toBytes, ofBytes, ih]
    rw [Nat.pow_succ', Nat.mod_mul]

/-- A matrix of scalars of `sz` bytes that fits in memory. -/
structure Valid (sz : Nat) (M : MemMat) : Prop where
  rows : M.rows < 2 ^ 63
  cols : M.cols < 2 ^ 63
  data : M.data.length = M.rows * M.cols * sz

theorem read_full (a b buf : List Byte) (h : buf.length = a.length) :
    InStream.read ⟨a ++ b, false⟩ buf = (a, ⟨b, false⟩) := by
  simp only [InStream.read, Bool.false_eq_true, if_false, List.length_append]
  rw [if_pos (by omega), h, List.take_left, List.drop_left]

theorem header (M : MemMat) (rest : List Byte) (T : MemMat) :
    readMatrixFromFile (some (toBytes 8 M.rows ++ toBytes 8 M.cols ++ rest)) T =
      if M.rows % 256 ^ 8 = T.rows ∧ M.cols % 256 ^ 8 = T.cols then
        .ok { T with data := (InStream.read ⟨rest, false⟩ T.data).1 } true
      else .ub := by
  simp only [readMatrixFromFile]
  rw [List.append_assoc, read_full (toBytes 8 M.rows) _ _ (by simp only [toBytes_length])]
  simp only
  rw [read_full (toBytes 8 M.cols) _ _ (by simp only [toBytes_length])]
  simp only [ofBytes_toBytes]

theorem mod_of_valid {sz : Nat} {M : MemMat} (h : Valid sz M) :
    M.rows % 256 ^ 8 = M.rows ∧ M.cols % 256 ^ 8 = M.cols := by
  have h1 := h.rows
  have h2 := h.cols
  exact ⟨Nat.mod_eq_of_lt (by omega), Nat.mod_eq_of_lt (by omega)⟩

theorem header_take (M : MemMat) (w : Nat) :
    (toBytes 8 M.rows ++ toBytes 8 M.cols ++ M.data).take (16 + w) =
      toBytes 8 M.rows ++ toBytes 8 M.cols ++ M.data.take w := by
  have : (toBytes 8 M.rows ++ toBytes 8 M.cols).length = 16 := by simp only [List.length_append, toBytes_length]
  rw [← this, List.take_length_add_append]

/-- **C58, the round trip**, for a target that already has the sizes of the matrix and a file that was written
completely: the target becomes the matrix.  Missing with respect to C58: targets of other sizes (`C58_sizes`) and the
detection of incomplete files (`C58_truncated`). -/
theorem C58_round_trip_partial {sz : Nat} {M T : MemMat} (hM : Valid sz M) (hT : Valid sz T) (hr : T.rows = M.rows)
    (hc : T.cols = M.cols) {w : Nat} (hw : 16 + M.data.length ≤ w) :
    (writeMatrixToFile true w M).2 = true ∧
      readMatrixFromFile (writeMatrixToFile true w M).1 T = .ok M true := by
  refine ⟨rfl, ?_⟩
  have hl : T.data.length = M.data.length := by rw [hT.data, hM.data, hr, hc]
  have : (toBytes 8 M.rows ++ toBytes 8 M.cols ++ M.data).take w = toBytes 8 M.rows ++ toBytes 8 M.cols ++ M.data := by
    apply List.take_of_length_le
    simp only [List.length_append, toBytes_length]
    omega
  simp only [writeMatrixToFile, if_true, this]
  rw [header, if_pos ⟨(mod_of_valid hM).1.trans hr.symm, (mod_of_valid hM).2.trans hc.symm⟩]
  have := read_full M.data [] T.data hl
  rw [List.append_nil] at this
  rw [this]
  obtain ⟨r, c, d⟩ := T
  obtain ⟨r', c', d'⟩ := M
  simp only at hr hc
  subst hr hc
  rfl

/-- **C58 fails for files cut off in the data**: whatever the number of bytes after the header, the function returns
`true`; the coefficients that are missing keep their old bytes. -/
theorem C58_truncated {sz : Nat} {M T : MemMat} (hM : Valid sz M) (hT : Valid sz T) (hr : T.rows = M.rows)
    (hc : T.cols = M.cols) {w : Nat} (hw : w < M.data.length) :
    readMatrixFromFile (writeMatrixToFile true (16 + w) M).1 T =
      .ok ⟨M.rows, M.cols, M.data.take w ++ T.data.drop w⟩ true := by
  have hl : T.data.length = M.data.length := by rw [hT.data, hM.data, hr, hc]
  simp only [writeMatrixToFile, if_true, header_take]
  rw [header, if_pos ⟨(mod_of_valid hM).1.trans hr.symm, (mod_of_valid hM).2.trans hc.symm⟩]
  simp only [InStream.read, Bool.false_eq_true, if_false]
  rw [if_neg (by rw [List.length_take]; omega)]
  rw [List.length_take, Nat.min_eq_left hw.le, hr, hc]

/-- **C58 fails for targets of other sizes**: reading a complete file into them is undefined behaviour, the matrix is not
resized. -/
theorem C58_sizes {sz : Nat} {M T : MemMat} (hM : Valid sz M) (h : T.rows ≠ M.rows ∨ T.cols ≠ M.cols) {w : Nat}
    (hw : 16 + M.data.length ≤ w) : (readMatrixFromFile (writeMatrixToFile true w M).1 T).isUB = true := by
  have : (toBytes 8 M.rows ++ toBytes 8 M.cols ++ M.data).take w = toBytes 8 M.rows ++ toBytes 8 M.cols ++ M.data := by
    apply List.take_of_length_le
    simp only [List.length_append, toBytes_length]
    omega
  simp only [writeMatrixToFile, if_true, this]
  rw [header, if_neg]
  · rfl
  · rw [(mod_of_valid hM).1, (mod_of_valid hM).2]
    rintro ⟨h1, h2⟩
    exact h.elim (fun h => h h1.symm) (fun h => h h2.symm)

/-- An empty file is a complete matrix for a target without coefficients: `true` is returned although not even the
header is there. -/
theorem C58_empty_file : readMatrixFromFile (some []) ⟨0, 0, []⟩ = .ok ⟨0, 0, []⟩ true := rfl

/-- A file that can be opened is never reported as incomplete, whatever its bytes. -/
theorem C58_never_reported (bytes : List Byte) (T T' : MemMat) (b : Bool)
    (h : readMatrixFromFile (some bytes) T = .ok T' b) : b = true := by
  simp only [readMatrixFromFile] at h
  split at h
  · cases h; rfl
  · cases h

/-- A file that cannot be opened is reported, the matrix is kept. -/
theorem C58_not_opened (w : Nat) (M T : MemMat) :
    (writeMatrixToFile false w M).2 = false ∧ readMatrixFromFile (writeMatrixToFile false w M).1 T = .ok T false :=
  ⟨rfl, rfl⟩

/-- Two by one matrices of two-byte scalars meet the hypotheses of C58; the second file lacks the last byte. -/
example : Valid 2 ⟨2, 1, [1, 2, 3, 4]⟩ ∧ Valid 2 ⟨2, 1, [9, 9, 9, 9]⟩ ∧
    readMatrixFromFile (writeMatrixToFile true 20 ⟨2, 1, [1, 2, 3, 4]⟩).1 ⟨2, 1, [9, 9, 9, 9]⟩ =
      .ok ⟨2, 1, [1, 2, 3, 4]⟩ true ∧
    readMatrixFromFile (writeMatrixToFile true 19 ⟨2, 1, [1, 2, 3, 4]⟩).1 ⟨2, 1, [9, 9, 9, 9]⟩ =
      .ok ⟨2, 1, [1, 2, 3, 9]⟩ true :=
  ⟨⟨by decide, by decide, rfl⟩, ⟨by decide, by decide, rfl⟩, rfl, rfl⟩

variable {K : Type} [AddGroup K] [DecidableEq K]

theorem all_entries {α : Type} (A : Mat α) (p : α → Bool) :
    A.allEntries p = true ↔ ∀ i j, i < A.rows → j < A.cols → p (A i j) = true := by
  simp only [Mat.allEntries, List.all_eq_true, List.mem_range]
  exact ⟨fun h i j hi hj => h i hi j hj, fun h i hi j hj => h i j hi hj⟩

/-- **C59 for `isFinite`**: true iff no entry is infinite or not a number. -/
theorem C59_isFinite (A : Mat (FP K)) :
    isFiniteMat A = true ↔ ∀ i j, i < A.rows → j < A.cols → ∃ x, A i j = .fin x := by
  rw [isFiniteMat, all_entries]
  refine forall_congr' fun i => forall_congr' fun j => imp_congr_right fun _ => imp_congr_right fun _ => ?_
  cases A i j with
  | fin x => simp [FP.sub, FP.eq]
  | inf b => simp [FP.sub, FP.eq]
  | nan => simp [FP.sub, FP.eq]

/-- **C59 for `is_nan`, which is inverted**: it is true iff no entry is NaN.  Missing with respect to C59: the claim of
the name, which is false (`C59_inverted`). -/
theorem C59_is_nan_partial (A : Mat (FP K)) :
    isNanMat A = true ↔ ∀ i j, i < A.rows → j < A.cols → A i j ≠ .nan := by
  rw [isNanMat, all_entries]
  refine forall_congr' fun i => forall_congr' fun j => imp_congr_right fun _ => imp_congr_right fun _ => ?_
  cases A i j with
  | fin x => simp [FP.eq]
  | inf b => simp [FP.eq]
  | nan => simp [FP.eq]

/-- **C59 fails for `is_nan`**: on every matrix it says the opposite of "some entry is NaN". -/
theorem C59_inverted (A : Mat (FP K)) :
    ¬ (isNanMat A = true ↔ ∃ i j, i < A.rows ∧ j < A.cols ∧ A i j = .nan) := by
  rw [C59_is_nan_partial]
  intro h
  by_cases hn : ∃ i j, i < A.rows ∧ j < A.cols ∧ A i j = .nan
  · obtain ⟨i, j, hi, hj, e⟩ := hn
    exact h.2 ⟨i, j, hi, hj, e⟩ i j hi hj e
  · exact hn (h.1 fun i j hi hj e => hn ⟨i, j, hi, hj, e⟩)

example : isFiniteMat (⟨1, 2, fun _ j => if j = 0 then .fin (1 : ℚ) else .inf true⟩) = false ∧
    isNanMat (⟨1, 2, fun _ j => if j = 0 then .fin (1 : ℚ) else .inf true⟩) = true ∧
    isNanMat (⟨1, 2, fun _ j => if j = 0 then .fin (1 : ℚ) else .nan⟩) = false := by
  decide +kernel

end Tsid.Props
