import Verif.Lemmas.Ref
/-!
C01, C02: A1 references and ranges.
-/
namespace Verif
open Spec

/-- C01: column names are produced in exactly Excel's odometer order, for every column. -/
theorem C01_column_name_is_odometer (col : Nat) :
    columnNumberToName col = colNameSpec col := columnName_spec col

/-- C01: a column name is a non-empty string of letters `A`-`Z`. -/
theorem C01_column_name_letters (col : Nat) :
    columnNumberToName col ≠ [] ∧ ∀ c ∈ columnNumberToName col, isLetter c = true :=
  ⟨columnName_ne_nil col, fun c h => List.all_eq_true.mp (columnName_all col) c h⟩

private theorem foldlM_colNumStep (s : Str) (n : Nat) (hs : s.all isLetter = true)
    (hb : s.foldl (fun n c => 26 * n + (c.toNat - 64)) n < 65536) :
    s.foldlM colNumStep n = some (s.foldl (fun n c => 26 * n + (c.toNat - 64)) n) := by
  induction s generalizing n with
  | nil => rfl
  | cons c cs ih =>
    simp only [List.all_cons, Bool.and_eq_true] at hs
    have hmono : ∀ (l : List Char) (a : Nat), l.all isLetter = true →
        a ≤ l.foldl (fun n c => 26 * n + (c.toNat - 64)) a := by
      intro l
      induction l with
      | nil => intro a _; simp
      | cons x xs ihx =>
        intro a hl
        simp only [List.all_cons, Bool.and_eq_true] at hl
        have := ihx (26 * a + (x.toNat - 64)) hl.2
        simp only [List.foldl_cons]; omega
    simp only [List.foldl_cons] at hb ⊢
    have hle := hmono cs (26 * n + (c.toNat - 64)) hs.2
    have hc := hs.1
    simp only [isLetter, Bool.and_eq_true, decide_eq_true_eq] at hc
    have c1 : 65 ≤ c.toNat := Char.le_def.mp hc.1
    have c2 : c.toNat ≤ 90 := Char.le_def.mp hc.2
    have hstep : colNumStep n c = some (26 * n + (c.toNat - 64)) := by
      unfold colNumStep
      have : c.toNat % 65536 = c.toNat := Nat.mod_eq_of_lt (by omega)
      simp only [this]
      rw [if_neg (by omega), if_neg (by omega), if_neg (by omega)]
      congr 1; omega
    simp only [List.foldlM_cons, hstep]
    exact ih _ hs.2 hb

/-- C01: for every column that fits the 16-bit column type, converting to a name and back is
the identity and no 16-bit operation overflows on the way (`none` would be a panic). -/
theorem C01_column_roundtrip (col : Nat) (h : col < 65535) :
    columnNameToNumber (columnNumberToName col) = some col := by
  have hv : (columnNumberToName col).foldl (fun n c => 26 * n + (c.toNat - 64)) 0 = col + 1 :=
    colLoop_value (col+1)
  unfold columnNameToNumber
  rw [if_neg (columnName_ne_nil col),
    foldlM_colNumStep _ _ (columnName_all col) (by rw [hv]; omega), hv]
  simp

/-- C01: a relative reference reads back as the cell it was made for. -/
theorem C01_cell_roundtrip (row col : Nat) :
    readA1 (rowColToCell row col) = some (row, col) := readA1_cell row col

/-- C01: an absolute reference reads back as the cell it was made for. -/
theorem C01_cell_abs_roundtrip (row col : Nat) :
    readA1Abs (rowColToCellAbs row col) = some (row, col) := readA1Abs_cell row col

/-- C01: two different cells never get the same reference. -/
theorem C01_cell_injective (r c r' c' : Nat) :
    (rowColToCell r c = rowColToCell r' c' ↔ r = r' ∧ c = c') ∧
    (rowColToCellAbs r c = rowColToCellAbs r' c' ↔ r = r' ∧ c = c') := by
  constructor
  · constructor
    · intro h
      have := congrArg readA1 h
      simpa [readA1_cell] using this
    · rintro ⟨rfl, rfl⟩; rfl
  · constructor
    · intro h
      have := congrArg readA1Abs h
      simpa [readA1Abs_cell] using this
    · rintro ⟨rfl, rfl⟩; rfl

/-- C02: a range string denotes exactly the requested corners. -/
theorem C02_range_roundtrip (r1 c1 r2 c2 : Nat) :
    readRange (cellRange r1 c1 r2 c2) = some ((r1, c1), (r2, c2)) := by
  unfold cellRange readRange
  simp only
  split
  · rename_i h
    obtain ⟨rfl, rfl⟩ := (C01_cell_injective r1 c1 r2 c2).1.mp h
    exact readRangeWith_one (cell_no_colon _ _) (readA1_cell _ _)
  · exact readRangeWith_two (cell_no_colon _ _) (readA1_cell _ _) (readA1_cell _ _)

/-- C02: the same for absolute ranges. -/
theorem C02_range_abs_roundtrip (r1 c1 r2 c2 : Nat) :
    readRangeAbs (cellRangeAbs r1 c1 r2 c2) = some ((r1, c1), (r2, c2)) := by
  unfold cellRangeAbs readRangeAbs
  simp only
  split
  · rename_i h
    obtain ⟨rfl, rfl⟩ := (C01_cell_injective r1 c1 r2 c2).2.mp h
    exact readRangeWith_one (cellAbs_no_colon _ _) (readA1Abs_cell _ _)
  · exact readRangeWith_two (cellAbs_no_colon _ _) (readA1Abs_cell _ _) (readA1Abs_cell _ _)

/-- C02: a one-cell range is written as one reference, without a colon. -/
theorem C02_single_cell_collapses (r c : Nat) :
    cellRange r c r c = rowColToCell r c ∧ ':' ∉ cellRange r c r c := by
  have : cellRange r c r c = rowColToCell r c := by simp [cellRange]
  refine ⟨this, ?_⟩
  rw [this]
  intro hm
  simpa using List.all_eq_true.mp (cell_no_colon r c) _ hm

/-- C02: different rectangles give different strings. -/
theorem C02_range_injective (a b c d a' b' c' d' : Nat) :
    (cellRange a b c d = cellRange a' b' c' d' →
      a = a' ∧ b = b' ∧ c = c' ∧ d = d') ∧
    (cellRangeAbs a b c d = cellRangeAbs a' b' c' d' →
      a = a' ∧ b = b' ∧ c = c' ∧ d = d') := by
  constructor
  · intro h
    have := congrArg readRange h
    simp only [C02_range_roundtrip, Option.some.injEq, Prod.mk.injEq] at this
    omega
  · intro h
    have := congrArg readRangeAbs h
    simp only [C02_range_abs_roundtrip, Option.some.injEq, Prod.mk.injEq] at this
    omega

-- Non-vacuity / sanity (tests of the model, not part of the proofs).
example : columnNumberToName 16383 = "XFD".toList := by
  simp [columnNumberToName, colLoop]
example : (16383 : Nat) < 65535 := by decide
example : readRange "B3:AA10".toList = some ((2, 1), (9, 26)) := by decide

end Verif
