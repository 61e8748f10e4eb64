import Verif.Model.Ref
import Verif.Spec.Ref
import Verif.Lemmas.Dec
namespace Verif
open Spec

theorem takeWhile_append_stop {α} {p : α → Bool} {a b : List α}
    (ha : a.all p = true) (hb : ∀ x, b.head? = some x → p x = false) :
    (a ++ b).takeWhile p = a ∧ (a ++ b).dropWhile p = b := by
  induction a with
  | nil =>
    cases b with
    | nil => simp
    | cons x xs => have := hb x rfl; simp [this]
  | cons x xs ih =>
    simp only [List.all_cons, Bool.and_eq_true] at ha
    have := ih ha.2
    simp [ha.1, this]

/-- letter number `r` (1..26). -/
def letterOf (r : Nat) : Char := Char.ofNat (64 + r)

theorem letterOf_props {r : Nat} (h1 : 1 ≤ r) (h2 : r ≤ 26) :
    (letterOf r).toNat = 64 + r ∧ isLetter (letterOf r) = true := by
  have : ∀ r, r < 27 → 1 ≤ r → (letterOf r).toNat = 64 + r ∧ isLetter (letterOf r) = true := by
    decide
  exact this r (by omega) h1

theorem letterOf_eq_Z {r : Nat} (h1 : 1 ≤ r) (h2 : r ≤ 26) : letterOf r = 'Z' ↔ r = 26 := by
  constructor
  · intro h
    have := congrArg Char.toNat h
    rw [(letterOf_props h1 h2).1] at this
    have : 'Z'.toNat = 90 := rfl
    omega
  · intro h; subst h; rfl

def rem26 (n : Nat) : Nat := if n % 26 = 0 then 26 else n % 26

theorem rem26_bounds (n : Nat) : 1 ≤ rem26 n ∧ rem26 n ≤ 26 := by
  unfold rem26; split <;> omega

theorem rem26_eq {n : Nat} (h : n ≠ 0) : n = 26 * ((n - 1) / 26) + rem26 n := by
  unfold rem26; split <;> omega

theorem colLoop_eq (n : Nat) (acc : Str) :
    colLoop n acc = if n = 0 then acc else colLoop ((n-1)/26) (letterOf (rem26 n) :: acc) := by
  conv => lhs; unfold colLoop
  rfl

theorem colLoop_acc (n : Nat) (acc : Str) : colLoop n acc = colLoop n [] ++ acc := by
  induction n using Nat.strongRecOn generalizing acc with
  | ind n ih =>
    rw [colLoop_eq, colLoop_eq n []]
    split
    · simp
    · rw [ih _ (by omega), ih _ (by omega) [_]]; simp

theorem colLoop_step {n : Nat} (h : n ≠ 0) :
    colLoop n [] = colLoop ((n-1)/26) [] ++ [letterOf (rem26 n)] := by
  rw [colLoop_eq, if_neg h, colLoop_acc]

theorem colLoop_all (n : Nat) : (colLoop n []).all isLetter = true := by
  induction n using Nat.strongRecOn with
  | ind n ih =>
    by_cases h : n = 0
    · subst h; simp [colLoop]
    · rw [colLoop_step h, List.all_append, ih _ (by omega)]
      simp [(letterOf_props (rem26_bounds n).1 (rem26_bounds n).2).2]

def colValue (s : List Char) : Nat := s.foldl (fun n c => 26 * n + (c.toNat - 64)) 0

theorem colLoop_value (n : Nat) : colValue (colLoop n []) = n := by
  induction n using Nat.strongRecOn with
  | ind n ih =>
    by_cases h : n = 0
    · subst h; simp [colLoop, colValue]
    · rw [colLoop_step h]
      have e := ih ((n-1)/26) (by omega)
      unfold colValue at *
      rw [List.foldl_append, e]
      simp only [List.foldl_cons, List.foldl_nil]
      rw [(letterOf_props (rem26_bounds n).1 (rem26_bounds n).2).1]
      have := rem26_eq h
      omega

theorem colLoop_ne_nil {n : Nat} (h : n ≠ 0) : colLoop n [] ≠ [] := by
  rw [colLoop_step h]; simp

theorem columnName_ne_nil (c : Nat) : columnNumberToName c ≠ [] := colLoop_ne_nil (by omega)
theorem columnName_all (c : Nat) : (columnNumberToName c).all isLetter = true := colLoop_all _

theorem readCol_columnName (c : Nat) : readCol (columnNumberToName c) = some c := by
  unfold readCol
  have hv : (columnNumberToName c).foldl (fun n c => 26 * n + (c.toNat - 64)) 0 = c + 1 :=
    colLoop_value (c+1)
  rw [hv, columnName_all]
  simp [columnName_ne_nil]

theorem colLoop_succ (n : Nat) : succRev (colLoop n []).reverse = (colLoop (n+1) []).reverse := by
  induction n using Nat.strongRecOn with
  | ind n ih =>
    by_cases h : n = 0
    · subst h; simp [colLoop]; rfl
    · rw [colLoop_step h, colLoop_step (n := n+1) (by omega)]
      simp only [List.reverse_append, List.reverse_cons, List.reverse_nil, List.nil_append,
        List.singleton_append, succRev]
      have b := rem26_bounds n
      simp only [letterOf_eq_Z b.1 b.2]
      by_cases hz : rem26 n = 26
      · rw [if_pos hz, ih _ (by omega)]
        have e := rem26_eq h
        have e' := rem26_eq (n := n+1) (by omega)
        have b' := rem26_bounds (n+1)
        have h1 : rem26 (n+1) = 1 := by omega
        have h2 : (n + 1 - 1) / 26 = (n-1)/26 + 1 := by omega
        rw [h1, h2]; rfl
      · rw [if_neg hz]
        have e := rem26_eq h
        have e' := rem26_eq (n := n+1) (by omega)
        have b' := rem26_bounds (n+1)
        have h2 : (n + 1 - 1) / 26 = (n-1)/26 := by omega
        have h1 : rem26 (n+1) = rem26 n + 1 := by omega
        rw [h1, h2, (letterOf_props b.1 b.2).1]; rfl

theorem columnName_spec (c : Nat) : columnNumberToName c = colNameSpec c := by
  induction c with
  | zero => simp [columnNumberToName, colLoop, colNameSpec]
  | succ n ih =>
    rw [colNameSpec, ← ih, succName, columnNumberToName, columnNumberToName, colLoop_succ,
      List.reverse_reverse]

theorem isLetter_not_digit {c : Char} (h : isDigit c = true) : isLetter c = false := by
  simp only [isDigit, isLetter, Bool.and_eq_true, decide_eq_true_eq] at *
  have h2 := h.2
  rw [Bool.and_eq_false_iff]
  left
  simp only [decide_eq_false_iff_not]
  intro h3
  have := Nat.le_trans (Char.le_def.mp h3) (Char.le_def.mp h2)
  revert this; decide

theorem showNat_head_not_letter (n : Nat) : ∀ x, (showNat n).head? = some x → isLetter x = false := by
  intro x hx
  exact isLetter_not_digit (showNat_isDigit (List.mem_of_head? hx))

theorem readRow_show (r : Nat) : readRow (showNat (r+1)) = some r := by
  simp [readRow, readNat_showNat]

theorem readA1_cell (r c : Nat) : readA1 (rowColToCell r c) = some (r, c) := by
  unfold readA1 rowColToCell
  obtain ⟨h1, h2⟩ := takeWhile_append_stop (columnName_all c) (showNat_head_not_letter (r+1))
  rw [h1, h2, readCol_columnName, readRow_show]

theorem readA1Abs_cell (r c : Nat) : readA1Abs (rowColToCellAbs r c) = some (r, c) := by
  unfold readA1Abs rowColToCellAbs
  have hb : ∀ x, ('$' :: showNat (r+1)).head? = some x → isLetter x = false := by
    intro x hx; simp at hx; subst hx; decide
  obtain ⟨h1, h2⟩ := takeWhile_append_stop (columnName_all c) hb
  simp only [List.cons_append]
  rw [h2, h1, readCol_columnName]
  simp only [readRow_show]

theorem isLetter_ne_colon {c : Char} (h : isLetter c = true) : c ≠ ':' := by
  rintro rfl; revert h; decide
theorem isDigit_ne_colon {c : Char} (h : isDigit c = true) : c ≠ ':' := by
  rintro rfl; revert h; decide

theorem cell_no_colon (r c : Nat) : (rowColToCell r c).all (fun x => decide (x ≠ ':')) = true := by
  rw [List.all_eq_true]
  intro x hx
  simp only [rowColToCell, List.mem_append] at hx
  rcases hx with h | h
  · simpa using isLetter_ne_colon (List.all_eq_true.mp (columnName_all c) x h)
  · simpa using isDigit_ne_colon (showNat_isDigit h)

theorem cellAbs_no_colon (r c : Nat) :
    (rowColToCellAbs r c).all (fun x => decide (x ≠ ':')) = true := by
  rw [List.all_eq_true]
  intro x hx
  simp only [rowColToCellAbs, List.cons_append, List.mem_append, List.mem_cons] at hx
  rcases hx with h | h | h | h
  · subst h; decide
  · simpa using isLetter_ne_colon (List.all_eq_true.mp (columnName_all c) x h)
  · subst h; decide
  · simpa using isDigit_ne_colon (showNat_isDigit h)

theorem readRangeWith_two {rd : List Char → Option (Nat × Nat)} {a b : List Char} {p q}
    (ha : a.all (fun x => decide (x ≠ ':')) = true) (hp : rd a = some p) (hq : rd b = some q) :
    readRangeWith rd (a ++ ':' :: b) = some (p, q) := by
  have hb : ∀ x, (':' :: b).head? = some x → decide (x ≠ ':') = false := by
    intro x hx; simp at hx; subst hx; decide
  obtain ⟨h1, h2⟩ := takeWhile_append_stop ha hb
  unfold readRangeWith
  rw [h1, h2]; simp [hp, hq]

theorem readRangeWith_one {rd : List Char → Option (Nat × Nat)} {a : List Char} {p}
    (ha : a.all (fun x => decide (x ≠ ':')) = true) (hp : rd a = some p) :
    readRangeWith rd a = some (p, p) := by
  have hb : ∀ x, ([] : List Char).head? = some x → decide (x ≠ ':') = false := by simp
  obtain ⟨h1, h2⟩ := takeWhile_append_stop ha hb
  simp only [List.append_nil] at h1 h2
  unfold readRangeWith
  rw [h2]; simp [hp]

end Verif
