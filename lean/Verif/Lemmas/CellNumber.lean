import Verif.Spec.CellXml
/-!
Rust's test for a floating point number against the automaton for decimal numbers.
-/
namespace Verif
open Spec

theorem digit_eq : isAsciiDigit = isDigit := rfl

theorem dec_expDigits (s : Str) : decimalFrom .expDigits s = s.all isDigit := by
  induction s with
  | nil => rfl
  | cons c s ih =>
    rw [decimalFrom, NumState.step]
    by_cases h : isDigit c = true
    · rw [if_pos h]; simp [h, ih]
    · rw [if_neg h]; simp [h]

theorem dec_expSign (s : Str) : decimalFrom .expSign s = (decide (s ≠ []) && s.all isDigit) := by
  cases s with
  | nil => rfl
  | cons c s =>
    rw [decimalFrom, NumState.step]
    by_cases h : isDigit c = true
    · rw [if_pos h]; simp [h, dec_expDigits]
    · rw [if_neg h]; simp [h]

theorem strip_sign {c : Char} (r : Str) (h : c = '+' ∨ c = '-') : stripSign (c :: r) = r := by
  rcases h with rfl | rfl <;> rfl

theorem strip_other {c : Char} (r : Str) (h : ¬ (c = '+' ∨ c = '-')) : stripSign (c :: r) = c :: r := by
  simp only [not_or] at h
  simp [stripSign, h.1, h.2]

theorem dec_exp (s : Str) : decimalFrom .exp s = (decide (stripSign s ≠ []) && (stripSign s).all isDigit) := by
  cases s with
  | nil => rfl
  | cons c s =>
    by_cases h1 : c = '+' ∨ c = '-'
    · rw [strip_sign s h1]
      simp only [decimalFrom, NumState.step, if_pos h1]; exact dec_expSign s
    · rw [strip_other s h1]
      simp only [decimalFrom, NumState.step, if_neg h1]
      by_cases h : isDigit c = true
      · rw [if_pos h]; simp [h, dec_expDigits]
      · rw [if_neg h]; simp [h]

theorem e_not_digit {c : Char} (h : c = 'e' ∨ c = 'E') : isDigit c = false := by
  rcases h with rfl | rfl <;> decide

theorem dec_expPart (st : NumState) (hst : st = .int ∨ st = .frac) (c : Char) (s : Str)
    (hd : isDigit c = false) (hp : c ≠ '.') : decimalFrom st (c :: s) = isExponent (c :: s) := by
  have : decimalFrom st (c :: s) = if c = 'e' ∨ c = 'E' then decimalFrom .exp s else false := by
    rw [decimalFrom]
    by_cases h : c = 'e' ∨ c = 'E'
    · rcases hst with rfl | rfl
      · simp only [NumState.step, hd, Bool.false_eq_true, if_false, if_neg hp, if_pos h]
      · simp only [NumState.step, hd, Bool.false_eq_true, if_false, if_pos h]
    · rcases hst with rfl | rfl
      · simp only [NumState.step, hd, Bool.false_eq_true, if_false, if_neg hp, if_neg h]
      · simp only [NumState.step, hd, Bool.false_eq_true, if_false, if_neg h]
  rw [this, isExponent, dec_exp]
  by_cases h : c = 'e' ∨ c = 'E'
  · rw [if_pos h, digit_eq]
    rcases h with rfl | rfl <;> simp
  · rw [if_neg h]
    simp only [not_or] at h
    simp [h.1, h.2]

theorem dec_frac (s : Str) : decimalFrom .frac s = isExponent (s.dropWhile isDigit) := by
  induction s with
  | nil => rfl
  | cons c s ih =>
    by_cases h : isDigit c = true
    · rw [decimalFrom, NumState.step, if_pos h, List.dropWhile_cons, if_pos h]; exact ih
    · rw [List.dropWhile_cons, if_neg h]
      by_cases hp : c = '.'
      · subst hp; rfl
      · exact dec_expPart .frac (Or.inr rfl) c s (by simpa using h) hp

theorem dec_point (s : Str) : decimalFrom .point s =
    (decide (s.takeWhile isDigit ≠ []) && isExponent (s.dropWhile isDigit)) := by
  cases s with
  | nil => rfl
  | cons c s =>
    by_cases h : isDigit c = true
    · rw [decimalFrom, NumState.step, if_pos h, List.dropWhile_cons, if_pos h, List.takeWhile_cons, if_pos h]
      simp [dec_frac]
    · rw [decimalFrom, NumState.step, if_neg h, List.takeWhile_cons, if_neg h]; simp

theorem dec_int (s : Str) : decimalFrom .int s =
    (match s.dropWhile isDigit with
      | '.' :: r => isExponent (r.dropWhile isDigit)
      | r => isExponent r) := by
  induction s with
  | nil => rfl
  | cons c s ih =>
    by_cases h : isDigit c = true
    · rw [decimalFrom, NumState.step, if_pos h, List.dropWhile_cons, if_pos h]; exact ih
    · rw [List.dropWhile_cons, if_neg h]
      by_cases hp : c = '.'
      · subst hp
        rw [decimalFrom, NumState.step, if_neg h, if_pos rfl]
        exact dec_frac s
      · have := dec_expPart .int (Or.inl rfl) c s (by simpa using h) hp
        rw [this]
        split
        · rename_i e; cases e; exact absurd rfl hp
        · rfl

theorem dec_signed (s : Str) : decimalFrom .signed s = isPlainNumber s := by
  cases s with
  | nil => rfl
  | cons c s =>
    unfold isPlainNumber
    rw [digit_eq]
    by_cases h : isDigit c = true
    · rw [decimalFrom, NumState.step, if_pos h, List.dropWhile_cons, if_pos h, List.takeWhile_cons, if_pos h]
      dsimp only
      rw [dec_int]
      have hn : decide ((c :: List.takeWhile isDigit s) ≠ []) = true := by simp
      cases e : List.dropWhile isDigit s with
      | nil => simp
      | cons d r => by_cases hd : d = '.' <;> simp [hd]
    · rw [List.dropWhile_cons, if_neg h, List.takeWhile_cons, if_neg h]
      by_cases hp : c = '.'
      · subst hp
        rw [decimalFrom, NumState.step, if_neg h, if_pos rfl]
        dsimp only
        rw [dec_point]; simp
      · rw [decimalFrom, NumState.step, if_neg h, if_neg hp]
        simp [hp]

theorem dec_start (s : Str) : isDecimal s = isPlainNumber (stripSign s) := by
  unfold isDecimal
  cases s with
  | nil => rfl
  | cons c s =>
    by_cases h1 : c = '+' ∨ c = '-'
    · rw [strip_sign s h1]
      simp only [decimalFrom, NumState.step, if_pos h1]; exact dec_signed s
    · rw [strip_other s h1, ← dec_signed]
      simp only [decimalFrom, NumState.step, if_neg h1]

theorem lowerMap_sign {c : Char} {s : Str} (h : c = '+' ∨ c = '-') :
    (c :: s).map (fun c => if 'A' ≤ c && c ≤ 'Z' then Char.ofNat (c.toNat + 32) else c) =
      c :: s.map (fun c => if 'A' ≤ c && c ≤ 'Z' then Char.ofNat (c.toNat + 32) else c) := by
  rcases h with rfl | rfl <;> rfl

/-- Rust accepts exactly the decimal numbers and, with an optional sign, the three words. -/
theorem parsesAsF64_iff (s : Str) : parsesAsF64 s = (isDecimal s || numberWord s) := by
  have hw : numberWord s = isInfNan (stripSign s) := by
    cases s with
    | nil => rfl
    | cons c s =>
      by_cases h : c = '+' ∨ c = '-'
      · unfold numberWord
        dsimp only
        rw [lowerMap_sign h]
        rw [strip_sign s h]
        unfold isInfNan
        generalize s.map (fun c => if 'A' ≤ c && c ≤ 'Z' then Char.ofNat (c.toNat + 32) else c) = t
        have n1 : ((c :: t : Str) == "nan".toList) = false := by rcases h with rfl | rfl <;> simp
        have n2 : ((c :: t : Str) == "inf".toList) = false := by rcases h with rfl | rfl <;> simp
        have n3 : ((c :: t : Str) == "infinity".toList) = false := by rcases h with rfl | rfl <;> simp
        have hc : (decide ((c :: t).head? = some '+') || decide ((c :: t).head? = some '-')) = true := by
          rcases h with rfl | rfl <;> simp
        have hn : ["nan".toList, "inf".toList, "infinity".toList].contains (c :: t) = false := by
          simp only [List.contains_cons, List.contains_nil, n1, n2, n3, Bool.or_self]
        rw [hc, hn, Bool.and_true, Bool.false_or]
        rfl
      · rw [strip_other s h]
        unfold numberWord isInfNan
        dsimp only
        have hh : ∀ x : Char, x = '+' ∨ x = '-' → (if 'A' ≤ c && c ≤ 'Z' then Char.ofNat (c.toNat + 32) else c) ≠ x := by
          intro x hx hc
          split at hc
          · rename_i hr
            have : c.toNat ≤ 90 ∧ 65 ≤ c.toNat := by
              simp only [Bool.and_eq_true, decide_eq_true_eq] at hr
              exact ⟨hr.2, hr.1⟩
            have hv : (Char.ofNat (c.toNat + 32)).toNat = c.toNat + 32 := by
              generalize hm : c.toNat + 32 = m
              have hm' : 97 ≤ m ∧ m ≤ 122 := by omega
              have all : ∀ k : Fin 26, (Char.ofNat (97 + k.val)).toNat = 97 + k.val := by decide
              have := all ⟨m - 97, by omega⟩
              rw [show 97 + (m - 97) = m by omega] at this
              exact this
            have := congrArg Char.toNat hc
            rw [hv] at this
            rcases hx with rfl | rfl <;> (simp at this; omega)
          · rw [hc] at h; exact h hx
        have h1 := hh '+' (Or.inl rfl)
        have h2 := hh '-' (Or.inr rfl)
        simp only [List.map_cons, List.head?_cons, Option.some.injEq, h1, h2, decide_false, Bool.or_self,
          Bool.and_false, Bool.or_false]
  unfold parsesAsF64
  rw [dec_start, hw]

/-- The characters of a decimal number. -/
def numChar (c : Char) : Bool := isDigit c || c = '+' || c = '-' || c = '.' || c = 'e' || c = 'E'

theorem decimal_chars (s : Str) (st : NumState) (h : decimalFrom st s = true) : s.all numChar = true := by
  induction s generalizing st with
  | nil => rfl
  | cons c s ih =>
    rw [decimalFrom] at h
    cases e : st.step c with
    | none => rw [e] at h; cases h
    | some st' =>
      rw [e] at h
      rw [List.all_cons, ih st' h, Bool.and_true]
      unfold numChar
      cases st <;> simp only [NumState.step] at e <;> grind

end Verif
