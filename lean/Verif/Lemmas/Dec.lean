import Verif.Model.Dec
import Verif.Spec.Dec
namespace Verif
open Spec

theorem toNat_digitChar {d : Nat} (h : d < 10) : (digitChar d).toNat = 48 + d := by
  have : d = 0 ∨ d = 1 ∨ d = 2 ∨ d = 3 ∨ d = 4 ∨ d = 5 ∨ d = 6 ∨ d = 7 ∨ d = 8 ∨ d = 9 := by omega
  rcases this with h|h|h|h|h|h|h|h|h|h <;> subst h <;> rfl

theorem isDigit_digitChar {d : Nat} (h : d < 10) : isDigit (digitChar d) = true := by
  have : d = 0 ∨ d = 1 ∨ d = 2 ∨ d = 3 ∨ d = 4 ∨ d = 5 ∨ d = 6 ∨ d = 7 ∨ d = 8 ∨ d = 9 := by omega
  rcases this with h|h|h|h|h|h|h|h|h|h <;> subst h <;> rfl

theorem digitChar_ne_zero {d : Nat} (h : d < 10) (h0 : d ≠ 0) : digitChar d ≠ '0' := by
  intro e
  have := congrArg Char.toNat e
  rw [toNat_digitChar h] at this
  have : '0'.toNat = 48 := rfl
  omega

theorem showNat_ne_nil (n : Nat) : showNat n ≠ [] := by
  unfold showNat; split <;> simp

theorem showNat_all (n : Nat) : (showNat n).all isDigit = true := by
  induction n using Nat.strongRecOn with
  | ind n ih =>
    unfold showNat; split
    · rename_i h; simp [isDigit_digitChar h]
    · rename_i h
      rw [List.all_append, ih _ (by omega)]
      simp [isDigit_digitChar (show n % 10 < 10 by omega)]

theorem showNat_isDigit {n : Nat} {c : Char} (h : c ∈ showNat n) : isDigit c = true :=
  List.all_eq_true.mp (showNat_all n) c h

theorem digitsValue_append (s : List Char) (c : Char) :
    digitsValue (s ++ [c]) = 10 * digitsValue s + (c.toNat - 48) := by
  simp [digitsValue, List.foldl_append]

theorem digitsValue_showNat (n : Nat) : digitsValue (showNat n) = n := by
  induction n using Nat.strongRecOn with
  | ind n ih =>
    unfold showNat; split
    · rename_i h; simp [digitsValue, toNat_digitChar h]
    · rename_i h
      rw [digitsValue_append, ih _ (by omega), toNat_digitChar (by omega)]
      omega

theorem showNat_head (n : Nat) (hn : n ≠ 0) : (showNat n).head? ≠ some '0' := by
  induction n using Nat.strongRecOn with
  | ind n ih =>
    unfold showNat; split
    · rename_i h; simpa using digitChar_ne_zero h hn
    · rename_i h
      have := ih (n/10) (by omega) (by omega)
      rw [List.head?_append]
      cases hh : (showNat (n/10)).head? with
      | none => simp at hh; exact absurd hh (showNat_ne_nil _)
      | some c => rw [hh] at this; simpa using this

/-- The reader recovers the rendered number. -/
theorem readNat_showNat (n : Nat) : readNat (showNat n) = some n := by
  unfold readNat
  rw [if_neg (showNat_ne_nil n), showNat_all]
  by_cases h0 : n = 0
  · subst h0; simp [showNat, digitsValue]; decide
  · have := showNat_head n h0
    simp [this, digitsValue_showNat]

theorem showNat_injective {a b : Nat} (h : showNat a = showNat b) : a = b := by
  have := congrArg readNat h
  simpa [readNat_showNat] using this

end Verif
