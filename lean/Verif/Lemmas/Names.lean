import Verif.Spec.Names
import Verif.Lemmas.Ref
namespace Verif
open Spec

theorem utf8Size_pos' (c : Char) : 1 ≤ c.utf8Size := c.utf8Size_pos

theorem toNat_of_size1 {c : Char} (h : c.utf8Size ≤ 1) : c.toNat < 128 := by
  unfold Char.utf8Size at h; dsimp only at h
  have hv : c.toNat = c.val.toNat := rfl
  split at h
  · rename_i h1
    have : c.val.toNat ≤ 127 := UInt32.le_iff_toNat_le.mp h1
    omega
  · split at h
    · omega
    · split at h <;> omega

theorem toNat_of_size2 {c : Char} (h : c.utf8Size ≤ 2) : c.toNat < 2048 := by
  unfold Char.utf8Size at h; dsimp only at h
  have hv : c.toNat = c.val.toNat := rfl
  split at h
  · rename_i h1
    have : c.val.toNat ≤ 127 := UInt32.le_iff_toNat_le.mp h1
    omega
  · split at h
    · rename_i h1
      have : c.val.toNat ≤ 2047 := UInt32.le_iff_toNat_le.mp h1
      omega
    · split at h <;> omega

theorem toNat_of_size3 {c : Char} (h : c.utf8Size ≤ 3) : c.toNat < 65536 := by
  unfold Char.utf8Size at h; dsimp only at h
  have hv : c.toNat = c.val.toNat := rfl
  split at h
  · rename_i h1
    have : c.val.toNat ≤ 127 := UInt32.le_iff_toNat_le.mp h1
    omega
  · split at h
    · rename_i h1
      have : c.val.toNat ≤ 2047 := UInt32.le_iff_toNat_le.mp h1
      omega
    · split at h
      · rename_i h1
        have : c.val.toNat ≤ 65535 := UInt32.le_iff_toNat_le.mp h1
        omega
      · omega

theorem colNumStep_ok {n : Nat} {c : Char} (hc : 65 ≤ c.toNat) (hc' : c.toNat < 65536)
    (hn : n * 26 + (c.toNat - 64) < 65536) : colNumStep n c = some (n * 26 + (c.toNat - 64)) := by
  unfold colNumStep
  rw [Nat.mod_eq_of_lt hc']
  simp only
  rw [if_neg (by omega), if_neg (by omega), if_neg (by omega)]
  congr 1; omega

/-- `column_name_to_number` does not panic on at most three bytes of characters from `A` on. -/
theorem columnNameToNumber_short {s : Str} (h1 : 1 ≤ utf8Len s) (h3 : utf8Len s ≤ 3)
    (hs : ∀ c ∈ s, 65 ≤ c.toNat) :
    columnNameToNumber s = some (s.foldl (fun n c => n * 26 + (c.toNat - 64)) 0 - 1) ∧
    1 ≤ s.foldl (fun n c => n * 26 + (c.toNat - 64)) 0 ∧
    s.foldl (fun n c => n * 26 + (c.toNat - 64)) 0 < 65536 := by
  match s, h1, h3, hs with
  | [], h1, _, _ => simp [utf8Len] at h1
  | [a], _, h3, hs =>
    simp [utf8Len] at h3
    have ha := hs a (by simp)
    have hb := toNat_of_size3 h3
    simp only [columnNameToNumber, List.foldlM_cons, List.foldlM_nil, List.foldl_cons, List.foldl_nil]
    rw [colNumStep_ok ha hb (by omega)]
    simp
    omega
  | [a, b], _, h3, hs =>
    simp [utf8Len] at h3
    have ha := hs a (by simp)
    have hb := hs b (by simp)
    have pa := utf8Size_pos' a
    have pb := utf8Size_pos' b
    have ha2 := toNat_of_size2 (c := a) (by omega)
    have hb2 := toNat_of_size2 (c := b) (by omega)
    have hbound : (a.toNat - 64) * 26 + (b.toNat - 64) < 65536 := by
      by_cases hh : a.utf8Size ≤ 1
      · have := toNat_of_size1 hh; omega
      · have := toNat_of_size1 (c := b) (by omega); omega
    simp only [columnNameToNumber, List.foldlM_cons, List.foldlM_nil, List.foldl_cons, List.foldl_nil]
    rw [colNumStep_ok ha (by omega) (by omega)]
    simp only [Option.bind_eq_bind, Option.bind_some]
    rw [colNumStep_ok hb (by omega) (by omega)]
    simp
    omega
  | [a, b, c], _, h3, hs =>
    simp [utf8Len] at h3
    have ha := hs a (by simp)
    have hb := hs b (by simp)
    have hc := hs c (by simp)
    have pa := utf8Size_pos' a
    have pb := utf8Size_pos' b
    have pc := utf8Size_pos' c
    have ha2 := toNat_of_size1 (c := a) (by omega)
    have hb2 := toNat_of_size1 (c := b) (by omega)
    have hc2 := toNat_of_size1 (c := c) (by omega)
    simp only [columnNameToNumber, List.foldlM_cons, List.foldlM_nil, List.foldl_cons, List.foldl_nil]
    rw [colNumStep_ok ha (by omega) (by omega)]
    simp only [Option.bind_eq_bind, Option.bind_some]
    rw [colNumStep_ok hb (by omega) (by omega)]
    simp only [Option.bind_eq_bind, Option.bind_some]
    rw [colNumStep_ok hc (by omega) (by omega)]
    simp
    omega
  | a :: b :: c :: d :: rest, _, h3, _ =>
    have pa := utf8Size_pos' a
    have pb := utf8Size_pos' b
    have pc := utf8Size_pos' c
    have pd := utf8Size_pos' d
    simp [utf8Len] at h3
    omega

theorem undouble_double (s : Str) : undoubleQuotes (doubleQuotes s) = s := by
  induction s with
  | nil => rfl
  | cons c s ih =>
    by_cases h : c = '\''
    · subst h; simp only [doubleQuotes, List.flatMap_cons, if_true, List.cons_append, List.nil_append]
      rw [undoubleQuotes]; congr 1
    · have : doubleQuotes (c :: s) = c :: doubleQuotes s := by simp [doubleQuotes, h]
      rw [this]
      rw [undoubleQuotes]
      · rw [ih]
      · intro rest hc; exact absurd hc h

/-- The reader of quoted names inverts the doubling. -/
theorem readQuoted_double (s rest : List Char) (hr : rest.head? ≠ some '\'') :
    readQuoted (doubleQuotes s ++ '\'' :: rest) = some (s, rest) := by
  induction s with
  | nil =>
    simp only [doubleQuotes, List.flatMap_nil, List.nil_append]
    cases rest with
    | nil => rfl
    | cons c r =>
      have : c ≠ '\'' := by simpa using hr
      rw [readQuoted]
      intro r' h; simp at h; exact this h.1
  | cons c s ih =>
    by_cases h : c = '\''
    · subst h
      have : doubleQuotes ('\'' :: s) = '\'' :: '\'' :: doubleQuotes s := by simp [doubleQuotes]
      rw [this]; simp only [List.cons_append]; rw [readQuoted, ih]; rfl
    · have : doubleQuotes (c :: s) = c :: doubleQuotes s := by simp [doubleQuotes, h]
      rw [this]; simp only [List.cons_append]
      rw [readQuoted, ih]
      · rfl
      · intro _ hc; exact absurd hc h
      · intro hc; exact absurd hc h

end Verif
