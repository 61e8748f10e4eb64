import Verif.Lemmas.Names
/-!
C03: quoting of sheet names is lossless.  C04: which names are accepted, and no workbook with
clashing names is written.
-/
namespace Verif
open Spec

/-! ### C03 -/

theorem requiresQuoting_false {U : Unicode} {s : Str} (hs : s.head? ≠ some '\'')
    (h : requiresQuoting U s = some false) : s.all (plainChar U) = true := by
  unfold requiresQuoting at h
  simp only [if_neg hs] at h
  split at h
  · simp at h
  · rename_i h'; simpa using h'

theorem plain_ne {U : Unicode} (hU : U.Sane) {c : Char} (h : plainChar U c = true) :
    c ≠ '!' ∧ c ≠ '\'' := by
  constructor
  · rintro rfl
    have := hU.alnum_ascii '!' (by decide)
    simp [plainChar, this] at h
    revert h; decide +kernel
  · rintro rfl
    have := hU.alnum_ascii '\'' (by decide)
    simp [plainChar, this] at h
    revert h; decide +kernel

/-- **C03**, the result is the name itself or the name in single quotes with apostrophes doubled. -/
theorem C03_quote_form (U : Unicode) (s q : Str) (h : quoteSheetName U s = some q) :
    q = s ∨ q = '\'' :: doubleQuotes s ++ ['\''] := by
  unfold quoteSheetName at h
  cases hr : requiresQuoting U s with
  | none => simp [hr] at h
  | some b => cases b <;> simp [hr] at h <;> subst h <;> simp

/-- **C03**, lossless: a reader of references recovers exactly the sheet name, and what comes after
the exclamation mark. -/
theorem C03_quote_roundtrip (U : Unicode) (hU : U.Sane) (s q rest : Str)
    (hs : s.head? ≠ some '\'') (h : quoteSheetName U s = some q) :
    readSheetRef (q ++ '!' :: rest) = some (s, rest) := by
  unfold quoteSheetName at h
  cases hr : requiresQuoting U s with
  | none => simp [hr] at h
  | some b =>
    cases b with
    | true =>
      simp [hr] at h; subst h
      show readSheetRef ('\'' :: (doubleQuotes s ++ ['\'']) ++ '!' :: rest) = _
      simp only [List.cons_append, List.append_assoc, List.nil_append, readSheetRef]
      have := readQuoted_double s ('!' :: rest) (by simp)
      simp only [this]
    | false =>
      simp [hr] at h; subst h
      have hp := requiresQuoting_false hs hr
      have hne : ∀ c ∈ s, c ≠ '!' := fun c hc => (plain_ne hU (List.all_eq_true.mp hp c hc)).1
      have e : (s ++ '!' :: rest).takeWhile (· ≠ '!') = s ∧
          (s ++ '!' :: rest).dropWhile (· ≠ '!') = '!' :: rest := by
        clear hs hr hp
        induction s with
        | nil => simp
        | cons c s ih =>
          have := hne c (by simp)
          have ih := ih (fun c hc => hne c (by simp [hc]))
          simp [this, ih.1, ih.2] at *
          exact ih
      cases s with
      | nil =>
        simp only [List.nil_append, readSheetRef]; simp
      | cons c s =>
        have hc : c ≠ '\'' := by simpa using hs
        have : readSheetRef (c :: s ++ '!' :: rest) =
            match (c :: s ++ '!' :: rest).dropWhile (· ≠ '!') with
            | _ :: rest' => some ((c :: s ++ '!' :: rest).takeWhile (· ≠ '!'), rest')
            | [] => none := by
          show readSheetRef (c :: (s ++ '!' :: rest)) = _
          rw [readSheetRef]
          · rfl
          · intro r hr'; simp at hr'; exact hc hr'.1
        rw [this, e.1, e.2]

/-- **C03**, the library's own unquoting recovers the name (used to resolve local defined names). -/
theorem C03_unquote_quote (U : Unicode) (s q : Str)
    (hs : s.head? ≠ some '\'') (h : quoteSheetName U s = some q) :
    unquoteSheetname q = some s := by
  rcases C03_quote_form U s q h with rfl | rfl
  · simp [unquoteSheetname, hs]
  · have hl : ('\'' :: doubleQuotes s ++ ['\'']).getLast? = some '\'' := by
      rw [List.getLast?_append]; simp
    unfold unquoteSheetname
    rw [if_pos ⟨by simp, hl⟩]
    have : ('\'' :: doubleQuotes s ++ ['\'']).tail.dropLast = doubleQuotes s := by simp
    cases hd : doubleQuotes s with
    | nil =>
      have := undouble_double s
      rw [hd] at this
      simp [undoubleQuotes] at this ⊢
      exact this
    | cons c t =>
      rw [hd] at this
      simp only [List.cons_append, List.tail_cons] at this ⊢
      rw [this, ← hd, undouble_double s]

/-- Different names never get the same quoted form. -/
theorem C03_quote_injective (U : Unicode) (hU : U.Sane) (s t q : Str)
    (hs : s.head? ≠ some '\'') (ht : t.head? ≠ some '\'')
    (h1 : quoteSheetName U s = some q) (h2 : quoteSheetName U t = some q) : s = t := by
  have a := C03_quote_roundtrip U hU s q [] hs h1
  have b := C03_quote_roundtrip U hU t q [] ht h2
  rw [a] at b
  simpa using b

/-- **C03**, names that are already quoted are left alone. -/
theorem C03_already_quoted (U : Unicode) (s : Str) (h : s.head? = some '\'') :
    quoteSheetName U s = some s := by
  simp [quoteSheetName, requiresQuoting, h]

/-- **C03**, names with any character that is not a letter, digit, underscore, dot or emoji, or that
start with a digit or a dot, are quoted. -/
theorem C03_special_characters_quoted (U : Unicode) (s : Str) (hs : s.head? ≠ some '\'')
    (h : (∃ c ∈ s, U.alnum c = false ∧ c ≠ '_' ∧ c ≠ '.' ∧ isEmoji c = false) ∨
      (∃ c, s.head? = some c ∧ (isDigit c = true ∨ c = '.'))) :
    quoteSheetName U s = some ('\'' :: doubleQuotes s ++ ['\'']) := by
  have : requiresQuoting U s = some true := by
    unfold requiresQuoting
    simp only [if_neg hs]
    split
    · rfl
    · rename_i hp
      rcases h with ⟨c, hc, h1, h2, h3, h4⟩ | ⟨c, hc, h1⟩
      · have := List.all_eq_true.mp (by simpa using hp) c hc
        simp [plainChar, h1, h2, h3, h4] at this
      · rw [if_pos]
        rw [hc]
        have e : isAsciiDigit c = isDigit c := rfl
        rcases h1 with h1 | h1 <;> simp [e, h1]
  simp [quoteSheetName, this]

theorem toUpper_ascii {c : Char} (h : c.toUpper.toNat < 128) : c.toNat < 128 := by
  unfold Char.toUpper at h
  split at h
  · rename_i h'
    have := UInt32.le_iff_toNat_le.mp h'.2
    have e : c.toNat = c.val.toNat := rfl
    rw [e]
    have : c.val.toNat ≤ 122 := by simpa using this
    omega
  · exact h

theorem letter_lt {c : Char} (h : isLetter c = true) : 65 ≤ c.toNat ∧ c.toNat ≤ 90 := by
  simp only [isLetter, Bool.and_eq_true, decide_eq_true_eq] at h
  exact ⟨h.1, h.2⟩

theorem digit_lt {c : Char} (h : isDigit c = true) : 48 ≤ c.toNat ∧ c.toNat ≤ 57 := by
  simp only [isDigit, Bool.and_eq_true, decide_eq_true_eq] at h
  exact ⟨h.1, h.2⟩

/-- Facts about ASCII characters, checked one by one. -/
theorem ascii_forall {P : Char → Prop} (h : ∀ n, n < 128 → P (Char.ofNat n)) (c : Char)
    (hc : c.toNat < 128) : P c := by
  have := h c.toNat hc
  rwa [Char.ofNat_toNat] at this

theorem upper_digit {c : Char} (h : isDigit c.toUpper = true) :
    isAsciiDigit c = true ∧ c.toUpper = c := by
  have ha := toUpper_ascii (show c.toUpper.toNat < 128 by have := digit_lt h; omega)
  revert h
  refine ascii_forall (P := fun c => isDigit c.toUpper = true → isAsciiDigit c = true ∧ c.toUpper = c)
    ?_ c ha
  decide +kernel

theorem upper_letter {c : Char} (h : isLetter c.toUpper = true) :
    isAsciiDigit c = false ∧ c.toNat < 128 ∧ c ≠ '.' ∧ c ≠ '\'' ∧ isEmoji c = false := by
  have ha := toUpper_ascii (show c.toUpper.toNat < 128 by have := letter_lt h; omega)
  revert h
  refine ascii_forall (P := fun c => isLetter c.toUpper = true →
    isAsciiDigit c = false ∧ c.toNat < 128 ∧ c ≠ '.' ∧ c ≠ '\'' ∧ isEmoji c = false) ?_ c ha
  decide +kernel

/-- Upper-casing an ASCII text. -/
theorem upperStr_ascii {U : Unicode} (hU : U.Sane) {s : Str} (h : ∀ c ∈ s, c.toNat < 128) :
    U.upperStr s = asciiUpper s := by
  induction s with
  | nil => rfl
  | cons c s ih =>
    have := hU.upper_ascii c (h c (by simp))
    have ih := ih (fun c hc => h c (by simp [hc]))
    simp only [Unicode.upperStr, asciiUpper] at ih ⊢
    simp [this, ih]

/-- The rules after rule 2 for a name that starts with a letter: split into the leading letters and
the part from the first digit on. -/
theorem split_letters {U : Unicode} (hU : U.Sane) {a b : Str} (ha : ∀ c ∈ a, isLetter c.toUpper = true)
    (hb : ∃ d, b.head? = some d ∧ isAsciiDigit d = true) :
    splitCellReference U (a ++ b) = (asciiUpper a, U.upperStr b) := by
  obtain ⟨d, hd, hdd⟩ := hb
  cases b with
  | nil => simp at hd
  | cons d' t =>
    simp at hd; subst hd
    have hn : ∀ c ∈ a, isAsciiDigit c = false := fun c hc => (upper_letter (ha c hc)).1
    have h1 : (a ++ d' :: t).any isAsciiDigit = true := by simp [hdd]
    have h2 : (a ++ d' :: t).takeWhile (!isAsciiDigit ·) = a ∧
        (a ++ d' :: t).dropWhile (!isAsciiDigit ·) = d' :: t := by
      clear ha h1
      induction a with
      | nil => simp [hdd]
      | cons c a ih =>
        have := ih (fun c hc => hn c (by simp [hc]))
        simp [hn c (by simp), this.1, this.2]
    unfold splitCellReference
    rw [if_pos h1, h2.1, h2.2, upperStr_ascii hU (fun c hc => (upper_letter (ha c hc)).2.1)]

theorem parseU64_readNat {ds : Str} {n : Nat} (h : readNat ds = some n) (hn : n < 2 ^ 64) :
    parseU64 ds = n ∧ ds ≠ [] ∧ ds.all isDigit = true := by
  unfold readNat at h
  split at h
  · simp at h
  · rename_i h1
    split at h
    · simp at h
    · rename_i h2
      split at h
      · simp at h
      · simp at h
        refine ⟨?_, h1, by simpa using h2⟩
        unfold parseU64
        have e : ds.all isAsciiDigit = true := by
          have : ds.all isDigit = true := by simpa using h2
          exact this
        rw [if_pos ⟨h1, e⟩]
        have : List.foldl (fun n c => 10 * n + (c.toNat - 48)) 0 ds = n := h
        rw [this]
        simp only
        rw [if_pos hn]

/-- The number after the letters: a reader's digits followed by something that is not a digit. -/
theorem upper_digits {U : Unicode} (hU : U.Sane) {ds rest b : Str} (hds : ds.all isDigit = true)
    (hb : asciiUpper b = ds ++ rest) (hr : ∀ c, rest.head? = some c → isDigit c = false) :
    (U.upperStr b).takeWhile isAsciiDigit = ds ∧
    ((U.upperStr b).all isAsciiDigit = true → U.upperStr b = ds) := by
  induction ds generalizing b with
  | nil =>
    cases b with
    | nil => simp [Unicode.upperStr]
    | cons c b =>
      cases hu : U.upper c with
      | nil => exact absurd hu (hU.upper_ne c)
      | cons d t =>
        have hd : isAsciiDigit d = false := by
          cases hdd : isAsciiDigit d with
          | false => rfl
          | true =>
            exfalso
            have hlt := digit_lt (c := d) hdd
            have := hU.upper_low c d (by simp [hu]) (by omega)
            subst this
            have hup : d.toUpper = d := by
              refine ascii_forall (P := fun c => isAsciiDigit c = true → c.toUpper = c) ?_ d
                (by omega) hdd
              decide +kernel
            have := hr d.toUpper (by
              rw [show rest = asciiUpper (d :: b) by rw [hb]; simp]; simp [asciiUpper])
            rw [hup] at this
            rw [show isDigit d = isAsciiDigit d from rfl, hdd] at this
            cases this
        simp [Unicode.upperStr, hu, hd]
  | cons e ds ih =>
    cases b with
    | nil => simp [asciiUpper] at hb
    | cons c b =>
      simp [asciiUpper] at hb
      have he : isDigit e = true := by simp at hds; exact hds.1
      obtain ⟨h1, h2⟩ := upper_digit (c := c) (by rw [hb.1]; exact he)
      have hlt := digit_lt (c := c) h1
      have hu : U.upper c = [c] := by rw [hU.upper_ascii c (by omega), h2]
      have hce : c = e := by rw [← h2]; exact hb.1
      subst hce
      have ih := ih (b := b) (by simp at hds ⊢; exact hds.2) (by simpa [asciiUpper] using hb.2)
      simp only [Unicode.upperStr, List.flatMap_cons, hu, List.singleton_append] at ih ⊢
      refine ⟨by simp [h1, ih.1], ?_⟩
      intro ha
      simp only [List.all_cons, Bool.and_eq_true] at ha
      rw [ih.2 ha.2]

/-- The rules from rule 3 on, for a name made of letters and then a part starting with a digit:
either an earlier rule quotes it, or rules 3 and 4 are evaluated on these parts. -/
theorem quoting_letters {U : Unicode} (hU : U.Sane) {a b : Str}
    (ha : ∀ c ∈ a, isLetter c.toUpper = true) (hane : a ≠ [])
    (hb : ∃ d, b.head? = some d ∧ isAsciiDigit d = true) :
    requiresQuoting U (a ++ b) = some true ∨
    requiresQuoting U (a ++ b) =
      (if 1 ≤ utf8Len (asciiUpper a) ∧ utf8Len (asciiUpper a) ≤ 3 ∧ (U.upperStr b).all isAsciiDigit then
        match columnNameToNumber (asciiUpper a) with
        | none => none
        | some col =>
          if col + 1 ≥ 65536 then none
          else some (decide (parseU64 (U.upperStr b) > 0 ∧ parseU64 (U.upperStr b) ≤ ROW_MAX ∧
            col + 1 ≤ COL_MAX))
      else if asciiUpper a = "R".toList then
        some (decide (parseU64 ((U.upperStr b).takeWhile isAsciiDigit) > 0 ∧
          parseU64 ((U.upperStr b).takeWhile isAsciiDigit) ≤ ROW_MAX))
      else if asciiUpper a = "RC".toList ∨ asciiUpper a = "C".toList then
        some (decide (parseU64 ((U.upperStr b).takeWhile isAsciiDigit) > 0 ∧
          parseU64 ((U.upperStr b).takeWhile isAsciiDigit) ≤ COL_MAX))
      else if U.upperStr (a ++ b) = "R".toList ∨ U.upperStr (a ++ b) = "C".toList ∨
          U.upperStr (a ++ b) = "RC".toList then some true
      else some false) := by
  cases a with
  | nil => exact absurd rfl hane
  | cons c a =>
    have hc := upper_letter (ha c (by simp))
    unfold requiresQuoting
    rw [split_letters hU ha hb]
    have h1 : ¬ ((c :: a ++ b).head? = some '\'') := by simp [hc.2.2.2.1]
    simp only [if_neg h1]
    split
    · exact Or.inl rfl
    · split
      · exact Or.inl rfl
      · right; rfl

/-- **C03**, a name that looks like a cell of the sheet is always quoted. -/
theorem C03_cell_names_quoted (U : Unicode) (hU : U.Sane) (s : Str) (h : LooksLikeA1 s) :
    quoteSheetName U s = some ('\'' :: doubleQuotes s ++ ['\'']) := by
  suffices requiresQuoting U s = some true by simp [quoteSheetName, this]
  obtain ⟨r, c, hread, hr, hc⟩ := h
  unfold readA1 at hread
  split at hread
  · rename_i c' r' h1 h2
    simp at hread
    obtain ⟨rfl, rfl⟩ := hread
    -- the parts of the name itself
    have hsplit : s = s.takeWhile (fun x => isLetter x.toUpper) ++
        s.dropWhile (fun x => isLetter x.toUpper) := (List.takeWhile_append_dropWhile).symm
    have hA : (asciiUpper s).takeWhile isLetter = asciiUpper (s.takeWhile (fun x => isLetter x.toUpper)) := by
      simp [asciiUpper, List.takeWhile_map]; rfl
    have hB : (asciiUpper s).dropWhile isLetter = asciiUpper (s.dropWhile (fun x => isLetter x.toUpper)) := by
      simp [asciiUpper, List.dropWhile_map]; rfl
    have haL : ∀ x ∈ s.takeWhile (fun x => isLetter x.toUpper), isLetter x.toUpper = true := by
      intro x hx
      exact List.all_eq_true.mp (List.all_takeWhile (p := fun x : Char => isLetter x.toUpper) (l := s)) x hx
    rw [hA] at h1
    rw [hB] at h2
    generalize s.takeWhile (fun x => isLetter x.toUpper) = a at *
    generalize s.dropWhile (fun x => isLetter x.toUpper) = b at *
    subst hsplit
    -- the row number
    unfold readRow at h2
    split at h2
    · rename_i n hn
      simp at h2; subst h2
      have hlim : n + 1 < 2 ^ 64 := by have : (2:Nat)^64 = 18446744073709551616 := by decide
                                       omega
      obtain ⟨hp, hne, hall⟩ := parseU64_readNat hn hlim
      have hub : U.upperStr b = asciiUpper b := by
        refine upperStr_ascii hU ?_
        intro x hx
        have : isDigit x.toUpper = true := by
          apply List.all_eq_true.mp hall; simp [asciiUpper]; exact ⟨x, hx, rfl⟩
        have := digit_lt (upper_digit this).1
        omega
      have hbd : ∃ d, b.head? = some d ∧ isAsciiDigit d = true := by
        cases b with
        | nil => simp [asciiUpper] at hne
        | cons d t =>
          refine ⟨d, rfl, ?_⟩
          simp [asciiUpper] at hall
          exact (upper_digit hall.1).1
      -- the column
      unfold readCol at h1
      split at h1
      · simp at h1
      · rename_i hcond
        simp at h1 hcond
        have haL' : ∀ x ∈ asciiUpper a, 65 ≤ x.toNat ∧ x.toNat ≤ 90 := fun x hx => letter_lt (hcond.2 x hx)
        have hsz : ∀ l : Str, (∀ x ∈ l, 65 ≤ x.toNat ∧ x.toNat ≤ 90) → utf8Len l = l.length := by
          intro l hl
          induction l with
          | nil => rfl
          | cons x l ih =>
            have hx := hl x (by simp)
            have : x.utf8Size = 1 := by
              unfold Char.utf8Size; dsimp only
              rw [if_pos]
              apply UInt32.le_iff_toNat_le.mpr
              show x.toNat ≤ 127
              omega
            simp [utf8Len, this] at ih ⊢
            rw [ih (fun y hy => hl y (by simp [hy]))]
            omega
        have hfold : ∀ l : Str, l.foldl (fun n c => 26 * n + (c.toNat - 64)) 0 =
            l.foldl (fun n c => n * 26 + (c.toNat - 64)) 0 := by
          intro l; congr 1; funext n c; omega
        have hlen : (asciiUpper a).length ≤ 3 := by
          match hq : asciiUpper a, haL', h1 with
          | [], _, _ => simp
          | [x], _, _ => simp
          | [x, y], _, _ => simp
          | [x, y, z], _, _ => simp
          | x :: y :: z :: w :: l, hl, h1 =>
            exfalso
            have hx := hl x (by simp)
            have hy := hl y (by simp)
            have hz := hl z (by simp)
            have hw := hl w (by simp)
            have hmono : ∀ (l : Str) (n : Nat), n ≤ l.foldl (fun n c => 26 * n + (c.toNat - 64)) n := by
              intro l
              induction l with
              | nil => intro n; simp
              | cons t l ih =>
                intro n
                simp only [List.foldl_cons]
                exact Nat.le_trans (by omega) (ih _)
            simp only [List.foldl_cons] at h1
            have := hmono l (26 * (26 * (26 * (26 * 0 + (x.toNat - 64)) + (y.toNat - 64)) + (z.toNat - 64)) + (w.toNat - 64))
            omega
        have hpos : 1 ≤ (asciiUpper a).length := by
          cases hq : asciiUpper a with
          | nil => exact absurd hq hcond.1
          | cons x l => simp
        have hl1 : 1 ≤ utf8Len (asciiUpper a) := by rw [hsz _ haL']; exact hpos
        have hl3 : utf8Len (asciiUpper a) ≤ 3 := by rw [hsz _ haL']; exact hlen
        obtain ⟨hcn, hge, hlt⟩ := columnNameToNumber_short hl1 hl3 (fun x hx => (haL' x hx).1)
        have hane : a ≠ [] := by rintro rfl; simp [asciiUpper] at hpos
        rcases quoting_letters hU haL hane hbd with h | h
        · exact h
        · rw [h, hub, if_pos ⟨hl1, hl3, hall⟩, hcn, hp]
          simp only
          rw [← hfold] at hge hlt ⊢
          rw [h1, if_neg (by omega)]
          simp [ROW_MAX, COL_MAX]
          omega
    · simp at h2
  · simp at hread

/-- A name without digits that is `R`, `C` or `RC` in upper case. -/
theorem quoting_rc_word {U : Unicode} (hU : U.Sane) {s : Str}
    (h : asciiUpper s = ['R'] ∨ asciiUpper s = ['C'] ∨ asciiUpper s = ['R', 'C']) :
    requiresQuoting U s = some true := by
  have hl : ∀ c ∈ s, isLetter c.toUpper = true := by
    intro c hc
    have : c.toUpper ∈ asciiUpper s := List.mem_map.mpr ⟨c, hc, rfl⟩
    rcases h with h | h | h <;> rw [h] at this <;> simp at this
    · rw [this]; rfl
    · rw [this]; rfl
    · rcases this with this | this <;> rw [this] <;> rfl
  have hu : U.upperStr s = asciiUpper s := upperStr_ascii hU fun c hc => (upper_letter (hl c hc)).2.1
  have hnd : s.any isAsciiDigit = false := by
    rw [Bool.eq_false_iff]; intro ha
    obtain ⟨c, hc, hd⟩ := List.any_eq_true.mp ha
    rw [(upper_letter (hl c hc)).1] at hd; cases hd
  have hh : ¬ (s.head? = some '\'') := by
    cases s with
    | nil => simp
    | cons c t => simp; exact (upper_letter (hl c (by simp))).2.2.2.1
  unfold requiresQuoting splitCellReference
  rw [hnd, hu]
  simp only [if_neg hh, Bool.false_eq_true, if_false]
  split
  · rfl
  · split
    · rfl
    · rw [if_neg (by simp [utf8Len]), if_neg (by decide), if_neg (by decide)]
      rw [if_pos]
      rcases h with h | h | h <;> rw [h] <;> decide

/-- **C03**, a name that starts like an R1C1 reference, or is just `R`, `C` or `RC`, is always quoted. -/
theorem C03_rc_names_quoted (U : Unicode) (hU : U.Sane) (s : Str) (h : LooksLikeRC s) :
    quoteSheetName U s = some ('\'' :: doubleQuotes s ++ ['\'']) := by
  suffices requiresQuoting U s = some true by simp [quoteSheetName, this]
  rcases h with h | h | h | ⟨ds, rest, n, hn, h0, hr, h⟩
  · exact quoting_rc_word hU (Or.inl h)
  · exact quoting_rc_word hU (Or.inr (Or.inl h))
  · exact quoting_rc_word hU (Or.inr (Or.inr h))
  · have hlim : n < 2 ^ 64 := by
      have : (2:Nat)^64 = 18446744073709551616 := by decide
      rcases h with h | h | h <;> omega
    obtain ⟨hp, hne, hall⟩ := parseU64_readNat hn hlim
    -- split the name after the letters
    have hsplit : ∃ a b, s = a ++ b ∧ asciiUpper b = ds ++ rest ∧
        ((asciiUpper a = ['R'] ∧ n ≤ 1048576) ∨ (asciiUpper a = ['C'] ∧ n ≤ 16384) ∨
         (asciiUpper a = ['R', 'C'] ∧ n ≤ 16384)) := by
      rcases h with ⟨h, hl⟩ | ⟨h, hl⟩ | ⟨h, hl⟩
      · cases s with
        | nil => simp [asciiUpper] at h
        | cons x t =>
          simp [asciiUpper] at h
          exact ⟨[x], t, rfl, by simpa [asciiUpper] using h.2, Or.inl ⟨by simp [asciiUpper, h.1], hl⟩⟩
      · cases s with
        | nil => simp [asciiUpper] at h
        | cons x t =>
          simp [asciiUpper] at h
          exact ⟨[x], t, rfl, by simpa [asciiUpper] using h.2,
            Or.inr (Or.inl ⟨by simp [asciiUpper, h.1], hl⟩)⟩
      · cases s with
        | nil => simp [asciiUpper] at h
        | cons x t =>
          cases t with
          | nil => simp [asciiUpper] at h
          | cons y t =>
            simp [asciiUpper] at h
            exact ⟨[x, y], t, rfl, by simpa [asciiUpper] using h.2.2,
              Or.inr (Or.inr ⟨by simp [asciiUpper, h.1, h.2.1], hl⟩)⟩
    obtain ⟨a, b, rfl, hb, hcase⟩ := hsplit
    have hbd : ∃ d, b.head? = some d ∧ isAsciiDigit d = true := by
      cases ds with
      | nil => exact absurd rfl hne
      | cons e ds =>
        cases b with
        | nil => simp [asciiUpper] at hb
        | cons d t =>
          simp [asciiUpper] at hb hall
          exact ⟨d, rfl, (upper_digit (by rw [hb.1]; exact hall.1)).1⟩
    obtain ⟨hu1, hu2⟩ := upper_digits hU hall hb hr
    have haL : ∀ c ∈ a, isLetter c.toUpper = true := by
      intro c hc
      have : c.toUpper ∈ asciiUpper a := List.mem_map.mpr ⟨c, hc, rfl⟩
      rcases hcase with ⟨h, _⟩ | ⟨h, _⟩ | ⟨h, _⟩ <;> rw [h] at this <;> simp at this
      · rw [this]; rfl
      · rw [this]; rfl
      · rcases this with this | this <;> rw [this] <;> rfl
    have hane : a ≠ [] := by rintro rfl; simp [asciiUpper] at hcase
    rcases quoting_letters hU haL hane hbd with h | h
    · exact h
    · rw [h, hu1, hp]
      by_cases ha : (U.upperStr b).all isAsciiDigit = true
      · rw [hu2 ha, hp]
        rcases hcase with ⟨h, hl⟩ | ⟨h, hl⟩ | ⟨h, hl⟩ <;> rw [h]
        · rw [if_pos ⟨by decide, by decide, hall⟩,
            show columnNameToNumber ['R'] = some 17 by decide +kernel]
          simp [ROW_MAX, COL_MAX]; omega
        · rw [if_pos ⟨by decide, by decide, hall⟩,
            show columnNameToNumber ['C'] = some 2 by decide +kernel]
          simp [ROW_MAX, COL_MAX]; omega
        · rw [if_pos ⟨by decide, by decide, hall⟩,
            show columnNameToNumber ['R', 'C'] = some 470 by decide +kernel]
          simp [ROW_MAX, COL_MAX]; omega
      · rw [if_neg (by simp [ha])]
        rcases hcase with ⟨h, hl⟩ | ⟨h, hl⟩ | ⟨h, hl⟩ <;> rw [h]
        · rw [if_pos (by decide)]; simp [ROW_MAX]; omega
        · rw [if_neg (by decide), if_pos (by decide)]; simp [COL_MAX]; omega
        · rw [if_neg (by decide), if_pos (by decide)]; simp [COL_MAX]; omega

/-- **C03**, no panic for names without a dot. -/
theorem C03_no_panic (U : Unicode) (hU : U.Sane) (s : Str) (hdot : '.' ∉ s) :
    (quoteSheetName U s).isSome = true := by
  suffices (requiresQuoting U s).isSome = true by simp [quoteSheetName, this]
  unfold requiresQuoting
  dsimp only
  split
  · rfl
  · split
    · rfl
    · rename_i hp
      split
      · rfl
      · split
        · rename_i h3
          have hge : ∀ d ∈ (splitCellReference U s).1, 65 ≤ d.toNat := by
            intro d hd
            unfold splitCellReference at hd
            split at hd
            · simp only [Unicode.upperStr, List.mem_flatMap] at hd
              obtain ⟨c, hc, hd⟩ := hd
              rcases Nat.lt_or_ge d.toNat 65 with hlt | hge
              · exfalso
                have := hU.upper_low c d hd hlt
                subst this
                have hnd := List.all_eq_true.mp
                  (List.all_takeWhile (p := fun x => !isAsciiDigit x) (l := s)) d hc
                have hmem : d ∈ s := (List.takeWhile_prefix _).subset hc
                have hpl := List.all_eq_true.mp (by simpa using hp) d hmem
                have hne : d ≠ '.' := fun e => hdot (e ▸ hmem)
                have hal := hU.alnum_ascii d (by omega)
                simp only [plainChar, hal] at hpl
                revert hne
                revert hpl
                revert hnd
                refine ascii_forall (P := fun d => d.toNat < 65 → (!isAsciiDigit d) = true →
                  (d.isAlphanum || d = '_' || d = '.' || isEmoji d) = true → d ≠ '.' → False)
                  ?_ d (by omega) hlt
                decide +kernel
              · exact hge
            · simp at hd
          obtain ⟨h1, h2, _⟩ := h3
          obtain ⟨hc, hge1, hlt⟩ := columnNameToNumber_short h1 h2 hge
          rw [hc]
          simp only
          rw [if_neg (by omega)]
          rfl
        · split
          · rfl
          · split
            · rfl
            · split <;> rfl

/-- ASCII-only Unicode tables, to show that the assumptions can be met and for concrete cases. -/
def asciiUnicode : Unicode where
  alnum := Char.isAlphanum
  alpha := Char.isAlpha
  upper := fun c => [c.toUpper]
  lower := fun s => s.map Char.toLower

theorem asciiUnicode_sane : asciiUnicode.Sane where
  alnum_ascii := fun _ _ => rfl
  upper_ascii := fun _ _ => rfl
  upper_low := by
    intro c d h hlt
    simp [asciiUnicode] at h
    subst h
    have ha := toUpper_ascii (show c.toUpper.toNat < 128 by omega)
    revert hlt
    refine ascii_forall (P := fun c => c.toUpper.toNat < 65 → c.toUpper = c) ?_ c ha
    decide +kernel
  upper_ne := by simp [asciiUnicode]
  lower_ascii := fun _ _ => rfl

/-- A legal sheet name on which quoting (and so saving a workbook that has it) panics in a debug
build: finding F9. -/
theorem C03_dotted_name_panics :
    quoteSheetName asciiUnicode "A.1".toList = none ∧ validateSheetname "A.1".toList = none := by
  decide +kernel

example : quoteSheetName asciiUnicode "Bob's data".toList = some "'Bob''s data'".toList ∧
    readSheetRef "'Bob''s data'!$A$1".toList = some ("Bob's data".toList, "$A$1".toList) ∧
    quoteSheetName asciiUnicode "Sheet1".toList = some "Sheet1".toList := by decide +kernel

example : LooksLikeA1 "xfd1048576".toList ∧ LooksLikeRC "rc16384z".toList :=
  ⟨⟨1048575, 16383, by decide +kernel, by decide, by decide⟩,
   Or.inr (Or.inr (Or.inr ⟨"16384".toList, "Z".toList, 16384, by decide +kernel, by decide,
     by decide +kernel, Or.inr (Or.inr ⟨by decide +kernel, by decide⟩)⟩))⟩

/-! ### C04 -/

/-- **C04**, `set_name` and `check_sheet_name` accept exactly the legal names. -/
theorem C04_accepts_iff_legal (s : Str) : validateSheetname s = none ↔ LegalName s := by
  unfold validateSheetname
  constructor
  · intro h
    split at h
    · simp at h
    · rename_i h1
      split at h
      · simp at h
      · rename_i h2
        split at h
        · simp at h
        · rename_i h3
          split at h
          · simp at h
          · rename_i h4
            refine ⟨h1, by omega, ?_, fun e => h4 (Or.inl e), fun e => h4 (Or.inr e)⟩
            intro c hc
            simp only [Bool.not_eq_true, List.any_eq_false] at h3
            have := h3 c hc
            simpa using this
  · rintro ⟨h1, h2, h3, h4, h5⟩
    rw [if_neg h1, if_neg (by omega), if_neg, if_neg]
    · simp [h4, h5]
    · simp only [List.any_eq_true, not_exists, not_and]
      intro c hc
      have := h3 c hc
      simpa using this

theorem duplicateLoop_iff (U : Unicode) (ns seen : List Str) :
    duplicateLoop U ns seen = false ↔
      (ns.map U.lower).Nodup ∧ ∀ n ∈ ns, U.lower n ∉ seen := by
  induction ns generalizing seen with
  | nil => simp [duplicateLoop]
  | cons n ns ih =>
    simp only [duplicateLoop]
    by_cases h : seen.contains (U.lower n)
    · simp only [h, if_true]
      simp at h
      simp [h]
    · simp only [h]
      rw [if_neg (by simp), ih]
      simp at h
      simp only [List.map_cons, List.nodup_cons, List.mem_cons]
      constructor
      · rintro ⟨h1, h2⟩
        refine ⟨⟨?_, h1⟩, ?_⟩
        · intro hm
          obtain ⟨m, hm, he⟩ := List.mem_map.mp hm
          exact h2 m hm (Or.inl he)
        · rintro m (rfl | hm)
          · exact h
          · exact fun e => h2 m hm (Or.inr e)
      · rintro ⟨⟨h1, h2⟩, h3⟩
        refine ⟨h2, ?_⟩
        rintro m hm (e | e)
        · exact h1 (List.mem_map.mpr ⟨m, hm, e⟩)
        · exact h3 m (Or.inr hm) e

/-- **C04**, `save` reports a name clash exactly when two sheets have the same name ignoring case. -/
theorem C04_save_refuses_clash (U : Unicode) (b : NameBook) (hb : b.names ≠ []) :
    b.saveFails U = true ↔
      ∃ (i j : Nat) (m n : Str), i < j ∧ b.names[i]? = some m ∧ b.names[j]? = some n ∧ U.lower m = U.lower n := by
  have h := duplicateLoop_iff U b.names []
  have e : b.saveFails U = duplicateLoop U b.names [] := by simp [NameBook.saveFails, hb]
  rw [e]
  constructor
  · intro hd
    have hn : ¬ (b.names.map U.lower).Nodup := by
      intro hn
      have := h.mpr ⟨hn, by simp⟩
      rw [hd] at this; cases this
    rw [List.Nodup, List.pairwise_iff_getElem] at hn
    simp only [Classical.not_forall, ne_eq, Classical.not_not] at hn
    obtain ⟨i, j, hi, hj, hij, he⟩ := hn
    have hi' : i < b.names.length := by simpa using hi
    have hj' : j < b.names.length := by simpa using hj
    refine ⟨i, j, b.names[i], b.names[j], hij, by simp, by simp, ?_⟩
    simpa using he
  · rintro ⟨i, j, m, n, hij, hi, hj, he⟩
    cases hd : duplicateLoop U b.names [] with
    | true => rfl
    | false =>
      have := (h.mp hd).1
      rw [List.Nodup, List.pairwise_iff_getElem] at this
      obtain ⟨hil, hi⟩ := List.getElem?_eq_some_iff.mp hi
      obtain ⟨hjl, hj⟩ := List.getElem?_eq_some_iff.mp hj
      refine this i j (by simpa using hil) (by simpa using hjl) hij ?_ |>.elim
      simp [hi, hj, he]

theorem showNat_ascii (n : Nat) : ∀ c ∈ showNat n, c.toNat < 128 := by
  intro c hc
  have := digit_lt (showNat_isDigit hc)
  omega

theorem showNat_lower (n : Nat) : (showNat n).map Char.toLower = showNat n := by
  have : ∀ c ∈ showNat n, c.toLower = c := by
    intro c hc
    have hd := showNat_isDigit hc
    refine ascii_forall (P := fun c => isDigit c = true → c.toLower = c) ?_ c (showNat_ascii n c hc) hd
    decide +kernel
  rw [List.map_congr_left this]; simp

/-- **C04**, the generated names never clash: a workbook made with `add_worksheet` and
`add_chartsheet` only is not refused for its names. -/
theorem C04_generated_names_distinct (U : Unicode) (hU : U.Sane) (ops : List NameOp)
    (hops : ∀ o ∈ ops, o = .add ∨ o = .addChart) :
    (NameBook.new.run ops).saveFails U = false := by
  have key : ∀ (pre : Str), (∀ c ∈ pre, c.toNat < 128) → ∀ n,
      U.lower (pre ++ showNat n) = pre.map Char.toLower ++ showNat n := by
    intro pre hpre n
    rw [hU.lower_ascii _ (by
      intro c hc
      rcases List.mem_append.mp hc with h | h
      · exact hpre c h
      · exact showNat_ascii n c h), List.map_append, showNat_lower]
  have hS : ∀ n, U.lower ("Sheet".toList ++ showNat n) = "sheet".toList ++ showNat n :=
    fun n => key "Sheet".toList (by decide) n
  have hC : ∀ n, U.lower ("Chart".toList ++ showNat n) = "chart".toList ++ showNat n :=
    fun n => key "Chart".toList (by decide) n
  -- the invariant
  have inv : ∀ (ops : List NameOp) (b : NameBook), (∀ o ∈ ops, o = .add ∨ o = .addChart) →
      (b.names.map U.lower).Nodup →
      (∀ n ∈ b.names, (∃ k, k ≤ b.numWorksheets ∧ n = "Sheet".toList ++ showNat k) ∨
        ∃ k, k ≤ b.numChartsheets ∧ n = "Chart".toList ++ showNat k) →
      ((b.run ops).names.map U.lower).Nodup := by
    intro ops
    induction ops with
    | nil => intro b _ h1 _; exact h1
    | cons o ops ih =>
      intro b ho h1 h2
      have hfresh : ((b.exec o).names.map U.lower).Nodup ∧
          (∀ n ∈ (b.exec o).names,
            (∃ k, k ≤ (b.exec o).numWorksheets ∧ n = "Sheet".toList ++ showNat k) ∨
            ∃ k, k ≤ (b.exec o).numChartsheets ∧ n = "Chart".toList ++ showNat k) := by
        rcases ho o (by simp) with rfl | rfl
        · simp only [NameBook.exec]
          refine ⟨?_, ?_⟩
          · rw [List.map_append, List.nodup_append]
            refine ⟨h1, by simp, ?_⟩
            intro x hx y hy
            simp only [List.map_cons, List.map_nil, List.mem_singleton] at hy
            subst hy
            obtain ⟨n, hn, rfl⟩ := List.mem_map.mp hx
            rw [hS]
            rcases h2 n hn with ⟨k, hk, rfl⟩ | ⟨k, hk, rfl⟩
            · rw [hS]
              intro e
              have := showNat_injective (List.append_cancel_left e)
              omega
            · rw [hC]; simp
          · intro n hn
            rcases List.mem_append.mp hn with hn | hn
            · rcases h2 n hn with ⟨k, hk, e⟩ | h
              · exact Or.inl ⟨k, by omega, e⟩
              · exact Or.inr h
            · simp only [List.mem_singleton] at hn
              exact Or.inl ⟨b.numWorksheets + 1, by omega, hn⟩
        · simp only [NameBook.exec]
          refine ⟨?_, ?_⟩
          · rw [List.map_append, List.nodup_append]
            refine ⟨h1, by simp, ?_⟩
            intro x hx y hy
            simp only [List.map_cons, List.map_nil, List.mem_singleton] at hy
            subst hy
            obtain ⟨n, hn, rfl⟩ := List.mem_map.mp hx
            rw [hC]
            rcases h2 n hn with ⟨k, hk, rfl⟩ | ⟨k, hk, rfl⟩
            · rw [hS]; simp
            · rw [hC]
              intro e
              have := showNat_injective (List.append_cancel_left e)
              omega
          · intro n hn
            rcases List.mem_append.mp hn with hn | hn
            · rcases h2 n hn with h | ⟨k, hk, e⟩
              · exact Or.inl h
              · exact Or.inr ⟨k, by omega, e⟩
            · simp only [List.mem_singleton] at hn
              exact Or.inr ⟨b.numChartsheets + 1, by omega, hn⟩
      exact ih (b.exec o) (fun o' h => ho o' (by simp [h])) hfresh.1 hfresh.2
  have hfin := inv ops NameBook.new hops (by simp [NameBook.new]) (by simp [NameBook.new])
  unfold NameBook.saveFails
  dsimp only
  split
  · rename_i he
    simp [NameBook.exec, he, duplicateLoop]
  · exact (duplicateLoop_iff U _ []).mpr ⟨hfin, by simp⟩

/-- `push_worksheet` numbers its generated names differently, so the two generators can clash
(finding F12): the workbook cannot be saved although the user chose no name. -/
theorem C04_push_then_add_counterexample :
    (NameBook.new.run [.push [], .add]).saveFails asciiUnicode = true ∧
    (NameBook.new.run [.add, .push [], .add]).saveFails asciiUnicode = true := by decide +kernel

theorem showNat_length (k n : Nat) (h : n < 10 ^ (k + 1)) : (showNat n).length ≤ k + 1 := by
  induction k generalizing n with
  | zero => unfold showNat; rw [dif_pos (by omega)]; simp
  | succ k ih =>
    unfold showNat
    split
    · simp
    · have := ih (n / 10) (by rw [Nat.pow_succ] at h; omega)
      simp; omega

theorem legal_generated (pre : Str) (hp : pre = "Sheet".toList ∨ pre = "Chart".toList) (n : Nat)
    (hn : n < 10 ^ 20) : LegalName (pre ++ showNat n) := by
  have hlen := showNat_length 19 n hn
  have hne := showNat_ne_nil n
  have hdig : ∀ c ∈ showNat n, 48 ≤ c.toNat ∧ c.toNat ≤ 57 := fun c hc => digit_lt (showNat_isDigit hc)
  have hlast : (pre ++ showNat n).getLast? = (showNat n).getLast? := by
    rw [List.getLast?_append]
    cases h : (showNat n).getLast? with
    | none => simp at h; exact absurd h hne
    | some c => rfl
  refine ⟨?_, ?_, ?_, ?_, ?_⟩
  · intro h; simp at h; exact hne h.2
  · rcases hp with rfl | rfl <;> simp <;> omega
  · intro c hc
    rcases List.mem_append.mp hc with h | h
    · clear hc
      rcases hp with rfl | rfl <;> revert c <;> decide
    · have := hdig c h
      refine ⟨?_, ?_, ?_, ?_, ?_, ?_, ?_⟩ <;> rintro rfl <;> revert this <;> decide
  · rcases hp with rfl | rfl <;> simp
  · rw [hlast]
    intro h
    have := hdig '\'' (List.mem_of_getLast? h)
    revert this; decide

/-- **C04**, every sheet of a workbook always has a legal name (pushed sheets have no name or one
accepted by `set_name`; fewer than 10^19 sheets). -/
theorem C04_names_always_legal (ops : List NameOp) (hlen : ops.length < 10 ^ 19)
    (hpush : ∀ o ∈ ops, ∀ n, o = .push n → n = [] ∨ LegalName n) :
    ∀ n ∈ (NameBook.new.run ops).names, LegalName n := by
  suffices ∀ (ops : List NameOp) (b : NameBook),
      (∀ o ∈ ops, ∀ n, o = .push n → n = [] ∨ LegalName n) →
      (∀ n ∈ b.names, LegalName n) →
      b.numWorksheets + ops.length < 10 ^ 19 → b.numChartsheets + ops.length < 10 ^ 19 →
      b.names.length + ops.length < 10 ^ 19 →
      ∀ n ∈ (b.run ops).names, LegalName n by
    exact this ops NameBook.new hpush (by simp [NameBook.new]) (by simp [NameBook.new]; omega)
      (by simp [NameBook.new]; omega) (by simp [NameBook.new]; omega)
  intro ops
  induction ops with
  | nil => intro b _ h _ _ _; exact h
  | cons o ops ih =>
    intro b hp h h1 h2 h3
    simp only [List.length_cons] at h1 h2 h3
    refine ih (b.exec o) (fun o' ho' => hp o' (by simp [ho'])) ?_ ?_ ?_ ?_
    · cases o with
      | add =>
        intro n hn
        rcases List.mem_append.mp hn with hn | hn
        · exact h n hn
        · simp only [List.mem_singleton] at hn; subst hn
          exact legal_generated _ (Or.inl rfl) _ (by omega)
      | addChart =>
        intro n hn
        rcases List.mem_append.mp hn with hn | hn
        · exact h n hn
        · simp only [List.mem_singleton] at hn; subst hn
          exact legal_generated _ (Or.inr rfl) _ (by omega)
      | push m =>
        intro n hn
        simp only [NameBook.exec] at hn
        split at hn
        · rcases List.mem_append.mp hn with hn | hn
          · exact h n hn
          · simp only [List.mem_singleton] at hn; subst hn
            exact legal_generated _ (Or.inl rfl) _ (by omega)
        · rename_i hm
          rcases List.mem_append.mp hn with hn | hn
          · exact h n hn
          · simp only [List.mem_singleton] at hn; subst hn
            rcases hp (.push n) (by simp) n rfl with e | e
            · exact absurd e hm
            · exact e
      | setName i m =>
        intro n hn
        simp only [NameBook.exec] at hn
        split at hn
        · exact h n hn
        · rename_i hm
          rcases List.mem_or_eq_of_mem_set hn with hn | rfl
          · exact h n hn
          · refine (C04_accepts_iff_legal _).mp ?_
            cases hv : validateSheetname n with
            | none => rfl
            | some e => simp [hv] at hm
    · cases o <;> simp only [NameBook.exec] <;> (try split) <;> simp <;> omega
    · cases o <;> simp only [NameBook.exec] <;> (try split) <;> simp <;> omega
    · cases o <;> simp only [NameBook.exec] <;> (try split) <;> simp <;> omega

example : LegalName "Q1 (totals)".toList ∧ ¬ LegalName "a/b".toList :=
  ⟨(C04_accepts_iff_legal _).mp (by decide +kernel),
   fun h => absurd ((C04_accepts_iff_legal _).mpr h) (by decide +kernel)⟩

end Verif
