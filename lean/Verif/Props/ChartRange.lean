import Verif.Model.ChartRange
import Verif.Spec.ChartRange
import Verif.Props.Chart
/-!
C53: ranges given as text, and the checks of ranges and charts.
-/
namespace Verif
open Spec

/-! ### Reading a cell -/

theorem colNum_fold (s : Str) (hs : ∀ c ∈ s, isLetter c = true) (n : Nat)
    (h : s.foldl (fun n c => 26 * n + (c.toNat - 64)) n < 65536) :
    s.foldlM colNumStep n = some (s.foldl (fun n c => 26 * n + (c.toNat - 64)) n) := by
  induction s generalizing n with
  | nil => rfl
  | cons c s ih =>
    have hc := letter_lt (hs c (by simp))
    have mono : ∀ (s : Str) (a : Nat), a ≤ s.foldl (fun n c => 26 * n + (c.toNat - 64)) a := by
      intro s
      induction s with
      | nil => intro a; exact Nat.le_refl _
      | cons c s ih => intro a; exact Nat.le_trans (show a ≤ 26 * a + (c.toNat - 64) by omega) (ih _)
    rw [List.foldl_cons] at h
    have h1 := mono s (26 * n + (c.toNat - 64))
    have hstep : colNumStep n c = some (26 * n + (c.toNat - 64)) := by
      unfold colNumStep
      simp only [Nat.mod_eq_of_lt (show c.toNat < 65536 by omega)]
      rw [if_neg (by omega), if_neg (by omega), if_neg (by omega)]
      congr 1
      omega
    rw [List.foldlM_cons, hstep, List.foldl_cons]
    exact ih (fun c hc => hs c (by simp [hc])) _ h

theorem columnNameToNumber_read {s : Str} {c : Nat} (h : readCol s = some c) (hc : c < 65535) :
    columnNameToNumber s = some c := by
  unfold readCol at h
  split at h
  · cases h
  · rename_i hn
    simp only [Bool.or_eq_true, not_or, decide_eq_true_eq, Bool.not_eq_true',
      Bool.not_eq_false] at hn
    obtain ⟨h1, h2⟩ := hn
    have h2 := List.all_eq_true.mp h2
    injection h with h
    unfold columnNameToNumber
    rw [if_neg h1]
    have hlt : s.foldl (fun n c => 26 * n + (c.toNat - 64)) 0 < 65536 := by omega
    rw [colNum_fold s h2 0 hlt]
    have hpos : s.foldl (fun n c => 26 * n + (c.toNat - 64)) 0 ≠ 0 := by
      cases s with
      | nil => exact absurd rfl h1
      | cons a s =>
        have ha := letter_lt (h2 a (by simp))
        have mono : ∀ (s : Str) (a : Nat), a ≤ s.foldl (fun n c => 26 * n + (c.toNat - 64)) a := by
          intro s
          induction s with
          | nil => intro a; exact Nat.le_refl _
          | cons c s ih => intro a; exact Nat.le_trans (show a ≤ 26 * a + (c.toNat - 64) by omega) (ih _)
        have := mono s (26 * 0 + (a.toNat - 64))
        rw [List.foldl_cons]
        omega
    simp only
    rw [if_neg hpos, h]

/-- What a cell that can be read looks like without its anchors. -/
structure CellForm (s : Str) (r c : Nat) (l d : Str) : Prop where
  form : s.filter (· ≠ '$') = l ++ d
  col : readCol l = some c
  row : readNat d = some (r + 1)

theorem filter_id {l : Str} (h : ∀ c ∈ l, c ≠ '$') : l.filter (· ≠ '$') = l :=
  List.filter_eq_self.mpr fun c hc => decide_eq_true (h c hc)

theorem filter_dropAnchor (s : Str) : s.filter (· ≠ '$') = (dropAnchor s).filter (· ≠ '$') := by
  unfold dropAnchor
  split
  · simp
  · rfl

theorem readNat_digits {s : Str} {n : Nat} (h : readNat s = some n) : s ≠ [] ∧ ∀ c ∈ s, isDigit c = true := by
  unfold readNat at h
  split at h
  · cases h
  · rename_i h1
    split at h
    · cases h
    · rename_i h2
      exact ⟨h1, List.all_eq_true.mp (by simpa using h2)⟩

theorem readCol_letters {s : Str} {n : Nat} (h : readCol s = some n) : s ≠ [] ∧ ∀ c ∈ s, isLetter c = true := by
  unfold readCol at h
  split at h
  · cases h
  · rename_i hn
    simp only [Bool.or_eq_true, not_or, decide_eq_true_eq, Bool.not_eq_true',
      Bool.not_eq_false] at hn
    exact ⟨hn.1, List.all_eq_true.mp hn.2⟩

theorem readCell_form {s : Str} {r c : Nat} (h : readCell s = some (r, c)) : ∃ l d, CellForm s r c l d := by
  unfold readCell at h
  split at h
  · rename_i c' r' hc hr
    injection h with h
    injection h with h1 h2
    subst h1; subst h2
    refine ⟨_, dropAnchor ((dropAnchor s).dropWhile isLetter), ?_, hc, ?_⟩
    · rw [filter_dropAnchor]
      conv => lhs; rw [← List.takeWhile_append_dropWhile (p := isLetter) (l := dropAnchor s)]
      rw [List.filter_append, filter_dropAnchor ((dropAnchor s).dropWhile isLetter)]
      congr 1
      · exact filter_id fun x hx e => by
          have := (readCol_letters hc).2 x hx
          subst e; revert this; decide
      · refine filter_id fun x hx e => ?_
        unfold readRow at hr
        split at hr
        · rename_i n hn
          have := (readNat_digits hn).2 x hx
          subst e; revert this; decide
        · cases hr
    · unfold readRow at hr
      split at hr
      · rename_i n hn; injection hr with hr; subst hr; exact hn
      · cases hr
  · cases h

theorem CellForm.parse {U : Unicode} (hU : U.Sane) {s : Str} {r c : Nat} {l d : Str} (h : CellForm s r c l d)
    (hr : r < 1048576) (hc : c < 16384) : parseCell U (l ++ d) = some (r, c) := by
  obtain ⟨l0, l1⟩ := readCol_letters h.col
  obtain ⟨d0, d1⟩ := readNat_digits h.row
  have up : ∀ x : Char, isLetter x = true → x.toUpper = x := by
    intro x hx
    have := letter_lt hx
    refine ascii_forall (P := fun c => isLetter c = true → c.toUpper = c) (by decide +kernel) x (by omega) hx
  have upl : asciiUpper l = l := by
    unfold asciiUpper
    conv => rhs; rw [← List.map_id l]
    exact List.map_congr_left fun x hx => up x (l1 x hx)
  have upd : U.upperStr d = d := by
    rw [upperStr_ascii hU fun x hx => by have := digit_lt (d1 x hx); omega]
    unfold asciiUpper
    conv => rhs; rw [← List.map_id d]
    refine List.map_congr_left fun x hx => ?_
    have := digit_lt (d1 x hx)
    refine ascii_forall (P := fun c => isDigit c = true → c.toUpper = c) (by decide +kernel) x (by omega) (d1 x hx)
  have hsp : splitCellReference U (l ++ d) = (l, d) := by
    rw [split_letters hU (fun x hx => by rw [up x (l1 x hx)]; exact l1 x hx) ?_, upl, upd]
    cases d with
    | nil => exact absurd rfl d0
    | cons x t => exact ⟨x, rfl, d1 x (by simp)⟩
  unfold parseCell
  have := (parseU64_readNat h.row (by omega)).1
  simp only [hsp, columnNameToNumber_read h.col (show c < 65535 by omega), Option.map_some, parseRow, this]
  rw [if_pos (by omega)]
  rfl

theorem CellForm.mem {s : Str} {r c : Nat} {l d : Str} (h : CellForm s r c l d) :
    ∀ x ∈ l ++ d, isLetter x = true ∨ isDigit x = true := by
  intro x hx
  rcases List.mem_append.mp hx with hx | hx
  · exact .inl ((readCol_letters h.col).2 x hx)
  · exact .inr ((readNat_digits h.row).2 x hx)

theorem CellForm.noColon {s : Str} {r c : Nat} {l d : Str} (h : CellForm s r c l d) : ∀ x ∈ l ++ d, x ≠ ':' := by
  intro x hx
  rcases h.mem x hx with h | h
  · exact isLetter_ne_colon h
  · exact isDigit_ne_colon h

theorem CellForm.noColon' {s : Str} {r c : Nat} {l d : Str} (h : CellForm s r c l d) : ∀ x ∈ s, x ≠ ':' := by
  intro x hx e
  exact h.noColon x (by rw [← h.form]; exact List.mem_filter.mpr ⟨hx, by subst e; decide⟩) e

theorem CellForm.head {s : Str} {r c : Nat} {l d : Str} (h : CellForm s r c l d) (t : Str) :
    ∃ x, (l ++ d ++ t).head? = some x ∧ isLetter x = true := by
  obtain ⟨h1, h2⟩ := readCol_letters h.col
  cases l with
  | nil => exact absurd rfl h1
  | cons x l => exact ⟨x, rfl, h2 x (by simp)⟩

theorem CellForm.last {s : Str} {r c : Nat} {l d : Str} (h : CellForm s r c l d) (t : Str) :
    ∃ x, (t ++ (l ++ d)).getLast? = some x ∧ isDigit x = true := by
  obtain ⟨h1, h2⟩ := readNat_digits h.row
  rw [← List.append_assoc, List.getLast?_append, List.getLast?_eq_some_getLast h1]
  exact ⟨_, rfl, h2 _ (List.getLast_mem h1)⟩

theorem isValidRange_of {s : Str} (h1 : ∃ x, s.head? = some x ∧ isLetter x = true)
    (h2 : ∃ x, s.getLast? = some x ∧ isDigit x = true)
    (h3 : ∀ x ∈ s, (isLetter x = true ∨ isDigit x = true) ∨ x = ':') : isValidRange s = true := by
  obtain ⟨a, ha, ha'⟩ := h1
  obtain ⟨b, hb, hb'⟩ := h2
  unfold isValidRange
  rw [ha, hb]
  simp only [Bool.and_eq_true, List.all_eq_true, Bool.or_eq_true, beq_iff_eq]
  refine ⟨⟨?_, hb'⟩, fun x hx => ?_⟩
  · unfold isLetter at ha'; simpa using ha'
  · rcases h3 x hx with (h | h) | h
    · exact .inl (.inl (by unfold isLetter at h; simpa using h))
    · exact .inl (.inr h)
    · exact .inr h

theorem takeWhile_whole {p : Char → Bool} {s : Str} (h : ∀ x ∈ s, p x = true) : s.takeWhile p = s ∧ s.dropWhile p = [] := by
  induction s with
  | nil => exact ⟨rfl, rfl⟩
  | cons a s ih =>
    have ha := h a (by simp)
    have := ih fun x hx => h x (by simp [hx])
    simp [ha, this.1, this.2]

theorem takeWhile_until {p : Char → Bool} {s : Str} {a : Char} {t : Str} (h : ∀ x ∈ s, p x = true) (ha : p a = false) :
    (s ++ a :: t).takeWhile p = s ∧ (s ++ a :: t).dropWhile p = a :: t := by
  induction s with
  | nil => simp [ha]
  | cons b s ih =>
    have hb := h b (by simp)
    have := ih fun x hx => h x (by simp [hx])
    simp [hb, this.1, this.2]

/-- The cells of a range that can be read. -/
theorem cells_read {U : Unicode} (hU : U.Sane) {s : Str} {a b : Nat × Nat} (h : readRangeWith readCell s = some (a, b))
    (ha : a.1 < 1048576 ∧ a.2 < 16384) (hb : b.1 < 1048576 ∧ b.2 < 16384) :
    isValidRange (s.filter (· ≠ '$')) = true ∧
      parseCells U (s.filter (· ≠ '$')) = some ⟨a.1, a.2, b.1, b.2⟩ := by
  unfold readRangeWith at h
  split at h
  · rename_i hd
    cases hc : readCell s with
    | none => rw [hc] at h; cases h
    | some p =>
      rw [hc] at h
      injection h with h
      injection h with h1 h2
      subst h1; subst h2
      obtain ⟨l, d, hf⟩ := readCell_form hc
      rw [hf.form]
      refine ⟨isValidRange_of ?_ (hf.last []) fun x hx => .inl (hf.mem x hx), ?_⟩
      · have := hf.head []
        rwa [List.append_nil] at this
      · unfold parseCells
        rw [(takeWhile_whole (p := (· ≠ ':')) fun x hx => by simpa using hf.noColon x hx).2]
        simp only [hf.parse hU ha.1 ha.2, Option.map_some]
  · rename_i y rest hd
    split at h
    · rename_i p q hp hq
      injection h with h
      injection h with h1 h2
      subst h1; subst h2
      obtain ⟨l, d, hf⟩ := readCell_form hp
      obtain ⟨l', d', hf'⟩ := readCell_form hq
      have hy : y = ':' := by
        have := List.head?_dropWhile_not (fun c : Char => decide (c ≠ ':')) s
        rw [hd] at this
        simpa using this
      have hs : s.filter (· ≠ '$') = (l ++ d) ++ ':' :: (l' ++ d') := by
        conv => lhs; rw [← List.takeWhile_append_dropWhile (p := fun c => decide (c ≠ ':')) (l := s)]
        rw [List.filter_append, hd, hf.form, hy, List.filter_cons, if_pos (by decide), hf'.form]
      rw [hs]
      refine ⟨isValidRange_of (hf.head _) ?_ fun x hx => ?_, ?_⟩
      · have := hf'.last (l ++ d ++ [':'])
        simpa using this
      · rcases List.mem_append.mp hx with hx | hx
        · exact .inl (hf.mem x hx)
        · rcases List.mem_cons.mp hx with hx | hx
          · exact .inr hx
          · exact .inl (hf'.mem x hx)
      · obtain ⟨e1, e2⟩ := takeWhile_until (p := (· ≠ ':')) (a := ':') (t := l' ++ d')
          (fun x hx => by simpa using hf.noColon x hx) (by decide)
        unfold parseCells
        rw [e1, e2]
        simp only [hf.parse hU ha.1 ha.2, hf'.parse hU hb.1 hb.2]
    · cases h

/-! ### The text of a range -/

theorem stripQuotes_plain {n : Str} (h1 : n.head? ≠ some '\'') : stripQuotes n = some n := by
  unfold stripQuotes
  rw [if_neg (fun h => h1 h.1)]

theorem stripQuotes_quoted (n : Str) : stripQuotes ('\'' :: (n ++ ['\''])) = some n := by
  unfold stripQuotes
  rw [if_pos ⟨rfl, by simp [List.getLast?_cons]⟩, if_neg (by simp)]
  simp

theorem dropEquals_split (s : Str) :
    s.dropWhile (· ≠ '!') = (dropEquals s).dropWhile (· ≠ '!') ∧
    cleanName (s.takeWhile (· ≠ '!')) = stripQuotes ((dropEquals s).takeWhile (· ≠ '!')) := by
  unfold dropEquals cleanName
  split
  · simp
  · rename_i hne
    refine ⟨rfl, ?_⟩
    rw [if_neg]
    cases s with
    | nil => simp
    | cons c s =>
      rw [List.takeWhile_cons]
      split
      · intro h
        injection h with h
        exact hne s (by rw [h])
      · simp

theorem readQuoted_plain {s n t : Str} (h : readQuoted s = some (n, t)) (hn : '\'' ∉ n) : s = n ++ '\'' :: t := by
  induction s generalizing n t with
  | nil => simp [readQuoted] at h
  | cons c s ih =>
    unfold readQuoted at h
    split at h
    · rename_i e
      cases hr : readQuoted _ with
      | none => rw [hr] at h; cases h
      | some p => rw [hr] at h; injection h with h; injection h with h1 h2; subst h1; simp at hn
    · rename_i e
      injection e with e1 e2
      subst e1; subst e2
      injection h with h; injection h with h1 h2
      subst h1; subst h2
      rfl
    · rename_i e
      injection e with e1 e2
      subst e1; subst e2
      cases hr : readQuoted s with
      | none => rw [hr] at h; cases h
      | some p =>
        rw [hr] at h; injection h with h; injection h with h1 h2; subst h1; subst h2
        rw [List.cons_append, ← ih hr (fun hm => hn (List.mem_cons_of_mem _ hm))]
    · rename_i e; cases e

/-- C53, ranges given as text: a text that reads as a range of a worksheet (with or without an equals sign, apostrophes
around the name and anchors) gives that range. Missing for the full property: worksheet names with an apostrophe or
an exclamation mark (see the counterexamples). -/
theorem C53_range_text_partial (U : Unicode) (hU : U.Sane) (s n : Str) (a b : Nat × Nat)
    (h : readRangeRef s = some (n, (a, b))) (hq : '\'' ∉ n) (hx : '!' ∉ n)
    (ha : a.1 < 1048576 ∧ a.2 < 16384) (hb : b.1 < 1048576 ∧ b.2 < 16384) :
    ChartRange.newFromString U s = some ⟨n, ⟨a.1, a.2, b.1, b.2⟩⟩ := by
  unfold readRangeRef at h
  split at h
  · rename_i n' rest hs
    cases hr : readRangeWith readCell rest with
    | none => rw [hr] at h; cases h
    | some p =>
      rw [hr] at h
      injection h with h
      injection h with h1 h2
      subst h1; subst h2
      obtain ⟨hv, hc⟩ := cells_read hU hr ha hb
      have key : (dropEquals s).dropWhile (· ≠ '!') = '!' :: rest ∧
          stripQuotes ((dropEquals s).takeWhile (· ≠ '!')) = some n' := by
        generalize dropEquals s = e at hs
        unfold readSheetRef at hs
        split at hs
        · rename_i r
          split at hs
          · rename_i n0 r0 hq0
            injection hs with hs; injection hs with h1 h2
            subst h1; subst h2
            rw [readQuoted_plain hq0 hq]
            have := takeWhile_until (p := fun c => decide (c ≠ '!')) (s := '\'' :: (n0 ++ ['\''])) (a := '!') (t := r0)
              (fun x hx' => by
                simp only [List.mem_cons, List.mem_append, List.not_mem_nil, or_false] at hx'
                rcases hx' with rfl | hx' | rfl
                · decide
                · exact decide_eq_true fun e => hx (e ▸ hx')
                · decide) (by decide)
            simp only [List.cons_append, List.append_assoc, List.nil_append] at this ⊢
            rw [this.1, this.2]
            exact ⟨rfl, stripQuotes_quoted n0⟩
          · cases hs
        · rename_i hne
          split at hs
          · rename_i y r hd
            injection hs with hs; injection hs with h1 h2
            subst h2
            have hy : y = '!' := by
              have := List.head?_dropWhile_not (fun c : Char => decide (c ≠ '!')) e
              rw [hd] at this
              simpa using this
            rw [hd, hy, h1]
            refine ⟨rfl, stripQuotes_plain ?_⟩
            intro hh
            exact hq (List.mem_of_mem_head? (by rw [hh]; rfl))
          · cases hs
      have hall : s.dropWhile (· ≠ '!') = '!' :: rest ∧ cleanName (s.takeWhile (· ≠ '!')) = some n' := by
        obtain ⟨e1, e2⟩ := dropEquals_split s
        exact ⟨e1.trans key.1, e2.trans key.2⟩
      unfold ChartRange.newFromString
      rw [hall.1]
      simp only [hv, if_true, hc, hall.2]
  · cases h

theorem readCell_abs {s : Str} {p : Nat × Nat} (h : readA1Abs s = some p) : readCell s = some p := by
  unfold readA1Abs at h
  split at h
  · rename_i s
    split at h
    · rename_i ds hd
      split at h
      · rename_i c r hc hr
        unfold readCell
        simp only [dropAnchor, hc, hd, hr]
        exact h
      · cases h
    · cases h
  · cases h

theorem readRange_abs {s : Str} {p : (Nat × Nat) × (Nat × Nat)} (h : readRangeAbs s = some p) :
    readRangeWith readCell s = some p := by
  unfold readRangeAbs readRangeWith at h
  unfold readRangeWith
  split at h
  · rename_i hd
    cases hc : readA1Abs s with
    | none => rw [hc] at h; cases h
    | some a => rw [hc] at h; simp only [readCell_abs hc]; exact h
  · rename_i y rest hd
    split at h
    · rename_i a b ha hb
      simp only [readCell_abs ha, readCell_abs hb]
      exact h
    · cases h

/-- The text of a reference does not start with an equals sign. -/
theorem chartRangeAbs_head {U : Unicode} (hU : U.Sane) {r : ChartRange} (h : RangeGood U r) :
    dropEquals (chartRangeAbs U r) = chartRangeAbs U r := by
  unfold dropEquals
  split
  · rename_i s hs
    exfalso
    unfold chartRangeAbs at hs
    cases hq : quoteSheetName U r.sheet with
    | none => exact h.quote hq
    | some q =>
      rw [hq] at hs
      simp only at hs
      have hform := C03_quote_form U r.sheet q hq
      rcases hform with ⟨rfl⟩ | hform
      · cases hn : r.sheet with
        | nil => exact h.name hn
        | cons c t =>
          rw [hn] at hs
          injection hs with hc _
          subst hc
          have : quoteSheetName U r.sheet = some ('\'' :: doubleQuotes r.sheet ++ ['\'']) :=
            C03_special_characters_quoted U r.sheet h.head (.inl ⟨'=', by rw [hn]; simp, by
              rw [hU.alnum_ascii _ (by decide)]; decide, by decide, by decide, by decide +kernel⟩)
          rw [hq] at this
          rw [hn] at this
          simp at this
      · rw [hform] at hs
        injection hs with hc _
        revert hc; decide
  · rfl

/-- C53: the text the library writes for a range is understood as that range. -/
theorem C53_own_text_partial (U : Unicode) (hU : U.Sane) (r : ChartRange) (h : RangeGood U r)
    (hq : '\'' ∉ r.sheet) (hx : '!' ∉ r.sheet) (hr : r.d.lastRow < 1048576) (hc : r.d.lastCol < 16384) :
    ChartRange.newFromString U (chartRangeAbs U r) = some r := by
  have h1 := h.rows
  have h2 := h.cols
  refine C53_range_text_partial U hU _ r.sheet (r.d.firstRow, r.d.firstCol) (r.d.lastRow, r.d.lastCol) ?_ hq hx
    ⟨by dsimp only; omega, by dsimp only; omega⟩ ⟨hr, hc⟩
  unfold readRangeRef
  rw [chartRangeAbs_head hU h, chartRangeAbs_read hU h]
  simp only
  rw [readRange_abs (C02_range_abs_roundtrip _ _ _ _)]
  rfl

/-- C53: a text without an exclamation mark, or with a character after the first one that is not an upper case letter,
a digit, an anchor or a colon, is not understood as a range: the range has no worksheet, and charts and sparklines
with it are refused (`C53_chart_accepted_partial`). -/
theorem C53_not_a_range (U : Unicode) (s : Str)
    (h : '!' ∉ s ∨ ∃ n rest c, s = n ++ '!' :: rest ∧ '!' ∉ n ∧ c ∈ rest ∧ isLetter c = false ∧ isDigit c = false ∧
      c ≠ '$' ∧ c ≠ ':') : ChartRange.newFromString U s = some {} := by
  unfold ChartRange.newFromString
  rcases h with h | ⟨n, rest, c, rfl, hn, hc, h1, h2, h3, h4⟩
  · rw [(takeWhile_whole (p := fun c => decide (c ≠ '!')) fun x hx => decide_eq_true fun e => h (e ▸ hx)).2]
  · rw [(takeWhile_until (p := fun c => decide (c ≠ '!')) (a := '!') (t := rest)
      (fun x hx => decide_eq_true fun e => hn (e ▸ hx)) (by decide)).2]
    have : isValidRange (rest.filter (· ≠ '$')) = false := by
      rw [Bool.eq_false_iff]
      intro hv
      unfold isValidRange at hv
      split at hv
      · simp only [Bool.and_eq_true, List.all_eq_true, Bool.or_eq_true] at hv
        have := hv.2 c (List.mem_filter.mpr ⟨hc, decide_eq_true h3⟩)
        unfold isLetter at h1
        rcases this with (h | h) | h
        · simp [h.1, h.2] at h1
        · rw [show isAsciiDigit c = isDigit c from rfl, h2] at h; cases h
        · exact h4 (by simpa using h)
      · cases hv
    simp only [this, Bool.false_eq_true, if_false]

/-! ### The checks -/

/-- C53: a range is accepted exactly if it is legal. -/
theorem C53_range_accepted (U : Unicode) (r : ChartRange) (hp : r.validate U ≠ .panic) :
    r.validate U = .ok ↔ RangeLegal r.sheet (r.d.firstRow, r.d.firstCol) (r.d.lastRow, r.d.lastCol) := by
  unfold ChartRange.validate at hp ⊢
  split
  · rename_i h; rw [if_pos h] at hp; exact absurd rfl hp
  · clear hp
    rename_i hn
    clear hn
    cases hv : validateSheetname r.sheet with
    | some e =>
      simp only [Option.isSome_some, if_true]
      refine ⟨fun h => (by cases h), fun h => ?_⟩
      rw [(C04_accepts_iff_legal _).mpr h.name] at hv
      cases hv
    | none =>
      have hname := (C04_accepts_iff_legal _).mp hv
      simp only [Option.isSome_none, Bool.false_eq_true, if_false, Bool.or_eq_true, decide_eq_true_eq]
      have e1 : ROW_MAX = 1048576 := rfl
      have e2 : COL_MAX = 16384 := rfl
      rw [e1, e2]
      constructor
      · intro h
        repeat' split at h
        all_goals first | cases h | skip
        exact ⟨hname, by dsimp only; omega, by dsimp only; omega, by dsimp only; omega, by dsimp only; omega⟩
      · intro h
        have h1 := h.rows; have h2 := h.cols; have h3 := h.lastRow; have h4 := h.lastCol
        dsimp only at h1 h2 h3 h4
        rw [if_neg (by omega), if_neg (by omega), if_neg (by omega), if_neg (by omega)]

/-- The check of a range does not panic for a name without a dot and a range in the grid. -/
theorem C53_no_panic (U : Unicode) (hU : U.Sane) (r : ChartRange) (hdot : '.' ∉ r.sheet)
    (h1 : r.d.firstRow < 1048576 ∧ r.d.lastRow < 1048576) (h2 : r.d.firstCol < 16384 ∧ r.d.lastCol < 16384) :
    r.validate U ≠ .panic := by
  unfold ChartRange.validate
  have := C03_no_panic U hU r.sheet hdot
  rw [if_neg]
  · repeat' split
    all_goals simp
  · cases hq : quoteSheetName U r.sheet with
    | none => rw [hq] at this; cases this
    | some q =>
      simp only [Option.isNone_some, Bool.false_or, Bool.or_eq_true, decide_eq_true_eq]
      omega

/-- An accepted range has the properties the chart part needs. -/
theorem RangeGood.of_accepted {U : Unicode} {r : ChartRange} (h : r.validate U = .ok) (hs : attrSafe r.sheet = true) :
    RangeGood U r := by
  have hp : r.validate U ≠ .panic := by rw [h]; simp
  have hl := (C53_range_accepted U r hp).mp h
  refine ⟨hl.name.notBlank, hl.name.first, ?_, hs, hl.rows, hl.cols⟩
  intro hq
  refine hp ?_
  unfold ChartRange.validate
  rw [hq]
  simp

theorem then_ok (a b : Checked) : a.then b = .ok ↔ a = .ok ∧ b = .ok := by
  cases a <;> simp [Checked.then]

theorem trend_ok {t : Trend} (h : t ≠ .polynomial 6 ∧ t ≠ .movingAverage 4) : t.check = .ok ↔ TrendLegal t := by
  obtain ⟨h1, h2⟩ := h
  cases t with
  | polynomial n =>
    have : n ≠ 6 := fun e => h1 (by rw [e])
    simp only [Trend.check, TrendLegal, Bool.and_eq_true, decide_eq_true_eq]
    split <;> rename_i h <;> simp only [reduceCtorEq, true_iff, false_iff] <;> omega
  | movingAverage n =>
    have : n ≠ 4 := fun e => h2 (by rw [e])
    simp only [Trend.check, TrendLegal, Bool.and_eq_true, decide_eq_true_eq]
    split <;> rename_i h <;> simp only [reduceCtorEq, true_iff, false_iff] <;> omega
  | other => simp [Trend.check, TrendLegal]

theorem seriesCheck_ok {U : Unicode} {g : ChartGroup} {s : ChartSeries × Trend}
    (hp : s.1.values.range.validate U ≠ .panic) (hp' : s.1.cats.range.sheet ≠ [] → s.1.cats.range.validate U ≠ .panic)
    (ht : s.2 ≠ .polynomial 6 ∧ s.2 ≠ .movingAverage 4) :
    seriesCheck U g s = .ok ↔
    (RangeLegal s.1.values.range.sheet (s.1.values.range.d.firstRow, s.1.values.range.d.firstCol)
      (s.1.values.range.d.lastRow, s.1.values.range.d.lastCol) ∧
    (s.1.cats.range.sheet = [] → g ≠ .scatter) ∧
    (s.1.cats.range.sheet ≠ [] →
      RangeLegal s.1.cats.range.sheet (s.1.cats.range.d.firstRow, s.1.cats.range.d.firstCol)
        (s.1.cats.range.d.lastRow, s.1.cats.range.d.lastCol)) ∧
    TrendLegal s.2) := by
  rw [← C53_range_accepted U _ hp, ← trend_ok ht]
  unfold seriesCheck
  cases hv : s.1.values.range.hasData with
  | false =>
    simp only [Bool.not_false, if_true, reduceCtorEq, false_iff]
    intro h
    have := (C53_range_accepted U _ hp).mp h.1
    refine absurd this.name.notBlank (fun h => h ?_)
    simpa [ChartRange.hasData] using hv
  | true =>
    cases hc : s.1.cats.range.hasData with
    | false =>
      have hs : s.1.cats.range.sheet = [] := by simpa [ChartRange.hasData] using hc
      by_cases hg : g = .scatter
      · simp [hg, hs]
      · simp only [Bool.not_true, Bool.false_eq_true, if_false, hg, decide_false, Bool.false_and, then_ok, hs, ne_eq,
          not_true_eq_false, false_implies, true_and, not_false_eq_true, implies_true]
    | true =>
      have hs : s.1.cats.range.sheet ≠ [] := by simpa [ChartRange.hasData] using hc
      rw [← C53_range_accepted U _ (hp' hs)]
      simp only [Bool.not_true, Bool.false_eq_true, if_false, Bool.and_false, if_true, then_ok, hs, ne_eq,
        not_false_eq_true, forall_const, false_implies, true_and]

/-- C53: a chart is accepted exactly if it is legal. Missing for the full property: polynomials of order 6 and moving
averages over 4 periods (see the counterexample). -/
theorem C53_chart_accepted_partial (U : Unicode) (g : ChartGroup) (series : List (ChartSeries × Trend))
    (hp : ∀ s ∈ series, s.1.values.range.validate U ≠ .panic ∧
      (s.1.cats.range.sheet ≠ [] → s.1.cats.range.validate U ≠ .panic))
    (ht : ∀ s ∈ series, s.2 ≠ .polynomial 6 ∧ s.2 ≠ .movingAverage 4) :
    chartCheck U g series = .ok ↔ ChartLegal g series := by
  have key : seriesChecks U g series = .ok ↔ ∀ s ∈ series, seriesCheck U g s = .ok := by
    clear hp ht
    induction series with
    | nil => simp [seriesChecks]
    | cons s ss ih => simp [seriesChecks, then_ok, ih]
  unfold chartCheck ChartLegal
  cases series with
  | nil => simp
  | cons s ss =>
    simp only [List.isEmpty_cons, Bool.false_eq_true, if_false, ne_eq, reduceCtorEq, not_false_eq_true, true_and]
    rw [key]
    exact ⟨fun h x hx => (seriesCheck_ok (hp x hx).1 (hp x hx).2 (ht x hx)).mp (h x hx),
      fun h x hx => (seriesCheck_ok (hp x hx).1 (hp x hx).2 (ht x hx)).mpr (h x hx)⟩

/-! ### Examples -/

/-- The hypotheses of `C53_range_text_partial` in a concrete case. -/
example : readRangeRef "='Sales data'!$B$2:C$11".toList = some ("Sales data".toList, ((1, 1), (10, 2))) ∧
    ChartRange.newFromString asciiUnicode "='Sales data'!$B$2:C$11".toList =
      some ⟨"Sales data".toList, ⟨1, 1, 10, 2⟩⟩ := by
  constructor <;> decide +kernel

example : ChartRange.newFromString asciiUnicode "Sheet1!XFD1048576".toList =
    some ⟨"Sheet1".toList, ⟨1048575, 16383, 1048575, 16383⟩⟩ := by decide +kernel

example : ChartRange.newFromString asciiUnicode "Sheet1!a1".toList = some {} := by decide +kernel

/-- F45: the doubled apostrophe of a quoted worksheet name is not undone, so that the range refers to a worksheet that
is not there. -/
theorem C53_apostrophe_counterexample :
    readRangeRef "='Bob''s'!$A$1".toList = some ("Bob's".toList, ((0, 0), (0, 0))) ∧
    ChartRange.newFromString asciiUnicode "='Bob''s'!$A$1".toList = some ⟨"Bob''s".toList, ⟨0, 0, 0, 0⟩⟩ := by
  constructor <;> decide +kernel

/-- F45: an exclamation mark in a quoted worksheet name. -/
theorem C53_exclamation_counterexample :
    readRangeRef "='Go!'!$A$1".toList = some ("Go!".toList, ((0, 0), (0, 0))) ∧
    ChartRange.newFromString asciiUnicode "='Go!'!$A$1".toList = some {} := by
  constructor <;> decide +kernel

/-- F47: a name that is a single apostrophe panics. -/
theorem C53_single_apostrophe_panics : ChartRange.newFromString asciiUnicode "'!A1".toList = none := by
  decide +kernel

/-- F93: a column name that is too long panics. -/
theorem C53_long_column_panics : ChartRange.newFromString asciiUnicode "S!AAAAA1".toList = none := by
  decide +kernel

/-- F94: a text that is not a range is silently taken as the cell in the first row. -/
theorem C53_not_a_range_counterexample :
    readRangeRef "S!B7C".toList = none ∧ readRangeRef "S!B7C8".toList = none ∧
    ChartRange.newFromString asciiUnicode "S!B7C8".toList = some ⟨"S".toList, ⟨0, 1, 0, 1⟩⟩ ∧
    ChartRange.validate asciiUnicode ⟨"S".toList, ⟨0, 1, 0, 1⟩⟩ = .ok := by
  refine ⟨?_, ?_, ?_, ?_⟩ <;> decide +kernel

/-- A series with values in a cell. -/
def oneCell : ChartSeries := { values := { range := ⟨"S".toList, ⟨0, 0, 0, 0⟩⟩ } }

/-- F92: a polynomial of order 6 and a moving average over 4 periods are legal but refused. -/
theorem C53_trend_counterexample :
    TrendLegal (.polynomial 6) ∧ chartCheck asciiUnicode .line [(oneCell, .polynomial 6)] = .refused ∧
    TrendLegal (.movingAverage 4) ∧ chartCheck asciiUnicode .line [(oneCell, .movingAverage 4)] = .refused := by
  refine ⟨by simp [TrendLegal], ?_, by simp [TrendLegal], ?_⟩ <;> decide +kernel

/-- The hypotheses of `C53_chart_accepted_partial` in a concrete case. -/
example : chartCheck asciiUnicode .line [(oneCell, .polynomial 5)] = .ok ∧
    chartCheck asciiUnicode .scatter [(oneCell, .other)] = .refused ∧
    oneCell.values.range.validate asciiUnicode ≠ .panic := by
  refine ⟨?_, ?_, ?_⟩ <;> decide +kernel

end Verif
