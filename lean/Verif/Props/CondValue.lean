import Verif.Props.CondPeriod
/-! The values of conditional formats, the lists of ranges, and what goes wrong (C56). -/
namespace Verif
open Spec

/-! ### Strings as values -/

theorem eval_quoted (e : FEnv) (t : List Char) :
    evalFormula e ('"' :: t.flatMap (fun c => if c = '"' then ['"', '"'] else [c]) ++ ['"']) = some (.text t) := by
  unfold evalFormula
  have : lexFrom .start [] ('"' :: t.flatMap (fun c => if c = '"' then ['"', '"'] else [c]) ++ ['"']) = some [.str t] := by
    show lexFrom (.str []) [] (t.flatMap (fun c => if c = '"' then ['"', '"'] else [c]) ++ ['"']) = _
    rw [lex_escaped]
    rfl
  rw [this]
  rfl

theorem quoteString_meant (v : CondValue) :
    (v.isString = false → v.quoteString = v) ∧
    (v.isString = true → v.value ≠ [] → ¬ (v.value.head? = some '"' ∧ v.value.getLast? = some '"') →
      ∀ e : FEnv, evalFormula e v.quoteString.value = some (.text v.value)) := by
  unfold CondValue.quoteString
  constructor
  · intro h
    rw [if_pos (by simp [h])]
  · intro h h0 hq e
    rw [if_neg (by simp [h, h0]), if_neg (by simpa using hq)]
    exact eval_quoted e v.value

/-- The values of rules on the values of cells: numbers, dates and formulas are as given, and a string is the string, whatever is in it,
unless it is empty or starts and ends with a quote. -/
theorem C56_values_partial (rule : CondCellRule) (range : List Char) (op : OpSeen) (fs : List (List Char))
    (hseen : ruleMeant (.cell (some rule.set)) range = some (.cellIs op fs)) :
    op = opMeant rule ∧ fs.length = (valuesGiven rule).length ∧
    ∀ (i : Nat) (v : CondValue) (f : List Char), (valuesGiven rule)[i]? = some v → fs[i]? = some f →
      (v.isString = false → f = v.value) ∧
      (v.isString = true → v.value ≠ [] → ¬ (v.value.head? = some '"' ∧ v.value.getLast? = some '"') →
        ∀ e : FEnv, evalFormula e f = some (.text v.value)) := by
  simp only [ruleMeant, Option.map_some, Option.some.injEq, RuleSeen.cellIs.injEq] at hseen
  obtain ⟨rfl, rfl⟩ := hseen
  have key : ∀ v : CondValue, (v.isString = false → v.quoteString.value = v.value) ∧
      (v.isString = true → v.value ≠ [] → ¬ (v.value.head? = some '"' ∧ v.value.getLast? = some '"') →
        ∀ e : FEnv, evalFormula e v.quoteString.value = some (.text v.value)) := fun v =>
    ⟨fun h => by rw [(quoteString_meant v).1 h], (quoteString_meant v).2⟩
  cases rule with
  | cmp o w =>
    refine ⟨by cases o <;> rfl, rfl, ?_⟩
    intro i v f h1 h2
    cases i with
    | zero => cases h1; cases h2; exact key w
    | succ i => simp [valuesGiven] at h1
  | between a b =>
    refine ⟨rfl, rfl, ?_⟩
    intro i v f h1 h2
    match i with
    | 0 => cases h1; cases h2; exact key a
    | 1 => cases h1; cases h2; exact key b
    | i + 2 => simp [valuesGiven] at h1
  | notBetween a b =>
    refine ⟨rfl, rfl, ?_⟩
    intro i v f h1 h2
    match i with
    | 0 => cases h1; cases h2; exact key a
    | 1 => cases h1; cases h2; exact key b
    | i + 2 => simp [valuesGiven] at h1

/-! ### Ranges -/

theorem cell_wordy (r c : Nat) : ∀ x ∈ rowColToCell r c, x ≠ ' ' ∧ x ≠ ':' := by
  intro x hx
  have h := (readA1_word (C01_cell_roundtrip r c)).1
  rw [List.all_eq_true] at h
  have := h x hx
  constructor
  · rintro rfl; exact absurd this (by decide)
  · rintro rfl; exact absurd this (by decide)

/-- The formulas of a rule on one range are written for the first cell of the range. -/
theorem C56_first_cell (r1 c1 r2 c2 : Nat) : readA1 (firstCell (cellRange r1 c1 r2 c2)) = some (r1, c1) := by
  have h := cell_wordy r1 c1
  have : firstCell (cellRange r1 c1 r2 c2) = rowColToCell r1 c1 := by
    unfold firstCell cellRange
    dsimp only
    split
    · have := List.takeWhile_append_of_pos (p := fun c => decide (c ≠ ' ') && decide (c ≠ ':')) (l₁ := rowColToCell r1 c1) (l₂ := [])
        (by intro x hx; simp [h x hx])
      simpa using this
    · rw [List.takeWhile_append_of_pos (by intro x hx; simp [h x hx])]
      simp
  rw [this]
  exact C01_cell_roundtrip r1 c1

theorem pieces_commas (acc t : List Char) :
    piecesFrom (fun c => decide (c = ' ')) acc (t.map fun x => if x = ',' then ' ' else x) =
      piecesFrom (fun c => decide (c = ',') || decide (c = ' ')) acc t := by
  induction t generalizing acc with
  | nil => rfl
  | cons c t ih =>
    by_cases h1 : c = ','
    · subst h1
      simp [piecesFrom, ih]
    · by_cases h2 : c = ' '
      · subst h2
        simp [piecesFrom, ih]
      · simp [piecesFrom, h1, h2, ih]

theorem pieces_filter (sep p : Char → Bool) (hsep : ∀ c, sep c = true → p c = true) (acc t : List Char) :
    piecesFrom sep (acc.filter p) (t.filter p) = ((piecesFrom sep acc t).map (·.filter p)).filter (· ≠ []) := by
  induction t generalizing acc with
  | nil =>
    by_cases h : acc = []
    · subst h; simp [piecesFrom]
    · by_cases h2 : acc.filter p = []
      · simp only [List.filter_nil, piecesFrom, h, h2, if_true, if_false, List.map_cons, List.map_nil]
        simp
      · simp only [List.filter_nil, piecesFrom, h, h2, if_false, List.map_cons, List.map_nil]
        simp [List.filter_cons, h2]
  | cons c t ih =>
    have ih0 := ih []
    rw [List.filter_nil] at ih0
    by_cases hs : sep c = true
    · rw [List.filter_cons, if_pos (hsep c hs)]
      by_cases h : acc = []
      · subst h; simp [piecesFrom, hs, ih0]
      · by_cases h2 : acc.filter p = []
        · simp only [piecesFrom, hs, h, h2, if_true, if_false, List.map_cons]
          rw [ih0, List.filter_cons, if_neg (by simp [h2])]
        · simp only [piecesFrom, hs, h, h2, if_true, if_false, List.map_cons]
          rw [ih0, List.filter_cons, if_pos (by simp [h2])]
    · have e1 : piecesFrom sep acc (c :: t) = piecesFrom sep (acc ++ [c]) t := by
        rw [piecesFrom, if_neg hs]
      rw [e1, ← ih, List.filter_cons, List.filter_append, List.filter_cons, List.filter_nil]
      by_cases hp : p c = true
      · rw [if_pos hp, if_pos hp, piecesFrom, if_neg hs]
      · rw [if_neg hp, if_neg hp, List.append_nil]

/-- The ranges of `set_multi_range` are all in the file, in order: with commas or blanks between them, with or without `$`. -/
theorem C56_multi_range (c : CondFmt) (t : List Char) (h : ∀ r ∈ rangesOfText t, r ≠ none) :
    rangesOfSqref (c.setMultiRange t).multi = rangesOfText t := by
  unfold rangesOfSqref rangesOfText pieces CondFmt.setMultiRange
  dsimp only
  rw [pieces_commas]
  have := pieces_filter (fun c => decide (c = ',') || decide (c = ' ')) (fun c => decide (c ≠ '$'))
    (by intro c hc; simp at hc ⊢; rcases hc with rfl | rfl <;> decide) [] t
  rw [List.filter_nil] at this
  rw [this, List.filter_eq_self.2, List.map_map]
  · rfl
  · intro p hp
    obtain ⟨q, hq, rfl⟩ := List.mem_map.1 hp
    have hn := h (readRange (q.filter fun c => decide (c ≠ '$'))) (List.mem_map.2 ⟨q, hq, rfl⟩)
    rw [decide_eq_true_iff]
    intro e
    rw [e] at hn
    exact hn (by decide +kernel)

theorem firstCell_stop (q rest : List Char) (hq : ∀ c ∈ q, c ≠ ' ') (hr : rest = [] ∨ rest.head? = some ' ') :
    firstCell (q ++ rest) = q.takeWhile (· ≠ ':') := by
  unfold firstCell
  induction q with
  | nil =>
    rcases hr with rfl | hr
    · rfl
    · cases rest with
      | nil => rfl
      | cons c rest =>
        simp only [List.head?_cons, Option.some.injEq] at hr
        subst hr
        rfl
  | cons c q ih =>
    have h1 := hq c (by simp)
    rw [List.cons_append, List.takeWhile_cons, List.takeWhile_cons, ih (fun d hd => hq d (by simp [hd]))]
    simp [h1]

theorem pieces_first (sep : Char → Bool) (acc t : List Char) (h : acc ++ t.takeWhile (fun c => !sep c) ≠ []) :
    (piecesFrom sep acc t).head? = some (acc ++ t.takeWhile fun c => !sep c) := by
  induction t generalizing acc with
  | nil =>
    have : acc ≠ [] := by simpa using h
    simp [piecesFrom, this]
  | cons c t ih =>
    by_cases hs : sep c = true
    · have : acc ≠ [] := by simpa [hs] using h
      simp [piecesFrom, hs, this]
    · rw [piecesFrom, if_neg hs, ih _ (by simp), List.takeWhile_cons, if_pos (by simp [hs])]
      simp

theorem readRange_first {q : List Char} {a b : Nat × Nat} (h : readRange q = some (a, b)) :
    readA1 (q.takeWhile (· ≠ ':')) = some a := by
  unfold readRange readRangeWith at h
  split at h
  · rename_i hd
    have : q.takeWhile (fun c => decide (c ≠ ':')) = q := by
      have := List.takeWhile_append_dropWhile (p := fun c => decide (c ≠ ':')) (l := q)
      rw [hd, List.append_nil] at this
      exact this
    rw [this]
    cases hq : readA1 q with
    | none => rw [hq] at h; simp at h
    | some x => rw [hq] at h; simp at h; rw [h.1]
  · cases h1 : readA1 (q.takeWhile (fun c => decide (c ≠ ':'))) with
    | none => rw [h1] at h; simp at h
    | some x =>
      rw [h1] at h
      split at h
      · rename_i e1 e2
        cases e1
        simp at h
        rw [h.1]
      · simp at h

/-- With several ranges, the formulas of a rule are written for the first cell of the first range. -/
theorem C56_multi_first_cell (c : CondFmt) (t : List Char) (a b : Nat × Nat)
    (hstart : ∀ x, t.head? = some x → x ≠ ',' ∧ x ≠ ' ')
    (h : (rangesOfText t).head? = some (some (a, b))) :
    readA1 (firstCell (c.setMultiRange t).multi) = some a := by
  let sep : Char → Bool := fun c => decide (c = ',') || decide (c = ' ')
  have hne : t.takeWhile (fun c => !sep c) ≠ [] := by
    cases t with
    | nil => simp [rangesOfText, pieces, piecesFrom] at h
    | cons x t =>
      have := hstart x rfl
      simp [sep, this]
  have hp := pieces_first sep [] t (by simpa using hne)
  rw [List.nil_append] at hp
  unfold rangesOfText pieces at h
  rw [List.head?_map] at h
  change ((piecesFrom sep [] t).head?).map _ = _ at h
  rw [hp] at h
  simp only [Option.map_some, Option.some.injEq] at h
  have hsplit := List.takeWhile_append_dropWhile (p := fun c => !sep c) (l := t)
  have hno : ∀ x ∈ t.takeWhile (fun c => !sep c), x ≠ ',' ∧ x ≠ ' ' := by
    intro x hx
    have := List.all_takeWhile (p := fun c => !sep c) (l := t)
    rw [List.all_eq_true] at this
    have := this x hx
    simpa [sep] using this
  have hm : (c.setMultiRange t).multi = (t.takeWhile (fun c => !sep c)).filter (· ≠ '$') ++
      ((t.dropWhile (fun c => !sep c)).filter (· ≠ '$')).map fun x => if x = ',' then ' ' else x := by
    show (t.filter (· ≠ '$')).map _ = _
    conv => lhs; rw [← hsplit]
    rw [List.filter_append, List.map_append]
    congr 1
    rw [List.map_congr_left (g := id), List.map_id]
    intro x hx
    have := hno x (List.mem_filter.1 hx).1
    simp [this.1]
  rw [hm, firstCell_stop]
  · exact readRange_first h
  · intro x hx
    exact (hno x (List.mem_filter.1 hx).1).2
  · cases hd : t.dropWhile (fun c => !sep c) with
    | nil => left; rfl
    | cons x rest =>
      right
      have : sep x = true := by
        have h2 := List.head?_dropWhile_not (fun c => !sep c) t
        rw [hd] at h2
        simpa using h2
      simp only [sep, Bool.or_eq_true, decide_eq_true_eq] at this
      rcases this with rfl | rfl
      · rfl
      · rfl

/-! ### Concrete cases -/

/-- A sheet with one text in A1; the lower case is the one of ASCII letters. -/
def sheetWith (v : FVal) (today : Int) : FEnv where
  cell := fun r c => if r = 0 ∧ c = 0 then v else .blank
  today := today
  lower := fun c => if 'A' ≤ c && c ≤ 'Z' then Char.ofNat (c.toNat + 32) else c
  numText := fun _ => "1".toList

/-- The hypotheses are met: "Excel" contains "XC", and begins with "ex", but does not contain "y". -/
example : applies (sheetWith (.text "Excel".toList) 45000) (0, 0) (CondText.formula "A1".toList (.contains "XC".toList)) 0 0 = true ∧
    applies (sheetWith (.text "Excel".toList) 45000) (0, 0) (CondText.formula "A1".toList (.beginsWith "ex".toList)) 0 0 = true ∧
    applies (sheetWith (.text "Excel".toList) 45000) (0, 0) (CondText.formula "A1".toList (.contains "y".toList)) 0 0 = false := by
  decide +kernel

example : readA1 (firstCell "A1:B9".toList) = some (0, 0) ∧
    ruleMeant (.text (some (.contains "XC".toList))) "A1:B9".toList =
      some (.text .contains "XC".toList (CondText.formula "A1".toList (.contains "XC".toList))) := by
  decide +kernel

example : rangesOfText "$A$1:B3, C5 $D$7".toList =
    [some ((0, 0), (2, 1)), some ((4, 2), (4, 2)), some ((6, 3), (6, 3))] := by decide +kernel

/-- The formula that a text rule on A1 gets. -/
def textFormulaA1 (rule : CondText) : List Char :=
  match ruleMeant (.text (some rule)) "A1".toList with
  | some (.text _ _ f) => f
  | _ => []

/-- The formula that a date rule on A1 gets. -/
def dateFormulaA1 (rule : CondDate) : List Char :=
  match ruleMeant (.date rule) "A1".toList with
  | some (.period _ f) => f
  | _ => []

/-- F99: quotes in the text of a rule are not doubled, and the formula is none at all: the cell contains the text and the
rule does not apply. -/
theorem C56_quote_counterexample :
    evalFormula (sheetWith (.text "say \"hi\"".toList) 45000) (textFormulaA1 (.contains "\"hi\"".toList)) = none ∧
    textRuleMeans (sheetWith .blank 0).lower (.contains "\"hi\"".toList) "say \"hi\"".toList := by
  refine ⟨by decide +kernel, ?_⟩
  show _ <:+: _
  exact ⟨"say ".toList, [], by decide +kernel⟩

/-- F98: the number of characters is the number of bytes: "état" begins with "é", and the rule does not apply. -/
theorem C56_bytes_counterexample :
    applies (sheetWith (.text "état".toList) 45000) (0, 0) (textFormulaA1 (.beginsWith "é".toList)) 0 0 = false ∧
    textRuleMeans (sheetWith .blank 0).lower (.beginsWith "é".toList) "état".toList := by
  refine ⟨by decide +kernel, ?_⟩
  show _ <+: _
  exact ⟨"tat".toList, by decide +kernel⟩

/-- Wildcards are not taken literally: the rule for cells that contain "50*" applies to "5021". -/
theorem C56_wildcard_counterexample :
    applies (sheetWith (.text "5021".toList) 45000) (0, 0) (textFormulaA1 (.contains "50*".toList)) 0 0 = true ∧
    ¬ textRuleMeans (sheetWith .blank 0).lower (.contains "50*".toList) "5021".toList := by
  refine ⟨by decide +kernel, ?_⟩
  show ¬ _ <:+: _
  rintro ⟨x, y, h⟩
  have : '*' ∈ "5021".toList.map (sheetWith .blank 0).lower := by
    rw [← h]
    exact List.mem_append_left _ (List.mem_append_right _ (by decide +kernel))
  exact absurd this (by decide +kernel)

/-- The serial number of 15 January 1971. -/
def january : Int := 25948

/-- F102: in January, the rule for the last month applies to no day: not to 15 December 1970. -/
theorem C56_last_month_january_counterexample :
    applies (sheetWith (.num (25917 : Int)) january) (0, 0) (dateFormulaA1 .lastMonth) 0 0 = false ∧
    dateRuleMeans .lastMonth january 25917 := by
  refine ⟨by decide +kernel, ?_⟩
  show monthsOf _ + 1 = monthsOf _
  decide +kernel

/-- F102: in February 1971, the rule for the last month applies to 15 January 1970. -/
theorem C56_last_month_february_counterexample :
    applies (sheetWith (.num (25583 : Int)) 25979) (0, 0) (dateFormulaA1 .lastMonth) 0 0 = true ∧
    ¬ dateRuleMeans .lastMonth 25979 25583 := by
  refine ⟨by decide +kernel, ?_⟩
  show ¬ monthsOf _ + 1 = monthsOf _
  decide +kernel

/-- F102: in December 1970, the rule for the next month does not apply to 15 January 1971, and in November 1970 it
applies to December 1971. -/
theorem C56_next_month_counterexample :
    applies (sheetWith (.num january) 25917) (0, 0) (dateFormulaA1 .nextMonth) 0 0 = false ∧
    dateRuleMeans .nextMonth 25917 january ∧
    applies (sheetWith (.num (26282 : Int)) 25887) (0, 0) (dateFormulaA1 .nextMonth) 0 0 = true ∧
    ¬ dateRuleMeans .nextMonth 25887 26282 := by
  refine ⟨by decide +kernel, ?_, by decide +kernel, ?_⟩
  · show monthsOf _ = monthsOf _ + 1
    decide +kernel
  · show ¬ monthsOf _ = monthsOf _ + 1
    decide +kernel

/-- The hypotheses on dates are met: in March, the last month is exact. -/
example : applies (sheetWith (.num (25609 : Int)) 25642) (0, 0) (dateFormulaA1 .lastMonth) 0 0 = true ∧
    3 ≤ (serialYM 25642).2 := by decide +kernel

/-- The formula of the rule that the cell is equal to a text. -/
def valueFormula (t : List Char) : List Char :=
  match ruleMeant (.cell (some (CondCellRule.set (.cmp .equal ⟨t, true⟩)))) "A1".toList with
  | some (.cellIs _ [f]) => f
  | _ => "no rule".toList

/-- A string with a quote in it is the string. -/
example : evalFormula (sheetWith .blank 0) (valueFormula "5\" disk".toList) = some (.text "5\" disk".toList) := by
  decide +kernel

/-- F101, F115: a quote alone is taken for a string that is already quoted, and the empty string is not quoted: the formulas are
none at all. -/
theorem C56_values_counterexample :
    evalFormula (sheetWith .blank 0) (valueFormula "\"".toList) = none ∧
    valueFormula [] = [] ∧ evalFormula (sheetWith .blank 0) [] = none := by
  decide +kernel

end Verif
