import Verif.Spec.DefinedNames
import Verif.Props.Names
import Verif.Props.Ref
/-!
**C31** (defined names are complete, correctly scoped and sorted) and **C44** (print areas, repeat rows
and columns and autofilter areas read back).
-/
namespace Verif
open Spec

/-! ## The order -/

theorem strLe_total (a b : Str) : strLe a b = true ∨ strLe b a = true := by
  induction a generalizing b with
  | nil => simp [strLe]
  | cons x xs ih =>
    cases b with
    | nil => simp [strLe]
    | cons y ys =>
      simp only [strLe, Bool.or_eq_true, decide_eq_true_eq, Bool.and_eq_true, beq_iff_eq]
      rcases Nat.lt_trichotomy x.toNat y.toNat with h | h | h
      · exact .inl (.inl h)
      · have : x = y := Char.toNat_inj.mp h
        subst this
        rcases ih ys with h | h
        · exact .inl (.inr ⟨rfl, h⟩)
        · exact .inr (.inr ⟨rfl, h⟩)
      · exact .inr (.inl h)

theorem strLe_trans {a b c : Str} (h1 : strLe a b = true) (h2 : strLe b c = true) :
    strLe a c = true := by
  induction a generalizing b c with
  | nil => simp [strLe]
  | cons x xs ih =>
    cases b with
    | nil => simp [strLe] at h1
    | cons y ys =>
      cases c with
      | nil => simp [strLe] at h2
      | cons z zs =>
        simp only [strLe, Bool.or_eq_true, decide_eq_true_eq, Bool.and_eq_true, beq_iff_eq] at *
        rcases h1 with h1 | ⟨rfl, h1⟩ <;> rcases h2 with h2 | ⟨rfl, h2⟩
        · left; omega
        · exact .inl h1
        · exact .inl h2
        · exact .inr ⟨rfl, ih h1 h2⟩

theorem strLe_antisymm {a b : Str} (h1 : strLe a b = true) (h2 : strLe b a = true) : a = b := by
  induction a generalizing b with
  | nil => cases b with
    | nil => rfl
    | cons y ys => simp [strLe] at h2
  | cons x xs ih =>
    cases b with
    | nil => simp [strLe] at h1
    | cons y ys =>
      simp only [strLe, Bool.or_eq_true, decide_eq_true_eq, Bool.and_eq_true, beq_iff_eq] at *
      rcases h1 with h1 | ⟨rfl, h1⟩ <;> rcases h2 with h2 | ⟨h, h2⟩
      · omega
      · subst h; omega
      · omega
      · rw [ih h1 h2]

theorem keyLe_total (a b : DefName) : (a.keyLe b || b.keyLe a) = true := by
  simp only [DefName.keyLe, Bool.or_eq_true]
  by_cases h : a.sortName = b.sortName
  · simpa [h] using strLe_total a.range b.range
  · have h' : ¬ b.sortName = a.sortName := fun e => h e.symm
    simpa [h, h'] using strLe_total a.sortName b.sortName

theorem keyLe_trans (a b c : DefName) (h1 : a.keyLe b = true) (h2 : b.keyLe c = true) :
    a.keyLe c = true := by
  simp only [DefName.keyLe] at *
  by_cases hab : a.sortName = b.sortName
  · by_cases hbc : b.sortName = c.sortName
    · have : a.sortName = c.sortName := hab.trans hbc
      simp only [hab, hbc, if_true] at *
      exact strLe_trans h1 h2
    · have : ¬ a.sortName = c.sortName := fun e => hbc (hab ▸ e)
      rw [if_neg hbc] at h2; rw [if_neg this, hab]; exact h2
  · rw [if_neg hab] at h1
    by_cases hbc : b.sortName = c.sortName
    · have : ¬ a.sortName = c.sortName := fun e => hab (e.trans hbc.symm)
      rw [if_neg this, ← hbc]; exact h1
    · rw [if_neg hbc] at h2
      by_cases hac : a.sortName = c.sortName
      · exact absurd (strLe_antisymm h1 (hac ▸ h2)) hab
      · rw [if_neg hac]; exact strLe_trans h1 h2

/-! ## Sheet lookup -/

theorem lookupSheet_some {ns : List Str} {k : Nat} {s : Str} {j : Nat}
    (h : lookupSheet ns k s = some j) : ∃ i : Nat, j = k + i ∧ ns[i]? = some s := by
  induction ns generalizing k j with
  | nil => simp [lookupSheet] at h
  | cons n ns ih =>
    simp only [lookupSheet] at h
    cases hr : lookupSheet ns (k + 1) s with
    | some j' =>
      rw [hr] at h
      obtain ⟨i, e, hi⟩ := ih hr
      simp at h
      exact ⟨i + 1, by omega, by simpa using hi⟩
    | none =>
      rw [hr] at h
      by_cases hn : n = s
      · simp [hn] at h
        exact ⟨0, by omega, by simp [hn]⟩
      · simp [hn] at h

theorem lookupSheet_none {ns : List Str} {k : Nat} {s : Str} :
    lookupSheet ns k s = none ↔ s ∉ ns := by
  induction ns generalizing k with
  | nil => simp [lookupSheet]
  | cons n ns ih =>
    simp only [lookupSheet, List.mem_cons, not_or]
    cases hr : lookupSheet ns (k + 1) s with
    | some j' =>
      simp only [reduceCtorEq, false_iff, not_and, Classical.not_not]
      intro _
      apply Classical.byContradiction
      intro h
      rw [ih.mpr h] at hr
      simp at hr
    | none =>
      have := ih.mp hr
      by_cases hn : n = s
      · subst hn; simp
      · have : ¬ s = n := fun e => hn e.symm
        simp [*]

/-! ## Resolving -/

/-- What the loop does to one name. -/
def Resolved (sheets : List Str) (d d' : DefName) : Prop :=
  (unquoteSheetname d.quoted = some [] ∧ d' = d) ∨
  ∃ s i, unquoteSheetname d.quoted = some s ∧ s ≠ [] ∧ lookupSheet sheets 0 s = some i ∧
    d' = { d with index := i }

theorem resolve_ok {sheets : List Str} {ds r : List DefName} (h : resolveNames sheets ds = .ok r) :
    Zip2 (Resolved sheets) ds r := by
  induction ds generalizing r with
  | nil => simp [resolveNames] at h; subst h; exact .nil
  | cons d ds ih =>
    simp only [resolveNames] at h
    cases hq : unquoteSheetname d.quoted with
    | none => simp [hq] at h
    | some s =>
      simp only [hq] at h
      by_cases hs : s = []
      · rw [if_pos hs] at h
        cases hr : resolveNames sheets ds with
        | ok r' =>
          simp [hr] at h; subst h
          exact .cons (.inl ⟨by rw [hq, hs], rfl⟩) (ih hr)
        | err => simp [hr] at h
        | panic => simp [hr] at h
      · rw [if_neg hs] at h
        cases hl : lookupSheet sheets 0 s with
        | none => simp [hl] at h
        | some i =>
          simp only [hl] at h
          cases hr : resolveNames sheets ds with
          | ok r' =>
            simp [hr] at h; subst h
            exact .cons (.inr ⟨s, i, hq, hs, hl, rfl⟩) (ih hr)
          | err => simp [hr] at h
          | panic => simp [hr] at h

/-- The loop stops with an error exactly at a name whose sheet is not there. -/
theorem resolve_err {sheets : List Str} {ds : List DefName} (h : resolveNames sheets ds = .err) :
    ∃ d ∈ ds, ∃ s, unquoteSheetname d.quoted = some s ∧ s ≠ [] ∧ s ∉ sheets := by
  induction ds with
  | nil => simp [resolveNames] at h
  | cons d ds ih =>
    simp only [resolveNames] at h
    cases hq : unquoteSheetname d.quoted with
    | none => simp [hq] at h
    | some s =>
      simp only [hq] at h
      have go : resolveNames sheets ds = .err →
          ∃ d' ∈ d :: ds, ∃ s, unquoteSheetname d'.quoted = some s ∧ s ≠ [] ∧ s ∉ sheets := by
        intro e
        obtain ⟨d', hd, h⟩ := ih e
        exact ⟨d', by simp [hd], h⟩
      by_cases hs : s = []
      · rw [if_pos hs] at h
        cases hr : resolveNames sheets ds <;> simp [hr] at h
        exact go hr
      · rw [if_neg hs] at h
        cases hl : lookupSheet sheets 0 s with
        | none => exact ⟨d, by simp, s, hq, hs, lookupSheet_none.mp hl⟩
        | some i =>
          simp only [hl] at h
          cases hr : resolveNames sheets ds <;> simp [hr] at h
          exact go hr

theorem resolve_panic {sheets : List Str} {ds : List DefName} (h : resolveNames sheets ds = .panic) :
    ∃ d ∈ ds, unquoteSheetname d.quoted = none := by
  induction ds with
  | nil => simp [resolveNames] at h
  | cons d ds ih =>
    simp only [resolveNames] at h
    have go : resolveNames sheets ds = .panic → ∃ d' ∈ d :: ds, unquoteSheetname d'.quoted = none := by
      intro e
      obtain ⟨d', hd, h⟩ := ih e
      exact ⟨d', by simp [hd], h⟩
    cases hq : unquoteSheetname d.quoted with
    | none => exact ⟨d, by simp, hq⟩
    | some s =>
      simp only [hq] at h
      by_cases hs : s = []
      · rw [if_pos hs] at h
        cases hr : resolveNames sheets ds <;> simp [hr] at h
        exact go hr
      · rw [if_neg hs] at h
        cases hl : lookupSheet sheets 0 s with
        | none => simp [hl] at h
        | some i =>
          simp only [hl] at h
          cases hr : resolveNames sheets ds <;> simp [hr] at h
          exact go hr

theorem Zip2.append_inv {α β} {R : α → β → Prop} {as bs : List α} {cs : List β}
    (h : Zip2 R (as ++ bs) cs) : ∃ xs ys, cs = xs ++ ys ∧ Zip2 R as xs ∧ Zip2 R bs ys := by
  induction as generalizing cs with
  | nil => exact ⟨[], cs, rfl, .nil, h⟩
  | cons a as ih =>
    cases h with
    | cons hab ht =>
      obtain ⟨xs, ys, rfl, h1, h2⟩ := ih ht
      exact ⟨_ :: xs, ys, rfl, .cons hab h1, h2⟩

/-! ## The prefix typed by the user -/

theorem readQuoted_inv (r s t : List Char) (h : readQuoted r = some (s, t)) :
    r = doubleQuotes s ++ '\'' :: t := by
  induction r using readQuoted.induct generalizing s with
  | case1 rest ih =>
    simp only [readQuoted, Option.map_eq_some_iff, Prod.exists, Prod.mk.injEq] at h
    obtain ⟨a, b, h1, rfl, rfl⟩ := h
    rw [ih a h1]; simp [doubleQuotes]
  | case2 rest hne =>
    rw [readQuoted] at h
    · simp at h; obtain ⟨rfl, rfl⟩ := h; simp [doubleQuotes]
    · exact hne
  | case3 c rest h1 h2 ih =>
    rw [readQuoted] at h
    · simp only [Option.map_eq_some_iff, Prod.exists, Prod.mk.injEq] at h
      obtain ⟨a, b, h3, rfl, rfl⟩ := h
      have hc : c ≠ '\'' := fun e => h2 e
      rw [ih a h3]; simp [doubleQuotes, hc]
    all_goals assumption
  | case4 => simp [readQuoted] at h

theorem mem_doubleQuotes {s : Str} {c : Char} : c ∈ doubleQuotes s ↔ c ∈ s := by
  simp only [doubleQuotes, List.mem_flatMap]
  constructor
  · rintro ⟨a, ha, h⟩
    split at h <;> simp_all
  · intro h
    refine ⟨c, h, ?_⟩
    split <;> simp_all

theorem unquote_quoted (s : Str) : unquoteSheetname ('\'' :: doubleQuotes s ++ ['\'']) = some s := by
  have hl : ('\'' :: doubleQuotes s ++ ['\'']).getLast? = some '\'' := by
    rw [List.getLast?_append]; simp
  unfold unquoteSheetname
  rw [if_pos ⟨by simp, hl⟩]
  have : ('\'' :: doubleQuotes s ++ ['\'']).tail.dropLast = doubleQuotes s := by simp
  cases hd : doubleQuotes s with
  | nil =>
    have := undouble_double s
    rw [hd] at this
    simp [undoubleQuotes] at this ⊢
    exact this
  | cons c t =>
    rw [hd] at this
    simp only [List.cons_append, List.tail_cons] at this ⊢
    rw [this, ← hd, undouble_double s]

/-- A well formed local name is split where the user meant it. -/
theorem goodCall_split {s sheet n : Str} (h : readSheetRef s = some (sheet, n)) (hb : '!' ∉ sheet) :
    s.any (· == '!') = true ∧ (s.dropWhile (· ≠ '!')).tail = n ∧
    unquoteSheetname (s.takeWhile (· ≠ '!')) = some sheet := by
  match s with
  | [] => simp [readSheetRef] at h
  | c :: rest =>
    by_cases hc : c = '\''
    · subst hc
      simp only [readSheetRef] at h
      cases hq : readQuoted rest with
      | none => simp [hq] at h
      | some p =>
        obtain ⟨nm, t⟩ := p
        simp only [hq] at h
        cases t with
        | nil => simp at h
        | cons c t =>
          by_cases hc : c = '!'
          · subst hc
            simp at h
            obtain ⟨rfl, rfl⟩ := h
            have e := readQuoted_inv _ _ _ hq
            have ha : ('\'' :: doubleQuotes nm ++ ['\'']).all (· ≠ '!') = true := by
              rw [List.all_eq_true]
              intro c hc
              simp only [List.cons_append, List.mem_cons, List.mem_append, List.not_mem_nil,
                or_false] at hc
              rcases hc with rfl | hc | rfl
              · decide
              · have := mem_doubleQuotes.mp hc
                simp only [decide_eq_true_eq]; rintro rfl; exact hb this
              · decide
            have e' : '\'' :: rest = ('\'' :: doubleQuotes nm ++ ['\'']) ++ '!' :: t := by
              rw [e]; simp
            obtain ⟨h1, h2⟩ := takeWhile_append_stop (p := (fun x => decide (x ≠ '!'))) ha
              (b := '!' :: t) (by simp)
            rw [e']
            refine ⟨by simp, ?_, ?_⟩
            · rw [h2]; rfl
            · rw [h1]; exact unquote_quoted nm
          · simp [hc] at h
    · rw [readSheetRef] at h
      · cases hd : (c :: rest).dropWhile (· ≠ '!') with
        | nil => rw [hd] at h; simp at h
        | cons x t =>
          rw [hd] at h
          simp only [Option.some.injEq, Prod.mk.injEq] at h
          obtain ⟨h1, h2⟩ := h
          refine ⟨?_, by simpa using h2, ?_⟩
          · have hx : x ∈ c :: rest :=
              (List.dropWhile_sublist _).subset (hd ▸ List.mem_cons_self)
            have : x = '!' := by
              have := List.head?_dropWhile_not (· ≠ '!') (c :: rest)
              rw [hd] at this
              simpa using this
            subst this
            simp only [List.any_eq_true]
            exact ⟨_, hx, by simp⟩
          · rw [h1]
            have : sheet.head? ≠ some '\'' := by
              rw [← h1]
              by_cases h' : c = '!'
              · simp [h']
              · simp [h', hc]
            simp [unquoteSheetname, this]
      · intro r e
        simp at e; exact hc e.1

/-! ## Reading the areas -/

theorem splitColon {a b : Str} (ha : ∀ c ∈ a, c ≠ ':') :
    (a ++ ':' :: b).takeWhile (· ≠ ':') = a ∧ (a ++ ':' :: b).dropWhile (· ≠ ':') = ':' :: b :=
  takeWhile_append_stop (by simpa [List.all_eq_true] using ha) (by simp)

theorem readRows_show (r1 r2 : Nat) :
    readRows ('$' :: showNat (r1 + 1) ++ ":$".toList ++ showNat (r2 + 1)) = some (r1, r2) := by
  have e : '$' :: showNat (r1 + 1) ++ ":$".toList ++ showNat (r2 + 1) =
      ('$' :: showNat (r1 + 1)) ++ ':' :: ('$' :: showNat (r2 + 1)) := by simp
  obtain ⟨h1, h2⟩ := splitColon (a := '$' :: showNat (r1 + 1)) (b := '$' :: showNat (r2 + 1)) (by
    intro c hc
    rcases List.mem_cons.mp hc with rfl | hc
    · decide
    · exact isDigit_ne_colon (showNat_isDigit hc))
  rw [e, readRows, h1, h2]
  simp [readRow_show]

theorem readCols_show (c1 c2 : Nat) :
    readCols ('$' :: columnNumberToName c1 ++ ":$".toList ++ columnNumberToName c2) =
      some (c1, c2) := by
  have e : '$' :: columnNumberToName c1 ++ ":$".toList ++ columnNumberToName c2 =
      ('$' :: columnNumberToName c1) ++ ':' :: ('$' :: columnNumberToName c2) := by simp
  obtain ⟨h1, h2⟩ := splitColon (a := '$' :: columnNumberToName c1)
      (b := '$' :: columnNumberToName c2) (by
    intro c hc
    rcases List.mem_cons.mp hc with rfl | hc
    · decide
    · exact isLetter_ne_colon (List.all_eq_true.mp (columnName_all c1) c hc))
  rw [e, readCols, h1, h2]
  simp [readCol_columnName]

theorem readRow_col (c : Nat) (rest : Str) : readRow (columnNumberToName c ++ rest) = none := by
  have hne := columnName_ne_nil c
  obtain ⟨x, t, hx⟩ := List.exists_cons_of_ne_nil hne
  have hl : isLetter x = true := List.all_eq_true.mp (columnName_all c) x (by simp [hx])
  have hd : isDigit x = false := by
    cases h : isDigit x with
    | false => rfl
    | true => have := isLetter_not_digit h; simp [hl] at this
  simp [readRow, readNat, hx, hd]

theorem readRows_cols (c1 c2 : Nat) :
    readRows ('$' :: columnNumberToName c1 ++ ":$".toList ++ columnNumberToName c2) = none := by
  have e : '$' :: columnNumberToName c1 ++ ":$".toList ++ columnNumberToName c2 =
      ('$' :: columnNumberToName c1) ++ ':' :: ('$' :: columnNumberToName c2) := by simp
  obtain ⟨h1, h2⟩ := splitColon (a := '$' :: columnNumberToName c1)
      (b := '$' :: columnNumberToName c2) (by
    intro c hc
    rcases List.mem_cons.mp hc with rfl | hc
    · decide
    · exact isLetter_ne_colon (List.all_eq_true.mp (columnName_all c1) c hc))
  rw [e, readRows, h1, h2]
  have := readRow_col c1 []
  rw [List.append_nil] at this
  simp [this]

theorem readCols_rows (r1 r2 : Nat) :
    readCols ('$' :: showNat (r1 + 1) ++ ":$".toList ++ showNat (r2 + 1)) = none := by
  have e : '$' :: showNat (r1 + 1) ++ ":$".toList ++ showNat (r2 + 1) =
      ('$' :: showNat (r1 + 1)) ++ ':' :: ('$' :: showNat (r2 + 1)) := by simp
  obtain ⟨h1, h2⟩ := splitColon (a := '$' :: showNat (r1 + 1)) (b := '$' :: showNat (r2 + 1)) (by
    intro c hc
    rcases List.mem_cons.mp hc with rfl | hc
    · decide
    · exact isDigit_ne_colon (showNat_isDigit hc))
  rw [e, readCols, h1, h2]
  have : readCol (showNat (r1 + 1)) = none := by
    have hne : showNat (r1 + 1) ≠ [] := by
      intro h; have := readRow_show r1; rw [h] at this; simp [readRow, readNat] at this
    obtain ⟨x, t, hx⟩ := List.exists_cons_of_ne_nil hne
    have hd : isDigit x = true := showNat_isDigit (n := r1 + 1) (by rw [hx]; simp)
    simp [readCol, hx, isLetter_not_digit hd]
  simp [this]

theorem readRows_cells (r1 c1 r2 c2 : Nat) : readRows (cellRangeAbs r1 c1 r2 c2) = none := by
  have key : ∀ rest : Str, (∀ c, rest.head? = some c → c = ':') →
      readRows (rowColToCellAbs r1 c1 ++ rest) = none := by
    intro rest hr
    have := takeWhile_append_stop (p := fun x => decide (x ≠ ':')) (cellAbs_no_colon r1 c1)
      (b := rest) (by intro x hx; simp [hr x hx])
    rw [readRows, this.1, this.2]
    simp only [rowColToCellAbs, List.cons_append]
    split
    · rename_i a b h1 h2
      have h2 : columnNumberToName c1 ++ '$' :: showNat (r1 + 1) = b := by simpa using h2
      rw [← h2, readRow_col]
    · rfl
  unfold cellRangeAbs
  simp only
  split
  · simpa using key [] (by simp)
  · exact key _ (by simp)

theorem readCols_cells (r1 c1 r2 c2 : Nat) : readCols (cellRangeAbs r1 c1 r2 c2) = none := by
  have hcol : readCol (columnNumberToName c1 ++ '$' :: showNat (r1 + 1)) = none := by
    simp [readCol, List.all_append, (by decide : isLetter '$' = false)]
  have key : ∀ rest : Str, (∀ c, rest.head? = some c → c = ':') →
      readCols (rowColToCellAbs r1 c1 ++ rest) = none := by
    intro rest hr
    have := takeWhile_append_stop (p := fun x => decide (x ≠ ':')) (cellAbs_no_colon r1 c1)
      (b := rest) (by intro x hx; simp [hr x hx])
    rw [readCols, this.1, this.2]
    simp only [rowColToCellAbs, List.cons_append]
    split
    · rename_i a b h1 h2
      have h2 : columnNumberToName c1 ++ '$' :: showNat (r1 + 1) = b := by simpa using h2
      rw [← h2, hcol]
    · rfl
  unfold cellRangeAbs
  simp only
  split
  · simpa using key [] (by simp)
  · exact key _ (by simp)

/-- The text after the exclamation mark of a print area or an autofilter reads back. -/
theorem readArea_written (a : Area) :
    readArea
      (if a.c1 = 0 ∧ a.c2 = COL_MAX - 1 then
        '$' :: showNat (a.r1 + 1) ++ ":$".toList ++ showNat (a.r2 + 1)
      else if a.r1 = 0 ∧ a.r2 = ROW_MAX - 1 then
        '$' :: columnNumberToName a.c1 ++ ":$".toList ++ columnNumberToName a.c2
      else cellRangeAbs a.r1 a.c1 a.r2 a.c2) = some a := by
  obtain ⟨r1, c1, r2, c2⟩ := a
  simp only
  split
  · rename_i h
    rw [readArea, readRows_show]
    simp [h, COL_MAX]
  · split
    · rename_i h
      rw [readArea, readRows_cols, readCols_show]
      simp [h, ROW_MAX]
    · rw [readArea, readRows_cells, readCols_cells, C02_range_abs_roundtrip]
      rfl

/-! ## What a worksheet stores -/

/-- The stored names of a sheet are what was asked. -/
structure NamesInv (s : SheetNames) (k : Asked) : Prop where
  af : match k.autofilter with
    | none => s.autofilter.inUse = false
    | some a => s.autofilter.inUse = true ∧ s.autofilter.kind = .autofilter ∧
        s.autofilter.firstRow = a.r1 ∧ s.autofilter.firstCol = a.c1 ∧
        s.autofilter.lastRow = a.r2 ∧ s.autofilter.lastCol = a.c2
  pa : match k.printArea with
    | none => s.printArea.inUse = false
    | some a => s.printArea.inUse = true ∧ s.printArea.kind = .printArea ∧
        s.printArea.firstRow = a.r1 ∧ s.printArea.firstCol = a.c1 ∧
        s.printArea.lastRow = a.r2 ∧ s.printArea.lastCol = a.c2
  inUse : s.titles.inUse = true ↔ (k.rows ≠ none ∨ k.cols ≠ none)
  kind : s.titles.inUse = true → s.titles.kind = .printTitles
  rows : match k.rows with
    | none => s.titles.firstRow = ROW_MAX ∧ s.titles.lastRow = 0
    | some (x, y) => s.titles.firstRow = x ∧ s.titles.lastRow = y ∧ x < ROW_MAX
  cols : match k.cols with
    | none => s.titles.firstCol = COL_MAX ∧ s.titles.lastCol = 0
    | some (x, y) => s.titles.firstCol = x ∧ s.titles.lastCol = y ∧ x < COL_MAX

theorem namesInv_step {s : SheetNames} {k : Asked} (h : NamesInv s k) (op : SheetNameOp)
    (hw : op ≠ .printArea 0 0 1048575 16383) : NamesInv (s.exec op) (k.step op) := by
  obtain ⟨h1, h2, h3, h4, h5, h6⟩ := h
  cases op with
  | autofilter r1 c1 r2 c2 =>
    simp only [SheetNames.exec, SheetNames.setAutofilter, Asked.step, ROW_MAX, COL_MAX]
    split
    · rw [if_neg (by simp only [Area.Ok]; omega)]; exact ⟨h1, h2, h3, h4, h5, h6⟩
    · split
      · rw [if_neg (by simp only [Area.Ok]; omega)]; exact ⟨h1, h2, h3, h4, h5, h6⟩
      · rw [if_pos (by simp only [Area.Ok]; omega)]; exact ⟨by simp, h2, h3, h4, h5, h6⟩
  | printArea r1 c1 r2 c2 =>
    by_cases ha : (⟨r1, c1, r2, c2⟩ : Area).Ok
    · have hne : ¬ (r1 = 0 ∧ c1 = 0 ∧ r2 = 1048575 ∧ c2 = 16383) := by
        rintro ⟨rfl, rfl, rfl, rfl⟩; exact hw rfl
      have hne' : ¬ ((⟨r1, c1, r2, c2⟩ : Area) = wholeSheet) := by
        simp [wholeSheet]; omega
      simp only [Asked.step, if_pos ha, if_neg hne']
      simp only [Area.Ok] at ha
      simp only [SheetNames.exec, SheetNames.setPrintArea]
      have e1 : ROW_MAX = 1048576 := rfl
      have e2 : COL_MAX = 16384 := rfl
      rw [if_neg (by omega), if_neg (by omega), if_neg (by omega)]
      exact ⟨h1, by simp, h3, h4, h5, h6⟩
    · have : s.exec (.printArea r1 c1 r2 c2) = s := by
        simp only [Area.Ok] at ha
        simp only [SheetNames.exec, SheetNames.setPrintArea]
        have e1 : ROW_MAX = 1048576 := rfl
        have e2 : COL_MAX = 16384 := rfl
        by_cases h : r1 ≥ ROW_MAX ∨ c1 ≥ COL_MAX ∨ r2 ≥ ROW_MAX ∨ c2 ≥ COL_MAX
        · rw [if_pos h]; rfl
        · rw [if_neg h, if_pos (by omega)]; rfl
      rw [this]
      simp only [Asked.step, if_neg ha]
      exact ⟨h1, h2, h3, h4, h5, h6⟩
  | rows r1 r2 =>
    simp only [SheetNames.exec, SheetNames.setRepeatRows, Asked.step, ROW_MAX]
    split
    · rw [if_neg (by omega)]; exact ⟨h1, h2, h3, h4, h5, h6⟩
    · split
      · rw [if_neg (by omega)]; exact ⟨h1, h2, h3, h4, h5, h6⟩
      · rw [if_pos (by omega)]
        exact ⟨h1, h2, by simp, by simp, by simp [ROW_MAX]; omega, h6⟩
  | cols c1 c2 =>
    simp only [SheetNames.exec, SheetNames.setRepeatColumns, Asked.step, COL_MAX]
    split
    · rw [if_neg (by omega)]; exact ⟨h1, h2, h3, h4, h5, h6⟩
    · split
      · rw [if_neg (by omega)]; exact ⟨h1, h2, h3, h4, h5, h6⟩
      · rw [if_pos (by omega)]
        exact ⟨h1, h2, by simp, by simp, h5, by simp [COL_MAX]; omega⟩

/-- The sheet with name `n` after a list of calls. -/
def sheetAfter (p : Str × List SheetNameOp) : SheetNames := p.2.foldl SheetNames.exec { name := p.1 }

theorem exec_name (s : SheetNames) (op : SheetNameOp) : (s.exec op).name = s.name := by
  cases op <;> simp only [SheetNames.exec, SheetNames.setAutofilter, SheetNames.setPrintArea,
    SheetNames.setRepeatRows, SheetNames.setRepeatColumns] <;> (repeat' split) <;> rfl

theorem sheetAfter_name (p : Str × List SheetNameOp) : (sheetAfter p).name = p.1 := by
  unfold sheetAfter
  have : ∀ (ops : List SheetNameOp) (s : SheetNames), (ops.foldl SheetNames.exec s).name = s.name := by
    intro ops
    induction ops with
    | nil => intro s; rfl
    | cons o ops ih => intro s; simp only [List.foldl_cons, ih, exec_name]
  rw [this]

/-- The kinds of the stored names. -/
structure KindsInv (s : SheetNames) : Prop where
  af : s.autofilter.inUse = true → s.autofilter.kind = .autofilter
  pa : s.printArea.inUse = true → s.printArea.kind = .printArea
  ti : s.titles.inUse = true → s.titles.kind = .printTitles

theorem kindsInv_step {s : SheetNames} (h : KindsInv s) (op : SheetNameOp) : KindsInv (s.exec op) := by
  obtain ⟨h1, h2, h3⟩ := h
  cases op with
  | autofilter r1 c1 r2 c2 =>
    simp only [SheetNames.exec, SheetNames.setAutofilter]
    split
    · exact ⟨h1, h2, h3⟩
    · split
      · exact ⟨h1, h2, h3⟩
      · exact ⟨fun _ => rfl, h2, h3⟩
  | printArea r1 c1 r2 c2 =>
    simp only [SheetNames.exec]
    unfold SheetNames.setPrintArea
    by_cases g1 : r1 ≥ ROW_MAX ∨ c1 ≥ COL_MAX ∨ r2 ≥ ROW_MAX ∨ c2 ≥ COL_MAX
    · rw [if_pos g1]; exact ⟨h1, h2, h3⟩
    · rw [if_neg g1]
      by_cases g2 : r1 > r2 ∨ c1 > c2
      · rw [if_pos g2]; exact ⟨h1, h2, h3⟩
      · rw [if_neg g2]
        by_cases g3 : r1 = 0 ∧ c1 = 0 ∧ r2 = ROW_MAX - 1 ∧ c2 = COL_MAX - 1
        · rw [if_pos g3]; exact ⟨h1, h2, h3⟩
        · rw [if_neg g3]; exact ⟨h1, fun _ => rfl, h3⟩
  | rows r1 r2 =>
    simp only [SheetNames.exec, SheetNames.setRepeatRows]
    split
    · exact ⟨h1, h2, h3⟩
    · split
      · exact ⟨h1, h2, h3⟩
      · exact ⟨h1, h2, fun _ => rfl⟩
  | cols r1 r2 =>
    simp only [SheetNames.exec, SheetNames.setRepeatColumns]
    split
    · exact ⟨h1, h2, h3⟩
    · split
      · exact ⟨h1, h2, h3⟩
      · exact ⟨h1, h2, fun _ => rfl⟩

theorem sheetAfter_kinds (p : Str × List SheetNameOp) :
    ∀ d ∈ [(sheetAfter p).autofilter, (sheetAfter p).printArea, (sheetAfter p).titles],
      d.inUse = true → d.kind ≠ .global ∧ d.kind ≠ .local := by
  have : ∀ (ops : List SheetNameOp) (s : SheetNames), KindsInv s →
      KindsInv (ops.foldl SheetNames.exec s) := by
    intro ops
    induction ops with
    | nil => intro s h; exact h
    | cons o ops ih => intro s h; exact ih _ (kindsInv_step h o)
  obtain ⟨h1, h2, h3⟩ := this p.2 { name := p.1 } ⟨by simp, by simp, by simp⟩
  intro d hd hu
  simp only [List.mem_cons, List.not_mem_nil, or_false] at hd
  rcases hd with rfl | rfl | rfl
  · have := h1 hu; unfold sheetAfter; rw [this]; simp
  · have := h2 hu; unfold sheetAfter; rw [this]; simp
  · have := h3 hu; unfold sheetAfter; rw [this]; simp

theorem sheetAfter_inv (p : Str × List SheetNameOp)
    (hw : SheetNameOp.printArea 0 0 1048575 16383 ∉ p.2) :
    NamesInv (sheetAfter p) (Asked.of p.2) := by
  unfold sheetAfter Asked.of
  have : ∀ (ops : List SheetNameOp) (s : SheetNames) (k : Asked), NamesInv s k →
      SheetNameOp.printArea 0 0 1048575 16383 ∉ ops →
      NamesInv (ops.foldl SheetNames.exec s) (ops.foldl Asked.step k) := by
    intro ops
    induction ops with
    | nil => intro s k h _; exact h
    | cons o ops ih =>
      intro s k h hn
      simp only [List.mem_cons, not_or] at hn
      exact ih _ _ (namesInv_step h o (fun e => hn.1 e.symm)) hn.2
  exact this _ _ _ ⟨by simp, by simp, by simp, by simp, by simp, by simp⟩ hw

/-! ## What is written for a built-in name -/

theorem written_area {U : Unicode} (hU : U.Sane) {d : DefName} {q n : Str} {i : Nat} {a : Area}
    (hq : quoteSheetName U n = some q) (hn : n.head? ≠ some '\'')
    (hk : d.kind = .autofilter ∨ d.kind = .printArea)
    (h1 : d.firstRow = a.r1) (h2 : d.firstCol = a.c1) (h3 : d.lastRow = a.r2)
    (h4 : d.lastCol = a.c2) :
    readSheetArea ((({ d.initialize U q with index := i } : DefName).written).text) =
      some (n, a) := by
  have e : (({ d.initialize U q with index := i } : DefName).written).text = q ++ '!' ::
      (if a.c1 = 0 ∧ a.c2 = COL_MAX - 1 then
        '$' :: showNat (a.r1 + 1) ++ ":$".toList ++ showNat (a.r2 + 1)
      else if a.r1 = 0 ∧ a.r2 = ROW_MAX - 1 then
        '$' :: columnNumberToName a.c1 ++ ":$".toList ++ columnNumberToName a.c2
      else cellRangeAbs a.r1 a.c1 a.r2 a.c2) := by
    rcases hk with hk | hk <;>
      simp only [DefName.written, DefName.initialize, DefName.setSortName, DefName.setRange, hk,
        h1, h2, h3, h4]
  rw [e, readSheetArea, C03_quote_roundtrip U hU n q _ hn hq]
  simp only [readArea_written, Option.map_some]

theorem noComma_cols (c1 c2 : Nat) :
    ∀ c ∈ '$' :: columnNumberToName c1 ++ ":$".toList ++ columnNumberToName c2, c ≠ ',' := by
  intro c hc
  have key : ∀ x, isLetter x = true → x ≠ ',' := by
    intro x h; rintro rfl; revert h; decide
  simp only [List.cons_append, List.mem_cons, List.mem_append] at hc
  rcases hc with rfl | (h | h) | h
  · decide
  · exact key c (List.all_eq_true.mp (columnName_all c1) c h)
  · have : c = ':' ∨ c = '$' := by simpa using h
    rcases this with rfl | rfl <;> decide
  · exact key c (List.all_eq_true.mp (columnName_all c2) c h)

theorem noComma_rows (r1 r2 : Nat) :
    ∀ c ∈ '$' :: showNat (r1 + 1) ++ ":$".toList ++ showNat (r2 + 1), c ≠ ',' := by
  intro c hc
  have key : ∀ x, isDigit x = true → x ≠ ',' := by
    intro x h; rintro rfl; revert h; decide
  simp only [List.cons_append, List.mem_cons, List.mem_append] at hc
  rcases hc with rfl | (h | h) | h
  · decide
  · exact key c (showNat_isDigit h)
  · have : c = ':' ∨ c = '$' := by simpa using h
    rcases this with rfl | rfl <;> decide
  · exact key c (showNat_isDigit h)

theorem splitComma {a b : Str} (ha : ∀ c ∈ a, c ≠ ',') (hb : ∀ c, b.head? = some c → c = ',') :
    (a ++ b).takeWhile (· ≠ ',') = a ∧ (a ++ b).dropWhile (· ≠ ',') = b :=
  takeWhile_append_stop (by simpa [List.all_eq_true] using ha)
    (by intro x hx; simp [hb x hx])

theorem written_titles {U : Unicode} (hU : U.Sane) {d : DefName} {q n : Str} {i : Nat}
    {c r : Option (Nat × Nat)}
    (hq : quoteSheetName U n = some q) (hn : n.head? ≠ some '\'') (hk : d.kind = .printTitles)
    (hr : match r with
      | none => d.firstRow = ROW_MAX ∧ d.lastRow = 0
      | some (x, y) => d.firstRow = x ∧ d.lastRow = y ∧ x < ROW_MAX)
    (hc : match c with
      | none => d.firstCol = COL_MAX ∧ d.lastCol = 0
      | some (x, y) => d.firstCol = x ∧ d.lastCol = y ∧ x < COL_MAX)
    (hne : r ≠ none ∨ c ≠ none) :
    readTitles ((({ d.initialize U q with index := i } : DefName).written).text) =
      some (n, c, r) := by
  have hqn : ∀ rest, readSheetRef (q ++ '!' :: rest) = some (n, rest) :=
    fun rest => C03_quote_roundtrip U hU n q rest hn hq
  have e : (({ d.initialize U q with index := i } : DefName).written).text =
      (({ d with quoted := q } : DefName).setRange).range := rfl
  rw [e]
  cases c with
  | none =>
    cases r with
    | none => simp at hne
    | some p =>
      obtain ⟨x, y⟩ := p
      obtain ⟨h1, h2, h3⟩ := hr
      have : (({ d with quoted := q } : DefName).setRange).range =
          q ++ '!' :: ('$' :: showNat (x + 1) ++ ":$".toList ++ showNat (y + 1)) := by
        have hx : x ≠ ROW_MAX := by omega
        simp only [DefName.setRange, hk, hc.1, hc.2, h1, h2]
        simp [hx]
      rw [this, readTitles, hqn]
      have hs := splitComma (b := []) (noComma_rows x y) (by simp)
      rw [List.append_nil] at hs
      dsimp only
      rw [hs.2]
      simp only [readCols_rows, readRows_show]
  | some p =>
    obtain ⟨x, y⟩ := p
    obtain ⟨g1, g2, g3⟩ := hc
    have hx : x ≠ COL_MAX := by omega
    cases r with
    | none =>
      have : (({ d with quoted := q } : DefName).setRange).range =
          q ++ '!' :: ('$' :: columnNumberToName x ++ ":$".toList ++ columnNumberToName y) := by
        simp only [DefName.setRange, hk, hr.1, hr.2, g1, g2]
        simp [hx]
      rw [this, readTitles, hqn]
      have hs := splitComma (b := []) (noComma_cols x y) (by simp)
      rw [List.append_nil] at hs
      dsimp only
      rw [hs.2]
      simp only [readCols_show]
    | some p =>
      obtain ⟨u, v⟩ := p
      obtain ⟨h1, h2, h3⟩ := hr
      have : (({ d with quoted := q } : DefName).setRange).range =
          q ++ '!' :: (('$' :: columnNumberToName x ++ ":$".toList ++ columnNumberToName y) ++
            ',' :: (q ++ '!' :: ('$' :: showNat (u + 1) ++ ":$".toList ++ showNat (v + 1)))) := by
        have hu : u ≠ ROW_MAX := by omega
        simp only [DefName.setRange, hk, h1, h2, g1, g2]
        simp [hx, hu]
      rw [this, readTitles, hqn]
      have hs := splitComma (b := ',' :: (q ++ '!' :: ('$' :: showNat (u + 1) ++ ":$".toList ++
        showNat (v + 1)))) (noComma_cols x y) (by simp)
      dsimp only
      rw [hs.2]
      simp only [hs.1, readCols_show, hqn, readRows_show, if_true]

/-! ## The calls of define_name -/

theorem defineName_ok {U : Unicode} {name formula : Str} {d : DefName}
    (h : defineName U name formula = .ok d) :
    d.range = formulaToString formula ∧ d.sortName = U.lower d.name ∧
    (if name.any (· == '!') then d.kind = .local ∧ d.quoted = name.takeWhile (· ≠ '!') ∧
        d.name = (name.dropWhile (· ≠ '!')).tail
     else d.kind = .global ∧ d.quoted = [] ∧ d.name = name) := by
  have key : ∀ d0 : DefName, (d0.kind = .local ∨ d0.kind = .global) →
      (match d0.name with
        | [] => .panic
        | c :: _ =>
          if !U.alpha c && c ≠ '_' && c ≠ '\\' then .err
          else if d0.name.any (" ,/*[]:\"'".toList.contains ·) then .err
          else .ok (({ d0 with range := formulaToString formula } : DefName).setSortName U)) =
        Res3.ok d →
      d.range = formulaToString formula ∧ d.sortName = U.lower d.name ∧ d.kind = d0.kind ∧
        d.quoted = d0.quoted ∧ d.name = d0.name := by
    intro d0 hk h
    cases hn : d0.name with
    | nil => simp [hn] at h
    | cons c t =>
      simp only [hn] at h
      split at h
      · simp at h
      · split at h
        · simp at h
        · rename_i hbad
          simp only [Res3.ok.injEq] at h
          subst h
          have hf : (c :: t).filter (fun x => decide (x ≠ '\'')) = c :: t := by
            rw [List.filter_eq_self]
            intro x hx
            have : ¬ (" ,/*[]:\"'".toList.contains x = true) := fun e => hbad (by
              rw [List.any_eq_true]; exact ⟨x, hx, e⟩)
            simp only [decide_eq_true_eq]
            rintro rfl
            exact this (by decide)
          refine ⟨rfl, ?_, rfl, rfl, by simp [DefName.setSortName]⟩
          rcases hk with hk | hk <;>
            simp only [DefName.setSortName, hk, hf]
  unfold defineName at h
  by_cases hb : name.any (· == '!') = true
  · simp only [hb, if_true] at h
    have := key { quoted := name.takeWhile (· ≠ '!'), name := (name.dropWhile (· ≠ '!')).tail,
                  kind := .local } (.inl rfl) h
    simp only [hb, if_true]
    exact ⟨this.1, this.2.1, this.2.2⟩
  · have hb' : name.any (· == '!') = false := by rw [Bool.eq_false_iff]; exact hb
    simp only [hb', Bool.false_eq_true, if_false] at h
    have := key { name := name, kind := .global } (.inr rfl) h
    simp only [hb', Bool.false_eq_true, if_false]
    exact ⟨this.1, this.2.1, this.2.2⟩

theorem formulaToString_spec (f : Str) :
    f = '=' :: formulaToString f ∨ (f.head? ≠ some '=' ∧ f = formulaToString f) := by
  cases f with
  | nil => right; simp [formulaToString]
  | cons c f =>
    by_cases h : c = '='
    · subst h; left; rfl
    · right
      refine ⟨by simpa using h, ?_⟩
      rw [formulaToString]
      intro s e; simp at e; exact h e.1

theorem readSheetRef_nobang {s : Str} (h : '!' ∉ s) : readSheetRef s = none := by
  cases hr : readSheetRef s with
  | none => rfl
  | some p =>
    exfalso
    obtain ⟨a, n⟩ := p
    cases s with
    | nil => simp [readSheetRef] at hr
    | cons c rest =>
      by_cases hc : c = '\''
      · subst hc
        simp only [readSheetRef] at hr
        cases hq : readQuoted rest with
        | none => simp [hq] at hr
        | some p =>
          obtain ⟨nm, t⟩ := p
          have := readQuoted_inv _ _ _ hq
          simp only [hq] at hr
          cases t with
          | nil => simp at hr
          | cons c t =>
            by_cases hc : c = '!'
            · subst hc
              exact h (by rw [this]; simp)
            · simp [hc] at hr
      · rw [readSheetRef] at hr
        · have : (c :: rest).dropWhile (· ≠ '!') = [] := by
            have : ∀ l : Str, '!' ∉ l → l.dropWhile (· ≠ '!') = [] := by
              intro l
              induction l with
              | nil => simp
              | cons y l ih =>
                intro hn
                simp only [List.mem_cons, not_or] at hn
                have hy : y ≠ '!' := fun e => hn.1 e.symm
                simpa [hy] using ih hn.2
            exact this _ h
          rw [this] at hr; simp at hr
        · intro r e
          simp at e; exact hc e.1

/-- What is written for one call. -/
theorem user_written {U : Unicode} {sheets : List Str} {call : Str × Str} {d d' : DefName}
    (hg : GoodCall call.1) (h : defineName U call.1 call.2 = .ok d) (hr : Resolved sheets d d') :
    UserWritten sheets call d'.written := by
  obtain ⟨h1, h2, h3⟩ := defineName_ok h
  rcases hg with hg | ⟨sheet, n, hs, hne, hb⟩
  · have hany : call.1.any (· == '!') = false := by
      rw [Bool.eq_false_iff]
      intro e
      obtain ⟨x, hx, e⟩ := List.any_eq_true.mp e
      simp at e; subst e; exact hg hx
    simp only [hany, Bool.false_eq_true, if_false] at h3
    obtain ⟨k1, k2, k3⟩ := h3
    have hd : d' = d := by
      rcases hr with ⟨_, e⟩ | ⟨s, i, e, hs, _⟩
      · exact e
      · rw [k2] at e; simp [unquoteSheetname] at e; exact absurd e hs
    subst hd
    have hsc : askedScope call.1 = (none, call.1) := by
      simp [askedScope, readSheetRef_nobang hg]
    refine ⟨by simp [DefName.written, k1], ?_, ?_, ?_⟩
    · simp only [DefName.written, h1]; exact formulaToString_spec _
    · rw [hsc]; simp [DefName.written, DefName.writtenName, k1, k3]
    · rw [hsc]; simp [DefName.written, k1]
  · obtain ⟨g1, g2, g3⟩ := goodCall_split hs hb
    simp only [g1, if_true] at h3
    obtain ⟨k1, k2, k3⟩ := h3
    have hsc : askedScope call.1 = (some sheet, n) := by simp [askedScope, hs]
    rcases hr with ⟨e, _⟩ | ⟨s, i, e, _, hl, rfl⟩
    · rw [k2, g3] at e; simp at e; exact absurd e hne
    · rw [k2, g3] at e
      simp at e; subst e
      obtain ⟨j, ej, hj⟩ := lookupSheet_some hl
      simp at ej; subst ej
      refine ⟨by simp [DefName.written, k1], ?_, ?_, ?_⟩
      · simp only [DefName.written, h1]; exact formulaToString_spec _
      · rw [hsc]
        simp only [DefName.written, DefName.writtenName, k1]
        rw [k3, g2]
      · rw [hsc]; exact ⟨i, by simp [DefName.written, k1], hj⟩

theorem users_written {U : Unicode} {sheets : List Str} {calls : List (Str × Str)}
    {defs r : List DefName} (hg : ∀ c ∈ calls, GoodCall c.1)
    (hd : Zip2 (fun c d => defineName U c.1 c.2 = .ok d) calls defs)
    (hr : Zip2 (Resolved sheets) defs r) :
    Zip2 (UserWritten sheets) calls (r.map DefName.written) := by
  induction hd generalizing r with
  | nil => cases hr; exact .nil
  | cons h _ ih =>
    cases hr with
    | cons h' hr =>
      exact .cons (user_written (hg _ (by simp)) h h') (ih (fun c hc => hg c (by simp [hc])) hr)

/-! ## The built-in names of one sheet and of all sheets -/

theorem resolved_feature {U : Unicode} {sheets : List Str} {d d' : DefName} {n q : Str} {i : Nat}
    (hn : n.head? ≠ some '\'') (hne : n ≠ []) (hq : quoteSheetName U n = some q)
    (hi : ∀ j, lookupSheet sheets 0 n = some j → j = i)
    (hr : Resolved sheets (d.initialize U q) d') :
    d' = { d.initialize U q with index := i } := by
  have hquoted : (d.initialize U q).quoted = q := by
    simp only [DefName.initialize, DefName.setSortName, DefName.setRange]
    split <;> rfl
  have hu := C03_unquote_quote U n q hn hq
  rcases hr with ⟨e, _⟩ | ⟨s, j, e, _, hl, rfl⟩
  · rw [hquoted, hu] at e; simp at e; exact absurd e hne
  · rw [hquoted, hu] at e
    simp at e; subst e
    rw [hi j hl]

theorem init_kind (U : Unicode) (d : DefName) (q : Str) : (d.initialize U q).kind = d.kind := by
  simp only [DefName.initialize, DefName.setSortName, DefName.setRange]
  split <;> rfl

theorem sheet_written {U : Unicode} (hU : U.Sane) {sheets : List Str} {p : Str × List SheetNameOp}
    {q : Str} {i : Nat} {r : List DefName}
    (hw : SheetNameOp.printArea 0 0 1048575 16383 ∉ p.2)
    (hn : p.1.head? ≠ some '\'') (hne : p.1 ≠ []) (hq : quoteSheetName U p.1 = some q)
    (hi : ∀ j, lookupSheet sheets 0 p.1 = some j → j = i)
    (hr : Zip2 (Resolved sheets) ((([(sheetAfter p).autofilter, (sheetAfter p).printArea,
      (sheetAfter p).titles].filter (·.inUse)).map (·.initialize U q))) r) :
    Zip2 (FeatureWritten i p.1) (Asked.of p.2).features (r.map DefName.written) := by
  have hinv := sheetAfter_inv p hw
  generalize sheetAfter p = s at *
  generalize Asked.of p.2 = k at *
  obtain ⟨h1, h2, h3, h4, h5, h6⟩ := hinv
  have fres : ∀ {d d' : DefName}, Resolved sheets (d.initialize U q) d' →
      d' = { d.initialize U q with index := i } := fun h => resolved_feature hn hne hq hi h
  -- the titles part
  have ht : ∀ {r}, Zip2 (Resolved sheets)
      (([s.titles].filter (·.inUse)).map (·.initialize U q)) r →
      Zip2 (FeatureWritten i p.1)
        (if k.rows = none ∧ k.cols = none then [] else [.titles k.cols k.rows])
        (r.map DefName.written) := by
    intro r hr
    by_cases hu : s.titles.inUse = true
    · have hk := h4 hu
      have hne' := h3.mp hu
      rw [if_neg (by intro h; rcases hne' with h' | h'; exact h' h.1; exact h' h.2)]
      simp only [List.filter_cons, hu, if_true, List.filter_nil, List.map_cons, List.map_nil] at hr
      cases hr with
      | cons hd hr =>
        cases hr
        rw [fres hd]
        refine .cons ⟨?_, ?_, ?_, ?_⟩ .nil
        · simp [DefName.written, init_kind, hk]
        · simp [DefName.written, DefName.writtenName, init_kind, hk]
        · simp [DefName.written, init_kind, hk]
        · exact written_titles hU hq hn hk h5 h6 hne'
    · have : k.rows = none ∧ k.cols = none := by
        have : ¬ (k.rows ≠ none ∨ k.cols ≠ none) := fun h => hu (h3.mpr h)
        simpa using this
      rw [if_pos this]
      simp only [List.filter_cons, hu, if_false, List.filter_nil, List.map_nil,
        Bool.false_eq_true] at hr
      cases hr; exact .nil
  have hp : ∀ {r}, Zip2 (Resolved sheets)
      (([s.printArea, s.titles].filter (·.inUse)).map (·.initialize U q)) r →
      Zip2 (FeatureWritten i p.1)
        ((match k.printArea with | some a => [.printArea a] | none => []) ++
        (if k.rows = none ∧ k.cols = none then [] else [.titles k.cols k.rows]))
        (r.map DefName.written) := by
    intro r hr
    cases hk : k.printArea with
    | none =>
      rw [hk] at h2
      simp only at h2
      rw [List.filter_cons, h2] at hr
      exact ht hr
    | some a =>
      rw [hk] at h2
      simp only at h2
      obtain ⟨g1, g2, g3, g4, g5, g6⟩ := h2
      rw [List.filter_cons, g1, if_pos rfl, List.map_cons] at hr
      cases hr with
      | cons hd hr =>
        rw [List.map_cons, fres hd]
        refine .cons ⟨?_, ?_, ?_, ?_⟩ (ht hr)
        · simp [DefName.written, init_kind, g2]
        · simp [DefName.written, DefName.writtenName, init_kind, g2]
        · simp [DefName.written, init_kind, g2]
        · exact written_area hU hq hn (.inr g2) g3 g4 g5 g6
  show Zip2 _ (_ ++ _ ++ _) _
  rw [List.append_assoc]
  cases hk : k.autofilter with
  | none =>
    rw [hk] at h1
    simp only at h1
    rw [List.filter_cons, h1] at hr
    exact hp hr
  | some a =>
    rw [hk] at h1
    simp only at h1
    obtain ⟨g1, g2, g3, g4, g5, g6⟩ := h1
    rw [List.filter_cons, g1, if_pos rfl, List.map_cons] at hr
    cases hr with
    | cons hd hr =>
      rw [List.map_cons, fres hd]
      refine .cons ⟨?_, ?_, ?_, ?_⟩ (hp hr)
      · simp [DefName.written, init_kind, g2]
      · simp [DefName.written, DefName.writtenName, init_kind, g2]
      · simp [DefName.written, init_kind, g2]
      · exact written_area hU hq hn (.inl g2) g3 g4 g5 g6

theorem sheets_written {U : Unicode} (hU : U.Sane) {names : List Str}
    {sheets : List (Str × List SheetNameOp)} {c r : List DefName} (i : Nat)
    (hw : ∀ p ∈ sheets, SheetNameOp.printArea 0 0 1048575 16383 ∉ p.2)
    (hl : ∀ p ∈ sheets, p.1.head? ≠ some '\'' ∧ p.1 ≠ [])
    (hi : ∀ (k : Nat) p, sheets[k]? = some p → ∀ j, lookupSheet names 0 p.1 = some j → j = i + k)
    (hc : collectAll U (sheets.map sheetAfter) = some c) (hr : Zip2 (Resolved names) c r) :
    SheetsWritten i sheets (r.map DefName.written) := by
  induction sheets generalizing i c r with
  | nil =>
    simp [collectAll] at hc; subst hc
    cases hr; rfl
  | cons p sheets ih =>
    simp only [List.map_cons, collectAll, SheetNames.collect, sheetAfter_name] at hc
    cases hq : quoteSheetName U p.1 with
    | none => simp [hq] at hc
    | some q =>
      cases hb : collectAll U (sheets.map sheetAfter) with
      | none => simp [hq, hb] at hc
      | some b =>
        simp [hq, hb] at hc
        subst hc
        obtain ⟨xs, ys, rfl, h1, h2⟩ := Zip2.append_inv hr
        have hp := hl p (by simp)
        refine ⟨xs.map DefName.written, ys.map DefName.written, by simp, ?_, ?_⟩
        · refine sheet_written hU (hw p (by simp)) hp.1 hp.2 hq ?_ (by simpa using h1)
          intro j hj
          simpa using hi 0 p (by simp) j hj
        · refine ih (i + 1) (fun p hp => hw p (by simp [hp])) (fun p hp => hl p (by simp [hp])) ?_ hb h2
          intro k p hk j hj
          have := hi (k + 1) p (by simpa using hk) j hj
          omega

/-! ## The theorems -/

theorem saveNames_ok {U : Unicode} {user : List DefName} {sheets : List SheetNames} {L : List DefName}
    (h : saveNames U user sheets = .ok L) :
    ∃ c l, collectAll U sheets = some c ∧ resolveNames (sheets.map (·.name)) (user ++ c) = .ok l ∧
      L = l.mergeSort DefName.keyLe := by
  unfold saveNames at h
  cases hc : collectAll U sheets with
  | none => simp [hc] at h
  | some c =>
    simp only [hc] at h
    cases hr : resolveNames (sheets.map (·.name)) (user ++ c) with
    | ok l => simp [hr] at h; exact ⟨c, l, rfl, hr, h.symm⟩
    | err => simp [hr] at h
    | panic => simp [hr] at h

theorem sheetAfter_names (sheets : List (Str × List SheetNameOp)) :
    (sheets.map sheetAfter).map (·.name) = sheets.map Prod.fst := by
  simp [List.map_map, Function.comp_def, sheetAfter_name]

/-- **C31** and **C44**: for every list of accepted `define_name` calls and every list of sheets with
legal, distinct names, whatever print areas, repeat rows and columns and autofilters they were given, the
defined names of a successful save are, up to order, exactly: one per call, with the name, the formula and
the scope the user typed, and the built-in names of every sheet, each with the index of its sheet and a
text that reads back as the area asked for last. -/
theorem C31_names_written_partial (U : Unicode) (hU : U.Sane) (calls : List (Str × Str))
    (defs : List DefName) (hd : Zip2 (fun c d => defineName U c.1 c.2 = .ok d) calls defs)
    (hg : ∀ c ∈ calls, GoodCall c.1) (sheets : List (Str × List SheetNameOp))
    (hlegal : ∀ p ∈ sheets, LegalName p.1) (hnd : (sheets.map Prod.fst).Nodup)
    (hw : ∀ p ∈ sheets, SheetNameOp.printArea 0 0 1048575 16383 ∉ p.2)
    (L : List DefName) (h : saveNames U defs (sheets.map sheetAfter) = .ok L) :
    ∃ us fs, (L.map DefName.written).Perm (us ++ fs) ∧
      Zip2 (UserWritten (sheets.map Prod.fst)) calls us ∧ SheetsWritten 0 sheets fs := by
  obtain ⟨c, l, hc, hr, rfl⟩ := saveNames_ok h
  rw [sheetAfter_names] at hr
  obtain ⟨xs, ys, rfl, h1, h2⟩ := Zip2.append_inv (resolve_ok hr)
  refine ⟨xs.map DefName.written, ys.map DefName.written, ?_, users_written hg hd h1, ?_⟩
  · rw [← List.map_append]
    exact (List.mergeSort_perm _ _).map _
  · refine sheets_written hU 0 hw (fun p hp => ⟨(hlegal p hp).first, (hlegal p hp).notBlank⟩) ?_ hc h2
    intro k p hk j hj
    obtain ⟨i, e, hi⟩ := lookupSheet_some hj
    have hk' : (sheets.map Prod.fst)[k]? = some p.1 := by simp [hk]
    obtain ⟨hlt, e1⟩ := List.getElem?_eq_some_iff.mp hi
    obtain ⟨hlt', e2⟩ := List.getElem?_eq_some_iff.mp hk'
    have hpw := List.pairwise_iff_getElem.mp hnd
    rcases Nat.lt_trichotomy i k with hlt1 | rfl | hlt1
    · exact absurd (e1.trans e2.symm) (hpw i k hlt hlt' hlt1)
    · omega
    · exact absurd (e2.trans e1.symm) (hpw k i hlt' hlt hlt1)

/-- **C31**, order: the written list is sorted by name, ignoring case, as far as the user's names go (the
comparison is that of Lean's lists of characters: by code point, as Rust compares strings). -/
theorem strLe_iff (a b : Str) : strLe a b = true ↔ a ≤ b := by
  induction a generalizing b with
  | nil => simp [strLe]
  | cons x xs ih =>
    cases b with
    | nil => simp [strLe]
    | cons y ys =>
      simp only [strLe, Bool.or_eq_true, decide_eq_true_eq, Bool.and_eq_true, beq_iff_eq, ih,
        List.cons_le_cons_iff, Char.lt_def, Char.toNat, UInt32.lt_iff_toNat_lt]

theorem C31_user_names_sorted (U : Unicode) (calls : List (Str × Str))
    (defs : List DefName) (hd : Zip2 (fun c d => defineName U c.1 c.2 = .ok d) calls defs)
    (sheets : List (Str × List SheetNameOp)) (L : List DefName)
    (h : saveNames U defs (sheets.map sheetAfter) = .ok L) :
    (L.filter (fun d => d.kind = .global ∨ d.kind = .local)).Pairwise (fun a b =>
      U.lower a.written.name ≤ U.lower b.written.name ∧
      (U.lower a.written.name = U.lower b.written.name → a.written.text ≤ b.written.text)) := by
  obtain ⟨c, l, hc, hr, rfl⟩ := saveNames_ok h
  have hs : (l.mergeSort DefName.keyLe).Pairwise (fun a b => a.keyLe b = true) :=
    List.pairwise_mergeSort (fun a b c => keyLe_trans a b c) keyLe_total l
  -- every stored user name has its lower-cased name as sort key
  have hkey : ∀ d ∈ l, (d.kind = .global ∨ d.kind = .local) → d.sortName = U.lower d.written.name := by
    have aux : ∀ (ds r : List DefName), Zip2 (Resolved ((sheets.map sheetAfter).map (·.name))) ds r →
        (∀ d ∈ ds, (d.kind = .global ∨ d.kind = .local) → d.sortName = U.lower d.name) →
        ∀ d ∈ r, (d.kind = .global ∨ d.kind = .local) → d.sortName = U.lower d.name := by
      intro ds r hz
      induction hz with
      | nil => intro _ d hd; simp at hd
      | cons hab _ ih =>
        intro hyp d hd hk
        rcases List.mem_cons.mp hd with rfl | hd
        · have := hyp _ (List.mem_cons_self)
          rcases hab with ⟨_, rfl⟩ | ⟨_, _, _, _, _, rfl⟩
          · exact this hk
          · exact this hk
        · exact ih (fun d hd => hyp d (by simp [hd])) d hd hk
    have hdefs : ∀ d ∈ defs, d.sortName = U.lower d.name := by
      clear hr hs h
      induction hd with
      | nil => simp
      | cons hab _ ih =>
        intro d hd
        rcases List.mem_cons.mp hd with rfl | hd
        · exact (defineName_ok hab).2.1
        · exact ih d hd
    have hfeat : ∀ d ∈ c, d.kind ≠ .global ∧ d.kind ≠ .local := by
      clear hr hs h aux hdefs
      induction sheets generalizing c with
      | nil => simp [collectAll] at hc; subst hc; simp
      | cons p sheets ih =>
        simp only [List.map_cons, collectAll, SheetNames.collect, sheetAfter_name] at hc
        cases hq : quoteSheetName U p.1 with
        | none => simp [hq] at hc
        | some q =>
          cases hb : collectAll U (sheets.map sheetAfter) with
          | none => simp [hq, hb] at hc
          | some b =>
            simp [hq, hb] at hc
            subst hc
            intro d hd
            rcases List.mem_append.mp hd with hd | hd
            · obtain ⟨d0, hd0, rfl⟩ := List.mem_map.mp hd
              rw [init_kind]
              obtain ⟨hm, hu⟩ := List.mem_filter.mp hd0
              exact sheetAfter_kinds p d0 hm (by simpa using hu)
            · exact ih b hb d hd
    intro d hd hk
    have := aux _ _ (resolve_ok hr) (by
      intro d hd hk
      rcases List.mem_append.mp hd with h | h
      · exact hdefs d h
      · have := hfeat d h; rcases hk with hk | hk <;> simp [hk] at this) d hd hk
    rw [this]
    rcases hk with hk | hk <;> simp [DefName.written, DefName.writtenName, hk]
  have hmem : ∀ d ∈ (l.mergeSort DefName.keyLe).filter (fun d => d.kind = .global ∨ d.kind = .local),
      d.sortName = U.lower d.written.name := by
    intro d hd
    obtain ⟨h1, h2⟩ := List.mem_filter.mp hd
    exact hkey d ((List.mergeSort_perm _ _).subset h1) (by simpa using h2)
  refine List.Pairwise.imp_of_mem ?_ (hs.filter _)
  intro a b ha hb hab
  rw [← hmem a ha, ← hmem b hb]
  simp only [DefName.keyLe] at hab
  split at hab
  · rename_i e
    refine ⟨by rw [e]; exact List.le_refl _, fun _ => (strLe_iff _ _).mp hab⟩
  · rename_i e
    exact ⟨(strLe_iff _ _).mp hab, fun e' => absurd e' e⟩

/-- **C31**, errors: a save fails with a parameter error only because of a name whose sheet does not
exist, and a name whose sheet does not exist never gets through. -/
theorem C31_unknown_sheet (U : Unicode) (calls : List (Str × Str))
    (defs : List DefName) (hd : Zip2 (fun c d => defineName U c.1 c.2 = .ok d) calls defs)
    (hg : ∀ c ∈ calls, GoodCall c.1) (sheets : List (Str × List SheetNameOp))
    (hlegal : ∀ p ∈ sheets, LegalName p.1) :
    (saveNames U defs (sheets.map sheetAfter) = .err →
      ∃ c ∈ calls, ∃ s, (askedScope c.1).1 = some s ∧ s ∉ sheets.map Prod.fst) ∧
    ((∃ c ∈ calls, ∃ s, (askedScope c.1).1 = some s ∧ s ∉ sheets.map Prod.fst) →
      ∀ L, saveNames U defs (sheets.map sheetAfter) ≠ .ok L) := by
  have hscope : ∀ {c d}, c ∈ calls → defineName U c.1 c.2 = .ok d → ∃ s,
      unquoteSheetname d.quoted = some s ∧ (s ≠ [] → (askedScope c.1).1 = some s) ∧
      ((askedScope c.1).1 ≠ none → (askedScope c.1).1 = some s ∧ s ≠ []) := by
    intro c d hc h
    obtain ⟨h1, h2, h3⟩ := defineName_ok h
    rcases hg c hc with hg | ⟨sheet, n, hs, hne, hb⟩
    · have hany : c.1.any (· == '!') = false := by
        rw [Bool.eq_false_iff]
        intro e
        obtain ⟨x, hx, e⟩ := List.any_eq_true.mp e
        simp at e; subst e; exact hg hx
      simp only [hany, Bool.false_eq_true, if_false] at h3
      refine ⟨[], by rw [h3.2.1]; rfl, by simp, ?_⟩
      simp [askedScope, readSheetRef_nobang hg]
    · obtain ⟨g1, g2, g3⟩ := goodCall_split hs hb
      simp only [g1, if_true] at h3
      refine ⟨sheet, by rw [h3.2.1, g3], ?_, ?_⟩ <;> simp [askedScope, hs, hne]
  have hz : ∀ {cs : List (Str × Str)} {ds : List DefName},
      Zip2 (fun c d => defineName U c.1 c.2 = .ok d) cs ds → ∀ d ∈ ds, ∃ c ∈ cs,
        defineName U c.1 c.2 = .ok d := by
    intro cs ds h
    induction h with
    | nil => simp
    | cons hab _ ih =>
      intro d hd
      rcases List.mem_cons.mp hd with rfl | hd
      · exact ⟨_, List.mem_cons_self, hab⟩
      · obtain ⟨c, hc, h⟩ := ih d hd
        exact ⟨c, by simp [hc], h⟩
  have hz' : ∀ {cs : List (Str × Str)} {ds r : List DefName},
      Zip2 (fun c d => defineName U c.1 c.2 = .ok d) cs ds →
      Zip2 (Resolved (sheets.map Prod.fst)) ds r → ∀ c ∈ cs, ∃ d d',
        defineName U c.1 c.2 = .ok d ∧ Resolved (sheets.map Prod.fst) d d' := by
    intro cs ds r h
    induction h generalizing r with
    | nil => simp
    | cons hab _ ih =>
      intro hr c hc
      cases hr with
      | cons h' hr =>
        rcases List.mem_cons.mp hc with rfl | hc
        · exact ⟨_, _, hab, h'⟩
        · exact ih hr c hc
  constructor
  · intro h
    unfold saveNames at h
    cases hc : collectAll U (sheets.map sheetAfter) with
    | none => simp [hc] at h
    | some cl =>
      simp only [hc, sheetAfter_names] at h
      cases hr : resolveNames (sheets.map Prod.fst) (defs ++ cl) with
      | ok l => simp [hr] at h
      | panic => simp [hr] at h
      | err =>
        obtain ⟨d, hdm, s, hu, hs, hn⟩ := resolve_err hr
        rcases List.mem_append.mp hdm with hdm | hdm
        · obtain ⟨c, hcm, hdef⟩ := hz hd d hdm
          obtain ⟨s', e1, e2, _⟩ := hscope hcm hdef
          rw [hu] at e1
          simp only [Option.some.injEq] at e1
          subst e1
          exact ⟨c, hcm, s, e2 hs, hn⟩
        · -- built-in names carry the quoted name of their own sheet
          exfalso
          have hb : ∀ (ss : List (Str × List SheetNameOp)) (cl : List DefName),
              (∀ p ∈ ss, LegalName p.1) →
              collectAll U (ss.map sheetAfter) = some cl → ∀ d ∈ cl, ∃ p ∈ ss,
                unquoteSheetname d.quoted = some p.1 := by
            intro ss
            induction ss with
            | nil => intro cl _ h; simp [collectAll] at h; subst h; simp
            | cons p ss ih =>
              intro cl hl h
              simp only [List.map_cons, collectAll, SheetNames.collect, sheetAfter_name] at h
              cases hq : quoteSheetName U p.1 with
              | none => simp [hq] at h
              | some q =>
                cases hb : collectAll U (ss.map sheetAfter) with
                | none => simp [hq, hb] at h
                | some b =>
                  simp [hq, hb] at h
                  subst h
                  intro d hd
                  rcases List.mem_append.mp hd with hd | hd
                  · obtain ⟨d0, hd0, rfl⟩ := List.mem_map.mp hd
                    have hquoted : (d0.initialize U q).quoted = q := by
                      simp only [DefName.initialize, DefName.setSortName, DefName.setRange]
                      split <;> rfl
                    exact ⟨p, by simp, by
                      rw [hquoted]; exact C03_unquote_quote U p.1 q (hl p (by simp)).first hq⟩
                  · obtain ⟨p', hp', h⟩ := ih b (fun p hp => hl p (by simp [hp])) hb d hd
                    exact ⟨p', by simp [hp'], h⟩
          obtain ⟨p, hp, e⟩ := hb sheets cl hlegal hc d hdm
          rw [hu] at e
          simp only [Option.some.injEq] at e
          exact hn (e ▸ List.mem_map.mpr ⟨p, hp, rfl⟩)
  · rintro ⟨c, hcm, s, hs, hn⟩ L h
    obtain ⟨cl, l, hc, hr, rfl⟩ := saveNames_ok h
    rw [sheetAfter_names] at hr
    obtain ⟨xs, ys, rfl, h1, h2⟩ := Zip2.append_inv (resolve_ok hr)
    obtain ⟨d, d', hdef, hres⟩ := hz' hd h1 c hcm
    obtain ⟨s', e1, _, e3⟩ := hscope hcm hdef
    obtain ⟨e4, e5⟩ := e3 (by simp [hs])
    rw [hs] at e4
    simp only [Option.some.injEq] at e4
    subst e4
    rcases hres with ⟨e, _⟩ | ⟨t, i, e, _, hl, _⟩
    · rw [e1] at e
      simp only [Option.some.injEq] at e
      exact e5 e
    · rw [e1] at e
      simp only [Option.some.injEq] at e
      subst e
      rw [lookupSheet_none.mpr hn] at hl
      simp at hl

/-- The save without the sort, to compute examples. -/
def saveNamesUnsorted (U : Unicode) (user : List DefName) (sheets : List SheetNames) :
    Res3 (List DefName) :=
  match collectAll U sheets with
  | none => .panic
  | some c => resolveNames (sheets.map (·.name)) (user ++ c)

theorem saveNames_of_unsorted {U : Unicode} {user : List DefName} {sheets : List SheetNames}
    (h : (match saveNamesUnsorted U user sheets with | .ok _ => true | _ => false) = true) :
    ∃ L, saveNames U user sheets = .ok L := by
  unfold saveNamesUnsorted at h
  unfold saveNames
  cases hc : collectAll U sheets with
  | none => simp [hc] at h
  | some c =>
    simp only [hc] at h ⊢
    cases hr : resolveNames (sheets.map (·.name)) (user ++ c) with
    | ok l => exact ⟨_, rfl⟩
    | err => simp [hr] at h
    | panic => simp [hr] at h

/-! ## Counterexamples to the full property -/

/-- `define_name("")` and `define_name("Sheet1!")` panic instead of returning an error. -/
theorem C31_empty_name_panics :
    defineName asciiUnicode [] "=1".toList = .panic ∧
    defineName asciiUnicode "Sheet1!".toList "=1".toList = .panic := by decide +kernel

/-- A sheet whose name has an exclamation mark in it cannot be given a local name: the call is refused,
although `A!B` is a legal sheet name and `'A!B'!x` is how Excel writes the name. -/
theorem C31_bang_in_sheet_counterexample :
    LegalName "A!B".toList ∧ readSheetRef "'A!B'!x".toList = some ("A!B".toList, "x".toList) ∧
    defineName asciiUnicode "'A!B'!x".toList "=1".toList = .err := by
  refine ⟨(C04_accepts_iff_legal _).mp (by decide +kernel), by decide +kernel, by decide +kernel⟩

/-- A call with an empty sheet name is accepted and the name silently becomes local to the first sheet. -/
theorem C31_empty_sheet_counterexample :
    ∃ d L, defineName asciiUnicode "!x".toList "=1".toList = .ok d ∧
      saveNames asciiUnicode [d] [{ name := "Data".toList }] = .ok L ∧
      L.map DefName.written = [⟨"x".toList, some 0, false, "1".toList⟩] := by
  refine ⟨{ quoted := [], name := "x".toList, sortName := "x".toList, range := "1".toList,
            kind := .local },
    [{ quoted := [], name := "x".toList, sortName := "x".toList, range := "1".toList,
       kind := .local }], by decide +kernel, by decide +kernel, by decide +kernel⟩

/-- A call whose sheet is a lone apostrophe is accepted and makes the save panic. -/
theorem C31_apostrophe_panics :
    ∃ d, defineName asciiUnicode "'!x".toList "=1".toList = .ok d ∧
      saveNames asciiUnicode [d] [{ name := "Data".toList }] = .panic :=
  ⟨{ quoted := "'".toList, name := "x".toList, sortName := "x".toList, range := "1".toList,
     kind := .local }, by decide +kernel, by decide +kernel⟩

/-- The built-in names sort as if they ended in `{}`: a user name that comes after `Print_Area` in
alphabetical order is written before it. -/
theorem C31_builtin_order_counterexample :
    let d : DefName := { kind := .printArea }
    ∃ u, defineName asciiUnicode "Print_Area2".toList "=1".toList = .ok u ∧
      "print_area".toList < "print_area2".toList ∧
      DefName.keyLe u (d.initialize asciiUnicode "S".toList) = true ∧
      DefName.keyLe (d.initialize asciiUnicode "S".toList) u = false :=
  ⟨{ name := "Print_Area2".toList, sortName := "print_area2".toList, range := "1".toList },
    by decide +kernel, by decide +kernel, by decide +kernel, by decide +kernel⟩

/-- Setting the print area to the whole sheet does not undo an earlier print area. -/
theorem C44_whole_sheet_counterexample :
    let p : Str × List SheetNameOp :=
      ("S".toList, [.printArea 0 0 4 4, .printArea 0 0 1048575 16383])
    (Asked.of p.2).printArea = none ∧ (sheetAfter p).printArea.inUse = true := by decide +kernel

/-- The hypotheses of the theorems are met. -/
example : ∃ defs L, Zip2 (fun c d => defineName asciiUnicode c.1 c.2 = .ok d)
      [("Total".toList, "=Data!$A$1".toList), ("'It''s'!rate".toList, "=5".toList)] defs ∧
    (∀ c ∈ [("Total".toList, "=Data!$A$1".toList), ("'It''s'!rate".toList, "=5".toList)],
      GoodCall c.1) ∧
    saveNames asciiUnicode defs ([("Data".toList, [SheetNameOp.printArea 0 0 4 4, .rows 0 1]),
      ("It's".toList, [.cols 1 2])].map sheetAfter) = .ok L := by
  have h : ∀ c ∈ [("Total".toList, "=Data!$A$1".toList), ("'It''s'!rate".toList, "=5".toList)],
      GoodCall c.1 := by
    intro c hc
    simp only [List.mem_cons, List.not_mem_nil, or_false] at hc
    rcases hc with rfl | rfl
    · left; decide +kernel
    · right; exact ⟨"It's".toList, "rate".toList, by decide +kernel, by decide +kernel, by decide +kernel⟩
  let d1 : DefName :=
    { name := "Total".toList, sortName := "total".toList, range := "Data!$A$1".toList }
  let d2 : DefName :=
    { quoted := "'It''s'".toList, name := "rate".toList, sortName := "rate".toList,
      range := "5".toList, kind := .local }
  obtain ⟨L, hL⟩ := saveNames_of_unsorted (U := asciiUnicode) (user := [d1, d2])
    (sheets := [("Data".toList, [SheetNameOp.printArea 0 0 4 4, .rows 0 1]),
      ("It's".toList, [.cols 1 2])].map sheetAfter) (by decide +kernel)
  exact ⟨[d1, d2], L, .cons (by decide +kernel) (.cons (by decide +kernel) .nil), h, hL⟩

end Verif
