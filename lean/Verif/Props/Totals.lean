import Verif.Spec.Totals
import Verif.Props.Formula
import Verif.Props.TableShow
import Verif.Props.TableCells
/-!
The formulas of a total row (C52).
-/
namespace Verif
open Spec
variable {Fmt : Type}

/-- The escape of one character of a name. -/
def escName (c : Char) : Str := if c = '[' ∨ c = ']' ∨ c = '#' ∨ c = '\'' then ['\'', c] else [c]

theorem replaceChar_append (c : Char) (r s t : Str) : replaceChar c r (s ++ t) = replaceChar c r s ++ replaceChar c r t := by
  unfold replaceChar; rw [List.flatMap_append]

theorem escapeColumnName_append (s t : Str) : escapeColumnName (s ++ t) = escapeColumnName s ++ escapeColumnName t := by
  unfold escapeColumnName; rw [replaceChar_append, replaceChar_append, replaceChar_append, replaceChar_append]

theorem escapeColumnName_one (c : Char) : escapeColumnName [c] = escName c := by
  unfold escName
  by_cases h1 : c = '\''
  · subst h1; decide
  · by_cases h2 : c = '#'
    · subst h2; decide
    · by_cases h3 : c = ']'
      · subst h3; decide
      · by_cases h4 : c = '['
        · subst h4; decide
        · rw [if_neg (by simp [h1, h2, h3, h4])]
          simp [escapeColumnName, replaceChar, h1, h2, h3, h4]

theorem escapeColumnName_eq (s : Str) : escapeColumnName s = s.flatMap escName := by
  induction s with
  | nil => rfl
  | cons c r ih =>
    rw [show c :: r = [c] ++ r from rfl, escapeColumnName_append, escapeColumnName_one, ih, List.flatMap_append]
    simp

theorem escapeColumnName_cons (c : Char) (s : Str) : escapeColumnName (c :: s) = escName c ++ escapeColumnName s := by
  rw [escapeColumnName_eq, escapeColumnName_eq, List.flatMap_cons]

/-! ### Reading the column -/

theorem readColumnRef_escape (n rest : Str) : readColumnRef (escapeColumnName n ++ ']' :: rest) = some (n, rest) := by
  induction n with
  | nil => rfl
  | cons c r ih =>
    rw [escapeColumnName_cons, List.append_assoc]
    unfold escName
    by_cases h : c = '[' ∨ c = ']' ∨ c = '#' ∨ c = '\''
    · rw [if_pos h]
      show readColumnRef ('\'' :: c :: (escapeColumnName r ++ ']' :: rest)) = _
      rw [readColumnRef, if_pos h, ih]; rfl
    · rw [if_neg h]
      simp only [not_or] at h
      show readColumnRef (c :: (escapeColumnName r ++ ']' :: rest)) = _
      rw [readColumnRef.eq_def]
      split
      · rename_i e; cases e
      · rename_i e; injection e with e _; exact absurd e h.2.1
      · rename_i e; injection e with e _; exact absurd e h.2.2.2
      · rename_i e
        injection e with e1 e2
        subst e1 e2
        rw [if_neg (by simp [h.1, h.2.2.1, h.2.2.2]), ih]; rfl

/-! ### The formula is stored as it is -/

/-- No call in the text gets a prefix. -/
def NoPrefix (s : Str) : Prop := ∀ t, t <:+ s → ∀ f, calledHere t = some f → storedPrefix f = []

theorem noPrefix_cons {c : Char} {s : Str} (h1 : ∀ f, calledHere (c :: s) = some f → storedPrefix f = []) (h2 : NoPrefix s) :
    NoPrefix (c :: s) := by
  intro t ht f hf
  rcases List.suffix_cons_iff.mp ht with rfl | ht
  · exact h1 f hf
  · exact h2 t ht f hf

theorem escName_other {c : Char} (h : nameLike c = true) : escName c = [c] := by
  unfold escName
  rw [if_neg]
  rintro (rfl | rfl | rfl | rfl) <;> revert h <;> decide

theorem called_escape (n : Str) : calledHere (escapeColumnName n ++ "])".toList) = calledHere n := by
  have key : (escapeColumnName n ++ "])".toList).takeWhile nameLike = n.takeWhile nameLike ∧
      (((escapeColumnName n ++ "])".toList).dropWhile nameLike).head? = some '(' ↔ (n.dropWhile nameLike).head? = some '(') := by
    induction n with
    | nil => decide
    | cons c r ih =>
      rw [escapeColumnName_cons, List.append_assoc]
      by_cases h : nameLike c = true
      · rw [escName_other h]
        show (c :: (escapeColumnName r ++ "])".toList)).takeWhile nameLike = _ ∧ (((c :: (escapeColumnName r ++ "])".toList)).dropWhile nameLike).head? = _ ↔ _)
        rw [List.takeWhile_cons_of_pos h, List.takeWhile_cons_of_pos h, List.dropWhile_cons_of_pos h, List.dropWhile_cons_of_pos h, ih.1]
        exact ⟨rfl, ih.2⟩
      · rw [List.takeWhile_cons_of_neg h, List.dropWhile_cons_of_neg h]
        unfold escName
        by_cases hs : c = '[' ∨ c = ']' ∨ c = '#' ∨ c = '\''
        · rw [if_pos hs]
          have hc : c ≠ '(' := by rintro rfl; revert hs; decide
          show ('\'' :: c :: (escapeColumnName r ++ "])".toList)).takeWhile nameLike = _ ∧ ((('\'' :: c :: (escapeColumnName r ++ "])".toList)).dropWhile nameLike).head? = _ ↔ _)
          rw [List.takeWhile_cons_of_neg (by decide), List.dropWhile_cons_of_neg (by decide)]
          refine ⟨rfl, ?_⟩
          simp [hc]
        · rw [if_neg hs]
          show (c :: (escapeColumnName r ++ "])".toList)).takeWhile nameLike = _ ∧ (((c :: (escapeColumnName r ++ "])".toList)).dropWhile nameLike).head? = _ ↔ _)
          rw [List.takeWhile_cons_of_neg h, List.dropWhile_cons_of_neg h]
          exact ⟨rfl, Iff.rfl⟩
  unfold calledHere
  simp only [key.1, key.2]

theorem noPrefix_escape {n : Str} (h : NoPrefix n) : NoPrefix (escapeColumnName n ++ "])".toList) := by
  induction n with
  | nil =>
    show NoPrefix [']', ')']
    refine noPrefix_cons ?_ (noPrefix_cons ?_ ?_)
    · intro f hf; cases hf
    · intro f hf; cases hf
    · intro t ht f hf
      rw [List.suffix_nil.mp ht] at hf
      cases hf
  | cons c r ih =>
    have hr := ih fun t ht => h t (ht.trans (List.suffix_cons _ _))
    have hw : ∀ f, calledHere (escapeColumnName (c :: r) ++ "])".toList) = some f → storedPrefix f = [] := by
      intro f hf
      rw [called_escape] at hf
      exact h _ (List.suffix_refl _) f hf
    rw [escapeColumnName_cons, List.append_assoc] at hw ⊢
    unfold escName at hw ⊢
    by_cases hs : c = '[' ∨ c = ']' ∨ c = '#' ∨ c = '\''
    · rw [if_pos hs] at hw ⊢
      refine noPrefix_cons hw (noPrefix_cons ?_ hr)
      intro f hf
      have hc : nameLike c = false ∧ c ≠ '(' := by rcases hs with rfl | rfl | rfl | rfl <;> decide
      unfold calledHere at hf
      change (if ((c :: (escapeColumnName r ++ "])".toList)).dropWhile nameLike).head? = some '(' then _ else _) = _ at hf
      rw [List.dropWhile_cons_of_neg (by rw [hc.1]; simp), if_neg (by simp [hc.2])] at hf
      cases hf
    · rw [if_neg hs] at hw ⊢
      exact noPrefix_cons hw hr

/-- The text in front of the column. -/
theorem noPrefix_head (d1 d2 d3 : Char) (h1 : nameLike d1 = true) (h2 : nameLike d2 = true) (h3 : nameLike d3 = true) {s : Str}
    (h : NoPrefix s) : NoPrefix ("SUBTOTAL(".toList ++ (d1 :: d2 :: d3 :: ',' :: '[' :: s)) := by
  have none_of : ∀ (t : Str) (r : Str), (∀ c ∈ t, nameLike c = true) → ∀ f, calledHere (t ++ ',' :: r) = some f → storedPrefix f = [] := by
    intro t r ht f hf
    unfold calledHere at hf
    have : ((t ++ ',' :: r).dropWhile nameLike).head? = some ',' := by
      induction t with
      | nil => rfl
      | cons a t ih =>
        show ((a :: (t ++ ',' :: r)).dropWhile nameLike).head? = _
        rw [List.dropWhile_cons_of_pos (ht a List.mem_cons_self)]
        refine ih (fun c hc => ht c (List.mem_cons_of_mem _ hc)) ?_
        have hd : ((a :: t ++ ',' :: r).dropWhile nameLike) = (t ++ ',' :: r).dropWhile nameLike :=
          List.dropWhile_cons_of_pos (ht a List.mem_cons_self)
        rw [hd] at hf
        split at hf
        · rename_i e
          exfalso
          have e' : ((t ++ ',' :: r).dropWhile nameLike).head? = some ',' := by
            clear hf hd ih e
            induction t with
            | nil => rfl
            | cons b t ih =>
              show ((b :: (t ++ ',' :: r)).dropWhile nameLike).head? = _
              rw [List.dropWhile_cons_of_pos (ht b (by simp))]
              exact ih fun c hc => ht c (by simp at hc ⊢; rcases hc with h | h <;> simp [h])
          rw [e'] at e
          cases e
        · cases hf
    rw [this, if_neg (by decide)] at hf
    cases hf
  have n1 : NoPrefix (d1 :: d2 :: d3 :: ',' :: '[' :: s) := by
    refine noPrefix_cons (none_of [d1, d2, d3] _ ?_) (noPrefix_cons (none_of [d2, d3] _ ?_) (noPrefix_cons (none_of [d3] _ ?_)
      (noPrefix_cons (none_of [] _ ?_) (noPrefix_cons ?_ h))))
    · simp [h1, h2, h3]
    · simp [h2, h3]
    · simp [h3]
    · simp
    · intro f hf; cases hf
  have some_of : ∀ {t r f : Str}, calledHere r = some t → storedPrefix t = [] → calledHere r = some f → storedPrefix f = [] := by
    intro t r f h1 h2 h3
    rw [h1] at h3; injection h3 with h3; rw [← h3]; exact h2
  refine noPrefix_cons (fun f => some_of (t := "SUBTOTAL".toList) rfl (by decide +kernel)) ?_
  refine noPrefix_cons (fun f => some_of (t := "UBTOTAL".toList) rfl (by decide +kernel)) ?_
  refine noPrefix_cons (fun f => some_of (t := "BTOTAL".toList) rfl (by decide +kernel)) ?_
  refine noPrefix_cons (fun f => some_of (t := "TOTAL".toList) rfl (by decide +kernel)) ?_
  refine noPrefix_cons (fun f => some_of (t := "OTAL".toList) rfl (by decide +kernel)) ?_
  refine noPrefix_cons (fun f => some_of (t := "TAL".toList) rfl (by decide +kernel)) ?_
  refine noPrefix_cons (fun f => some_of (t := "AL".toList) rfl (by decide +kernel)) ?_
  refine noPrefix_cons (fun f => some_of (t := "L".toList) rfl (by decide +kernel)) ?_
  exact noPrefix_cons (fun f => some_of (t := []) rfl (by decide +kernel)) n1

theorem apart_escape (n : Str) (lit mid : Bool) (h : literalsApart lit mid n = true) :
    literalsApart lit mid (escapeColumnName n ++ "])".toList) = true := by
  induction n generalizing lit mid with
  | nil => cases lit <;> cases mid <;> decide
  | cons c r ih =>
    rw [escapeColumnName_cons, List.append_assoc]
    by_cases hs : c = '[' ∨ c = ']' ∨ c = '#' ∨ c = '\''
    · unfold escName
      rw [if_pos hs]
      have hc : c ≠ '"' ∧ nameLike c = false := by rcases hs with rfl | rfl | rfl | rfl <;> decide
      rw [literalsApart, if_neg hc.1] at h
      show literalsApart lit mid ('\'' :: c :: (escapeColumnName r ++ "])".toList)) = true
      rw [literalsApart, if_neg (by decide), literalsApart, if_neg hc.1, literalsApart, if_neg hc.1]
      cases lit with
      | true => exact ih _ _ h
      | false =>
        rw [if_neg (by simp)] at h ⊢
        rw [if_neg (by simp)]
        exact ih _ _ h
    · unfold escName
      rw [if_neg hs]
      show literalsApart lit mid (c :: (escapeColumnName r ++ "])".toList)) = true
      rw [literalsApart] at h ⊢
      by_cases hq : c = '"'
      · rw [if_pos hq, Bool.and_eq_true] at h ⊢
        exact ⟨h.1, ih _ _ h.2⟩
      · rw [if_neg hq] at h ⊢
        cases lit with
        | true => exact ih _ _ h
        | false =>
          rw [if_neg (by simp)] at h ⊢
          exact ih _ _ h

theorem dynamic_prefixed : ∀ d ∈ documentedDynamic, storedPrefix d.toList ≠ [] := by decide +kernel

theorem called_dynamic {s : Str} (h : NoPrefix s) : ((calledHere s).any fun n => String.ofList n ∈ documentedDynamic) = false := by
  cases hc : calledHere s with
  | none => rfl
  | some f =>
    rw [Option.any_some, decide_eq_false_iff_not]
    intro hm
    refine dynamic_prefixed _ hm ?_
    have := h s (List.suffix_refl _) f hc
    simpa using this

theorem noPrefix_tail {c : Char} {s : Str} (h : NoPrefix (c :: s)) : NoPrefix s := fun t ht => h t (ht.trans (List.suffix_cons _ _))

theorem callsDynamic_none {s : Str} (h : NoPrefix s) (lit mid : Bool) : callsDynamic lit mid s = false := by
  induction s generalizing lit mid with
  | nil => rfl
  | cons c r ih =>
    have hr := noPrefix_tail h
    rw [callsDynamic]
    split
    · exact ih hr _ _
    · split
      · exact ih hr _ _
      · rw [called_dynamic h, ih hr, Bool.and_false]; rfl

theorem callsDynamicPrefixed_none {s : Str} (h : NoPrefix s) (lit mid : Bool) : callsDynamicPrefixed lit mid s = false := by
  induction s generalizing lit mid with
  | nil => rfl
  | cons c r ih =>
    have hr := noPrefix_tail h
    rw [callsDynamicPrefixed]
    split
    · exact ih hr _ _
    · split
      · exact ih hr _ _
      · rw [called_dynamic h, ih hr, Bool.and_false]; rfl

/-- A formula in which nothing gets a prefix is stored as it is. -/
theorem formulaNew_plain {f : Str} (hb : f.head? ≠ some '{' ∧ f.getLast? ≠ some '}') (he : body f = f)
    (hl : literalsApart false false f = true) (hn : NoPrefix f) : formulaNew f = (f, false) := by
  have hb' : f.head? = some '{' ∨ f.getLast? = some '}' → ∃ b, f = "{=".toList ++ b ++ ['}'] := by
    rintro (h | h)
    · exact absurd h hb.1
    · exact absurd h hb.2
  by_cases hx : "_xlfn.".toList <:+: body f
  · rw [C30_own_prefixes_partial f hb' (by rw [he]; exact hl) hx, he, callsDynamicPrefixed_none hn]
  · rw [(C30_prefixes_partial f hb' (by rw [he]; exact hl)).1 hx, he, callsDynamic_none hn, stored_plain _ _ _ hn]

/-- A formula made with `Formula::new`. -/
def ofNew (r : Str × Bool) : FormulaArg := { text := r.1, dynamic := r.2 }

/-- C52. The formula of a total function is `SUBTOTAL` with the number of that function and with the column of that
name, whatever characters the name has; it is not a dynamic formula. Missing: names that hold the call of a future
function, or a double quote behind a capital letter, a digit or a dot (findings F44, F148). -/
theorem C52_total_formula_partial (c : TableCol Fmt) (k : Nat) (hk : subtotalNumber c.totalFunction = some k) (hn : PlainName c.name) :
    readSubtotal c.totalFormula.text = some (k, c.name) ∧ c.totalFormula.dynamic = false ∧ c.totalFormula.result = [] := by
  have step : ∀ d1 d2 d3 : Char, isDigit d1 = true → isDigit d2 = true → isDigit d3 = true → d1 ≠ '0' →
      formulaNew ("SUBTOTAL(".toList ++ [d1, d2, d3] ++ ",[".toList ++ escapeColumnName c.name ++ "])".toList) =
        ("SUBTOTAL(".toList ++ (d1 :: d2 :: d3 :: ',' :: '[' :: (escapeColumnName c.name ++ "])".toList)), false) ∧
      readSubtotal ("SUBTOTAL(".toList ++ (d1 :: d2 :: d3 :: ',' :: '[' :: (escapeColumnName c.name ++ "])".toList))) =
        some (digitsValue [d1, d2, d3], c.name) := by
    intro d1 d2 d3 h1 h2 h3 h0
    have hname : ∀ {d : Char}, isDigit d = true → nameLike d = true ∧ d ≠ '"' := by
      intro d hd
      refine ⟨by unfold nameLike; unfold isDigit at hd; rw [hd]; simp, ?_⟩
      rintro rfl; revert hd; decide
    have hw : "SUBTOTAL(".toList ++ [d1, d2, d3] ++ ",[".toList ++ escapeColumnName c.name ++ "])".toList =
        "SUBTOTAL(".toList ++ (d1 :: d2 :: d3 :: ',' :: '[' :: (escapeColumnName c.name ++ "])".toList)) := by
      simp only [List.append_assoc]; rfl
    refine ⟨?_, ?_⟩
    · rw [hw]
      refine formulaNew_plain ⟨by simp, ?_⟩ rfl ?_ (noPrefix_head d1 d2 d3 (hname h1).1 (hname h2).1 (hname h3).1 (noPrefix_escape hn.1))
      · rw [← hw, List.getLast?_append, show "])".toList.getLast? = some ')' from rfl]
        simp
      · show literalsApart false false (d1 :: d2 :: d3 :: ',' :: '[' :: (escapeColumnName c.name ++ "])".toList)) = true
        rw [literalsApart, if_neg (hname h1).2, if_neg (by simp), literalsApart, if_neg (hname h2).2, if_neg (by simp), literalsApart,
          if_neg (hname h3).2, if_neg (by simp)]
        exact apart_escape _ _ _ hn.2
    · have hd : ("SUBTOTAL(".toList ++ (d1 :: d2 :: d3 :: ',' :: '[' :: (escapeColumnName c.name ++ "])".toList))).drop 9 =
          d1 :: d2 :: d3 :: ',' :: '[' :: (escapeColumnName c.name ++ "])".toList) := rfl
      unfold readSubtotal
      rw [if_pos (show "SUBTOTAL(".toList.isPrefixOf _ = true from rfl), hd, List.takeWhile_cons_of_pos h1, List.takeWhile_cons_of_pos h2, List.takeWhile_cons_of_pos h3,
        List.takeWhile_cons_of_neg (by decide), List.dropWhile_cons_of_pos h1, List.dropWhile_cons_of_pos h2,
        List.dropWhile_cons_of_pos h3, List.dropWhile_cons_of_neg (by decide)]
      have hr : readNat [d1, d2, d3] = some (digitsValue [d1, d2, d3]) := by
        unfold readNat
        rw [if_neg (by simp), if_neg (by simp [h1, h2, h3]), if_neg (by simp [h0])]
      rw [hr]
      show readTotalColumn _ (escapeColumnName c.name ++ ']' :: [')']) = _
      unfold readTotalColumn
      rw [readColumnRef_escape]
      rfl
  have fin : ∀ (d1 d2 d3 : Char) (j : Nat), isDigit d1 = true → isDigit d2 = true → isDigit d3 = true → d1 ≠ '0' →
      digitsValue [d1, d2, d3] = k → showNat j = [d1, d2, d3] →
      c.totalFormula = ofNew (formulaNew ("SUBTOTAL(".toList ++ showNat j ++ ",[".toList ++ escapeColumnName c.name ++ "])".toList)) →
      readSubtotal c.totalFormula.text = some (k, c.name) ∧ c.totalFormula.dynamic = false ∧ c.totalFormula.result = [] := by
    intro d1 d2 d3 j h1 h2 h3 h0 hv hj he
    obtain ⟨e1, e2⟩ := step d1 d2 d3 h1 h2 h3 h0
    rw [hj, e1] at he
    rw [he, ← hv]
    exact ⟨e2, rfl, rfl⟩
  have hf : ∀ fn, c.totalFunction = fn → fn.subtotal ≠ 0 → c.totalFormula =
      ofNew (formulaNew ("SUBTOTAL(".toList ++ showNat fn.subtotal ++ ",[".toList ++ escapeColumnName c.name ++ "])".toList)) := by
    intro fn e h0
    unfold TableCol.totalFormula
    rw [e]
    cases fn <;> first | rfl | exact absurd rfl h0
  cases ht : c.totalFunction with
  | none => rw [ht] at hk; cases hk
  | custom f => rw [ht] at hk; cases hk
  | max => rw [ht] at hk; cases hk; exact fin '1' '0' '4' (TotalFn.subtotal .max) rfl rfl rfl (by decide) rfl (by decide +kernel) (hf _ ht (by decide))
  | min => rw [ht] at hk; cases hk; exact fin '1' '0' '5' (TotalFn.subtotal .min) rfl rfl rfl (by decide) rfl (by decide +kernel) (hf _ ht (by decide))
  | sum => rw [ht] at hk; cases hk; exact fin '1' '0' '9' (TotalFn.subtotal .sum) rfl rfl rfl (by decide) rfl (by decide +kernel) (hf _ ht (by decide))
  | var => rw [ht] at hk; cases hk; exact fin '1' '1' '0' (TotalFn.subtotal .var) rfl rfl rfl (by decide) rfl (by decide +kernel) (hf _ ht (by decide))
  | count => rw [ht] at hk; cases hk; exact fin '1' '0' '3' (TotalFn.subtotal .count) rfl rfl rfl (by decide) rfl (by decide +kernel) (hf _ ht (by decide))
  | stdDev => rw [ht] at hk; cases hk; exact fin '1' '0' '7' (TotalFn.subtotal .stdDev) rfl rfl rfl (by decide) rfl (by decide +kernel) (hf _ ht (by decide))
  | average => rw [ht] at hk; cases hk; exact fin '1' '0' '1' (TotalFn.subtotal .average) rfl rfl rfl (by decide) rfl (by decide +kernel) (hf _ ht (by decide))
  | countNumbers => rw [ht] at hk; cases hk; exact fin '1' '0' '2' (TotalFn.subtotal .countNumbers) rfl rfl rfl (by decide) rfl (by decide +kernel) (hf _ ht (by decide))

/-- Names without brackets and double quotes are plain. -/
theorem plainName_of {n : Str} (h1 : '(' ∉ n) (h2 : '"' ∉ n) : PlainName n := by
  refine ⟨?_, ?_⟩
  · intro t ht f hf
    unfold calledHere at hf
    split at hf
    · rename_i e
      have hm : '(' ∈ t.dropWhile nameLike := List.mem_of_mem_head? e
      exact absurd (ht.subset ((List.dropWhile_sublist _).subset hm)) h1
    · cases hf
  · have : ∀ (lit mid : Bool), literalsApart lit mid n = true := by
      intro lit mid
      induction n generalizing lit mid with
      | nil => rfl
      | cons c r ih =>
        simp only [List.mem_cons, not_or] at h1 h2
        rw [literalsApart, if_neg (Ne.symm h2.1)]
        split
        · exact ih h1.2 h2.2 _ _
        · exact ih h1.2 h2.2 _ _
    exact this _ _

/-- C52. In a table that was added, with a total row, to a worksheet with any history: the saved cell of the total row
below a column with a total function (and no label) holds a formula, no array formula, that is `SUBTOTAL` with the
number of the function and with the column of the name that the column has in the table. Missing: the names of
`C52_total_formula_partial`. -/
theorem C52_total_cells_partial [DecidableEq Fmt] (lower : Str → Str) (cfg : Cfg) (hstd : cfg.isStandard) (merge : Fmt → Fmt → Fmt) (dflt : Fmt)
    (ops : List (TOp Fmt)) (s u : TSheet Fmt) (h : (TSheet.new cfg merge dflt).run lower ops = some s)
    (d : Dims) (t : Table Fmt) (ha : s.addTable lower d t = .ok u) (htot : t.showTotalRow = true)
    (i : Nat) (hi : i ≤ d.lastCol - d.firstCol) (c : TableCol Fmt) (hc : (t.columns[i]?).getD {} = c) (hl : c.totalLabel = [])
    (k : Nat) (hk : subtotalNumber c.totalFunction = some k) (hn : PlainName (wantedName s d t i)) :
    ∃ t' c', u.tables = s.tables ++ [(t', d)] ∧ t'.columns[i]? = some c' ∧ c'.name = wantedName s d t i ∧
      c'.totalFunction = c.totalFunction ∧
      ∀ sst : SST, ∃ text result, readContent (u.sheet.saveRows sst) d.lastRow (d.firstCol + i) = .formula text result ∧
        readSubtotal text = some (k, wantedName s d t i) := by
  have hrow : t.showHeaderRow = true → d.firstRow < d.lastRow := by
    rcases addTable_cases lower s d t with ⟨e, sh, _, hm⟩ | ⟨hm, _⟩ | ⟨hok, t', sh, hi, hm⟩
    · rw [hm] at ha; cases ha
    · rw [hm] at ha; cases ha
    · exact hok.2
  obtain ⟨cs, h1, h2, h3, h4, _⟩ := C36_columns lower s u d t ha
  obtain ⟨t', g1, g2⟩ := C36_cells lower cfg hstd merge dflt ops s u h d t ha
  have e : t' = { t with columns := cs } := by
    rw [h1] at g1
    have := List.append_cancel_left g1
    injection this with this _
    injection this with this _
    exact this.symm
  subst e
  have hci := h4 i (by omega)
  rw [hc] at hci
  refine ⟨_, _, h1, hci, rfl, rfl, fun sst => ?_⟩
  rw [g2]
  obtain ⟨q1, q2, q3⟩ := C52_total_formula_partial { c with name := wantedName s d t i } k hk hn
  have hnf : c.totalFunction ≠ .none := by intro e; rw [e] at hk; cases hk
  unfold tableShows
  rw [if_neg (by omega), show d.firstCol + i - d.firstCol = i by omega]
  dsimp only
  rw [hci]
  dsimp only
  rw [if_neg (fun hh => by have := hrow hh.1; omega), if_pos ⟨htot, rfl⟩, if_neg (by simp [hl]), if_pos hnf]
  unfold formulaContent
  rw [q2, if_neg (by simp)]
  exact ⟨_, _, rfl, q1⟩

/-- A name with all the characters that need an escape, and with a bracket and a double quote that do no harm. -/
def demoTotalName : Str := "It's #1 [net] f(x) \"q\"".toList

example : literalsApart false false demoTotalName = true ∧ subtotalNumber .stdDev = some 107 ∧
    ({ name := demoTotalName, totalFunction := .stdDev } : TableCol Nat).totalFormula.text =
      "SUBTOTAL(107,[It''s '#1 '[net'] f(x) \"q\"])".toList ∧
    readSubtotal "SUBTOTAL(107,[It''s '#1 '[net'] f(x) \"q\"])".toList = some (107, demoTotalName) := by
  decide +kernel

example : PlainName "It's #1 [net]".toList := plainName_of (by decide) (by decide)

/-- A table with a total row, whose second column sums up. -/
def demoTotalTable : Table Nat :=
  { showTotalRow := true, columns := [{ name := "A".toList, totalLabel := "Total".toList },
      { name := "It's #1 [net]".toList, totalFunction := .sum }] }

example : ((TSheet.new {} (fun a _ => a) 0 : TSheet Nat).run id [.table ⟨1, 1, 5, 2⟩ demoTotalTable]).map
    (fun s => readContent (s.sheet.saveRows SST.new) 5 2) =
      some (.formula "SUBTOTAL(109,[It''s '#1 '[net']])".toList "0".toList) := by
  decide +kernel

/-- F44. The name of a column is treated as part of a formula: a name with the call of a future function gets a prefix,
so that the formula refers to no column of the table. -/
theorem C52_prefix_in_name :
    ({ name := "DAYS(net)".toList, totalFunction := .sum } : TableCol Nat).totalFormula.text =
      "SUBTOTAL(109,[_xlfn.DAYS(net)])".toList ∧
    readSubtotal "SUBTOTAL(109,[_xlfn.DAYS(net)])".toList = some (109, "_xlfn.DAYS(net)".toList) := by
  decide +kernel

/-- F148. A double quote behind a digit, as in a size in inches, makes text of the formula appear twice: it is no
formula any more. -/
theorem C52_quote_in_name :
    ({ name := "Pipe 5\"".toList, totalFunction := .sum } : TableCol Nat).totalFormula.text =
      "SUBTOTAL(109,[Pipe \"])5\"])".toList ∧
    readSubtotal "SUBTOTAL(109,[Pipe \"])5\"])".toList = none := by
  decide +kernel

end Verif
