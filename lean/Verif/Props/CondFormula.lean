import Verif.Spec.CondFormula
import Verif.Props.CondRule
import Verif.Props.Ref
/-! The formulas of conditional formats say what the rules mean (C56). -/
namespace Verif
open Spec

/-! ### Tokens -/

theorem lex_word (w rest acc : List Char) (done : List FTok) (h : w.all wordChar = true) :
    lexFrom (.word acc) done (w ++ rest) = lexFrom (.word (acc ++ w)) done rest := by
  induction w generalizing acc with
  | nil => simp
  | cons c w ih =>
    simp only [List.all_cons, Bool.and_eq_true] at h
    have h1 : lexStep (.word acc) c = some ([], .word (acc ++ [c])) := by
      show (if wordChar c then _ else _) = _
      rw [if_pos h.1]
    rw [List.cons_append, lexFrom, h1]
    dsimp only
    rw [List.append_nil, ih _ h.2]
    simp

theorem lex_word_start (w rest : List Char) (done : List FTok) (h : w.all wordChar = true) (h0 : w ≠ []) :
    lexFrom .start done (w ++ rest) = lexFrom (.word w) done rest := by
  cases w with
  | nil => exact absurd rfl h0
  | cons c w =>
    simp only [List.all_cons, Bool.and_eq_true] at h
    have h1 : lexStep .start c = some ([], .word [c]) := by
      show lexStart c = _
      unfold lexStart
      rw [if_pos h.1]
    rw [List.cons_append, lexFrom, h1]
    dsimp only
    rw [List.append_nil, lex_word _ _ _ _ h.2]
    simp

theorem lex_str (t rest acc : List Char) (done : List FTok) (h : ∀ c ∈ t, c ≠ '"') :
    lexFrom (.str acc) done (t ++ rest) = lexFrom (.str (acc ++ t)) done rest := by
  induction t generalizing acc with
  | nil => simp
  | cons c t ih =>
    have h1 : lexStep (.str acc) c = some ([], .str (acc ++ [c])) := by
      show (if c = '"' then _ else _) = _
      rw [if_neg (h c (by simp))]
    rw [List.cons_append, lexFrom, h1]
    dsimp only
    rw [List.append_nil, ih _ (fun d hd => h d (by simp [hd]))]
    simp

theorem lex_escaped (t rest acc : List Char) (done : List FTok) :
    lexFrom (.str acc) done (t.flatMap (fun c => if c = '"' then ['"', '"'] else [c]) ++ rest) =
      lexFrom (.str (acc ++ t)) done rest := by
  induction t generalizing acc with
  | nil => simp
  | cons c t ih =>
    by_cases hc : c = '"'
    · subst hc
      have := ih (acc ++ ['"'])
      simp only [List.append_assoc, List.singleton_append] at this
      rw [← this]
      simp only [List.flatMap_cons, if_pos, List.cons_append, List.nil_append]
      simp [lexFrom, lexStep]
    · have h1 : lexStep (.str acc) c = some ([], .str (acc ++ [c])) := by
        show (if c = '"' then _ else _) = _
        rw [if_neg hc]
      rw [List.flatMap_cons, if_neg hc, List.append_assoc, List.singleton_append, lexFrom, h1]
      dsimp only
      rw [List.append_nil, ih]
      simp

/-! ### References -/

theorem readA1_word {a : List Char} {p : Nat × Nat} (h : readA1 a = some p) : a.all wordChar = true ∧ a ≠ [] := by
  obtain ⟨r, c⟩ := p
  unfold readA1 at h
  cases hc : readCol (a.takeWhile isLetter) with
  | none => rw [hc] at h; simp at h
  | some c' =>
    cases hr : readRow (a.dropWhile isLetter) with
    | none => rw [hc, hr] at h; simp at h
    | some r' =>
      constructor
      · rw [← List.takeWhile_append_dropWhile (p := isLetter) (l := a), List.all_append, Bool.and_eq_true]
        constructor
        · rw [List.all_eq_true]
          intro x hx
          have := List.all_takeWhile (p := isLetter) (l := a)
          rw [List.all_eq_true] at this
          have := this x hx
          unfold isLetter at this
          unfold wordChar
          simp only [Bool.and_eq_true] at this
          simp [this]
        · unfold readRow at hr
          cases hn : readNat (a.dropWhile isLetter) with
          | none => rw [hn] at hr; simp at hr
          | some n =>
            unfold readNat at hn
            split at hn
            · simp at hn
            · split at hn
              · simp at hn
              · rename_i h1
                simp only [Bool.not_eq_true', Bool.not_eq_false] at h1
                rw [List.all_eq_true] at h1 ⊢
                intro x hx
                have := h1 x hx
                unfold isDigit at this
                unfold wordChar
                simp only [Bool.and_eq_true] at this
                simp [this]
      · rintro rfl
        simp [readCol] at hc

theorem readA1_notNat {a : List Char} {p : Nat × Nat} (h : readA1 a = some p) : readNat a = none := by
  obtain ⟨r, c⟩ := p
  unfold readA1 at h
  cases a with
  | nil => rfl
  | cons x a =>
    by_cases hx : isLetter x = true
    · unfold readNat
      rw [if_neg (by simp), if_pos]
      simp only [List.all_cons, Bool.not_eq_true', Bool.and_eq_false_iff]
      left
      unfold isLetter at hx
      unfold isDigit
      simp only [Bool.and_eq_true, decide_eq_true_eq] at hx
      simp only [Bool.and_eq_false_iff, decide_eq_false_iff_not]
      right
      intro h9
      have := hx.1
      rw [Char.le_def] at this h9
      have h65 : 'A'.val = 65 := rfl
      have h57 : '9'.val = 57 := rfl
      rw [h65] at this
      rw [h57] at h9
      exact absurd (UInt32.le_trans this h9) (by decide)
    · rw [List.takeWhile_cons, if_neg hx] at h
      simp [readCol] at h

theorem wordVal_cell (e : FEnv) {a : List Char} {p : Nat × Nat} (h : readA1 a = some p) :
    wordVal e a = e.cell p.1 p.2 := by
  have h1 : a ≠ "TRUE".toList := by
    rintro rfl
    have : readA1 "TRUE".toList = none := by decide +kernel
    rw [this] at h
    exact absurd h (by simp)
  have h2 : a ≠ "FALSE".toList := by
    rintro rfl
    have : readA1 "FALSE".toList = none := by decide +kernel
    rw [this] at h
    exact absurd h (by simp)
  unfold wordVal
  rw [if_neg h1, if_neg h2, readA1_notNat h]
  dsimp only
  rw [h]

theorem wordVal_nat (e : FEnv) {w : List Char} {n : Nat} (h : readNat w = some n) : wordVal e w = .num n := by
  have h1 : w ≠ "TRUE".toList := by
    rintro rfl
    have : readNat "TRUE".toList = none := by decide +kernel
    rw [this] at h
    exact absurd h (by simp)
  have h2 : w ≠ "FALSE".toList := by
    rintro rfl
    have : readNat "FALSE".toList = none := by decide +kernel
    rw [this] at h
    exact absurd h (by simp)
  unfold wordVal
  rw [if_neg h1, if_neg h2, h]

theorem showNat_word (n : Nat) : (showNat n).all wordChar = true := by
  rw [List.all_eq_true]
  intro c hc
  have := showNat_isDigit hc
  unfold isDigit at this
  unfold wordChar
  simp only [Bool.and_eq_true] at this
  simp [this]

/-! ### The formulas computed -/

theorem eval_contains (e : FEnv) (a t : List Char) (ha : a.all wordChar = true) (h0 : a ≠ []) (ht : ∀ c ∈ t, c ≠ '"') :
    evalFormula e (CondText.formula a (.contains t)) =
      some (callFn e "NOT".toList [callFn e "ISERROR".toList [callFn e "SEARCH".toList [.text t, wordVal e a]]]) := by
  have : lexFrom .start [] (CondText.formula a (.contains t)) =
      some [.word "NOT".toList, .op '(', .word "ISERROR".toList, .op '(', .word "SEARCH".toList, .op '(', .str t, .op ',',
        .word a, .op ')', .op ')', .op ')'] := by
    unfold CondText.formula
    simp only [List.append_assoc]
    show lexFrom (.str []) [.word "NOT".toList, .op '(', .word "ISERROR".toList, .op '(', .word "SEARCH".toList, .op '('] (t ++ _) = _
    rw [lex_str _ _ _ _ ht, List.nil_append]
    show lexFrom .start [.word "NOT".toList, .op '(', .word "ISERROR".toList, .op '(', .word "SEARCH".toList, .op '(', .str t, .op ','] (a ++ _) = _
    rw [lex_word_start _ _ _ ha h0]
    rfl
  unfold evalFormula
  rw [this]
  rfl

theorem eval_doesNotContain (e : FEnv) (a t : List Char) (ha : a.all wordChar = true) (h0 : a ≠ []) (ht : ∀ c ∈ t, c ≠ '"') :
    evalFormula e (CondText.formula a (.doesNotContain t)) =
      some (callFn e "ISERROR".toList [callFn e "SEARCH".toList [.text t, wordVal e a]]) := by
  have : lexFrom .start [] (CondText.formula a (.doesNotContain t)) =
      some [.word "ISERROR".toList, .op '(', .word "SEARCH".toList, .op '(', .str t, .op ',',
        .word a, .op ')', .op ')'] := by
    unfold CondText.formula
    simp only [List.append_assoc]
    show lexFrom (.str []) [.word "ISERROR".toList, .op '(', .word "SEARCH".toList, .op '('] (t ++ _) = _
    rw [lex_str _ _ _ _ ht, List.nil_append]
    show lexFrom .start [.word "ISERROR".toList, .op '(', .word "SEARCH".toList, .op '(', .str t, .op ','] (a ++ _) = _
    rw [lex_word_start _ _ _ ha h0]
    rfl
  unfold evalFormula
  rw [this]
  rfl

theorem eval_beginsWith (e : FEnv) (a t : List Char) (ha : a.all wordChar = true) (h0 : a ≠ []) (ht : ∀ c ∈ t, c ≠ '"') :
    evalFormula e (CondText.formula a (.beginsWith t)) =
      some (compareVal e .eq (callFn e "LEFT".toList [wordVal e a, wordVal e (showNat (byteLen t))]) (.text t)) := by
  have : lexFrom .start [] (CondText.formula a (.beginsWith t)) =
      some [.word "LEFT".toList, .op '(', .word a, .op ',', .word (showNat (byteLen t)), .op ')', .op '=', .str t] := by
    unfold CondText.formula
    simp only [List.append_assoc]
    show lexFrom .start [.word "LEFT".toList, .op '('] (a ++ _) = _
    rw [lex_word_start _ _ _ ha h0]
    show lexFrom .start [.word "LEFT".toList, .op '(', .word a, .op ','] (showNat (byteLen t) ++ _) = _
    rw [lex_word_start _ _ _ (showNat_word _) (showNat_ne_nil _)]
    show lexFrom (.str []) [.word "LEFT".toList, .op '(', .word a, .op ',', .word (showNat (byteLen t)), .op ')', .op '='] (t ++ _) = _
    rw [lex_str _ _ _ _ ht]
    rfl
  unfold evalFormula
  rw [this]
  rfl

theorem eval_endsWith (e : FEnv) (a t : List Char) (ha : a.all wordChar = true) (h0 : a ≠ []) (ht : ∀ c ∈ t, c ≠ '"') :
    evalFormula e (CondText.formula a (.endsWith t)) =
      some (compareVal e .eq (callFn e "RIGHT".toList [wordVal e a, wordVal e (showNat (byteLen t))]) (.text t)) := by
  have : lexFrom .start [] (CondText.formula a (.endsWith t)) =
      some [.word "RIGHT".toList, .op '(', .word a, .op ',', .word (showNat (byteLen t)), .op ')', .op '=', .str t] := by
    unfold CondText.formula
    simp only [List.append_assoc]
    show lexFrom .start [.word "RIGHT".toList, .op '('] (a ++ _) = _
    rw [lex_word_start _ _ _ ha h0]
    show lexFrom .start [.word "RIGHT".toList, .op '(', .word a, .op ','] (showNat (byteLen t) ++ _) = _
    rw [lex_word_start _ _ _ (showNat_word _) (showNat_ne_nil _)]
    show lexFrom (.str []) [.word "RIGHT".toList, .op '(', .word a, .op ',', .word (showNat (byteLen t)), .op ')', .op '='] (t ++ _) = _
    rw [lex_str _ _ _ _ ht]
    rfl
  unfold evalFormula
  rw [this]
  rfl

theorem eval_blank (e : FEnv) (a : List Char) (ha : a.all wordChar = true) (h0 : a ≠ []) (inv : Bool) :
    evalFormula e (blankFormula inv a) =
      some (compareVal e (if inv then .gt else .eq) (callFn e "LEN".toList [callFn e "TRIM".toList [wordVal e a]])
        (wordVal e "0".toList)) := by
  have : lexFrom .start [] (blankFormula inv a) =
      some [.word "LEN".toList, .op '(', .word "TRIM".toList, .op '(', .word a, .op ')', .op ')', .op (if inv then '>' else '='),
        .word "0".toList] := by
    unfold blankFormula
    cases inv
    · rw [if_neg (by simp), List.append_assoc]
      show lexFrom .start [.word "LEN".toList, .op '(', .word "TRIM".toList, .op '('] (a ++ _) = _
      rw [lex_word_start _ _ _ ha h0]
      rfl
    · rw [if_pos rfl, List.append_assoc]
      show lexFrom .start [.word "LEN".toList, .op '(', .word "TRIM".toList, .op '('] (a ++ _) = _
      rw [lex_word_start _ _ _ ha h0]
      rfl
  unfold evalFormula
  rw [this]
  cases inv <;> rfl

theorem eval_error (e : FEnv) (a : List Char) (ha : a.all wordChar = true) (h0 : a ≠ []) (inv : Bool) :
    evalFormula e (errorFormula inv a) =
      some (if inv then callFn e "NOT".toList [callFn e "ISERROR".toList [wordVal e a]]
        else callFn e "ISERROR".toList [wordVal e a]) := by
  unfold errorFormula
  cases inv
  · rw [if_neg (by simp), if_neg (by simp), List.append_assoc]
    have : lexFrom .start [] ("ISERROR(".toList ++ (a ++ ")".toList)) =
        some [.word "ISERROR".toList, .op '(', .word a, .op ')'] := by
      show lexFrom .start [.word "ISERROR".toList, .op '('] (a ++ _) = _
      rw [lex_word_start _ _ _ ha h0]
      rfl
    unfold evalFormula
    rw [this]
    rfl
  · rw [if_pos rfl, if_pos rfl, List.append_assoc]
    have : lexFrom .start [] ("NOT(ISERROR(".toList ++ (a ++ "))".toList)) =
        some [.word "NOT".toList, .op '(', .word "ISERROR".toList, .op '(', .word a, .op ')', .op ')'] := by
      show lexFrom .start [.word "NOT".toList, .op '(', .word "ISERROR".toList, .op '('] (a ++ _) = _
      rw [lex_word_start _ _ _ ha h0]
      rfl
    unfold evalFormula
    rw [this]
    rfl

end Verif
