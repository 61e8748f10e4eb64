import Verif.Props.CondDates
/-! The rules on texts, dates, blanks and errors apply to the cells they are meant for (C56). -/
namespace Verif
open Spec

/-! ### The functions -/

theorem call_not (e : FEnv) (b : Bool) : callFn e "NOT".toList [.bool b] = .bool (!b) := rfl
theorem call_isError (e : FEnv) (v : FVal) : callFn e "ISERROR".toList [v] = .bool (v == .err) := rfl
theorem call_and (e : FEnv) (a b : Bool) : callFn e "AND".toList [.bool a, .bool b] = .bool (a && b) := by
  show FVal.bool (a && (b && true)) = _
  rw [Bool.and_true]
theorem call_or (e : FEnv) (a b : Bool) : callFn e "OR".toList [.bool a, .bool b] = .bool (a || b) := by
  show FVal.bool (a || (b || false)) = _
  rw [Bool.or_false]
theorem call_today (e : FEnv) : callFn e "TODAY".toList [] = .num e.today := rfl
theorem call_floor (e : FEnv) (x : Rat) : callFn e "FLOOR".toList [.num x, .num 1] = .num x.floor := rfl
theorem call_roundDown (e : FEnv) (x : Rat) (h : 0 ≤ x) :
    callFn e "ROUNDDOWN".toList [.num x, .num 0] = .num x.floor := by
  show FVal.num (truncRat x) = _
  unfold truncRat
  rw [if_pos h]
theorem call_weekday (e : FEnv) (n : Int) (h : 0 ≤ n) :
    callFn e "WEEKDAY".toList [.num n] = .num (serialWeekday n) := by
  show (if (n : Rat) < 0 then FVal.err else FVal.num (serialWeekday (n : Rat).floor)) = _
  rw [if_neg, Rat.floor_intCast]
  rw [Rat.not_lt]
  exact Rat.intCast_nonneg.2 h
theorem call_month (e : FEnv) (x : Rat) (h : 0 ≤ x) :
    callFn e "MONTH".toList [.num x] = .num ((serialYM x.floor).2 : Nat) := by
  show (if x < 0 then FVal.err else FVal.num ((serialYM x.floor).2 : Nat)) = _
  rw [if_neg (Rat.not_lt.2 h)]
theorem call_year (e : FEnv) (x : Rat) (h : 0 ≤ x) :
    callFn e "YEAR".toList [.num x] = .num ((serialYM x.floor).1 : Nat) := by
  show (if x < 0 then FVal.err else FVal.num ((serialYM x.floor).1 : Nat)) = _
  rw [if_neg (Rat.not_lt.2 h)]

theorem call_search (e : FEnv) (t s : List Char) (v : FVal) (h : v.toText e = some s) :
    callFn e "SEARCH".toList [.text t, v] =
      match findPattern e.lower (pattern t) s with
      | some k => .num (k + 1 : Nat)
      | none => .err := by
  show (match FVal.toText e (.text t), v.toText e with
    | some f, some w =>
      (match findPattern e.lower (pattern f) w with
      | some k => FVal.num (k + 1 : Nat)
      | none => .err)
    | _, _ => .err) = _
  rw [h]
  rfl

theorem call_left (e : FEnv) (s : List Char) (n : Nat) (v : FVal) (h : v.toText e = some s) :
    callFn e "LEFT".toList [v, .num n] = .text (s.take n) := by
  show (match v.toText e, some (n : Rat) with
    | some t, some n => if n < 0 then FVal.err else .text (t.take n.floor.toNat)
    | _, _ => .err) = _
  rw [h]
  dsimp only
  rw [if_neg (Rat.not_lt.2 Rat.natCast_nonneg)]
  have : ((n : Rat)).floor = (n : Int) := Rat.floor_intCast n
  rw [this]
  rfl

theorem call_right (e : FEnv) (s : List Char) (n : Nat) (v : FVal) (h : v.toText e = some s) :
    callFn e "RIGHT".toList [v, .num n] = .text (s.drop (s.length - n)) := by
  show (match v.toText e, some (n : Rat) with
    | some t, some n => if n < 0 then FVal.err else .text (t.drop (t.length - n.floor.toNat))
    | _, _ => .err) = _
  rw [h]
  dsimp only
  rw [if_neg (Rat.not_lt.2 Rat.natCast_nonneg)]
  have : ((n : Rat)).floor = (n : Int) := Rat.floor_intCast n
  rw [this]
  rfl

/-! ### The cell that a rule looks at -/

theorem applies_eq (e : FEnv) (first : Nat × Nat) (f : List Char) (r c : Nat) (v : FVal)
    (h : evalFormula (e.seenAt first r c) f = some v) : applies e first f r c = v.holds := by
  unfold applies
  rw [h]

theorem seenAt_cell (e : FEnv) (first : Nat × Nat) (r c : Nat) : (e.seenAt first r c).cell first.1 first.2 = e.cell r c := by
  show e.cell (first.1 + r - first.1) (first.2 + c - first.2) = _
  rw [Nat.add_sub_cancel_left, Nat.add_sub_cancel_left]

theorem seenAt_word (e : FEnv) {a : List Char} {first : Nat × Nat} (h : readA1 a = some first) (r c : Nat) :
    wordVal (e.seenAt first r c) a = e.cell r c := by
  rw [wordVal_cell _ h, seenAt_cell]

theorem toText_seenAt (e : FEnv) (first : Nat × Nat) (r c : Nat) (v : FVal) :
    v.toText (e.seenAt first r c) = v.toText e := by cases v <;> rfl

/-! ### Searching -/

theorem pattern_plain (t : List Char) (h : ∀ c ∈ t, c ≠ '~' ∧ c ≠ '*' ∧ c ≠ '?') : pattern t = t.map .lit := by
  induction t with
  | nil => rfl
  | cons c t ih =>
    have hc := h c (by simp)
    have := ih (fun d hd => h d (by simp [hd]))
    rw [List.map_cons, ← this]
    conv => lhs; unfold pattern
    split <;> simp_all

theorem fitsAt_plain (lower : Char → Char) (t s : List Char) :
    fitsAt lower (t.map .lit) s = true ↔ t.map lower <+: s.map lower := by
  induction t generalizing s with
  | nil => simp [fitsAt]
  | cons c t ih =>
    cases s with
    | nil => simp [fitsAt]
    | cons d s => simp [fitsAt, ih, List.cons_prefix_cons]

theorem findPattern_plain (lower : Char → Char) (t s : List Char) :
    (findPattern lower (t.map .lit) s).isSome = true ↔ t.map lower <:+: s.map lower := by
  unfold findPattern
  rw [List.find?_isSome]
  constructor
  · rintro ⟨k, hk, h⟩
    rw [fitsAt_plain] at h
    refine h.isInfix.trans ?_
    rw [List.map_drop]
    exact (List.drop_suffix k _).isInfix
  · rintro ⟨x, y, h⟩
    refine ⟨x.length, ?_, ?_⟩
    · rw [List.mem_range]
      have := congrArg List.length h
      simp only [List.length_append, List.length_map] at this
      omega
    · rw [fitsAt_plain, List.map_drop, ← h]
      simp [List.append_assoc]

/-! ### Texts -/

theorem byteLen_ascii (t : List Char) (h : ∀ c ∈ t, c.val < 128) : byteLen t = t.length := by
  unfold byteLen
  induction t with
  | nil => rfl
  | cons c t ih =>
    have h1 : c.utf8Size = 1 := by
      have := h c (by simp)
      unfold Char.utf8Size
      rw [if_pos]
      rw [UInt32.le_iff_toNat_le]
      rw [UInt32.lt_iff_toNat_lt] at this
      have h2 : (128 : UInt32).toNat = 128 := rfl
      have h3 : (0x7f : UInt32).toNat = 127 := rfl
      show c.val.toNat ≤ (0x7f : UInt32).toNat
      omega
    rw [List.map_cons, List.sum_cons, ih (fun d hd => h d (by simp [hd])), h1, List.length_cons]
    omega

theorem compare_text (e : FEnv) (s t : List Char) :
    compareVal e .eq (.text s) (.text t) = .bool (decide (s.map e.lower = t.map e.lower)) := rfl

/-- What the rules on texts say about cells that are not errors, for texts without quotes and wildcards; the texts of
`begins with` and `ends with` in ASCII. -/
theorem C56_text_partial (rule : CondText) (range f t : List Char) (op : TextOpSeen) (first : Nat × Nat) (e : FEnv) (r c : Nat)
    (s : List Char)
    (hseen : ruleMeant (.text (some rule)) range = some (.text op t f))
    (hfirst : readA1 (firstCell range) = some first)
    (hcell : (e.cell r c).toText e = some s)
    (hplain : ∀ x ∈ rule.text, x ≠ '"' ∧ x ≠ '~' ∧ x ≠ '*' ∧ x ≠ '?')
    (hascii : ∀ x ∈ rule.text, x.val < 128) :
    applies e first f r c = true ↔ textRuleMeans e.lower rule s := by
  simp only [ruleMeant, Option.map_some, Option.some.injEq, RuleSeen.text.injEq] at hseen
  obtain ⟨-, -, rfl⟩ := hseen
  obtain ⟨ha, h0⟩ := readA1_word hfirst
  have hcell' : (e.cell r c).toText (e.seenAt first r c) = some s := by rw [toText_seenAt, hcell]
  have hlow : (e.seenAt first r c).lower = e.lower := rfl
  cases rule with
  | contains t =>
    have hq : ∀ x ∈ t, x ≠ '"' := fun x hx => (hplain x hx).1
    rw [applies_eq _ _ _ _ _ _ (eval_contains _ _ t ha h0 hq), seenAt_word e hfirst, call_search _ _ _ _ hcell', hlow,
      pattern_plain t (fun x hx => (hplain x hx).2)]
    show _ ↔ t.map e.lower <:+: s.map e.lower
    rw [← findPattern_plain]
    cases findPattern e.lower (t.map .lit) s with
    | none => rw [call_isError, call_not]; simp [FVal.holds]
    | some k =>
      dsimp only
      rw [call_isError, call_not]
      simp [FVal.holds]
  | doesNotContain t =>
    have hq : ∀ x ∈ t, x ≠ '"' := fun x hx => (hplain x hx).1
    rw [applies_eq _ _ _ _ _ _ (eval_doesNotContain _ _ t ha h0 hq), seenAt_word e hfirst, call_search _ _ _ _ hcell', hlow,
      pattern_plain t (fun x hx => (hplain x hx).2)]
    show _ ↔ ¬ t.map e.lower <:+: s.map e.lower
    rw [← findPattern_plain]
    cases findPattern e.lower (t.map .lit) s with
    | none => rw [call_isError]; simp [FVal.holds]
    | some k =>
      dsimp only
      rw [call_isError]
      simp [FVal.holds]
  | beginsWith t =>
    have hq : ∀ x ∈ t, x ≠ '"' := fun x hx => (hplain x hx).1
    rw [applies_eq _ _ _ _ _ _ (eval_beginsWith _ _ t ha h0 hq), seenAt_word e hfirst,
      wordVal_nat _ (readNat_showNat _), call_left _ _ _ _ hcell', compare_text, hlow, byteLen_ascii t hascii]
    show decide _ = true ↔ t.map e.lower <+: s.map e.lower
    rw [decide_eq_true_iff, List.map_take, List.prefix_iff_eq_take, List.length_map, eq_comm]
  | endsWith t =>
    have hq : ∀ x ∈ t, x ≠ '"' := fun x hx => (hplain x hx).1
    rw [applies_eq _ _ _ _ _ _ (eval_endsWith _ _ t ha h0 hq), seenAt_word e hfirst,
      wordVal_nat _ (readNat_showNat _), call_right _ _ _ _ hcell', compare_text, hlow, byteLen_ascii t hascii]
    show decide _ = true ↔ t.map e.lower <:+ s.map e.lower
    rw [decide_eq_true_iff, List.map_drop, List.suffix_iff_eq_drop, List.length_map, List.length_map, eq_comm]

/-- Error values contain no text: only the rule on cells that do not contain a text applies. -/
theorem C56_text_of_errors (rule : CondText) (range f t : List Char) (op : TextOpSeen) (first : Nat × Nat) (e : FEnv) (r c : Nat)
    (hseen : ruleMeant (.text (some rule)) range = some (.text op t f))
    (hfirst : readA1 (firstCell range) = some first)
    (hcell : e.cell r c = .err) (hplain : ∀ x ∈ rule.text, x ≠ '"') :
    applies e first f r c = true ↔ ∃ t, rule = .doesNotContain t := by
  simp only [ruleMeant, Option.map_some, Option.some.injEq, RuleSeen.text.injEq] at hseen
  obtain ⟨-, -, rfl⟩ := hseen
  obtain ⟨ha, h0⟩ := readA1_word hfirst
  cases rule with
  | contains t =>
    rw [applies_eq _ _ _ _ _ _ (eval_contains _ _ t ha h0 hplain), seenAt_word e hfirst, hcell]
    simp only [reduceCtorEq, exists_false, iff_false]
    exact Bool.false_ne_true
  | doesNotContain t =>
    rw [applies_eq _ _ _ _ _ _ (eval_doesNotContain _ _ t ha h0 hplain), seenAt_word e hfirst, hcell]
    exact ⟨fun _ => ⟨t, rfl⟩, fun _ => rfl⟩
  | beginsWith t =>
    rw [applies_eq _ _ _ _ _ _ (eval_beginsWith _ _ t ha h0 hplain), seenAt_word e hfirst, hcell,
      wordVal_nat _ (readNat_showNat _)]
    simp only [reduceCtorEq, exists_false, iff_false]
    exact Bool.false_ne_true
  | endsWith t =>
    rw [applies_eq _ _ _ _ _ _ (eval_endsWith _ _ t ha h0 hplain), seenAt_word e hfirst, hcell,
      wordVal_nat _ (readNat_showNat _)]
    simp only [reduceCtorEq, exists_false, iff_false]
    exact Bool.false_ne_true

/-! ### Errors and blanks -/

/-- The rules on errors apply to errors, or to all other cells. -/
theorem C56_errors (inv : Bool) (range f : List Char) (b : Bool) (first : Nat × Nat) (e : FEnv) (r c : Nat)
    (hseen : ruleMeant (.error inv) range = some (.errors b f))
    (hfirst : readA1 (firstCell range) = some first) :
    applies e first f r c = true ↔ (if inv then e.cell r c ≠ .err else e.cell r c = .err) := by
  simp only [ruleMeant, Option.some.injEq, RuleSeen.errors.injEq] at hseen
  obtain ⟨-, rfl⟩ := hseen
  obtain ⟨ha, h0⟩ := readA1_word hfirst
  rw [applies_eq _ _ _ _ _ _ (eval_error _ _ ha h0 inv), seenAt_word e hfirst]
  cases inv
  · rw [if_neg (by simp), if_neg (by simp), call_isError]
    simp [FVal.holds]
  · rw [if_pos rfl, if_pos rfl, call_isError, call_not]
    simp [FVal.holds]

theorem trimRest_nil (gap : Bool) (s : List Char) : trimRest gap s = [] ↔ ∀ c ∈ s, c = ' ' := by
  induction s generalizing gap with
  | nil => simp [trimRest]
  | cons c s ih =>
    unfold trimRest
    split
    · rename_i h
      rw [ih]
      simp [h]
    · rename_i h
      split <;> simp [h]

theorem trimText_nil (s : List Char) : trimText s = [] ↔ ∀ c ∈ s, c = ' ' := by
  unfold trimText
  rw [trimRest_nil]
  induction s with
  | nil => simp
  | cons c s ih =>
    rw [List.dropWhile_cons]
    split
    · rename_i h
      rw [ih]
      simp at h
      simp [h]
    · rename_i h
      simp at h
      simp [h]

/-- The rules on blanks apply to cells that are blank, or to the cells that have other text or a value; neither applies to
errors. -/
theorem C56_blanks (inv : Bool) (range f : List Char) (b : Bool) (first : Nat × Nat) (e : FEnv) (r c : Nat)
    (hseen : ruleMeant (.blank inv) range = some (.blanks b f))
    (hfirst : readA1 (firstCell range) = some first) :
    applies e first f r c = true ↔
      (if inv then e.cell r c ≠ .err ∧ ¬ Blank e (e.cell r c) else Blank e (e.cell r c)) := by
  simp only [ruleMeant, Option.some.injEq, RuleSeen.blanks.injEq] at hseen
  obtain ⟨-, rfl⟩ := hseen
  obtain ⟨ha, h0⟩ := readA1_word hfirst
  rw [applies_eq _ _ _ _ _ _ (eval_blank _ _ ha h0 inv), seenAt_word e hfirst,
    wordVal_nat _ (show readNat "0".toList = some 0 by decide +kernel)]
  unfold Blank
  generalize hv : e.cell r c = v
  cases ht : v.toText e with
  | none =>
    have he : v = .err := by cases v <;> simp_all [FVal.toText]
    subst he
    have : callFn (e.seenAt first r c) "LEN".toList [callFn (e.seenAt first r c) "TRIM".toList [.err]] = .err := rfl
    rw [this]
    cases inv <;> simp [compareVal, sameVal, orderVal, FVal.holds, FVal.toNum]
  | some s =>
    have he : v ≠ .err := by rintro rfl; simp [FVal.toText] at ht
    have ht' : v.toText (e.seenAt first r c) = some s := by rw [toText_seenAt, ht]
    have h1 : callFn (e.seenAt first r c) "TRIM".toList [v] = .text (trimText s) := by
      show (match v.toText (e.seenAt first r c) with | some t => FVal.text (trimText t) | none => .err) = _
      rw [ht']
    have h2 : callFn (e.seenAt first r c) "LEN".toList [.text (trimText s)] = .num (trimText s).length := rfl
    rw [h1, h2]
    have h3 := trimText_nil s
    cases inv
    · rw [if_neg (by simp), if_neg (by simp)]
      show decide (((trimText s).length : Rat) = ((0 : Nat) : Rat)) = true ↔ _
      rw [decide_eq_true_iff, Rat.natCast_inj, List.length_eq_zero_iff, h3]
      constructor
      · exact fun h => ⟨s, rfl, h⟩
      · rintro ⟨s', hs, h⟩
        cases hs
        exact h
    · rw [if_pos rfl, if_pos rfl]
      show decide (((0 : Nat) : Rat) < ((trimText s).length : Rat)) = true ↔ _
      rw [decide_eq_true_iff, Rat.natCast_lt_natCast, Nat.pos_iff_ne_zero, ne_eq, List.length_eq_zero_iff, h3]
      constructor
      · refine fun h => ⟨he, ?_⟩
        rintro ⟨s', hs, h'⟩
        cases hs
        exact h h'
      · exact fun h h' => h.2 ⟨s, rfl, h'⟩

end Verif
