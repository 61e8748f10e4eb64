import Verif.Spec.Filter
import Verif.Lemmas.Sheet
/-!
C33: which cells a filter condition shows.
-/
set_option linter.unusedSectionVars false
namespace Verif
open Spec

/-! ### Text -/

theorem takeWhile_white (s : Str) : ∀ c ∈ s.takeWhile isWhite, isWhite c = true := by
  induction s with
  | nil => simp
  | cons a s ih =>
    intro c hc
    simp only [List.takeWhile_cons] at hc
    split at hc
    · rename_i ha
      rcases List.mem_cons.mp hc with rfl | h
      · exact ha
      · exact ih c h
    · simp at hc

theorem trim_spec (s : Str) : ∃ a b, s = a ++ trim s ++ b ∧ (∀ c ∈ a, isWhite c = true) ∧ (∀ c ∈ b, isWhite c = true) ∧
    (∀ c, (trim s).head? = some c → isWhite c = false) ∧ (∀ c, (trim s).getLast? = some c → isWhite c = false) := by
  have h1 := List.takeWhile_append_dropWhile (p := isWhite) (l := s)
  have h2 := List.takeWhile_append_dropWhile (p := isWhite) (l := (s.dropWhile isWhite).reverse)
  have h3 := congrArg List.reverse h2
  rw [List.reverse_append, List.reverse_reverse] at h3
  refine ⟨s.takeWhile isWhite, ((s.dropWhile isWhite).reverse.takeWhile isWhite).reverse, ?_, ?_, ?_, ?_, ?_⟩
  · unfold trim
    rw [List.append_assoc, h3, h1]
  · exact takeWhile_white _
  · intro c hc
    exact takeWhile_white _ c (List.mem_reverse.mp hc)
  · intro c hc
    have hd : ∀ (l : Str) c, (l.dropWhile isWhite).head? = some c → isWhite c = false := by
      intro l c h
      have := List.head?_dropWhile_not isWhite l
      rw [h] at this
      simpa using this
    cases hx : trim s with
    | nil => rw [hx] at hc; cases hc
    | cons x xs =>
      rw [hx] at hc
      cases hc
      apply hd s
      rw [← h3]
      show (trim s ++ _).head? = _
      rw [hx]; rfl
  · intro c hc
    unfold trim at hc
    rw [List.getLast?_reverse] at hc
    have := List.head?_dropWhile_not isWhite (s.dropWhile isWhite).reverse
    rw [hc] at this
    simpa using this

theorem isWhite_iff (c : Char) : isWhite c = true ↔ c.toNat ∈ whiteSpace := by
  unfold isWhite whiteSpace
  simp only [Bool.or_eq_true, Bool.and_eq_true, decide_eq_true_eq, List.mem_cons, List.not_mem_nil, or_false]
  omega

theorem stripStart_eq (s : Str) : s.dropWhile isWhite = stripStart s := by
  induction s with
  | nil => rfl
  | cons c s ih =>
    rw [List.dropWhile_cons, stripStart]
    by_cases h : c.toNat ∈ whiteSpace
    · rw [if_pos h, (isWhite_iff c).mpr h, if_pos rfl, ih]
    · rw [if_neg h, if_neg (mt (isWhite_iff c).mp h)]

theorem trim_eq (s : Str) : trim s = strip s := by
  unfold trim strip
  rw [stripStart_eq, stripStart_eq]

theorem textLt_iff (s t : Str) : textLt s t = true ↔ Before s t := by
  induction s generalizing t with
  | nil =>
    cases t with
    | nil => simp [textLt, Before]
    | cons b t =>
      simp only [textLt, true_iff]
      exact Or.inl ⟨b :: t, by simp, rfl⟩
  | cons a s ih =>
    cases t with
    | nil =>
      simp only [textLt, Bool.false_eq_true, false_iff]
      rintro (⟨u, _, h⟩ | ⟨p, x, y, s', t', _, h, _⟩)
      · simp at h
      · simp at h
    | cons b t =>
      simp only [textLt]
      by_cases e : a = b
      · subst e
        rw [if_pos rfl, ih]
        constructor
        · rintro (⟨u, hu, h⟩ | ⟨p, x, y, s', t', h1, h2, h3⟩)
          · exact Or.inl ⟨u, hu, by rw [h]; rfl⟩
          · exact Or.inr ⟨a :: p, x, y, s', t', by rw [h1]; rfl, by rw [h2]; rfl, h3⟩
        · rintro (⟨u, hu, h⟩ | ⟨p, x, y, s', t', h1, h2, h3⟩)
          · simp only [List.cons_append, List.cons.injEq, true_and] at h
            exact Or.inl ⟨u, hu, h⟩
          · cases p with
            | nil =>
              simp only [List.nil_append, List.cons.injEq] at h1 h2
              rw [← h1.1, ← h2.1] at h3
              omega
            | cons z p =>
              simp only [List.cons_append, List.cons.injEq] at h1 h2
              exact Or.inr ⟨p, x, y, s', t', h1.2, h2.2, h3⟩
      · rw [if_neg e]
        simp only [decide_eq_true_eq]
        constructor
        · intro h
          exact Or.inr ⟨[], a, b, s, t, rfl, rfl, h⟩
        · rintro (⟨u, hu, h⟩ | ⟨p, x, y, s', t', h1, h2, h3⟩)
          · simp only [List.cons_append, List.cons.injEq] at h
            exact absurd h.1.symm e
          · cases p with
            | nil =>
              simp only [List.nil_append, List.cons.injEq] at h1 h2
              rw [← h1.1, ← h2.1] at h3
              exact h3
            | cons z p =>
              simp only [List.cons_append, List.cons.injEq] at h1 h2
              exact absurd (h1.1.trans h2.1.symm) e

theorem textLt_total (s t : Str) : textLt s t = true ∨ s = t ∨ textLt t s = true := by
  induction s generalizing t with
  | nil => cases t <;> simp [textLt]
  | cons a s ih =>
    cases t with
    | nil => simp [textLt]
    | cons b t =>
      simp only [textLt]
      by_cases e : a = b
      · subst e
        simp only [if_true, List.cons.injEq, true_and]
        exact ih t
      · rw [if_neg e, if_neg (Ne.symm e)]
        have : a.toNat ≠ b.toNat := fun h => e (Char.ext (UInt32.toNat_inj.mp h))
        simp only [decide_eq_true_eq]
        omega

theorem textLt_irrefl (s : Str) : textLt s s = false := by
  induction s with
  | nil => rfl
  | cons a s ih => simp [textLt, ih]

theorem textLt_asymm (s t : Str) (h : textLt s t = true) : textLt t s = false := by
  induction s generalizing t with
  | nil => cases t <;> simp_all [textLt]
  | cons a s ih =>
    cases t with
    | nil => simp [textLt] at h
    | cons b t =>
      simp only [textLt] at h ⊢
      by_cases e : a = b
      · subst e
        rw [if_pos rfl] at h ⊢
        exact ih t h
      · rw [if_neg e] at h
        rw [if_neg (Ne.symm e)]
        simp only [decide_eq_true_eq] at h
        simp only [decide_eq_false_iff_not]
        omega

theorem not_textLt_iff (s t : Str) : (!textLt s t) = true ↔ Before t s ∨ t = s := by
  rw [Bool.not_eq_true']
  constructor
  · intro h
    rcases textLt_total s t with h' | h' | h'
    · rw [h] at h'; cases h'
    · exact Or.inr h'.symm
    · exact Or.inl ((textLt_iff t s).mp h')
  · rintro (h | h)
    · exact textLt_asymm t s ((textLt_iff t s).mpr h)
    · subst h; exact textLt_irrefl _

theorem begins_iff (p s : Str) : startsWith p s = true ↔ ∃ u, s = p ++ u := by
  unfold startsWith
  rw [List.isPrefixOf_iff_prefix]
  exact ⟨fun ⟨u, h⟩ => ⟨u, h.symm⟩, fun ⟨u, h⟩ => ⟨u, h.symm⟩⟩

theorem ends_iff (p s : Str) : endsWith p s = true ↔ ∃ u, s = u ++ p := by
  unfold endsWith
  rw [List.isSuffixOf_iff_suffix]
  exact ⟨fun ⟨u, h⟩ => ⟨u, h.symm⟩, fun ⟨u, h⟩ => ⟨u, h.symm⟩⟩

theorem containsText_iff (p s : Str) : containsStr p s = true ↔ ∃ u w, s = u ++ p ++ w := by
  induction s with
  | nil =>
    simp only [containsStr, List.isEmpty_iff]
    constructor
    · rintro rfl; exact ⟨[], [], rfl⟩
    · rintro ⟨u, w, h⟩
      simp at h
      exact h.2.1
  | cons c s ih =>
    simp only [containsStr, Bool.or_eq_true, ih, begins_iff]
    constructor
    · rintro (⟨w, h⟩ | ⟨u, w, h⟩)
      · exact ⟨[], w, h⟩
      · exact ⟨c :: u, w, by rw [h]; rfl⟩
    · rintro ⟨u, w, h⟩
      cases u with
      | nil => exact Or.inl ⟨w, h⟩
      | cons x u =>
        simp only [List.cons_append, List.cons.injEq] at h
        exact Or.inr ⟨u, w, h.2⟩

theorem value_text (v : FilterValue) (k : Crit) : (v.data k).string = valueText v := by
  cases v with
  | text s => rfl
  | number n => cases n <;> rfl

theorem matchesCustomText_iff (lower : Str → Str) (v : FilterValue) (k : Crit) (t : Str) :
    matchesCustomText lower (v.data k) t = true ↔ TextMeets k (norm lower t) (norm lower (valueText v)) := by
  have hk : (v.data k).criteria = k := by cases v <;> rfl
  unfold matchesCustomText
  rw [hk, value_text]
  unfold norm
  simp only [← trim_eq]
  generalize trim (lower t) = a
  generalize trim (lower (valueText v)) = b
  cases k with
  | lessThanOrEqualTo => exact not_textLt_iff b a
  | greaterThanOrEqualTo =>
    simp only [TextMeets]
    rw [eq_comm (a := a)]
    exact not_textLt_iff a b
  | _ => simp only [TextMeets, beq_iff_eq, bne_iff_ne, textLt_iff, begins_iff, ends_iff,
    containsText_iff, Bool.not_eq_true', ← Bool.not_eq_true, ne_eq]

theorem partialCmp_finite (cmp : Str → Str → Ordering) (n : Str) (x : F64) :
    partialCmp cmp (.finite n) x = numOrder cmp n x := by cases x <;> rfl

theorem matchesCustomNumber_iff (cmp : Str → Str → Ordering) (x : F64) (k : Crit) (n : Str) :
    matchesCustomNumber cmp ((FilterValue.number x).data k) n = true ↔ NumberMeets k (numOrder cmp n x) := by
  unfold matchesCustomNumber
  simp only [FilterValue.data, partialCmp_finite, if_true]
  generalize numOrder cmp n x = o
  cases k <;> simp [NumberMeets]

/-- The content of a cell that may be missing. -/
def contentOf (cell : Option Cell) : Content :=
  match cell with
  | some c => c.content
  | none => .blank

/-- The filter value suits the cell: a number is not compared with a text. -/
def suits (v : FilterValue) (ct : Content) : Prop := ∀ n s, ct = .number n → v ≠ .text s

theorem matchesCustom_iff (cmp : Str → Str → Ordering) (lower : Str → Str) (v : FilterValue) (k : Crit)
    (cell : Option Cell) (hi : ∀ t x, cell ≠ some (.inlineString t x)) (hs : suits v (contentOf cell)) :
    matchesCustom cmp lower (v.data k) cell = true ↔ Meets cmp lower k v (contentOf cell) := by
  have hk : (v.data k).criteria = k := by cases v <;> rfl
  have other : (decide ((v.data k).criteria = .notEqualTo) && (v.data k).string == " ".toList) = true ↔
      k = .notEqualTo ∧ valueText v = " ".toList := by
    rw [hk, value_text]
    simp only [Bool.and_eq_true, decide_eq_true_eq, beq_iff_eq]
  cases cell with
  | none => simp [matchesCustom, contentOf, Meets]
  | some c =>
    cases c with
    | string t x i => exact matchesCustomText_iff lower v k t
    | rich s t x i => exact matchesCustomText_iff lower v k t
    | number n x =>
      cases v with
      | text s => exact absurd rfl (hs n s rfl)
      | number y => exact matchesCustomNumber_iff cmp y k n
    | blank x => simp [matchesCustom, contentOf, Meets, Cell.content]
    | inlineString t x => exact absurd rfl (hi t x)
    | _ => exact other

/-! ### Conditions -/

theorem afterCustoms_append (n : Nat) (l m : List CondCall) : afterCustoms n (l ++ m) =
    if n ≤ (customs l).length then afterCustoms n l ++ m else afterCustoms (n - (customs l).length) m := by
  induction l generalizing n with
  | nil =>
    cases n with
    | zero => simp [customs, afterCustoms]
    | succ n => simp [customs]
  | cons a l ih =>
    cases n with
    | zero => simp [afterCustoms]
    | succ n =>
      cases a with
      | addCustom k v =>
        have e : (customs (.addCustom k v :: l)).length = (customs l).length + 1 := by simp [customs]
        simp only [List.cons_append, afterCustoms, ih, e, Nat.add_le_add_iff_right, Nat.reduceSubDiff]
      | _ =>
        simp only [List.cons_append, afterCustoms, ih]
        rfl

/-- What a chain of calls leaves in the fields. -/
structure BuildOk (calls : List CondCall) (b : Cond) : Prop where
  list : b.list = (listValues calls).map (·.data .equalTo)
  blanks : b.blanks = calls.contains .addBlanks
  custom1 : b.custom1 = (customs calls)[0]?.map fun p => p.2.data p.1
  custom2 : b.custom2 = (customs calls)[1]?.map fun p => p.2.data p.1
  or : b.logicalOr = (decide ((customs calls).length < 2) || (afterCustoms 2 calls).contains .customOr)
  isList : b.isList = match calls.getLast? with
    | some (.addCustom _ _) | some .customOr => false
    | _ => true

theorem build_ok (calls : List CondCall) : BuildOk calls (Cond.build calls) := by
  induction hn : calls.length generalizing calls with
  | zero =>
    have : calls = [] := List.length_eq_zero_iff.mp hn
    subst this
    exact ⟨rfl, rfl, rfl, rfl, rfl, rfl⟩
  | succ n ih =>
    obtain ⟨l, a, rfl⟩ : ∃ l a, calls = l ++ [a] := by
      rcases List.eq_nil_or_concat calls with h | ⟨l, a, h⟩
      · rw [h] at hn; cases hn
      · exact ⟨l, a, by simpa using h⟩
    have h := ih l (by simpa using hn)
    have e : Cond.build (l ++ [a]) = (Cond.build l).call a := by simp [Cond.build]
    rw [e]
    generalize Cond.build l = b at h
    obtain ⟨h1, h2, h3, h4, h5, h6⟩ := h
    cases a with
    | addList v =>
      have ec : customs (l ++ [.addList v]) = customs l := by simp [customs]
      refine ⟨?_, ?_, ?_, ?_, ?_, ?_⟩
      · simp [Cond.call, h1, listValues]
      · simp [Cond.call, h2]
      · rw [ec]; exact h3
      · rw [ec]; exact h4
      · rw [ec, afterCustoms_append]
        show b.logicalOr = _
        rw [h5]
        by_cases hl : (customs l).length < 2
        · simp [hl]
        · rw [if_pos (by omega)]; simp [hl]
      · simp [Cond.call]
    | addBlanks =>
      have ec : customs (l ++ [.addBlanks]) = customs l := by simp [customs]
      refine ⟨?_, ?_, ?_, ?_, ?_, ?_⟩
      · simp [Cond.call, h1, listValues]
      · simp [Cond.call]
      · rw [ec]; exact h3
      · rw [ec]; exact h4
      · rw [ec, afterCustoms_append]
        show b.logicalOr = _
        rw [h5]
        by_cases hl : (customs l).length < 2
        · simp [hl]
        · rw [if_pos (by omega)]; simp [hl]
      · simp [Cond.call]
    | customOr =>
      have ec : customs (l ++ [.customOr]) = customs l := by simp [customs]
      refine ⟨?_, ?_, ?_, ?_, ?_, ?_⟩
      · simp [Cond.call, h1, listValues]
      · simp [Cond.call, h2]
      · rw [ec]; exact h3
      · rw [ec]; exact h4
      · rw [ec, afterCustoms_append]
        show true = _
        by_cases hl : (customs l).length < 2
        · simp [hl]
        · rw [if_pos (by omega)]; simp
      · simp [Cond.call]
    | addCustom k v =>
      have ec : customs (l ++ [.addCustom k v]) = customs l ++ [(k, v)] := by simp [customs]
      have el : listValues (l ++ [.addCustom k v]) = listValues l := by simp [listValues]
      have eb : (l ++ [CondCall.addCustom k v]).contains .addBlanks = l.contains .addBlanks := by simp
      have eg : (l ++ [CondCall.addCustom k v]).getLast? = some (.addCustom k v) := by simp
      rcases Nat.lt_or_ge (customs l).length 1 with hl | hl
      · have hc : customs l = [] := List.length_eq_zero_iff.mp (by omega)
        rw [hc] at h3 h4 h5
        have e3 : b.custom1 = none := by rw [h3]; rfl
        refine ⟨?_, ?_, ?_, ?_, ?_, ?_⟩
        · simp [Cond.call, e3, el, h1]
        · simp only [Cond.call, e3, if_true, eb, h2]
        · simp [Cond.call, e3, ec, hc]
        · simp [Cond.call, e3, ec, hc, h4]
        · simp [Cond.call, e3, ec, hc, h5]
        · simp [Cond.call, eg]
      · obtain ⟨p, tl, hc⟩ : ∃ p tl, customs l = p :: tl := by
          cases hx : customs l with
          | nil => rw [hx] at hl; simp at hl
          | cons p tl => exact ⟨p, tl, rfl⟩
        have e3 : b.custom1 = some (p.2.data p.1) := by rw [h3, hc]; rfl
        cases tl with
        | nil =>
          have e4 : b.custom2 = none := by rw [h4, hc]; rfl
          refine ⟨?_, ?_, ?_, ?_, ?_, ?_⟩
          · simp [Cond.call, e3, e4, el, h1]
          · simp [Cond.call, e3, e4, h2]
          · simp [Cond.call, e3, e4, ec, hc]
          · simp [Cond.call, e3, e4, ec, hc]
          · rw [ec, afterCustoms_append, hc]
            simp [Cond.call, e3, e4, afterCustoms]
          · simp [Cond.call, eg]
        | cons q tl =>
          have e4 : b.custom2 = some (q.2.data q.1) := by rw [h4, hc]; rfl
          refine ⟨?_, ?_, ?_, ?_, ?_, ?_⟩
          · simp [Cond.call, e3, e4, el, h1]
          · simp [Cond.call, e3, e4, h2]
          · simp [Cond.call, e3, e4, ec, hc]
          · simp [Cond.call, e3, e4, ec, hc]
          · rw [ec, afterCustoms_append, hc]
            have hlt : ¬ tl.length + 1 + 1 < 2 := by omega
            have hlt' : ¬ tl.length + 1 + 1 + 1 < 2 := by omega
            simp [Cond.call, e3, e4, h5, hc, hlt, hlt']
          · simp [Cond.call, eg]

/-- No number is compared with a text. -/
def Suits (m : Meaning) (ct : Content) : Prop := ∀ v ∈ m.values, suits v ct

theorem matchesListText_iff (lower : Str → Str) (c : Cond) (vs : List FilterValue)
    (h : c.list = vs.map (·.data .equalTo)) (t : Str) : matchesListText lower c t = true ↔
    (∃ v ∈ vs, norm lower t = norm lower (valueText v)) ∨ (c.blanks = true ∧ norm lower t = []) := by
  unfold matchesListText norm
  simp only [← trim_eq]
  simp only [Bool.or_eq_true, Bool.and_eq_true, List.isEmpty_iff, h, List.any_eq_true, List.mem_map, beq_iff_eq]
  constructor
  · rintro (⟨x, ⟨v, hv, rfl⟩, hx⟩ | h)
    · rw [value_text] at hx; exact Or.inl ⟨v, hv, hx⟩
    · exact Or.inr h
  · rintro (⟨v, hv, hx⟩ | h)
    · exact Or.inl ⟨_, ⟨v, hv, rfl⟩, by rw [value_text]; exact hx⟩
    · exact Or.inr h

theorem matchesList_iff (cmp : Str → Str → Ordering) (lower : Str → Str) (c : Cond) (vs : List FilterValue)
    (h : c.list = vs.map (·.data .equalTo)) (cell : Option Cell) (hi : ∀ t x, cell ≠ some (.inlineString t x))
    (hs : ∀ v ∈ vs, suits v (contentOf cell)) : matchesList cmp lower c cell = true ↔
      (∃ v ∈ vs, Is cmp lower v (contentOf cell)) ∨ (c.blanks = true ∧ IsBlank lower (contentOf cell)) := by
  cases cell with
  | none => simp [matchesList, contentOf, Is, IsBlank]
  | some x =>
    cases x with
    | string t x i => exact matchesListText_iff lower c vs h t
    | rich s t x i => exact matchesListText_iff lower c vs h t
    | number n x =>
      have e : ∀ v ∈ vs, ((v.data .equalTo).isNumber &&
          decide (partialCmp cmp (.finite n) (v.data .equalTo).number = some .eq)) = true ↔ Is cmp lower v (.number n) := by
        intro v hv
        cases v with
        | text s => exact absurd rfl (hs _ hv n s rfl)
        | number y => simp [FilterValue.data, partialCmp_finite, Is]
      simp only [matchesList, contentOf, Cell.content, IsBlank, and_false, or_false, h, List.any_eq_true, List.mem_map]
      constructor
      · rintro ⟨_, ⟨v, hv, rfl⟩, hx⟩; exact ⟨v, hv, (e v hv).mp hx⟩
      · rintro ⟨v, hv, hx⟩; exact ⟨_, ⟨v, hv, rfl⟩, (e v hv).mpr hx⟩
    | blank x => simp [matchesList, contentOf, Cell.content, Is, IsBlank]
    | inlineString t x => exact absurd rfl (hi t x)
    | _ => simp [matchesList, contentOf, Cell.content, Is, IsBlank]

/-- C33: a cell matches a condition exactly if the condition shows it, as long as no number is compared with a
text. -/
theorem matches_iff (cmp : Str → Str → Ordering) (lower : Str → Str) (calls : List CondCall)
    (cell : Option Cell) (hi : ∀ t x, cell ≠ some (.inlineString t x)) (hs : Suits (meaning calls) (contentOf cell)) :
    (Cond.build calls).matches cmp lower cell = true ↔ Accepts cmp lower (meaning calls) (contentOf cell) := by
  have hb := build_ok calls
  generalize Cond.build calls = b at hb
  have hlist : b.isList = true → meaning calls = .list (listValues calls) (calls.contains .addBlanks) := by
    intro hl
    have := hb.isList
    rw [hl] at this
    unfold meaning
    cases hg : calls.getLast? with
    | none => rfl
    | some x => cases x <;> first | rfl | (rw [hg] at this; cases this)
  have hcustom : b.isList = false →
      meaning calls = .custom ((customs calls).take 2) ((afterCustoms 2 calls).contains .customOr) := by
    intro hl
    have := hb.isList
    rw [hl] at this
    unfold meaning
    split at this
    · rename_i h; rw [h]
    · rename_i h; rw [h]
    · cases this
  unfold Cond.matches
  cases hl : b.isList with
  | true =>
    rw [hlist hl] at hs ⊢
    rw [if_pos rfl]
    have := matchesList_iff cmp lower b (listValues calls) hb.list cell hi hs
    rw [hb.blanks] at this
    exact this
  | false =>
    rw [hcustom hl] at hs ⊢
    rw [if_neg (by decide)]
    unfold matchesCustoms
    rw [hb.custom1, hb.custom2]
    have ho := hb.or
    match hc : customs calls with
    | [] => simp [Accepts]
    | [p] =>
      rw [hc] at hs
      have := matchesCustom_iff cmp lower p.2 p.1 cell hi (hs p.2 (by simp [Meaning.values]))
      simpa [Accepts] using this
    | p :: q :: tl =>
      rw [hc] at hs ho
      have h1 := matchesCustom_iff cmp lower p.2 p.1 cell hi (hs p.2 (by simp [Meaning.values]))
      have h2 := matchesCustom_iff cmp lower q.2 q.1 cell hi (hs q.2 (by simp [Meaning.values]))
      simp only [List.length_cons, Nat.reduceLeDiff, decide_false, Bool.false_or] at ho
      simp only [List.getElem?_cons_zero, Option.map_some, List.getElem?_cons_succ, List.take_succ_cons, List.take_zero]
      have hlen : decide (tl.length + 1 + 1 < 2) = false := by simp
      rw [hlen, Bool.false_or] at ho
      rw [ho]
      cases (afterCustoms 2 calls).contains .customOr with
      | true => simp [Accepts, h1, h2]
      | false => simp [Accepts, h1, h2]

end Verif
