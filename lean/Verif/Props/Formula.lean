import Verif.Model.Formula
import Verif.Spec.Formula
import Verif.Lemmas.Xml
/-!
C30: future functions get their prefix, exactly where they are called, and nothing else changes.
-/
namespace Verif
open Spec

theorem isFunctionChar_eq : isFunctionChar = nameLike := rfl

/-- The code's table is the documented one. -/
theorem futureTable_documented :
    (∀ p ∈ futureTable, ((if p.2 = 2 then "_xlfn._xlws." else "_xlfn.") ++ p.1) ∈ documented ∧
      (0 < p.2 ↔ p.1 ∈ documentedDynamic)) ∧
    (∀ d ∈ documented, d ∈ futureTable.map fun p => (if p.2 = 2 then "_xlfn._xlws." else "_xlfn.") ++ p.1) ∧
    (∀ d ∈ documentedDynamic, ∃ p ∈ futureTable, p.1 = d ∧ 0 < p.2) := by
  decide +kernel


theorem mem_ofList (n : Str) (l : List String) : String.ofList n ∈ l ↔ n ∈ l.map String.toList := by
  rw [List.mem_map]
  constructor
  · intro h; exact ⟨_, h, by simp⟩
  · rintro ⟨a, ha, rfl⟩; simpa using ha

theorem lookup_cases_lawful {α β : Type} [BEq α] [LawfulBEq α] (t : List (α × β)) (c : α) :
    (∃ e, t.lookup c = some e ∧ (c, e) ∈ t) ∨ (t.lookup c = none ∧ ∀ k ∈ t.map Prod.fst, c ≠ k) := by
  induction t with
  | nil => right; simp
  | cons p ps ih =>
    obtain ⟨a, b⟩ := p
    by_cases hc : c = a
    · subst hc; left; exact ⟨b, by simp [List.lookup], by simp⟩
    · have hb : (c == a) = false := by simpa using hc
      rcases ih with ⟨e, h1, h2⟩ | ⟨h1, h2⟩
      · left; refine ⟨e, by simp [List.lookup, hb, h1], by simp [h2]⟩
      · right
        refine ⟨by simp [List.lookup, hb, h1], ?_⟩
        intro p hp
        rcases List.mem_cons.mp hp with rfl | hp
        · exact hc
        · exact h2 p hp

theorem table_facts :
    (∀ p ∈ futureTable, p.1.toList.head?.any nameLike = true) ∧
    (∀ p ∈ futureTable, p.2 = 2 → ("_xlfn." ++ p.1) ∉ documented) := by
  decide +kernel

/-- The code's prefix of a token is the documented one. -/
theorem futurePrefix_eq {n : Str} (hn : ∀ c ∈ n, nameLike c = true) :
    futurePrefix n = (storedPrefix n, decide (String.ofList n ∈ documentedDynamic)) := by
  obtain ⟨h1, h2, h3⟩ := futureTable_documented
  obtain ⟨g1, g2⟩ := table_facts
  unfold futurePrefix futureFunctions
  rcases lookup_cases_lawful (futureTable.map fun p => (p.1.toList, p.2)) n with ⟨t, hl, hm⟩ | ⟨hl, hm⟩
  · rw [hl]
    obtain ⟨p, hp, he⟩ := List.mem_map.mp hm
    simp only [Prod.mk.injEq] at he
    obtain ⟨rfl, rfl⟩ := he
    have hs : ∀ q : String, String.ofList (q.toList ++ p.1.toList) = q ++ p.1 := by
      intro q; simp [String.ofList_append]
    have hd : decide (String.ofList p.1.toList ∈ documentedDynamic) = decide (p.2 > 0) := by
      simp only [String.ofList_toList]
      exact decide_eq_decide.mpr (h1 p hp).2.symm
    rw [hd]
    unfold storedPrefix
    rw [hs, hs]
    by_cases h : p.2 = 2
    · rw [if_neg (g2 p hp h), if_pos (by have := (h1 p hp).1; rw [if_pos h] at this; exact this)]
      simp [h]
    · rw [if_pos (by have := (h1 p hp).1; rw [if_neg h] at this; exact this)]
      simp [h]
  · rw [hl]
    have hnot : ∀ p ∈ futureTable, p.1.toList ≠ n := by
      intro p hp e
      exact hm p.1.toList (List.mem_map.mpr ⟨(p.1.toList, p.2), List.mem_map.mpr ⟨p, hp, rfl⟩, rfl⟩) e.symm
    have hu : ∀ m : Str, ("_xlws.".toList ++ m) ≠ n := by
      rintro m rfl
      have := hn '_' (by simp)
      exact absurd this (by decide)
    have hst : ∀ d ∈ documented, d.toList ≠ "_xlfn.".toList ++ n ∧ d.toList ≠ "_xlfn._xlws.".toList ++ n := by
      intro d hd
      obtain ⟨p, hp, he⟩ := List.mem_map.mp (h2 d hd)
      have h5 := g1 p hp
      have h6 := hnot p hp
      have h7 := hu p.1.toList
      have hws : "_xlfn._xlws.".toList = "_xlfn.".toList ++ "_xlws.".toList := by decide
      rw [← he, String.toList_append]
      split
      · rw [hws]
        constructor
        · intro e
          rw [List.append_assoc] at e
          exact h7 (List.append_cancel_left e)
        · intro e
          exact h6 (List.append_cancel_left e)
      · constructor
        · intro e
          exact h6 (List.append_cancel_left e)
        · intro e
          rw [hws, List.append_assoc] at e
          have := List.append_cancel_left e
          rw [this] at h5
          exact absurd h5 (by simp [nameLike])
    have hdyn : String.ofList n ∉ documentedDynamic := by
      intro hd
      obtain ⟨p, hp, he, _⟩ := h3 _ hd
      exact hnot p hp (by rw [he]; simp)
    unfold storedPrefix
    rw [if_neg, if_neg]
    · simp [hdyn]
    · intro hd; exact (hst _ hd).2 (by simp)
    · intro hd; exact (hst _ hd).1 (by simp)

/-- The prefix for a token `t` when `s` follows. -/
def pfx (t s : Str) : Str × Bool :=
  if (s.dropWhile nameLike).head? = some '(' then futurePrefix (t ++ s.takeWhile nameLike) else ([], false)

theorem takeWhile_all (s : Str) : ∀ c ∈ s.takeWhile nameLike, nameLike c = true := by
  induction s with
  | nil => simp
  | cons a s ih =>
    rw [List.takeWhile_cons]
    split
    · rename_i h
      intro c hc
      rcases List.mem_cons.mp hc with rfl | hc
      · exact h
      · exact ih c hc
    · simp

/-- `calledHere` of a text that starts with a name character, in terms of the code's lookup. -/
theorem pfx_called {c : Char} (hc : nameLike c = true) (s : Str) :
    pfx [c] s = (((calledHere (c :: s)).map storedPrefix).getD [],
      (calledHere (c :: s)).any fun n => String.ofList n ∈ documentedDynamic) := by
  unfold pfx calledHere
  simp only [List.dropWhile_cons, List.takeWhile_cons, hc, if_true]
  split
  · rw [List.singleton_append, futurePrefix_eq]
    · rfl
    · intro d hd
      rcases List.mem_cons.mp hd with rfl | hd
      · exact hc
      · exact takeWhile_all s d hd
  · rfl

theorem escLoop (s : Str) :
    (∀ lit dyn out, literalsApart lit false s = true →
      ∃ st, s.foldl escStep { token := none, literal := lit, dynamic := dyn, out := out } = st ∧
        st.out ++ st.token.getD [] = out ++ stored lit false s ∧
        st.dynamic = (dyn || callsDynamic lit false s)) ∧
    (∀ t dyn out, literalsApart false true s = true →
      ∃ st, s.foldl escStep { token := some t, literal := false, dynamic := dyn, out := out } = st ∧
        st.out ++ st.token.getD [] = out ++ (pfx t s).1 ++ t ++ stored false true s ∧
        st.dynamic = (dyn || (pfx t s).2 || callsDynamic false true s)) := by
  induction s with
  | nil =>
    constructor
    · intro lit dyn out _
      exact ⟨_, rfl, by simp [stored], by simp [callsDynamic]⟩
    · intro t dyn out _
      exact ⟨_, rfl, by simp [stored, pfx], by simp [callsDynamic, pfx]⟩
  | cons c s ih =>
    obtain ⟨ih1, ih2⟩ := ih
    constructor
    · intro lit dyn out h
      rw [List.foldl_cons]
      by_cases hq : c = '"'
      · subst hq
        simp only [literalsApart, if_true, Bool.and_eq_true] at h
        have hs : escStep { token := none, literal := lit, dynamic := dyn, out := out } '"' =
            { token := none, literal := !lit, dynamic := dyn, out := out ++ ['"'] } := by
          cases lit <;> simp [escStep, isFunctionChar]
        rw [hs]
        obtain ⟨st, e, h1, h2⟩ := ih1 (!lit) dyn (out ++ ['"']) h.2
        exact ⟨st, e, by simp [h1, stored], by simp [h2, callsDynamic]⟩
      · cases lit with
        | true =>
          simp only [literalsApart, hq, if_false, if_true] at h
          have hs : escStep { token := none, literal := true, dynamic := dyn, out := out } c =
              { token := none, literal := true, dynamic := dyn, out := out ++ [c] } := by
            simp [escStep, hq]
          rw [hs]
          obtain ⟨st, e, h1, h2⟩ := ih1 true dyn (out ++ [c]) h
          exact ⟨st, e, by simp [h1, stored, hq], by simp [h2, callsDynamic, hq]⟩
        | false =>
          simp only [literalsApart, hq, if_false, Bool.false_eq_true] at h
          cases hf : nameLike c with
          | true =>
            have hs : escStep { token := none, literal := false, dynamic := dyn, out := out } c =
                { token := some [c], literal := false, dynamic := dyn, out := out } := by
              simp [escStep, hq, isFunctionChar_eq, hf]
            rw [hs]
            rw [hf] at h
            obtain ⟨st, e, h1, h2⟩ := ih2 [c] dyn out h
            rw [pfx_called hf] at h1 h2
            exact ⟨st, e, by simp [h1, stored, hq, hf], by simp [h2, callsDynamic, hq, hf, Bool.or_assoc]⟩
          | false =>
            have hs : escStep { token := none, literal := false, dynamic := dyn, out := out } c =
                { token := none, literal := false, dynamic := dyn, out := out ++ [c] } := by
              simp [escStep, hq, isFunctionChar_eq, hf]
            rw [hs]
            rw [hf] at h
            obtain ⟨st, e, h1, h2⟩ := ih1 false dyn (out ++ [c]) h
            exact ⟨st, e, by simp [h1, stored, hq, hf], by simp [h2, callsDynamic, hq, hf]⟩
    · intro t dyn out h
      rw [List.foldl_cons]
      have hq : c ≠ '"' := by
        rintro rfl
        simp [literalsApart] at h
      simp only [literalsApart, hq, if_false, Bool.false_eq_true] at h
      cases hf : nameLike c with
      | true =>
        have hs : escStep { token := some t, literal := false, dynamic := dyn, out := out } c =
            { token := some (t ++ [c]), literal := false, dynamic := dyn, out := out } := by
          simp [escStep, hq, isFunctionChar_eq, hf]
        rw [hs]
        rw [hf] at h
        obtain ⟨st, e, h1, h2⟩ := ih2 (t ++ [c]) dyn out h
        have hp : pfx (t ++ [c]) s = pfx t (c :: s) := by
          simp [pfx, List.dropWhile_cons, List.takeWhile_cons, hf]
        rw [hp] at h1 h2
        exact ⟨st, e, by simp [h1, stored, hq, hf], by simp [h2, callsDynamic, hq, hf]⟩
      | false =>
        have hp : pfx t (c :: s) = if c = '(' then futurePrefix t else ([], false) := by
          simp [pfx, List.dropWhile_cons, List.takeWhile_cons, hf]
        have hs : escStep { token := some t, literal := false, dynamic := dyn, out := out } c =
            { token := none, literal := false, dynamic := dyn || (pfx t (c :: s)).2,
              out := out ++ (pfx t (c :: s)).1 ++ t ++ [c] } := by
          rw [hp]
          simp [escStep, hq, isFunctionChar_eq, hf]
        rw [hs]
        rw [hf] at h
        obtain ⟨st, e, h1, h2⟩ := ih1 false (dyn || (pfx t (c :: s)).2) (out ++ (pfx t (c :: s)).1 ++ t ++ [c]) h
        exact ⟨st, e, by simp [h1, stored, hq, hf], by simp [h2, callsDynamic, hq, hf]⟩

theorem escapeFormula_eq {f : Str} (h : literalsApart false false f = true) :
    escapeFormula f = (stored false false f, callsDynamic false false f) := by
  obtain ⟨st, e, h1, h2⟩ := (escLoop f).1 false false [] h
  unfold escapeFormula
  have e' : f.foldl escStep {} = st := e
  rw [e']
  simp only [h1, h2]
  simp

theorem containsStr_iff (p s : Str) : containsStr p s = true ↔ p <:+: s := by
  induction s with
  | nil => simp [containsStr]
  | cons c s ih =>
    simp only [containsStr, Bool.or_eq_true, ih, List.infix_cons_iff]
    simp [startsWith, List.isPrefixOf_iff_prefix]

theorem stripSuffix_other {c : Char} {s : Str} (h : s.getLast? ≠ some c) : stripSuffix c s = s := by
  simp [stripSuffix, h]

/-- The code's stripping is the intended one, unless the formula is an array constant. -/
theorem stripFormula_eq (f : Str) (h : f.head? = some '{' ∨ f.getLast? = some '}' →
    ∃ b, f = "{=".toList ++ b ++ ['}']) : stripFormula f = body f := by
  by_cases hb : f.head? = some '{' ∨ f.getLast? = some '}'
  · obtain ⟨b, rfl⟩ := h hb
    show stripSuffix '}' (stripPrefix '=' (stripPrefix '{' ('{' :: '=' :: (b ++ ['}'])))) = _
    simp [stripPrefix, stripSuffix, body]
  · simp only [not_or] at hb
    match f, hb with
    | [], _ => rfl
    | c :: s, hb =>
      have hc : c ≠ '{' := by simpa using hb.1
      have hl := hb.2
      unfold stripFormula
      have e1 : stripPrefix '{' (c :: s) = c :: s := by simp [stripPrefix, hc]
      rw [e1]
      by_cases he : c = '='
      · subst he
        have e2 : stripPrefix '=' ('=' :: s) = s := by simp [stripPrefix]
        rw [e2]
        have e3 : body ('=' :: s) = s := rfl
        rw [e3]
        apply stripSuffix_other
        intro hs
        apply hl
        cases s with
        | nil => simp at hs
        | cons d s => simpa using hs
      · have e2 : stripPrefix '=' (c :: s) = c :: s := by simp [stripPrefix, he]
        rw [e2, stripSuffix_other hl]
        unfold body
        split
        · rename_i heq; simp at heq; exact absurd heq.1 hc
        · rename_i heq; simp at heq; exact absurd heq.1 he
        · rfl

/-- C30 (partial: formulas that are bare array constants are excluded, and formulas in which a string
literal starts right behind a name character): the stored text of a formula is its body with exactly the
documented prefix in front of each call of a documented future function outside string literals; it is
marked dynamic exactly if a documented dynamic function is called outside string literals. A body that
contains `_xlfn.` already is stored unchanged. -/
theorem C30_prefixes_partial (f : Str)
    (hb : f.head? = some '{' ∨ f.getLast? = some '}' → ∃ b, f = "{=".toList ++ b ++ ['}'])
    (hl : literalsApart false false (body f) = true) :
    (¬ "_xlfn.".toList <:+: body f →
      formulaNew f = (stored false false (body f), callsDynamic false false (body f))) ∧
    ("_xlfn.".toList <:+: body f → (formulaNew f).1 = body f) := by
  unfold formulaNew
  rw [stripFormula_eq f hb]
  constructor
  · intro h
    simp only
    rw [if_neg (fun hh => h ((containsStr_iff _ _).mp hh)), escapeFormula_eq hl]
  · intro h
    simp only
    rw [if_pos ((containsStr_iff _ _).mpr h)]
    rfl


/-- A formula with two future functions, one in a literal, in array braces. -/
def formulaWitness : Str := "{=IF(A1=\"SORT(\"\"x\",SORT(B1:B9),STDEV.S(C1:C5)+SUM(LET))}".toList

example : (formulaWitness.head? = some '{' ∨ formulaWitness.getLast? = some '}' →
      ∃ b, formulaWitness = "{=".toList ++ b ++ ['}']) ∧
    literalsApart false false (body formulaWitness) = true ∧
    formulaNew formulaWitness =
      ("IF(A1=\"SORT(\"\"x\",_xlfn._xlws.SORT(B1:B9),_xlfn.STDEV.S(C1:C5)+SUM(LET))".toList, true) :=
  ⟨fun _ => ⟨"IF(A1=\"SORT(\"\"x\",SORT(B1:B9),STDEV.S(C1:C5)+SUM(LET))".toList, by decide +kernel⟩,
    by decide +kernel, by decide +kernel⟩

/-- C30: nothing is lost or changed: without the inserted prefixes the stored text is the body. `rest`
says that a text is obtained from another by removing some characters; the removed ones are the prefixes. -/
theorem C30_only_insertions (lit mid : Bool) (s : Str) : s.Sublist (stored lit mid s) := by
  induction s generalizing lit mid with
  | nil => exact List.Sublist.refl _
  | cons c s ih =>
    rw [stored]
    split
    · exact (ih _ _).cons_cons _
    · split
      · exact (ih _ _).cons_cons _
      · exact ((ih _ _).cons_cons _).trans (List.sublist_append_right _ _)

/-- C30: a formula without calls of future functions is stored as it is. -/
theorem stored_plain (lit mid : Bool) (s : Str)
    (h : ∀ t, t <:+ s → ∀ n, calledHere t = some n → storedPrefix n = []) : stored lit mid s = s := by
  induction s generalizing lit mid with
  | nil => rfl
  | cons c s ih =>
    have ih' := fun l m => ih l m fun t ht => h t (ht.trans (List.suffix_cons _ _))
    rw [stored]
    split
    · rw [ih']
    · split
      · rename_i hl; rw [ih']
      · rw [ih']
        split
        · cases hc : calledHere (c :: s) with
          | none => rfl
          | some n => simp [h _ List.suffix_rfl n hc]
        · rfl

/-- C30 without the condition on literals: a quote right behind a name character makes the library write
the literal twice (finding F41, /repo/src/formula.rs:855-892). This happens for a quoted sheet name. -/
theorem C30_quote_counterexample :
    (formulaNew "='Q1\"x'!A1&\"y\"".toList).1 = "'\"x'!A1&Q1\"x'!A1&\"y\"".toList := by decide +kernel

/-- C30 without the condition on braces: an array constant loses its closing brace (finding F79,
/repo/src/formula.rs:755-763). -/
theorem C30_array_constant_counterexample :
    (formulaNew "={1,2,3}".toList).1 = "{1,2,3".toList := by decide +kernel

/-- The name in front of a bracket is taken to be the run of upper case letters, digits and dots only: a
user's function whose name ends in such a run gets a prefix inside its name (finding F80,
/repo/src/formula.rs:861-862). -/
theorem C30_own_function_counterexample :
    (formulaNew "=MY_LET(1)".toList).1 = "MY__xlfn.LET(1)".toList := by decide +kernel

/-! ### Table references -/

theorem tableLoop (s : Str) (lit : Bool) (out : Str) :
    (s.foldl tableStep (lit, out)).2 = out ++ rowRefs lit s := by
  induction s generalizing lit out with
  | nil => simp [rowRefs]
  | cons c s ih =>
    rw [List.foldl_cons]
    by_cases hq : c = '"'
    · subst hq
      cases lit <;> simp [tableStep, ih, rowRefs]
    · by_cases ha : c = '@'
      · subst ha
        cases lit <;> simp [tableStep, ih, rowRefs]
      · cases lit <;> simp [tableStep, ih, rowRefs, hq, ha]

theorem rowRefs_none (s : Str) (h : '@' ∉ s) (lit : Bool) : rowRefs lit s = s := by
  induction s generalizing lit with
  | nil => rfl
  | cons c s ih =>
    simp at h
    have hc : c ≠ '@' := Ne.symm h.1
    simp [rowRefs, hc, ih h.2]

/-- C30, table columns: for every formula the references to this row are written out, outside string
literals and only there. -/
theorem C30_table_refs (f : Str) : escapeTableFunctions f = rowRefs false f := by
  unfold escapeTableFunctions
  cases h : f.contains '@' with
  | true => simp [tableLoop]
  | false =>
    have : '@' ∉ f := by
      intro hm
      have := List.contains_iff_mem.mpr hm
      rw [h] at this; cases this
    simp [rowRefs_none f this]

example : escapeTableFunctions "SUM(T[@A])&\"@\"".toList = "SUM(T[[#This Row],A])&\"@\"".toList := by
  decide +kernel

/-! ### Formulas with the user's own prefixes -/

theorem start_nameLike {c : Char} (h : isFunctionStartChar c = true) : nameLike c = true := by
  unfold isFunctionStartChar at h
  unfold nameLike
  simp only [Bool.or_eq_true] at h ⊢
  exact Or.inl h

theorem copyLoop (s : Str) :
    (∀ lit m dyn out, literalsApart lit m s = true →
      (s.foldl copyStep { token := none, literal := lit, dynamic := dyn, out := out }).dynamic =
        (dyn || callsDynamicPrefixed lit false s)) ∧
    (∀ t dyn out, literalsApart false true s = true →
      (s.foldl copyStep { token := some t, literal := false, dynamic := dyn, out := out }).dynamic =
        (dyn || (pfx t s).2 || callsDynamicPrefixed false true s)) := by
  induction s with
  | nil => exact ⟨by simp [callsDynamicPrefixed], by simp [callsDynamicPrefixed, pfx]⟩
  | cons c s ih =>
    obtain ⟨ih1, ih2⟩ := ih
    constructor
    · intro lit m dyn out h
      rw [List.foldl_cons]
      by_cases hq : c = '"'
      · subst hq
        simp only [literalsApart, if_true, Bool.and_eq_true] at h
        have hs : copyStep { token := none, literal := lit, dynamic := dyn, out := out } '"' =
            { token := none, literal := !lit, dynamic := dyn, out := out } := by
          cases lit <;> simp [copyStep, isFunctionStartChar]
        rw [hs, ih1 (!lit) false dyn out h.2]
        simp [callsDynamicPrefixed]
      · cases lit with
        | true =>
          simp only [literalsApart, hq, if_false, if_true] at h
          have hs : copyStep { token := none, literal := true, dynamic := dyn, out := out } c =
              { token := none, literal := true, dynamic := dyn, out := out } := by
            simp [copyStep, hq]
          rw [hs, ih1 true false dyn out h]
          simp [callsDynamicPrefixed, hq]
        | false =>
          simp only [literalsApart, hq, if_false, Bool.false_eq_true] at h
          cases hf : isFunctionStartChar c with
          | true =>
            have hn := start_nameLike hf
            have hs : copyStep { token := none, literal := false, dynamic := dyn, out := out } c =
                { token := some [c], literal := false, dynamic := dyn, out := out } := by
              simp [copyStep, hq, hf]
            rw [hs]
            rw [hn] at h
            rw [ih2 [c] dyn out h, pfx_called hn]
            have hf' : nameStartLike c = true := hf
            simp [callsDynamicPrefixed, hq, hn, hf', Bool.or_assoc]
          | false =>
            have hs : copyStep { token := none, literal := false, dynamic := dyn, out := out } c =
                { token := none, literal := false, dynamic := dyn, out := out } := by
              simp [copyStep, hq, hf]
            rw [hs, ih1 false _ dyn out h]
            have hf' : nameStartLike c = false := hf
            simp [callsDynamicPrefixed, hq, hf']
    · intro t dyn out h
      rw [List.foldl_cons]
      have hq : c ≠ '"' := by
        rintro rfl
        simp [literalsApart] at h
      simp only [literalsApart, hq, if_false, Bool.false_eq_true] at h
      cases hf : nameLike c with
      | true =>
        have hs : copyStep { token := some t, literal := false, dynamic := dyn, out := out } c =
            { token := some (t ++ [c]), literal := false, dynamic := dyn, out := out } := by
          simp [copyStep, hq, isFunctionChar_eq, hf]
        rw [hs]
        rw [hf] at h
        have hp : pfx (t ++ [c]) s = pfx t (c :: s) := by
          simp [pfx, List.dropWhile_cons, List.takeWhile_cons, hf]
        rw [ih2 (t ++ [c]) dyn out h, hp]
        simp [callsDynamicPrefixed, hq, hf]
      | false =>
        have hp : pfx t (c :: s) = if c = '(' then futurePrefix t else ([], false) := by
          simp [pfx, List.dropWhile_cons, List.takeWhile_cons, hf]
        have hs : copyStep { token := some t, literal := false, dynamic := dyn, out := out } c =
            { token := none, literal := false, dynamic := dyn || (pfx t (c :: s)).2, out := out } := by
          rw [hp]
          simp [copyStep, hq, isFunctionChar_eq, hf]
        rw [hs]
        rw [hf] at h
        rw [ih1 false false _ out h]
        simp [callsDynamicPrefixed, hq, hf]

/-- C30, formulas with the user's own prefixes (same exclusions as `C30_prefixes_partial`): the text is
unchanged and the formula is marked dynamic exactly if a dynamic function is called outside string
literals, with or without a prefix. -/
theorem C30_own_prefixes_partial (f : Str)
    (hb : f.head? = some '{' ∨ f.getLast? = some '}' → ∃ b, f = "{=".toList ++ b ++ ['}'])
    (hl : literalsApart false false (body f) = true) (h : "_xlfn.".toList <:+: body f) :
    formulaNew f = (body f, callsDynamicPrefixed false false (body f)) := by
  unfold formulaNew
  rw [stripFormula_eq f hb]
  simp only
  rw [if_pos ((containsStr_iff _ _).mpr h)]
  unfold copyEscapedFormula
  have := (copyLoop (body f)).1 false false false [] hl
  rw [show (List.foldl copyStep {} (body f)).dynamic = _ from this]
  simp

example : "_xlfn.".toList <:+: body "=_xlfn._xlws.SORT(A1:A9)".toList ∧
    formulaNew "=_xlfn._xlws.SORT(A1:A9)".toList = ("_xlfn._xlws.SORT(A1:A9)".toList, true) := by
  decide +kernel

end Verif
