import Verif.Props.DataValidPart
/-! All data validations of a worksheet (C57). -/
namespace Verif
open Spec

/-! ### The map -/

theorem keys_smapInsert_mem {β : Type} {k : Str} (v : β) {m : List (Str × β)} (hm : (m.map Prod.fst).Pairwise strLt)
    (hk : k ∈ m.map Prod.fst) : (smapInsert k v m).map Prod.fst = m.map Prod.fst := by
  induction m with
  | nil => cases hk
  | cons p t ih =>
    obtain ⟨k', v'⟩ := p
    simp only [List.map_cons, List.pairwise_cons] at hm
    simp only [List.map_cons, List.mem_cons] at hk
    unfold smapInsert
    by_cases e : k = k'
    · rw [if_pos e, e]; rfl
    · rw [if_neg e]
      have hkt := hk.resolve_left e
      have hlt := hm.1 k hkt
      rw [if_neg (fun hle => hlt.2 (strLe_antisymm hlt.1 hle))]
      rw [List.map_cons, ih hm.2 hkt]
      rfl

theorem smapInsert_sorted {β : Type} (k : Str) (v : β) {m : List (Str × β)} (hm : (m.map Prod.fst).Pairwise strLt) :
    ((smapInsert k v m).map Prod.fst).Pairwise strLt := by
  by_cases hk : k ∈ m.map Prod.fst
  · rw [keys_smapInsert_mem v hm hk]; exact hm
  · exact sorted_smapInsert v hm hk

theorem mem_sorted_lookup {β : Type} {m : List (Str × β)} (hm : (m.map Prod.fst).Pairwise strLt) (k : Str) (v : β) :
    (k, v) ∈ m ↔ m.lookup k = some v := by
  induction m with
  | nil => simp
  | cons p t ih =>
    obtain ⟨k', v'⟩ := p
    simp only [List.map_cons, List.pairwise_cons] at hm
    rw [List.mem_cons, List.lookup_cons]
    by_cases e : k = k'
    · subst e
      simp only [beq_self_eq_true, Option.some.injEq, Prod.mk.injEq, true_and]
      constructor
      · rintro (rfl | h)
        · rfl
        · exact absurd rfl (hm.1 k (List.mem_map.mpr ⟨(k, v), h, rfl⟩)).2
      · rintro rfl; exact .inl rfl
    · have hb : (k == k') = false := by simpa using e
      simp only [hb, Prod.mk.injEq, e, false_and, false_or]
      exact ih hm.2

theorem mem_smapInsert {β : Type} {k : Str} {v : β} {m : List (Str × β)} {p : Str × β} (h : p ∈ smapInsert k v m) :
    p = (k, v) ∨ p ∈ m := by
  induction m with
  | nil => simp [smapInsert] at h; exact .inl h
  | cons q t ih =>
    obtain ⟨k', v'⟩ := q
    unfold smapInsert at h
    split at h
    · rcases List.mem_cons.mp h with h | h
      · exact .inl h
      · exact .inr (List.mem_cons_of_mem _ h)
    · split at h
      · rcases List.mem_cons.mp h with h | h
        · exact .inl h
        · exact .inr h
      · rcases List.mem_cons.mp h with h | h
        · exact .inr (h ▸ List.mem_cons_self)
        · rcases ih h with h | h
          · exact .inl h
          · exact .inr (List.mem_cons_of_mem _ h)

/-! ### Adding -/

theorem key_eq {d : DataValidation} {c : AddCall} (h : DvRel d c.2) : d.key c.1 = addRange c := by
  unfold DataValidation.key addRange
  dsimp only
  rw [← h.multi]
  cases d.multi <;> rfl

theorem isInvalidAny_iff {d : DataValidation} {calls : List DvCall} (h : DvRel d calls) :
    d.isInvalidAny = true ↔ Idle (dvMeant calls) := by
  rw [dvMeant_eq h]
  unfold DataValidation.isInvalidAny Idle
  have ht : d.type = .any ↔ allowedBy calls = .any := by
    constructor
    · intro e
      have ha := h.allowed
      rw [e] at ha
      exact (Option.some.inj ha).symm
    · intro e
      exact allowedOf_any (h.allowed.trans (congrArg some e))
  simp only [Bool.and_eq_true, decide_eq_true_eq, List.isEmpty_iff, ht]
  constructor
  · rintro ⟨⟨⟨⟨a, b⟩, c⟩, d⟩, e⟩; exact ⟨a, d, e, b, c⟩
  · rintro ⟨a, d, e, b, c⟩; exact ⟨⟨⟨⟨a, b⟩, c⟩, d⟩, e⟩

/-- A validation is accepted if its range is in the grid, and only then. A refused one, and one that does nothing, change
nothing. -/
theorem C57_accepted (m : DvMap) (c : AddCall) (d : DataValidation) (hd : DataValidation.build c.2 = some d) :
    ((addDataValidation m c.1 d).1 = true ↔ InGrid c.1) ∧
    (¬ InGrid c.1 ∨ Idle (dvMeant c.2) → (addDataValidation m c.1 d).2 = m) := by
  have hi := isInvalidAny_iff (DvRel.build hd)
  unfold addDataValidation InGrid
  by_cases h1 : (decide (c.1.firstRow ≥ ROW_MAX) || decide (c.1.firstCol ≥ COL_MAX) || decide (c.1.lastRow ≥ ROW_MAX) ||
      decide (c.1.lastCol ≥ COL_MAX)) = true
  · rw [if_pos h1]
    simp only [Bool.or_eq_true, decide_eq_true_eq] at h1
    refine ⟨⟨fun h => (by cases h), fun h => ?_⟩, fun _ => rfl⟩
    rw [show ROW_MAX = 1048576 from rfl, show COL_MAX = 16384 from rfl] at h1
    omega
  · rw [if_neg h1]
    simp only [Bool.or_eq_true, decide_eq_true_eq] at h1
    rw [show ROW_MAX = 1048576 from rfl, show COL_MAX = 16384 from rfl] at h1
    by_cases h2 : (decide (c.1.firstRow > c.1.lastRow) || decide (c.1.firstCol > c.1.lastCol)) = true
    · rw [if_pos h2]
      simp only [Bool.or_eq_true, decide_eq_true_eq] at h2
      exact ⟨⟨fun h => (by cases h), fun h => by omega⟩, fun _ => rfl⟩
    · rw [if_neg h2]
      simp only [Bool.or_eq_true, decide_eq_true_eq] at h2
      have hg : c.1.firstRow ≤ c.1.lastRow ∧ c.1.firstCol ≤ c.1.lastCol ∧ c.1.lastRow < 1048576 ∧ c.1.lastCol < 16384 := by
        omega
      by_cases h3 : d.isInvalidAny = true
      · rw [if_pos h3]; exact ⟨⟨fun _ => hg, fun _ => rfl⟩, fun _ => rfl⟩
      · rw [if_neg h3]
        refine ⟨⟨fun _ => hg, fun _ => rfl⟩, fun h => ?_⟩
        rcases h with h | h
        · exact absurd hg h
        · exact absurd (hi.mpr h) h3

theorem add_active (m : DvMap) {c : AddCall} {d : DataValidation} (hd : DataValidation.build c.2 = some d) (hg : InGrid c.1)
    (hi : ¬ Idle (dvMeant c.2)) : (addDataValidation m c.1 d).2 = smapInsert (addRange c) d m := by
  have h := DvRel.build hd
  rw [← key_eq h]
  obtain ⟨g1, g2, g3, g4⟩ := hg
  unfold addDataValidation
  rw [if_neg (by
      simp only [Bool.or_eq_true, decide_eq_true_eq]
      rw [show ROW_MAX = 1048576 from rfl, show COL_MAX = 16384 from rfl]; omega),
    if_neg (by simp only [Bool.or_eq_true, decide_eq_true_eq]; omega), if_neg (fun e => hi ((isInvalidAny_iff h).mp e))]

/-! ### Safe texts -/

theorem lastSaid_mem {α : Type} (f : DvCall → Option α) (x : α) (calls : List DvCall) (P : α → Prop) (hx : P x)
    (hf : ∀ c ∈ calls, ∀ a, f c = some a → P a) : P (lastSaid f x calls) := by
  unfold lastSaid
  cases e : calls.reverse.findSome? f with
  | none => exact hx
  | some a =>
    obtain ⟨c, hc, ha⟩ := List.exists_of_findSome?_eq_some e
    exact hf c (List.mem_reverse.mp hc) a ha

/-- The formulas of what is allowed. -/
def allowedTexts : Allowed → List Text
  | .any => []
  | .whole _ vs | .decimal _ vs | .date _ vs | .time _ vs | .textLength _ vs => vs
  | .list t | .custom t => [t]

theorem allowed_values {t : DvType} {r : DvRule} {al : Allowed} (h : allowedOf t r = some al) (ht : t ≠ .any) :
    r.values = allowedTexts al := by
  cases t with
  | any => exact absurd rfl ht
  | _ => cases r <;> cases h <;> rfl

theorem compareMeant_texts (r : DvUserRule) : (compareMeant r).2 = ruleTexts r := by cases r <;> rfl

theorem attrSafe_quoted {t : Str} (h : attrSafe t = true) : attrSafe (quotedText t) = true := by
  unfold quotedText
  rw [attrSafe_mem] at h ⊢
  intro c hc
  rcases List.mem_append.mp hc with hc | hc
  · rcases List.mem_cons.mp hc with rfl | hc
    · decide
    · obtain ⟨x, hx, he⟩ := List.mem_flatMap.mp hc
      split at he
      · have : c = '"' := by simpa using he
        subst this; decide
      · rw [List.mem_singleton] at he
        subst he; exact h c hx
  · rw [List.mem_singleton] at hc
    subst hc; decide

theorem attrSafe_listText {items : List Str} (h : ∀ i ∈ items, attrSafe i = true) : attrSafe (listText items) = true := by
  unfold listText
  induction items with
  | nil => rfl
  | cons a l ih =>
    cases l with
    | nil => rw [List.intercalate_singleton]; exact h a (by simp)
    | cons b l =>
      rw [List.intercalate_cons_cons]
      exact attrSafe_append (attrSafe_append (h a (by simp)) (by decide)) (ih fun i hi => h i (List.mem_cons_of_mem _ hi))

theorem attrSafe_multi {t : Str} (h : attrSafe t = true) :
    attrSafe ((t.filter (· ≠ '$')).map fun x => if x = ',' then ' ' else x) = true := by
  rw [attrSafe_mem] at h ⊢
  intro c hc
  obtain ⟨x, hx, rfl⟩ := List.mem_map.mp hc
  split
  · decide
  · exact h x (List.mem_filter.mp hx).1

theorem rel_safe {d : DataValidation} {c : AddCall} (h : DvRel d c.2)
    (hs : ∀ x ∈ c.2, ∀ t ∈ callTexts x, attrSafe t = true) :
    DvSafe d ∧ attrSafe (addRange c) = true ∧ (d.type ≠ .any → ∀ f ∈ d.rule.values, attrSafe f = true) := by
  refine ⟨⟨?_, ?_, ?_, ?_⟩, ?_, ?_⟩
  · rw [h.errorTitle]
    refine lastSaid_mem _ _ _ (fun t => attrSafe t = true) rfl fun x hx a ha => ?_
    cases x <;> cases ha
    exact hs _ hx _ (by simp [callTexts])
  · rw [h.errorMessage]
    refine lastSaid_mem _ _ _ (fun t => attrSafe t = true) rfl fun x hx a ha => ?_
    cases x <;> cases ha
    exact hs _ hx _ (by simp [callTexts])
  · rw [h.inputTitle]
    refine lastSaid_mem _ _ _ (fun t => attrSafe t = true) rfl fun x hx a ha => ?_
    cases x <;> cases ha
    exact hs _ hx _ (by simp [callTexts])
  · rw [h.inputMessage]
    refine lastSaid_mem _ _ _ (fun t => attrSafe t = true) rfl fun x hx a ha => ?_
    cases x <;> cases ha
    exact hs _ hx _ (by simp [callTexts])
  · rw [← key_eq h]
    unfold DataValidation.key
    split
    · exact cellRange_attrSafe _ _ _ _
    · rw [h.multi]
      refine lastSaid_mem _ _ _ (fun t => attrSafe t = true) rfl fun x hx a ha => ?_
      cases x <;> cases ha
      exact attrSafe_multi (hs _ hx _ (by simp [callTexts]))
  · intro ht f hf
    rw [allowed_values h.allowed ht] at hf
    have key : ∀ f ∈ allowedTexts (allowedBy c.2), attrSafe f = true := by
      unfold allowedBy
      refine lastSaid_mem _ _ _ (fun al => ∀ f ∈ allowedTexts al, attrSafe f = true) (by simp [allowedTexts]) fun x hx a ha => ?_
      have hx := hs x hx
      cases x <;> cases ha <;> intro f hf <;> first
        | (refine hx f ?_
           simp only [allowedTexts, compareMeant_texts] at hf
           exact hf)
        | (simp only [allowedTexts, List.mem_singleton] at hf
           subst hf
           exact attrSafe_quoted (attrSafe_listText hx))
        | (cases hf)
    exact key f hf

/-! ### All calls -/

/-- The calls of a program, as the worksheet gets them: a validation that could not be made is not added. -/
def addProgram (calls : List AddCall) : List (Dims × DataValidation) :=
  calls.filterMap fun c => (DataValidation.build c.2).map fun d => (c.1, d)

open Classical in
/-- The last call for a range after one more call. -/
theorem lastFor_snoc (calls : List AddCall) (c : AddCall) (range : Text) (v : DvSeen) :
    LastFor (calls ++ [c]) range v ↔
      if InGrid c.1 ∧ ¬ Idle (dvMeant c.2) ∧ addRange c = range then dvMeant c.2 = v else LastFor calls range v := by
  constructor
  · rintro ⟨before, x, after, he, h1, h2, h3, h4, h5⟩
    rcases List.eq_nil_or_concat after with rfl | ⟨after', y, rfl⟩
    · obtain ⟨rfl, hx⟩ := List.append_inj' he rfl
      cases hx
      rw [if_pos ⟨h1, h2, h3⟩]; exact h4
    · rw [List.concat_eq_append, ← List.cons_append, ← List.append_assoc] at he
      obtain ⟨rfl, hy⟩ := List.append_inj' he rfl
      cases hy
      rw [if_neg (fun ⟨g1, g2, g3⟩ => h5 c (by simp) g1 g2 g3)]
      exact ⟨before, x, after', rfl, h1, h2, h3, h4, fun y hy => h5 y (by simp [hy])⟩
  · intro h
    by_cases hc : InGrid c.1 ∧ ¬ Idle (dvMeant c.2) ∧ addRange c = range
    · rw [if_pos hc] at h
      exact ⟨calls, c, [], rfl, hc.1, hc.2.1, hc.2.2, h, by simp⟩
    · rw [if_neg hc] at h
      obtain ⟨before, x, after, rfl, h1, h2, h3, h4, h5⟩ := h
      refine ⟨before, x, after ++ [c], by simp, h1, h2, h3, h4, fun y hy g1 g2 g3 => ?_⟩
      rcases List.mem_append.mp hy with hy | hy
      · exact h5 y hy g1 g2 g3
      · rw [List.mem_singleton] at hy
        subst hy
        exact hc ⟨g1, g2, g3⟩

/-- The map after the calls. -/
structure MapRel (m : DvMap) (calls : List AddCall) : Prop where
  sorted : (m.map Prod.fst).Pairwise strLt
  made : ∀ p ∈ m, ∃ c ∈ calls, DataValidation.build c.2 = some p.2 ∧ p.1 = addRange c
  last : ∀ range v, LastFor calls range v ↔ ∃ d cs, m.lookup range = some d ∧ DvRel d cs ∧ dvMeant cs = v

theorem dvMeant_unique {d : DataValidation} {cs cs' : List DvCall} (h : DvRel d cs) (h' : DvRel d cs') : dvMeant cs = dvMeant cs' := by
  have ha : allowedBy cs = allowedBy cs' := Option.some.inj (h.allowed.symm.trans h'.allowed)
  rw [dvMeant_eq h, dvMeant_eq h', ha]

theorem MapRel.add {m : DvMap} {calls : List AddCall} (h : MapRel m calls) {c : AddCall} {d : DataValidation}
    (hd : DataValidation.build c.2 = some d) : MapRel (addDataValidation m c.1 d).2 (calls ++ [c]) := by
  have hr := DvRel.build hd
  by_cases hc : InGrid c.1 ∧ ¬ Idle (dvMeant c.2)
  · rw [add_active m hd hc.1 hc.2]
    refine ⟨smapInsert_sorted _ _ h.sorted, ?_, ?_⟩
    · intro p hp
      rcases mem_smapInsert hp with rfl | hp
      · exact ⟨c, by simp, hd, rfl⟩
      · obtain ⟨c', h1, h2⟩ := h.made p hp
        exact ⟨c', by simp [h1], h2⟩
    · intro range v
      rw [lastFor_snoc, lookup_smapInsert]
      by_cases e : addRange c = range
      · rw [if_pos ⟨hc.1, hc.2, e⟩, if_pos e.symm]
        constructor
        · intro hv; exact ⟨d, c.2, rfl, hr, hv⟩
        · rintro ⟨d', cs, h1, h2, h3⟩
          cases h1
          rw [← h3]; exact dvMeant_unique hr h2
      · rw [if_neg (fun x => e x.2.2), if_neg (fun x => e x.symm)]
        exact h.last range v
  · rw [(C57_accepted m c d hd).2 (by
      by_cases hg : InGrid c.1
      · right
        apply Classical.byContradiction
        intro hi; exact hc ⟨hg, hi⟩
      · exact .inl hg)]
    refine ⟨h.sorted, ?_, ?_⟩
    · intro p hp
      obtain ⟨c', h1, h2⟩ := h.made p hp
      exact ⟨c', by simp [h1], h2⟩
    · intro range v
      rw [lastFor_snoc, if_neg (fun x => hc ⟨x.1, x.2.1⟩)]
      exact h.last range v

theorem MapRel.run {m : DvMap} {before : List AddCall} (h : MapRel m before) (calls : List AddCall)
    (hl : ∀ c ∈ calls, ∀ x ∈ c.2, DvCallLegal x) :
    MapRel ((addProgram calls).foldl (fun m c => (addDataValidation m c.1 c.2).2) m) (before ++ calls) := by
  induction calls generalizing m before with
  | nil => rw [List.append_nil]; exact h
  | cons c calls ih =>
    have hb := (C57_limits c.2).mpr (hl c List.mem_cons_self)
    obtain ⟨d, hd⟩ := Option.isSome_iff_exists.mp hb
    have := ih (h.add hd) fun c' hc' => hl c' (List.mem_cons_of_mem _ hc')
    rw [List.append_assoc, List.singleton_append] at this
    have he : addProgram (c :: calls) = (c.1, d) :: addProgram calls := by
      unfold addProgram
      rw [List.filterMap_cons, hd]
      rfl
    rw [he, List.foldl_cons]
    exact this

theorem MapRel.new : MapRel [] [] := by
  refine ⟨.nil, by simp, fun range v => ⟨?_, ?_⟩⟩
  · rintro ⟨before, c, after, he, _⟩
    exact absurd he (by simp)
  · rintro ⟨d, cs, h, _⟩
    cases h

theorem mapRel_all (calls : List AddCall) (hl : ∀ c ∈ calls, ∀ x ∈ c.2, DvCallLegal x) :
    MapRel (runValidations (addProgram calls)) calls := by
  have := MapRel.new.run calls hl
  rwa [List.nil_append] at this

/-- The validations that a reader finds are those of the calls: for each range the one of the last call with this range, and each
range once. -/
theorem C57_validations (calls : List AddCall) (hl : ∀ c ∈ calls, ∀ x ∈ c.2, DvCallLegal x)
    (hs : ∀ c ∈ calls, ∀ x ∈ c.2, ∀ t ∈ callTexts x, attrSafe t = true) :
    ∃ seen, (parseDoc (writePart (dataValidationsTree (runValidations (addProgram calls))))).bind readValidations = some seen ∧
      (seen.map Prod.fst).Nodup ∧ ∀ range v, (range, v) ∈ seen ↔ LastFor calls range v := by
  have h := mapRel_all calls hl
  generalize runValidations (addProgram calls) = m at h
  have hrel : ∀ p ∈ m, ∃ cs, DvRel p.2 cs := fun p hp => by
    obtain ⟨c, _, hd, _⟩ := h.made p hp
    exact ⟨c.2, DvRel.build hd⟩
  have hsafe : MapSafe m := by
    intro p hp
    obtain ⟨c, hc, hd, he⟩ := h.made p hp
    obtain ⟨s1, s2, s3⟩ := rel_safe (DvRel.build hd) (hs c hc)
    exact ⟨s1, he ▸ s2, s3⟩
  have hget : ∀ p : Str × DataValidation, ∃ v : DvSeen, p ∈ m → ∃ cs, DvRel p.2 cs ∧ dvMeant cs = v := by
    intro p
    by_cases hp : p ∈ m
    · obtain ⟨cs, hcs⟩ := hrel p hp
      exact ⟨dvMeant cs, fun _ => ⟨cs, hcs, rfl⟩⟩
    · exact ⟨dvMeant [], fun hp' => absurd hp' hp⟩
  obtain ⟨g, hg⟩ := Classical.axiomOfChoice hget
  refine ⟨m.map fun p => (p.1, g p), readValidations_map hsafe fun p hp => ?_, ?_, fun range v => ?_⟩
  · obtain ⟨cs, h1, h2⟩ := hg p hp
    rw [readValidation_tree h1 (hsafe p hp).2.2, h2]
  · rw [List.map_map]
    show (m.map Prod.fst).Nodup
    exact h.sorted.imp fun x => x.2
  · rw [h.last]
    constructor
    · intro hm
      obtain ⟨p, hp, he⟩ := List.mem_map.mp hm
      cases he
      obtain ⟨cs, h1, h2⟩ := hg p hp
      exact ⟨p.2, cs, (mem_sorted_lookup h.sorted p.1 p.2).mp hp, h1, h2⟩
    · rintro ⟨d, cs, h1, h2, h3⟩
      have hp := (mem_sorted_lookup h.sorted range d).mpr h1
      obtain ⟨cs', g1, g2⟩ := hg _ hp
      exact List.mem_map.mpr ⟨(range, d), hp, by rw [← g2, ← h3, dvMeant_unique g1 h2]⟩

/-- A list of ranges covers the ranges that were given. -/
theorem C57_multi_range (d : Dims) (calls : List DvCall) (t : List Char) (h0 : t.filter (· ≠ '$') ≠ [])
    (h : ∀ r ∈ rangesOfText t, r ≠ none) : rangesOfSqref (addRange (d, calls ++ [.multiRange t])) = rangesOfText t := by
  rw [← C56_multi_range ⟨.blank false, false, [], none⟩ t h]
  unfold addRange
  simp only [lastSaid_snoc, multiSaid, Option.getD_some]
  rw [if_neg (by rw [List.map_eq_nil_iff]; exact h0)]
  rfl

/-! ### A case, and the counterexample -/

/-- A list of colours with a message, a replaced validation, one that does nothing, and one outside the grid. -/
def demoValidations : List AddCall :=
  [(⟨0, 0, 9, 0⟩, [.listStrings ["red".toList, "dark \"blue\"".toList], .inputTitle "Colour".toList, .errorStyle .warning]),
   (⟨0, 1, 9, 1⟩, [.wholeNumber (.between "1".toList "9".toList)]),
   (⟨0, 1, 9, 1⟩, [.decimalNumber (.greaterThan "$A$1".toList), .ignoreBlank false]),
   (⟨0, 2, 9, 2⟩, [.anyValue]),
   (⟨0, 16384, 9, 16384⟩, [.custom "TRUE".toList])]

/-- The hypotheses of `C57_validations`, and what a reader finds. -/
example : (∀ c ∈ demoValidations, ∀ x ∈ c.2, DvCallLegal x) ∧
    (∀ c ∈ demoValidations, ∀ x ∈ c.2, ∀ t ∈ callTexts x, attrSafe t = true) := by
  constructor
  · intro c hc x hx
    have : (DataValidation.build c.2).isSome = true := by
      have key : ∀ c ∈ demoValidations, (DataValidation.build c.2).isSome = true := by decide +kernel
      exact key c hc
    exact (C57_limits c.2).mp this x hx
  · decide +kernel

example : ((parseDoc (writePart (dataValidationsTree (runValidations (addProgram demoValidations))))).bind
    readValidations).map (·.map Prod.fst) = some ["A1:A10".toList, "B1:B10".toList] := by
  decide +kernel

/-- C57 is false of a list with a comma in one of its strings (F46): it is accepted, and is another list. -/
theorem C57_list_counterexample (e : FEnv) :
    (DataValidation.build [.listStrings ["Smith, J.".toList, "Doe".toList]]).isSome = true ∧
    ∃ f, callAllows (.listStrings ["Smith, J.".toList, "Doe".toList]) = some (.list f) ∧
      readListSource e f = some ["Smith".toList, " J.".toList, "Doe".toList] := by
  refine ⟨by decide, _, rfl, ?_⟩
  unfold readListSource
  rw [show quotedText (listText ["Smith, J.".toList, "Doe".toList]) =
    '"' :: (listText ["Smith, J.".toList, "Doe".toList]).flatMap (fun c => if c = '"' then ['"', '"'] else [c]) ++ ['"']
    from rfl, eval_quoted]
  decide

end Verif
