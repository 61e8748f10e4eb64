import Verif.Props.FilterRows
import Verif.Props.TablePart
/-!
C33: what the `autoFilter` element says, and where hiding goes wrong.
-/
set_option linter.unusedSectionVars false
namespace Verif
open Spec BMap
variable {Fmt : Type} [DecidableEq Fmt] {dflt : Fmt} {cfg : Cfg}

theorem meaning_build (calls : List CondCall) :
    meaning calls = if (Cond.build calls).isList = true then .list (listValues calls) (calls.contains .addBlanks)
      else .custom ((customs calls).take 2) ((afterCustoms 2 calls).contains .customOr) := by
  have := (build_ok calls).isList
  generalize (Cond.build calls).isList = b at this
  unfold meaning
  split at this
  · rename_i h; subst this; rw [h]; rfl
  · rename_i h; subst this; rw [h]; rfl
  · rename_i h1 h2
    subst this
    rw [if_pos rfl]
    split
    · rename_i h; exact absurd h (h1 _ _)
    · rename_i h; exact absurd h h2
    · rfl

theorem read_plain (x : Str) : readCustomFilter [("val".toList, x)] = some ("equal".toList, x) := by
  unfold readCustomFilter
  rw [look_eq, look_ne (by decide)]
  rfl

theorem read_operator (o x : Str) : readCustomFilter [("operator".toList, o), ("val".toList, x)] = some (o, x) := by
  unfold readCustomFilter
  rw [look_eq, look_ne (n := "operator".toList) (k := "val".toList) (by decide), look_eq]
  rfl

/-- The attributes of a custom filter. -/
theorem customFilter_attrs (k : Crit) (v : FilterValue) : customFilterTree (v.data k) = .empty "customFilter".toList
    (if k.operator = [] then [("val".toList, (filterPattern k (valueText v)).2)]
     else [("operator".toList, k.operator), ("val".toList, (filterPattern k (valueText v)).2)]) := by
  have hk : (v.data k).criteria = k := by cases v <;> rfl
  have hv : (v.data k).value = (filterPattern k (valueText v)).2 := by
    unfold FilterData.value
    rw [hk, value_text]
    cases k <;> rfl
  unfold customFilterTree
  rw [hv, hk]
  split <;> rfl

theorem customFilter_read (k : Crit) (v : FilterValue) :
    readCustomFilter (treeParts (customFilterTree (v.data k))).1 = some (filterPattern k (valueText v)) := by
  rw [customFilter_attrs]
  generalize valueText v = t
  have h1 : k.operator = [] → (filterPattern k t).1 = "equal".toList := by
    cases k <;> first | exact fun _ => rfl | exact fun h => absurd h (by decide)
  have h2 : k.operator ≠ [] → (filterPattern k t).1 = k.operator := by
    cases k <;> first | exact fun h => absurd rfl h | exact fun _ => rfl
  dsimp only [treeParts]
  split
  · rename_i h
    rw [read_plain, ← h1 h]
  · rename_i h
    rw [read_operator, ← h2 h]

theorem kind_read (calls : List CondCall) :
    readFilterKind (toNodes [(Cond.build calls).tree]) = some (seenAs (meaning calls)) := by
  have hb := build_ok calls
  rw [meaning_build]
  unfold Cond.tree
  cases hl : (Cond.build calls).isList with
  | true =>
    rw [if_pos rfl, if_pos rfl]
    have hread : ∀ (as : Attrs) (ks : List Node) (n : List Tree),
        childrenAll "filter".toList ks = some (n.map treeParts) →
        n = (Cond.build calls).list.map (fun f => Tree.empty "filter".toList [("val".toList, f.string)]) →
        as = (if (Cond.build calls).blanks then [("blank".toList, "1".toList)] else []) →
        ((childrenAll "filter".toList ks).bind fun l => l.mapM fun e => e.1.lookup "val".toList).map (fun vs =>
          FilterSeen.list vs (oneRow "blank".toList false as)) =
        some (seenAs (.list (listValues calls) (calls.contains .addBlanks))) := by
      intro as ks n h1 h2 h3
      rw [h1, h2, h3]
      dsimp only [Option.bind_some]
      rw [List.map_map, List.mapM_map, hb.list, List.mapM_map]
      have : (listValues calls).mapM (fun v => (treeParts (Tree.empty "filter".toList
          [("val".toList, (v.data .equalTo).string)])).1.lookup "val".toList) = some ((listValues calls).map valueText) := by
        apply mapM_some_of_forall
        intro v _
        rw [value_text]
        exact look_eq _ _ _
      simp only [Function.comp_def]
      rw [this, hb.blanks]
      simp only [Option.map_some, seenAs, Option.some.injEq, FilterSeen.list.injEq, true_and]
      cases calls.contains CondCall.addBlanks <;> rfl
    unfold readFilterKind
    dsimp only
    by_cases he : (Cond.build calls).list.isEmpty = true
    · rw [if_pos he]
      rw [List.isEmpty_iff] at he
      rw [child_trees, child_trees, find_eq (k := "filters".toList) _ rfl, find_empty (by decide)]
      dsimp only [Option.map_some, List.find?_nil, Option.map_none]
      exact hread _ [] [] rfl (by rw [he]; rfl) rfl
    · rw [if_neg he, child_trees, child_trees, find_eq (k := "filters".toList) _ rfl, find_node (by decide)]
      dsimp only [Option.map_some, List.find?_nil, Option.map_none]
      exact hread _ _ _ (childrenAll_toNodes _ _ (by
        intro t ht
        obtain ⟨d, _, rfl⟩ := List.mem_map.mp ht
        rfl)) rfl rfl
  | false =>
    rw [if_neg Bool.false_ne_true, if_neg Bool.false_ne_true]
    unfold readFilterKind
    rw [child_trees, child_trees, find_eq (k := "customFilters".toList) _ rfl, find_node (by decide)]
    dsimp only [Option.map_some, List.find?_nil, Option.map_none, treeParts]
    rw [childrenAll_toNodes _ _ (by
      intro t ht
      obtain ⟨d, _, rfl⟩ := List.mem_map.mp ht
      rfl)]
    have hcs : (Cond.build calls).custom1.toList ++ (Cond.build calls).custom2.toList =
        ((customs calls).take 2).map fun p => p.2.data p.1 := by
      rw [hb.custom1, hb.custom2]
      match customs calls with
      | [] => rfl
      | [_] => rfl
      | _ :: _ :: _ => simp
    dsimp only [Option.bind_some]
    rw [hcs, List.map_map, List.map_map, List.mapM_map]
    have : ((customs calls).take 2).mapM (fun p => readCustomFilter (treeParts (customFilterTree (p.2.data p.1))).1) =
        some (((customs calls).take 2).map fun p => filterPattern p.1 (valueText p.2)) := by
      apply mapM_some_of_forall
      intro p _
      exact customFilter_read _ _
    simp only [Function.comp_def]
    rw [this, hb.or]
    simp only [Option.map_some, seenAs, Option.some.injEq, FilterSeen.custom.injEq, and_true, List.length_take]
    by_cases h2 : (customs calls).length < 2
    · rw [decide_eq_true h2, Bool.true_or, if_pos rfl, decide_eq_false (by omega)]
      rfl
    · rw [decide_eq_false h2, Bool.false_or, decide_eq_true (by omega)]
      cases (afterCustoms 2 calls).contains CondCall.customOr <;> rfl

theorem cond_ok (calls : List CondCall)
    (h : ∀ v ∈ listValues calls ++ (customs calls).map Prod.snd, attrSafe (valueText v) = true) :
    treeOk (Cond.build calls).tree = true := by
  have hb := build_ok calls
  unfold Cond.tree
  split
  · have ha : attrsGood (if (Cond.build calls).blanks then [("blank".toList, "1".toList)] else []) := by
      split
      · exact attrsGood_one (by decide) (by decide)
      · exact attrsGood_nil
    dsimp only
    split
    · exact treeOk_empty (by decide) ha
    · refine treeOk_node (by decide) ha ?_
      intro k hk
      rw [hb.list, List.map_map] at hk
      obtain ⟨v, hv, rfl⟩ := List.mem_map.mp hk
      refine treeOk_empty (by decide) (attrsGood_one (by decide) ?_)
      rw [value_text]
      exact h v (List.mem_append_left _ hv)
  · refine treeOk_node (by decide) ?_ ?_
    · split
      · exact attrsGood_nil
      · exact attrsGood_one (by decide) (by decide)
    · intro k hk
      obtain ⟨f, hf, rfl⟩ := List.mem_map.mp hk
      have : ∃ p ∈ customs calls, f = p.2.data p.1 := by
        rw [List.mem_append, hb.custom1, hb.custom2] at hf
        rcases hf with hf | hf
        · rw [Option.mem_toList, Option.map_eq_some_iff] at hf
          obtain ⟨p, hp, e⟩ := hf
          exact ⟨p, List.mem_of_getElem? hp, e.symm⟩
        · rw [Option.mem_toList, Option.map_eq_some_iff] at hf
          obtain ⟨p, hp, e⟩ := hf
          exact ⟨p, List.mem_of_getElem? hp, e.symm⟩
      obtain ⟨⟨k, v⟩, hp, rfl⟩ := this
      have hv := h v (List.mem_append_right _ (List.mem_map.mpr ⟨_, hp, rfl⟩))
      rw [customFilter_attrs]
      have hstar : ∀ t : Str, attrSafe t = true → attrSafe ('*' :: t) = true := by
        intro t ht; rw [attrSafe_cons, ht]; decide
      have hstar' : ∀ t : Str, attrSafe t = true → attrSafe (t ++ ['*']) = true := by
        intro t ht
        unfold attrSafe at ht ⊢
        rw [List.all_append, ht]; decide
      have hpat : attrSafe (filterPattern k (valueText v)).2 = true := by
        cases k <;> first | exact hv | exact hstar' _ hv | exact hstar _ hv | exact hstar' _ (hstar _ hv)
      have hop : attrSafe k.operator = true := by cases k <;> decide
      refine treeOk_empty (by decide) ?_
      split
      · exact attrsGood_one (by decide) hpat
      · refine ⟨?_, ?_⟩
        · intro a ha
          simp only [List.mem_cons, List.not_mem_nil, or_false] at ha
          rcases ha with rfl | rfl
          · exact attrOk_of (by decide) hop
          · exact attrOk_of (by decide) hpat
        · simp only [List.map_cons, List.map_nil]
          decide

/-- C33: after any history of calls in which the last `autofilter()` was accepted, the `autoFilter` element is
well-formed, and a reader finds in it the range of the call and, for each column with a condition, in the order of the
columns and no others, what the condition says. -/
theorem C33_filter_written (lower : Str → Str) (cfg : Cfg) (hstd : cfg.isStandard) (merge : Fmt → Fmt → Fmt) (dflt : Fmt)
    (ops : List (FOp Fmt)) (s : FSheet Fmt)
    (h : ({ tsheet := TSheet.new cfg merge dflt } : FSheet Fmt).run lower ops = some s) (d : Dims)
    (ha : s.tsheet.area = some d) (hd : (filterState ops).range = some d) (hv : ∀ c calls, (filterState ops).cond c = some calls →
      ∀ v ∈ listValues calls ++ (customs calls).map Prod.snd, attrSafe (valueText v) = true) :
    ∃ tree node cols, s.autoFilter = some tree ∧ parseDoc (writePart tree) = some node ∧
      readAutoFilter node = some (((d.firstRow, d.firstCol), (d.lastRow, d.lastCol)), cols) ∧
      (cols.map Prod.fst).Pairwise (· < ·) ∧
      ∀ c f, (c, f) ∈ cols ↔ ∃ calls, (filterState ops).cond c = some calls ∧ f = seenAs (meaning calls) := by
  have hI := (FInv.new (dflt := dflt) hstd merge).run ops h
  change FInv cfg dflt s (filterState ops) at hI
  have hname := hI.name.trans hd
  refine ⟨autoFilterTree d d.firstCol s.conds, ?_⟩
  have htree : s.autoFilter = some (autoFilterTree d d.firstCol s.conds) := by
    unfold FSheet.autoFilter; rw [ha, hname]; rfl
  have hmem : ∀ p ∈ s.conds, ∃ calls, (filterState ops).cond p.1 = some calls ∧ p.2 = Cond.build calls := by
    intro p hp
    have hg := (mem_iff_get hI.sorted p.1 p.2).mp hp
    rw [hI.conds] at hg
    obtain ⟨calls, h1, h2⟩ := Option.map_eq_some_iff.mp hg
    exact ⟨calls, h1, h2.symm⟩
  have hkids : ∀ k ∈ s.conds.map (fun p => Tree.node "filterColumn".toList
      [("colId".toList, showNat (p.1 - d.firstCol))] [p.2.tree]), treeOk k = true := by
    intro k hk
    obtain ⟨p, hp, rfl⟩ := List.mem_map.mp hk
    refine treeOk_node (by decide) (attrsGood_one (by decide) (showNat_attrSafe _)) (ok_single ?_)
    obtain ⟨calls, h1, h2⟩ := hmem p hp
    rw [h2]
    exact cond_ok calls (hv _ _ h1)
  have hok : treeOk (autoFilterTree d d.firstCol s.conds) = true := by
    unfold autoFilterTree
    dsimp only
    split
    · exact treeOk_empty (by decide) (attrsGood_one (by decide) (cellRange_attrSafe _ _ _ _))
    · exact treeOk_node (by decide) (attrsGood_one (by decide) (cellRange_attrSafe _ _ _ _)) hkids
  have hch : ∀ p ∈ s.conds, ∃ f, readFilterColumn d.firstCol (treeParts (Tree.node "filterColumn".toList
      [("colId".toList, showNat (p.1 - d.firstCol))] [p.2.tree])) = some (p.1, f) ∧
      ∃ calls, (filterState ops).cond p.1 = some calls ∧ f = seenAs (meaning calls) := by
    intro p hp
    obtain ⟨calls, h1, h2⟩ := hmem p hp
    refine ⟨_, ?_, calls, h1, rfl⟩
    have hin := hI.within _ _ h1
    rw [hd] at hin
    simp only [inColumns, Bool.and_eq_true, decide_eq_true_eq] at hin
    have hn : attrNat "colId".toList [("colId".toList, showNat (p.1 - d.firstCol))] = some (p.1 - d.firstCol) := by
      simp [attrNat, List.lookup, readNat_showNat]
    unfold readFilterColumn
    dsimp only [treeParts]
    rw [hn, h2, kind_read]
    dsimp only
    congr 2
    omega
  -- the columns
  let g : Nat × Cond → Nat × FilterSeen := fun p => (p.1, match (filterState ops).cond p.1 with
    | some calls => seenAs (meaning calls)
    | none => .list [] false)
  have hcols : (s.conds.map (fun p => treeParts (Tree.node "filterColumn".toList
      [("colId".toList, showNat (p.1 - d.firstCol))] [p.2.tree]))).mapM (readFilterColumn d.firstCol) = some (s.conds.map g) := by
    rw [List.mapM_map]
    apply mapM_some_of_forall
    intro p hp
    obtain ⟨f, h1, calls, h2, h3⟩ := hch p hp
    refine h1.trans ?_
    simp only [g, h2, h3]
  refine ⟨_, s.conds.map g, htree, C07_part_roundtrip _ hok, ?_, ?_, ?_⟩
  · have hrd : ∀ ks : List Node, childrenAll "filterColumn".toList ks = some (s.conds.map (fun p => treeParts
        (Tree.node "filterColumn".toList [("colId".toList, showNat (p.1 - d.firstCol))] [p.2.tree]))) →
        readAutoFilter (.elem "autoFilter".toList
          [("ref".toList, cellRange d.firstRow d.firstCol d.lastRow d.lastCol)] ks) =
        some (((d.firstRow, d.firstCol), (d.lastRow, d.lastCol)), s.conds.map g) := by
      intro ks hks
      unfold readAutoFilter
      dsimp only
      rw [if_neg (fun h => h rfl), look_eq]
      dsimp only [Option.bind_some]
      rw [C02_range_roundtrip]
      dsimp only
      rw [hks]
      dsimp only [Option.bind_some]
      rw [hcols]
      rfl
    unfold autoFilterTree
    dsimp only
    split
    · rename_i he
      rw [List.isEmpty_iff] at he
      exact hrd [] (by rw [he]; rfl)
    · exact hrd _ (by
        rw [childrenAll_toNodes _ _ (by
          intro t ht
          obtain ⟨p, _, rfl⟩ := List.mem_map.mp ht
          rfl), List.map_map]
        rfl)
  · rw [List.map_map]
    exact (sorted_iff_keys s.conds).mp hI.sorted
  · intro c f
    rw [List.mem_map]
    constructor
    · rintro ⟨p, hp, e⟩
      obtain ⟨calls, h1, _⟩ := hmem p hp
      simp only [g, h1, Prod.mk.injEq] at e
      obtain ⟨rfl, rfl⟩ := e
      exact ⟨calls, h1, rfl⟩
    · rintro ⟨calls, h1, rfl⟩
      refine ⟨(c, Cond.build calls), ?_, ?_⟩
      · rw [mem_iff_get hI.sorted, hI.conds, h1]; rfl
      · simp only [g, h1]

/-- C33: after any history of calls, `filter_column` accepts a condition exactly if the column is one of the columns
of the range given last and the condition compares with something. -/
theorem C33_filter_column_accepts (lower : Str → Str) (cfg : Cfg) (hstd : cfg.isStandard) (merge : Fmt → Fmt → Fmt)
    (dflt : Fmt) (ops : List (FOp Fmt)) (s : FSheet Fmt)
    (h : ({ tsheet := TSheet.new cfg merge dflt } : FSheet Fmt).run lower ops = some s) (col : Nat) (calls : List CondCall) :
    (s.filterColumn col (Cond.build calls)).isSome = true ↔
      (∃ d, (filterState ops).range = some d ∧ d.firstCol ≤ col ∧ col ≤ d.lastCol) ∧ ∃ x ∈ calls, x ≠ .customOr := by
  have hI := (FInv.new (dflt := dflt) hstd merge).run ops h
  change FInv cfg dflt s (filterState ops) at hI
  rw [filterColumn_spec hI]
  have h1 : inColumns (filterState ops).range col = true ↔
      ∃ d, (filterState ops).range = some d ∧ d.firstCol ≤ col ∧ col ≤ d.lastCol := by
    cases (filterState ops).range <;> simp [inColumns]
  have h2 : saysSomething calls = true ↔ ∃ x ∈ calls, x ≠ .customOr := by
    unfold saysSomething
    rw [List.any_eq_true]
    constructor
    · rintro ⟨x, hx, e⟩; exact ⟨x, hx, by rintro rfl; cases e⟩
    · rintro ⟨x, hx, e⟩; exact ⟨x, hx, by cases x <;> first | rfl | exact absurd rfl e⟩
  rw [← h1, ← h2]
  split
  · rename_i hc; exact ⟨fun _ => hc, fun _ => rfl⟩
  · rename_i hc; exact ⟨nofun, fun q => absurd q hc⟩

/-! ### Where it goes wrong, and a sample -/

/-- A column of numbers and texts below a header, with a filter. -/
def filterDemo (calls : List CondCall) : List (FOp Nat) :=
  [.base (.cell (.string 0 0 "Head".toList none)), .base (.cell (.number 1 0 (.finite "5".toList) none)),
   .base (.cell (.string 2 0 " East ".toList none)), .base (.cell (.string 3 0 "west".toList none)),
   .base (.cell (.rowHidden 7)), .base (.autofilter ⟨0, 0, 4, 0⟩), .filterColumn 0 calls]

/-- The lower case of ASCII letters. -/
def asciiLower (s : Str) : Str := s.map Char.toLower

/-- F14: the documented filter for non-blanks, "not equal to a space", hides a row with a number. -/
theorem C33_text_value_counterexample (cmp : Str → Str → Ordering) :
    ∃ s s', ({ tsheet := TSheet.new {} (fun a _ => a) 0 } : FSheet Nat).run asciiLower
        (filterDemo [.addCustom .notEqualTo (.text " ".toList)]) = some s ∧
      s.hideRows cmp asciiLower = some s' ∧
      readContent (s.tsheet.sheet.saveRows SST.new) 1 0 = .number "5".toList ∧
      ¬ (filterState (filterDemo [.addCustom .notEqualTo (.text " ".toList)])).filteredOut cmp asciiLower 1
        (readContent (s.tsheet.sheet.saveRows SST.new) 1) ∧
      rowIsHidden (s'.saveRows SST.new) 1 := by
  refine ⟨_, _, rfl, rfl, by decide +kernel, ?_, _, rfl, by decide +kernel⟩
  rintro ⟨_, _, c, calls, hc, ha⟩
  have hc' : c = 0 ∧ calls = [.addCustom .notEqualTo (.text " ".toList)] := by
    change (if c = 0 then some [CondCall.addCustom .notEqualTo (.text " ".toList)] else none) = some calls at hc
    split at hc
    · cases hc; exact ⟨by assumption, rfl⟩
    · cases hc
  obtain ⟨rfl, rfl⟩ := hc'
  apply ha
  refine Or.inr ⟨rfl, ?_⟩
  decide

/-- A filter of A1:C6, a table in column G, a refused filter of E1:G6 and a condition for column F. -/
def refusedFilter : Option (FSheet Nat) := ({ tsheet := TSheet.new {} (fun a _ => a) 0 } : FSheet Nat).run asciiLower
  [.base (.autofilter ⟨0, 0, 5, 2⟩), .base (.table ⟨0, 6, 5, 6⟩ {}), .base (.autofilter ⟨0, 4, 5, 6⟩),
   .filterColumn 5 [.addList (.text "x".toList)]]

/-- F88: after `autofilter()` has been refused because of a table, the conditions refer to the columns of the
refused range, but the written range is the old one: a condition set for column F is written for column B. -/
theorem C33_refused_range_counterexample :
    refusedFilter.map (fun s => (s.tsheet.area, s.tsheet.definedName)) = some (some ⟨0, 0, 5, 2⟩, some ⟨0, 4, 5, 6⟩) ∧
    refusedFilter.map (fun s => s.autoFilter.bind fun t => (parseDoc (writePart t)).bind readAutoFilter) =
      some (some (((0, 0), (5, 2)), [(1, .list ["x".toList] false)])) := by
  constructor <;> decide +kernel

/-- F87: a row hidden by a filter when a workbook is saved stays hidden when the filter is changed and the workbook
is saved again. -/
theorem C33_second_save_counterexample (cmp : Str → Str → Ordering) :
    ∃ s s1 s2, ({ tsheet := TSheet.new {} (fun a _ => a) 0 } : FSheet Nat).run asciiLower
        (filterDemo [.addList (.text "east".toList)]) = some s ∧
      s.hideRows cmp asciiLower = some s1 ∧ rowIsHidden (s1.saveRows SST.new) 3 ∧
      ∃ u, ({ s with tsheet := { s.tsheet with sheet := s1 } } : FSheet Nat).run asciiLower
          [.filterColumn 0 [.addList (.text "West".toList)]] = some u ∧
        u.hideRows cmp asciiLower = some s2 ∧ rowIsHidden (s2.saveRows SST.new) 3 := by
  refine ⟨_, _, _, rfl, rfl, ⟨_, rfl, by decide +kernel⟩, _, rfl, rfl, ⟨_, rfl, by decide +kernel⟩⟩

/-- Non-trivial case for `C33_hidden_rows_partial` and `C33_filter_written`. -/
example : ∃ s s', ({ tsheet := TSheet.new {} (fun a _ => a) 0 } : FSheet Nat).run asciiLower
      (filterDemo [.addList (.text "EAST".toList), .addBlanks]) = some s ∧
    s.hideRows (fun _ _ => .eq) asciiLower = some s' ∧
    ((List.range 8).map fun r => ((rowSettings (s'.saveRows SST.new) r).map (·.hidden)).getD false) =
      [false, true, false, true, false, false, false, true] ∧
    (s.autoFilter.bind fun t => (parseDoc (writePart t)).bind readAutoFilter) =
      some (((0, 0), (4, 0)), [(0, .list ["EAST".toList] true)]) := by
  refine ⟨_, _, rfl, rfl, by decide +kernel, by decide +kernel⟩

/-- The numbers suit the condition of a number filter. -/
example : ∃ s, ({ tsheet := TSheet.new {} (fun a _ => a) 0 } : FSheet Nat).run asciiLower
      (filterDemo [.addCustom .greaterThan (.number (.finite "3".toList)), .addCustom .lessThan (.number .posInf)]) = some s ∧
    NumbersSuit (filterState (filterDemo [.addCustom .greaterThan (.number (.finite "3".toList)),
      .addCustom .lessThan (.number .posInf)])) (readContent (s.tsheet.sheet.saveRows SST.new)) := by
  refine ⟨_, rfl, ?_⟩
  intro r c calls _ hc v hv n t _
  have hc' : calls = [.addCustom .greaterThan (.number (.finite "3".toList)), .addCustom .lessThan (.number .posInf)] := by
    change (if c = 0 then some [CondCall.addCustom .greaterThan (.number (.finite "3".toList)),
      .addCustom .lessThan (.number .posInf)] else none) = some calls at hc
    split at hc
    · cases hc; rfl
    · cases hc
  subst hc'
  have : v = .number (.finite "3".toList) ∨ v = .number .posInf := by
    simpa [meaning, customs, Meaning.values] using hv
  rcases this with rfl | rfl <;> exact nofun

end Verif
