import Verif.Props.ProtectSetup
/-!
C62: ignored errors and page breaks as a reader of the file sees them. C63: the order of the elements.
-/
namespace Verif
open Spec

variable {s : Setup} {o : SheetRest}

/-! ### Lists of ranges -/

theorem cell_noBlank (r c : Nat) : ' ' ∉ rowColToCell r c := by
  intro h
  simp only [rowColToCell, List.mem_append] at h
  rcases h with h | h
  · exact absurd (List.all_eq_true.mp (columnName_all c) _ h) (by decide)
  · exact absurd (showNat_isDigit h) (by decide)

theorem cellRange_noBlank (r1 c1 r2 c2 : Nat) : ' ' ∉ cellRange r1 c1 r2 c2 := by
  unfold cellRange
  dsimp only
  split
  · exact cell_noBlank _ _
  · intro h
    rcases List.mem_append.mp h with h | h
    · exact cell_noBlank _ _ h
    · rcases List.mem_cons.mp h with h | h
      · exact absurd h (by decide)
      · exact cell_noBlank _ _ h

theorem pieces_whole (acc r : List Char) (h : ' ' ∉ r) :
    piecesFrom (fun c => decide (c = ' ')) acc r = if acc ++ r = [] then [] else [acc ++ r] := by
  induction r generalizing acc with
  | nil => rw [List.append_nil]; rfl
  | cons c r ih =>
    rw [List.mem_cons, not_or] at h
    unfold piecesFrom
    rw [if_neg (by rw [decide_eq_true_iff]; exact fun e => h.1 e.symm), ih _ h.2, List.append_assoc, List.singleton_append]

theorem pieces_snoc (acc t r : List Char) (h : ' ' ∉ r) (hr : r ≠ []) :
    piecesFrom (fun c => decide (c = ' ')) acc (t ++ ' ' :: r) = piecesFrom (fun c => decide (c = ' ')) acc t ++ [r] := by
  induction t generalizing acc with
  | nil =>
    rw [List.nil_append]
    unfold piecesFrom
    rw [if_pos (by decide), pieces_whole [] r h, List.nil_append, if_neg hr]
    split <;> rfl
  | cons c t ih =>
    rw [List.cons_append]
    unfold piecesFrom
    split
    · split
      · exact ih []
      · rw [ih [], List.cons_append]
    · exact ih _

theorem cellRange_ne_nil (r1 c1 r2 c2 : Nat) : cellRange r1 c1 r2 c2 ≠ [] := by
  intro h
  have := cellRange_ne r1 c1 r2 c2
  rw [h] at this
  cases this

theorem ranges_one (d : Dims) : rangesOfSqref (cellRange d.firstRow d.firstCol d.lastRow d.lastCol) = [some (dimsCorners d)] := by
  unfold rangesOfSqref pieces
  rw [pieces_whole [] _ (cellRange_noBlank _ _ _ _), List.nil_append, if_neg (cellRange_ne_nil _ _ _ _), List.map_singleton,
    C02_range_roundtrip]
  rfl

theorem ranges_snoc (t : Str) (d : Dims) :
    rangesOfSqref (t ++ ' ' :: cellRange d.firstRow d.firstCol d.lastRow d.lastCol) = rangesOfSqref t ++ [some (dimsCorners d)] := by
  unfold rangesOfSqref pieces
  rw [pieces_snoc [] t _ (cellRange_noBlank _ _ _ _) (cellRange_ne_nil _ _ _ _), List.map_append, List.map_singleton, C02_range_roundtrip]
  rfl

/-! ### Ignored errors -/

/-- The ranges of an error in the settings. -/
def ignoredRanges (e : IgnoreError) (m : List (IgnoreError × Str)) : List (Option ((Nat × Nat) × (Nat × Nat))) :=
  match m.lookup e with
  | none => []
  | some t => rangesOfSqref t

theorem ignored_cons (e e' : IgnoreError) (t : Str) (m : List (IgnoreError × Str)) :
    ignoredRanges e ((e', t) :: m) = if e = e' then rangesOfSqref t else ignoredRanges e m := by
  unfold ignoredRanges
  rw [List.lookup_cons]
  by_cases h : e = e'
  · rw [if_pos h, beq_iff_eq.mpr h]
  · rw [if_neg h, show (e == e') = false from by simpa using h]

theorem ignored_add (e e' : IgnoreError) (d : Dims) (m : List (IgnoreError × Str)) :
    ignoredRanges e (addIgnored e' (cellRange d.firstRow d.firstCol d.lastRow d.lastCol) m) =
      ignoredRanges e m ++ if e' = e then [some (dimsCorners d)] else [] := by
  induction m with
  | nil =>
    unfold addIgnored
    rw [ignored_cons, ranges_one]
    by_cases h : e' = e
    · rw [if_pos h.symm, if_pos h]; rfl
    · rw [if_neg (fun x => h x.symm), if_neg h]; rfl
  | cons q m ih =>
    obtain ⟨x, t⟩ := q
    unfold addIgnored
    by_cases h : x = e'
    · rw [if_pos h, ignored_cons, ignored_cons, ranges_snoc]
      subst h
      by_cases h2 : e = x
      · rw [if_pos h2, if_pos h2, if_pos h2.symm]
      · rw [if_neg h2, if_neg h2, if_neg (fun y => h2 y.symm), List.append_nil]
    · rw [if_neg h, ignored_cons, ignored_cons, ih]
      by_cases h2 : e = x
      · rw [if_pos h2, if_pos h2, if_neg (fun y => h (h2.symm.trans y.symm)), List.append_nil]
      · rw [if_neg h2, if_neg h2]

theorem run_ignored (e : IgnoreError) (calls : List SetupCall) (s : Setup) :
    ignoredRanges e (s.run calls).ignoredErrors = ignoredRanges e s.ignoredErrors ++ (ignoredMeant e s.ignoredCells calls).map some := by
  induction calls generalizing s with
  | nil => rw [show ignoredMeant e s.ignoredCells [] = [] from rfl, List.map_nil, List.append_nil]; rfl
  | cons c calls ih =>
    show ignoredRanges e ((s.exec c).2.run calls).ignoredErrors = _
    rw [ih]
    by_cases hc : ∃ d e', c = .ignoreError d e'
    · obtain ⟨d, e', rfl⟩ := hc
      have hm : ignoredMeant e s.ignoredCells (.ignoreError d e' :: calls) = if GoodRange d ∧ d ∉ s.ignoredCells then
          (if e' = e then dimsCorners d :: ignoredMeant e (d :: s.ignoredCells) calls else ignoredMeant e (d :: s.ignoredCells) calls)
          else ignoredMeant e s.ignoredCells calls := by rw [ignoredMeant]
      rw [hm]
      by_cases hg : GoodRange d ∧ d ∉ s.ignoredCells
      · rw [if_pos hg]
        obtain ⟨g1, g2⟩ := (goodRange_iff d).mpr hg.1
        have hx : (s.exec (.ignoreError d e')).2 = { s with ignoredCells := d :: s.ignoredCells, ignoredErrors := addIgnored e' (cellRange d.firstRow d.firstCol d.lastRow d.lastCol) s.ignoredErrors } := by
          simp only [Setup.exec]
          rw [if_pos g1, if_neg g2, if_neg hg.2]
        rw [hx]
        dsimp only
        rw [ignored_add]
        split
        · rw [List.map_cons, List.append_assoc]; rfl
        · rw [List.append_nil]
      · rw [if_neg hg]
        have hx : (s.exec (.ignoreError d e')).2 = s := by
          simp only [Setup.exec]
          split
          · rename_i g1
            split
            · rfl
            · rename_i g2
              split
              · rfl
              · rename_i g3
                exact absurd ⟨(goodRange_iff d).mp ⟨g1, g2⟩, g3⟩ hg
          · rfl
        rw [hx]
    · have h1 : (s.exec c).2.ignoredErrors = s.ignoredErrors ∧ (s.exec c).2.ignoredCells = s.ignoredCells := by
        constructor <;> cases c <;> simp only [Setup.exec] <;> (repeat' split) <;> first
          | rfl
          | exact (hc ⟨_, _, rfl⟩).elim
      have h2 : ignoredMeant e s.ignoredCells (c :: calls) = ignoredMeant e s.ignoredCells calls := by
        cases c <;> first
          | rw [ignoredMeant]; done
          | (rw [ignoredMeant]; intro _ _ y; cases y; done)
          | exact (hc ⟨_, _, rfl⟩).elim
      rw [h1.1, h1.2, h2]

theorem sections_ignored (s : Setup) (o : SheetRest) : (worksheetSections s o).lookup "ignoredErrors".toList =
    some (if s.ignoredErrors.isEmpty then [] else [s.ignoredErrorsTree]) := by
  unfold worksheetSections; sec_look

/-- The element of an error. -/
def errorTree (m : List (IgnoreError × Str)) (e : IgnoreError) : Option Tree :=
  (m.lookup e).map fun sqref => .empty "ignoredError".toList [("sqref".toList, sqref), (e.name, "1".toList)]

theorem flag_errorTree (e e' : IgnoreError) (t : Str) (h : e ≠ .twoDigitTextYear) :
    (attrFlag (errorAttr e) false [("sqref".toList, t), (e'.name, "1".toList)] == some true) = decide (e' = e) := by
  have hs : errorAttr e ≠ "sqref".toList := by cases e <;> decide
  have hn : errorAttr e = e'.name ↔ e' = e := by cases e <;> cases e' <;> first | exact absurd rfl h | decide
  unfold attrFlag
  rw [look_ne hs]
  by_cases he : e' = e
  · rw [hn.mpr he, look_eq, decide_eq_true he]
    rfl
  · rw [look_ne (fun x => he (hn.mp x)), look_nil, decide_eq_false he]
    rfl

theorem read_errors (e : IgnoreError) (h : e ≠ .twoDigitTextYear) (m : List (IgnoreError × Str)) (l : List IgnoreError) (hl : l.Nodup) :
    (((l.filterMap (errorTree m)).map treeParts).filter fun x => attrFlag (errorAttr e) false x.1 == some true).flatMap
      (fun x => rangesOfSqref ((x.1.lookup "sqref".toList).getD [])) = if e ∈ l then ignoredRanges e m else [] := by
  induction l with
  | nil => rfl
  | cons x l ih =>
    rw [List.nodup_cons] at hl
    have ih := ih hl.2
    unfold errorTree at ih ⊢
    rw [List.filterMap_cons]
    unfold ignoredRanges at ih ⊢
    by_cases hx : x = e
    · subst hx
      rw [if_neg hl.1] at ih
      rw [if_pos List.mem_cons_self]
      cases e1 : m.lookup x with
      | none =>
        simp only [Option.map_none]
        exact ih
      | some t =>
        simp only [Option.map_some, List.map_cons, treeParts]
        rw [List.filter_cons_of_pos (by rw [flag_errorTree x x t h]; exact decide_eq_true rfl), List.flatMap_cons, ih, look_eq,
          Option.getD_some, List.append_nil]
    · have hm : (e ∈ x :: l) ↔ e ∈ l := by
        rw [List.mem_cons]
        exact ⟨fun y => y.resolve_left fun z => hx z.symm, Or.inr⟩
      simp only [hm]
      cases e1 : m.lookup x with
      | none =>
        simp only [Option.map_none]
        exact ih
      | some t =>
        simp only [Option.map_some, List.map_cons, treeParts]
        rw [List.filter_cons_of_neg (by rw [flag_errorTree e x t h, decide_eq_false hx]; decide)]
        exact ih

theorem mapM_some_self {α : Type} (l : List α) (f : α → Option α) (h : ∀ n, f n = some n) : l.mapM f = some l := by
  induction l with
  | nil => rfl
  | cons a l ih => rw [List.mapM_cons, h, ih]; rfl

theorem mapM_id_some {α : Type} (l : List α) : (l.map some).mapM id = some l := by
  induction l with
  | nil => rfl
  | cons a l ih => rw [List.map_cons, List.mapM_cons, ih]; rfl

theorem read_ignored (hs : SetupSafe s) (ho : RestOk o) (e : IgnoreError) (h : e ≠ .twoDigitTextYear) :
    readIgnored e (secNodes (worksheetSections s o)) = (ignoredRanges e s.ignoredErrors).mapM id := by
  unfold readIgnored kidsOf
  rw [(secs_worksheet hs ho).child (sections_ignored s o)]
  cases em : s.ignoredErrors with
  | nil => rfl
  | cons q m =>
    simp only [List.isEmpty_cons, Bool.false_eq_true, if_false, List.head?_cons, Option.map_some, Option.getD_some]
    unfold Setup.ignoredErrorsTree
    dsimp only [treeParts]
    have hf : (IgnoreError.all.filterMap (errorTree s.ignoredErrors)).filter (fun x => decide (treeTag x = "ignoredError".toList)) =
        IgnoreError.all.filterMap (errorTree s.ignoredErrors) := List.filter_eq_self.mpr (by
      intro x hx
      obtain ⟨e, -, he⟩ := List.mem_filterMap.mp hx
      unfold errorTree at he
      cases e1 : s.ignoredErrors.lookup e with
      | none => rw [e1] at he; cases he
      | some t => rw [e1] at he; cases he; exact decide_eq_true rfl)
    have hu : IgnoreError.all.filterMap (fun e => (s.ignoredErrors.lookup e).map fun sqref =>
        Tree.empty "ignoredError".toList [("sqref".toList, sqref), (e.name, "1".toList)]) =
        IgnoreError.all.filterMap (errorTree s.ignoredErrors) := rfl
    rw [hu, elems_trees, hf]
    have := read_errors e h s.ignoredErrors IgnoreError.all (by decide)
    rw [if_pos (by cases e <;> decide)] at this
    rw [← em, ← this]

/-- C62: the ranges in which a reader finds a kind of error ignored are those of the accepted calls for it, in their order; a range
that is not on the sheet, has its corners in the wrong order or was given before is refused. Missing: text years with two
digits (`C62_text_years_not_ignored`). -/
theorem C62_ignored_partial (calls : List SetupCall) (h : ∀ c ∈ calls, CallSafe c) (o : SheetRest) (ho : RestOk o) (e : IgnoreError)
    (he : e ≠ .twoDigitTextYear) :
    (parseDoc (writePart (worksheetTree (Setup.run {} calls) o))).bind (inRoot "worksheet".toList (readIgnored e)) =
      some (ignoredMeant e [] calls) := by
  have hs := setupSafe_run h
  rw [C07_part_roundtrip _ (worksheet_ok hs ho), Option.bind_some]
  unfold worksheetTree
  simp only [Tree.toNode, inRoot, if_true]
  rw [show toNodes ((worksheetSections (Setup.run {} calls) o).flatMap (·.2)) = secNodes (worksheetSections (Setup.run {} calls) o) from rfl,
    read_ignored hs ho e he, run_ignored e calls {}]
  exact mapM_id_some _

/-- Two ranges for an error, and one for another. -/
theorem C62_witness :
    ignoredMeant .formulaError [] [.ignoreError ⟨0, 0, 3, 1⟩ .formulaError, .ignoreError ⟨0, 0, 3, 1⟩ .numberStoredAsText,
      .ignoreError ⟨5, 5, 5, 5⟩ .numberStoredAsText, .ignoreError ⟨7, 2, 9, 2⟩ .formulaError] = [((0, 0), (3, 1)), ((7, 2), (9, 2))] ∧
    ∀ c ∈ [SetupCall.ignoreError ⟨0, 0, 3, 1⟩ .formulaError, .ignoreError ⟨0, 0, 3, 1⟩ .numberStoredAsText,
      .ignoreError ⟨5, 5, 5, 5⟩ .numberStoredAsText, .ignoreError ⟨7, 2, 9, 2⟩ .formulaError], CallSafe c := by
  refine ⟨by decide +kernel, fun c hc => ?_⟩
  simp only [List.mem_cons, List.not_mem_nil, or_false] at hc
  rcases hc with rfl | rfl | rfl | rfl <;> trivial

/-- F37: the attribute for text years with two digits has a name that does not exist, so a reader does not ignore them. -/
theorem C62_text_years_not_ignored :
    ignoredMeant .twoDigitTextYear [] [.ignoreError ⟨0, 0, 3, 1⟩ .twoDigitTextYear] = [((0, 0), (3, 1))] ∧
    (parseDoc (writePart (worksheetTree (Setup.run {} [.ignoreError ⟨0, 0, 3, 1⟩ .twoDigitTextYear]) {}))).bind
      (inRoot "worksheet".toList (readIgnored .twoDigitTextYear)) = some [] := by
  refine ⟨by decide +kernel, ?_⟩
  rw [callSafe_all fun c hc => by rw [List.mem_singleton] at hc; subst hc; trivial]
  decide +kernel

/-! ### Page breaks -/

theorem sections_rowBreaks (s : Setup) (o : SheetRest) : (worksheetSections s o).lookup "rowBreaks".toList =
    some (if o.rowBreaks.isEmpty then [] else [breaksTree "rowBreaks".toList "16383".toList o.rowBreaks]) := by
  unfold worksheetSections; sec_look

theorem sections_colBreaks (s : Setup) (o : SheetRest) : (worksheetSections s o).lookup "colBreaks".toList =
    some (if o.colBreaks.isEmpty then [] else [breaksTree "colBreaks".toList "1048575".toList o.colBreaks]) := by
  unfold worksheetSections; sec_look

theorem breaks_elems (tag max : Str) (l : List Nat) : elems "brk".toList (treeParts (breaksTree tag max l)).2 =
    l.map fun n => ([("id".toList, showNat n), ("max".toList, max), ("man".toList, "1".toList)], []) := by
  unfold breaksTree
  dsimp only [treeParts]
  rw [elems_trees, List.filter_eq_self.mpr (by
    intro x hx
    obtain ⟨n, hn, rfl⟩ := List.mem_map.mp hx
    exact decide_eq_true rfl), List.map_map]
  rfl

theorem read_breaks {tag max : Str} {last : Nat} (hm : readNat max = some last) (l : List Nat) (ks : List Node)
    (hk : child tag ks = (if l.isEmpty then [] else [breaksTree tag max l]).head?.map treeParts) :
    readBreaks tag last ks = some l := by
  unfold readBreaks
  rw [hk]
  cases e : l.isEmpty
  · simp only [Bool.false_eq_true, if_false, List.head?_cons, Option.map_some]
    rw [breaks_elems, List.length_map]
    have h1 : attrNat "count".toList (treeParts (breaksTree tag max l)).1 = some l.length := by
      unfold breaksTree attrNat; look_attrs; rw [Option.bind_some, readNat_showNat]
    have h2 : attrNat "manualBreakCount".toList (treeParts (breaksTree tag max l)).1 = some l.length := by
      unfold breaksTree attrNat; look_attrs; rw [Option.bind_some, readNat_showNat]
    rw [if_pos ⟨h1, h2⟩, mapM_map]
    refine mapM_some_self l _ fun n => ?_
    have h3 : attrNat "max".toList [("id".toList, showNat n), ("max".toList, max), ("man".toList, "1".toList)] = some last := by
      unfold attrNat; look_attrs; rw [Option.bind_some, hm]
    have h4 : attrFlag "man".toList false [("id".toList, showNat n), ("max".toList, max), ("man".toList, "1".toList)] = some true := by
      unfold attrFlag; look_attrs; rfl
    have h5 : attrNat "id".toList [("id".toList, showNat n), ("max".toList, max), ("man".toList, "1".toList)] = some n := by
      unfold attrNat; look_attrs; rw [Option.bind_some, readNat_showNat]
    dsimp only
    rw [if_pos ⟨h3, h4⟩, h5]
  · rw [List.isEmpty_iff.mp e]
    rfl

/-- C62: the page breaks that a reader finds in the file are those of the worksheet, across all columns or all rows. -/
theorem C62_page_breaks (calls : List SetupCall) (h : ∀ c ∈ calls, CallSafe c) (o : SheetRest) (ho : RestOk o) :
    (parseDoc (writePart (worksheetTree (Setup.run {} calls) o))).bind
      (inRoot "worksheet".toList (readBreaks "rowBreaks".toList 16383)) = some o.rowBreaks ∧
    (parseDoc (writePart (worksheetTree (Setup.run {} calls) o))).bind
      (inRoot "worksheet".toList (readBreaks "colBreaks".toList 1048575)) = some o.colBreaks := by
  have hs := setupSafe_run h
  rw [C07_part_roundtrip _ (worksheet_ok hs ho), Option.bind_some, Option.bind_some]
  unfold worksheetTree
  simp only [Tree.toNode, inRoot, if_true]
  exact ⟨read_breaks (by decide +kernel) _ _ ((secs_worksheet hs ho).child (sections_rowBreaks _ o)),
    read_breaks (by decide +kernel) _ _ ((secs_worksheet hs ho).child (sections_colBreaks _ o))⟩

/-! ### The order of the elements -/

theorem tagsOf_trees (ts : List Tree) : tagsOf (toNodes ts) = ts.map treeTag := by
  induction ts with
  | nil => rfl
  | cons t ts ih => rw [toNodes, toNode_parts]; simp only [tagsOf, ih, List.map_cons]

/-- Sections of at most one element each, but for some, that are in the order of a schema. -/
theorem secs_order {order rep : List Text} {secs : List (Str × List Tree)} (h : SecsOk secs)
    (hin : ∀ p ∈ secs, p.2 ≠ [] → p.1 ∈ order)
    (hord : (secs.map Prod.fst).Pairwise fun a b => order.idxOf a < order.idxOf b)
    (hone : ∀ p ∈ secs, p.2.length ≤ 1 ∨ p.1 ∈ rep) : InOrder order rep (tagsOf (secNodes secs)) := by
  unfold secNodes
  rw [tagsOf_trees]
  constructor
  · intro t ht
    obtain ⟨x, hx, rfl⟩ := List.mem_map.mp ht
    obtain ⟨p, hp, hx⟩ := List.mem_flatMap.mp hx
    rw [(h p hp x hx).2]
    exact hin p hp (List.ne_nil_of_mem hx)
  · induction secs with
    | nil => exact List.Pairwise.nil
    | cons p secs ih =>
      rw [List.flatMap_cons, List.map_append, List.pairwise_append]
      rw [List.map_cons, List.pairwise_cons] at hord
      have hp := h p List.mem_cons_self
      refine ⟨?_, ih (fun q hq => h q (List.mem_cons_of_mem _ hq)) (fun q hq => hin q (List.mem_cons_of_mem _ hq)) hord.2
        (fun q hq => hone q (List.mem_cons_of_mem _ hq)), ?_⟩
      · have ht : ∀ t ∈ p.2.map treeTag, t = p.1 := by
          intro t ht
          obtain ⟨x, hx, rfl⟩ := List.mem_map.mp ht
          exact (hp x hx).2
        rcases hone p List.mem_cons_self with h1 | h1
        · cases e : p.2 with
          | nil => exact List.Pairwise.nil
          | cons x r =>
            rw [e] at h1
            cases r with
            | nil => exact List.pairwise_singleton _ _
            | cons y r => simp at h1
        · refine List.Pairwise.imp_of_mem (R := fun _ _ => True) (fun {a b} ha hb _ => ?_) (List.pairwise_of_forall fun _ _ => trivial)
          rw [ht a ha, ht b hb]
          exact Or.inr ⟨rfl, h1⟩
      · intro a ha b hb
        obtain ⟨x, hx, rfl⟩ := List.mem_map.mp ha
        obtain ⟨y, hy, rfl⟩ := List.mem_map.mp hb
        obtain ⟨q, hq, hy⟩ := List.mem_flatMap.mp hy
        rw [(hp x hx).2, (h q (List.mem_cons_of_mem _ hq) y hy).2]
        exact Or.inl (hord.1 _ (List.mem_map_of_mem hq))

theorem length_opt (o : Option Tree) : o.toList.length ≤ 1 := by cases o <;> simp

theorem length_if {b : Prop} [Decidable b] (x : Tree) : (if b then [x] else []).length ≤ 1 := by split <;> simp

theorem length_if' {b : Prop} [Decidable b] (x : Tree) : (if b then [] else [x]).length ≤ 1 := by split <;> simp

theorem length_sheetPr (s : Setup) (o : SheetRest) (c : Bool) : (s.sheetPrTrees o c).length ≤ 1 := by
  unfold Setup.sheetPrTrees
  dsimp only
  split
  · exact Nat.zero_le _
  · split <;> exact Nat.le_refl 1

theorem one_cons {rep : List Text} {q : Str × List Tree} {secs : List (Str × List Tree)} (h : q.2.length ≤ 1 ∨ q.1 ∈ rep)
    (hr : ∀ p ∈ secs, p.2.length ≤ 1 ∨ p.1 ∈ rep) : ∀ p ∈ q :: secs, p.2.length ≤ 1 ∨ p.1 ∈ rep := by
  intro p hp
  rcases List.mem_cons.mp hp with rfl | hp
  · exact h
  · exact hr p hp

macro "one_tac" : tactic =>
  `(tactic| first
      | exact Or.inl (length_sheetPr _ _ _)
      | exact Or.inl (length_opt _)
      | exact Or.inl (length_if _)
      | exact Or.inl (length_if' _)
      | exact Or.inl (Nat.le_refl 1)
      | exact Or.inr List.mem_cons_self)

/-- C63: the elements of a worksheet part are those of the schema in its order, each at most once except for conditional formats,
whatever the settings and the other contents of the worksheet. -/
theorem C63_worksheet_order (calls : List SetupCall) (h : ∀ c ∈ calls, CallSafe c) (o : SheetRest) (ho : RestOk o) :
    ∃ as ks, parseDoc (writePart (worksheetTree (Setup.run {} calls) o)) = some (.elem "worksheet".toList as ks) ∧
      InOrder worksheetOrder ["conditionalFormatting".toList] (tagsOf ks) := by
  have hs := setupSafe_run h
  rw [C07_part_roundtrip _ (worksheet_ok hs ho)]
  refine ⟨_, secNodes (worksheetSections (Setup.run {} calls) o), rfl, secs_order (worksheet_secs hs ho) ?_ ?_ ?_⟩
  · have : ∀ n ∈ (worksheetSections (Setup.run {} calls) o).map Prod.fst, n ∈ worksheetOrder := by
      unfold worksheetSections
      simp only [List.map_cons, List.map_nil]
      decide
    exact fun p hp _ => this _ (List.mem_map_of_mem hp)
  · unfold worksheetSections
    simp only [List.map_cons, List.map_nil]
    decide +kernel
  · unfold worksheetSections
    repeat refine one_cons (by one_tac) ?_
    intro p hp
    cases hp

theorem chartsheet_unprotected (calls : List SetupCall) (hc : ∀ c ∈ calls, notOnChartsheet c = false) (s : Setup)
    (h : s.unprotected = []) : (s.run calls).unprotected = [] := by
  induction calls generalizing s with
  | nil => exact h
  | cons c calls ih =>
    refine ih (fun x hx => hc x (List.mem_cons_of_mem _ hx)) (s.exec c).2 ?_
    have := hc c List.mem_cons_self
    cases c <;> (try simp only [Setup.exec]) <;> (repeat' split) <;> first
      | exact h
      | cases this

theorem chartsheet_printOptions (calls : List SetupCall) (hc : ∀ c ∈ calls, notOnChartsheet c = false) (s : Setup)
    (h : s.printOptionsChanged = false) : (s.run calls).printOptionsChanged = false := by
  induction calls generalizing s with
  | nil => exact h
  | cons c calls ih =>
    refine ih (fun x hx => hc x (List.mem_cons_of_mem _ hx)) (s.exec c).2 ?_
    have := hc c List.mem_cons_self
    cases c <;> (try simp only [Setup.exec]) <;> (repeat' split) <;> first
      | exact h
      | cases this

theorem keep_section {n : Str} {v : List Tree} {l : List (Str × List Tree)} (h : n ∈ chartsheetOrder) :
    ((n, v) :: l).filter (fun p => decide (p.1 ∈ chartsheetOrder)) = (n, v) :: l.filter (fun p => decide (p.1 ∈ chartsheetOrder)) :=
  List.filter_cons_of_pos (decide_eq_true h)

theorem drop_section {n : Str} {v : List Tree} {l : List (Str × List Tree)} (h : n ∉ chartsheetOrder) :
    ((n, v) :: l).filter (fun p => decide (p.1 ∈ chartsheetOrder)) = l.filter (fun p => decide (p.1 ∈ chartsheetOrder)) :=
  List.filter_cons_of_neg (fun x => h (of_decide_eq_true x))

/-- C63 for chartsheets without ranges that may be edited and without the print options of worksheets: other chartsheets are not those of
the schema (`C63_chartsheet_print_options`, `C63_chartsheet_ranges`). -/
theorem C63_chartsheet_order_partial (calls : List SetupCall) (h : ∀ c ∈ calls, CallSafe c) (o : SheetRest) (ho : RestOk o)
    (hc : ∀ c ∈ calls, notOnChartsheet c = false) :
    ∃ as ks, parseDoc (writePart (chartsheetTree (Setup.run {} calls) o)) = some (.elem "chartsheet".toList as ks) ∧
      InOrder chartsheetOrder [] (tagsOf ks) := by
  have hs := setupSafe_run h
  have h1 := chartsheet_unprotected calls hc {} rfl
  have h2 := chartsheet_printOptions calls hc {} rfl
  rw [C07_part_roundtrip _ (chartsheet_ok hs ho)]
  have hsec := chartsheet_secs hs ho
  refine ⟨_, secNodes (chartsheetSections (Setup.run {} calls) o), rfl, ?_⟩
  have hf : secNodes (chartsheetSections (Setup.run {} calls) o) =
      secNodes ((chartsheetSections (Setup.run {} calls) o).filter fun p => p.1 ∈ chartsheetOrder) := by
    unfold chartsheetSections secNodes
    rw [h1, h2]
    simp (discharger := decide) only [keep_section, drop_section, List.filter_nil]
    rfl
  rw [hf]
  refine secs_order (fun p hp => hsec p (List.mem_filter.mp hp).1) ?_ ?_ ?_
  · intro p hp _
    simpa using (List.mem_filter.mp hp).2
  · unfold chartsheetSections
    simp (discharger := decide) only [keep_section, drop_section, List.filter_nil, List.map_cons, List.map_nil]
    decide +kernel
  · have h3 : ∀ p ∈ chartsheetSections (Setup.run {} calls) o, p.2.length ≤ 1 ∨ p.1 ∈ ([] : List Text) := by
      unfold chartsheetSections
      repeat refine one_cons (by one_tac) ?_
      intro p hp
      cases hp
    exact fun p hp => h3 p (List.mem_filter.mp hp).1

/-- F119: the print options of a worksheet are written to a chartsheet, whose schema does not have them. -/
theorem C63_chartsheet_print_options :
    ∃ as ks, parseDoc (writePart (chartsheetTree (Setup.run {} [.centerHorizontally true]) {})) = some (.elem "chartsheet".toList as ks) ∧
      "printOptions".toList ∈ tagsOf ks ∧ "printOptions".toList ∉ chartsheetOrder := by
  have hs := setupSafe_run (calls := [.centerHorizontally true]) (by intro c hc; rw [List.mem_singleton] at hc; subst hc; trivial)
  rw [C07_part_roundtrip _ (chartsheet_ok hs restOk_empty)]
  exact ⟨_, _, rfl, by decide +kernel, by decide⟩

/-- F118: ranges that may be edited are written to a chartsheet, whose schema does not have them. -/
theorem C63_chartsheet_ranges :
    ∃ as ks, parseDoc (writePart (chartsheetTree (Setup.run {} [.unprotectRange ⟨0, 0, 3, 1⟩ [] []]) {})) = some (.elem "chartsheet".toList as ks) ∧
      "protectedRanges".toList ∈ tagsOf ks ∧ "protectedRanges".toList ∉ chartsheetOrder := by
  have hs := setupSafe_run (calls := [.unprotectRange ⟨0, 0, 3, 1⟩ [] []]) (by
    intro c hc; rw [List.mem_singleton] at hc; subst hc; rfl)
  rw [C07_part_roundtrip _ (chartsheet_ok hs restOk_empty)]
  exact ⟨_, _, rfl, by decide +kernel, by decide⟩

/-- F117: the children of `sheetPr` are not in the order of the schema. -/
theorem C63_sheet_properties_swapped :
    (parseDoc (writePart (worksheetTree (Setup.run {} [.fitToPages 1 1, .tabColor .red]) {}))).bind
      (inRoot "worksheet".toList fun ks => (child "sheetPr".toList ks).map fun e => tagsOf e.2) =
        some ["pageSetUpPr".toList, "tabColor".toList] ∧
    ¬ InOrder sheetPrOrder [] ["pageSetUpPr".toList, "tabColor".toList] := by
  constructor
  · rw [callSafe_all fun c hc => by
      simp only [List.mem_cons, List.not_mem_nil, or_false] at hc
      rcases hc with rfl | rfl <;> trivial]
    decide +kernel
  · intro h
    have := (List.pairwise_cons.mp h.2).1 _ List.mem_cons_self
    revert this
    decide

end Verif
