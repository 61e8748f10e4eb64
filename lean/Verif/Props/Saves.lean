import Verif.Lemmas.Saves
import Verif.Lemmas.StreamLast
import Verif.Props.Sheet
/-!
C18: a workbook can be saved, edited and saved again.

`savedAfter cfgs merge dflt evs extra` is what `save()` writes for a workbook with worksheets `cfgs`
after the history `evs` of calls on the worksheets and earlier calls of `save()`, each of which
succeeded or failed at any of the points where it can fail.  `callsOf evs` are the calls alone.
-/
set_option linter.unusedSectionVars false
namespace Verif
open BMap
variable {Fmt : Type} [DecidableEq Fmt]

section
variable (cfgs : List Cfg) (merge : Fmt → Fmt → Fmt) (dflt : Fmt) (evs : List (Event Fmt)) (extra : List Fmt)

theorem history_inv : BookInv cfgs dflt (StdR dflt) ((Book.new cfgs merge dflt).history evs) (callsOf evs) := by
  have := (StdR.book cfgs merge dflt []).history evs
  exact this

/-- C18: whatever saves were made before, and whether they succeeded, a reader of the file finds
in each cell of a standard worksheet what the last call that affected the cell put there. -/
theorem C18_cells (siOrder : List (Str × Nat))
    (hsi : siOrder.Perm (savedAfter cfgs merge dflt evs extra).sst.strings) (i : Nat) (cfg : Cfg)
    (hc : cfgs[i]? = some cfg) (hstd : cfg.isStandard) :
    ∃ s, (savedAfter cfgs merge dflt evs extra).sheets[i]? = some s ∧
      ∀ r c, readVia (sstList siOrder) s.rows r c = specContent cfg (opsFor i (callsOf evs)) r c :=
  inv_C09_last_write_wins (history_inv cfgs merge dflt evs) extra siOrder hsi i cfg hc hstd

/-- C18: the rows and cells are in order and no cell is written twice. -/
theorem C18_rows_in_order (i : Nat) (cfg : Cfg) (hc : cfgs[i]? = some cfg) (hstd : cfg.isStandard) :
    ∃ s, (savedAfter cfgs merge dflt evs extra).sheets[i]? = some s ∧ rowMajor s.rows :=
  inv_C09_rows_in_order (history_inv cfgs merge dflt evs) extra i cfg hc hstd

/-- C18: in worksheets of every mode the string ids, some of them assigned by earlier saves, are
those of the strings. -/
theorem C18_string_ids (siOrder : List (Str × Nat))
    (hsi : siOrder.Perm (savedAfter cfgs merge dflt evs extra).sst.strings) (i : Nat) (s : Sheet Fmt)
    (hs : (savedAfter cfgs merge dflt evs extra).sheets[i]? = some s) :
    ∀ e ∈ cellsOf s.rows, e.2.2.1.resolvesIn (sstList siOrder) :=
  inv_C08_string_ids_resolve (history_inv cfgs merge dflt evs) extra siOrder hsi i s hs

/-- C18: the shared string part still has no duplicates. -/
theorem C18_strings_unique (siOrder : List (Str × Nat))
    (hsi : siOrder.Perm (savedAfter cfgs merge dflt evs extra).sst.strings) :
    (sstList siOrder).Nodup ∧
    (savedAfter cfgs merge dflt evs extra).sst.unique = (sstList siOrder).length :=
  inv_C08_strings_unique (history_inv cfgs merge dflt evs) extra siOrder hsi

/-- C18: every style index written is in the style list, in worksheets of every mode. -/
theorem C18_style_indices (xfOrder : List (Fmt × Nat))
    (hxf : xfOrder.Perm (savedAfter cfgs merge dflt evs extra).gxf) (i : Nat) (cfg : Cfg)
    (hc : cfgs[i]? = some cfg) (hcfg : cfg.isReachable) (s : Sheet Fmt)
    (hs : (savedAfter cfgs merge dflt evs extra).sheets[i]? = some s) :
    ∀ e ∈ cellsOf s.rows, ((xfList xfOrder)[e.2.2.2]?).isSome :=
  inv_C13_style_indices_valid (history_inv cfgs merge dflt evs) extra xfOrder hxf i cfg hc hcfg s hs

/-- C18 (partial as `C13_explicit_format_written_partial` is): the format of a cell is the last one
given, whatever saves were made before. -/
theorem C18_formats_partial (xfOrder : List (Fmt × Nat))
    (hxf : xfOrder.Perm (savedAfter cfgs merge dflt evs extra).gxf) (i : Nat) (cfg : Cfg)
    (hc : cfgs[i]? = some cfg) (hstd : cfg.isStandard) (r c : Nat) (f : Fmt)
    (hf : specFmt cfg (opsFor i (callsOf evs)) r c = some f) (hne : f ≠ dflt)
    (hdyn : ∀ op ∈ opsFor i (callsOf evs), op.isDynamicWithFormat = false)
    (hrange : (∀ op ∈ opsFor i (callsOf evs), op.isRangeFormat = false) ∨
      specContent cfg (opsFor i (callsOf evs)) r c ≠ .blank) :
    ∃ s x, (savedAfter cfgs merge dflt evs extra).sheets[i]? = some s ∧
      readStyle s.rows r c = some x ∧ (xfList xfOrder)[x]? = some f :=
  inv_C13_explicit_format_written_partial (history_inv cfgs merge dflt evs) extra xfOrder hxf i cfg hc hstd r c f
    hf hne hdyn hrange

/-- A standard worksheet is not changed by writing it to the package. -/
private theorem package_std {b : Book Fmt} (h : ∀ s ∈ b.sheets, s.cfg.constMem = false) (n : Nat) :
    b.package n = b := by
  have hp : ∀ l : List (Sheet Fmt), (∀ s ∈ l, s.cfg.constMem = false) → l.map Sheet.packaged = l := by
    intro l hl
    induction l with
    | nil => rfl
    | cons s l ih =>
      have e : s.packaged = s := by
        unfold Sheet.packaged; rw [hl s List.mem_cons_self]; simp
      rw [List.map_cons, e, ih (fun t ht => hl t (List.mem_cons_of_mem _ ht))]
  unfold Book.package
  rw [hp _ (fun s hs => h s (List.mem_of_mem_take hs)), List.take_append_drop]

/-- C18: in a workbook of standard worksheets a call of `save()`, whether it succeeds or fails and
wherever it fails, does not change what the next `save()` writes: the cells with their string ids
and style indices, the string table with its counts, and the list of formats are the same. -/
theorem C18_save_leaves_no_trace (hstd : ∀ cfg ∈ cfgs, cfg.isStandard) (result : SaveEnd) :
    savedAfter cfgs merge dflt (evs ++ [.save extra result]) extra = savedAfter cfgs merge dflt evs extra := by
  have hb := history_inv cfgs merge dflt evs
  have hh : (Book.new cfgs merge dflt).history (evs ++ [.save extra result]) =
      ((Book.new cfgs merge dflt).history evs).saved extra result := by
    simp [Book.history, Book.step]
  unfold savedAfter
  rw [hh]
  generalize (Book.new cfgs merge dflt).history evs = b at hb
  have hP := hb.prepare extra
  have hc : ∀ s ∈ (b.prepare extra).sheets, s.cfg.constMem = false := by
    intro s hs
    obtain ⟨i, hi⟩ := List.getElem?_of_mem hs
    exact (hstd _ (List.mem_of_getElem? (hP.cfg i s hi))).1
  have he := regFormats_spec extra hb.gxfI
  have hr := regSheets_spec b.sheets he.1
  have e1 : regFormats extra (regFormats extra b.gxf).2 = ((regFormats extra b.gxf).1, (regFormats extra b.gxf).2) :=
    regFormats_again extra hb.gxfI he.1 (TblGrow.refl _)
  have e2 : regFormats extra (regSheets b.sheets (regFormats extra b.gxf).2).2 =
      ((regFormats extra b.gxf).1, (regSheets b.sheets (regFormats extra b.gxf).2).2) :=
    regFormats_again extra hb.gxfI hr.1 hr.2.1
  cases result with
  | names =>
    unfold Book.saved Book.registerExtra Book.prepare
    dsimp only
    rw [e1]
  | content =>
    unfold Book.saved Book.registerSheets Book.registerExtra Book.prepare
    dsimp only
    rw [e2]
    dsimp only
    rw [regSheets_again b.sheets he.1 hr.1 (TblGrow.refl _)]
  | file n =>
    unfold Book.saved
    dsimp only
    rw [package_std hc, prepare_again hb]
  | done =>
    unfold Book.saved
    dsimp only
    rw [package_std hc, prepare_again hb]

end

/-! ### Concrete cases -/

/-- A history with a save in the middle, a failed save, and edits after each. -/
def savesDemo : List (Event Nat) :=
  [.call 0 (.string 0 0 "a".toList (some 3)), .call 0 (.string 1 0 "b".toList none), .save [9] .done,
   .call 0 (.string 0 0 "c".toList none), .call 1 (.string 4 4 "a".toList (some 3)), .save [9] .content,
   .call 0 (.clearCell 1 0), .call 1 (.number 0 0 (.finite "7".toList) (some 5)), .save [9] (.file 1),
   .call 0 (.string 2 2 "b".toList (some 4))]

/-- Two standard worksheets. -/
def savesDemoCfgs : List Cfg := [{}, {}]

example : ∀ cfg ∈ savesDemoCfgs, cfg.isStandard := by
  intro cfg h
  simp only [savesDemoCfgs, List.mem_cons, List.not_mem_nil, or_false, or_self] at h
  subst h; exact ⟨rfl, rfl, rfl, rfl⟩
example : (savedAfter savesDemoCfgs demoMerge 0 savesDemo [9]).sst.strings =
    [("c".toList, 2), ("b".toList, 1), ("a".toList, 0)] := by decide +kernel
example : ((savedAfter savesDemoCfgs demoMerge 0 savesDemo [9]).sheets[0]?).map (fun s =>
    (readVia ["a".toList, "b".toList, "c".toList] s.rows 0 0, readVia ["a".toList, "b".toList, "c".toList] s.rows 1 0,
      readVia ["a".toList, "b".toList, "c".toList] s.rows 2 2)) =
    some (.text "c".toList, .blank, .text "b".toList) := by decide +kernel
example : specFmt {} (opsFor 0 (callsOf savesDemo)) 2 2 = some 4 := by decide +kernel

/-! ### Constant memory mode -/

private theorem flushRows_fields (l : List Nat) (s : Sheet Fmt) :
    (l.foldl Sheet.flushDataRow s).cfg = s.cfg ∧ (l.foldl Sheet.flushDataRow s).changedRows = s.changedRows ∧
    (l.foldl Sheet.flushDataRow s).writeAhead = s.writeAhead.filter (fun p => !l.contains p.1) := by
  induction l generalizing s with
  | nil => exact ⟨rfl, rfl, (List.filter_eq_self.mpr (by simp)).symm⟩
  | cons a l ih =>
    obtain ⟨h1, h2, h3⟩ := ih (s.flushDataRow a)
    refine ⟨h1, h2, ?_⟩
    rw [List.foldl_cons, h3]
    show (s.writeAhead.remove a).filter _ = _
    unfold BMap.remove
    rw [List.filter_filter]
    congr 1
    funext p
    simp only [List.contains_cons, Bool.not_or, ne_eq, decide_not]
    rw [Bool.and_comm]
    rfl

private theorem foldl_max_mem (l : List Nat) : l.foldl max 0 ∈ l ∨ l.foldl max 0 = 0 := by
  suffices H : ∀ (l : List Nat) (k : Nat), l.foldl max k ∈ l ∨ l.foldl max k = k from H l 0
  intro l
  induction l with
  | nil => intro k; exact Or.inr rfl
  | cons a l ih =>
    intro k
    rw [List.foldl_cons]
    rcases ih (max k a) with h | h
    · exact Or.inl (List.mem_cons_of_mem _ h)
    · rw [h]
      by_cases e : k ≤ a
      · left; rw [Nat.max_eq_right e]; exact List.mem_cons_self
      · right; omega

private theorem getLast_max {l : List Nat} (hs : l.Pairwise (· < ·)) {q : Nat} (hq : q ∈ l) : q ≤ l.getLastD 0 := by
  induction l generalizing q with
  | nil => cases hq
  | cons a l ih =>
    cases l with
    | nil => simp at hq; subst hq; exact Nat.le_refl _
    | cons b l =>
      have hs' := List.pairwise_cons.mp hs
      have e : (a :: b :: l).getLastD 0 = (b :: l).getLastD 0 := by simp
      rw [e]
      rcases List.mem_cons.mp hq with rfl | hq
      · exact Nat.le_trans (Nat.le_of_lt (hs'.1 b List.mem_cons_self)) (ih hs'.2 List.mem_cons_self)
      · exact ih hs'.2 hq

/-- C18: a constant memory worksheet with data in its last row is written the same way when the
workbook is saved again. -/
theorem C18_constant_memory_partial (s : Sheet Fmt) (hm : s.cfg.constMem = true)
    (hdata : (s.table.get s.currentRow).isSome) : s.packaged.rows = s.rows := by
  have hp : s.packaged = s.flushLastRow := by unfold Sheet.packaged; rw [if_pos hm]
  rw [hp]
  have hrem := flushLastRow_eq s
  rw [if_pos hdata] at hrem
  have hw : ∀ p ∈ s.writeAhead, p.1 ∈ s.remaining := by
    intro p hp
    unfold Sheet.remaining
    rw [mem_sortDedup]
    refine List.mem_append_left _ ?_
    split
    · exact List.mem_append_left _ (List.mem_map.mpr ⟨p, hp, rfl⟩)
    · exact List.mem_map.mpr ⟨p, hp, rfl⟩
  have hsorted : s.remaining.Pairwise (· < ·) := sortDedup_sorted _
  have hchg : ∀ r, (s.changedRows.get r).isSome → r ≤ s.remaining.getLastD 0 := by
    intro r hr
    have hk : r ∈ s.changedRows.map Prod.fst := mem_keys_iff.mpr hr
    have hmx := (le_foldl_max (s.changedRows.map Prod.fst) 0).2 r hk
    by_cases h : r ≤ s.currentRow
    · refine Nat.le_trans h (getLast_max hsorted ?_)
      unfold Sheet.remaining
      rw [mem_sortDedup]; simp
    · refine getLast_max hsorted ?_
      unfold Sheet.remaining
      rw [mem_sortDedup]
      refine List.mem_append_left _ ?_
      rw [if_pos (by omega)]
      refine List.mem_append_right _ ?_
      rw [List.mem_filter]
      exact ⟨by rw [List.mem_range'_1]; omega, hr⟩
  generalize hn : 1 + s.remaining.getLastD 0 = n at hrem
  have hcn : s.changedRows.get n = none := by
    cases h : s.changedRows.get n with
    | none => rfl
    | some o => have := hchg n (by rw [h]; rfl); omega
  obtain ⟨f1, f2, f3⟩ := flushRows_fields s.remaining s
  have hwn : (s.remaining.foldl Sheet.flushDataRow s).writeAhead = [] := by
    rw [f3, List.filter_eq_nil_iff]
    intro p hp
    simp [hw p hp]
  rw [List.foldl_append, List.foldl_cons, List.foldl_nil] at hrem
  have t1 : s.flushLastRow.currentRow = n := by rw [hrem]; rfl
  have t2 : s.flushLastRow.table = [] := by
    rw [hrem]
    show (match (s.remaining.foldl Sheet.flushDataRow s).writeAhead.get n with
      | some columns => [(n, columns)] | none => []) = []
    rw [hwn]; rfl
  have t3 : s.flushLastRow.writeAhead = [] := by
    rw [hrem]
    show (s.remaining.foldl Sheet.flushDataRow s).writeAhead.remove n = []
    rw [hwn]; rfl
  have t4 : s.flushLastRow.changedRows = s.changedRows := by rw [hrem]; exact f2
  have t5 : s.flushLastRow.cfg = s.cfg := by rw [hrem]; exact f1
  generalize hs' : s.flushLastRow = s' at *
  have hmax : ¬ s'.currentRow < (s'.changedRows.map Prod.fst).foldl max 0 := by
    rw [t1, t4]
    intro h
    have : (s.changedRows.map Prod.fst).foldl max 0 ∈ s.changedRows.map Prod.fst ∨
        (s.changedRows.map Prod.fst).foldl max 0 = 0 := foldl_max_mem _
    rcases this with hk | hk
    · have := hchg _ (mem_keys_iff.mp hk); omega
    · omega
  have hrem' : s'.remaining = [n] := by
    unfold Sheet.remaining
    rw [if_neg hmax, t3, t1]; rfl
  unfold Sheet.rows
  rw [t5, if_pos hm, if_pos hm, flushLastRow_eq s', t1, t2, hrem']
  show (s'.flushDataRow n).out = _
  unfold Sheet.flushDataRow
  dsimp only
  rw [t1, t2, t4, hcn]
  show s'.out = s.flushLastRow.out
  rw [hs']

/-- Constant memory mode. -/
def savesConst : Cfg := { constMem := true, inlineStrings := true, globalXfs := true }

-- a worksheet with settings and data that meets the hypotheses
example : ((((Book.new [savesConst] demoMerge 0).run [(0, .rowHeight 1 "30".toList), (0, .string 2 0 "a".toList none),
    (0, .rowHeight 7 "40".toList)]).sheets[0]?).map fun s =>
      (s.cfg.constMem, (s.table.get s.currentRow).isSome, s.rows.map (·.row), s.packaged.rows.map (·.row))) =
    some (true, true, [1, 2, 7], [1, 2, 7]) := by decide +kernel

/-- C18 is false for a constant memory worksheet that has settings but no data in its last row:
every save writes one more `<row>` element for it (finding F113). -/
theorem C18_constant_memory_counterexample :
    let call : Event Nat := .call 0 (.rowHeight 5 "30".toList)
    let rows (evs : List (Event Nat)) := ((savedAfter [savesConst] demoMerge 0 evs []).sheets[0]?).map
      fun s => s.rows.map (·.row)
    rows [call] = some [] ∧ rows [call, .save [] .done] = some [5] ∧
    rows [call, .save [] .done, .save [] .done] = some [5, 5] := by
  refine ⟨?_, ?_, ?_⟩ <;> decide +kernel

/-- C18: after a save a constant memory worksheet ignores further writes to the row that was
current, also to cells right of the last one (finding F113). -/
theorem C18_constant_memory_row_closed_counterexample :
    let w (c : Nat) (t : Str) : Event Nat := .call 0 (.string 0 c t none)
    let cells (evs : List (Event Nat)) := ((savedAfter [savesConst] demoMerge 0 evs []).sheets[0]?).map
      fun s => (cellsOf s.rows).map fun e => (e.1, e.2.1)
    cells [w 0 "a".toList, w 1 "b".toList] = some [(0, 0), (0, 1)] ∧
    cells [w 0 "a".toList, .save [] .done, w 1 "b".toList] = some [(0, 0)] := by
  refine ⟨?_, ?_⟩ <;> decide +kernel

end Verif
