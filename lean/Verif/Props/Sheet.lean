import Verif.Lemmas.Read
/-!
C08, C09, C13, C42, C43: what is in the cells of a saved workbook.

`savedBook cfgs merge dflt ops extra` is the workbook with worksheets `cfgs` after the calls
`ops` (on any worksheets, in any order) at save time; `extra` are formats the workbook itself
registers.  `siOrder` and `xfOrder` are the arbitrary iteration orders of the hash maps.
-/
set_option linter.unusedSectionVars false
set_option linter.unusedSimpArgs false
namespace Verif
open BMap
variable {Fmt : Type} [DecidableEq Fmt]

section
variable (cfgs : List Cfg) (merge : Fmt → Fmt → Fmt) (dflt : Fmt) (ops : List (Nat × Op Fmt)) (extra : List Fmt)

/-! ### C08: shared strings -/

/-- C08: in every worksheet of every mode each written cell that refers to the shared string
table refers to exactly its own string. -/
theorem C08_string_ids_resolve (siOrder : List (Str × Nat))
    (hsi : siOrder.Perm (savedBook cfgs merge dflt ops extra).sst.strings) (i : Nat) (s : Sheet Fmt)
    (hs : (savedBook cfgs merge dflt ops extra).sheets[i]? = some s) :
    ∀ e ∈ cellsOf s.rows, e.2.2.1.resolvesIn (sstList siOrder) :=
  inv_C08_string_ids_resolve (StdR.book cfgs merge dflt ops) extra siOrder hsi i s hs

/-- C08: the shared string part has no duplicate entries, and its `uniqueCount` is the number
of entries. -/
theorem C08_strings_unique (siOrder : List (Str × Nat))
    (hsi : siOrder.Perm (savedBook cfgs merge dflt ops extra).sst.strings) :
    (sstList siOrder).Nodup ∧
    (savedBook cfgs merge dflt ops extra).sst.unique = (sstList siOrder).length :=
  inv_C08_strings_unique (StdR.book cfgs merge dflt ops) extra siOrder hsi

/-! ### C09: last write wins -/

/-- C09: for every history of calls on all worksheets, what a reader finds in each cell of a
standard worksheet is what the last call that affected the cell put there. -/
theorem C09_last_write_wins (siOrder : List (Str × Nat))
    (hsi : siOrder.Perm (savedBook cfgs merge dflt ops extra).sst.strings) (i : Nat) (cfg : Cfg)
    (hc : cfgs[i]? = some cfg) (hstd : cfg.isStandard) :
    ∃ s, (savedBook cfgs merge dflt ops extra).sheets[i]? = some s ∧
      ∀ r c, readVia (sstList siOrder) s.rows r c = specContent cfg (opsFor i ops) r c :=
  inv_C09_last_write_wins (StdR.book cfgs merge dflt ops) extra siOrder hsi i cfg hc hstd

/-- C09: rows are written in increasing order and each row's cells in increasing column order,
so no cell is written twice. -/
theorem C09_rows_in_order (i : Nat) (cfg : Cfg) (hc : cfgs[i]? = some cfg) (hstd : cfg.isStandard) :
    ∃ s, (savedBook cfgs merge dflt ops extra).sheets[i]? = some s ∧ rowMajor s.rows :=
  inv_C09_rows_in_order (StdR.book cfgs merge dflt ops) extra i cfg hc hstd

/-! ### C13: styles -/

/-- The style list of the file. -/
theorem xfList_eq (xfOrder : List (Fmt × Nat))
    (hxf : xfOrder.Perm (savedBook cfgs merge dflt ops extra).gxf) :
    xfList xfOrder = tblKeys (savedBook cfgs merge dflt ops extra).gxf :=
  sort_by_index (prepare_spec (StdR.book cfgs merge dflt ops) extra).1 hxf

/-- C13: in every worksheet of every mode, each written style index is an entry of the style
list. -/
theorem C13_style_indices_valid (xfOrder : List (Fmt × Nat))
    (hxf : xfOrder.Perm (savedBook cfgs merge dflt ops extra).gxf) (i : Nat) (cfg : Cfg)
    (hc : cfgs[i]? = some cfg) (hcfg : cfg.isReachable) (s : Sheet Fmt)
    (hs : (savedBook cfgs merge dflt ops extra).sheets[i]? = some s) :
    ∀ e ∈ cellsOf s.rows, ((xfList xfOrder)[e.2.2.2]?).isSome :=
  inv_C13_style_indices_valid (StdR.book cfgs merge dflt ops) extra xfOrder hxf i cfg hc hcfg s hs

/-- The style list starts with the default format and has no duplicates. -/
theorem C13_style_list_nodup (xfOrder : List (Fmt × Nat))
    (hxf : xfOrder.Perm (savedBook cfgs merge dflt ops extra).gxf) :
    (xfList xfOrder).Nodup ∧ (xfList xfOrder)[0]? = some dflt :=
  inv_C13_style_list_nodup (StdR.book cfgs merge dflt ops) extra xfOrder hxf

/-- C13 (partial): a cell whose last explicit format is `f` (other than the default format) is
written with the style index of `f`.  Not covered, because false in the code: blank cells
formatted by `set_range_format` outside the used range, which are not written
(`C42_range_format_outside_is_lost`), and dynamic array formulas written with a format, which
lose it (`C13_dynamic_formula_loses_format`). -/
theorem C13_explicit_format_written_partial (xfOrder : List (Fmt × Nat))
    (hxf : xfOrder.Perm (savedBook cfgs merge dflt ops extra).gxf) (i : Nat) (cfg : Cfg)
    (hc : cfgs[i]? = some cfg) (hstd : cfg.isStandard) (r c : Nat) (f : Fmt)
    (hf : specFmt cfg (opsFor i ops) r c = some f) (hne : f ≠ dflt)
    (hdyn : ∀ op ∈ opsFor i ops, op.isDynamicWithFormat = false)
    (hrange : (∀ op ∈ opsFor i ops, op.isRangeFormat = false) ∨
      specContent cfg (opsFor i ops) r c ≠ .blank) :
    ∃ s x, (savedBook cfgs merge dflt ops extra).sheets[i]? = some s ∧
      readStyle s.rows r c = some x ∧ (xfList xfOrder)[x]? = some f :=
  inv_C13_explicit_format_written_partial (StdR.book cfgs merge dflt ops) extra xfOrder hxf i cfg hc hstd r c f hf hne hdyn hrange

/-- C13: a written cell without an explicit format gets the format of its row, if that is set,
or else the format of its column, or else the default format — for histories that set only row
formats or only column formats.  (When both are used the result depends on the order of the
calls: `C43_intersection_depends_on_order`.) -/
theorem C13_unformatted_inherits_row_or_column (xfOrder : List (Fmt × Nat))
    (hxf : xfOrder.Perm (savedBook cfgs merge dflt ops extra).gxf) (i : Nat) (cfg : Cfg)
    (hc : cfgs[i]? = some cfg) (hstd : cfg.isStandard) (r c : Nat)
    (hf : specFmt cfg (opsFor i ops) r c = none)
    (hdyn : ∀ op ∈ opsFor i ops, op.isDynamicWithFormat = false)
    (hrc : (∀ op ∈ opsFor i ops, op.isColumnFormat = false) ∨ (∀ op ∈ opsFor i ops, op.isRowFormat = false)) :
    ∃ s, (savedBook cfgs merge dflt ops extra).sheets[i]? = some s ∧
      ∀ x, readStyle s.rows r c = some x →
        (xfList xfOrder)[x]? = some (((specRowFmt (opsFor i ops) r).or (specColFmt (opsFor i ops) c)).getD dflt) :=
  inv_C13_unformatted_inherits_row_or_column (StdR.book cfgs merge dflt ops) extra xfOrder hxf i cfg hc hstd r c hf hdyn hrc

end

/-! ### Concrete cases (formats are numbers, `merge a b = 10 a + b`) -/

section
/-- Formats as numbers for the concrete cases. -/
def demoMerge (a b : Nat) : Nat := 10 * a + b

/-- An interleaved history on a standard (0), a constant memory (1) and a low memory (2)
worksheet. -/
def demoOps : List (Nat × Op Nat) :=
  [(0, .string 3 2 "hello".toList (some 7)), (1, .string 0 0 "abc".toList none),
   (2, .string 1 1 "hello".toList none), (0, .number 3 3 (.finite "2.5".toList) none),
   (0, .rowFormat 3 4), (0, .string 3 4 "x".toList none), (0, .string 3 4 "hello".toList none),
   (0, .string 9 9 [] none), (0, .number 2000000 1 .nan none), (2, .string 2 0 "zz".toList (some 5)),
   (0, .arrayFormula 5 5 6 6 ⟨"A1:B2".toList, [], false⟩ (some 8) false), (0, .clearCell 6 6)]

/-- The three kinds of worksheet. -/
def demoCfgs : List Cfg :=
  [{}, { constMem := true, inlineStrings := true, globalXfs := true },
   { constMem := true, globalXfs := true, globalSst := true }]

/-- The demo workbook, saved. -/
def demoBook : Book Nat := savedBook demoCfgs demoMerge 0 demoOps []

-- The hypotheses of the theorems above are met by the demo history.
example : demoCfgs[0]? = some ({} : Cfg) ∧ ({} : Cfg).isStandard := by
  exact ⟨rfl, rfl, rfl, rfl, rfl⟩
example : ∀ cfg ∈ demoCfgs, cfg.isReachable := by
  intro cfg h
  simp only [demoCfgs, List.mem_cons, List.not_mem_nil, or_false] at h
  rcases h with rfl | rfl | rfl
  · exact Or.inl ⟨rfl, rfl, rfl, rfl⟩
  · exact Or.inr (Or.inl ⟨rfl, rfl, rfl, rfl⟩)
  · exact Or.inr (Or.inr ⟨rfl, rfl, rfl, rfl⟩)
example : demoBook.sst.strings.Perm demoBook.sst.strings := List.Perm.refl _
-- the order of first use is the low memory sheet first
example : demoBook.sst = ⟨4, 2, [("zz".toList, 1), ("hello".toList, 0)]⟩ := by decide +kernel
example : demoBook.gxf = [(8, 4), (4, 3), (7, 2), (5, 1), (0, 0)] := by decide +kernel
example : specFmt {} (opsFor 0 demoOps) 3 2 = some 7 ∧ specContent {} (opsFor 0 demoOps) 3 4 = .text "hello".toList ∧
    specContent {} (opsFor 0 demoOps) 6 6 = .blank ∧ specContent {} (opsFor 0 demoOps) 5 6 = .number "0".toList := by
  decide +kernel
example : (demoBook.sheets[0]?).map (fun s => (readStyle s.rows 3 2, readStyle s.rows 3 3, readStyle s.rows 5 6)) =
    some (some 2, some 3, some 4) := by decide +kernel
example : (∀ op ∈ opsFor 0 demoOps, op.isDynamicWithFormat = false) ∧
    (∀ op ∈ opsFor 0 demoOps, op.isRangeFormat = false) ∧
    (∀ op ∈ opsFor 0 demoOps, op.isColumnFormat = false) ∧ specFmt {} (opsFor 0 demoOps) 3 3 = none ∧
    specRowFmt (opsFor 0 demoOps) 3 = some 4 := by decide +kernel

/-- C13 is false for dynamic array formulas: `write_formula_with_format` with a dynamic
function stores the formula without the format (finding F2). -/
theorem C13_dynamic_formula_loses_format :
    let ops : List (Nat × Op Nat) := [(0, .formula 0 0 ⟨"UNIQUE(B1:B9)".toList, [], true⟩ (some 7))]
    specFmt {} (opsFor 0 ops) 0 0 = some 7 ∧
    ((savedBook [{}] demoMerge 0 ops []).sheets[0]?).map (fun s => readStyle s.rows 0 0) = some (some 0) ∧
    (tblKeys (savedBook [{}] demoMerge 0 ops []).gxf)[0]? = some 0 := by decide +kernel

/-- C42 is false in general: cells formatted by `set_range_format` outside the range of the
other data are not written at all (finding F54). -/
theorem C42_range_format_outside_is_lost :
    let ops : List (Nat × Op Nat) := [(0, .number 0 0 (.finite "1".toList) none), (0, .rangeFormat 5 5 6 6 7)]
    specFmt {} (opsFor 0 ops) 5 5 = some 7 ∧
    ((savedBook [{}] demoMerge 0 ops []).sheets[0]?).map (fun s => readStyle s.rows 5 5) = some none := by
  decide +kernel

/-- C43 is false: two histories asking for the same row and column formats (with the same row
height) give the intersection cell different formats, because setting the height first makes
the row lose its format for merging (finding F8). -/
theorem C43_intersection_depends_on_order :
    let w : Nat × Op Nat := (0, .number 0 0 (.finite "1".toList) none)
    let h : Nat × Op Nat := (0, .rowHeight 0 "20".toList)
    let ops1 : List (Nat × Op Nat) := [h, (0, .rowFormat 0 1), (0, .columnFormat 0 2), w]
    let ops2 : List (Nat × Op Nat) := [(0, .rowFormat 0 1), h, (0, .columnFormat 0 2), w]
    let fmtAt (ops : List (Nat × Op Nat)) : Option Nat :=
      ((savedBook [{}] demoMerge 0 ops []).sheets[0]?).bind fun s =>
        (readStyle s.rows 0 0).bind fun x => (tblKeys (savedBook [{}] demoMerge 0 ops []).gxf)[x]?
    specRowFmt (opsFor 0 ops1) 0 = specRowFmt (opsFor 0 ops2) 0 ∧
    specColFmt (opsFor 0 ops1) 0 = specColFmt (opsFor 0 ops2) 0 ∧
    fmtAt ops1 = some 1 ∧ fmtAt ops2 = some 12 := by decide +kernel

end

end Verif
