import Verif.Lemmas.SavedAll
/-!
What is in the cells of a prepared workbook, for any workbook state that satisfies the invariant
of Lemmas/Book.lean (after calls, and after earlier saves).
-/
set_option linter.unusedSectionVars false
set_option linter.unusedSimpArgs false
namespace Verif
open BMap
variable {Fmt : Type} [DecidableEq Fmt]

private theorem content_asCoded (cfg : Cfg) (op : Op Fmt) (r c : Nat) (a : Content) :
    (op.asCoded.effectAt cfg r c).content a = (op.effectAt cfg r c).content a := by
  cases op <;> try rfl
  simp only [Op.asCoded, Op.effectAt]
  split
  · split <;> rfl
  · rfl

theorem codedContent_eq (cfg : Cfg) (l : List (Op Fmt)) (r c : Nat) :
    codedContent cfg l r c = specContent cfg l r c := by
  unfold codedContent specContent
  congr 1
  funext a op
  exact content_asCoded cfg op r c a

theorem codedFmt_eq (cfg : Cfg) (l : List (Op Fmt)) (hl : ∀ op ∈ l, op.isDynamicWithFormat = false) (r c : Nat) :
    codedFmt cfg l r c = specFmt cfg l r c := by
  unfold codedFmt specFmt
  generalize (none : Option Fmt) = a
  induction l generalizing a with
  | nil => rfl
  | cons op l ih =>
    simp only [List.foldl_cons]
    have : op.asCoded = op := by
      have := hl op List.mem_cons_self
      cases op <;> try rfl
      rename_i r c fa f
      simp only [Op.isDynamicWithFormat, Bool.and_eq_false_iff] at this
      simp only [Op.asCoded]
      rcases this with h | h
      · simp [h]
      · cases f with
        | none => simp
        | some f => simp at h
    rw [this]
    exact ih (fun o ho => hl o (List.mem_cons_of_mem _ ho)) _

theorem idOk_resolves {t : SST} (h : SstInv t) {siOrder : List (Str × Nat)} (hp : siOrder.Perm t.strings)
    {c : Cell} (hc : c.IdOk t) : c.resolvesIn (sstList siOrder) := by
  have e : sstList siOrder = tblKeys t.strings := sort_by_index h.tbl hp
  rw [e]
  cases c <;> try trivial

theorem contentVia_of_resolves {si : List Str} {c : Cell} (h : c.resolvesIn si) : c.contentVia si = c.content := by
  cases c <;> try rfl
  · rename_i o; cases o
    · rfl
    · simp only [Cell.resolvesIn] at h; simp [Cell.contentVia, h, Cell.content]
  · rename_i o; cases o
    · rfl
    · simp only [Cell.resolvesIn] at h; simp [Cell.contentVia, h, Cell.content]

section
variable {cfgs : List Cfg} {dflt : Fmt} {b : Book Fmt} {ops : List (Nat × Op Fmt)}
  (hb : BookInv cfgs dflt (StdR dflt) b ops) (extra : List Fmt)
include hb

/-! ### C08: shared strings -/

/-- C08: in every worksheet of every mode each written cell that refers to the shared string
table refers to exactly its own string. -/
theorem inv_C08_string_ids_resolve (siOrder : List (Str × Nat))
    (hsi : siOrder.Perm (b.prepare extra).sst.strings) (i : Nat) (s : Sheet Fmt)
    (hs : (b.prepare extra).sheets[i]? = some s) :
    ∀ e ∈ cellsOf s.rows, e.2.2.1.resolvesIn (sstList siOrder) := by
  intro e he
  have hG := (saved_gen hb extra hs).1
  have := hG.rows_ids (e := e) (by rw [view_rows]; exact he)
  exact idOk_resolves (prepare_spec hb extra).2.2.1 hsi this

/-- C08: the shared string part has no duplicate entries, and its `uniqueCount` is the number
of entries. -/
theorem inv_C08_strings_unique (siOrder : List (Str × Nat))
    (hsi : siOrder.Perm (b.prepare extra).sst.strings) :
    (sstList siOrder).Nodup ∧
    (b.prepare extra).sst.unique = (sstList siOrder).length := by
  have hI := (prepare_spec hb extra).2.2.1
  have e : sstList siOrder = tblKeys (b.prepare extra).sst.strings :=
    sort_by_index hI.tbl hsi
  rw [e]
  refine ⟨?_, ?_⟩
  · unfold tblKeys
    exact (List.reverse_perm _).nodup_iff.mpr hI.tbl.nodup
  · rw [tblKeys_length]; exact hI.uniq

/-! ### C09: last write wins -/

/-- C09: for every history of calls on all worksheets, what a reader finds in each cell of a
standard worksheet is what the last call that affected the cell put there. -/
theorem inv_C09_last_write_wins (siOrder : List (Str × Nat))
    (hsi : siOrder.Perm (b.prepare extra).sst.strings) (i : Nat) (cfg : Cfg)
    (hc : cfgs[i]? = some cfg) (hstd : cfg.isStandard) :
    ∃ s, (b.prepare extra).sheets[i]? = some s ∧
      ∀ r c, readVia (sstList siOrder) s.rows r c = specContent cfg (opsFor i ops) r c := by
  obtain ⟨s, hs, hS⟩ := saved_std hb extra hc hstd
  refine ⟨s, hs, ?_⟩
  intro r c
  have hrel := hS.rel false .any (by simp) (fun op _ => by cases op <;> rfl)
  rw [← codedContent_eq]
  unfold readVia
  have hfind := hS.find hstd r c
  rw [hfind]
  cases hcell : cellAt s.table r c with
  | none =>
    have := (hrel.absent r c hcell).1
    rw [this]
    simp
  | some cell =>
    have hok := hrel.cells r c cell hcell
    have hres : cell.resolvesIn (sstList siOrder) := by
      refine idOk_resolves (prepare_spec hb extra).2.2.1 hsi ?_
      unfold cellAt at hcell
      cases hm : s.table.get r with
      | none => rw [hm] at hcell; cases hcell
      | some m =>
        rw [hm] at hcell
        exact hS.ids.get hm _ (mem_of_get hcell)
    by_cases hblank : cell.content = .blank
    · rw [← hok.content, hblank]
      split
      · rename_i e he
        split at he
        · simp only [Option.map_some, Option.some.injEq] at he
          rw [← he]
          simp only
          rw [contentVia_of_resolves hres, hblank]
        · cases he
      · rfl
    · have hcov := hrel.cover r c cell hcell (Or.inr hblank)
      rw [if_pos ⟨hcov.1, hcov.2.1⟩]
      simp only [Option.map_some]
      rw [contentVia_of_resolves hres]
      exact hok.content

/-- C09: rows are written in increasing order and each row's cells in increasing column order,
so no cell is written twice. -/
theorem inv_C09_rows_in_order (i : Nat) (cfg : Cfg) (hc : cfgs[i]? = some cfg) (hstd : cfg.isStandard) :
    ∃ s, (b.prepare extra).sheets[i]? = some s ∧ rowMajor s.rows := by
  obtain ⟨s, hs, hS⟩ := saved_std hb extra hc hstd
  refine ⟨s, hs, ?_⟩
  have hrel := hS.rel false .any (by simp) (fun op _ => by cases op <;> rfl)
  unfold Sheet.rows
  rw [hS.cfgEq, hstd.1]
  exact rowMajor_writeDataTable s hrel.tbl

/-! ### C13: styles -/

/-- The style list of the file. -/
theorem xfList_inv (xfOrder : List (Fmt × Nat))
    (hxf : xfOrder.Perm (b.prepare extra).gxf) :
    xfList xfOrder = tblKeys (b.prepare extra).gxf :=
  sort_by_index (prepare_spec hb extra).1 hxf

theorem gxf_zero : (tblKeys (b.prepare extra).gxf)[0]? = some dflt := by
  exact (prepare_spec hb extra).2.1 _ _ hb.gxf0

/-- C13: in every worksheet of every mode, each written style index is an entry of the style
list. -/
theorem inv_C13_style_indices_valid (xfOrder : List (Fmt × Nat))
    (hxf : xfOrder.Perm (b.prepare extra).gxf) (i : Nat) (cfg : Cfg)
    (hc : cfgs[i]? = some cfg) (hcfg : cfg.isReachable) (s : Sheet Fmt)
    (hs : (b.prepare extra).sheets[i]? = some s) :
    ∀ e ∈ cellsOf s.rows, ((xfList xfOrder)[e.2.2.2]?).isSome := by
  intro e he
  rw [xfList_inv hb extra xfOrder hxf]
  have hG := saved_gen hb extra hs
  have ecfg : s.cfg = cfg := by have := hG.2; rw [hc] at this; cases this; rfl
  rcases hcfg with hstd | hk
  · obtain ⟨s', hs', hS⟩ := saved_std hb extra hc hstd
    have : s' = s := by
      have h1 : (b.prepare extra).sheets[i]? = some s' := hs'
      rw [hs] at h1; cases h1; rfl
    subst this
    have hrel := hS.rel false .any (by simp) (fun op _ => by cases op <;> rfl)
    obtain ⟨r, c, cell, x⟩ := e
    have hcm : s'.cfg.constMem = false := by rw [ecfg]; exact hstd.1
    have he' : (r, c, cell, x) ∈ cellsOf s'.writeDataTable := by
      unfold Sheet.rows at he; rw [hcm] at he; exact he
    have hm := (mem_cellsOf_writeDataTable s' hrel.tbl r c cell x).mp he'
    have hok := hrel.cells r c cell hm.2.1
    have hx : x = s'.getCellXfIndex cell.xf (s'.changedRows.get r) c := by
      rw [hm.2.2.2]
      unfold Sheet.cellStyle
      split
      · rename_i t y; exact absurd rfl (hok.nonInline t y)
      · rfl
    obtain ⟨f, hf⟩ := Option.isSome_iff_exists.mp hok.valid
    have hsty := hS.style hstd (gxf_zero hb extra) hf r c
    simp only
    rw [hx]
    show ((tblKeys (b.prepare extra).gxf)[_]?).isSome
    by_cases h0 : cell.xf = 0
    · rw [h0, hsty.2 h0]; rfl
    · rw [hsty.1 h0]; rfl
  · have h1 : s.cfg.constMem = true ∧ s.cfg.globalXfs = true := by
      rw [ecfg]; rcases hk with hk | hk <;> exact ⟨hk.1, hk.2.2.1⟩
    exact hG.1.rows_styles h1.1 h1.2 (by rw [view_rows]; exact he)

/-- The style list starts with the default format and has no duplicates. -/
theorem inv_C13_style_list_nodup (xfOrder : List (Fmt × Nat))
    (hxf : xfOrder.Perm (b.prepare extra).gxf) :
    (xfList xfOrder).Nodup ∧ (xfList xfOrder)[0]? = some dflt := by
  rw [xfList_inv hb extra xfOrder hxf]
  refine ⟨?_, gxf_zero hb extra⟩
  unfold tblKeys
  exact (List.reverse_perm _).nodup_iff.mpr
    (prepare_spec hb extra).1.nodup

/-- C13 (partial): a cell whose last explicit format is `f` (other than the default format) is
written with the style index of `f`.  Not covered, because false in the code: blank cells
formatted by `set_range_format` outside the used range, which are not written
(`C42_range_format_outside_is_lost`), and dynamic array formulas written with a format, which
lose it (`C13_dynamic_formula_loses_format`). -/
theorem inv_C13_explicit_format_written_partial (xfOrder : List (Fmt × Nat))
    (hxf : xfOrder.Perm (b.prepare extra).gxf) (i : Nat) (cfg : Cfg)
    (hc : cfgs[i]? = some cfg) (hstd : cfg.isStandard) (r c : Nat) (f : Fmt)
    (hf : specFmt cfg (opsFor i ops) r c = some f) (hne : f ≠ dflt)
    (hdyn : ∀ op ∈ opsFor i ops, op.isDynamicWithFormat = false)
    (hrange : (∀ op ∈ opsFor i ops, op.isRangeFormat = false) ∨
      specContent cfg (opsFor i ops) r c ≠ .blank) :
    ∃ s x, (b.prepare extra).sheets[i]? = some s ∧
      readStyle s.rows r c = some x ∧ (xfList xfOrder)[x]? = some f := by
  obtain ⟨s, hs, hS⟩ := saved_std hb extra hc hstd
  have hany := hS.rel false .any (by simp) (fun op _ => by cases op <;> rfl)
  rw [xfList_inv hb extra xfOrder hxf]
  have hcf : codedFmt cfg (opsFor i ops) r c = some f := by rw [codedFmt_eq cfg _ hdyn]; exact hf
  cases hcell : cellAt s.table r c with
  | none =>
    exfalso
    have := (hany.absent r c hcell).2
    rw [hcf] at this
    rcases this with h | h
    · cases h
    · cases h; exact hne rfl
  | some cell =>
    have hok := hany.cells r c cell hcell
    have hfx := hok.fmt f hcf hne
    have hcov : Covers s.dims r c := by
      rcases hrange with hr | hr
      · exact (hS.rel true .any (fun _ => hr) (fun op _ => by cases op <;> rfl)).cover r c cell hcell (Or.inl rfl)
      · refine hany.cover r c cell hcell (Or.inr ?_)
        rw [hok.content, codedContent_eq]; exact hr
    have hnz : cell.xf ≠ 0 := by
      intro e
      rw [e, hany.xf.fmtOf_zero] at hfx
      exact hne (Option.some.inj hfx).symm
    refine ⟨s, s.getCellXfIndex cell.xf (s.changedRows.get r) c, hs, ?_, ?_⟩
    · unfold readStyle
      rw [hS.find hstd r c, if_pos ⟨hcov.1, hcov.2.1⟩, hcell]
      rfl
    · exact (hS.style hstd (gxf_zero hb extra) hfx r c).1 hnz

/-- C13: a written cell without an explicit format gets the format of its row, if that is set,
or else the format of its column, or else the default format — for histories that set only row
formats or only column formats.  (When both are used the result depends on the order of the
calls: `C43_intersection_depends_on_order`.) -/
theorem inv_C13_unformatted_inherits_row_or_column (xfOrder : List (Fmt × Nat))
    (hxf : xfOrder.Perm (b.prepare extra).gxf) (i : Nat) (cfg : Cfg)
    (hc : cfgs[i]? = some cfg) (hstd : cfg.isStandard) (r c : Nat)
    (hf : specFmt cfg (opsFor i ops) r c = none)
    (hdyn : ∀ op ∈ opsFor i ops, op.isDynamicWithFormat = false)
    (hrc : (∀ op ∈ opsFor i ops, op.isColumnFormat = false) ∨ (∀ op ∈ opsFor i ops, op.isRowFormat = false)) :
    ∃ s, (b.prepare extra).sheets[i]? = some s ∧
      ∀ x, readStyle s.rows r c = some x →
        (xfList xfOrder)[x]? = some (((specRowFmt (opsFor i ops) r).or (specColFmt (opsFor i ops) c)).getD dflt) := by
  obtain ⟨s, hs, hS⟩ := saved_std hb extra hc hstd
  refine ⟨s, hs, ?_⟩
  intro x hx
  rw [xfList_inv hb extra xfOrder hxf]
  have hcf : codedFmt cfg (opsFor i ops) r c = none := by rw [codedFmt_eq cfg _ hdyn]; exact hf
  unfold readStyle at hx
  rw [hS.find hstd r c] at hx
  cases hcell : cellAt s.table r c with
  | none => rw [hcell] at hx; simp at hx
  | some cell =>
    rw [hcell] at hx
    split at hx
    · simp only [Option.map_some, Option.some.injEq] at hx
      have hres : ∀ nf, nf ≠ .any → (∀ op ∈ opsFor i ops, op.respects nf = true) → cell.xf = 0 := by
        intro nf hn h
        exact ((hS.rel false nf (by simp) h).cells r c cell hcell).auto hn (Or.inl hcf)
      have hcr : ∀ l : List (Op Fmt), (∀ op ∈ l, op.isColumnFormat = false) → specColFmt l c = none := by
        intro l
        have : ∀ a, (∀ op ∈ l, op.isColumnFormat = false) → l.foldl (fun a op => match op with
          | Op.columnFormat c' f => if c' = c ∧ c < 16384 then some f else a
          | _ => a) a = (a : Option Fmt) := by
          induction l with
          | nil => intro a _; rfl
          | cons op l ih =>
            intro a h
            simp only [List.foldl_cons]
            rw [ih _ (fun o ho => h o (List.mem_cons_of_mem _ ho))]
            have := h op List.mem_cons_self
            cases op <;> first | rfl | simp [Op.isColumnFormat] at this
        exact this none
      have hrr : ∀ l : List (Op Fmt), (∀ op ∈ l, op.isRowFormat = false) → specRowFmt l r = none := by
        intro l
        have : ∀ a, (∀ op ∈ l, op.isRowFormat = false) → l.foldl (fun a op => match op with
          | Op.rowFormat r' f => if r' = r ∧ r < 1048576 then some f else a
          | _ => a) a = (a : Option Fmt) := by
          induction l with
          | nil => intro a _; rfl
          | cons op l ih =>
            intro a h
            simp only [List.foldl_cons]
            rw [ih _ (fun o ho => h o (List.mem_cons_of_mem _ ho))]
            have := h op List.mem_cons_self
            cases op <;> first | rfl | simp [Op.isRowFormat] at this
        exact this none
      have h0 : cell.xf = 0 := by
        rcases hrc with h | h
        · refine hres .noCol (by simp) ?_
          intro op ho
          have := h op ho
          cases op <;> first | rfl | simp [Op.isColumnFormat] at this
        · refine hres .noRow (by simp) ?_
          intro op ho
          have := h op ho
          cases op <;> first | rfl | simp [Op.isRowFormat] at this
      have hz : (s.view b).fmtOf 0 = some dflt :=
        (hS.rel false .any (by simp) (fun op _ => by cases op <;> rfl)).xf.fmtOf_zero
      have := (hS.style hstd (gxf_zero hb extra) hz r c).2 rfl
      rw [← hx, h0]
      show (tblKeys (b.prepare extra).gxf)[_]? = _
      rw [this]
      rcases hrc with h | h
      · rw [hcr _ h]
        cases hrf : specRowFmt (opsFor i ops) r with
        | none => rfl
        | some g =>
          simp only [Option.getD_none, Option.or_none, Option.some_or, Option.getD_some]
          split
          · rfl
          · rename_i e
            simp only [ne_eq, Classical.not_not] at e
            rw [e]
      · rw [hrr _ h]; rfl
    · simp at hx

end

end Verif
