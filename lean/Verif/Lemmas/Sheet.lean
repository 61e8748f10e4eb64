import Verif.Spec.Book
import Verif.Lemmas.IdxTable
/-! Refinement of the stored cell table to the cell-by-cell specification (standard mode). -/
set_option linter.unusedSectionVars false
set_option linter.unusedSimpArgs false
namespace Verif

open BMap

/-- Lookup in the nested table. -/
def cellAt (t : BMap (BMap Cell)) (r c : Nat) : Option Cell := (t.get r).bind (BMap.get c)

/-- Key order of the nested table. -/
structure TableOk (t : BMap (BMap Cell)) : Prop where
  rows : Sorted t
  cols : ∀ r m, t.get r = some m → Sorted m

theorem tableOk_nil : TableOk [] := ⟨by simp [Sorted], by intro r m h; simp [BMap.get] at h⟩

theorem tableOk_insert {t : BMap (BMap Cell)} (h : TableOk t) {r : Nat} {m : BMap Cell}
    (hm : Sorted m) : TableOk (t.insert r m) := by
  refine ⟨sorted_insert _ _ _ h.rows, ?_⟩
  intro r' m' hg
  rw [get_insert _ _ _ h.rows] at hg
  split at hg
  · cases hg; exact hm
  · exact h.cols r' m' hg

theorem cellAt_insert {t : BMap (BMap Cell)} (h : TableOk t) {r : Nat} {m : BMap Cell}
    (r' c' : Nat) :
    cellAt (t.insert r m) r' c' = if r' = r then BMap.get c' m else cellAt t r' c' := by
  unfold cellAt
  rw [get_insert _ _ _ h.rows]
  split <;> simp

theorem insertCellToTable_ok {t : BMap (BMap Cell)} (h : TableOk t) (r c : Nat) (cell : Cell) :
    TableOk (insertCellToTable r c cell t) := by
  unfold insertCellToTable
  split
  · rename_i cols hc
    exact tableOk_insert h (sorted_insert _ _ _ (h.cols r cols hc))
  · exact tableOk_insert h (by simp [Sorted])

theorem cellAt_insertCellToTable {t : BMap (BMap Cell)} (h : TableOk t) (r c : Nat) (cell : Cell)
    (r' c' : Nat) : cellAt (insertCellToTable r c cell t) r' c' =
      if r' = r ∧ c' = c then some cell else cellAt t r' c' := by
  unfold insertCellToTable
  split
  · rename_i cols hc
    rw [cellAt_insert h, get_insert _ _ _ (h.cols r cols hc)]
    by_cases e : r' = r
    · subst e
      simp only [if_true, true_and, cellAt, hc, Option.bind_some]
    · simp [e]
  · rename_i hc
    rw [cellAt_insert h]
    by_cases e : r' = r
    · subst e
      simp only [if_true, true_and, cellAt, hc, Option.bind_none, BMap.get]
    · simp [e]

section
variable {Fmt : Type} [DecidableEq Fmt]

/-- The format a stored style index stands for. -/
def Sheet.fmtOf (s : Sheet Fmt) (i : Nat) : Option Fmt :=
  if s.cfg.globalXfs then (tblKeys s.gxf)[i]? else (tblKeys s.xfIndices)[i]?

/-- The format tables are proper index tables starting with the default format. -/
structure XfInv (dflt : Fmt) (s : Sheet Fmt) : Prop where
  loc : TblInv s.xfIndices
  fmts : s.xfFormats = tblKeys s.xfIndices
  glob : TblInv s.gxf
  loc0 : (tblKeys s.xfIndices)[0]? = some dflt
  glob0 : (tblKeys s.gxf)[0]? = some dflt

theorem XfInv.fmtOf_zero {dflt : Fmt} {s : Sheet Fmt} (h : XfInv dflt s) :
    s.fmtOf 0 = some dflt := by
  unfold Sheet.fmtOf; split
  · exact h.glob0
  · exact h.loc0

theorem XfInv.fmtOf_inj {dflt : Fmt} {s : Sheet Fmt} (h : XfInv dflt s) {i j : Nat} {f : Fmt}
    (hi : s.fmtOf i = some f) (hj : s.fmtOf j = some f) : i = j := by
  unfold Sheet.fmtOf at hi hj
  split at hi
  · rename_i hg
    rw [if_pos hg] at hj
    have := lookup_of_get h.glob hi
    have := lookup_of_get h.glob hj
    simp_all
  · rename_i hg
    rw [if_neg hg] at hj
    have := lookup_of_get h.loc hi
    have := lookup_of_get h.loc hj
    simp_all

/-- Only the format tables differ, and they only grow. -/
structure XfGrow (s s' : Sheet Fmt) : Prop where
  same : s' = { s with xfFormats := s'.xfFormats, xfIndices := s'.xfIndices, gxf := s'.gxf }
  grow : ∀ i f, s.fmtOf i = some f → s'.fmtOf i = some f

theorem XfGrow.refl (s : Sheet Fmt) : XfGrow s s := ⟨rfl, fun _ _ h => h⟩

theorem XfGrow.trans {a b c : Sheet Fmt} (h1 : XfGrow a b) (h2 : XfGrow b c) : XfGrow a c := by
  refine ⟨?_, fun i f h => h2.grow i f (h1.grow i f h)⟩
  have e1 := h1.same
  have e2 := h2.same
  rw [e1] at e2
  exact e2

theorem formatXfIndex_spec {dflt : Fmt} {s : Sheet Fmt} (h : XfInv dflt s) (f : Fmt) :
    XfInv dflt (s.formatXfIndex f).2 ∧ XfGrow s (s.formatXfIndex f).2 ∧
      (s.formatXfIndex f).2.fmtOf (s.formatXfIndex f).1 = some f := by
  unfold Sheet.formatXfIndex
  by_cases hg : s.cfg.globalXfs
  · rw [if_pos hg]
    cases hl : s.gxf.lookup f with
    | some i =>
      refine ⟨h, XfGrow.refl s, ?_⟩
      simp only [Sheet.fmtOf, hg, if_true]
      exact lookup_some_get h.glob hl
    | none =>
      have hk := lookup_none_iff.mp hl
      have hk2 : (tblKeys ((f, s.gxf.length) :: s.gxf)) = tblKeys s.gxf ++ [f] := tblKeys_cons _ _ _
      refine ⟨⟨h.loc, h.fmts, tblInv_insert h.glob hk, h.loc0, ?_⟩, ⟨rfl, ?_⟩, ?_⟩
      · show (tblKeys ((f, s.gxf.length) :: s.gxf))[0]? = some dflt
        rw [hk2, List.getElem?_append_left (List.getElem?_eq_some_iff.mp h.glob0).1]
        exact h.glob0
      · intro i g hi
        simp only [Sheet.fmtOf, hg, if_true] at hi ⊢
        rw [hk2, List.getElem?_append_left (List.getElem?_eq_some_iff.mp hi).1]
        exact hi
      · simp only [Sheet.fmtOf, hg, if_true]
        rw [hk2, ← tblKeys_length, List.getElem?_append_right (Nat.le_refl _)]
        simp
  · rw [if_neg hg]
    cases hl : s.xfIndices.lookup f with
    | some i =>
      refine ⟨h, XfGrow.refl s, ?_⟩
      simp only [Sheet.fmtOf, hg]
      exact lookup_some_get h.loc hl
    | none =>
      have hk := lookup_none_iff.mp hl
      have hlen : s.xfFormats.length = s.xfIndices.length := by
        rw [h.fmts, tblKeys_length]
      have hk2 : (tblKeys ((f, s.xfFormats.length) :: s.xfIndices)) = tblKeys s.xfIndices ++ [f] :=
        tblKeys_cons _ _ _
      refine ⟨⟨?_, ?_, h.glob, ?_, h.glob0⟩, ⟨rfl, ?_⟩, ?_⟩
      · show TblInv ((f, s.xfFormats.length) :: s.xfIndices)
        rw [hlen]; exact tblInv_insert h.loc hk
      · show s.xfFormats ++ [f] = tblKeys ((f, s.xfFormats.length) :: s.xfIndices)
        rw [hk2, h.fmts]
      · show (tblKeys ((f, s.xfFormats.length) :: s.xfIndices))[0]? = some dflt
        rw [hk2, List.getElem?_append_left (List.getElem?_eq_some_iff.mp h.loc0).1]
        exact h.loc0
      · intro i g hi
        simp only [Sheet.fmtOf, hg] at hi ⊢
        rw [hk2]
        simp only [Bool.false_eq_true, if_false] at hi ⊢
        rw [List.getElem?_append_left (List.getElem?_eq_some_iff.mp hi).1]
        exact hi
      · simp only [Sheet.fmtOf, hg]
        rw [hk2, hlen, ← tblKeys_length]
        simp

/-- Row formats and column formats are not both in use. -/
def NoMerge (s : Sheet Fmt) : Prop :=
  (∀ c o, s.changedCols.get c = some o → o.fmt = none) ∨
  (∀ r o, s.changedRows.get r = some o → o.fmt = none)

/-- `row_col_format` returns a valid index, 0 when there is no row/column format pair. -/
theorem rowColFormat_spec {dflt : Fmt} {s : Sheet Fmt} (h : XfInv dflt s) (r c : Nat) :
    XfInv dflt (s.rowColFormat r c).2 ∧ XfGrow s (s.rowColFormat r c).2 ∧
      ((s.rowColFormat r c).2.fmtOf (s.rowColFormat r c).1).isSome ∧
      (NoMerge s → (s.rowColFormat r c).1 = 0) := by
  have z := h.fmtOf_zero
  unfold Sheet.rowColFormat
  split
  · exact ⟨h, XfGrow.refl s, by simp [z], fun _ => rfl⟩
  · rename_i co hco
    split
    · exact ⟨h, XfGrow.refl s, by simp [z], fun _ => rfl⟩
    · rename_i cf hcf
      split
      · exact ⟨h, XfGrow.refl s, by simp [z], fun _ => rfl⟩
      · rename_i ro hro
        split
        · exact ⟨h, XfGrow.refl s, by simp [z], fun _ => rfl⟩
        · rename_i rf hrf
          have := formatXfIndex_spec h (s.merge rf cf)
          refine ⟨this.1, this.2.1, by rw [this.2.2]; rfl, fun e => ?_⟩
          rcases e with e | e
          · rw [e c co hco] at hcf; cases hcf
          · rw [e r ro hro] at hrf; cases hrf

/-- `xfFor`: an explicit format resolves to itself, otherwise the index is valid. -/
theorem xfFor_spec {dflt : Fmt} {s : Sheet Fmt} (h : XfInv dflt s) (r c : Nat) (fo : Option Fmt) :
    XfInv dflt (s.xfFor r c fo).2 ∧ XfGrow s (s.xfFor r c fo).2 ∧
      ((s.xfFor r c fo).2.fmtOf (s.xfFor r c fo).1).isSome ∧
      (∀ f, fo = some f → (s.xfFor r c fo).2.fmtOf (s.xfFor r c fo).1 = some f) ∧
      (NoMerge s → fo = none → (s.xfFor r c fo).1 = 0) := by
  unfold Sheet.xfFor
  cases fo with
  | some f =>
    have := formatXfIndex_spec h f
    refine ⟨this.1, this.2.1, by simp [this.2.2], ?_, by simp⟩
    intro g hg; cases hg; exact this.2.2
  | none =>
    have := rowColFormat_spec h r c
    exact ⟨this.1, this.2.1, this.2.2.1, by simp, fun e _ => this.2.2.2 e⟩


/-! ### The refinement relation -/

/-- `(r, c)` lies inside the recorded dimensions. -/
def Covers (d : Dims) (r c : Nat) : Prop :=
  d.firstRow ≤ r ∧ r ≤ d.lastRow ∧ d.firstCol ≤ c ∧ c ≤ d.lastCol

/-- Which of row and column formats a history uses: both, no column formats, no row formats. -/
inductive NF where
  | any | noCol | noRow
deriving DecidableEq

/-- A stored cell agrees with the specified content and explicit format. -/
structure CellOk (dflt : Fmt) (nf : NF) (s : Sheet Fmt) (ct : Content) (fm : Option Fmt) (cell : Cell) :
    Prop where
  content : cell.content = ct
  valid : (s.fmtOf cell.xf).isSome
  fmt : ∀ f, fm = some f → f ≠ dflt → s.fmtOf cell.xf = some f
  auto : nf ≠ .any → (fm = none ∨ fm = some dflt) → cell.xf = 0
  nonInline : ∀ t x, cell ≠ .inlineString t x
  skip : cell.isWritten false = false → s.hasLocalSst = true

/-- Refinement of a standard-mode sheet to the specification.  `nr`: the history has no range
formatting, `nf`: whether it mixes row and column
formats. -/
structure Rel (cfg : Cfg) (dflt : Fmt) (nr : Bool) (nf : NF) (s : Sheet Fmt)
    (ct : Nat → Nat → Content) (fm : Nat → Nat → Option Fmt) : Prop where
  cfgEq : s.cfg = cfg
  std : cfg.constMem = false
  noInline : cfg.inlineStrings = false
  tbl : TableOk s.table
  xf : XfInv dflt s
  cells : ∀ r c cell, cellAt s.table r c = some cell → CellOk dflt nf s (ct r c) (fm r c) cell
  absent : ∀ r c, cellAt s.table r c = none → ct r c = .blank ∧ (fm r c = none ∨ fm r c = some dflt)
  cover : ∀ r c cell, cellAt s.table r c = some cell → (nr = true ∨ cell.content ≠ .blank) →
    Covers s.dims r c
  grid : ∀ r c cell, cellAt s.table r c = some cell → inGrid r c = true
  rowsS : Sorted s.changedRows
  colsS : Sorted s.changedCols
  rowsV : ∀ r o, s.changedRows.get r = some o → (s.fmtOf o.xf).isSome ∧ (nf = .noRow → o.fmt = none ∧ o.xf = 0)
  colsV : ∀ c o, s.changedCols.get c = some o → (s.fmtOf o.xf).isSome
  nfCols : nf = .noCol → s.changedCols = []

variable {cfg : Cfg} {dflt : Fmt} {nr : Bool} {nf : NF} {s : Sheet Fmt}
  {ct : Nat → Nat → Content} {fm : Nat → Nat → Option Fmt}

theorem Rel.noMerge (h : Rel cfg dflt nr nf s ct fm) (hn : nf ≠ .any) : NoMerge s := by
  cases nf with
  | any => exact absurd rfl hn
  | noCol =>
    left; intro c o ho
    rw [h.nfCols rfl] at ho; simp [BMap.get] at ho
  | noRow => right; intro r o ho; exact ((h.rowsV r o ho).2 rfl).1

theorem CellOk.mono {s s' : Sheet Fmt} {ct : Content} {fm : Option Fmt} {cell : Cell}
    (h : CellOk dflt nf s ct fm cell) (hg : ∀ i f, s.fmtOf i = some f → s'.fmtOf i = some f)
    (hl : s.hasLocalSst = true → s'.hasLocalSst = true) : CellOk dflt nf s' ct fm cell := by
  refine ⟨h.content, ?_, fun f hf hd => hg _ _ (h.fmt f hf hd), h.auto, h.nonInline,
    fun e => hl (h.skip e)⟩
  obtain ⟨f, hf⟩ := Option.isSome_iff_exists.mp h.valid
  rw [hg _ _ hf]; rfl

theorem isSome_mono {s s' : Sheet Fmt} {i : Nat}
    (hg : ∀ i f, s.fmtOf i = some f → s'.fmtOf i = some f) (h : (s.fmtOf i).isSome) :
    (s'.fmtOf i).isSome := by
  obtain ⟨f, hf⟩ := Option.isSome_iff_exists.mp h
  rw [hg _ _ hf]; rfl

/-- Growing the format tables preserves the relation. -/
theorem Rel.grow (h : Rel cfg dflt nr nf s ct fm) {s' : Sheet Fmt} (hx : XfInv dflt s')
    (hg : XfGrow s s') : Rel cfg dflt nr nf s' ct fm := by
  have e := hg.same
  have et : s'.table = s.table := by rw [e]
  have ec : s'.cfg = s.cfg := by rw [e]
  have ed : s'.dims = s.dims := by rw [e]
  have er : s'.changedRows = s.changedRows := by rw [e]
  have eo : s'.changedCols = s.changedCols := by rw [e]
  have el : s'.hasLocalSst = s.hasLocalSst := by rw [e]
  refine ⟨ec.trans h.cfgEq, h.std, h.noInline, et ▸ h.tbl, hx, ?_, et ▸ h.absent, ?_, et ▸ h.grid, er ▸ h.rowsS,
    eo ▸ h.colsS, ?_, ?_, eo ▸ h.nfCols⟩
  · intro r c cell hc
    rw [et] at hc
    exact (h.cells r c cell hc).mono hg.grow (by rw [el]; exact id)
  · intro r c cell hc
    rw [et] at hc; rw [ed]
    exact h.cover r c cell hc
  · intro r o ho
    rw [er] at ho
    exact ⟨isSome_mono hg.grow (h.rowsV r o ho).1, (h.rowsV r o ho).2⟩
  · intro c o ho
    rw [eo] at ho
    exact isSome_mono hg.grow (h.colsV c o ho)

/-- Replacing fields that the relation does not constrain. -/
theorem Rel.frame (h : Rel cfg dflt nr nf s ct fm) {s' : Sheet Fmt} (ec : s'.cfg = s.cfg)
    (et : s'.table = s.table) (ex : s'.xfIndices = s.xfIndices) (ef : s'.xfFormats = s.xfFormats)
    (eg : s'.gxf = s.gxf) (er : s'.changedRows = s.changedRows)
    (eo : s'.changedCols = s.changedCols) (el : s.hasLocalSst = true → s'.hasLocalSst = true)
    (ed : ∀ r c, Covers s.dims r c → Covers s'.dims r c) : Rel cfg dflt nr nf s' ct fm := by
  have hf : ∀ i, s'.fmtOf i = s.fmtOf i := by intro i; simp only [Sheet.fmtOf, ec, ex, eg]
  refine ⟨ec.trans h.cfgEq, h.std, h.noInline, et ▸ h.tbl, ?_, ?_, et ▸ h.absent, ?_, et ▸ h.grid, er ▸ h.rowsS,
    eo ▸ h.colsS, ?_, ?_, eo ▸ h.nfCols⟩
  · obtain ⟨a, b, c, d, e⟩ := h.xf
    exact ⟨ex ▸ a, by rw [ef, ex]; exact b, eg ▸ c, ex ▸ d, eg ▸ e⟩
  · intro r c cell hc
    rw [et] at hc
    exact (h.cells r c cell hc).mono (fun i f hi => by rw [hf]; exact hi) el
  · intro r c cell hc hb
    rw [et] at hc
    exact ed r c (h.cover r c cell hc hb)
  · intro r o ho
    rw [er] at ho; rw [hf]
    exact h.rowsV r o ho
  · intro c o ho
    rw [eo] at ho; rw [hf]
    exact h.colsV c o ho

theorem inGrid_iff (r c : Nat) : inGrid r c = true ↔ r < ROW_MAX ∧ c < COL_MAX := by
  simp [inGrid, ROW_MAX, COL_MAX]

/-- `check_dimensions` in standard mode: the verdict is "inside the grid", and afterwards the
dimensions cover the cell. -/
theorem checkDimensions_std (s : Sheet Fmt) (hm : s.cfg.constMem = false) (r c : Nat) :
    (inGrid r c = false ∧ s.checkDimensions r c = (false, s)) ∨
    (inGrid r c = true ∧ s.checkDimensions r c =
      (true, { s with dims := ⟨min s.dims.firstRow r, min s.dims.firstCol c,
        max s.dims.lastRow r, max s.dims.lastCol c⟩ })) := by
  unfold Sheet.checkDimensions
  by_cases h1 : r ≥ ROW_MAX
  · left
    refine ⟨?_, by rw [if_pos h1]⟩
    have := inGrid_iff r c
    cases hh : inGrid r c
    · rfl
    · have := this.mp hh; omega
  · rw [if_neg h1]
    by_cases h2 : c ≥ COL_MAX
    · left
      refine ⟨?_, by rw [if_pos h2]⟩
      have := inGrid_iff r c
      cases hh : inGrid r c
      · rfl
      · have := this.mp hh; omega
    · right
      rw [if_neg h2, hm]
      exact ⟨(inGrid_iff r c).mpr ⟨by omega, by omega⟩, rfl⟩

theorem Rel.extend (h : Rel cfg dflt nr nf s ct fm) (r c : Nat) :
    Rel cfg dflt nr nf { s with dims := ⟨min s.dims.firstRow r, min s.dims.firstCol c,
        max s.dims.lastRow r, max s.dims.lastCol c⟩ } ct fm := by
  refine h.frame rfl rfl rfl rfl rfl rfl rfl id ?_
  intro r' c' hc
  simp only [Covers] at hc ⊢
  omega

/-- Storing a cell that agrees with the new specification. -/
theorem Rel.insertCell (h : Rel cfg dflt nr nf s ct fm) {r c : Nat} {cell : Cell} {content : Content}
    {fo : Option Fmt} (hok : CellOk dflt nf s content fo cell) (hcov : Covers s.dims r c)
    (hgr : inGrid r c = true) :
    Rel cfg dflt nr nf (s.insertCell r c cell)
      (fun r' c' => if r' = r ∧ c' = c then content else ct r' c')
      (fun r' c' => if r' = r ∧ c' = c then fo else fm r' c') := by
  have hm : s.cfg.constMem = false := by rw [h.cfgEq]; exact h.std
  have e : s.insertCell r c cell = { s with table := insertCellToTable r c cell s.table } := by
    unfold Sheet.insertCell; rw [hm]; rfl
  rw [e]
  have hat := cellAt_insertCellToTable h.tbl r c cell
  refine ⟨h.cfgEq, h.std, h.noInline, insertCellToTable_ok h.tbl r c cell, ?_, ?_, ?_, ?_, ?_, h.rowsS, h.colsS,
    h.rowsV, h.colsV, h.nfCols⟩
  · exact ⟨h.xf.loc, h.xf.fmts, h.xf.glob, h.xf.loc0, h.xf.glob0⟩
  · intro r' c' cell' hc
    simp only [hat] at hc
    by_cases hrc : r' = r ∧ c' = c
    · rw [if_pos hrc] at hc; cases hc
      simp only [if_pos hrc]
      exact hok.mono (fun i f hi => hi) id
    · rw [if_neg hrc] at hc
      simp only [if_neg hrc]
      exact (h.cells r' c' cell' hc).mono (fun i f hi => hi) id
  · intro r' c' hc
    simp only [hat] at hc
    by_cases hrc : r' = r ∧ c' = c
    · rw [if_pos hrc] at hc; cases hc
    · rw [if_neg hrc] at hc
      simp only [if_neg hrc]
      exact h.absent r' c' hc
  · intro r' c' cell' hc hb
    simp only [hat] at hc
    by_cases hrc : r' = r ∧ c' = c
    · rw [hrc.1, hrc.2]; exact hcov
    · rw [if_neg hrc] at hc
      exact h.cover r' c' cell' hc hb
  · intro r' c' cell' hc
    simp only [hat] at hc
    by_cases hrc : r' = r ∧ c' = c
    · rw [hrc.1, hrc.2]; exact hgr
    · rw [if_neg hrc] at hc
      exact h.grid r' c' cell' hc

theorem Rel.congr (h : Rel cfg dflt nr nf s ct fm) {ct' : Nat → Nat → Content}
    {fm' : Nat → Nat → Option Fmt} (h1 : ∀ r c, ct' r c = ct r c) (h2 : ∀ r c, fm' r c = fm r c) :
    Rel cfg dflt nr nf s ct' fm' := by
  have e1 : ct' = ct := by funext r c; exact h1 r c
  have e2 : fm' = fm := by funext r c; exact h2 r c
  rw [e1, e2]; exact h

/-- Apply a cell-by-cell effect to the specification. -/
abbrev ctAfter (u : Nat → Nat → Upd Fmt) (ct : Nat → Nat → Content) : Nat → Nat → Content :=
  fun r c => (u r c).content (ct r c)
abbrev fmAfter (u : Nat → Nat → Upd Fmt) (fm : Nat → Nat → Option Fmt) : Nat → Nat → Option Fmt :=
  fun r c => (u r c).fmt (fm r c)

theorem Rel.keep (h : Rel cfg dflt nr nf s ct fm) {u : Nat → Nat → Upd Fmt}
    (hu : ∀ r c, u r c = .keep) : Rel cfg dflt nr nf s (ctAfter u ct) (fmAfter u fm) := by
  refine h.congr ?_ ?_ <;> intro r c <;> simp [ctAfter, fmAfter, hu, Upd.content, Upd.fmt]

/-- A write of one cell, in the form the store functions use it. -/
theorem Rel.write (h : Rel cfg dflt nr nf s ct fm) {r c : Nat} {cell : Cell} {content : Content}
    {fo : Option Fmt} (hok : CellOk dflt nf s content fo cell) (hcov : Covers s.dims r c)
    (hgr : inGrid r c = true) {u : Nat → Nat → Upd Fmt}
    (hu : ∀ r' c', u r' c' = if r' = r ∧ c' = c then .write content fo else .keep) :
    Rel cfg dflt nr nf (s.insertCell r c cell) (ctAfter u ct) (fmAfter u fm) := by
  refine (h.insertCell hok hcov hgr).congr ?_ ?_ <;> intro r' c' <;>
    simp only [ctAfter, fmAfter, hu] <;> split <;> rfl


/-- The stored-cell facts for a cell whose style index came from `xfFor`. -/
theorem cellOk_of_xfFor {r c : Nat} {fo : Option Fmt} {content : Content} {cell : Cell}
    (h : Rel cfg dflt nr nf s ct fm)
    (hc : cell.content = content) (hx : cell.xf = (s.xfFor r c fo).1)
    (hi : ∀ t x, cell ≠ .inlineString t x)
    (hs : cell.isWritten false = false → s.hasLocalSst = true) :
    CellOk dflt nf (s.xfFor r c fo).2 content fo cell := by
  have hsp := xfFor_spec h.xf r c fo
  have e := hsp.2.1.same
  refine ⟨hc, by rw [hx]; exact hsp.2.2.1, ?_, ?_, hi, ?_⟩
  · intro f hf _; rw [hx]; exact hsp.2.2.2.1 f hf
  · intro hnf hf
    rw [hx]
    rcases hf with hf | hf
    · exact hsp.2.2.2.2 (h.noMerge hnf) hf
    · exact hsp.1.fmtOf_inj (hsp.2.2.2.1 dflt hf) hsp.1.fmtOf_zero
  · rw [e]; exact hs

theorem Rel.xfFor (h : Rel cfg dflt nr nf s ct fm) (r c : Nat) (fo : Option Fmt) :
    Rel cfg dflt nr nf (s.xfFor r c fo).2 ct fm :=
  h.grow (xfFor_spec h.xf r c fo).1 (xfFor_spec h.xf r c fo).2.1

theorem Rel.constMem (h : Rel cfg dflt nr nf s ct fm) : s.cfg.constMem = false := by
  rw [h.cfgEq]; exact h.std

theorem xfFor_dims (s : Sheet Fmt) (hx : XfInv dflt s) (r c : Nat) (fo : Option Fmt) :
    (s.xfFor r c fo).2.dims = s.dims := by
  have e := (xfFor_spec hx r c fo).2.1.same
  rw [e]

/-- The effect of a single-cell call. -/
abbrev single (r c : Nat) (u : Nat → Nat → Upd Fmt) : Nat → Nat → Upd Fmt :=
  fun r' c' => if r' = r ∧ c' = c then u r' c' else .keep

theorem Rel.boolean (h : Rel cfg dflt nr nf s ct fm) (r c : Nat) (b : Bool) (fo : Option Fmt)
    {u : Nat → Nat → Upd Fmt}
    (hu : ∀ r' c', u r' c' = if r' = r ∧ c' = c ∧ inGrid r' c' then .write (.boolean b) fo else .keep) :
    Rel cfg dflt nr nf (s.storeBoolean r c b fo).2 (ctAfter u ct) (fmAfter u fm) := by
  unfold Sheet.storeBoolean
  rcases checkDimensions_std s h.constMem r c with ⟨hg, hc⟩ | ⟨hg, hc⟩
  · rw [hc]
    refine h.keep ?_
    intro r' c'; rw [hu]
    split
    · rename_i hh; obtain ⟨rfl, rfl, h3⟩ := hh; simp [hg] at h3
    · rfl
  · rw [hc]
    have h1 := h.extend r c
    refine (h1.xfFor r c fo).write (content := .boolean b) (fo := fo)
      (cellOk_of_xfFor h1 rfl rfl (by intros; simp) (by simp [Cell.isWritten])) ?_ hg ?_
    · rw [xfFor_dims _ h1.xf]; simp only [Covers]; omega
    · intro r' c'; rw [hu]
      by_cases hh : r' = r ∧ c' = c
      · obtain ⟨rfl, rfl⟩ := hh; simp [hg]
      · rw [if_neg hh, if_neg (fun k => hh ⟨k.1, k.2.1⟩)]

theorem Rel.blank (h : Rel cfg dflt nr nf s ct fm) (r c : Nat) (f : Fmt)
    {u : Nat → Nat → Upd Fmt}
    (hu : ∀ r' c', u r' c' = if r' = r ∧ c' = c ∧ inGrid r' c' then .write .blank (some f) else .keep) :
    Rel cfg dflt nr nf (s.storeBlank r c f).2 (ctAfter u ct) (fmAfter u fm) := by
  unfold Sheet.storeBlank
  rcases checkDimensions_std s h.constMem r c with ⟨hg, hc⟩ | ⟨hg, hc⟩
  · rw [hc]
    refine h.keep ?_
    intro r' c'; rw [hu]
    split
    · rename_i hh; obtain ⟨rfl, rfl, h3⟩ := hh; simp [hg] at h3
    · rfl
  · rw [hc]
    have h1 := h.extend r c
    generalize hs1 : ({ s with dims := ⟨min s.dims.firstRow r, min s.dims.firstCol c,
        max s.dims.lastRow r, max s.dims.lastCol c⟩ } : Sheet Fmt) = s1 at h1 ⊢
    have hcov : Covers s1.dims r c := by rw [← hs1]; simp only [Covers]; omega
    have hf := formatXfIndex_spec h1.xf f
    have h2 := h1.grow hf.1 hf.2.1
    have hd2 : (s1.formatXfIndex f).2.dims = s1.dims := by rw [hf.2.1.same]
    have hu' : ∀ r' c', u r' c' = if r' = r ∧ c' = c then .write .blank (some f) else .keep := by
      intro r' c'; rw [hu]
      by_cases hh : r' = r ∧ c' = c
      · obtain ⟨rfl, rfl⟩ := hh; simp [hg]
      · rw [if_neg hh, if_neg (fun k => hh ⟨k.1, k.2.1⟩)]
    show Rel cfg dflt nr nf (Sheet.insertCell (if (s1.formatXfIndex f).1 = 0 then
        (s1.formatXfIndex f).2.rowColFormat r c else ((s1.formatXfIndex f).1, (s1.formatXfIndex f).2)).2
        r c (.blank (if (s1.formatXfIndex f).1 = 0 then
        (s1.formatXfIndex f).2.rowColFormat r c else ((s1.formatXfIndex f).1, (s1.formatXfIndex f).2)).1)) _ _
    by_cases hz : (s1.formatXfIndex f).1 = 0
    · simp only [if_pos hz]
      have hfd : f = dflt := by
        have a := hf.2.2
        rw [hz, hf.1.fmtOf_zero] at a
        exact (Option.some.inj a).symm
      have hrc := rowColFormat_spec hf.1 r c
      have h3 := h2.grow hrc.1 hrc.2.1
      refine h3.write (cell := .blank _) (content := .blank) (fo := some f) ⟨rfl, hrc.2.2.1, ?_, ?_, ?_, ?_⟩ ?_ hg hu'
      · intro g hg' hd; cases hg'; exact absurd hfd hd
      · intro hnf _
        exact hrc.2.2.2 (h2.noMerge hnf)
      · intros; simp
      · simp [Cell.isWritten]
      · rw [hrc.2.1.same]; simp only; rw [hd2]; exact hcov
    · simp only [if_neg hz]
      refine h2.write (cell := .blank _) (content := .blank) (fo := some f) ⟨rfl, ?_, ?_, ?_, ?_, ?_⟩ ?_ hg hu'
      · show (Sheet.fmtOf _ _).isSome = true
        simp only [Cell.xf]; rw [hf.2.2]; rfl
      · intro g hg' hd; cases hg'; exact hf.2.2
      · intro _ hh
        rcases hh with hh | hh
        · cases hh
        · cases hh
          exact absurd (hf.1.fmtOf_inj hf.2.2 hf.1.fmtOf_zero) hz
      · intros; simp
      · simp [Cell.isWritten]
      · rw [hd2]; exact hcov

theorem Rel.string (h : Rel cfg dflt nr nf s ct fm) (r c : Nat) (str : Str) (fo : Option Fmt) :
    Rel cfg dflt nr nf (s.storeString r c str fo).2
      (ctAfter (single r c fun r' c' => updString r' c' (.text str) str fo) ct)
      (fmAfter (single r c fun r' c' => updString r' c' (.text str) str fo) fm) := by
  unfold Sheet.storeString
  by_cases he : str = []
  · rw [if_pos he]
    cases fo with
    | some f =>
      refine h.blank r c f ?_
      intro r' c'
      simp only [single, updString, he, if_true]
      by_cases hh : r' = r ∧ c' = c
      · obtain ⟨rfl, rfl⟩ := hh; simp
      · rw [if_neg hh, if_neg (fun k => hh ⟨k.1, k.2.1⟩)]
    | none =>
      refine h.keep ?_
      intro r' c'
      simp only [single, updString, he, if_true]
      split <;> rfl
  · rw [if_neg he]
    rcases checkDimensions_std s h.constMem r c with ⟨hg, hc⟩ | ⟨hg, hc⟩
    · rw [hc]
      refine h.keep ?_
      intro r' c'
      simp only [single, updString, he, if_false]
      split
      · rename_i hh; obtain ⟨rfl, rfl⟩ := hh; simp [hg]
      · rfl
    · rw [hc]
      have h1 := h.extend r c
      generalize hs1 : ({ s with dims := ⟨min s.dims.firstRow r, min s.dims.firstCol c,
        max s.dims.lastRow r, max s.dims.lastCol c⟩ } : Sheet Fmt) = s1 at h1 ⊢
      have hcov : Covers s1.dims r c := by rw [← hs1]; simp only [Covers]; omega
      by_cases hlen : str.length > MAX_STRING_LEN
      · simp only [if_pos hlen]
        refine h1.keep ?_
        intro r' c'
        simp only [single, updString, he, if_false]
        have : ¬ (str.length ≤ 32767) := by simp only [MAX_STRING_LEN] at hlen; omega
        simp [this]
      · simp only [if_neg hlen]
        have hu : ∀ r' c', (single r c fun r' c' => updString r' c' (.text str) str fo) r' c' =
            if r' = r ∧ c' = c then .write (.text str) fo else .keep := by
          intro r' c'
          simp only [single, updString, he, if_false]
          have : str.length ≤ 32767 := by simp only [MAX_STRING_LEN] at hlen; omega
          by_cases hh : r' = r ∧ c' = c
          · obtain ⟨rfl, rfl⟩ := hh; simp [hg, this]
          · rw [if_neg hh, if_neg hh]
        have hcfg2 : (s1.xfFor r c fo).2.cfg = s1.cfg := by
          rw [(xfFor_spec h1.xf r c fo).2.1.same]
        have h2 := h1.xfFor r c fo
        have hin : ¬ (s1.xfFor r c fo).2.cfg.inlineStrings = true := by
          rw [hcfg2, h1.cfgEq, h1.noInline]; simp
        · simp only [if_neg hin]
          have hok : ∀ id sst, CellOk dflt nf ({ (s1.xfFor r c fo).2 with sst := sst, hasLocalSst := true } : Sheet Fmt)
              (.text str) fo (.string str (s1.xfFor r c fo).1 id) := by
            intro id sst
            have hsp := xfFor_spec h1.xf r c fo
            refine ⟨rfl, hsp.2.2.1, fun f hf _ => hsp.2.2.2.1 f hf, ?_, by intros; simp, fun _ => rfl⟩
            intro hnf hf
            rcases hf with hf | hf
            · exact hsp.2.2.2.2 (h1.noMerge hnf) hf
            · exact hsp.1.fmtOf_inj (hsp.2.2.2.1 dflt hf) hsp.1.fmtOf_zero
          have h3 : ∀ sst, Rel cfg dflt nr nf ({ (s1.xfFor r c fo).2 with sst := sst, hasLocalSst := true } : Sheet Fmt) ct fm :=
            fun sst => h2.frame rfl rfl rfl rfl rfl rfl rfl (fun _ => rfl) (fun _ _ h => h)
          have hd : Covers (s1.xfFor r c fo).2.dims r c := by
            rw [xfFor_dims _ h1.xf]; exact hcov
          by_cases hgl : (s1.xfFor r c fo).2.cfg.globalSst = true
          · simp only [if_pos hgl]
            exact (h3 _).write (hok _ _) hd hg hu
          · simp only [if_neg hgl]
            exact (h3 _).write (hok _ _) hd hg hu


theorem Rel.rich (h : Rel cfg dflt nr nf s ct fm) (r c : Nat) (str raw : Str) (fo : Option Fmt) :
    Rel cfg dflt nr nf (s.storeRich r c str raw fo).2
      (ctAfter (single r c fun r' c' => updString r' c' (.rich str raw) str fo) ct)
      (fmAfter (single r c fun r' c' => updString r' c' (.rich str raw) str fo) fm) := by
  unfold Sheet.storeRich
  by_cases he : str = []
  · rw [if_pos he]
    cases fo with
    | some f =>
      refine h.blank r c f ?_
      intro r' c'
      simp only [single, updString, he, if_true]
      by_cases hh : r' = r ∧ c' = c
      · obtain ⟨rfl, rfl⟩ := hh; simp
      · rw [if_neg hh, if_neg (fun k => hh ⟨k.1, k.2.1⟩)]
    | none =>
      refine h.keep ?_
      intro r' c'
      simp only [single, updString, he, if_true]
      split <;> rfl
  · rw [if_neg he]
    rcases checkDimensions_std s h.constMem r c with ⟨hg, hc⟩ | ⟨hg, hc⟩
    · rw [hc]
      refine h.keep ?_
      intro r' c'
      simp only [single, updString, he, if_false]
      split
      · rename_i hh; obtain ⟨rfl, rfl⟩ := hh; simp [hg]
      · rfl
    · rw [hc]
      have h1 := h.extend r c
      generalize hs1 : ({ s with dims := ⟨min s.dims.firstRow r, min s.dims.firstCol c,
        max s.dims.lastRow r, max s.dims.lastCol c⟩ } : Sheet Fmt) = s1 at h1 ⊢
      have hcov : Covers s1.dims r c := by rw [← hs1]; simp only [Covers]; omega
      by_cases hlen : str.length > MAX_STRING_LEN
      · simp only [if_pos hlen]
        refine h1.keep ?_
        intro r' c'
        simp only [single, updString, he, if_false]
        have : ¬ (str.length ≤ 32767) := by simp only [MAX_STRING_LEN] at hlen; omega
        simp [this]
      · simp only [if_neg hlen]
        have hu : ∀ r' c', (single r c fun r' c' => updString r' c' (.rich str raw) str fo) r' c' =
            if r' = r ∧ c' = c then .write (.rich str raw) fo else .keep := by
          intro r' c'
          simp only [single, updString, he, if_false]
          have : str.length ≤ 32767 := by simp only [MAX_STRING_LEN] at hlen; omega
          by_cases hh : r' = r ∧ c' = c
          · obtain ⟨rfl, rfl⟩ := hh; simp [hg, this]
          · rw [if_neg hh, if_neg hh]
        have hcfg2 : (s1.xfFor r c fo).2.cfg = s1.cfg := by
          rw [(xfFor_spec h1.xf r c fo).2.1.same]
        have h2 := h1.xfFor r c fo
        have hok : ∀ id sst, CellOk dflt nf ({ (s1.xfFor r c fo).2 with sst := sst, hasLocalSst := true } : Sheet Fmt)
            (.rich str raw) fo (.rich str raw (s1.xfFor r c fo).1 id) := by
          intro id sst
          have hsp := xfFor_spec h1.xf r c fo
          refine ⟨rfl, hsp.2.2.1, fun f hf _ => hsp.2.2.2.1 f hf, ?_, by intros; simp, fun _ => rfl⟩
          intro hnf hf
          rcases hf with hf | hf
          · exact hsp.2.2.2.2 (h1.noMerge hnf) hf
          · exact hsp.1.fmtOf_inj (hsp.2.2.2.1 dflt hf) hsp.1.fmtOf_zero
        have h3 : ∀ sst, Rel cfg dflt nr nf ({ (s1.xfFor r c fo).2 with sst := sst, hasLocalSst := true } : Sheet Fmt) ct fm :=
          fun sst => h2.frame rfl rfl rfl rfl rfl rfl rfl (fun _ => rfl) (fun _ _ h => h)
        have hd : Covers (s1.xfFor r c fo).2.dims r c := by
          rw [xfFor_dims _ h1.xf]; exact hcov
        have hcm : (s1.xfFor r c fo).2.cfg.constMem = false := h2.constMem
        have hin : (s1.xfFor r c fo).2.cfg.inlineStrings = false := by
          rw [hcfg2, h1.cfgEq, h1.noInline]
        have hcomm : ∀ sst cell, (let s' := Sheet.insertCell ({ (s1.xfFor r c fo).2 with sst := sst } : Sheet Fmt) r c cell
            (if s'.cfg.inlineStrings = true then s' else { s' with hasLocalSst := true })) =
            Sheet.insertCell ({ (s1.xfFor r c fo).2 with sst := sst, hasLocalSst := true } : Sheet Fmt) r c cell := by
          intro sst cell
          simp [Sheet.insertCell, hcm, hin]
        by_cases hgl : (s1.xfFor r c fo).2.cfg.globalSst = true
        · simp only [if_pos hgl]
          exact (hcomm _ _) ▸ (h3 _).write (hok _ _) hd hg hu
        · simp only [if_neg hgl]
          exact (hcomm _ _) ▸ (h3 _).write (hok _ _) hd hg hu


theorem Rel.number (h : Rel cfg dflt nr nf s ct fm) (r c : Nat) (n : F64) (fo : Option Fmt)
    (isDate : Bool) :
    Rel cfg dflt nr nf (s.storeNumberType r c n fo isDate).2
      (ctAfter (single r c fun r' c' => updNumber cfg r' c' n fo isDate) ct)
      (fmAfter (single r c fun r' c' => updNumber cfg r' c' n fo isDate) fm) := by
  unfold Sheet.storeNumberType
  rcases checkDimensions_std s h.constMem r c with ⟨hg, hc⟩ | ⟨hg, hc⟩
  · rw [hc]
    refine h.keep ?_
    intro r' c'
    simp only [single]
    split
    · rename_i hh; obtain ⟨rfl, rfl⟩ := hh; cases n <;> simp [updNumber, hg]
    · rfl
  · rw [hc]
    have h1 := h.extend r c
    generalize hs1 : ({ s with dims := ⟨min s.dims.firstRow r, min s.dims.firstCol c,
        max s.dims.lastRow r, max s.dims.lastCol c⟩ } : Sheet Fmt) = s1 at h1 ⊢
    have hcov : Covers s1.dims r c := by rw [← hs1]; simp only [Covers]; omega
    have hstr : ∀ t : Str, Rel cfg dflt nr nf (s1.storeString r c t fo).2
        (ctAfter (single r c fun r' c' => if inGrid r' c' = true then updString r' c' (.text t) t fo else .keep) ct)
        (fmAfter (single r c fun r' c' => if inGrid r' c' = true then updString r' c' (.text t) t fo else .keep) fm) := by
      intro t
      refine (h1.string r c t fo).congr ?_ ?_ <;> intro r' c' <;> simp only [ctAfter, fmAfter, single] <;>
        by_cases hh : r' = r ∧ c' = c <;> simp only [hh, if_false, if_true, true_and, and_self, hg]
    cases n with
    | nan => rw [← h1.cfgEq]; rw [← h1.cfgEq] at hstr; exact hstr _
    | posInf => rw [← h1.cfgEq]; rw [← h1.cfgEq] at hstr; exact hstr _
    | negInf => rw [← h1.cfgEq]; rw [← h1.cfgEq] at hstr; exact hstr _
    | finite t =>
      refine (h1.xfFor r c fo).write (content := if isDate then .dateTime t else .number t) (fo := fo)
        (cellOk_of_xfFor h1 ?_ ?_ ?_ ?_) ?_ hg ?_
      · cases isDate <;> rfl
      · cases isDate <;> rfl
      · cases isDate <;> intros <;> simp
      · cases isDate <;> simp [Cell.isWritten]
      · rw [xfFor_dims _ h1.xf]; exact hcov
      · intro r' c'
        simp only [single, updNumber]
        by_cases hh : r' = r ∧ c' = c
        · obtain ⟨rfl, rfl⟩ := hh; simp [hg]
        · rw [if_neg hh, if_neg hh]

theorem number_ok (s : Sheet Fmt) (hm : s.cfg.constMem = false) (r c : Nat) (t : Str) (fo : Option Fmt)
    (hg : inGrid r c = true) :
    (s.storeNumberType r c (.finite t) fo false).1 = none := by
  unfold Sheet.storeNumberType
  rcases checkDimensions_std s hm r c with ⟨hg', _⟩ | ⟨_, hc⟩
  · rw [hg] at hg'; cases hg'
  · rw [hc]

/-- An update applied to the cells selected by `P`. -/
abbrev onCells (P : Nat → Nat → Bool) (U : Upd Fmt) : Nat → Nat → Upd Fmt :=
  fun r c => if P r c then U else .keep

theorem ctAfter_idem (P Q : Nat → Nat → Bool) (U : Upd Fmt) (ct : Nat → Nat → Content) :
    ctAfter (onCells Q U) (ctAfter (onCells P U) ct) =
      ctAfter (onCells (fun r c => P r c || Q r c) U) ct := by
  funext r c
  simp only [ctAfter, onCells]
  by_cases hp : P r c = true <;> by_cases hq : Q r c = true <;> simp only [hp, hq, Bool.or_self,
    Bool.or_true, Bool.true_or, Bool.false_or, Bool.or_false, if_true, if_false, Bool.false_eq_true] <;>
    cases U <;> rfl

theorem fmAfter_idem (P Q : Nat → Nat → Bool) (U : Upd Fmt) (fm : Nat → Nat → Option Fmt) :
    fmAfter (onCells Q U) (fmAfter (onCells P U) fm) =
      fmAfter (onCells (fun r c => P r c || Q r c) U) fm := by
  funext r c
  simp only [fmAfter, onCells]
  by_cases hp : P r c = true <;> by_cases hq : Q r c = true <;> simp only [hp, hq, Bool.or_self,
    Bool.or_true, Bool.true_or, Bool.false_or, Bool.or_false, if_true, if_false, Bool.false_eq_true] <;>
    cases U <;> rfl

theorem forEach_rel {α : Type} (U : Upd Fmt) (P : α → Nat → Nat → Bool)
    (f : α → Sheet Fmt → Res Fmt) (l : List α)
    (hf : ∀ a ∈ l, ∀ s ct fm, Rel cfg dflt nr nf s ct fm → (f a s).1 = none ∧
      Rel cfg dflt nr nf (f a s).2 (ctAfter (onCells (P a) U) ct) (fmAfter (onCells (P a) U) fm))
    {s : Sheet Fmt} {ct : Nat → Nat → Content} {fm : Nat → Nat → Option Fmt}
    (h : Rel cfg dflt nr nf s ct fm) :
    (forEach l f s).1 = none ∧ Rel cfg dflt nr nf (forEach l f s).2
      (ctAfter (onCells (fun r c => l.any (P · r c)) U) ct)
      (fmAfter (onCells (fun r c => l.any (P · r c)) U) fm) := by
  induction l generalizing s ct fm with
  | nil => exact ⟨rfl, h.keep (by intro r c; rfl)⟩
  | cons a l ih =>
    have h1 := hf a List.mem_cons_self s ct fm h
    have h2 := ih (fun b hb => hf b (List.mem_cons_of_mem _ hb)) h1.2
    rw [ctAfter_idem, fmAfter_idem] at h2
    have e : forEach (a :: l) f s = forEach l f (f a s).2 := by
      simp only [forEach, Res.andThen, h1.1]
    rw [e]
    simpa only [List.any_cons] using h2

theorem any_range' (c a n : Nat) : (List.range' a n).any (fun x => c == x) =
    decide (a ≤ c ∧ c < a + n) := by
  rw [Bool.eq_iff_iff]
  simp only [List.any_eq_true, List.mem_range'_1, beq_iff_eq, decide_eq_true_eq]
  constructor
  · rintro ⟨x, hx, rfl⟩; omega
  · intro h; exact ⟨c, h, rfl⟩

theorem Rel.numberCell (h : Rel cfg dflt nr nf s ct fm) (r c : Nat) (t : Str) (fo : Option Fmt)
    (hg : inGrid r c = true) :
    (s.storeNumberType r c (.finite t) fo false).1 = none ∧
    Rel cfg dflt nr nf (s.storeNumberType r c (.finite t) fo false).2
      (ctAfter (onCells (fun r' c' => r' == r && c' == c) (.write (.number t) fo)) ct)
      (fmAfter (onCells (fun r' c' => r' == r && c' == c) (.write (.number t) fo)) fm) := by
  refine ⟨number_ok s h.constMem r c t fo hg, ?_⟩
  refine (h.number r c (.finite t) fo false).congr ?_ ?_ <;> intro r' c' <;>
    simp only [ctAfter, fmAfter, single, onCells, updNumber] <;>
    by_cases hh : r' = r ∧ c' = c <;>
    simp only [hh, if_false, if_true, true_and, and_self, hg, Bool.false_eq_true, beq_self_eq_true,
      Bool.and_self, Bool.and_eq_true, beq_iff_eq]

theorem insertCell_std (s : Sheet Fmt) (hm : s.cfg.constMem = false) (r c : Nat) (cell : Cell) :
    s.insertCell r c cell = { s with table := insertCellToTable r c cell s.table } := by
  unfold Sheet.insertCell; rw [hm]; rfl

theorem Rel.array (h : Rel cfg dflt nr nf s ct fm) (r1 c1 r2 c2 : Nat) (fa : FormulaArg)
    (fo : Option Fmt) (d : Bool) :
    Rel cfg dflt nr nf (s.storeArrayFormula r1 c1 r2 c2 fa fo d).2
      (ctAfter (fun r c => (Op.arrayFormula r1 c1 r2 c2 fa fo d).effectAt cfg r c) ct)
      (fmAfter (fun r c => (Op.arrayFormula r1 c1 r2 c2 fa fo d).effectAt cfg r c) fm) := by
  unfold Sheet.storeArrayFormula
  rcases checkDimensions_std s h.constMem r1 c1 with ⟨hg, hc⟩ | ⟨hg, hc⟩
  · rw [hc]
    refine h.keep ?_
    intro r c
    simp only [Op.effectAt]
    rw [if_neg]
    rintro ⟨a, b, e, _⟩
    have := (inGrid_iff r2 c2).mp e
    have := (inGrid_iff r1 c1).mpr ⟨by omega, by omega⟩
    rw [hg] at this; cases this
  · rw [hc]
    have h1 := h.extend r1 c1
    generalize hs1 : ({ s with dims := ⟨min s.dims.firstRow r1, min s.dims.firstCol c1,
        max s.dims.lastRow r1, max s.dims.lastCol c1⟩ } : Sheet Fmt) = s1 at h1 ⊢
    have hcov : Covers s1.dims r1 c1 := by rw [← hs1]; simp only [Covers]; omega
    simp only
    rcases checkDimensions_std s1 h1.constMem r2 c2 with ⟨hg2, hc2⟩ | ⟨hg2, hc2⟩
    · rw [hc2]
      refine h1.keep ?_
      intro r c
      simp only [Op.effectAt]
      rw [if_neg]
      rintro ⟨a, b, e, _⟩
      rw [hg2] at e; cases e
    · rw [hc2]
      have h2 := h1.extend r2 c2
      generalize hs2 : ({ s1 with dims := ⟨min s1.dims.firstRow r2, min s1.dims.firstCol c2,
          max s1.dims.lastRow r2, max s1.dims.lastCol c2⟩ } : Sheet Fmt) = s2 at h2 ⊢
      have hcov2 : Covers s2.dims r1 c1 := by
        rw [← hs2]; simp only [Covers] at hcov ⊢; omega
      simp only
      by_cases ho : (decide (r1 > r2) || decide (c1 > c2)) = true
      · simp only [if_pos ho]
        refine h2.keep ?_
        intro r c
        simp only [Op.effectAt]
        simp only [Bool.or_eq_true, decide_eq_true_eq] at ho
        rw [if_neg]
        rintro ⟨a, b, e, _⟩
        omega
      · simp only [if_neg ho]
        have ho' : r1 ≤ r2 ∧ c1 ≤ c2 := by
          simp only [Bool.or_eq_true, decide_eq_true_eq] at ho; omega
        have hgrid : ∀ r c, r ≤ r2 → c ≤ c2 → inGrid r c = true := by
          intro r c hr hc
          have := (inGrid_iff r2 c2).mp hg2
          exact (inGrid_iff r c).mpr ⟨by omega, by omega⟩
        have hres : (if fa.result = [] then (s2.xfFor r1 c1 fo).2.cfg.defaultResult else fa.result)
            = resultOf cfg fa := by
          have e1 : (s2.xfFor r1 c1 fo).2.cfg = cfg := (h2.xfFor r1 c1 fo).cfgEq
          rw [e1]; rfl
        have h3 := (h2.xfFor r1 c1 fo).write
          (cell := .arrayFormula fa.text (resultOf cfg fa) (s2.xfFor r1 c1 fo).1 (d || fa.dynamic)
            (cellRange r1 c1 r2 c2))
          (r := r1) (c := c1)
          (content := .array fa.text (resultOf cfg fa) (d || fa.dynamic) (cellRange r1 c1 r2 c2)) (fo := fo)
          (cellOk_of_xfFor h2 rfl rfl (by intros; simp) (by simp [Cell.isWritten]))
          (by rw [xfFor_dims _ h2.xf]; exact hcov2) hg (u := fun r c => if r = r1 ∧ c = c1 then
            .write (.array fa.text (resultOf cfg fa) (d || fa.dynamic) (cellRange r1 c1 r2 c2)) fo else .keep)
          (by intros; rfl)
        simp only [hres]
        generalize (s2.xfFor r1 c1 fo).2.insertCell r1 c1 (.arrayFormula fa.text (resultOf cfg fa) (s2.xfFor r1 c1 fo).1 (d || fa.dynamic)
            (cellRange r1 c1 r2 c2)) = s3 at h3 ⊢
        have h4 := forEach_rel (.write (.number "0".toList) fo)
          (fun c r' c' => r' == r1 && c' == c)
          (fun c s => s.storeNumberType r1 c (.finite "0".toList) fo false)
          (List.range' (c1 + 1) (c2 - c1)) (by
            intro a ha s ct fm hr
            have := List.mem_range'_1.mp ha
            exact hr.numberCell r1 a _ fo (hgrid r1 a ho'.1 (by omega))) h3
        have e4 : ∀ k, Res.andThen (forEach (List.range' (c1 + 1) (c2 - c1))
            (fun c s => s.storeNumberType r1 c (.finite "0".toList) fo false) s3) k =
            k (forEach (List.range' (c1 + 1) (c2 - c1))
            (fun c s => s.storeNumberType r1 c (.finite "0".toList) fo false) s3).2 := by
          intro k; simp only [Res.andThen, h4.1]
        rw [e4]
        generalize (forEach (List.range' (c1 + 1) (c2 - c1))
            (fun c s => s.storeNumberType r1 c (.finite "0".toList) fo false) s3).2 = s4 at h4 ⊢
        have h4' := h4.2
        have hcm4 : ¬ s4.cfg.constMem = true := by rw [h4'.constMem]; simp
        simp only [if_neg hcm4]
        have h5 := forEach_rel (.write (.number "0".toList) fo)
          (fun r r' c' => r' == r && decide (c1 ≤ c' ∧ c' ≤ c2))
          (fun r s => forEach (List.range' c1 (c2 + 1 - c1))
                  (fun c s => s.storeNumberType r c (.finite "0".toList) fo false) s)
          (List.range' (r1 + 1) (r2 - r1)) (by
            intro a ha s ct fm hr
            have := List.mem_range'_1.mp ha
            have hin := forEach_rel (.write (.number "0".toList) fo)
              (fun c r' c' => r' == a && c' == c)
              (fun c s => s.storeNumberType a c (.finite "0".toList) fo false)
              (List.range' c1 (c2 + 1 - c1)) (by
                intro b hb s ct fm hr
                have := List.mem_range'_1.mp hb
                exact hr.numberCell a b _ fo (hgrid a b (by omega) (by omega))) hr
            refine ⟨hin.1, hin.2.congr ?_ ?_⟩ <;> intro r' c' <;> simp only [ctAfter, fmAfter, onCells] <;>
            · have : (List.range' c1 (c2 + 1 - c1)).any (fun c => r' == a && c' == c) =
                (r' == a && decide (c1 ≤ c' ∧ c' ≤ c2)) := by
                rw [Bool.eq_iff_iff]
                simp only [List.any_eq_true, List.mem_range'_1, beq_iff_eq, decide_eq_true_eq, Bool.and_eq_true]
                constructor
                · rintro ⟨x, hx, h1, rfl⟩; omega
                · intro h; exact ⟨c', by omega, h.1, rfl⟩
              simp only [this]) h4'
        have e5 : ∀ k, Res.andThen (forEach (List.range' (r1 + 1) (r2 - r1)) (fun r s => forEach (List.range' c1 (c2 + 1 - c1))
                  (fun c s => s.storeNumberType r c (.finite "0".toList) fo false) s) s4) k =
            k (forEach (List.range' (r1 + 1) (r2 - r1)) (fun r s => forEach (List.range' c1 (c2 + 1 - c1))
                  (fun c s => s.storeNumberType r c (.finite "0".toList) fo false) s) s4).2 := by
          intro k; simp only [Res.andThen, h5.1]
        rw [e5]
        generalize (forEach (List.range' (r1 + 1) (r2 - r1)) (fun r s => forEach (List.range' c1 (c2 + 1 - c1))
                  (fun c s => s.storeNumberType r c (.finite "0".toList) fo false) s) s4).2 = s5 at h5 ⊢
        have h5' := h5.2
        have hcm5 : ¬ s5.cfg.constMem = true := by rw [h5'.constMem]; simp
        simp only [if_neg hcm5]
        have ha1 : ∀ r c, (List.range' (c1 + 1) (c2 - c1)).any (fun x => r == r1 && c == x) =
            decide (r = r1 ∧ c1 + 1 ≤ c ∧ c ≤ c2) := by
          intro r c
          rw [Bool.eq_iff_iff]
          simp only [List.any_eq_true, List.mem_range'_1, beq_iff_eq, decide_eq_true_eq, Bool.and_eq_true]
          constructor
          · rintro ⟨x, hx, h1, rfl⟩; omega
          · intro h; exact ⟨c, by omega, h.1, rfl⟩
        have ha2 : ∀ r c, (List.range' (r1 + 1) (r2 - r1)).any (fun x => r == x && decide (c1 ≤ c ∧ c ≤ c2)) =
            decide (r1 + 1 ≤ r ∧ r ≤ r2 ∧ c1 ≤ c ∧ c ≤ c2) := by
          intro r c
          rw [Bool.eq_iff_iff]
          simp only [List.any_eq_true, List.mem_range'_1, beq_iff_eq, decide_eq_true_eq, Bool.and_eq_true]
          constructor
          · rintro ⟨x, hx, rfl, h2⟩; omega
          · intro h; exact ⟨r, by omega, rfl, by omega⟩
        refine h5'.congr ?_ ?_ <;> intro r c <;>
          simp only [ctAfter, fmAfter, onCells, ha1, ha2, Op.effectAt, hg2, true_and, ho', decide_eq_true_eq]
        all_goals
          by_cases hin : r1 ≤ r ∧ r ≤ r2 ∧ c1 ≤ c ∧ c ≤ c2
          · simp only [if_pos hin]
            by_cases hfirst : r = r1 ∧ c = c1
            · simp only [if_pos hfirst]
              rw [if_neg (by omega : ¬ (r1 + 1 ≤ r ∧ r ≤ r2 ∧ c1 ≤ c ∧ c ≤ c2)),
                if_neg (by omega : ¬ (r = r1 ∧ c1 + 1 ≤ c ∧ c ≤ c2))]
              rfl
            · simp only [if_neg hfirst]
              by_cases hrow : r = r1
              · rw [if_pos (by omega : (r = r1 ∧ c1 + 1 ≤ c ∧ c ≤ c2))]
                split <;> rfl
              · rw [if_pos (by omega : (r1 + 1 ≤ r ∧ r ≤ r2 ∧ c1 ≤ c ∧ c ≤ c2))]
                rfl
          · simp only [if_neg hin]
            rw [if_neg (by omega : ¬ (r1 + 1 ≤ r ∧ r ≤ r2 ∧ c1 ≤ c ∧ c ≤ c2)),
                if_neg (by omega : ¬ (r = r1 ∧ c1 + 1 ≤ c ∧ c ≤ c2)),
                if_neg (by omega : ¬ (r = r1 ∧ c = c1))]
            rfl


/-- The call as the code carries it out: a dynamic formula loses its format
(/repo/src/worksheet.rs:15171, finding F2). -/
def Op.asCoded : Op Fmt → Op Fmt
  | .formula r c fa f => .formula r c fa (if fa.dynamic then none else f)
  | op => op

theorem Rel.formula (h : Rel cfg dflt nr nf s ct fm) (r c : Nat) (fa : FormulaArg) (fo : Option Fmt) :
    Rel cfg dflt nr nf (s.storeFormula r c fa fo).2
      (ctAfter (fun r' c' => (Op.formula r c fa fo).asCoded.effectAt cfg r' c') ct)
      (fmAfter (fun r' c' => (Op.formula r c fa fo).asCoded.effectAt cfg r' c') fm) := by
  unfold Sheet.storeFormula
  by_cases hd : fa.dynamic = true
  · simp only [if_pos hd]
    refine (h.array r c r c fa none true).congr ?_ ?_ <;> intro r' c' <;>
      simp only [ctAfter, fmAfter, Op.asCoded, Op.effectAt, hd, if_true, Bool.true_or, Nat.le_refl, true_and] <;>
      by_cases hh : r' = r ∧ c' = c
    · obtain ⟨rfl, rfl⟩ := hh
      simp
    · rw [if_neg (fun k => hh ⟨k.1, k.2.1⟩), if_neg (by omega)]
    · obtain ⟨rfl, rfl⟩ := hh
      simp
    · rw [if_neg (fun k => hh ⟨k.1, k.2.1⟩), if_neg (by omega)]
  · simp only [if_neg hd]
    have he : ∀ r' c', (Op.formula r c fa fo).asCoded.effectAt cfg r' c' =
        if r' = r ∧ c' = c ∧ inGrid r' c' then .write (.formula fa.text (resultOf cfg fa)) fo else .keep := by
      intro r' c'
      simp [Op.asCoded, Op.effectAt, hd]
    rcases checkDimensions_std s h.constMem r c with ⟨hg, hc⟩ | ⟨hg, hc⟩
    · rw [hc]
      refine h.keep ?_
      intro r' c'; rw [he]
      split
      · rename_i hh; obtain ⟨rfl, rfl, h3⟩ := hh; simp [hg] at h3
      · rfl
    · rw [hc]
      have h1 := h.extend r c
      generalize hs1 : ({ s with dims := ⟨min s.dims.firstRow r, min s.dims.firstCol c,
        max s.dims.lastRow r, max s.dims.lastCol c⟩ } : Sheet Fmt) = s1 at h1 ⊢
      have hcov : Covers s1.dims r c := by rw [← hs1]; simp only [Covers]; omega
      have hres : (if fa.result = [] then (s1.xfFor r c fo).2.cfg.defaultResult else fa.result)
            = resultOf cfg fa := by
        have e1 : (s1.xfFor r c fo).2.cfg = cfg := (h1.xfFor r c fo).cfgEq
        rw [e1]; rfl
      simp only [hres]
      refine (h1.xfFor r c fo).write (content := .formula fa.text (resultOf cfg fa)) (fo := fo)
        (cellOk_of_xfFor h1 rfl rfl (by intros; simp) (by simp [Cell.isWritten])) ?_ hg ?_
      · rw [xfFor_dims _ h1.xf]; exact hcov
      · intro r' c'; rw [he]
        by_cases hh : r' = r ∧ c' = c
        · obtain ⟨rfl, rfl⟩ := hh; simp [hg]
        · rw [if_neg hh, if_neg (fun k => hh ⟨k.1, k.2.1⟩)]

theorem content_setXf (c : Cell) (x : Nat) : (c.setXf x).content = c.content := by cases c <;> rfl
theorem xf_setXf (c : Cell) (x : Nat) : (c.setXf x).xf = x := by cases c <;> rfl
theorem setXf_inline (c : Cell) (x : Nat) (h : ∀ t y, c ≠ .inlineString t y) :
    ∀ t y, c.setXf x ≠ .inlineString t y := by
  cases c <;> simp [Cell.setXf] at h ⊢
theorem setXf_written (c : Cell) (x : Nat) (b : Bool) : (c.setXf x).isWritten b = c.isWritten b := by
  cases c <;> simp [Cell.setXf, Cell.isWritten] <;> rename_i o <;> cases o <;> rfl

/-- Generic update of one table entry. -/
theorem Rel.setCell (h : Rel cfg dflt nr nf s ct fm) {r c : Nat} {t : BMap (BMap Cell)}
    {cell : Cell} {content : Content} {fo : Option Fmt} (ht : TableOk t)
    (hat : ∀ r' c', cellAt t r' c' = if r' = r ∧ c' = c then some cell else cellAt s.table r' c')
    (hok : CellOk dflt nf s content fo cell)
    (hcov : (nr = true ∨ cell.content ≠ .blank) → Covers s.dims r c)
    (hgr : inGrid r c = true) {u : Nat → Nat → Upd Fmt}
    (hct : ctAfter u ct = fun r' c' => if r' = r ∧ c' = c then content else ct r' c')
    (hfm : fmAfter u fm = fun r' c' => if r' = r ∧ c' = c then fo else fm r' c') :
    Rel cfg dflt nr nf { s with table := t } (ctAfter u ct) (fmAfter u fm) := by
  rw [hct, hfm]
  refine ⟨h.cfgEq, h.std, h.noInline, ht, ?_, ?_, ?_, ?_, ?_, h.rowsS, h.colsS,
    h.rowsV, h.colsV, h.nfCols⟩
  · exact ⟨h.xf.loc, h.xf.fmts, h.xf.glob, h.xf.loc0, h.xf.glob0⟩
  · intro r' c' cell' hc
    simp only [hat] at hc
    by_cases hrc : r' = r ∧ c' = c
    · rw [if_pos hrc] at hc; cases hc
      simp only [if_pos hrc]
      exact hok.mono (fun i f hi => hi) id
    · rw [if_neg hrc] at hc
      simp only [if_neg hrc]
      exact (h.cells r' c' cell' hc).mono (fun i f hi => hi) id
  · intro r' c' hc
    simp only [hat] at hc
    by_cases hrc : r' = r ∧ c' = c
    · rw [if_pos hrc] at hc; cases hc
    · rw [if_neg hrc] at hc
      simp only [if_neg hrc]
      exact h.absent r' c' hc
  · intro r' c' cell' hc hb
    simp only [hat] at hc
    by_cases hrc : r' = r ∧ c' = c
    · rw [if_pos hrc] at hc; cases hc
      rw [hrc.1, hrc.2]; exact hcov hb
    · rw [if_neg hrc] at hc
      exact h.cover r' c' cell' hc hb
  · intro r' c' cell' hc
    simp only [hat] at hc
    by_cases hrc : r' = r ∧ c' = c
    · rw [hrc.1, hrc.2]; exact hgr
    · rw [if_neg hrc] at hc
      exact h.grid r' c' cell' hc

/-- `insert_cell_format`. -/
theorem Rel.insertCellFormat (h : Rel cfg dflt nr nf s ct fm) {r c xf : Nat} {f : Fmt}
    (hx : s.fmtOf xf = some f) (hcov : nr = true → Covers s.dims r c) (hgr : inGrid r c = true) :
    Rel cfg dflt nr nf (s.insertCellFormat r c xf)
      (ctAfter (onCells (fun r' c' => r' == r && c' == c) (.format f)) ct)
      (fmAfter (onCells (fun r' c' => r' == r && c' == c) (.format f)) fm) := by
  have hct : ∀ X, X = ct r c → ctAfter (onCells (fun r' c' => r' == r && c' == c) (.format f)) ct =
      fun r' c' => if r' = r ∧ c' = c then X else ct r' c' := by
    rintro X rfl
    funext r' c'
    by_cases hh : r' = r ∧ c' = c
    · obtain ⟨rfl, rfl⟩ := hh; simp [ctAfter, onCells, Upd.content]
    · simp only [ctAfter, onCells, Bool.and_eq_true, beq_iff_eq, if_neg hh]; rfl
  have hfm : fmAfter (onCells (fun r' c' => r' == r && c' == c) (.format f)) fm =
      fun r' c' => if r' = r ∧ c' = c then some f else fm r' c' := by
    funext r' c'
    by_cases hh : r' = r ∧ c' = c
    · obtain ⟨rfl, rfl⟩ := hh; simp [fmAfter, onCells, Upd.fmt]
    · simp only [fmAfter, onCells, Bool.and_eq_true, beq_iff_eq, if_neg hh]; rfl
  have hauto : nf ≠ .any → (some f = none ∨ some f = some dflt) → xf = 0 := by
    intro _ hh
    rcases hh with hh | hh
    · cases hh
    · cases hh; exact h.xf.fmtOf_inj hx h.xf.fmtOf_zero
  unfold Sheet.insertCellFormat
  split
  · rename_i cols hcols
    have hs := h.tbl.cols r cols hcols
    split
    · rename_i cell hcell
      have hold : cellAt s.table r c = some cell := by simp [cellAt, hcols, hcell]
      have hc0 := h.cells r c cell hold
      refine h.setCell (tableOk_insert h.tbl (sorted_insert _ _ _ hs)) ?_
        (content := ct r c) (fo := some f) (cell := cell.setXf xf)
        ⟨?_, ?_, ?_, ?_, ?_, ?_⟩ ?_ hgr (hct _ rfl) hfm
      · intro r' c'
        rw [cellAt_insert h.tbl, get_insert _ _ _ hs]
        by_cases e : r' = r
        · subst e; simp only [if_true, true_and, cellAt, hcols, Option.bind_some]
        · simp [e]
      · rw [content_setXf]; exact hc0.content
      · rw [xf_setXf, hx]; rfl
      · intro g hg _; cases hg; rw [xf_setXf]; exact hx
      · rw [xf_setXf]; exact hauto
      · exact setXf_inline _ _ hc0.nonInline
      · rw [setXf_written]; exact hc0.skip
      · rw [content_setXf]
        intro hb
        exact h.cover r c cell hold hb
    · rename_i hcell
      have hold : cellAt s.table r c = none := by simp [cellAt, hcols, hcell]
      refine h.setCell (tableOk_insert h.tbl (sorted_insert _ _ _ hs)) ?_
        (content := .blank) (fo := some f) (cell := .blank xf)
        ⟨rfl, ?_, ?_, ?_, ?_, ?_⟩ ?_ hgr (hct _ (h.absent r c hold).1.symm) hfm
      · intro r' c'
        rw [cellAt_insert h.tbl, get_insert _ _ _ hs]
        by_cases e : r' = r
        · subst e; simp only [if_true, true_and, cellAt, hcols, Option.bind_some]
        · simp [e]
      · simp only [Cell.xf]; rw [hx]; rfl
      · intro g hg _; cases hg; exact hx
      · exact hauto
      · intros; simp
      · simp [Cell.isWritten]
      · intro hb
        rcases hb with hb | hb
        · exact hcov hb
        · exact absurd rfl hb
  · rename_i hcols
    have hold : cellAt s.table r c = none := by simp [cellAt, hcols]
    split
    · refine h.setCell (tableOk_insert h.tbl (by simp [Sorted])) ?_
        (content := .blank) (fo := some f) (cell := .blank xf)
        ⟨rfl, ?_, ?_, ?_, ?_, ?_⟩ ?_ hgr (hct _ (h.absent r c hold).1.symm) hfm
      · intro r' c'
        rw [cellAt_insert h.tbl]
        by_cases e : r' = r
        · subst e; simp only [if_true, true_and, cellAt, hcols, Option.bind_none, BMap.get]
        · simp [e]
      · simp only [Cell.xf]; rw [hx]; rfl
      · intro g hg _; cases hg; exact hx
      · exact hauto
      · intros; simp
      · simp [Cell.isWritten]
      · intro hb
        rcases hb with hb | hb
        · exact hcov hb
        · exact absurd rfl hb
    · rename_i hz
      have hz : xf = 0 := by omega
      rw [hz, h.xf.fmtOf_zero] at hx
      have hfd : f = dflt := (Option.some.inj hx).symm
      rw [hct _ rfl, hfm]
      refine ⟨h.cfgEq, h.std, h.noInline, h.tbl, h.xf, ?_, ?_, h.cover, h.grid, h.rowsS, h.colsS, h.rowsV,
        h.colsV, h.nfCols⟩
      · intro r' c' cell hc
        by_cases hrc : r' = r ∧ c' = c
        · rw [hrc.1, hrc.2, hold] at hc; cases hc
        · simp only [if_neg hrc]; exact h.cells r' c' cell hc
      · intro r' c' hc
        by_cases hrc : r' = r ∧ c' = c
        · simp only [if_pos hrc, hfd]
          exact ⟨(h.absent r c hold).1, by simp⟩
        · simp only [if_neg hrc]; exact h.absent r' c' hc

theorem Rel.cellFormat (h : Rel cfg dflt nr nf s ct fm) (r c : Nat) (f : Fmt) :
    Rel cfg dflt nr nf (s.setCellFormat r c f).2
      (ctAfter (fun r' c' => (Op.cellFormat r c f).effectAt cfg r' c') ct)
      (fmAfter (fun r' c' => (Op.cellFormat r c f).effectAt cfg r' c') fm) := by
  unfold Sheet.setCellFormat
  rcases checkDimensions_std s h.constMem r c with ⟨hg, hc⟩ | ⟨hg, hc⟩
  · rw [hc]
    refine h.keep ?_
    intro r' c'; simp only [Op.effectAt]
    split
    · rename_i hh; obtain ⟨rfl, rfl, h3⟩ := hh; simp [hg] at h3
    · rfl
  · rw [hc]
    have h1 := h.extend r c
    generalize hs1 : ({ s with dims := ⟨min s.dims.firstRow r, min s.dims.firstCol c,
      max s.dims.lastRow r, max s.dims.lastCol c⟩ } : Sheet Fmt) = s1 at h1 ⊢
    have hcov : Covers s1.dims r c := by rw [← hs1]; simp only [Covers]; omega
    have hf := formatXfIndex_spec h1.xf f
    refine ((h1.grow hf.1 hf.2.1).insertCellFormat hf.2.2 (fun _ => ?_) hg).congr ?_ ?_
    · rw [hf.2.1.same]; exact hcov
    all_goals
      intro r' c'
      simp only [ctAfter, fmAfter, Op.effectAt, onCells, Bool.and_eq_true, beq_iff_eq]
      by_cases hh : r' = r ∧ c' = c
      · obtain ⟨rfl, rfl⟩ := hh; simp [hg]
      · rw [if_neg hh, if_neg (fun k => hh ⟨k.1, k.2.1⟩)]

theorem foldl_rel {α : Type} (U : Upd Fmt) (P : α → Nat → Nat → Bool)
    (I : Sheet Fmt → Prop)
    (f : Sheet Fmt → α → Sheet Fmt) (l : List α)
    (hf : ∀ a ∈ l, ∀ s ct fm, I s → Rel cfg dflt nr nf s ct fm → I (f s a) ∧
      Rel cfg dflt nr nf (f s a) (ctAfter (onCells (P a) U) ct) (fmAfter (onCells (P a) U) fm))
    {s : Sheet Fmt} {ct : Nat → Nat → Content} {fm : Nat → Nat → Option Fmt} (hi : I s)
    (h : Rel cfg dflt nr nf s ct fm) :
    I (l.foldl f s) ∧ Rel cfg dflt nr nf (l.foldl f s)
      (ctAfter (onCells (fun r c => l.any (P · r c)) U) ct)
      (fmAfter (onCells (fun r c => l.any (P · r c)) U) fm) := by
  induction l generalizing s ct fm with
  | nil => exact ⟨hi, h.keep (by intro r c; rfl)⟩
  | cons a l ih =>
    have h1 := hf a List.mem_cons_self s ct fm hi h
    have h2 := ih (fun b hb => hf b (List.mem_cons_of_mem _ hb)) h1.1 h1.2
    rw [ctAfter_idem, fmAfter_idem] at h2
    simpa only [List.any_cons, List.foldl_cons] using h2

theorem insertCellFormat_fmtOf (s : Sheet Fmt) (r c xf i : Nat) :
    (s.insertCellFormat r c xf).fmtOf i = s.fmtOf i := by
  unfold Sheet.insertCellFormat
  split
  · split <;> rfl
  · split <;> rfl

theorem Rel.rangeFormat (h : Rel cfg dflt false nf s ct fm) (r1 c1 r2 c2 : Nat) (f : Fmt) :
    Rel cfg dflt false nf (s.setRangeFormat r1 c1 r2 c2 f).2
      (ctAfter (fun r' c' => (Op.rangeFormat r1 c1 r2 c2 f).effectAt cfg r' c') ct)
      (fmAfter (fun r' c' => (Op.rangeFormat r1 c1 r2 c2 f).effectAt cfg r' c') fm) := by
  unfold Sheet.setRangeFormat
  split
  · rename_i hh
    refine h.keep ?_
    intro r c
    simp only [Op.effectAt]
    rw [if_neg]
    rintro ⟨a, b, e, _⟩
    have := (inGrid_iff r2 c2).mp e
    simp only [checkDimensionsOnly, Bool.or_eq_true, Bool.not_eq_true', Bool.and_eq_false_iff,
      decide_eq_false_iff_not] at hh
    omega
  · rename_i hh
    have hb : r2 < ROW_MAX ∧ c2 < COL_MAX := by
      simp only [checkDimensionsOnly, Bool.or_eq_true, Bool.not_eq_true', Bool.and_eq_false_iff,
        decide_eq_false_iff_not, not_or, Decidable.not_not] at hh
      omega
    have hg2 := (inGrid_iff r2 c2).mpr hb
    split
    · rename_i ho
      refine h.keep ?_
      intro r c
      simp only [Op.effectAt]
      rw [if_neg]
      rintro ⟨a, b, e, _⟩
      simp only [Bool.or_eq_true, decide_eq_true_eq] at ho
      omega
    · rename_i ho
      have ho' : r1 ≤ r2 ∧ c1 ≤ c2 := by
        simp only [Bool.or_eq_true, decide_eq_true_eq] at ho; omega
      have hgrid : ∀ r c, r ≤ r2 → c ≤ c2 → inGrid r c = true := by
        intro r c hr hc
        exact (inGrid_iff r c).mpr ⟨by omega, by omega⟩
      have hf := formatXfIndex_spec h.xf f
      have h1 := h.grow hf.1 hf.2.1
      show Rel cfg dflt false nf ((List.range' r1 (r2 + 1 - r1)).foldl
        (fun s r => (List.range' c1 (c2 + 1 - c1)).foldl
          (fun s' c => s'.insertCellFormat r c (Sheet.formatXfIndex _ f).1) s) (s.formatXfIndex f).2) _ _
      generalize (s.formatXfIndex f).1 = xf at hf ⊢
      have hr := foldl_rel (.format f) (fun r r' c' => r' == r && decide (c1 ≤ c' ∧ c' ≤ c2))
        (fun s => s.fmtOf xf = some f)
        (fun s r => (List.range' c1 (c2 + 1 - c1)).foldl (fun s c => s.insertCellFormat r c xf) s)
        (List.range' r1 (r2 + 1 - r1)) (by
          intro a ha s ct fm hi hr
          have := List.mem_range'_1.mp ha
          have hin := foldl_rel (.format f) (fun c r' c' => r' == a && c' == c)
            (fun s => s.fmtOf xf = some f)
            (fun s c => s.insertCellFormat a c xf)
            (List.range' c1 (c2 + 1 - c1)) (by
              intro b hb s ct fm hi hr
              have := List.mem_range'_1.mp hb
              refine ⟨by rw [insertCellFormat_fmtOf]; exact hi, ?_⟩
              exact hr.insertCellFormat hi (by intro h; cases h) (hgrid a b (by omega) (by omega))) hi hr
          refine ⟨hin.1, hin.2.congr ?_ ?_⟩ <;> intro r' c' <;> simp only [ctAfter, fmAfter, onCells] <;>
          · have : (List.range' c1 (c2 + 1 - c1)).any (fun c => r' == a && c' == c) =
              (r' == a && decide (c1 ≤ c' ∧ c' ≤ c2)) := by
              rw [Bool.eq_iff_iff]
              simp only [List.any_eq_true, List.mem_range'_1, beq_iff_eq, decide_eq_true_eq, Bool.and_eq_true]
              constructor
              · rintro ⟨x, hx, h1, rfl⟩; omega
              · intro h; exact ⟨c', by omega, h.1, rfl⟩
            simp only [this]) hf.2.2 h1
      have ha2 : ∀ r c, (List.range' r1 (r2 + 1 - r1)).any (fun x => r == x && decide (c1 ≤ c ∧ c ≤ c2)) =
          decide (r1 ≤ r ∧ r ≤ r2 ∧ c1 ≤ c ∧ c ≤ c2) := by
        intro r c
        rw [Bool.eq_iff_iff]
        simp only [List.any_eq_true, List.mem_range'_1, beq_iff_eq, decide_eq_true_eq, Bool.and_eq_true]
        constructor
        · rintro ⟨x, hx, rfl, h2⟩; omega
        · intro h; exact ⟨r, by omega, rfl, by omega⟩
      refine hr.2.congr ?_ ?_ <;> intro r c <;>
        simp only [ctAfter, fmAfter, onCells, ha2, Op.effectAt, hg2, true_and, ho', decide_eq_true_eq]

theorem Rel.clearCell (h : Rel cfg dflt nr nf s ct fm) (r c : Nat) :
    Rel cfg dflt nr nf (s.clearCell r c)
      (ctAfter (fun r' c' => (Op.clearCell r c : Op Fmt).effectAt cfg r' c') ct)
      (fmAfter (fun r' c' => (Op.clearCell r c : Op Fmt).effectAt cfg r' c') fm) := by
  have hct : ctAfter (fun r' c' => (Op.clearCell r c : Op Fmt).effectAt cfg r' c') ct =
      fun r' c' => if r' = r ∧ c' = c then .blank else ct r' c' := by
    funext r' c'
    simp only [ctAfter, Op.effectAt]
    split <;> rfl
  have hfm : fmAfter (fun r' c' => (Op.clearCell r c : Op Fmt).effectAt cfg r' c') fm =
      fun r' c' => if r' = r ∧ c' = c then none else fm r' c' := by
    funext r' c'
    simp only [fmAfter, Op.effectAt]
    split <;> rfl
  rw [hct, hfm]
  have habs : cellAt s.table r c = none → Rel cfg dflt nr nf s
      (fun r' c' => if r' = r ∧ c' = c then .blank else ct r' c')
      (fun r' c' => if r' = r ∧ c' = c then none else fm r' c') := by
    intro hold
    refine ⟨h.cfgEq, h.std, h.noInline, h.tbl, h.xf, ?_, ?_, h.cover, h.grid, h.rowsS, h.colsS, h.rowsV,
        h.colsV, h.nfCols⟩
    · intro r' c' cell hc
      by_cases hrc : r' = r ∧ c' = c
      · rw [hrc.1, hrc.2, hold] at hc; cases hc
      · simp only [if_neg hrc]; exact h.cells r' c' cell hc
    · intro r' c' hc
      by_cases hrc : r' = r ∧ c' = c
      · simp only [if_pos hrc]; simp
      · simp only [if_neg hrc]; exact h.absent r' c' hc
  unfold Sheet.clearCell
  split
  · rename_i hh
    apply habs
    cases hc : cellAt s.table r c with
    | none => rfl
    | some cell =>
      have := (inGrid_iff r c).mp (h.grid r c cell hc)
      simp only [checkDimensionsOnly, Bool.not_eq_true', Bool.and_eq_false_iff, decide_eq_false_iff_not] at hh
      omega
  · split
    · rename_i hcols
      apply habs; simp [cellAt, hcols]
    · rename_i cols hcols
      have hs := h.tbl.cols r cols hcols
      have hat : ∀ r' c', cellAt (s.table.insert r (cols.remove c)) r' c' =
          if r' = r ∧ c' = c then none else cellAt s.table r' c' := by
        intro r' c'
        rw [cellAt_insert h.tbl, get_remove]
        by_cases e : r' = r
        · subst e; simp only [if_true, true_and, cellAt, hcols, Option.bind_some]
        · simp [e]
      refine ⟨h.cfgEq, h.std, h.noInline, tableOk_insert h.tbl (sorted_remove _ _ hs), ?_, ?_, ?_, ?_, ?_,
        h.rowsS, h.colsS, h.rowsV, h.colsV, h.nfCols⟩
      · exact ⟨h.xf.loc, h.xf.fmts, h.xf.glob, h.xf.loc0, h.xf.glob0⟩
      · intro r' c' cell' hc
        simp only [hat] at hc
        by_cases hrc : r' = r ∧ c' = c
        · rw [if_pos hrc] at hc; cases hc
        · rw [if_neg hrc] at hc
          simp only [if_neg hrc]
          exact (h.cells r' c' cell' hc).mono (fun i f hi => hi) id
      · intro r' c' hc
        simp only [hat] at hc
        by_cases hrc : r' = r ∧ c' = c
        · simp only [if_pos hrc]; simp
        · rw [if_neg hrc] at hc
          simp only [if_neg hrc]
          exact h.absent r' c' hc
      · intro r' c' cell' hc hb
        simp only [hat] at hc
        by_cases hrc : r' = r ∧ c' = c
        · rw [if_pos hrc] at hc; cases hc
        · rw [if_neg hrc] at hc
          exact h.cover r' c' cell' hc hb
      · intro r' c' cell' hc
        simp only [hat] at hc
        by_cases hrc : r' = r ∧ c' = c
        · rw [if_pos hrc] at hc; cases hc
        · rw [if_neg hrc] at hc
          exact h.grid r' c' cell' hc

theorem Rel.clearFormat (h : Rel cfg dflt nr nf s ct fm) (r c : Nat) :
    Rel cfg dflt nr nf (s.clearCellFormat r c)
      (ctAfter (fun r' c' => (Op.clearFormat r c : Op Fmt).effectAt cfg r' c') ct)
      (fmAfter (fun r' c' => (Op.clearFormat r c : Op Fmt).effectAt cfg r' c') fm) := by
  have hct : ctAfter (fun r' c' => (Op.clearFormat r c : Op Fmt).effectAt cfg r' c') ct =
      fun r' c' => if r' = r ∧ c' = c then ct r c else ct r' c' := by
    funext r' c'
    simp only [ctAfter, Op.effectAt]
    split
    · rename_i hh; obtain ⟨rfl, rfl⟩ := hh; rfl
    · rfl
  have hfm : fmAfter (fun r' c' => (Op.clearFormat r c : Op Fmt).effectAt cfg r' c') fm =
      fun r' c' => if r' = r ∧ c' = c then none else fm r' c' := by
    funext r' c'
    simp only [fmAfter, Op.effectAt]
    split <;> rfl
  have habs : cellAt s.table r c = none → Rel cfg dflt nr nf s
      (ctAfter (fun r' c' => (Op.clearFormat r c : Op Fmt).effectAt cfg r' c') ct)
      (fmAfter (fun r' c' => (Op.clearFormat r c : Op Fmt).effectAt cfg r' c') fm) := by
    intro hold
    rw [hct, hfm]
    refine ⟨h.cfgEq, h.std, h.noInline, h.tbl, h.xf, ?_, ?_, h.cover, h.grid, h.rowsS, h.colsS, h.rowsV,
        h.colsV, h.nfCols⟩
    · intro r' c' cell hc
      by_cases hrc : r' = r ∧ c' = c
      · rw [hrc.1, hrc.2, hold] at hc; cases hc
      · simp only [if_neg hrc]; exact h.cells r' c' cell hc
    · intro r' c' hc
      by_cases hrc : r' = r ∧ c' = c
      · simp only [if_pos hrc]; exact ⟨(h.absent r c hold).1, by simp⟩
      · simp only [if_neg hrc]; exact h.absent r' c' hc
  unfold Sheet.clearCellFormat
  split
  · rename_i hh
    apply habs
    cases hc : cellAt s.table r c with
    | none => rfl
    | some cell =>
      have := (inGrid_iff r c).mp (h.grid r c cell hc)
      simp only [checkDimensionsOnly, Bool.not_eq_true', Bool.and_eq_false_iff, decide_eq_false_iff_not] at hh
      omega
  · split
    · rename_i hcols
      apply habs; simp [cellAt, hcols]
    · rename_i cols hcols
      split
      · rename_i hcell
        apply habs; simp [cellAt, hcols, hcell]
      · rename_i cell hcell
        have hs := h.tbl.cols r cols hcols
        have hold : cellAt s.table r c = some cell := by simp [cellAt, hcols, hcell]
        have hc0 := h.cells r c cell hold
        refine h.setCell (tableOk_insert h.tbl (sorted_insert _ _ _ hs)) ?_
          (content := ct r c) (fo := none) (cell := cell.setXf 0)
          ⟨?_, ?_, ?_, ?_, ?_, ?_⟩ ?_ (h.grid r c cell hold) hct hfm
        · intro r' c'
          rw [cellAt_insert h.tbl, get_insert _ _ _ hs]
          by_cases e : r' = r
          · subst e; simp only [if_true, true_and, cellAt, hcols, Option.bind_some]
          · simp [e]
        · rw [content_setXf]; exact hc0.content
        · rw [xf_setXf, h.xf.fmtOf_zero]; rfl
        · intro g hg _; cases hg
        · intros; exact xf_setXf _ _
        · exact setXf_inline _ _ hc0.nonInline
        · rw [setXf_written]; exact hc0.skip
        · rw [content_setXf]
          intro hb
          exact h.cover r c cell hold hb

/-- Changing row options. -/
theorem Rel.rowOpt (h : Rel cfg dflt nr nf s ct fm) (r : Nat) (o : RowOpt Fmt)
    (ho : (s.fmtOf o.xf).isSome ∧ (nf = .noRow → o.fmt = none ∧ o.xf = 0)) :
    Rel cfg dflt nr nf { s with changedRows := s.changedRows.insert r o } ct fm := by
  refine ⟨h.cfgEq, h.std, h.noInline, h.tbl, ?_, ?_, h.absent, h.cover, h.grid,
    sorted_insert _ _ _ h.rowsS, h.colsS, ?_, h.colsV, h.nfCols⟩
  · exact ⟨h.xf.loc, h.xf.fmts, h.xf.glob, h.xf.loc0, h.xf.glob0⟩
  · intro r' c' cell hc
    exact (h.cells r' c' cell hc).mono (fun _ _ hi => hi) id
  · intro r' o' hr
    simp only [get_insert _ _ _ h.rowsS] at hr
    split at hr
    · cases hr; exact ho
    · exact h.rowsV r' o' hr

theorem Rel.colOpt (h : Rel cfg dflt nr nf s ct fm) (c : Nat) (o : ColOpt Fmt)
    (ho : (s.fmtOf o.xf).isSome) (hn : nf ≠ .noCol) :
    Rel cfg dflt nr nf { s with changedCols := s.changedCols.insert c o } ct fm := by
  refine ⟨h.cfgEq, h.std, h.noInline, h.tbl, ?_, ?_, h.absent, h.cover, h.grid,
    h.rowsS, sorted_insert _ _ _ h.colsS, h.rowsV, ?_, fun e => absurd e hn⟩
  · exact ⟨h.xf.loc, h.xf.fmts, h.xf.glob, h.xf.loc0, h.xf.glob0⟩
  · intro r' c' cell hc
    exact (h.cells r' c' cell hc).mono (fun _ _ hi => hi) id
  · intro r' o' hr
    simp only [get_insert _ _ _ h.colsS] at hr
    split at hr
    · cases hr; exact ho
    · exact h.colsV r' o' hr

/-- The call respects the restriction `nf`. -/
def Op.respects : NF → Op Fmt → Bool
  | .noCol, .columnFormat .. => false
  | .noRow, .rowFormat .. => false
  | _, _ => true

/-- One call preserves the refinement. -/
theorem Rel.exec (h : Rel cfg dflt nr nf s ct fm) (op : Op Fmt)
    (hnr : nr = true → op.isRangeFormat = false) (hnf : op.respects nf = true) :
    Rel cfg dflt nr nf (s.exec op).2 (ctAfter (fun r c => op.asCoded.effectAt cfg r c) ct)
      (fmAfter (fun r c => op.asCoded.effectAt cfg r c) fm) := by
  have hkeep : ∀ {s' : Sheet Fmt}, Rel cfg dflt nr nf s' ct fm → op.asCoded = op →
      (∀ r c, op.effectAt cfg r c = .keep) →
      Rel cfg dflt nr nf s' (ctAfter (fun r c => op.asCoded.effectAt cfg r c) ct)
      (fmAfter (fun r c => op.asCoded.effectAt cfg r c) fm) := by
    intro s' h' e hk
    exact h'.keep (by intro r c; rw [e]; exact hk r c)
  cases op with
  | number r c n f => exact h.number r c n f false
  | dateTime r c n f => exact h.number r c n f true
  | string r c t f => exact h.string r c t f
  | rich r c t raw f => exact h.rich r c t raw f
  | formula r c fa f => exact h.formula r c fa f
  | arrayFormula r1 c1 r2 c2 fa f d => exact h.array r1 c1 r2 c2 fa f d
  | blank r c f => exact h.blank r c f (by intros; rfl)
  | boolean r c b f => exact h.boolean r c b f (by intros; rfl)
  | cellFormat r c f => exact h.cellFormat r c f
  | rangeFormat r1 c1 r2 c2 f =>
    cases nr with
    | false => exact h.rangeFormat r1 c1 r2 c2 f
    | true => exact absurd (hnr rfl) (by simp [Op.isRangeFormat])
  | clearCell r c => exact h.clearCell r c
  | clearFormat r c => exact h.clearFormat r c
  | rowFormat r f =>
    refine hkeep ?_ rfl (by intros; rfl)
    by_cases hn : nf = .noRow
    · rw [hn] at hnf; simp [Op.respects] at hnf
    · show Rel cfg dflt nr nf (s.setRowFormat r f).2 ct fm
      unfold Sheet.setRowFormat
      rcases checkDimensions_std s h.constMem r s.getMinCol with ⟨hg, hc⟩ | ⟨hg, hc⟩
      · rw [hc]; exact h
      · rw [hc]
        have h1 := h.extend r s.getMinCol
        have hf := formatXfIndex_spec h1.xf f
        have h2 := h1.grow hf.1 hf.2.1
        simp only
        split
        · exact h2.rowOpt r _ ⟨by simp only; rw [hf.2.2]; rfl, fun e => absurd e hn⟩
        · exact h2.rowOpt r _ ⟨by simp only; rw [hf.2.2]; rfl, fun e => absurd e hn⟩
  | columnFormat c f =>
    refine hkeep ?_ rfl (by intros; rfl)
    by_cases hn : nf = .noCol
    · rw [hn] at hnf; simp [Op.respects] at hnf
    · show Rel cfg dflt nr nf (s.setColumnFormat c f).2 ct fm
      unfold Sheet.setColumnFormat
      rcases checkDimensions_std s h.constMem s.getMinRow c with ⟨hg, hc⟩ | ⟨hg, hc⟩
      · rw [hc]; exact h
      · rw [hc]
        have h1 := h.extend s.getMinRow c
        have hf := formatXfIndex_spec h1.xf f
        have h2 := h1.grow hf.1 hf.2.1
        simp only
        split
        · exact h2.colOpt c _ (by simp only; rw [hf.2.2]; rfl) hn
        · exact h2.colOpt c _ (by simp only; rw [hf.2.2]; rfl) hn
  | rowHeight r ht =>
    refine hkeep ?_ rfl (by intros; rfl)
    show Rel cfg dflt nr nf (s.setRowHeight r ht).2 ct fm
    unfold Sheet.setRowHeight
    rcases checkDimensions_std s h.constMem r s.getMinCol with ⟨hg, hc⟩ | ⟨hg, hc⟩
    · rw [hc]; exact h
    · rw [hc]
      have h1 := h.extend r s.getMinCol
      simp only
      split
      · rename_i o ho
        exact h1.rowOpt r _ (h1.rowsV r o ho)
      · exact h1.rowOpt r _ ⟨by simp only; rw [h1.xf.fmtOf_zero]; rfl, fun _ => ⟨rfl, rfl⟩⟩
  | rowHidden r =>
    refine hkeep ?_ rfl (by intros; rfl)
    show Rel cfg dflt nr nf (s.setRowHidden r).2 ct fm
    unfold Sheet.setRowHidden
    rcases checkDimensions_std s h.constMem r s.getMinCol with ⟨hg, hc⟩ | ⟨hg, hc⟩
    · rw [hc]; exact h
    · rw [hc]
      have h1 := h.extend r s.getMinCol
      simp only
      split
      · rename_i o ho
        exact h1.rowOpt r _ (h1.rowsV r o ho)
      · exact h1.rowOpt r _ ⟨by simp only; rw [h1.xf.fmtOf_zero]; rfl, fun _ => ⟨rfl, rfl⟩⟩
  | note r c t =>
    refine hkeep ?_ rfl (by intros; rfl)
    show Rel cfg dflt nr nf (s.insertNote r c t).2 ct fm
    unfold Sheet.insertNote
    rcases checkDimensions_std s h.constMem r c with ⟨hg, hc⟩ | ⟨hg, hc⟩
    · rw [hc]; exact h
    · rw [hc]
      have h1 := h.extend r c
      simp only
      split
      · exact h1
      · split
        · exact h1.frame rfl rfl rfl rfl rfl rfl rfl id (fun _ _ h => h)
        · exact h1.frame rfl rfl rfl rfl rfl rfl rfl id (fun _ _ h => h)

theorem Rel.new (cfg : Cfg) (hm : cfg.constMem = false) (hi : cfg.inlineStrings = false)
    (merge : Fmt → Fmt → Fmt) (dflt : Fmt) (nr : Bool) (nf : NF) :
    Rel cfg dflt nr nf (Sheet.new cfg merge dflt) (fun _ _ => .blank) (fun _ _ => none) := by
  refine ⟨rfl, hm, hi, tableOk_nil, ⟨tblInv_single _, rfl, tblInv_single _, rfl, rfl⟩, ?_, ?_, ?_, ?_,
    by simp [Sheet.new, Sorted], by simp [Sheet.new, Sorted], ?_, ?_, fun _ => rfl⟩
  · intro r c cell h; simp [Sheet.new, cellAt, BMap.get] at h
  · intro r c _; simp
  · intro r c cell h; simp [Sheet.new, cellAt, BMap.get] at h
  · intro r c cell h; simp [Sheet.new, cellAt, BMap.get] at h
  · intro r o h; simp [Sheet.new, BMap.get] at h
  · intro r o h; simp [Sheet.new, BMap.get] at h

theorem Rel.run (h : Rel cfg dflt nr nf s ct fm) (ops : List (Op Fmt))
    (hnr : nr = true → ∀ op ∈ ops, op.isRangeFormat = false)
    (hnf : ∀ op ∈ ops, op.respects nf = true) :
    Rel cfg dflt nr nf (s.run ops)
      (fun r c => ops.foldl (fun a op => (op.asCoded.effectAt cfg r c).content a) (ct r c))
      (fun r c => ops.foldl (fun a op => (op.asCoded.effectAt cfg r c).fmt a) (fm r c)) := by
  induction ops generalizing s ct fm with
  | nil => exact h
  | cons op ops ih =>
    have h1 := h.exec op (fun e => hnr e op List.mem_cons_self) (hnf op List.mem_cons_self)
    exact ih h1 (fun e o ho => hnr e o (List.mem_cons_of_mem _ ho))
      (fun o ho => hnf o (List.mem_cons_of_mem _ ho))

end
end Verif
