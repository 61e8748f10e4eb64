import Verif.Spec.RowCol
import Verif.Props.Sheet
/-!
C42, C43: what range formats and row/column formats do.
-/
set_option linter.unusedSectionVars false
set_option linter.unusedSimpArgs false
namespace Verif
open BMap
variable {Fmt : Type} [DecidableEq Fmt]

/-- C42 (partial): a cell whose last explicit format is `f`, by `set_range_format` or otherwise, is
written with `f` if its row lies between two rows that hold data. Missing: rows above the first or
below the last row with data (`C42_range_format_outside_is_lost`), the default format, and dynamic
formulas written with a format (`C13_dynamic_formula_loses_format`). -/
theorem C42_range_format_written_partial (cfgs : List Cfg) (merge : Fmt → Fmt → Fmt) (dflt : Fmt)
    (ops : List (Nat × Op Fmt)) (extra : List Fmt) (xfOrder : List (Fmt × Nat))
    (hxf : xfOrder.Perm (savedBook cfgs merge dflt ops extra).gxf) (i : Nat) (cfg : Cfg)
    (hc : cfgs[i]? = some cfg) (hstd : cfg.isStandard) (r c : Nat) (f : Fmt)
    (hf : specFmt cfg (opsFor i ops) r c = some f) (hne : f ≠ dflt)
    (hdyn : ∀ op ∈ opsFor i ops, op.isDynamicWithFormat = false)
    (r1 c1 r2 c2 : Nat) (h1 : specContent cfg (opsFor i ops) r1 c1 ≠ .blank)
    (h2 : specContent cfg (opsFor i ops) r2 c2 ≠ .blank) (hr : r1 ≤ r ∧ r ≤ r2) :
    ∃ s x, (savedBook cfgs merge dflt ops extra).sheets[i]? = some s ∧
      readStyle s.rows r c = some x ∧ (xfList xfOrder)[x]? = some f := by
  have hb := StdR.book cfgs merge dflt ops
  obtain ⟨s, hs, hS⟩ := saved_std hb extra hc hstd
  have hany := hS.rel false .any (by simp) (fun op _ => by cases op <;> rfl)
  rw [xfList_eq cfgs merge dflt ops extra xfOrder hxf]
  have hcf : codedFmt cfg (opsFor i ops) r c = some f := by rw [codedFmt_eq cfg _ hdyn]; exact hf
  have hcov : ∀ r' c', specContent cfg (opsFor i ops) r' c' ≠ .blank → Covers s.dims r' c' := by
    intro r' c' hn
    rw [← codedContent_eq] at hn
    cases hcell : cellAt s.table r' c' with
    | none => exact absurd (hany.absent r' c' hcell).1 hn
    | some cell =>
      refine hany.cover r' c' cell hcell (Or.inr ?_)
      rw [(hany.cells r' c' cell hcell).content]; exact hn
  have k1 := hcov _ _ h1
  have k2 := hcov _ _ h2
  have hgz : (tblKeys (savedBook cfgs merge dflt ops extra).gxf)[0]? = some dflt :=
    (prepare_spec hb extra).2.1 _ _ hb.gxf0
  cases hcell : cellAt s.table r c with
  | none =>
    exfalso
    have := (hany.absent r c hcell).2
    rw [hcf] at this
    rcases this with h | h
    · cases h
    · cases h; exact hne rfl
  | some cell =>
    have hok := hany.cells r c cell hcell
    have hfx := hok.fmt f hcf hne
    have hnz : cell.xf ≠ 0 := by
      intro e
      rw [e, hany.xf.fmtOf_zero] at hfx
      exact hne (Option.some.inj hfx).symm
    refine ⟨s, s.getCellXfIndex cell.xf (s.changedRows.get r) c, hs, ?_, ?_⟩
    · unfold readStyle
      rw [hS.find hstd r c, if_pos ⟨Nat.le_trans k1.1 hr.1, Nat.le_trans hr.2 k2.2.1⟩, hcell]
      rfl
    · exact (hS.style hstd hgz hfx r c).1 hnz

/-! ### Row and column settings in first-come order -/

theorem find_snoc {α : Type} (p : α → Bool) (l : List α) (a : α) :
    (l ++ [a]).find? p = (l.find? p).or (if p a then some a else none) := by
  rw [List.find?_append]
  congr 1
  simp only [List.find?_cons, List.find?_nil]
  split <;> simp_all

/-- The formats remembered for merging are those of the first settings. -/
structure FirstOk (merge : Fmt → Fmt → Fmt) (s : Sheet Fmt) (l : List (Op Fmt)) : Prop where
  merge : s.merge = merge
  fr : s.dims.firstRow ≤ ROW_MAX
  fc : s.dims.firstCol ≤ COL_MAX
  row : ∀ r, (s.changedRows.get r).isSome = (l.find? (·.setsRow r)).isSome ∧
    (s.changedRows.get r).bind (·.fmt) = firstRowFmt l r
  col : ∀ c, (s.changedCols.get c).isSome = (l.find? (·.setsCol c)).isSome ∧
    (s.changedCols.get c).bind (·.fmt) = firstColFmt l c

theorem firstRow_keep {l : List (Op Fmt)} {op : Op Fmt} {r : Nat}
    (h : op.setsRow r = false ∨ (l.find? (·.setsRow r)).isSome) :
    ((l ++ [op]).find? (·.setsRow r)).isSome = (l.find? (·.setsRow r)).isSome ∧
    firstRowFmt (l ++ [op]) r = firstRowFmt l r := by
  have : (l ++ [op]).find? (·.setsRow r) = l.find? (·.setsRow r) := by
    rw [find_snoc]
    rcases h with h | h
    · simp [h]
    · obtain ⟨x, hx⟩ := Option.isSome_iff_exists.mp h
      simp [hx]
  unfold firstRowFmt
  rw [this]; exact ⟨rfl, rfl⟩

theorem firstCol_keep {l : List (Op Fmt)} {op : Op Fmt} {c : Nat}
    (h : op.setsCol c = false ∨ (l.find? (·.setsCol c)).isSome) :
    ((l ++ [op]).find? (·.setsCol c)).isSome = (l.find? (·.setsCol c)).isSome ∧
    firstColFmt (l ++ [op]) c = firstColFmt l c := by
  have : (l ++ [op]).find? (·.setsCol c) = l.find? (·.setsCol c) := by
    rw [find_snoc]
    rcases h with h | h
    · simp [h]
    · obtain ⟨x, hx⟩ := Option.isSome_iff_exists.mp h
      simp [hx]
  unfold firstColFmt
  rw [this]; exact ⟨rfl, rfl⟩

theorem firstRow_new {l : List (Op Fmt)} {op : Op Fmt} {r : Nat}
    (h : op.setsRow r = true) (hn : (l.find? (·.setsRow r)).isSome = false) :
    ((l ++ [op]).find? (·.setsRow r)) = some op := by
  rw [find_snoc]
  cases hx : l.find? (·.setsRow r) with
  | none => simp [h]
  | some x => simp [hx] at hn

theorem firstCol_new {l : List (Op Fmt)} {op : Op Fmt} {c : Nat}
    (h : op.setsCol c = true) (hn : (l.find? (·.setsCol c)).isSome = false) :
    ((l ++ [op]).find? (·.setsCol c)) = some op := by
  rw [find_snoc]
  cases hx : l.find? (·.setsCol c) with
  | none => simp [h]
  | some x => simp [hx] at hn

/-- The format of a `set_row_format` call. -/
def Op.rowFmt? : Op Fmt → Option Fmt
  | .rowFormat _ f => some f
  | _ => none

/-- What a row setter does: refused outside the grid, else an entry whose remembered format is the
old one or that of the call. -/
theorem rowSetter {s : Sheet Fmt} (hG : Gen dflt s) (hfc : s.dims.firstCol ≤ COL_MAX) (op : Op Fmt) (r0 : Nat)
    (hop : (∃ f, op = .rowFormat r0 f) ∨ (∃ h, op = .rowHeight r0 h) ∨ op = .rowHidden r0) :
    (∀ c, (s.exec op).2.changedCols.get c = s.changedCols.get c) ∧
    ∀ r, (s.exec op).2.changedRows.get r = s.changedRows.get r ∧ op.setsRow r = false ∨
      op.setsRow r = true ∧ ∃ o, (s.exec op).2.changedRows.get r = some o ∧
        o.fmt = (s.changedRows.get r).elim op.rowFmt? (·.fmt) := by
  have hmin := getMinCol_lt hfc
  have hfst := checkDimensions_fst s r0 s.getMinCol
  have key : ∀ (s2 : Sheet Fmt) (o : RowOpt Fmt), s2.changedRows = s.changedRows.insert r0 o →
      s2.changedCols = s.changedCols → inGrid r0 s.getMinCol = true →
      (o.fmt = (s.changedRows.get r0).elim op.rowFmt? (·.fmt)) →
      (∀ c, s2.changedCols.get c = s.changedCols.get c) ∧
      ∀ r, (s2.changedRows.get r = s.changedRows.get r ∧ op.setsRow r = false) ∨
        op.setsRow r = true ∧ ∃ o, s2.changedRows.get r = some o ∧
          o.fmt = (s.changedRows.get r).elim op.rowFmt? (·.fmt) := by
    intro s1 o e1 e2 hg ho
    refine ⟨fun c => by simp only [e2], fun r => ?_⟩
    have hlt : r0 < 1048576 := by simp [inGrid] at hg; exact hg.1
    simp only [e1, get_insert _ _ _ hG.rowsS]
    by_cases e : r = r0
    · subst e
      right
      refine ⟨?_, o, by simp, ho⟩
      rcases hop with ⟨f, rfl⟩ | ⟨h, rfl⟩ | rfl <;> simp [Op.setsRow, hlt]
    · left
      refine ⟨by simp [e], ?_⟩
      rcases hop with ⟨f, rfl⟩ | ⟨h, rfl⟩ | rfl <;> simp [Op.setsRow, Ne.symm e]
  have refused : inGrid r0 s.getMinCol = false → ∀ r, op.setsRow r = false := by
    intro hg r
    have : ¬ r0 < 1048576 := by
      intro hl
      simp [inGrid, COL_MAX] at hg hmin
      omega
    rcases hop with ⟨f, rfl⟩ | ⟨h, rfl⟩ | rfl <;>
    · simp only [Op.setsRow, Bool.and_eq_false_iff, decide_eq_false_iff_not]
      by_cases e : r0 = r
      · right; omega
      · left; exact e
  rcases hop with ⟨f, rfl⟩ | ⟨h, rfl⟩ | rfl
  · show (∀ c, (s.setRowFormat r0 f).2.changedCols.get c = _) ∧ ∀ r, (s.setRowFormat r0 f).2.changedRows.get r = _ ∧ _ ∨ _ ∧ ∃ o, (s.setRowFormat r0 f).2.changedRows.get r = _ ∧ _
    unfold Sheet.setRowFormat
    rcases checkDimensions_cases s r0 s.getMinCol with e | ⟨d, hd, e⟩
    · rw [e] at hfst ⊢
      exact ⟨fun _ => rfl, fun r => Or.inl ⟨rfl, refused hfst.symm r⟩⟩
    · rw [e] at hfst ⊢
      have h1 := (hG.dims (rc := true) d hd).1
      have hf := formatXfIndex_spec h1.xf f
      have e1 : (({ s with dims := d } : Sheet Fmt).formatXfIndex f).2.changedRows = s.changedRows := by
        rw [hf.2.1.same]
      have e2 : (({ s with dims := d } : Sheet Fmt).formatXfIndex f).2.changedCols = s.changedCols := by
        rw [hf.2.1.same]
      simp only
      split
      · rename_i o ho
        rw [e1] at ho
        refine key _ _ (congrArg (BMap.insert r0 _) e1) e2 hfst.symm ?_
        simp [ho, Op.rowFmt?]
      · rename_i ho
        rw [e1] at ho
        refine key _ _ (congrArg (BMap.insert r0 _) e1) e2 hfst.symm ?_
        simp [ho, Op.rowFmt?]
  · show (∀ c, (s.setRowHeight r0 h).2.changedCols.get c = _) ∧ ∀ r, (s.setRowHeight r0 h).2.changedRows.get r = _ ∧ _ ∨ _ ∧ ∃ o, (s.setRowHeight r0 h).2.changedRows.get r = _ ∧ _
    unfold Sheet.setRowHeight
    rcases checkDimensions_cases s r0 s.getMinCol with e | ⟨d, hd, e⟩
    · rw [e] at hfst ⊢
      exact ⟨fun _ => rfl, fun r => Or.inl ⟨rfl, refused hfst.symm r⟩⟩
    · rw [e] at hfst ⊢
      simp only
      split
      · rename_i o ho
        refine key _ _ rfl rfl hfst.symm ?_
        simp [ho, Op.rowFmt?]
      · rename_i ho
        refine key _ _ rfl rfl hfst.symm ?_
        simp [ho, Op.rowFmt?]
  · show (∀ c, (s.setRowHidden r0).2.changedCols.get c = _) ∧ ∀ r, (s.setRowHidden r0).2.changedRows.get r = _ ∧ _ ∨ _ ∧ ∃ o, (s.setRowHidden r0).2.changedRows.get r = _ ∧ _
    unfold Sheet.setRowHidden
    rcases checkDimensions_cases s r0 s.getMinCol with e | ⟨d, hd, e⟩
    · rw [e] at hfst ⊢
      exact ⟨fun _ => rfl, fun r => Or.inl ⟨rfl, refused hfst.symm r⟩⟩
    · rw [e] at hfst ⊢
      simp only
      split
      · rename_i o ho
        refine key _ _ rfl rfl hfst.symm ?_
        simp [ho, Op.rowFmt?]
      · rename_i ho
        refine key _ _ rfl rfl hfst.symm ?_
        simp [ho, Op.rowFmt?]

theorem colSetter {s : Sheet Fmt} (hG : Gen dflt s) (hfr : s.dims.firstRow ≤ ROW_MAX) (c0 : Nat) (f : Fmt) :
    (∀ r, (s.exec (.columnFormat c0 f)).2.changedRows.get r = s.changedRows.get r) ∧
    ∀ c, (s.exec (.columnFormat c0 f)).2.changedCols.get c = s.changedCols.get c ∧
        Op.setsCol c (.columnFormat c0 f : Op Fmt) = false ∨
      Op.setsCol c (.columnFormat c0 f : Op Fmt) = true ∧
      ∃ o, (s.exec (.columnFormat c0 f)).2.changedCols.get c = some o ∧
        o.fmt = (s.changedCols.get c).elim (some f) (·.fmt) := by
  have hmin := getMinRow_lt hfr
  have hfst := checkDimensions_fst s s.getMinRow c0
  show (∀ r, (s.setColumnFormat c0 f).2.changedRows.get r = _) ∧ ∀ c, (s.setColumnFormat c0 f).2.changedCols.get c = _ ∧ _ ∨ _ ∧ ∃ o, (s.setColumnFormat c0 f).2.changedCols.get c = _ ∧ _
  unfold Sheet.setColumnFormat
  rcases checkDimensions_cases s s.getMinRow c0 with e | ⟨d, hd, e⟩
  · rw [e] at hfst ⊢
    refine ⟨fun _ => rfl, fun c => Or.inl ⟨rfl, ?_⟩⟩
    have hg := hfst.symm
    have : ¬ c0 < 16384 := by
      intro hl
      simp [inGrid, ROW_MAX] at hg hmin
      omega
    simp only [Op.setsCol, Bool.and_eq_false_iff, decide_eq_false_iff_not]
    by_cases e : c0 = c
    · right; omega
    · left; exact e
  · rw [e] at hfst ⊢
    have h1 := (hG.dims (rc := true) d hd).1
    have hf := formatXfIndex_spec h1.xf f
    have e1 : (({ s with dims := d } : Sheet Fmt).formatXfIndex f).2.changedRows = s.changedRows := by
      rw [hf.2.1.same]
    have e2 : (({ s with dims := d } : Sheet Fmt).formatXfIndex f).2.changedCols = s.changedCols := by
      rw [hf.2.1.same]
    have hg := hfst.symm
    have hlt : c0 < 16384 := by simp [inGrid] at hg; exact hg.2
    simp only
    have key : ∀ o : ColOpt Fmt, (o.fmt = (s.changedCols.get c0).elim (some f) (·.fmt)) →
        (∀ r, (({ s with dims := d } : Sheet Fmt).formatXfIndex f).2.changedRows.get r = s.changedRows.get r) ∧
        ∀ c, ((({ s with dims := d } : Sheet Fmt).formatXfIndex f).2.changedCols.insert c0 o).get c = s.changedCols.get c ∧
            Op.setsCol c (.columnFormat c0 f : Op Fmt) = false ∨
          Op.setsCol c (.columnFormat c0 f : Op Fmt) = true ∧
          ∃ o', ((({ s with dims := d } : Sheet Fmt).formatXfIndex f).2.changedCols.insert c0 o).get c = some o' ∧
            o'.fmt = (s.changedCols.get c).elim (some f) (·.fmt) := by
      intro o ho
      refine ⟨fun r => by rw [e1], fun c => ?_⟩
      rw [e2]
      simp only [get_insert _ _ _ hG.colsS]
      by_cases e : c = c0
      · subst e
        right
        exact ⟨by simp [Op.setsCol, hlt], o, by simp, ho⟩
      · left
        exact ⟨by simp [e], by simp [Op.setsCol, Ne.symm e]⟩
    split
    · rename_i o ho
      rw [e2] at ho
      exact key _ (by simp [ho])
    · rename_i ho
      rw [e2] at ho
      exact key _ (by simp [ho])

theorem FirstOk.exec {merge : Fmt → Fmt → Fmt} {s : Sheet Fmt} {l : List (Op Fmt)} (hG : Gen dflt s)
    (h : FirstOk merge s l) (op : Op Fmt) : FirstOk merge (s.exec op).2 (l ++ [op]) := by
  have hst := hG.exec op
  have base : ∀ (_ : ∀ r, ((s.exec op).2.changedRows.get r).isSome = ((l ++ [op]).find? (·.setsRow r)).isSome ∧
      ((s.exec op).2.changedRows.get r).bind (·.fmt) = firstRowFmt (l ++ [op]) r)
      (_ : ∀ c, ((s.exec op).2.changedCols.get c).isSome = ((l ++ [op]).find? (·.setsCol c)).isSome ∧
      ((s.exec op).2.changedCols.get c).bind (·.fmt) = firstColFmt (l ++ [op]) c),
      FirstOk merge (s.exec op).2 (l ++ [op]) := fun h1 h2 =>
    ⟨hst.2.merge.trans h.merge, Nat.le_trans hst.2.dims.1 h.fr, Nat.le_trans hst.2.dims.2.1 h.fc, h1, h2⟩
  have rowKeep : ∀ r, op.setsRow r = false → (s.exec op).2.changedRows.get r = s.changedRows.get r →
      ((s.exec op).2.changedRows.get r).isSome = ((l ++ [op]).find? (·.setsRow r)).isSome ∧
      ((s.exec op).2.changedRows.get r).bind (·.fmt) = firstRowFmt (l ++ [op]) r := by
    intro r h1 h2
    have := firstRow_keep (l := l) (Or.inl h1)
    rw [this.1, this.2, h2]; exact h.row r
  have colKeep : ∀ c, op.setsCol c = false → (s.exec op).2.changedCols.get c = s.changedCols.get c →
      ((s.exec op).2.changedCols.get c).isSome = ((l ++ [op]).find? (·.setsCol c)).isSome ∧
      ((s.exec op).2.changedCols.get c).bind (·.fmt) = firstColFmt (l ++ [op]) c := by
    intro r h1 h2
    have := firstCol_keep (l := l) (Or.inl h1)
    rw [this.1, this.2, h2]; exact h.col r
  by_cases hrc : op.isRowCol = false
  · rw [hrc] at hst
    have hr := hst.2.rows rfl
    refine base (fun r => rowKeep r ?_ (by rw [hr.1])) (fun c => colKeep c ?_ (by rw [hr.2]))
    · cases op <;> first | rfl | simp [Op.isRowCol] at hrc
    · cases op <;> first | rfl | simp [Op.isRowCol] at hrc
  · have rowCase : ∀ r0, ((∃ f, op = .rowFormat r0 f) ∨ (∃ h, op = .rowHeight r0 h) ∨ op = .rowHidden r0) →
        FirstOk merge (s.exec op).2 (l ++ [op]) := by
      intro r0 hop
      obtain ⟨k1, k2⟩ := rowSetter hG h.fc op r0 hop
      refine base (fun r => ?_) (fun c => colKeep c ?_ (k1 c))
      · rcases k2 r with ⟨e, hn⟩ | ⟨hy, o, ho, hof⟩
        · exact rowKeep r hn e
        · have hrow := h.row r
          cases hx : s.changedRows.get r with
          | some o0 =>
            rw [hx] at hrow hof
            simp only [Option.isSome_some, Option.bind_some] at hrow
            have := firstRow_keep (l := l) (op := op) (Or.inr hrow.1.symm)
            rw [this.1, this.2, ho, ← hrow.1, ← hrow.2]
            simp [hof]
          | none =>
            rw [hx] at hrow hof
            simp only [Option.isSome_none, Option.bind_none] at hrow
            have := firstRow_new (l := l) hy hrow.1.symm
            unfold firstRowFmt
            rw [this, ho]
            refine ⟨rfl, ?_⟩
            simp only [Option.bind_some, hof]
            rcases hop with ⟨f, rfl⟩ | ⟨h, rfl⟩ | rfl <;> rfl
      · rcases hop with ⟨f, rfl⟩ | ⟨h, rfl⟩ | rfl <;> rfl
    cases op <;> first | exact absurd rfl hrc | skip
    · exact rowCase _ (Or.inl ⟨_, rfl⟩)
    · rename_i c0 f
      obtain ⟨k1, k2⟩ := colSetter hG h.fr c0 f
      refine base (fun r => rowKeep r rfl (k1 r)) (fun c => ?_)
      rcases k2 c with ⟨e, hn⟩ | ⟨hy, o, ho, hof⟩
      · exact colKeep c hn e
      · have hcol := h.col c
        cases hx : s.changedCols.get c with
        | some o0 =>
          rw [hx] at hcol hof
          simp only [Option.isSome_some, Option.bind_some] at hcol
          have := firstCol_keep (l := l) (op := .columnFormat c0 f) (Or.inr hcol.1.symm)
          rw [this.1, this.2, ho, ← hcol.1, ← hcol.2]
          simp [hof]
        | none =>
          rw [hx] at hcol hof
          simp only [Option.isSome_none, Option.bind_none] at hcol
          have := firstCol_new (l := l) hy hcol.1.symm
          unfold firstColFmt
          rw [this, ho]
          refine ⟨rfl, ?_⟩
          simp only [Option.bind_some, hof]
          rfl
    · exact rowCase _ (Or.inr (Or.inl ⟨_, rfl⟩))
    · exact rowCase _ (Or.inr (Or.inr rfl))

theorem FirstOk.book (cfgs : List Cfg) (merge : Fmt → Fmt → Fmt) (dflt : Fmt) (ops : List (Nat × Op Fmt)) :
    BookInv cfgs dflt (FirstOk merge) ((Book.new cfgs merge dflt).run ops) ops := by
  apply book_lift
  · intro cfg
    exact ⟨rfl, Nat.le_refl _, Nat.le_refl _, fun _ => ⟨rfl, rfl⟩, fun _ => ⟨rfl, rfl⟩⟩
  · intro s l op hG h
    exact h.exec hG op
  · intro s l t g hG hs h
    exact ⟨h.merge, h.fr, h.fc, h.row, h.col⟩

/-! ### An unformatted write where row and column have formats -/

theorem xfFor_merged (s : Sheet Fmt) (r c : Nat) (rf cf : Fmt)
    (hr : (s.changedRows.get r).bind (·.fmt) = some rf) (hc : (s.changedCols.get c).bind (·.fmt) = some cf) :
    s.xfFor r c none = s.xfFor r c (some (s.merge rf cf)) := by
  obtain ⟨ro, h1, h2⟩ := Option.bind_eq_some_iff.mp hr
  obtain ⟨co, h3, h4⟩ := Option.bind_eq_some_iff.mp hc
  simp only [Sheet.xfFor, Sheet.rowColFormat, h1, h2, h3, h4]

private theorem string_merged (s : Sheet Fmt) (r c : Nat) (rf cf : Fmt) (t : Str) (ht : t ≠ [])
    (hr : (s.changedRows.get r).bind (·.fmt) = some rf) (hc : (s.changedCols.get c).bind (·.fmt) = some cf) :
    s.storeString r c t none = s.storeString r c t (some (s.merge rf cf)) := by
  unfold Sheet.storeString
  rw [if_neg ht, if_neg ht]
  rcases checkDimensions_cases s r c with e | ⟨d, _, e⟩
  · rw [e]
  · rw [e]
    simp only
    rw [xfFor_merged ({ s with dims := d } : Sheet Fmt) r c rf cf hr hc]

/-- The unformatted write does what the write with the merged format does. -/
theorem exec_merged (s : Sheet Fmt) (r c : Nat) (rf cf : Fmt) (w : PlainWrite) (hw : w.stores s.cfg = true)
    (hr : (s.changedRows.get r).bind (·.fmt) = some rf) (hc : (s.changedCols.get c).bind (·.fmt) = some cf) :
    s.exec (w.op r c none) = s.exec (w.op r c (some (s.merge rf cf))) := by
  have num : ∀ n b, (PlainWrite.number n).stores s.cfg = true →
      s.storeNumberType r c n none b = s.storeNumberType r c n (some (s.merge rf cf)) b := by
    intro n b hn
    unfold Sheet.storeNumberType
    rcases checkDimensions_cases s r c with e | ⟨d, _, e⟩
    · rw [e]
    · rw [e]
      simp only [PlainWrite.stores] at hn
      cases n with
      | finite t => simp only; rw [xfFor_merged ({ s with dims := d } : Sheet Fmt) r c rf cf hr hc]
      | nan =>
        simp only [Bool.and_eq_true, decide_eq_true_eq] at hn
        exact string_merged ({ s with dims := d } : Sheet Fmt) r c rf cf _ hn.1 hr hc
      | posInf =>
        simp only [Bool.and_eq_true, decide_eq_true_eq] at hn
        exact string_merged ({ s with dims := d } : Sheet Fmt) r c rf cf _ hn.1 hr hc
      | negInf =>
        simp only [Bool.and_eq_true, decide_eq_true_eq] at hn
        exact string_merged ({ s with dims := d } : Sheet Fmt) r c rf cf _ hn.1 hr hc
  cases w with
  | number n => exact num n false hw
  | dateTime n => exact num n true hw
  | string t =>
    simp only [PlainWrite.stores, Bool.and_eq_true, decide_eq_true_eq] at hw
    exact string_merged s r c rf cf t hw.1 hr hc
  | rich t raw =>
    simp only [PlainWrite.stores, Bool.and_eq_true, decide_eq_true_eq] at hw
    show s.storeRich r c t raw none = s.storeRich r c t raw (some (s.merge rf cf))
    unfold Sheet.storeRich
    rw [if_neg hw.1, if_neg hw.1]
    rcases checkDimensions_cases s r c with e | ⟨d, _, e⟩
    · rw [e]
    · rw [e]
      simp only
      rw [xfFor_merged ({ s with dims := d } : Sheet Fmt) r c rf cf hr hc]
  | formula fa =>
    simp only [PlainWrite.stores, Bool.not_eq_true'] at hw
    show s.storeFormula r c fa none = s.storeFormula r c fa (some (s.merge rf cf))
    unfold Sheet.storeFormula
    rw [if_neg (by simp [hw]), if_neg (by simp [hw])]
    rcases checkDimensions_cases s r c with e | ⟨d, _, e⟩
    · rw [e]
    · rw [e]
      simp only
      rw [xfFor_merged ({ s with dims := d } : Sheet Fmt) r c rf cf hr hc]
  | boolean b =>
    show s.storeBoolean r c b none = s.storeBoolean r c b (some (s.merge rf cf))
    unfold Sheet.storeBoolean
    rcases checkDimensions_cases s r c with e | ⟨d, _, e⟩
    · rw [e]
    · rw [e]
      simp only
      rw [xfFor_merged ({ s with dims := d } : Sheet Fmt) r c rf cf hr hc]

theorem opsFor_append (i : Nat) (a b : List (Nat × Op Fmt)) : opsFor i (a ++ b) = opsFor i a ++ opsFor i b := by
  simp [opsFor]

theorem opsFor_single (i : Nat) (op : Op Fmt) : opsFor i [(i, op)] = [op] := by simp [opsFor]

/-- What the write leaves in its cell. -/
theorem PlainWrite.effect (w : PlainWrite) (cfg : Cfg) (r c : Nat) (f : Option Fmt) (hg : inGrid r c = true)
    (hw : w.stores cfg = true) : ∃ ct, ct ≠ Content.blank ∧ (w.op r c f).effectAt cfg r c = .write ct f := by
  have hs : ∀ (ct : Content) (t : Str), t ≠ [] → t.length ≤ 32767 → updString r c ct t f = .write ct f := by
    intro ct t h1 h2; simp [updString, h1, hg, h2]
  cases w with
  | number n =>
    cases n with
    | finite t => exact ⟨.number t, by simp, by simp [PlainWrite.op, Op.effectAt, updNumber, hg]⟩
    | _ =>
      simp only [PlainWrite.stores, Bool.and_eq_true, decide_eq_true_eq] at hw
      exact ⟨.text _, by simp, by simp [PlainWrite.op, Op.effectAt, updNumber, hg, hs _ _ hw.1 hw.2]; rfl⟩
  | dateTime n =>
    cases n with
    | finite t => exact ⟨.dateTime t, by simp, by simp [PlainWrite.op, Op.effectAt, updNumber, hg]⟩
    | _ =>
      simp only [PlainWrite.stores, Bool.and_eq_true, decide_eq_true_eq] at hw
      exact ⟨.text _, by simp, by simp [PlainWrite.op, Op.effectAt, updNumber, hg, hs _ _ hw.1 hw.2]; rfl⟩
  | string t =>
    simp only [PlainWrite.stores, Bool.and_eq_true, decide_eq_true_eq] at hw
    exact ⟨.text t, by simp, by simp [PlainWrite.op, Op.effectAt, hs _ _ hw.1 hw.2]⟩
  | rich t raw =>
    simp only [PlainWrite.stores, Bool.and_eq_true, decide_eq_true_eq] at hw
    exact ⟨.rich t raw, by simp, by simp [PlainWrite.op, Op.effectAt, hs _ _ hw.1 hw.2]⟩
  | formula fa =>
    simp only [PlainWrite.stores, Bool.not_eq_true'] at hw
    exact ⟨.formula _ _, by simp, by simp [PlainWrite.op, Op.effectAt, hg, hw]; exact ⟨rfl, rfl⟩⟩
  | boolean b => exact ⟨.boolean b, by simp, by simp [PlainWrite.op, Op.effectAt, hg]⟩

/-- C43 (partial): a value written without a format into a cell whose row and column both have a
format, each given by the first setting of that row and column, shows the row's format merged over the
column's, whatever happened before and after, as long as nothing later touches the cell. Missing: rows
whose height or visibility was set before their format, and second formats for a row or column
(`C43_intersection_depends_on_order`); a merged format equal to the default. -/
theorem C43_merged_format_partial (cfgs : List Cfg) (merge : Fmt → Fmt → Fmt) (dflt : Fmt)
    (pre post : List (Nat × Op Fmt)) (extra : List Fmt) (i : Nat) (cfg : Cfg)
    (hc : cfgs[i]? = some cfg) (hstd : cfg.isStandard) (r c : Nat) (hg : inGrid r c = true)
    (w : PlainWrite) (hw : w.stores cfg = true) (rf cf : Fmt)
    (hr : firstRowFmt (opsFor i pre) r = some rf) (hcf : firstColFmt (opsFor i pre) c = some cf)
    (hne : merge rf cf ≠ dflt)
    (hpost : ∀ op ∈ opsFor i post, op.effectAt cfg r c = .keep)
    (hdyn : ∀ op ∈ opsFor i (pre ++ post), op.isDynamicWithFormat = false)
    (xfOrder : List (Fmt × Nat))
    (hxf : xfOrder.Perm (savedBook cfgs merge dflt (pre ++ [(i, w.op r c none)] ++ post) extra).gxf) :
    ∃ s x, (savedBook cfgs merge dflt (pre ++ [(i, w.op r c none)] ++ post) extra).sheets[i]? = some s ∧
      readStyle s.rows r c = some x ∧ (xfList xfOrder)[x]? = some (merge rf cf) := by
  have hb := FirstOk.book cfgs merge dflt pre
  generalize hB : (Book.new cfgs merge dflt).run pre = B at hb
  have hlen : i < B.sheets.length := by
    rw [hb.len]; exact (List.getElem?_eq_some_iff.mp hc).1
  have hs0 : B.sheets[i]? = some B.sheets[i] := List.getElem?_eq_getElem hlen
  generalize B.sheets[i] = s0 at hs0
  have hF := hb.rel i s0 hs0
  have hcfg : s0.cfg = cfg := by
    have := hb.cfg i s0 hs0
    rw [hc] at this; cases this; rfl
  have heq : B.exec i (w.op r c none) = B.exec i (w.op r c (some (merge rf cf))) := by
    unfold Book.exec
    rw [hs0]
    simp only
    have := exec_merged ({ s0 with sst := B.sst, gxf := B.gxf } : Sheet Fmt) r c rf cf w
      (by show w.stores s0.cfg = true; rw [hcfg]; exact hw)
      (by rw [← hr]; exact (hF.row r).2) (by rw [← hcf]; exact (hF.col c).2)
    have hm : s0.merge = merge := hF.merge
    subst hm
    rw [this]
  have hrun : ∀ op : Op Fmt, (Book.new cfgs merge dflt).run (pre ++ [(i, op)] ++ post) = (B.exec i op).run post := by
    intro op
    simp only [Book.run, List.foldl_append, List.foldl_cons, List.foldl_nil]
    rw [← hB]; rfl
  have hsaved : savedBook cfgs merge dflt (pre ++ [(i, w.op r c none)] ++ post) extra =
      savedBook cfgs merge dflt (pre ++ [(i, w.op r c (some (merge rf cf)))] ++ post) extra := by
    unfold savedBook
    rw [hrun, hrun, heq]
  rw [hsaved] at hxf ⊢
  obtain ⟨ct, hct, heff⟩ := w.effect cfg r c (some (merge rf cf)) hg hw
  have hops : opsFor i (pre ++ [(i, w.op r c (some (merge rf cf)))] ++ post) =
      opsFor i pre ++ [w.op r c (some (merge rf cf))] ++ opsFor i post := by
    rw [opsFor_append, opsFor_append, opsFor_single]
  have keepF : ∀ (l : List (Op Fmt)) (a : Option Fmt), (∀ op ∈ l, op.effectAt cfg r c = .keep) →
      l.foldl (fun a op => (op.effectAt cfg r c).fmt a) a = a := by
    intro l
    induction l with
    | nil => intro a _; rfl
    | cons op l ih =>
      intro a h
      simp only [List.foldl_cons, h op List.mem_cons_self]
      exact ih _ fun o ho => h o (List.mem_cons_of_mem _ ho)
  have keepC : ∀ (l : List (Op Fmt)) (a : Content), (∀ op ∈ l, op.effectAt cfg r c = .keep) →
      l.foldl (fun a op => (op.effectAt cfg r c).content a) a = a := by
    intro l
    induction l with
    | nil => intro a _; rfl
    | cons op l ih =>
      intro a h
      simp only [List.foldl_cons, h op List.mem_cons_self]
      exact ih _ fun o ho => h o (List.mem_cons_of_mem _ ho)
  refine C13_explicit_format_written_partial cfgs merge dflt _ extra xfOrder hxf i cfg hc hstd r c
    (merge rf cf) ?_ hne ?_ (Or.inr ?_)
  · rw [hops]
    simp only [specFmt, List.foldl_append, List.foldl_cons, List.foldl_nil]
    rw [keepF _ _ hpost, heff]; rfl
  · rw [hops]
    intro op ho
    rw [opsFor_append] at hdyn
    simp only [List.mem_append, List.mem_singleton] at ho
    rcases ho with (h | rfl) | h
    · exact hdyn op (List.mem_append_left _ h)
    · cases w <;> first | rfl | skip
      simp only [PlainWrite.stores, Bool.not_eq_true'] at hw
      simp [PlainWrite.op, Op.isDynamicWithFormat, hw]
    · exact hdyn op (List.mem_append_right _ h)
  · rw [hops]
    simp only [specContent, List.foldl_append, List.foldl_cons, List.foldl_nil]
    rw [keepC _ _ hpost, heff]; exact hct

/-- A history for the two theorems: formats on row 3 and column 4, a number at the crossing, data
around a formatted range. -/
def demoRowCol : List (Nat × Op Nat) :=
  [(0, .rowFormat 3 1), (0, .string 9 0 "end".toList none), (0, .rowHeight 3 "20".toList),
   (0, .columnFormat 4 2), (0, .string 0 0 "start".toList none), (0, .rangeFormat 5 5 6 6 7)]

example : firstRowFmt (opsFor 0 demoRowCol) 3 = some 1 ∧ firstColFmt (opsFor 0 demoRowCol) 4 = some 2 ∧
    (PlainWrite.number (.finite "1".toList)).stores {} = true ∧ demoMerge 1 2 ≠ 0 ∧
    (∀ op ∈ opsFor 0 (demoRowCol ++ []), op.isDynamicWithFormat = false) ∧
    specFmt {} (opsFor 0 demoRowCol) 6 5 = some 7 ∧
    specContent {} (opsFor 0 demoRowCol) 0 0 ≠ .blank ∧ specContent {} (opsFor 0 demoRowCol) 9 0 ≠ .blank := by
  decide +kernel

end Verif
