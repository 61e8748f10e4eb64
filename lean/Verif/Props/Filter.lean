import Verif.Props.FilterCond
import Verif.Props.TableShow
/-!
C33: which rows an autofilter hides.
-/
set_option linter.unusedSectionVars false
namespace Verif
open Spec BMap
variable {Fmt : Type} [DecidableEq Fmt] {dflt : Fmt} {rc : Bool} {cfg : Cfg}

/-! ### Tables keep the row settings -/

theorem Gen.updateCellFormat {s : Sheet Fmt} (h : Gen dflt s) (r c xf : Nat) (hx : (s.fmtOf xf).isSome) :
    StepG rc dflt s (s.updateCellFormat r c xf) := by
  unfold Sheet.updateCellFormat
  split
  · exact StepG.refl h
  · rename_i cols hcols
    split
    · exact StepG.refl h
    · rename_i cell hcell
      refine h.setTable (h.table.insertRow ?_)
      intro p hp
      rcases mem_insert hp with rfl | hp
      · have := h.table.get hcols _ (mem_of_get hcell)
        exact ⟨this.1.setXf xf, by rw [xf_setXf]; exact hx⟩
      · exact h.table.get hcols p hp

theorem Gen.setWritingAhead {s : Sheet Fmt} (h : Gen dflt s) (b : Bool) : StepG rc dflt s (s.setWritingAhead b) := by
  unfold Sheet.setWritingAhead
  split
  · exact h.flags b s.hasLocalSst s.notes
  · exact StepG.refl h

theorem Gen.formatTableColumn {s : Sheet Fmt} (h : Gen dflt s) (t : Table Fmt) (d : Dims) (rows : List Nat) (col : Nat)
    (c : TableCol Fmt) : StepG rc dflt s (s.formatTableColumn t d rows col c) := by
  unfold Sheet.formatTableColumn
  cases c.format with
  | none => exact StepG.refl h
  | some f =>
    have hx := formatXfIndex_spec h.xf f
    dsimp only
    refine (h.formatXf f).trans fun h1 => ?_
    have hxf : ((s.formatXfIndex f).2.fmtOf (s.formatXfIndex f).1).isSome := by rw [hx.2.2]; rfl
    generalize (s.formatXfIndex f).1 = xf at hxf
    generalize (s.formatXfIndex f).2 = s1 at h1 hxf
    have loop : ∀ (l : List Nat) (s1 : Sheet Fmt), Gen dflt s1 → (s1.fmtOf xf).isSome →
        StepG rc dflt s1 (l.foldl (fun s row => s.updateCellFormat row col xf) s1) ∧
        ((l.foldl (fun s row => s.updateCellFormat row col xf) s1).fmtOf xf).isSome := by
      intro l
      induction l with
      | nil => intro s1 h hx; exact ⟨StepG.refl h, hx⟩
      | cons a l ih =>
        intro s1 h hx
        have h2 := h.updateCellFormat (rc := rc) a col xf hx
        have := ih _ h2.1 (by rw [updateCellFormat_fmtOf]; exact hx)
        exact ⟨h2.trans fun _ => this.1, this.2⟩
    have h2 := loop rows s1 h1 hxf
    split
    · exact h2.1.trans fun h3 => h3.updateCellFormat _ _ _ h2.2
    · exact h2.1

theorem Gen.writeTable {s : Sheet Fmt} (h : Gen dflt s) (t : Table Fmt) (df : Fmt) (d : Dims) (rows : List Nat) :
    StepG rc dflt s (s.writeTable t df d rows).2 := by
  unfold Sheet.writeTable
  refine gen_forEach _ _ (fun p _ (s : Sheet Fmt) h => ?_) h
  unfold Sheet.writeTableColumn
  refine gen_andThen ?_ fun s h => gen_andThen ?_ fun s h => gen_andThen ?_ fun s h => ?_
  · unfold Sheet.writeTableHeader
    split
    · exact h.storeString _ _ _ _
    · exact StepG.refl h
  · refine (h.setWritingAhead true).trans fun h => ?_
    unfold Sheet.writeTableTotal
    split
    · split
      · exact h.storeString _ _ _ _
      · split
        · exact h.storeFormula _ _ _ _
        · exact StepG.refl h
    · exact StepG.refl h
  · unfold Sheet.writeTableFormula
    split
    · exact StepG.refl h
    · exact gen_forEach _ _ (fun r _ (s : Sheet Fmt) h => h.storeFormula _ _ _ _) h
  · exact (h.formatTableColumn t d rows p.1 p.2).trans fun h => h.setWritingAhead false

/-! ### The written rows -/

theorem saveRows_settings (s : Sheet Fmt) (sst : SST) (r : Nat)
    (h : ∀ o, s.changedRows.get r = some o → s.dims.firstRow ≤ r ∧ r ≤ s.dims.lastRow) :
    rowSettings (s.saveRows sst) r = s.changedRows.get r := by
  have ed : (s.updateStringTableIds sst).1.dims = s.dims := by unfold Sheet.updateStringTableIds; split <;> rfl
  have er : (s.updateStringTableIds sst).1.changedRows = s.changedRows := by
    unfold Sheet.updateStringTableIds; split <;> rfl
  unfold rowSettings Sheet.saveRows
  rw [← ed, ← er] at h
  rw [← er]
  generalize (s.updateStringTableIds sst).1 = s at h
  obtain ⟨f, hf⟩ : ∃ f : Nat → Option (RowOut Fmt), (fun r : Nat =>
    let ro := s.changedRows.get r
    match s.table.get r with
    | none => if ro.isSome || (s.notes.get r).isSome then some (⟨r, ro, none⟩ : RowOut Fmt) else none
    | some columns => some ⟨r, ro, some (s.writeCells ro columns)⟩) = f := ⟨_, rfl⟩
  have hw : s.writeDataTable = (List.range' s.dims.firstRow (s.dims.lastRow + 1 - s.dims.firstRow)).filterMap f := by
    rw [← hf]; rfl
  rw [hw, List.find?_filterMap]
  have hfr : ∀ a x, f a = some x → x.row = a ∧ x.opt = s.changedRows.get a := by
    intro a x hx
    subst hf
    dsimp only at hx
    split at hx
    · split at hx
      · cases hx; exact ⟨rfl, rfl⟩
      · cases hx
    · cases hx; exact ⟨rfl, rfl⟩
  have hfn : ∀ a, f a = none → s.changedRows.get a = none := by
    intro a hx
    subst hf
    dsimp only at hx
    split at hx
    · split at hx
      · cases hx
      · rename_i h
        cases hg : s.changedRows.get a with
        | none => rfl
        | some o => rw [hg] at h; simp at h
    · cases hx
  cases hc : List.find? (fun a => (f a).any fun ro => ro.row == r) (List.range' s.dims.firstRow (s.dims.lastRow + 1 - s.dims.firstRow)) with
  | some a =>
    have hp := List.find?_some hc
    cases hx : f a with
    | none => rw [hx] at hp; simp at hp
    | some x =>
      rw [hx] at hp
      simp only [Option.any_some, beq_iff_eq] at hp
      have := hfr a x hx
      simp only [Option.bind_some, hx, this.2]
      rw [← hp, this.1]
  | none =>
    simp only [Option.bind_none]
    cases hg : s.changedRows.get r with
    | none => rfl
    | some o =>
      have hr := h o hg
      have := List.find?_eq_none.mp hc r (List.mem_range'_1.mpr (by omega))
      cases hx : f r with
      | none => rw [hfn r hx] at hg; cases hg
      | some x =>
        rw [hx] at this
        simp [(hfr r x hx).1] at this

/-! ### The invariant -/

/-- The row settings of a sheet: sorted, inside the dimensions, and hidden where `hidden` says. -/
structure RowsOk (s : Sheet Fmt) (hidden : Nat → Bool) : Prop where
  fr : s.dims.firstRow ≤ ROW_MAX
  fc : s.dims.firstCol ≤ COL_MAX
  within : ∀ r o, s.changedRows.get r = some o → s.dims.firstRow ≤ r ∧ r ≤ s.dims.lastRow
  hidden : ∀ r, hidden r = true ↔ ∃ o, s.changedRows.get r = some o ∧ o.hidden = true

theorem RowsOk.keep {s s' : Sheet Fmt} {hidden : Nat → Bool} (h : RowsOk s hidden)
    (hr : s'.changedRows = s.changedRows) (hd : DimsLe s.dims s'.dims) : RowsOk s' hidden := by
  unfold DimsLe at hd
  refine ⟨Nat.le_trans hd.1 h.fr, Nat.le_trans hd.2.1 h.fc, fun r o ho => ?_, fun r => ?_⟩
  · rw [hr] at ho
    have := h.within r o ho
    omega
  · rw [hr]; exact h.hidden r

theorem RowsOk.step {s s' : Sheet Fmt} {hidden : Nat → Bool} (h : RowsOk s hidden) (hs : StepG false dflt s s') :
    RowsOk s' hidden := h.keep (hs.2.rows rfl).1 hs.2.dims

/-- One row setting is changed, and the dimensions reach the row. -/
theorem RowsOk.insert {s s' : Sheet Fmt} {hidden : Nat → Bool} (h : RowsOk s hidden) (hS : Sorted s.changedRows)
    (r : Nat) (o : RowOpt Fmt) (hr : s'.changedRows = s.changedRows.insert r o) (hd : DimsLe s.dims s'.dims)
    (h1 : s'.dims.firstRow ≤ r) (h2 : r ≤ s'.dims.lastRow) :
    RowsOk s' (fun x => if x = r then o.hidden else hidden x) := by
  unfold DimsLe at hd
  refine ⟨Nat.le_trans hd.1 h.fr, Nat.le_trans hd.2.1 h.fc, fun x p hp => ?_, fun x => ?_⟩
  · rw [hr, get_insert _ _ _ hS] at hp
    split at hp
    · rename_i e; subst e; exact ⟨h1, h2⟩
    · have := h.within x p hp
      omega
  · rw [hr, get_insert _ _ _ hS]
    by_cases e : x = r
    · rw [if_pos e, if_pos e]
      simp
    · rw [if_neg e, if_neg e]
      exact h.hidden x

theorem RowsOk.congr {s : Sheet Fmt} {a b : Nat → Bool} (h : RowsOk s a) (e : ∀ r, b r = a r) : RowsOk s b :=
  ⟨h.fr, h.fc, h.within, fun r => by rw [e]; exact h.hidden r⟩

/-- The dimensions after an accepted check reach the row. -/
theorem minCol_check (s : Sheet Fmt) (hm : s.cfg.constMem = false) (hfc : s.dims.firstCol ≤ COL_MAX) (r : Nat) :
    (¬ r < ROW_MAX ∧ s.checkDimensions r s.getMinCol = (false, s)) ∨
    (r < ROW_MAX ∧ ∃ d, DimsLe s.dims d ∧ d.firstRow ≤ r ∧ r ≤ d.lastRow ∧
      s.checkDimensions r s.getMinCol = (true, { s with dims := d })) := by
  have hmin := getMinCol_lt hfc
  rcases checkDimensions_std s hm r s.getMinCol with ⟨hg, e⟩ | ⟨hg, e⟩
  · left
    refine ⟨fun hr => ?_, e⟩
    rw [(inGrid_iff r s.getMinCol).mpr ⟨hr, hmin⟩] at hg
    cases hg
  · right
    refine ⟨((inGrid_iff _ _).mp hg).1, _, ?_, ?_, ?_, e⟩
    · unfold DimsLe; dsimp only; omega
    · dsimp only; omega
    · dsimp only; omega

/-- The row settings with the row hidden. -/
def Sheet.hiddenOpt (s : Sheet Fmt) (r : Nat) : RowOpt Fmt :=
  { (s.changedRows.get r).getD ⟨s.defaultHeight, 0, false, 0, false, none⟩ with hidden := true }

theorem setRowHidden_spec (s : Sheet Fmt) (hm : s.cfg.constMem = false) (hfc : s.dims.firstCol ≤ COL_MAX) (r : Nat) :
    (¬ r < ROW_MAX ∧ s.setRowHidden r = (some .rowColumnLimit, s)) ∨
    (r < ROW_MAX ∧ ∃ d, DimsLe s.dims d ∧ d.firstRow ≤ r ∧ r ≤ d.lastRow ∧
      s.setRowHidden r = (none, { s with dims := d, changedRows := s.changedRows.insert r (s.hiddenOpt r) })) := by
  unfold Sheet.setRowHidden
  rcases minCol_check s hm hfc r with ⟨hr, e⟩ | ⟨hr, d, h1, h2, h3, e⟩
  · exact .inl ⟨hr, by rw [e]⟩
  · refine .inr ⟨hr, d, h1, h2, h3, ?_⟩
    rw [e]
    dsimp only
    unfold Sheet.hiddenOpt
    cases s.changedRows.get r <;> rfl

theorem RowsOk.setHidden {s : Sheet Fmt} {hidden : Nat → Bool} (h : RowsOk s hidden) (hm : s.cfg.constMem = false)
    (hS : Sorted s.changedRows) (r : Nat) :
    RowsOk (s.setRowHidden r).2 (fun x => if r < 1048576 then x = r || hidden x else hidden x) := by
  rcases setRowHidden_spec s hm h.fc r with ⟨hr, e⟩ | ⟨hr, d, h1, h2, h3, e⟩
  · rw [e]
    exact h.congr fun x => if_neg hr
  · rw [e]
    refine (h.insert (s' := { s with dims := d, changedRows := _ }) hS r _ rfl h1 h2 h3).congr fun x => ?_
    rw [if_pos (show r < 1048576 from hr)]
    by_cases e : x = r <;> simp [e, Sheet.hiddenOpt]

theorem RowsOk.setUnhidden {s : Sheet Fmt} {hidden : Nat → Bool} (h : RowsOk s hidden) (hm : s.cfg.constMem = false)
    (hS : Sorted s.changedRows) (r : Nat) :
    RowsOk (s.setRowUnhidden r).2 (fun x => if r < 1048576 then x ≠ r && hidden x else hidden x) := by
  unfold Sheet.setRowUnhidden
  rcases minCol_check s hm h.fc r with ⟨hr, e⟩ | ⟨hr, d, h1, h2, h3, e⟩
  · rw [e]
    exact h.congr fun x => if_neg hr
  · rw [e]
    dsimp only
    cases hg : s.changedRows.get r with
    | some o =>
      refine (h.insert (s' := { s with dims := d, changedRows := _ }) hS r { o with hidden := false } rfl h1 h2 h3).congr
        fun x => ?_
      rw [if_pos (show r < 1048576 from hr)]
      by_cases e : x = r <;> simp [e]
    | none =>
      refine (h.keep (s' := { s with dims := d }) rfl h1).congr fun x => ?_
      rw [if_pos (show r < 1048576 from hr)]
      by_cases e : x = r
      · subst e
        cases hh : hidden x with
        | false => simp
        | true =>
          obtain ⟨o, ho, _⟩ := (h.hidden x).mp hh
          rw [hg] at ho; cases ho
      · simp [e]

theorem RowsOk.exec {s : Sheet Fmt} {hidden : Nat → Bool} (h : RowsOk s hidden) (hG : Gen dflt s)
    (hm : s.cfg.constMem = false) (op : Op Fmt) : RowsOk (s.exec op).2
      (fun x => match op with
        | .rowHidden r => if r < 1048576 then x = r || hidden x else hidden x
        | _ => hidden x) := by
  have hst := hG.exec op
  have other : op.isRowCol = false → RowsOk (s.exec op).2 hidden := fun e => h.step (e ▸ hst)
  cases op with
  | rowHidden r => exact h.setHidden hm hG.rowsS r
  | rowFormat r f =>
    show RowsOk (s.setRowFormat r f).2 hidden
    unfold Sheet.setRowFormat
    rcases minCol_check s hm h.fc r with ⟨hr, e⟩ | ⟨hr, d, h1, h2, h3, e⟩
    · rw [e]; exact h
    · rw [e]
      have hf := (formatXfIndex_spec ((hG.dims (rc := false) d h1).1).xf f).2.1.same
      have e1 : (({ s with dims := d } : Sheet Fmt).formatXfIndex f).2.changedRows = s.changedRows := by rw [hf]
      have e2 : (({ s with dims := d } : Sheet Fmt).formatXfIndex f).2.dims = d := by rw [hf]
      dsimp only
      rw [e1]
      cases hg : s.changedRows.get r with
      | some o =>
        refine (h.insert hG.rowsS r _ rfl (by rw [e2]; exact h1) (by rw [e2]; exact h2) (by rw [e2]; exact h3)).congr
          fun x => ?_
        by_cases e : x = r
        · subst e
          rw [if_pos rfl, Bool.eq_iff_iff, h.hidden]
          simp [hg]
        · rw [if_neg e]
      | none =>
        refine (h.insert hG.rowsS r _ rfl (by rw [e2]; exact h1) (by rw [e2]; exact h2) (by rw [e2]; exact h3)).congr
          fun x => ?_
        by_cases e : x = r
        · subst e
          rw [if_pos rfl, Bool.eq_iff_iff, h.hidden]
          simp [hg]
        · rw [if_neg e]
  | rowHeight r t =>
    show RowsOk (s.setRowHeight r t).2 hidden
    unfold Sheet.setRowHeight
    rcases minCol_check s hm h.fc r with ⟨hr, e⟩ | ⟨hr, d, h1, h2, h3, e⟩
    · rw [e]; exact h
    · rw [e]
      dsimp only
      cases hg : s.changedRows.get r with
      | some o =>
        refine (h.insert (s' := { s with dims := d, changedRows := _ }) hG.rowsS r _ rfl h1 h2 h3).congr fun x => ?_
        by_cases e : x = r
        · subst e
          rw [if_pos rfl, Bool.eq_iff_iff, h.hidden]
          simp [hg]
        · rw [if_neg e]
      | none =>
        refine (h.insert (s' := { s with dims := d, changedRows := _ }) hG.rowsS r _ rfl h1 h2 h3).congr fun x => ?_
        by_cases e : x = r
        · subst e
          rw [if_pos rfl, Bool.eq_iff_iff, h.hidden]
          simp [hg]
        · rw [if_neg e]
  | columnFormat c f =>
    refine h.keep ?_ hst.2.dims
    show (s.setColumnFormat c f).2.changedRows = _
    unfold Sheet.setColumnFormat
    rcases checkDimensions_cases s s.getMinRow c with e | ⟨d, hd, e⟩
    · rw [e]
    · rw [e]
      have hf := (formatXfIndex_spec ((hG.dims (rc := false) d hd).1).xf f).2.1.same
      have e1 : (({ s with dims := d } : Sheet Fmt).formatXfIndex f).2.changedRows = s.changedRows := by rw [hf]
      dsimp only
      split <;> exact e1
  | _ => exact other rfl

end Verif
