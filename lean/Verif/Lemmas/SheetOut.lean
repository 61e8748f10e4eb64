import Verif.Lemmas.Sheet
/-! What the standard-mode writer emits, in terms of the stored table. -/
set_option linter.unusedSectionVars false
set_option linter.unusedSimpArgs false
namespace Verif
open BMap

/-- `c'` is `c` with a string id possibly filled in. -/
def IdRel (c c' : Cell) : Prop := ∃ t : SST, c' = (c.assignId t).1

theorem IdRel.content {c c' : Cell} (h : IdRel c c') : c'.content = c.content := by
  obtain ⟨t, rfl⟩ := h
  cases c <;> simp only [Cell.assignId, Cell.content] <;> rename_i o <;> cases o <;> rfl

theorem IdRel.xf {c c' : Cell} (h : IdRel c c') : c'.xf = c.xf := by
  obtain ⟨t, rfl⟩ := h
  cases c <;> simp only [Cell.assignId, Cell.xf] <;> rename_i o <;> cases o <;> rfl

theorem IdRel.written {c c' : Cell} (h : IdRel c c') : c'.isWritten false = true := by
  obtain ⟨t, rfl⟩ := h
  cases c <;> simp only [Cell.assignId, Cell.isWritten] <;> rename_i o <;> cases o <;> rfl

theorem IdRel.inline {c c' : Cell} (h : IdRel c c') (hn : ∀ t x, c ≠ .inlineString t x) :
    ∀ t x, c' ≠ .inlineString t x := by
  obtain ⟨t, rfl⟩ := h
  cases c <;> simp [Cell.assignId] at hn ⊢ <;> rename_i o <;> cases o <;> simp

theorem assignIdsRow_get (m : BMap Cell) (t : SST) (k : Nat) :
    (BMap.get k m = none ∧ BMap.get k (assignIdsRow m t).1 = none) ∨
    (∃ c c', BMap.get k m = some c ∧ BMap.get k (assignIdsRow m t).1 = some c' ∧ IdRel c c') := by
  induction m generalizing t with
  | nil => left; simp [assignIdsRow, BMap.get]
  | cons p m ih =>
    obtain ⟨k', c⟩ := p
    simp only [assignIdsRow, BMap.get]
    by_cases e : k = k'
    · subst e
      right
      exact ⟨c, _, by simp, by simp, t, rfl⟩
    · simp only [if_neg e]
      exact ih _

theorem assignIdsRow_keys (m : BMap Cell) (t : SST) :
    (assignIdsRow m t).1.map Prod.fst = m.map Prod.fst := by
  induction m generalizing t with
  | nil => rfl
  | cons p m ih => simp [assignIdsRow, ih]

theorem assignIdsTable_keys (m : BMap (BMap Cell)) (t : SST) :
    (assignIdsTable m t).1.map Prod.fst = m.map Prod.fst := by
  induction m generalizing t with
  | nil => rfl
  | cons p m ih => simp [assignIdsTable, ih]

theorem sorted_iff_keys {β : Type} (m : BMap β) : Sorted m ↔ (m.map Prod.fst).Pairwise (· < ·) := by
  unfold Sorted; rw [List.pairwise_map]

theorem assignIdsTable_get (m : BMap (BMap Cell)) (t : SST) (k : Nat) :
    (BMap.get k m = none ∧ BMap.get k (assignIdsTable m t).1 = none) ∨
    (∃ c t', BMap.get k m = some c ∧ BMap.get k (assignIdsTable m t).1 = some (assignIdsRow c t').1) := by
  induction m generalizing t with
  | nil => left; simp [assignIdsTable, BMap.get]
  | cons p m ih =>
    obtain ⟨k', c⟩ := p
    simp only [assignIdsTable, BMap.get]
    by_cases e : k = k'
    · subst e
      right
      exact ⟨c, t, by simp, by simp⟩
    · simp only [if_neg e]
      exact ih _

theorem assignIdsTable_ok {m : BMap (BMap Cell)} (h : TableOk m) (t : SST) :
    TableOk (assignIdsTable m t).1 := by
  constructor
  · rw [sorted_iff_keys, assignIdsTable_keys, ← sorted_iff_keys]; exact h.rows
  · intro r q hq
    rcases assignIdsTable_get m t r with ⟨_, h2⟩ | ⟨c, t', h1, h2⟩
    · rw [h2] at hq; cases hq
    · rw [h2] at hq; cases hq
      rw [sorted_iff_keys, assignIdsRow_keys, ← sorted_iff_keys]
      exact h.cols r c h1

theorem cellAt_assignIds (m : BMap (BMap Cell)) (t : SST) (r c : Nat) :
    (cellAt m r c = none ∧ cellAt (assignIdsTable m t).1 r c = none) ∨
    (∃ a b, cellAt m r c = some a ∧ cellAt (assignIdsTable m t).1 r c = some b ∧ IdRel a b) := by
  unfold cellAt
  rcases assignIdsTable_get m t r with ⟨h1, h2⟩ | ⟨q, t', h1, h2⟩
  · left; simp [h1, h2]
  · rw [h1, h2]
    simp only [Option.bind_some]
    exact assignIdsRow_get q t' c

section
variable {Fmt : Type} [DecidableEq Fmt]

theorem rowMajor_writeDataTable (s : Sheet Fmt) (h : TableOk s.table) : rowMajor s.writeDataTable := by
  unfold Sheet.writeDataTable
  constructor
  · rw [List.pairwise_filterMap]
    have hp : (List.range' s.dims.firstRow (s.dims.lastRow + 1 - s.dims.firstRow)).Pairwise (· < ·) :=
      List.pairwise_lt_range'
    refine hp.imp ?_
    intro a b hab x hx y hy
    have hrow : ∀ q z, (match s.table.get q with
        | none => if (s.changedRows.get q).isSome || (s.notes.get q).isSome then
            some (⟨q, s.changedRows.get q, none⟩ : RowOut Fmt) else none
        | some columns => some ⟨q, s.changedRows.get q, some (s.writeCells (s.changedRows.get q) columns)⟩) = some z →
        z.row = q := by
      intro q z hz
      split at hz
      · split at hz
        · cases hz; rfl
        · cases hz
      · cases hz; rfl
    rw [hrow a x hx, hrow b y hy]
    exact hab
  · intro ro hro
    simp only [List.mem_filterMap] at hro
    obtain ⟨r, _, hr⟩ := hro
    split at hr
    · split at hr
      · cases hr; simp
      · cases hr
    · rename_i cols hcols
      cases hr
      simp only [Option.getD_some, Sheet.writeCells, List.map_map]
      have := h.cols r cols hcols
      rw [sorted_iff_keys] at this
      refine List.Pairwise.sublist ?_ this
      exact List.Sublist.map Prod.fst List.filter_sublist

/-- Exactly the stored cells of the rows inside the dimensions are written. -/
theorem mem_cellsOf_writeDataTable (s : Sheet Fmt) (h : TableOk s.table) (r c : Nat) (cell : Cell)
    (x : Nat) :
    (r, c, cell, x) ∈ cellsOf s.writeDataTable ↔
      (s.dims.firstRow ≤ r ∧ r ≤ s.dims.lastRow) ∧ cellAt s.table r c = some cell ∧
      cell.isWritten s.cfg.constMem = true ∧ x = s.cellStyle (s.changedRows.get r) c cell := by
  unfold cellsOf Sheet.writeDataTable
  simp only [List.mem_flatMap, List.mem_filterMap, List.mem_range'_1, List.mem_map, Prod.mk.injEq]
  constructor
  · rintro ⟨ro, ⟨q, hq, hro⟩, p, hp, h1, h2, h3, h4⟩
    split at hro
    · split at hro
      · cases hro; simp at hp
      · cases hro
    · rename_i cols hcols
      cases hro
      simp only at h1
      subst h1
      simp only [Option.getD_some, Sheet.writeCells, List.mem_map, List.mem_filter] at hp
      obtain ⟨a, ⟨ha, haw⟩, rfl⟩ := hp
      simp only at h2 h3 h4
      subst h2 h3
      refine ⟨by omega, ?_, haw, h4.symm⟩
      simp only [cellAt, hcols, Option.bind_some]
      exact (mem_iff_get (h.cols q cols hcols) a.1 a.2).mp ha
  · rintro ⟨hr, hc, hw, rfl⟩
    unfold cellAt at hc
    cases hcols : s.table.get r with
    | none => rw [hcols] at hc; cases hc
    | some cols =>
      rw [hcols] at hc
      simp only [Option.bind_some] at hc
      refine ⟨_, ⟨r, by omega, by rw [hcols]⟩, (c, cell, s.cellStyle (s.changedRows.get r) c cell), ?_, rfl, rfl, rfl, rfl⟩
      simp only [Option.getD_some, Sheet.writeCells, List.mem_map, List.mem_filter]
      exact ⟨(c, cell), ⟨(mem_iff_get (h.cols r cols hcols) c cell).mpr hc, hw⟩, rfl⟩

/-- Reading back a written cell. -/
theorem find_writeDataTable (s : Sheet Fmt) (h : TableOk s.table) (r c : Nat) :
    (cellsOf s.writeDataTable).find? (fun e => e.1 == r && e.2.1 == c) =
      if s.dims.firstRow ≤ r ∧ r ≤ s.dims.lastRow then
        ((cellAt s.table r c).filter (·.isWritten s.cfg.constMem)).map
          (fun cell => (r, c, cell, s.cellStyle (s.changedRows.get r) c cell))
      else none := by
  cases hf : (cellsOf s.writeDataTable).find? (fun e => e.1 == r && e.2.1 == c) with
  | some e =>
    obtain ⟨r', c', cell, x⟩ := e
    have hp := List.find?_some hf
    simp only [Bool.and_eq_true, beq_iff_eq] at hp
    obtain ⟨rfl, rfl⟩ := hp
    have hm := (mem_cellsOf_writeDataTable s h r' c' cell x).mp (List.mem_of_find?_eq_some hf)
    rw [if_pos hm.1, hm.2.1]
    simp [Option.filter, hm.2.2.1, hm.2.2.2]
  | none =>
    split
    · rename_i hr
      cases hc : cellAt s.table r c with
      | none => rfl
      | some cell =>
        cases hw : cell.isWritten s.cfg.constMem with
        | false => simp [Option.filter, hw]
        | true =>
          have := (mem_cellsOf_writeDataTable s h r c cell _).mpr ⟨hr, hc, hw, rfl⟩
          have hn := List.find?_eq_none.mp hf _ this
          simp at hn
    · rfl

/-- The rows a standard sheet writes when the workbook is saved with string table `t`. -/
def Sheet.saveRows (s : Sheet Fmt) (t : SST) : List (RowOut Fmt) :=
  (s.updateStringTableIds t).1.writeDataTable

variable {cfg : Cfg} {dflt : Fmt} {nr : Bool} {nf : NF} {s : Sheet Fmt}
  {ct : Nat → Nat → Content} {fm : Nat → Nat → Option Fmt}

/-- After the string ids have been filled in every stored cell is written. -/
theorem Rel.ids (h : Rel cfg dflt nr nf s ct fm) (t : SST) :
    Rel cfg dflt nr nf (s.updateStringTableIds t).1 ct fm ∧
    (∀ r c cell, cellAt (s.updateStringTableIds t).1.table r c = some cell → cell.isWritten false = true) := by
  unfold Sheet.updateStringTableIds
  split
  · rename_i hl
    refine ⟨h, ?_⟩
    intro r c cell hc
    cases hw : cell.isWritten false with
    | true => rfl
    | false =>
      have := (h.cells r c cell hc).skip hw
      rw [this] at hl; cases hl
  · constructor
    · refine ⟨h.cfgEq, h.std, h.noInline, assignIdsTable_ok h.tbl t, ?_, ?_, ?_, ?_, ?_,
        h.rowsS, h.colsS, h.rowsV, h.colsV, h.nfCols⟩
      · exact ⟨h.xf.loc, h.xf.fmts, h.xf.glob, h.xf.loc0, h.xf.glob0⟩
      · intro r c cell hc
        rcases cellAt_assignIds s.table t r c with ⟨_, h2⟩ | ⟨a, b, h1, h2, hi⟩
        · simp only at hc; rw [h2] at hc; cases hc
        · simp only at hc; rw [h2] at hc; cases hc
          have := h.cells r c a h1
          refine ⟨hi.content.trans this.content, ?_, ?_, ?_, hi.inline this.nonInline, ?_⟩
          · rw [hi.xf]; exact this.valid
          · rw [hi.xf]; exact this.fmt
          · rw [hi.xf]; exact this.auto
          · rw [hi.written]; simp
      · intro r c hc
        rcases cellAt_assignIds s.table t r c with ⟨h1, _⟩ | ⟨a, b, h1, h2, hi⟩
        · exact h.absent r c h1
        · simp only at hc; rw [h2] at hc; cases hc
      · intro r c cell hc hb
        rcases cellAt_assignIds s.table t r c with ⟨_, h2⟩ | ⟨a, b, h1, h2, hi⟩
        · simp only at hc; rw [h2] at hc; cases hc
        · simp only at hc; rw [h2] at hc; cases hc
          rw [hi.content] at hb
          exact h.cover r c a h1 hb
      · intro r c cell hc
        rcases cellAt_assignIds s.table t r c with ⟨_, h2⟩ | ⟨a, b, h1, h2, hi⟩
        · simp only at hc; rw [h2] at hc; cases hc
        · exact h.grid r c a h1
    · intro r c cell hc
      rcases cellAt_assignIds s.table t r c with ⟨_, h2⟩ | ⟨a, b, h1, h2, hi⟩
      · simp only at hc; rw [h2] at hc; cases hc
      · simp only at hc; rw [h2] at hc; cases hc
        exact hi.written

theorem Rel.read_content (h : Rel cfg dflt nr nf s ct fm) (t : SST) (r c : Nat) :
    readContent (s.saveRows t) r c = ct r c := by
  have hi := h.ids t
  unfold Sheet.saveRows readContent
  generalize (s.updateStringTableIds t).1 = s' at hi ⊢
  rw [find_writeDataTable s' hi.1.tbl]
  cases hc : cellAt s'.table r c with
  | none =>
    have := hi.1.absent r c hc
    rw [this.1]
    split <;> rename_i e he <;> split at he <;> simp [Option.filter] at he <;> rfl
  | some cell =>
    have hcell := hi.1.cells r c cell hc
    have hw := hi.2 r c cell hc
    have hcm := hi.1.constMem
    by_cases hb : cell.content = .blank
    · rw [← hcell.content, hb]
      split
      · rename_i e he
        split at he
        · simp only [Option.filter, hcm, hw, if_true, Option.map_some, Option.some.injEq] at he
          rw [← he]; exact hb
        · cases he
      · rfl
    · have hcov := hi.1.cover r c cell hc (Or.inr hb)
      rw [if_pos ⟨hcov.1, hcov.2.1⟩]
      simp only [Option.filter, hcm, hw, if_true, Option.map_some]
      exact hcell.content

end
end Verif
