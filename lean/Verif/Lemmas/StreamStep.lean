import Verif.Lemmas.StreamFlush
/-! Constant memory worksheets: storing cells. -/
set_option linter.unusedSectionVars false
set_option linter.unusedSimpArgs false
set_option linter.unusedVariables false
namespace Verif
open BMap
variable {Fmt : Type} [DecidableEq Fmt]
variable {E : Env Fmt} {A : Abs Fmt} {s : Sheet Fmt}

theorem insertCellToTable_eq (r c : Nat) (cell : Cell) (t : BMap (BMap Cell)) :
    insertCellToTable r c cell t = t.insert r (((t.get r).getD []).insert c cell) := by
  unfold insertCellToTable
  cases t.get r <;> rfl

/-- The rows above the current row do not change. -/
theorem out_congr {A' : Abs Fmt} {k r : Nat} {dflt : Fmt} (hr : k ≤ r)
    (ht : ∀ q, q ≠ r → A'.table.get q = A.table.get q) (hrows : ∀ q, q ≠ r → A'.rows.get q = A.rows.get q)
    (hc : A'.cols = A.cols) :
    (List.range k).filterMap (A'.rowView dflt) = (List.range k).filterMap (A.rowView dflt) := by
  have H : ∀ (l : List Nat), (∀ q ∈ l, q < k) →
      l.filterMap (A'.rowView dflt) = l.filterMap (A.rowView dflt) := by
    intro l
    induction l with
    | nil => intro _; rfl
    | cons q l ih =>
      intro hl
      have hq : q < k := hl q List.mem_cons_self
      simp only [List.filterMap_cons, rowView_congr (dflt := dflt) (ht q (by omega)) (hrows q (by omega)) hc,
        ih (fun x hx => hl x (List.mem_cons_of_mem _ hx))]
  exact H _ (fun q hq => List.mem_range.mp hq)

/-- Change of a row of the data table. -/
theorem Sim.setRow (h : Sim E A s) {r : Nat} {m : BMap Cell} (hr : s.cfg.constMem = true → r = s.currentRow)
    (hv : ∀ p ∈ m, CellV s p.2) (hw : s.cfg.constMem = true → ∀ p ∈ m, p.2.isWritten true = true)
    (hcov : s.Cov r) :
    Sim E { A with table := A.table.insert r (s.decRow m) } { s with table := s.table.insert r m } := by
  have hG := h.gen.setTable (rc := false) (h.gen.table.insertRow (r := r) hv)
  have hAget : ∀ q, BMap.get q (A.table.insert r (s.decRow m)) = if q = r then some (s.decRow m) else A.table.get q :=
    fun q => get_insert _ _ _ h.srtA q
  refine ⟨hG.1, h.kind, h.texts, h.merge, h.height, h.hasLocal, h.dims, sorted_insert _ _ _ h.srtT, h.srtW,
    sorted_insert _ _ _ h.srtA, h.srtAr, h.srtAc, h.rows, h.cols, ?_, ?_, h.aheadK, ?_, h.outV, ?_, h.wrW, ?_⟩
  · intro q e
    show ((s.table.insert r m).get q).map s.decRow = BMap.get q (A.table.insert r (s.decRow m))
    rw [hAget, get_insert _ _ _ h.srtT]
    split
    · rfl
    · exact h.tbl q e
  · intro hm q hq
    have hq' : s.currentRow < q := hq
    show (s.writeAhead.get q).map s.decRow = BMap.get q (A.table.insert r (s.decRow m))
    rw [hAget, if_neg (by rw [hr hm]; omega)]
    exact h.ahead hm q hq
  · intro hm
    have hm' : s.cfg.constMem = true := hm
    show s.out.map s.decOut = _
    rw [h.out hm]
    refine (out_congr (A := A) (A' := { A with table := A.table.insert r (s.decRow m) }) (dflt := E.dflt) (r := r) (by rw [hr hm']; exact Nat.le_refl _) ?_ (fun _ _ => rfl) rfl).symm
    intro q hq
    show BMap.get q (A.table.insert r (s.decRow m)) = _
    rw [hAget, if_neg hq]
  · intro hm q hq p hp
    rcases mem_insert hq with rfl | hq
    · exact hw hm p hp
    · exact h.wrT hm q hq p hp
  · intro q e
    show s.Cov q
    rcases e with e | e
    · have e' : (BMap.get q (A.table.insert r (s.decRow m))).isSome := e
      rw [hAget] at e'
      split at e'
      · rename_i eq; rw [eq]; exact hcov
      · exact h.cover q (Or.inl e')
    · exact h.cover q (Or.inr e)

/-- Rows of the data table that are not the current row do not matter in constant memory mode. -/
theorem Sim.junkRow (h : Sim E A s) {r : Nat} {m : BMap Cell} (hm : s.cfg.constMem = true) (hr : r ≠ s.currentRow)
    (hv : ∀ p ∈ m, CellV s p.2) (hw : ∀ p ∈ m, p.2.isWritten true = true) :
    Sim E A { s with table := s.table.insert r m } := by
  have hG := h.gen.setTable (rc := false) (h.gen.table.insertRow (r := r) hv)
  refine ⟨hG.1, h.kind, h.texts, h.merge, h.height, h.hasLocal, h.dims, sorted_insert _ _ _ h.srtT, h.srtW,
    h.srtA, h.srtAr, h.srtAc, h.rows, h.cols, ?_, h.ahead, h.aheadK, h.out, h.outV, ?_, h.wrW, h.cover⟩
  · intro q e
    show ((s.table.insert r m).get q).map s.decRow = _
    have e' : q = s.currentRow := e hm
    rw [get_insert _ _ _ h.srtT, if_neg (by omega)]
    exact h.tbl q e
  · intro _ q hq p hp
    rcases mem_insert hq with rfl | hq
    · exact hw p hp
    · exact h.wrT hm q hq p hp

/-- Change of a row written ahead. -/
theorem Sim.setAhead (h : Sim E A s) {r : Nat} {m : BMap Cell} (hm : s.cfg.constMem = true) (hr : s.currentRow < r)
    (hv : ∀ p ∈ m, CellV s p.2) (hw : ∀ p ∈ m, p.2.isWritten true = true) :
    Sim E { A with table := A.table.insert r (s.decRow m) } { s with writeAhead := s.writeAhead.insert r m } := by
  have hAget : ∀ q, BMap.get q (A.table.insert r (s.decRow m)) = if q = r then some (s.decRow m) else A.table.get q :=
    fun q => get_insert _ _ _ h.srtA q
  have hg : Grow false s { s with writeAhead := s.writeAhead.insert r m } :=
    ⟨rfl, rfl, fun _ _ h => h, fun _ _ h => h, fun _ _ h => h, fun _ => rfl, fun _ => rfl, DimsLe.refl _, fun _ => ⟨rfl, rfl⟩⟩
  have hG : Gen E.dflt { s with writeAhead := s.writeAhead.insert r m } :=
    ⟨⟨h.gen.xf.loc, h.gen.xf.fmts, h.gen.xf.glob, h.gen.xf.loc0, h.gen.xf.glob0⟩, h.gen.sst,
      h.gen.table.imp fun c hc => hc.mono hg, (h.gen.ahead.insertRow hv).imp fun c hc => hc.mono hg,
      fun ro hro => (h.gen.out ro hro).mono hg, h.gen.rowsS, h.gen.colsS, h.gen.rowsV, h.gen.colsV⟩
  refine ⟨hG, h.kind, h.texts, h.merge, h.height, h.hasLocal, h.dims, h.srtT, sorted_insert _ _ _ h.srtW,
    sorted_insert _ _ _ h.srtA, h.srtAr, h.srtAc, h.rows, h.cols, ?_, ?_, ?_, ?_, h.outV, h.wrT, ?_, ?_⟩
  · intro q e
    have e' : q = s.currentRow := e hm
    show (s.table.get q).map s.decRow = BMap.get q (A.table.insert r (s.decRow m))
    rw [hAget, if_neg (by omega)]
    exact h.tbl q e
  · intro _ q hq
    show ((s.writeAhead.insert r m).get q).map s.decRow = BMap.get q (A.table.insert r (s.decRow m))
    rw [hAget, get_insert _ _ _ h.srtW]
    split
    · rfl
    · exact h.ahead hm q hq
  · intro q e
    have e' : ((s.writeAhead.insert r m).get q).isSome := e
    rw [get_insert _ _ _ h.srtW] at e'
    split at e'
    · rename_i eq; rw [eq]; exact hr
    · exact h.aheadK q e'
  · intro _
    show s.out.map s.decOut = _
    rw [h.out hm]
    refine (out_congr (A := A) (A' := { A with table := A.table.insert r (s.decRow m) }) (dflt := E.dflt) (r := r) (Nat.le_of_lt hr) ?_ (fun _ _ => rfl) rfl).symm
    intro q hq
    show BMap.get q (A.table.insert r (s.decRow m)) = _
    rw [hAget, if_neg hq]
  · intro _ q hq p hp
    rcases mem_insert hq with rfl | hq
    · exact hw p hp
    · exact h.wrW hm q hq p hp
  · intro q e hm'
    have : s.cfg.constMem = false := hm'
    rw [hm] at this; cases this

/-- Whether a call on row `r` is in time (`b = true`) or late. -/
def Side (b : Bool) (s : Sheet Fmt) (r : Nat) : Prop :=
  (b = true ∧ (s.cfg.constMem = true → s.currentRow ≤ r)) ∨ (b = false ∧ s.cfg.constMem = true ∧ r < s.currentRow)

/-- Result of a step. -/
structure Went (E : Env Fmt) (A' : Abs Fmt) (s s' : Sheet Fmt) (cur : Nat) : Prop where
  sim : Sim E A' s'
  cfg : s'.cfg = s.cfg
  wa : s'.writingAhead = s.writingAhead
  cur : s.cfg.constMem = true → s'.currentRow = cur
  dims : DimsLe s.dims s'.dims

theorem Went.cov {A' : Abs Fmt} {s' : Sheet Fmt} {k r : Nat} (h : Went E A' s s' k) (hc : s.Cov r) : s'.Cov r := by
  intro e
  rw [h.cfg] at e
  have := hc e
  have := h.dims
  unfold DimsLe at this
  omega

theorem Went.side {A' : Abs Fmt} {s' : Sheet Fmt} {r : Nat} {b : Bool} (h : Went E A' s s' s.currentRow) (hc : Side b s r) :
    Side b s' r := by
  rcases hc with ⟨h1, h2⟩ | ⟨h1, h2, h3⟩
  · refine Or.inl ⟨h1, fun e => ?_⟩
    rw [h.cfg] at e
    rw [h.cur e]; exact h2 e
  · exact Or.inr ⟨h1, by rw [h.cfg]; exact h2, by rw [h.cur h2]; exact h3⟩

theorem Went.refl (h : Sim E A s) : Went E A s s s.currentRow := ⟨h, rfl, rfl, fun _ => rfl, DimsLe.refl _⟩

/-- A step that does not move the current row, followed by another one. -/
theorem Went.next {A' A'' : Abs Fmt} {s' s'' : Sheet Fmt} {k : Nat} (h : Went E A' s s' s.currentRow)
    (h2 : Went E A'' s' s'' k) : Went E A'' s s'' k :=
  ⟨h2.sim, h2.cfg.trans h.cfg, h2.wa.trans h.wa, fun e => h2.cur (by rw [h.cfg]; exact e), h.dims.trans h2.dims⟩

/-- The current row after a cell has been stored in row `r`. -/
def Sheet.after (s : Sheet Fmt) (r : Nat) : Nat := if s.writingAhead then s.currentRow else max s.currentRow r

theorem Went.after {A' : Abs Fmt} {s' : Sheet Fmt} (h : Went E A' s s' s.currentRow) (hm : s.cfg.constMem = true) (r : Nat) :
    s'.after r = s.after r := by
  unfold Sheet.after; rw [h.wa, h.cur hm]

theorem Went.cur_eq {A' : Abs Fmt} {s' : Sheet Fmt} {k k' : Nat} (h : Went E A' s s' k) (e : s.cfg.constMem = true → k = k') :
    Went E A' s s' k' := ⟨h.sim, h.cfg, h.wa, fun m => (h.cur m).trans (e m), h.dims⟩

theorem flushList_fields (l : List Nat) (s : Sheet Fmt) :
    (l.foldl Sheet.flushDataRow s).cfg = s.cfg ∧ (l.foldl Sheet.flushDataRow s).writingAhead = s.writingAhead ∧
    (l.foldl Sheet.flushDataRow s).dims = s.dims ∧ (∀ i, (l.foldl Sheet.flushDataRow s).fmtOf i = s.fmtOf i) ∧
    (l.foldl Sheet.flushDataRow s).sst = s.sst := by
  induction l generalizing s with
  | nil => exact ⟨rfl, rfl, rfl, fun _ => rfl, rfl⟩
  | cons a l ih =>
    have := ih (s.flushDataRow a)
    exact ⟨this.1, this.2.1, this.2.2.1, this.2.2.2.1, this.2.2.2.2⟩

theorem flushToRow_fields (s : Sheet Fmt) (n : Nat) :
    (s.flushToRow n).cfg = s.cfg ∧ (s.flushToRow n).writingAhead = s.writingAhead ∧
    (s.flushToRow n).dims = s.dims ∧ (∀ i, (s.flushToRow n).fmtOf i = s.fmtOf i) ∧ (s.flushToRow n).sst = s.sst :=
  flushList_fields _ _

theorem decRow_insert (s : Sheet Fmt) (c : Nat) (cell : Cell) (m : BMap Cell) :
    s.decRow (m.insert c cell) = (s.decRow m).insert c (s.decCell cell) := insert_map _ _ _ _

theorem mem_getD_insert {P : Cell → Prop} {t : BMap (BMap Cell)} (ht : TblAll P t) {r c : Nat} {cell : Cell}
    (hc : P cell) : ∀ p ∈ BMap.insert c cell ((t.get r).getD []), P p.2 := by
  intro p hp
  rcases mem_insert hp with rfl | hp
  · exact hc
  · cases e : t.get r with
    | none => rw [e] at hp; cases hp
    | some m => rw [e] at hp; exact ht.get e p hp

theorem getD_map_dec (s : Sheet Fmt) (o : Option (BMap Cell)) : s.decRow (o.getD []) = (o.map s.decRow).getD [] := by
  cases o <;> rfl

/-- `insert_cell_to_table` on the data table. -/
theorem Sim.putTable (h : Sim E A s) {r c : Nat} {cell : Cell} (hv : CellV s cell)
    (hw : s.cfg.constMem = true → cell.isWritten true = true) (hr : s.cfg.constMem = true → r = s.currentRow)
    (hcov : s.Cov r) :
    Sim E (A.put true r c (s.decCell cell)) { s with table := insertCellToTable r c cell s.table } := by
  have := h.setRow (r := r) (m := ((s.table.get r).getD []).insert c cell) hr
    (mem_getD_insert h.gen.table hv) (fun hm => mem_getD_insert (h.wrT hm) (hw hm)) hcov
  rw [decRow_insert, getD_map_dec, h.tbl r hr] at this
  rw [insertCellToTable_eq]
  exact this

/-- `insert_cell`. -/
theorem Sim.insert (h : Sim E A s) {b : Bool} {r c : Nat} {cell : Cell} (hv : CellV s cell)
    (hw : s.cfg.constMem = true → cell.isWritten true = true) (hs : Side b s r) (hcov : s.Cov r) :
    Went E (A.put b r c (s.decCell cell)) s (s.insertCell r c cell) (s.after r) := by
  rcases hs with ⟨rfl, hr⟩ | ⟨rfl, hm, hr⟩
  · unfold Sheet.insertCell
    by_cases hm : s.cfg.constMem = true
    · rw [if_pos hm, if_neg (by have := hr hm; omega)]
      by_cases e : r > s.currentRow
      · rw [if_pos e]
        by_cases hwa : s.writingAhead = true
        · rw [if_pos hwa]
          refine ⟨?_, rfl, rfl, fun _ => by unfold Sheet.after; rw [if_pos hwa], DimsLe.refl _⟩
          have := h.setAhead (r := r) (m := ((s.writeAhead.get r).getD []).insert c cell) hm e
            (mem_getD_insert h.gen.ahead hv) (mem_getD_insert (h.wrW hm) (hw hm))
          rw [decRow_insert, getD_map_dec, h.ahead hm r e] at this
          rw [insertCellToTable_eq]
          exact this
        · rw [if_neg hwa]
          have hf := h.flushTo hm e
          have hff := flushToRow_fields s r
          refine ⟨?_, hff.1, hff.2.1, fun _ => ?_, by
            show DimsLe s.dims (s.flushToRow r).dims
            rw [hff.2.2.1]; exact DimsLe.refl _⟩
          · have hd : (s.flushToRow r).decCell cell = s.decCell cell := by
              unfold Sheet.decCell; rw [hff.2.2.2.1]
            rw [← hd]
            refine hf.putTable ⟨by rw [hff.2.2.2.2]; exact hv.1, by rw [hff.2.2.2.1]; exact hv.2⟩ (fun _ => hw hm)
              (fun _ => (flushToRow_cur s r).symm) ?_
            intro e'; rw [hff.1, hm] at e'; cases e'
          · unfold Sheet.after; rw [if_neg hwa]
            show (s.flushToRow r).currentRow = _
            rw [flushToRow_cur]; omega
      · rw [if_neg e]
        have er : r = s.currentRow := by have := hr hm; omega
        refine ⟨h.putTable hv hw (fun _ => er) hcov, rfl, rfl, fun _ => ?_, DimsLe.refl _⟩
        unfold Sheet.after
        show s.currentRow = _
        split <;> omega
    · rw [if_neg hm]
      exact ⟨h.putTable hv hw (fun e => absurd e hm) hcov, rfl, rfl, fun e => absurd e hm, DimsLe.refl _⟩
  · have : s.insertCell r c cell = s := by
      unfold Sheet.insertCell; rw [if_pos hm, if_pos hr]
    rw [this]
    refine ⟨h, rfl, rfl, fun _ => ?_, DimsLe.refl _⟩
    unfold Sheet.after; split <;> omega

theorem Sim.wentFrame {s' : Sheet Fmt} {rc : Bool} (h : Sim E A s) (hst : StepG rc E.dflt s s')
    (ht : s'.table = s.table) (ha : s'.writeAhead = s.writeAhead) (ho : s'.out = s.out)
    (hr : s'.changedRows = s.changedRows) (hc : s'.changedCols = s.changedCols)
    (hcur : s'.currentRow = s.currentRow) (hh : s'.defaultHeight = s.defaultHeight)
    (hl : s.cfg.inlineStrings = true → s'.hasLocalSst = s.hasLocalSst) (hwa : s'.writingAhead = s.writingAhead) :
    Went E A s s' s.currentRow :=
  ⟨h.frame hst.1 hst.2.cfg hst.2.merge hst.2.fmt hst.2.dims ht ha ho hr hc hcur hh hl, hst.2.cfg, hwa, fun _ => hcur,
    hst.2.dims⟩

/-- `check_dimensions`. -/
theorem Sim.check (h : Sim E A s) (r c : Nat) :
    (inGrid r c = false ∧ s.checkDimensions r c = (false, s)) ∨
    (inGrid r c = true ∧ ∃ s1, s.checkDimensions r c = (true, s1) ∧ Went E A s s1 s.currentRow ∧ s1.Cov r) := by
  have h1 := checkDimensions_fst s r c
  rcases checkDimensions_cases s r c with e | ⟨d, hd, e⟩
  · exact Or.inl ⟨by rw [e] at h1; exact h1.symm, e⟩
  · refine Or.inr ⟨by rw [e] at h1; exact h1.symm, _, e, ?_, ?_⟩
    · exact h.wentFrame (h.gen.dims (rc := false) d hd) rfl rfl rfl rfl rfl rfl rfl (fun _ => rfl) rfl
    · intro hm
      have hm' : s.cfg.constMem = false := hm
      have e2 : (s.checkDimensions r c).2.dims = d := by rw [e]
      have h3 : (s.checkDimensions r c).1 = true := by rw [e]
      unfold Sheet.checkDimensions at e2 h3
      split at e2
      · rename_i hh; rw [if_pos hh] at h3; cases h3
      · split at e2
        · rename_i h4 h5; rw [if_neg h4, if_pos h5] at h3; cases h3
        · rw [hm'] at e2
          simp only [Bool.false_eq_true, if_false] at e2
          subst e2
          dsimp only
          omega

theorem Sim.ofXf (h : Sim E A s) {s' : Sheet Fmt} (hst : StepG false E.dflt s s') (hg : XfGrow s s') :
    Went E A s s' s.currentRow := by
  have e := hg.same
  exact h.wentFrame hst (by rw [e]) (by rw [e]) (by rw [e]) (by rw [e]) (by rw [e]) (by rw [e]) (by rw [e])
    (fun _ => by rw [e]) (by rw [e])

theorem Sim.rowCol (h : Sim E A s) {b : Bool} (r c : Nat) (hs : Side b s r) :
    Went E A s (s.rowColFormat r c).2 s.currentRow ∧
    ((s.rowColFormat r c).2.fmtOf (s.rowColFormat r c).1).isSome ∧
    (b = true → (s.rowColFormat r c).2.fmtOf (s.rowColFormat r c).1 = A.fmtFor E r c none) := by
  have hsp := rowColFormat_spec h.gen.xf r c
  refine ⟨h.ofXf (h.gen.rowCol r c) hsp.2.1, hsp.2.2.1, ?_⟩
  intro hb
  have hr : (s.changedRows.get r).map s.decOpt = A.rows.get r := by
    rcases hs with ⟨_, h2⟩ | ⟨h1, _⟩
    · exact h.rows r h2
    · rw [hb] at h1; cases h1
  have hc := h.cols c
  have z := h.gen.xf.fmtOf_zero
  unfold Sheet.rowColFormat Abs.fmtFor
  rw [← hr, ← hc]
  cases e1 : s.changedCols.get c with
  | none => simpa using z
  | some co =>
    simp only [Option.map_some, Option.bind_some, Sheet.decCol]
    cases co.fmt with
    | none => simpa using z
    | some cf =>
      simp only
      cases e2 : s.changedRows.get r with
      | none => simpa using z
      | some ro =>
        simp only [Option.map_some, Option.bind_some, Sheet.decOpt]
        cases ro.fmt with
        | none => simpa using z
        | some rf =>
          simp only
          rw [← h.merge]
          exact (formatXfIndex_spec h.gen.xf _).2.2

theorem Sim.xfFor (h : Sim E A s) {b : Bool} (r c : Nat) (f : Option Fmt) (hs : Side b s r) :
    Went E A s (s.xfFor r c f).2 s.currentRow ∧
    ((s.xfFor r c f).2.fmtOf (s.xfFor r c f).1).isSome ∧
    (b = true → (s.xfFor r c f).2.fmtOf (s.xfFor r c f).1 = A.fmtFor E r c f) := by
  cases f with
  | none => exact h.rowCol r c hs
  | some f =>
    have hsp := formatXfIndex_spec h.gen.xf f
    refine ⟨h.ofXf (h.gen.formatXf f) hsp.2.1, ?_, fun _ => hsp.2.2⟩
    show ((s.formatXfIndex f).2.fmtOf (s.formatXfIndex f).1).isSome
    rw [hsp.2.2]; rfl

theorem put_false (A : Abs Fmt) (r c : Nat) (v : Content × Option Fmt) : A.put false r c v = A := rfl

/-- Storing a cell whose content is known, with the style index of `xfFor`. -/
theorem Sim.cell (h : Sim E A s) {b : Bool} {r c : Nat} {cell : Cell} {ct : Content} {f : Option Fmt} (hs : Side b s r)
    (hcov : s.Cov r) (hv : CellV s cell) (hw : s.cfg.constMem = true → cell.isWritten true = true)
    (hct : cell.content = ct) (hf : b = true → s.fmtOf cell.xf = f) :
    Went E (A.put b r c (ct, f)) s (s.insertCell r c cell) (s.after r) := by
  have := h.insert (c := c) hv hw hs hcov
  cases b with
  | false => exact this
  | true =>
    have e : s.decCell cell = (ct, f) := by unfold Sheet.decCell; rw [hct, hf rfl]
    rw [e] at this
    exact this

/-- Check, style index, cell: the common shape of the store functions. -/
theorem Sim.checkCell (h : Sim E A s) {b : Bool} {r c : Nat} {ct : Content} {f : Option Fmt} (hs : Side b s r)
    (mk : Cfg → Nat → Cell) (hct : ∀ x, (mk s.cfg x).content = ct) (hxf : ∀ x, (mk s.cfg x).xf = x)
    (hid : ∀ x t, (mk s.cfg x).IdOk t) (hwr : s.cfg.constMem = true → ∀ x, (mk s.cfg x).isWritten true = true)
    (hcov : s.Cov r) :
    Went E (A.put b r c (ct, A.fmtFor E r c f)) s
      ((s.xfFor r c f).2.insertCell r c (mk (s.xfFor r c f).2.cfg (s.xfFor r c f).1)) (s.after r) := by
  obtain ⟨w, hv, hf⟩ := h.xfFor r c f hs
  have := w.sim.cell (c := c) (cell := mk (s.xfFor r c f).2.cfg (s.xfFor r c f).1) (ct := ct)
    (f := A.fmtFor E r c f) (w.side hs) (w.cov hcov)
    ⟨by rw [w.cfg]; exact hid _ _, by rw [w.cfg, hxf]; exact hv⟩ (by rw [w.cfg]; exact fun e => hwr e _)
    (by rw [w.cfg]; exact hct _) (by rw [w.cfg, hxf]; exact hf)
  exact w.next (this.cur_eq fun e => w.after (by rw [← w.cfg]; exact e) r)

end Verif
