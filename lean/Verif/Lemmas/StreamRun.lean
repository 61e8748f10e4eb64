import Verif.Lemmas.StreamExec
import Verif.Lemmas.StdBook
/-! Constant memory worksheets: histories of calls. -/
set_option linter.unusedSectionVars false
set_option linter.unusedSimpArgs false
set_option linter.unusedVariables false
namespace Verif
open BMap
variable {Fmt : Type} [DecidableEq Fmt]
variable {E : Env Fmt} {A : Abs Fmt} {s : Sheet Fmt}

/-- The row in memory after a call. -/
def nextCur (cfg : Cfg) (k : Nat) (op : Op Fmt) : Nat :=
  match op.lands cfg with | some r => max k r | none => k

/-- Calls that write cells. -/
def Op.isStore : Op Fmt → Bool
  | .number .. | .dateTime .. | .string .. | .rich .. | .formula .. | .arrayFormula .. | .blank .. | .boolean .. => true
  | _ => false

theorem nextCur_of {cfg : Cfg} {k r : Nat} {op : Op Fmt} {u : Upd Fmt}
    (h : op.lands cfg = (if u.isWrite then some r else none)) :
    nextCur cfg k op = if u.isWrite then max k r else k := by
  unfold nextCur; rw [h]; cases u.isWrite <;> rfl

theorem afterIf_eq (hwa : s.writingAhead = false) (w : Bool) (r : Nat) :
    s.afterIf w r = if w then max s.currentRow r else s.currentRow := by
  unfold Sheet.afterIf Sheet.after; rw [hwa]; rfl

theorem Went.nextCur {A' : Abs Fmt} {s' : Sheet Fmt} {cfg : Cfg} {op : Op Fmt} {w : Bool} {r : Nat} {u : Upd Fmt}
    (h : Went E A' s s' (s.afterIf w r)) (hwa : s.writingAhead = false)
    (hl : op.lands cfg = (if u.isWrite then some r else none)) (hw : w = u.isWrite) :
    Went E A' s s' (nextCur cfg s.currentRow op) := by
  rw [nextCur_of hl, ← hw, ← afterIf_eq hwa]; exact h

/-- The rows of a call that writes cells are in time or late. -/
def Op.side (b : Bool) (s : Sheet Fmt) : Op Fmt → Prop
  | .number r .. | .dateTime r .. | .string r .. | .rich r .. | .formula r .. | .blank r .. | .boolean r .. => Side b s r
  | .arrayFormula r1 _ r2 .. => (b = true ∧ (s.cfg.constMem = true → s.currentRow ≤ r1)) ∨
      (b = false ∧ s.cfg.constMem = true ∧ r2 < s.currentRow)
  | _ => True

theorem Sim.storeOp (h : Sim E A s) {b : Bool} (op : Op Fmt) (hst : op.isStore = true) (hwa : s.writingAhead = false)
    (hs : op.side b s) : Went E (A.store E b op) s (s.exec op).2 (nextCur E.cfg s.currentRow op) := by
  cases op with
  | number r c n f =>
    refine (h.storeNumber r c n f false hs).nextCur hwa (u := updNumber E.cfg r c n f false) ?_ rfl
    simp [Op.lands, Op.effectAt]
  | dateTime r c n f =>
    refine (h.storeNumber r c n f true hs).nextCur hwa (u := updNumber E.cfg r c n f true) ?_ rfl
    simp [Op.lands, Op.effectAt]
  | string r c t f =>
    refine (h.storeString r c t f hs).nextCur hwa (u := updString r c (.text t) t f) ?_ rfl
    simp [Op.lands, Op.effectAt]
  | rich r c t raw f =>
    refine (h.storeRich r c t raw f hs).nextCur hwa (u := updString r c (.rich t raw) t f) ?_ rfl
    simp [Op.lands, Op.effectAt]
  | blank r c f =>
    refine (h.storeBlank r c f hs).nextCur hwa (u := if inGrid r c then .write .blank (some f) else .keep) ?_ ?_
    · simp [Op.lands, Op.effectAt]
    · cases inGrid r c <;> rfl
  | boolean r c v f =>
    show Went E (if inGrid r c then A.put b r c (.boolean v, A.fmtFor E r c f) else A) s (s.storeBoolean r c v f).2 _
    have : Went E (if inGrid r c then A.put b r c (.boolean v, A.fmtFor E r c f) else A) s (s.storeBoolean r c v f).2
        (s.afterIf (inGrid r c) r) := by
      unfold Sheet.storeBoolean
      rcases h.check r c with ⟨g, e⟩ | ⟨g, s1, e, w, hcov⟩
      · rw [e, g]; exact (Went.refl h).keep r
      · rw [e, g]
        exact w.then (w.sim.checkCell (ct := .boolean v) (f := f) (w.side hs) (fun _ x => .boolean v x) (fun _ => rfl)
          (fun _ => rfl) (fun _ _ => trivial) (fun _ _ => rfl) hcov).hit
    refine this.nextCur hwa (u := if inGrid r c then .write (.boolean v) f else .keep) ?_ ?_
    · simp [Op.lands, Op.effectAt]
    · cases inGrid r c <;> rfl
  | formula r c fa f =>
    show Went E (if fa.dynamic then A.storeArray E b r c r c fa none true
      else if inGrid r c then A.put b r c (.formula fa.text (resultOf E.cfg fa), A.fmtFor E r c f) else A) s
      (s.storeFormula r c fa f).2 _
    unfold Sheet.storeFormula
    by_cases hd : fa.dynamic = true
    · rw [if_pos hd, if_pos hd]
      refine (h.storeArray r c r c fa none true hwa hs).nextCur hwa
        (u := if inGrid r c then .write (.array fa.text (resultOf E.cfg fa) true (cellRange r c r c)) f else .keep) ?_ ?_
      · simp [Op.lands, Op.effectAt, hd]
      · cases inGrid r c <;> simp [Upd.isWrite]
    · rw [if_neg hd, if_neg hd]
      have : Went E (if inGrid r c then A.put b r c (.formula fa.text (resultOf E.cfg fa), A.fmtFor E r c f) else A) s
          (match s.checkDimensions r c with
            | (false, s) => (some Err.rowColumnLimit, s)
            | (true, s) =>
              let (xf, s) := s.xfFor r c f
              let result := if fa.result = [] then s.cfg.defaultResult else fa.result
              (none, s.insertCell r c (.formula fa.text result xf))).2 (s.afterIf (inGrid r c) r) := by
        rcases h.check r c with ⟨g, e⟩ | ⟨g, s1, e, w, hcov⟩
        · rw [e, g]; exact (Went.refl h).keep r
        · rw [e, g]
          refine w.then ?_
          exact (w.sim.checkCell (ct := .formula fa.text (resultOf E.cfg fa)) (f := f) (w.side hs)
            (fun cfg x => .formula fa.text (if fa.result = [] then cfg.defaultResult else fa.result) x)
            (fun x => by simp only [Cell.content, resultOf, w.sim.texts.2.2.2]) (fun _ => rfl) (fun _ _ => trivial)
            (fun _ _ => rfl) hcov).hit
      refine this.nextCur hwa
        (u := if inGrid r c then .write (.formula fa.text (resultOf E.cfg fa)) f else .keep) ?_ ?_
      · simp [Op.lands, Op.effectAt, hd]
      · cases inGrid r c <;> rfl
  | arrayFormula r1 c1 r2 c2 fa f d =>
    refine (h.storeArray r1 c1 r2 c2 fa f d hwa hs).nextCur hwa
      (u := if r1 ≤ r2 ∧ c1 ≤ c2 ∧ inGrid r2 c2 then
        .write (.array fa.text (resultOf E.cfg fa) (d || fa.dynamic) (cellRange r1 c1 r2 c2)) f else .keep) ?_ ?_
    · simp only [Op.lands, Op.effectAt, Nat.le_refl, true_and]
      by_cases e : r1 ≤ r2 ∧ c1 ≤ c2 ∧ inGrid r2 c2 = true
      · obtain ⟨e1, e2, e3⟩ := e
        simp [e1, e2, e3, Upd.isWrite]
      · have e' : ¬ (r1 ≤ r2 ∧ c1 ≤ c2 ∧ inGrid r2 c2 = true ∧ r1 ≤ r2 ∧ c1 ≤ c2) := fun x => e ⟨x.1, x.2.1, x.2.2.1⟩
        simp only [e, e', if_false, Upd.isWrite]
    · by_cases e : r1 ≤ r2 ∧ c1 ≤ c2 ∧ inGrid r2 c2 = true
      · rw [if_pos e]
        simp [e.1, e.2.1, e.2.2, inGrid_le e.2.2 e.1 e.2.1, Upd.isWrite]
      · rw [if_neg e]
        simp only [Upd.isWrite]
        cases g : inGrid r2 c2 with
        | false => simp
        | true =>
          simp only [Bool.and_true, Bool.and_eq_false_iff, decide_eq_false_iff_not]
          rw [g] at e
          by_cases h1 : r1 ≤ r2
          · exact Or.inr fun h2 => e ⟨h1, h2, rfl⟩
          · exact Or.inl (Or.inr h1)
  | cellFormat => cases hst
  | rangeFormat => cases hst
  | clearCell => cases hst
  | clearFormat => cases hst
  | rowFormat => cases hst
  | columnFormat => cases hst
  | rowHeight => cases hst
  | rowHidden => cases hst
  | note => cases hst

theorem store_false (op : Op Fmt) : A.store E false op = A := by
  have hz : ∀ (l : List Nat) (A : Abs Fmt) (f : Option Fmt) (r : Nat), A.zeros E false f r l = A := by
    intro l
    induction l with
    | nil => intros; rfl
    | cons c l ih =>
      intro A f r
      unfold Abs.zeros at *
      simp only [List.foldl_cons]
      have : A.storeNumber E false r c (.finite "0".toList) f false = A := by
        unfold Abs.storeNumber; split <;> rfl
      rw [this, ih]
  have ht : ∀ r c str ct f, A.storeText E false r c str ct f = A := by
    intro r c str ct f
    unfold Abs.storeText
    split
    · cases f with
      | none => rfl
      | some f => dsimp only; unfold Abs.storeBlank; split <;> rfl
    · split <;> rfl
  have hn : ∀ r c n f d, A.storeNumber E false r c n f d = A := by
    intro r c n f d
    unfold Abs.storeNumber
    split
    · cases n with
      | finite t => rfl
      | nan => exact ht _ _ _ _ _
      | posInf => exact ht _ _ _ _ _
      | negInf => exact ht _ _ _ _ _
    · rfl
  have ha : ∀ r1 c1 r2 c2 fa f d, A.storeArray E false r1 c1 r2 c2 fa f d = A := by
    intro r1 c1 r2 c2 fa f d
    unfold Abs.storeArray
    split
    · rw [put_false, hz]
      generalize List.range' (r1 + 1) (r2 - r1) = l
      induction l with
      | nil => rfl
      | cons r l ih => rw [List.foldl_cons, hz]; exact ih
    · rfl
  cases op <;> simp only [Abs.store]
  · exact hn _ _ _ _ _
  · exact hn _ _ _ _ _
  · exact ht _ _ _ _ _
  · exact ht _ _ _ _ _
  · split
    · exact ha _ _ _ _ _ _ _
    · split <;> rfl
  · exact ha _ _ _ _ _ _ _
  · unfold Abs.storeBlank; split <;> rfl
  · split <;> rfl

/-! ### The other calls -/

theorem decRow_remove (s : Sheet Fmt) (c : Nat) (m : BMap Cell) : s.decRow (m.remove c) = (s.decRow m).remove c :=
  remove_map _ _ _

theorem decRow_get (s : Sheet Fmt) (c : Nat) (m : BMap Cell) : (s.decRow m).get c = (m.get c).map s.decCell :=
  get_map2 _ _ _

theorem decCell_setXf (s : Sheet Fmt) (c : Cell) (x : Nat) : s.decCell (c.setXf x) = (c.content, s.fmtOf x) := by
  unfold Sheet.decCell; rw [content_setXf, xf_setXf]

theorem Sim.rowV (h : Sim E A s) {r : Nat} {m : BMap Cell} (hm : s.table.get r = some m) :
    (∀ p ∈ m, CellV s p.2) ∧ (s.cfg.constMem = true → ∀ p ∈ m, p.2.isWritten true = true) :=
  ⟨h.gen.table.get hm, fun e => (h.wrT e).get hm⟩

theorem mem_insertRow {P : Cell → Prop} {m : BMap Cell} (hm : ∀ p ∈ m, P p.2) {c : Nat} {cell : Cell} (hc : P cell) :
    ∀ p ∈ BMap.insert c cell m, P p.2 := by
  intro p hp
  rcases mem_insert hp with rfl | hp
  · exact hc
  · exact hm p hp

theorem setXf_ok {c : Cell} {x : Nat} (hc : CellV s c) (hx : (s.fmtOf x).isSome) : CellV s (c.setXf x) :=
  ⟨hc.1.setXf x, by rw [xf_setXf]; exact hx⟩

/-- `insert_cell_format` on the current row. -/
theorem Sim.insertFormat (h : Sim E A s) {r c x : Nat} {f : Fmt} (hx : s.fmtOf x = some f)
    (hr : s.cfg.constMem = true → r = s.currentRow) (hcov : s.Cov r) :
    Sim E (A.setFormat E r c f) (s.insertCellFormat r c x) := by
  unfold Sheet.insertCellFormat Abs.setFormat
  have ht := h.tbl r hr
  have hxs : (s.fmtOf x).isSome := by rw [hx]; rfl
  rw [← ht]
  cases e : s.table.get r with
  | none =>
    simp only [Option.map_none]
    by_cases ez : x = 0
    · have hf : f = E.dflt := by
        have := (zero_iff h.gen.xf x).mp ez
        rw [hx] at this; exact Option.some.inj this
      rw [if_pos hf, if_neg (by omega)]
      exact h
    · rw [if_neg, if_pos (by omega)]
      · have := h.setRow (r := r) (m := [(c, .blank x)]) hr
          (by intro p hp; simp at hp; subst hp; exact ⟨trivial, hxs⟩)
          (by intro _ p hp; simp at hp; subst hp; rfl) hcov
        simpa [Sheet.decRow, Sheet.decCell, Cell.content, Cell.xf, hx] using this
      · intro ef
        exact ez ((zero_iff h.gen.xf x).mpr (by rw [hx, ef]))
  | some m =>
    obtain ⟨hv, hw⟩ := h.rowV e
    simp only [Option.map_some, decRow_get]
    cases e2 : m.get c with
    | none =>
      simp only [Option.map_none]
      have := h.setRow (r := r) (m := m.insert c (.blank x)) hr
        (mem_insertRow hv ⟨trivial, hxs⟩) (fun e => mem_insertRow (P := fun c => c.isWritten true = true) (hw e) rfl) hcov
      rw [decRow_insert] at this
      simpa [Sheet.decCell, Cell.content, Cell.xf, hx] using this
    | some cell =>
      simp only [Option.map_some]
      have hc := hv _ (mem_of_get e2)
      have := h.setRow (r := r) (m := m.insert c (cell.setXf x)) hr
        (mem_insertRow hv (setXf_ok hc hxs))
        (fun e => mem_insertRow (P := fun c => c.isWritten true = true) (hw e) (by rw [setXf_written]; exact hw e _ (mem_of_get e2))) hcov
      rw [decRow_insert, decCell_setXf, hx] at this
      exact this

/-- `insert_cell_format` on another row has no effect on the file in constant memory mode. -/
theorem Sim.insertFormatLate (h : Sim E A s) {r c x : Nat} (hx : (s.fmtOf x).isSome) (hm : s.cfg.constMem = true)
    (hr : r ≠ s.currentRow) : Sim E A (s.insertCellFormat r c x) := by
  unfold Sheet.insertCellFormat
  cases e : s.table.get r with
  | none =>
    dsimp only
    split
    · exact h.junkRow hm hr (by intro p hp; simp at hp; subst hp; exact ⟨trivial, hx⟩)
        (by intro p hp; simp at hp; subst hp; rfl)
    · exact h
  | some m =>
    obtain ⟨hv, hw⟩ := h.rowV e
    dsimp only
    cases e2 : m.get c with
    | none =>
      exact h.junkRow hm hr (mem_insertRow hv ⟨trivial, hx⟩)
        (mem_insertRow (P := fun c => c.isWritten true = true) (hw hm) rfl)
    | some cell =>
      exact h.junkRow hm hr (mem_insertRow hv (setXf_ok (hv _ (mem_of_get e2)) hx))
        (mem_insertRow (P := fun c => c.isWritten true = true) (hw hm) (by rw [setXf_written]; exact hw hm _ (mem_of_get e2)))

theorem Sim.clear (h : Sim E A s) {r c : Nat} (hr : s.cfg.constMem = true → r = s.currentRow) :
    Sim E (if inGrid r c then A.clearCell r c else A) (s.clearCell r c) := by
  have hg : checkDimensionsOnly r c = inGrid r c := rfl
  unfold Sheet.clearCell Abs.clearCell
  rw [hg]
  cases inGrid r c with
  | false => exact h
  | true =>
    simp only [Bool.not_true, Bool.false_eq_true, if_false, if_true]
    have ht := h.tbl r hr
    rw [← ht]
    cases e : s.table.get r with
    | none => exact h
    | some m =>
      obtain ⟨hv, hw⟩ := h.rowV e
      have := h.setRow (r := r) (m := m.remove c) hr (fun p hp => hv p (mem_remove hp)) (fun e p hp => hw e p (mem_remove hp))
        (h.cover r (Or.inl (by rw [← ht, e]; rfl)))
      rw [decRow_remove] at this
      exact this

theorem Sim.clearLate (h : Sim E A s) {r c : Nat} (hm : s.cfg.constMem = true) (hr : r ≠ s.currentRow) :
    Sim E A (s.clearCell r c) := by
  unfold Sheet.clearCell
  split
  · exact h
  · split
    · exact h
    · rename_i m e
      obtain ⟨hv, hw⟩ := h.rowV e
      exact h.junkRow hm hr (fun p hp => hv p (mem_remove hp)) (fun p hp => hw hm p (mem_remove hp))

theorem Sim.unformat (h : Sim E A s) {r c : Nat} (hr : s.cfg.constMem = true → r = s.currentRow) :
    Sim E (if inGrid r c then A.clearFormat E r c else A) (s.clearCellFormat r c) := by
  have hg : checkDimensionsOnly r c = inGrid r c := rfl
  unfold Sheet.clearCellFormat Abs.clearFormat
  rw [hg]
  cases inGrid r c with
  | false => exact h
  | true =>
    simp only [Bool.not_true, Bool.false_eq_true, if_false, if_true]
    have ht := h.tbl r hr
    rw [← ht]
    cases e : s.table.get r with
    | none => exact h
    | some m =>
      obtain ⟨hv, hw⟩ := h.rowV e
      simp only [Option.map_some, decRow_get]
      cases e2 : m.get c with
      | none => exact h
      | some cell =>
        have z := h.gen.xf.fmtOf_zero
        have := h.setRow (r := r) (m := m.insert c (cell.setXf 0)) hr
          (mem_insertRow hv (setXf_ok (hv _ (mem_of_get e2)) (by rw [z]; rfl)))
          (fun e => mem_insertRow (P := fun c => c.isWritten true = true) (hw e) (by rw [setXf_written]; exact hw e _ (mem_of_get e2)))
          (h.cover r (Or.inl (by rw [← ht, e]; rfl)))
        rw [decRow_insert, decCell_setXf, z] at this
        exact this

theorem Sim.unformatLate (h : Sim E A s) {r c : Nat} (hm : s.cfg.constMem = true) (hr : r ≠ s.currentRow) :
    Sim E A (s.clearCellFormat r c) := by
  unfold Sheet.clearCellFormat
  split
  · exact h
  · split
    · exact h
    · rename_i m e
      split
      · exact h
      · rename_i cell e2
        obtain ⟨hv, hw⟩ := h.rowV e
        exact h.junkRow hm hr (mem_insertRow hv (setXf_ok (hv _ (mem_of_get e2)) (by rw [h.gen.xf.fmtOf_zero]; rfl)))
          (mem_insertRow (P := fun c => c.isWritten true = true) (hw hm) (by rw [setXf_written]; exact hw hm _ (mem_of_get e2)))

/-- Settings of a row that is not finished. -/
theorem Sim.setRowOpt (h : Sim E A s) {r : Nat} (o : RowOpt Fmt) (ho : (s.fmtOf o.xf).isSome)
    (hr : s.cfg.constMem = true → s.currentRow ≤ r) (hcov : s.Cov r) :
    Sim E { A with rows := A.rows.insert r (s.decOpt o) } { s with changedRows := s.changedRows.insert r o } := by
  have hG := h.gen.rowOpt r o ho
  have hAget : ∀ q, BMap.get q (A.rows.insert r (s.decOpt o)) = if q = r then some (s.decOpt o) else A.rows.get q :=
    fun q => get_insert _ _ _ h.srtAr q
  refine ⟨hG.1, h.kind, h.texts, h.merge, h.height, h.hasLocal, h.dims, h.srtT, h.srtW, h.srtA,
    sorted_insert _ _ _ h.srtAr, h.srtAc, ?_, h.cols, h.tbl, h.ahead, h.aheadK, ?_, h.outV, h.wrT, h.wrW, ?_⟩
  · intro q e
    show ((s.changedRows.insert r o).get q).map s.decOpt = BMap.get q (A.rows.insert r (s.decOpt o))
    rw [hAget, get_insert _ _ _ h.gen.rowsS]
    split
    · rfl
    · exact h.rows q e
  · intro hm
    show s.out.map s.decOut = _
    rw [h.out hm]
    refine (out_congr (A := A) (A' := { A with rows := A.rows.insert r (s.decOpt o) }) (dflt := E.dflt) (r := r) (hr hm)
      (fun _ _ => rfl) ?_ rfl).symm
    intro q hq
    show BMap.get q (A.rows.insert r (s.decOpt o)) = _
    rw [hAget, if_neg hq]
  · intro q e
    show s.Cov q
    rcases e with e | e
    · exact h.cover q (Or.inl e)
    · have e' : (BMap.get q (A.rows.insert r (s.decOpt o))).isSome := e
      rw [hAget] at e'
      split at e'
      · rename_i eq; rw [eq]; exact hcov
      · exact h.cover q (Or.inr e')

theorem Sim.setRowOptLate (h : Sim E A s) {r : Nat} (o : RowOpt Fmt) (ho : (s.fmtOf o.xf).isSome)
    (hm : s.cfg.constMem = true) (hr : r < s.currentRow) :
    Sim E A { s with changedRows := s.changedRows.insert r o } := by
  have hG := h.gen.rowOpt r o ho
  refine ⟨hG.1, h.kind, h.texts, h.merge, h.height, h.hasLocal, h.dims, h.srtT, h.srtW, h.srtA,
    h.srtAr, h.srtAc, ?_, h.cols, h.tbl, h.ahead, h.aheadK, h.out, h.outV, h.wrT, h.wrW, h.cover⟩
  intro q e
  show ((s.changedRows.insert r o).get q).map s.decOpt = _
  have e' : s.currentRow ≤ q := e hm
  rw [get_insert _ _ _ h.gen.rowsS, if_neg (by omega)]
  exact h.rows q e

/-- The new settings of a row. -/
def Sheet.newOpt (s : Sheet Fmt) (r : Nat) (h : Option Str) (fx : Option (Fmt × Nat)) (hid : Bool) : RowOpt Fmt :=
  match s.changedRows.get r with
  | some o => { o with height := h.getD o.height, xf := (match fx with | some p => p.2 | none => o.xf), hidden := o.hidden || hid }
  | none => ⟨h.getD s.defaultHeight, (match fx with | some p => p.2 | none => 0), hid, 0, false, fx.map Prod.fst⟩

theorem Sim.newOpt (h : Sim E A s) {r : Nat} (ht : Option Str) (fx : Option (Fmt × Nat)) (hid : Bool)
    (hfx : ∀ p, fx = some p → s.fmtOf p.2 = some p.1) :
    (s.fmtOf (s.newOpt r ht fx hid).xf).isSome ∧ ((s.cfg.constMem = true → s.currentRow ≤ r) →
      s.decOpt (s.newOpt r ht fx hid) = Abs.rowOpt E (A.rows.get r) ht (fx.map Prod.fst) hid) := by
  have z := h.gen.xf.fmtOf_zero
  constructor
  · unfold Sheet.newOpt
    cases e : s.changedRows.get r with
    | none =>
      cases fx with
      | none => simp only [z]; rfl
      | some p => simp only [hfx p rfl]; rfl
    | some o =>
      cases fx with
      | none => exact h.gen.rowsV r o e
      | some p => simp only [hfx p rfl]; rfl
  · intro hr
    rw [← h.rows r hr]
    unfold Sheet.newOpt Abs.rowOpt
    cases e : s.changedRows.get r with
    | none =>
      cases fx with
      | none => simp only [Option.map_none, Sheet.decOpt, z, h.height]; rfl
      | some p => simp only [Option.map_none, Option.map_some, Sheet.decOpt, hfx p rfl, h.height]; rfl
    | some o =>
      cases fx with
      | none => simp only [Option.map_none, Option.map_some, Sheet.decOpt]
      | some p => simp only [Option.map_some, Sheet.decOpt, hfx p rfl]

theorem Sim.rowOpt_went (h : Sim E A s) {r : Nat} {b : Bool} (ht : Option Str) (fx : Option (Fmt × Nat)) (hid : Bool)
    (hfx : ∀ p, fx = some p → s.fmtOf p.2 = some p.1) (hs : Side b s r) (hcov : s.Cov r) :
    Went E (if b then A.rowSet E r ht (fx.map Prod.fst) hid else A) s
      { s with changedRows := s.changedRows.insert r (s.newOpt r ht fx hid) } s.currentRow := by
  obtain ⟨h1, h2⟩ := h.newOpt (r := r) ht fx hid hfx
  refine ⟨?_, rfl, rfl, fun _ => rfl, DimsLe.refl _⟩
  rcases hs with ⟨rfl, hr⟩ | ⟨rfl, hm, hr⟩
  · have := h.setRowOpt _ h1 hr hcov
    rw [h2 hr] at this
    exact this
  · exact h.setRowOptLate _ h1 hm hr

theorem minCol_grid (h : Sim E A s) (r : Nat) : inGrid r s.getMinCol = decide (r < ROW_MAX) := by
  have := getMinCol_lt h.dims.2
  unfold COL_MAX at this
  unfold inGrid ROW_MAX
  simp [this]

theorem Sim.rowFormat (h : Sim E A s) {b : Bool} (r : Nat) (f : Fmt) (hs : Side b s r) :
    Went E (if b then (if r < ROW_MAX then A.rowSet E r none (some f) false else A) else A) s (s.setRowFormat r f).2
      s.currentRow := by
  unfold Sheet.setRowFormat
  have hg := minCol_grid h r
  rcases h.check r s.getMinCol with ⟨g, e⟩ | ⟨g, s1, e, w, hcov⟩
  · rw [e]
    rw [g] at hg
    have : ¬ r < ROW_MAX := by simpa using hg.symm
    simp only [if_neg this, ite_self]
    exact Went.refl h
  · rw [e]
    rw [g] at hg
    have : r < ROW_MAX := by simpa using hg.symm
    simp only [if_pos this]
    have hsp := formatXfIndex_spec w.sim.gen.xf f
    have w2 := w.sim.ofXf (w.sim.gen.formatXf f) hsp.2.1
    have w3 := w2.sim.rowOpt_went (r := r) none (some (f, (s1.formatXfIndex f).1)) false
      (fun p hp => by cases hp; exact hsp.2.2) (w2.side (w.side hs)) (w2.cov hcov)
    have w' := w.next ((w2.next (w3.cur_eq fun e => w2.cur (by rw [← w2.cfg]; exact e))).cur_eq fun e => w.cur (by rw [← w.cfg]; exact e))
    try dsimp only
    cases e2 : BMap.get r (s1.formatXfIndex f).2.changedRows with
    | none =>
      have en : (s1.formatXfIndex f).2.newOpt r none (some (f, (s1.formatXfIndex f).1)) false = RowOpt.mk (s1.formatXfIndex f).2.defaultHeight (s1.formatXfIndex f).1 false 0 false (some f) := by
        unfold Sheet.newOpt; rw [e2]; rfl
      rw [en] at w'; exact w'
    | some o =>
      have en : (s1.formatXfIndex f).2.newOpt r none (some (f, (s1.formatXfIndex f).1)) false = { o with xf := (s1.formatXfIndex f).1 } := by
        unfold Sheet.newOpt; rw [e2]; simp
      rw [en] at w'; exact w'

theorem Sim.rowHeight (h : Sim E A s) {b : Bool} (r : Nat) (ht : Str) (hs : Side b s r) :
    Went E (if b then (if r < ROW_MAX then A.rowSet E r (some ht) none false else A) else A) s (s.setRowHeight r ht).2
      s.currentRow := by
  unfold Sheet.setRowHeight
  have hg := minCol_grid h r
  rcases h.check r s.getMinCol with ⟨g, e⟩ | ⟨g, s1, e, w, hcov⟩
  · rw [e]
    rw [g] at hg
    have : ¬ r < ROW_MAX := by simpa using hg.symm
    simp only [if_neg this, ite_self]
    exact Went.refl h
  · rw [e]
    rw [g] at hg
    have : r < ROW_MAX := by simpa using hg.symm
    simp only [if_pos this]
    have w3 := w.sim.rowOpt_went (r := r) (some ht) none false
      (fun p hp => by cases hp) (w.side hs) hcov
    have w' := w.next (w3.cur_eq fun e => w.cur (by rw [← w.cfg]; exact e))
    try dsimp only
    cases e2 : BMap.get r s1.changedRows with
    | none =>
      have en : s1.newOpt r (some ht) none false = RowOpt.mk ht 0 false 0 false none := by
        unfold Sheet.newOpt; rw [e2]; rfl
      rw [en] at w'; exact w'
    | some o =>
      have en : s1.newOpt r (some ht) none false = { o with height := ht } := by
        unfold Sheet.newOpt; rw [e2]; simp
      rw [en] at w'; exact w'

theorem Sim.rowHidden (h : Sim E A s) {b : Bool} (r : Nat) (hs : Side b s r) :
    Went E (if b then (if r < ROW_MAX then A.rowSet E r none none true else A) else A) s (s.setRowHidden r).2
      s.currentRow := by
  unfold Sheet.setRowHidden
  have hg := minCol_grid h r
  rcases h.check r s.getMinCol with ⟨g, e⟩ | ⟨g, s1, e, w, hcov⟩
  · rw [e]
    rw [g] at hg
    have : ¬ r < ROW_MAX := by simpa using hg.symm
    simp only [if_neg this, ite_self]
    exact Went.refl h
  · rw [e]
    rw [g] at hg
    have : r < ROW_MAX := by simpa using hg.symm
    simp only [if_pos this]
    have w3 := w.sim.rowOpt_went (r := r) none none true
      (fun p hp => by cases hp) (w.side hs) hcov
    have w' := w.next (w3.cur_eq fun e => w.cur (by rw [← w.cfg]; exact e))
    try dsimp only
    cases e2 : BMap.get r s1.changedRows with
    | none =>
      have en : s1.newOpt r none none true = RowOpt.mk s1.defaultHeight 0 true 0 false none := by
        unfold Sheet.newOpt; rw [e2]; rfl
      rw [en] at w'; exact w'
    | some o =>
      have en : s1.newOpt r none none true = { o with hidden := true } := by
        unfold Sheet.newOpt; rw [e2]; simp
      rw [en] at w'; exact w'

theorem Sim.setColOpt (h : Sim E A s) {c : Nat} (o : ColOpt Fmt) (ho : (s.fmtOf o.xf).isSome)
    (hk : s.cfg.constMem = true → s.currentRow = 0) :
    Sim E { A with cols := A.cols.insert c (s.decCol o) } { s with changedCols := s.changedCols.insert c o } := by
  have hG := h.gen.colOpt c o ho
  refine ⟨hG.1, h.kind, h.texts, h.merge, h.height, h.hasLocal, h.dims, h.srtT, h.srtW, h.srtA,
    h.srtAr, sorted_insert _ _ _ h.srtAc, h.rows, ?_, h.tbl, h.ahead, h.aheadK, ?_, h.outV, h.wrT, h.wrW, h.cover⟩
  · intro q
    show ((s.changedCols.insert c o).get q).map s.decCol = BMap.get q (A.cols.insert c (s.decCol o))
    rw [get_insert _ _ _ h.srtAc, get_insert _ _ _ h.gen.colsS]
    split
    · rfl
    · exact h.cols q
  · intro hm
    show s.out.map s.decOut = (List.range s.currentRow).filterMap _
    rw [h.out hm, hk hm]; rfl

theorem minRow_grid (h : Sim E A s) (c : Nat) : inGrid s.getMinRow c = decide (c < COL_MAX) := by
  have := getMinRow_lt h.dims.1
  unfold ROW_MAX at this
  unfold inGrid COL_MAX
  simp [this]

theorem Sim.columnFormat (h : Sim E A s) (c : Nat) (f : Fmt) (hk : s.cfg.constMem = true → s.currentRow = 0) :
    Went E (if c < COL_MAX then A.colSet c f else A) s (s.setColumnFormat c f).2 s.currentRow := by
  unfold Sheet.setColumnFormat
  have hg := minRow_grid h c
  rcases h.check s.getMinRow c with ⟨g, e⟩ | ⟨g, s1, e, w, hcov⟩
  · rw [e]
    rw [g] at hg
    have : ¬ c < COL_MAX := by simpa using hg.symm
    simp only [if_neg this]
    exact Went.refl h
  · rw [e]
    rw [g] at hg
    have : c < COL_MAX := by simpa using hg.symm
    simp only [if_pos this]
    have hsp := formatXfIndex_spec w.sim.gen.xf f
    have w2 := w.sim.ofXf (w.sim.gen.formatXf f) hsp.2.1
    have w12 := w.next (w2.cur_eq fun e => w.cur (by rw [← w.cfg]; exact e))
    have hk2 : (s1.formatXfIndex f).2.cfg.constMem = true → (s1.formatXfIndex f).2.currentRow = 0 := by
      intro e
      have e' : s.cfg.constMem = true := by rw [← w12.cfg]; exact e
      rw [w12.cur e']; exact hk e'
    have hx : ((s1.formatXfIndex f).2.fmtOf (s1.formatXfIndex f).1).isSome := by rw [hsp.2.2]; rfl
    have hc := w12.sim.cols c
    unfold Abs.colSet
    rw [← hc]
    try dsimp only
    cases e2 : BMap.get c (s1.formatXfIndex f).2.changedCols with
    | none =>
      have := w12.sim.setColOpt (c := c) ⟨(s1.formatXfIndex f).1, some f⟩ hx hk2
      simp only [Sheet.decCol, hsp.2.2] at this
      exact ⟨this, w12.cfg, w12.wa, w12.cur, w12.dims⟩
    | some o =>
      have := w12.sim.setColOpt (c := c) { o with xf := (s1.formatXfIndex f).1 } hx hk2
      simp only [Sheet.decCol, hsp.2.2] at this
      exact ⟨this, w12.cfg, w12.wa, w12.cur, w12.dims⟩

theorem Sim.cellFormat (h : Sim E A s) {b : Bool} (r c : Nat) (f : Fmt)
    (hs : (b = true ∧ (s.cfg.constMem = true → r = s.currentRow)) ∨
      (b = false ∧ s.cfg.constMem = true ∧ r ≠ s.currentRow)) :
    Went E (if b then (if inGrid r c then A.setFormat E r c f else A) else A) s (s.setCellFormat r c f).2 s.currentRow := by
  unfold Sheet.setCellFormat
  rcases h.check r c with ⟨g, e⟩ | ⟨g, s1, e, w, hcov⟩
  · rw [e, g]; simp only [Bool.false_eq_true, if_false, ite_self]; exact Went.refl h
  · rw [e, g]
    have hsp := formatXfIndex_spec w.sim.gen.xf f
    have w2 := w.sim.ofXf (w.sim.gen.formatXf f) hsp.2.1
    have w12 := w.next (w2.cur_eq fun e => w.cur (by rw [← w.cfg]; exact e))
    have hkeep : ∀ (s : Sheet Fmt) (x : Nat), (s.insertCellFormat r c x).cfg = s.cfg ∧
        (s.insertCellFormat r c x).writingAhead = s.writingAhead ∧ (s.insertCellFormat r c x).currentRow = s.currentRow ∧
        (s.insertCellFormat r c x).dims = s.dims := by
      intro s x
      unfold Sheet.insertCellFormat
      split
      · split <;> exact ⟨rfl, rfl, rfl, rfl⟩
      · split <;> exact ⟨rfl, rfl, rfl, rfl⟩
    have hk := hkeep (s1.formatXfIndex f).2 (s1.formatXfIndex f).1
    refine ⟨?_, hk.1.trans w12.cfg, hk.2.1.trans w12.wa, fun e => hk.2.2.1.trans (w12.cur e), by
      show DimsLe s.dims ((s1.formatXfIndex f).2.insertCellFormat r c _).dims
      rw [hk.2.2.2]; exact w12.dims⟩
    rcases hs with ⟨rfl, hr⟩ | ⟨rfl, hm, hr⟩
    · refine w12.sim.insertFormat hsp.2.2 (fun e => ?_) (w2.cov hcov)
      have e' : s.cfg.constMem = true := by rw [← w12.cfg]; exact e
      rw [w12.cur e']; exact hr e'
    · exact w12.sim.insertFormatLate (by rw [hsp.2.2]; rfl) (by rw [w12.cfg]; exact hm) (by rw [w12.cur hm]; exact hr)

theorem Sim.note (h : Sim E A s) (r c : Nat) (t : Bool) : Went E A s (s.insertNote r c t).2 s.currentRow := by
  unfold Sheet.insertNote
  rcases h.check r c with ⟨g, e⟩ | ⟨g, s1, e, w, hcov⟩
  · rw [e]; exact Went.refl h
  · rw [e]
    dsimp only
    have hn : ∀ n, Went E A s1 { s1 with notes := n } s1.currentRow := fun n =>
      w.sim.wentFrame (w.sim.gen.flags (rc := false) s1.writingAhead s1.hasLocalSst n) rfl rfl rfl rfl rfl rfl rfl (fun _ => rfl) rfl
    split
    · exact w
    · split
      · exact w.next ((hn _).cur_eq fun e => w.cur (by rw [← w.cfg]; exact e))
      · exact w.next ((hn _).cur_eq fun e => w.cur (by rw [← w.cfg]; exact e))

theorem went_clear (h : Sim E A s) {A' : Abs Fmt} {r c : Nat} (h' : Sim E A' (s.clearCell r c)) :
    Went E A' s (s.clearCell r c) s.currentRow := by
  unfold Sheet.clearCell at *
  split
  · simp_all; exact ⟨h', rfl, rfl, fun _ => rfl, DimsLe.refl _⟩
  · split <;> simp_all <;> exact ⟨h', rfl, rfl, fun _ => rfl, DimsLe.refl _⟩

theorem went_unformat (h : Sim E A s) {A' : Abs Fmt} {r c : Nat} (h' : Sim E A' (s.clearCellFormat r c)) :
    Went E A' s (s.clearCellFormat r c) s.currentRow := by
  have : (s.clearCellFormat r c).cfg = s.cfg ∧ (s.clearCellFormat r c).writingAhead = s.writingAhead ∧
      (s.clearCellFormat r c).currentRow = s.currentRow ∧ (s.clearCellFormat r c).dims = s.dims := by
    unfold Sheet.clearCellFormat
    split
    · exact ⟨rfl, rfl, rfl, rfl⟩
    · split
      · exact ⟨rfl, rfl, rfl, rfl⟩
      · split <;> exact ⟨rfl, rfl, rfl, rfl⟩
  exact ⟨h', this.1, this.2.1, fun _ => this.2.2.1, by rw [this.2.2.2]; exact DimsLe.refl _⟩

theorem nextCur_none {cfg : Cfg} {k : Nat} {op : Op Fmt} (h : op.isStore = false) : nextCur cfg k op = k := by
  cases op <;> first | rfl | cases h

/-- A call that comes in time. -/
theorem Sim.exec (h : Sim E A s) (op : Op Fmt) (hwa : s.writingAhead = false) (hnr : op.isRangeFormat = false)
    (hlate : s.cfg.constMem = true → op.isLate s.currentRow = false)
    (hstr : s.cfg.constMem = true → op.streams s.currentRow = true) :
    Went E (A.exec E op) s (s.exec op).2 (nextCur E.cfg s.currentRow op) := by
  have sd : ∀ r, (s.cfg.constMem = true → decide (r < s.currentRow) = false) → Side true s r := by
    intro r hr
    refine Or.inl ⟨rfl, fun e => ?_⟩
    have := hr e
    simpa using this
  have cur : ∀ r, (s.cfg.constMem = true → decide (r < s.currentRow) = false) →
      (s.cfg.constMem = true → decide (r ≤ s.currentRow) = true) → (s.cfg.constMem = true → r = s.currentRow) := by
    intro r h1 h2 e
    have := h1 e; have := h2 e
    simp at *; omega
  cases op with
  | number r c n f => exact h.storeOp (b := true) (.number r c n f) rfl hwa (show Side true s r from sd r hlate)
  | dateTime r c n f => exact h.storeOp (b := true) (.dateTime r c n f) rfl hwa (show Side true s r from sd r hlate)
  | string r c n f => exact h.storeOp (b := true) (.string r c n f) rfl hwa (show Side true s r from sd r hlate)
  | rich r c n raw f => exact h.storeOp (b := true) (.rich r c n raw f) rfl hwa (show Side true s r from sd r hlate)
  | formula r c fa f => exact h.storeOp (b := true) (.formula r c fa f) rfl hwa (show Side true s r from sd r hlate)
  | blank r c f => exact h.storeOp (b := true) (.blank r c f) rfl hwa (show Side true s r from sd r hlate)
  | boolean r c v f => exact h.storeOp (b := true) (.boolean r c v f) rfl hwa (show Side true s r from sd r hlate)
  | arrayFormula r1 c1 r2 c2 fa f d =>
    refine h.storeOp (b := true) (.arrayFormula r1 c1 r2 c2 fa f d) rfl hwa (Or.inl ⟨rfl, fun e => ?_⟩)
    have h1 := hlate e
    have h2 := hstr e
    simp only [Op.isLate, Op.streams, decide_eq_false_iff_not, Bool.or_eq_true, decide_eq_true_eq, Bool.and_eq_false_iff] at h1 h2
    omega
  | cellFormat r c f => exact h.cellFormat (b := true) r c f (Or.inl ⟨rfl, cur r hlate hstr⟩)
  | rangeFormat => cases hnr
  | clearCell r c => exact went_clear h (h.clear (cur r hlate hstr))
  | clearFormat r c => exact went_unformat h (h.unformat (cur r hlate hstr))
  | rowFormat r f => exact h.rowFormat (b := true) r f (sd r hlate)
  | columnFormat c f =>
    refine h.columnFormat c f fun e => ?_
    have := hstr e
    simpa [Op.streams] using this
  | rowHeight r ht => exact h.rowHeight (b := true) r ht (sd r hlate)
  | rowHidden r => exact h.rowHidden (b := true) r (sd r hlate)
  | note r c t => exact h.note r c t

/-- A call that comes late changes nothing that will be written. -/
theorem Sim.late (h : Sim E A s) (op : Op Fmt) (hwa : s.writingAhead = false) (hm : s.cfg.constMem = true)
    (hlate : op.isLate s.currentRow = true) :
    Went E A s (s.exec op).2 (nextCur E.cfg s.currentRow op) := by
  have sd : ∀ r, decide (r < s.currentRow) = true → Side false s r := by
    intro r hr
    exact Or.inr ⟨rfl, hm, by simpa using hr⟩
  have ne : ∀ r, decide (r < s.currentRow) = true → r ≠ s.currentRow := by
    intro r hr; simp at hr; omega
  have st : ∀ op : Op Fmt, op.isStore = true → op.side false s → Went E A s (s.exec op).2 (nextCur E.cfg s.currentRow op) := by
    intro op h1 h2
    have := h.storeOp op h1 hwa h2
    rw [store_false] at this
    exact this
  cases op with
  | number r c n f => exact st _ rfl (sd r hlate)
  | dateTime r c n f => exact st _ rfl (sd r hlate)
  | string r c n f => exact st _ rfl (sd r hlate)
  | rich r c n raw f => exact st _ rfl (sd r hlate)
  | formula r c fa f => exact st _ rfl (sd r hlate)
  | blank r c f => exact st _ rfl (sd r hlate)
  | boolean r c v f => exact st _ rfl (sd r hlate)
  | arrayFormula r1 c1 r2 c2 fa f d => exact st _ rfl (Or.inr ⟨rfl, hm, by have h2 : r1 < s.currentRow ∧ r2 < s.currentRow := (by simpa [Op.isLate] using hlate); exact h2.2⟩)
  | cellFormat r c f => exact h.cellFormat (b := false) r c f (Or.inr ⟨rfl, hm, ne r hlate⟩)
  | rangeFormat => cases hlate
  | clearCell r c => exact went_clear h (h.clearLate hm (ne r hlate))
  | clearFormat r c => exact went_unformat h (h.unformatLate hm (ne r hlate))
  | rowFormat r f => exact h.rowFormat (b := false) r f (sd r hlate)
  | columnFormat c f => cases hlate
  | rowHeight r ht => exact h.rowHeight (b := false) r ht (sd r hlate)
  | rowHidden r => exact h.rowHidden (b := false) r (sd r hlate)
  | note r c t => cases hlate

end Verif
