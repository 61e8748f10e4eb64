import Verif.Lemmas.StreamSaved
import Verif.Model.Dims
/-!
C17: a constant memory (or low memory) worksheet shows the same rows as a standard worksheet.
-/
set_option linter.unusedSectionVars false
namespace Verif
variable {Fmt : Type} [DecidableEq Fmt]

/-- C17 (partial): a constant memory or low memory worksheet that gets any calls shows the rows of a standard worksheet
that gets those calls that came in time, with the same settings, cells, contents and formats, in the same order.  The two
worksheets can be in different workbooks, among any other worksheets.

Not covered, because false in the code: calls constant memory mode cannot serve (`streamsFrom`), settings of the last row
with data, row settings in a worksheet without data (see the counterexamples below). -/
theorem C17_same_rows_partial
    (merge : Fmt → Fmt → Fmt) (dflt : Fmt)
    -- the constant or low memory worksheet and its workbook
    (cfgs : List Cfg) (ops : List (Nat × Op Fmt)) (extra : List Fmt) (i : Nat) (c : Cfg)
    (hc : cfgs[i]? = some c) (hk : c.isConstant ∨ c.isLow)
    (xfOrder : List (Fmt × Nat)) (hxf : xfOrder.Perm (savedBook cfgs merge dflt ops extra).gxf)
    (siOrder : List (Str × Nat)) (hsi : siOrder.Perm (savedBook cfgs merge dflt ops extra).sst.strings)
    -- the standard worksheet and its workbook
    (cfgs' : List Cfg) (ops' : List (Nat × Op Fmt)) (extra' : List Fmt) (i' : Nat) (c' : Cfg)
    (hc' : cfgs'[i']? = some c') (hstd : c'.isStandard)
    (xfOrder' : List (Fmt × Nat)) (hxf' : xfOrder'.Perm (savedBook cfgs' merge dflt ops' extra').gxf)
    (siOrder' : List (Str × Nat)) (hsi' : siOrder'.Perm (savedBook cfgs' merge dflt ops' extra').sst.strings)
    -- same texts for special numbers, same calls
    (htexts : c'.nanText = c.nanText ∧ c'.infText = c.infText ∧ c'.negInfText = c.negInfText ∧
      c'.defaultResult = c.defaultResult)
    (hops : opsFor i' ops' = inTime c (opsFor i ops))
    (hst : streamsFrom c 0 (opsFor i ops) = true)
    (hset : ∀ op ∈ opsFor i ops, op.settingsRow ≠ some (cursor c (opsFor i ops)))
    (hdata : (∃ op ∈ opsFor i ops, (op.lands c).isSome) ∨ ∀ op ∈ opsFor i ops, op.settingsRow = none) :
    ∃ s s', (savedBook cfgs merge dflt ops extra).sheets[i]? = some s ∧
      (savedBook cfgs' merge dflt ops' extra').sheets[i']? = some s' ∧
      s.readRows (xfList xfOrder) (sstList siOrder) = s'.readRows (xfList xfOrder') (sstList siOrder') := by
  obtain ⟨s, hs, h1, _⟩ := saved_const hc hk hxf hsi hst hset hdata ⟨c, merge, dflt⟩ rfl
  have hnr : ∀ op ∈ opsFor i' ops', op.isRangeFormat = false := by
    intro op ho
    rw [hops] at ho
    have : ∀ (l : List (Op Fmt)) (k : Nat), streamsFrom c k l = true → ∀ op ∈ l, op.isRangeFormat = false := by
      intro l
      induction l with
      | nil => intro k _ op h; cases h
      | cons a l ih =>
        intro k hs op ho
        have hs' : (a.streams k && streamsFrom c (nextCur c k a) l) = true := hs
        rw [Bool.and_eq_true] at hs'
        rcases List.mem_cons.mp ho with rfl | ho
        · exact streams_notRange hs'.1
        · exact ih _ hs'.2 op ho
    exact this _ 0 hst op (inTimeFrom_sub c 0 _ op ho)
  obtain ⟨s', hs', h2⟩ := saved_stdRows hc' hstd hxf' hsi' hnr c htexts
  rw [hops] at h2
  exact ⟨s, s', hs, hs', h1.unique h2⟩

theorem ordered_streams (c : Cfg) (l : List (Op Fmt)) : ∀ (k : Nat), (∀ op ∈ l, op.writeRow.isSome) →
    (∀ op ∈ l, k ≤ op.writeRow.getD 0) → l.Pairwise (fun a b => a.writeRow.getD 0 ≤ b.writeRow.getD 0) →
    streamsFrom c k l = true ∧ inTimeFrom c k l = l := by
  induction l with
  | nil => intro k _ _ _; exact ⟨rfl, rfl⟩
  | cons op l ih =>
    intro k hw hk hp
    have hp' := List.pairwise_cons.mp hp
    have hop := hk op List.mem_cons_self
    have hwo := hw op List.mem_cons_self
    have hnl : op.isLate k = false := by
      clear ih hp' hp hk hw
      cases op with
      | arrayFormula r1 c1 r2 => 
        have : k ≤ r1 := hop
        simp only [Op.isLate, Bool.and_eq_false_iff, decide_eq_false_iff_not]
        omega
      | number r => exact decide_eq_false (Nat.not_lt.mpr hop)
      | dateTime r => exact decide_eq_false (Nat.not_lt.mpr hop)
      | string r => exact decide_eq_false (Nat.not_lt.mpr hop)
      | rich r => exact decide_eq_false (Nat.not_lt.mpr hop)
      | formula r => exact decide_eq_false (Nat.not_lt.mpr hop)
      | blank r => exact decide_eq_false (Nat.not_lt.mpr hop)
      | boolean r => exact decide_eq_false (Nat.not_lt.mpr hop)
      | _ => cases hwo
    have hst : op.streams k = true := by
      clear ih hp' hp hk hw
      cases op with
      | arrayFormula r1 c1 r2 =>
        have : k ≤ r1 := hop
        simp [Op.streams, this]
      | number r => rfl
      | dateTime r => rfl
      | string r => rfl
      | rich r => rfl
      | formula r => rfl
      | blank r => rfl
      | boolean r => rfl
      | _ => cases hwo
    have hnext : nextCur c k op ≤ op.writeRow.getD 0 := by
      unfold nextCur
      cases e : op.lands c with
      | none => exact hop
      | some r =>
        have key : ∀ {u : Upd Fmt} {q : Nat}, (if u.isWrite then some q else none) = some r → q = r := by
          intro u q h
          split at h
          · cases h; rfl
          · cases h
        have : op.writeRow.getD 0 = r := by
          cases op with
          | number r' => exact key e
          | dateTime r' => exact key e
          | string r' => exact key e
          | rich r' => exact key e
          | formula r' => exact key e
          | arrayFormula r' => exact key e
          | blank r' => exact key e
          | boolean r' => exact key e
          | _ => cases e
        dsimp only
        omega
    obtain ⟨h1, h2⟩ := ih (nextCur c k op) (fun o ho => hw o (List.mem_cons_of_mem _ ho))
      (fun o ho => Nat.le_trans hnext (hp'.1 o ho)) hp'.2
    constructor
    · show (op.streams k && streamsFrom c (nextCur c k op) l) = true
      rw [hst, h1]; rfl
    · show (if op.isLate k then [] else [op]) ++ inTimeFrom c (nextCur c k op) l = op :: l
      rw [hnl, h2]; rfl

/-- C17: for calls that write cells (of all kinds, accepted or refused) with non-decreasing rows, a constant memory or low
memory worksheet shows the same rows, cells, contents and formats as a standard worksheet, in the same order. -/
theorem C17_ordered_writes
    (merge : Fmt → Fmt → Fmt) (dflt : Fmt)
    (cfgs : List Cfg) (ops : List (Nat × Op Fmt)) (extra : List Fmt) (i : Nat) (c : Cfg)
    (hc : cfgs[i]? = some c) (hk : c.isConstant ∨ c.isLow)
    (xfOrder : List (Fmt × Nat)) (hxf : xfOrder.Perm (savedBook cfgs merge dflt ops extra).gxf)
    (siOrder : List (Str × Nat)) (hsi : siOrder.Perm (savedBook cfgs merge dflt ops extra).sst.strings)
    (cfgs' : List Cfg) (ops' : List (Nat × Op Fmt)) (extra' : List Fmt) (i' : Nat) (c' : Cfg)
    (hc' : cfgs'[i']? = some c') (hstd : c'.isStandard)
    (xfOrder' : List (Fmt × Nat)) (hxf' : xfOrder'.Perm (savedBook cfgs' merge dflt ops' extra').gxf)
    (siOrder' : List (Str × Nat)) (hsi' : siOrder'.Perm (savedBook cfgs' merge dflt ops' extra').sst.strings)
    (htexts : c'.nanText = c.nanText ∧ c'.infText = c.infText ∧ c'.negInfText = c.negInfText ∧
      c'.defaultResult = c.defaultResult)
    (hops : opsFor i' ops' = opsFor i ops)
    (hw : ∀ op ∈ opsFor i ops, op.writeRow.isSome)
    (hord : (opsFor i ops).Pairwise (fun a b => a.writeRow.getD 0 ≤ b.writeRow.getD 0)) :
    ∃ s s', (savedBook cfgs merge dflt ops extra).sheets[i]? = some s ∧
      (savedBook cfgs' merge dflt ops' extra').sheets[i']? = some s' ∧
      s.readRows (xfList xfOrder) (sstList siOrder) = s'.readRows (xfList xfOrder') (sstList siOrder') := by
  obtain ⟨h1, h2⟩ := ordered_streams c (opsFor i ops) 0 hw (fun _ _ => Nat.zero_le _) hord
  have hns : ∀ op ∈ opsFor i ops, op.settingsRow = none := by
    intro op ho
    have := hw op ho
    cases op <;> first | rfl | cases this
  refine C17_same_rows_partial merge dflt cfgs ops extra i c hc hk xfOrder hxf siOrder hsi cfgs' ops' extra' i' c' hc' hstd
    xfOrder' hxf' siOrder' hsi' htexts (by rw [hops]; exact h2.symm) h1 ?_ (Or.inr hns)
  intro op ho e
  rw [hns op ho] at e; cases e

/-! ### A concrete case -/

def streamCfg : Cfg := { constMem := true, inlineStrings := true, globalXfs := true }
def lowCfg : Cfg := { constMem := true, globalXfs := true, globalSst := true }

/-- Gaps, an array formula over rows that are not written yet, row formats ahead, a format and a cleared cell in the
current row, late calls. -/
def streamOps : List (Op Nat) :=
  [.columnFormat 2 5, .rowHeight 1 "30".toList, .string 0 0 "a".toList none, .number 2 1 (.finite "7".toList) (some 3),
   .number 0 4 (.finite "9".toList) none, .rowHidden 0, .rowFormat 6 4, .arrayFormula 3 0 5 1 ⟨"A1:B3".toList, [], false⟩ none false,
   .string 3 5 "b".toList (some 8), .cellFormat 3 6 2, .clearCell 3 0, .number 6 2 (.finite "1".toList) none,
   .number 9 0 .nan none, .string 20000000 0 "x".toList none, .note 1 1 false]

def streamBook : Book Nat := savedBook [streamCfg, lowCfg, {}] (fun a b => a * 100 + b) 0
  (streamOps.flatMap fun op => [(0, op), (1, op)]) []
def plainBook : Book Nat := savedBook [{}] (fun a b => a * 100 + b) 0 ((inTime streamCfg streamOps).map fun op => (0, op)) []

example : (inTime streamCfg streamOps).length = 13 ∧ streamOps.length = 15 ∧ streamsFrom streamCfg 0 streamOps = true ∧
    cursor streamCfg streamOps = 9 := by decide +kernel
example : (∀ op ∈ streamOps, op.settingsRow ≠ some (cursor streamCfg streamOps)) ∧
    (∃ op ∈ streamOps, (op.lands streamCfg).isSome) := by decide +kernel
example : streamCfg.isConstant ∧ lowCfg.isLow := ⟨⟨rfl, rfl, rfl, rfl⟩, ⟨rfl, rfl, rfl, rfl⟩⟩
example : opsFor 0 (streamOps.flatMap fun op => [(0, op), (1, op)]) = streamOps := rfl

/-- What a reader finds in worksheet `i` of a book. -/
def readBook (b : Book Nat) (i : Nat) : List (RowView Nat) :=
  match b.sheets[i]? with
  | some s => s.readRows (tblKeys b.gxf) (tblKeys b.sst.strings)
  | none => []

example : (readBook streamBook 0).length = 8 ∧ readBook streamBook 0 = readBook plainBook 0 ∧
    readBook streamBook 1 = readBook plainBook 0 := by decide +kernel

/-! ### Where it is false -/

def constBook (ops : List (Op Nat)) : List (RowView Nat) :=
  readBook (savedBook [streamCfg] (fun a b => a * 100 + b) 0 (ops.map fun op => (0, op)) []) 0
def stdBook (ops : List (Op Nat)) : List (RowView Nat) :=
  readBook (savedBook [{}] (fun a b => a * 100 + b) 0 (ops.map fun op => (0, op)) []) 0

/-- The last row with data has settings: its `<row>` element is written twice (F7). -/
theorem C17_last_row_twice_counterexample :
    let ops : List (Op Nat) := [.rowHeight 0 "30".toList, .string 0 0 "a".toList none]
    inTime streamCfg ops = ops ∧
    (constBook ops).map (·.row) = [0, 0] ∧ (stdBook ops).map (·.row) = [0] := by
  refine ⟨rfl, ?_, ?_⟩ <;> decide +kernel

/-- Without data, the settings of the last row are lost (F7). -/
theorem C17_no_data_counterexample :
    let ops : List (Op Nat) := [.rowHeight 2 "30".toList, .rowHidden 5]
    (constBook ops).map (·.row) = [2] ∧ (stdBook ops).map (·.row) = [2, 5] := by
  refine ⟨?_, ?_⟩ <;> decide +kernel

/-- `set_cell_format` below the current row is lost (F55). -/
theorem C17_format_ahead_counterexample :
    let ops : List (Op Nat) := [.cellFormat 3 0 7, .string 4 0 "a".toList none]
    inTime streamCfg ops = ops ∧
    (constBook ops).map (·.row) = [4] ∧ (stdBook ops).map (·.row) = [3, 4] := by
  refine ⟨rfl, ?_, ?_⟩ <;> decide +kernel

/-- An array formula that starts above the current row loses its formula but not its zeros. -/
theorem C17_late_array_counterexample :
    let ops : List (Op Nat) := [.string 2 5 "a".toList none, .arrayFormula 1 0 2 0 ⟨"A1:A2".toList, [], false⟩ none false]
    (constBook ops).map (fun v => (v.row, v.cells.map (·.length))) = [(2, some 2)] ∧
    (stdBook ops).map (fun v => (v.row, v.cells.map (·.length))) = [(1, some 1), (2, some 2)] := by
  refine ⟨?_, ?_⟩ <;> decide +kernel

/-- A column format set after rows have been written does not reach their cells. -/
theorem C17_late_column_counterexample :
    let ops : List (Op Nat) := [.string 0 0 "a".toList none, .string 1 0 "b".toList none, .columnFormat 0 7]
    inTime streamCfg ops = ops ∧
    (constBook ops).map (fun v => v.cells.map (·.map (·.2.2))) = [some [some 0], some [some 7]] ∧
    (stdBook ops).map (fun v => v.cells.map (·.map (·.2.2))) = [some [some 7], some [some 7]] := by
  refine ⟨rfl, ?_, ?_⟩ <;> decide +kernel

/-- A late write changes the dimension reference although its cell is not written (F6). -/
theorem C17_late_dimension_counterexample :
    let ops : List (Op Nat) := [.string 5 5 "a".toList none, .string 1 1 "b".toList none]
    inTime streamCfg ops = [.string 5 5 "a".toList none] ∧
    (constBook ops).map (·.row) = [5] ∧
    (((Book.new [streamCfg] (fun a _ => a) 0).run (ops.map fun op => (0, op))).sheets[0]?).map Sheet.dimensionRef =
      some "B2:F6".toList := by
  refine ⟨rfl, ?_, ?_⟩ <;> decide +kernel

end Verif
