import Verif.Props.TableCells
import Verif.Props.MergeRange
/-!
C36: what the cells of a worksheet show after `add_table`, in standard mode.
-/
set_option linter.unusedSectionVars false
namespace Verif
open Spec BMap
variable {Fmt : Type} [DecidableEq Fmt]

/-- A standard mode sheet that shows the contents `ct`. -/
def Shows (cfg : Cfg) (dflt : Fmt) (s : Sheet Fmt) (ct : Nat → Nat → Content) : Prop :=
  ∃ fm, Rel cfg dflt false .any s ct fm

variable {cfg : Cfg} {dflt : Fmt}

theorem Shows.congr {s : Sheet Fmt} {ct ct' : Nat → Nat → Content} (h : Shows cfg dflt s ct)
    (e : ∀ r c, ct' r c = ct r c) : Shows cfg dflt s ct' := by
  obtain ⟨fm, h⟩ := h
  exact ⟨fm, h.congr e fun _ _ => rfl⟩

theorem Shows.exec {s : Sheet Fmt} {ct : Nat → Nat → Content} (h : Shows cfg dflt s ct) (op : Op Fmt) :
    Shows cfg dflt (s.exec op).2 (fun r c => (op.asCoded.effectAt cfg r c).content (ct r c)) := by
  obtain ⟨fm, h⟩ := h
  exact ⟨_, h.exec op (fun e => by cases e) (by cases op <;> rfl)⟩

theorem Shows.reads {s : Sheet Fmt} {ct : Nat → Nat → Content} (h : Shows cfg dflt s ct) (t : SST) (r c : Nat) :
    readContent (s.saveRows t) r c = ct r c := by
  obtain ⟨fm, h⟩ := h
  exact h.read_content t r c

/-- Changing the format of a cell that is there changes no content. -/
theorem Shows.updateCellFormat {s : Sheet Fmt} {ct : Nat → Nat → Content} (h : Shows cfg dflt s ct) (r c xf : Nat)
    (hx : (s.fmtOf xf).isSome) : Shows cfg dflt (s.updateCellFormat r c xf) ct := by
  obtain ⟨fm, h⟩ := h
  obtain ⟨f, hf⟩ := Option.isSome_iff_exists.mp hx
  unfold Sheet.updateCellFormat
  cases hcols : s.table.get r with
  | none => exact ⟨fm, h⟩
  | some cols =>
    simp only
    cases hcell : cols.get c with
    | none => exact ⟨fm, h⟩
    | some cell =>
      have hold : cellAt s.table r c = some cell := by simp [cellAt, hcols, hcell]
      have h1 := h.insertCellFormat (r := r) (c := c) hf nofun (h.grid r c cell hold)
      have e : s.insertCellFormat r c xf = { s with table := s.table.insert r (cols.insert c (cell.setXf xf)) } := by
        unfold Sheet.insertCellFormat; rw [hcols]; simp only; rw [hcell]
      rw [e] at h1
      refine ⟨_, h1.congr (ct' := ct) ?_ fun _ _ => rfl⟩
      intro r' c'
      simp only [ctAfter, onCells]
      split <;> rfl

theorem updateCellFormat_fmtOf (s : Sheet Fmt) (r c xf i : Nat) : (s.updateCellFormat r c xf).fmtOf i = s.fmtOf i := by
  unfold Sheet.updateCellFormat
  split
  · rfl
  · split <;> rfl

theorem Shows.updateAll {s : Sheet Fmt} {ct : Nat → Nat → Content} (h : Shows cfg dflt s ct) (rows : List Nat) (c xf : Nat)
    (hx : (s.fmtOf xf).isSome) : Shows cfg dflt (rows.foldl (fun s row => s.updateCellFormat row c xf) s) ct ∧
      (rows.foldl (fun s row => s.updateCellFormat row c xf) s).fmtOf xf = s.fmtOf xf := by
  induction rows generalizing s with
  | nil => exact ⟨h, rfl⟩
  | cons r rows ih =>
    have := ih (h.updateCellFormat r c xf hx) (by rw [updateCellFormat_fmtOf]; exact hx)
    exact ⟨this.1, this.2.trans (updateCellFormat_fmtOf ..)⟩

theorem Shows.formatTableColumn {s : Sheet Fmt} {ct : Nat → Nat → Content} (h : Shows cfg dflt s ct) (t : Table Fmt)
    (d : Dims) (rows : List Nat) (col : Nat) (c : TableCol Fmt) :
    Shows cfg dflt (s.formatTableColumn t d rows col c) ct := by
  unfold Sheet.formatTableColumn
  cases hf : c.format with
  | none => exact h
  | some f =>
    obtain ⟨fm, h⟩ := h
    have hx := formatXfIndex_spec h.xf f
    have h1 : Shows cfg dflt (s.formatXfIndex f).2 ct := ⟨fm, h.grow hx.1 hx.2.1⟩
    have h2 := h1.updateAll rows col (s.formatXfIndex f).1 (by rw [hx.2.2]; rfl)
    simp only
    split
    · exact h2.1.updateCellFormat _ _ _ (by rw [h2.2, hx.2.2]; rfl)
    · exact h2.1

/-- The steps of a loop. -/
theorem Shows.forEach {α : Type} (l : List α) (f : α → Sheet Fmt → Res Fmt)
    (g : α → (Nat → Nat → Content) → Nat → Nat → Content)
    (hf : ∀ a ∈ l, ∀ s ct, Shows cfg dflt s ct →
      (∃ ct', Shows cfg dflt (f a s).2 ct') ∧ ((f a s).1 = none → Shows cfg dflt (f a s).2 (g a ct)))
    {s : Sheet Fmt} {ct : Nat → Nat → Content} (h : Shows cfg dflt s ct) :
    (∃ ct', Shows cfg dflt (forEach l f s).2 ct') ∧
    ((forEach l f s).1 = none → Shows cfg dflt (forEach l f s).2 (l.foldl (fun ct a => g a ct) ct)) := by
  induction l generalizing s ct with
  | nil => exact ⟨⟨ct, h⟩, fun _ => h⟩
  | cons a l ih =>
    have h1 := hf a List.mem_cons_self s ct h
    simp only [Verif.forEach, Res.andThen]
    cases hr : (f a s).1 with
    | some e => exact ⟨h1.1, nofun⟩
    | none => exact ih (fun b hb => hf b (List.mem_cons_of_mem _ hb)) (h1.2 hr)

theorem Shows.andThen {r : Res Fmt} {f : Sheet Fmt → Res Fmt} {ct : Nat → Nat → Content}
    {g : (Nat → Nat → Content)}
    (h : (∃ ct', Shows cfg dflt r.2 ct') ∧ (r.1 = none → Shows cfg dflt r.2 ct))
    (hf : ∀ s, Shows cfg dflt s ct → (∃ ct', Shows cfg dflt (f s).2 ct') ∧ ((f s).1 = none → Shows cfg dflt (f s).2 g)) :
    (∃ ct', Shows cfg dflt (Res.andThen r f).2 ct') ∧
    ((Res.andThen r f).1 = none → Shows cfg dflt (Res.andThen r f).2 g) := by
  unfold Res.andThen
  cases hr : r.1 with
  | some e => exact ⟨h.1, nofun⟩
  | none => exact hf _ (h.2 hr)

theorem Shows.std {s : Sheet Fmt} {ct : Nat → Nat → Content} (h : Shows cfg dflt s ct) : s.cfg.constMem = false := by
  obtain ⟨fm, h⟩ := h
  exact h.constMem

/-- The content a single cell has after a change of cell `(r, c)` alone. -/
def setAt (r c : Nat) (x : Content → Content) (ct : Nat → Nat → Content) : Nat → Nat → Content :=
  fun r' c' => if r' = r ∧ c' = c then x (ct r' c') else ct r' c'

/-- What a write of a text shows, if it is accepted. -/
def textShows (t : Str) (f : Option Fmt) (old : Content) : Content :=
  if t ≠ [] then .text t else if f.isSome then .blank else old

theorem Shows.text {s : Sheet Fmt} {ct : Nat → Nat → Content} (h : Shows cfg dflt s ct) (r c : Nat) (t : Str)
    (f : Option Fmt) : (∃ ct', Shows cfg dflt (s.storeString r c t f).2 ct') ∧
      ((s.storeString r c t f).1 = none → Shows cfg dflt (s.storeString r c t f).2 (setAt r c (textShows t f) ct)) := by
  have h1 := h.exec (.string r c t f)
  refine ⟨⟨_, h1⟩, fun hn => h1.congr ?_⟩
  have ho := (storeString_outc s r c t f).1
  rw [hn] at ho
  intro r' c'
  simp only [setAt, Op.asCoded, Op.effectAt]
  split
  · rename_i hh
    obtain ⟨rfl, rfl⟩ := hh
    unfold refuseString at ho
    unfold updString textShows
    by_cases he : t = []
    · subst he
      cases f with
      | none => rfl
      | some f =>
        cases hg : inGrid r' c' with
        | true => simp [Upd.content]
        | false => simp [hg] at ho
    · simp only [he, if_false, ne_eq, not_false_eq_true, if_true, false_and] at ho ⊢
      cases hg : inGrid r' c' with
      | false => simp [hg] at ho
      | true =>
        simp only [hg, Bool.not_true, Bool.false_eq_true, if_false] at ho
        have : t.length ≤ 32767 := by
          by_cases hl : t.length > 32767
          · rw [if_pos hl] at ho; cases ho
          · omega
        simp [this, Upd.content]
  · rfl

theorem Shows.formula {s : Sheet Fmt} {ct : Nat → Nat → Content} (h : Shows cfg dflt s ct) (r c : Nat) (fa : FormulaArg)
    (f : Option Fmt) (hg : inGrid r c = true) : (∃ ct', Shows cfg dflt (s.storeFormula r c fa f).2 ct') ∧
      ((s.storeFormula r c fa f).1 = none →
        Shows cfg dflt (s.storeFormula r c fa f).2 (setAt r c (fun _ => formulaContent cfg fa r c) ct)) := by
  have h1 := h.exec (.formula r c fa f)
  refine ⟨⟨_, h1⟩, fun _ => h1.congr ?_⟩
  intro r' c'
  simp only [setAt, Op.asCoded, Op.effectAt]
  by_cases hh : r' = r ∧ c' = c
  · obtain ⟨rfl, rfl⟩ := hh
    simp only [hg, and_self, if_true, formulaContent]
    split <;> rfl
  · rw [if_neg hh, if_neg (fun k => hh ⟨k.1, k.2.1⟩)]
    rfl

/-- What the header of a column does to the contents. -/
def headerShows (t : Table Fmt) (d : Dims) (col : Nat) (c : TableCol Fmt) (ct : Nat → Nat → Content) :
    Nat → Nat → Content :=
  if t.showHeaderRow && !t.isSerde then setAt d.firstRow col (textShows c.name c.headerFormat) ct else ct

/-- What the total row of a column does to the contents. -/
def totalShows (cfg : Cfg) (t : Table Fmt) (d : Dims) (col : Nat) (c : TableCol Fmt) (ct : Nat → Nat → Content) :
    Nat → Nat → Content :=
  if t.showTotalRow then
    if c.totalLabel ≠ [] then setAt d.lastRow col (fun _ => .text c.totalLabel) ct
    else if c.totalFunction ≠ .none then
      setAt d.lastRow col (fun _ => formulaContent cfg c.totalFormula d.lastRow col) ct
    else ct
  else ct

/-- What the formula of a column does to the contents. -/
def formulaShows (cfg : Cfg) (rows : List Nat) (col : Nat) (c : TableCol Fmt) (ct : Nat → Nat → Content) :
    Nat → Nat → Content :=
  match c.formula with
  | none => ct
  | some f => rows.foldl (fun ct r => setAt r col (fun _ => formulaContent cfg f r col) ct) ct

/-- What one column of a table does to the contents. -/
def columnShows (cfg : Cfg) (t : Table Fmt) (d : Dims) (rows : List Nat) (col : Nat) (c : TableCol Fmt)
    (ct : Nat → Nat → Content) : Nat → Nat → Content :=
  formulaShows cfg rows col c (totalShows cfg t d col c (headerShows t d col c ct))

theorem Shows.tableColumn {s : Sheet Fmt} {ct : Nat → Nat → Content} (h : Shows cfg dflt s ct) (t : Table Fmt)
    (df : Fmt) (d : Dims) (rows : List Nat) (col : Nat) (c : TableCol Fmt) (hd : rectOk d)
    (hr : ∀ r ∈ rows, r ≤ d.lastRow) (hc : col ≤ d.lastCol) :
    (∃ ct', Shows cfg dflt (s.writeTableColumn t df d rows col c).2 ct') ∧
    ((s.writeTableColumn t df d rows col c).1 = none →
      Shows cfg dflt (s.writeTableColumn t df d rows col c).2 (columnShows cfg t d rows col c ct)) := by
  have hg : ∀ r, r ≤ d.lastRow → inGrid r col = true := by
    intro r hr
    obtain ⟨_, _, h3, h4⟩ := hd
    unfold inGrid
    rw [Bool.and_eq_true]
    exact ⟨decide_eq_true (by omega), decide_eq_true (by omega)⟩
  unfold Sheet.writeTableColumn columnShows
  refine Shows.andThen (ct := headerShows t d col c ct) ?_ ?_
  · unfold Sheet.writeTableHeader headerShows
    split
    · exact h.text _ _ _ _
    · exact ⟨⟨ct, h⟩, fun _ => h⟩
  generalize headerShows t d col c ct = ct1
  intro s1 h1
  rw [setWritingAhead_std _ h1.std]
  refine Shows.andThen (ct := totalShows cfg t d col c ct1) ?_ ?_
  · unfold Sheet.writeTableTotal totalShows
    split
    · split
      · rename_i hl
        have := h1.text d.lastRow col c.totalLabel (some (c.format.getD df))
        refine ⟨this.1, fun e => (this.2 e).congr ?_⟩
        intro r' c'
        simp only [setAt, textShows, if_pos hl]
      · split
        · exact h1.formula _ _ _ _ (hg _ (Nat.le_refl _))
        · exact ⟨⟨ct1, h1⟩, fun _ => h1⟩
    · exact ⟨⟨ct1, h1⟩, fun _ => h1⟩
  generalize totalShows cfg t d col c ct1 = ct2
  intro s2 h2
  refine Shows.andThen (ct := formulaShows cfg rows col c ct2) ?_ ?_
  · unfold Sheet.writeTableFormula formulaShows
    cases c.formula with
    | none => exact ⟨⟨ct2, h2⟩, fun _ => h2⟩
    | some f =>
      refine Shows.forEach rows _ (fun r ct => setAt r col (fun _ => formulaContent cfg f r col) ct) ?_ h2
      intro r hrm s ct hs
      exact hs.formula _ _ _ _ (hg r (hr r hrm))
  · intro s3 h3
    have h4 := h3.formatTableColumn t d rows col c
    rw [setWritingAhead_std _ h4.std]
    exact ⟨⟨_, h4⟩, fun _ => h4⟩

theorem foldl_setAt (rows : List Nat) (col : Nat) (x : Nat → Content) (ct : Nat → Nat → Content) (r' c' : Nat) :
    rows.foldl (fun ct r => setAt r col (fun _ => x r) ct) ct r' c' =
      if r' ∈ rows ∧ c' = col then x r' else ct r' c' := by
  induction rows generalizing ct with
  | nil => simp
  | cons r rows ih =>
    rw [List.foldl_cons, ih]
    simp only [setAt, List.mem_cons]
    by_cases h : r' ∈ rows ∧ c' = col
    · rw [if_pos h, if_pos ⟨.inr h.1, h.2⟩]
    · rw [if_neg h]
      by_cases h2 : r' = r ∧ c' = col
      · rw [if_pos h2, if_pos ⟨.inl h2.1, h2.2⟩, h2.1]
      · rw [if_neg h2, if_neg]
        rintro ⟨h3 | h3, h4⟩
        · exact h2 ⟨h3, h4⟩
        · exact h ⟨h3, h4⟩

/-- The cell of the column itself. -/
def headerValue (t : Table Fmt) (d : Dims) (c : TableCol Fmt) (r : Nat) (old : Content) : Content :=
  if t.showHeaderRow && !t.isSerde then if r = d.firstRow then textShows c.name c.headerFormat old else old else old

def totalValue (cfg : Cfg) (t : Table Fmt) (d : Dims) (col : Nat) (c : TableCol Fmt) (r : Nat) (old : Content) : Content :=
  if t.showTotalRow then
    if c.totalLabel ≠ [] then if r = d.lastRow then .text c.totalLabel else old
    else if c.totalFunction ≠ .none then
      if r = d.lastRow then formulaContent cfg c.totalFormula d.lastRow col else old
    else old
  else old

def formulaValue (cfg : Cfg) (rows : List Nat) (col : Nat) (c : TableCol Fmt) (r : Nat) (old : Content) : Content :=
  match c.formula with
  | none => old
  | some f => if r ∈ rows then formulaContent cfg f r col else old

theorem headerShows_eq (t : Table Fmt) (d : Dims) (col : Nat) (c : TableCol Fmt) (ct : Nat → Nat → Content) (r' c' : Nat) :
    headerShows t d col c ct r' c' = if c' = col then headerValue t d c r' (ct r' c') else ct r' c' := by
  unfold headerShows headerValue
  split
  · unfold setAt
    by_cases h1 : r' = d.firstRow <;> by_cases h2 : c' = col <;> simp [h1, h2]
  · simp

theorem totalShows_eq (t : Table Fmt) (d : Dims) (col : Nat) (c : TableCol Fmt) (ct : Nat → Nat → Content) (r' c' : Nat) :
    totalShows cfg t d col c ct r' c' = if c' = col then totalValue cfg t d col c r' (ct r' c') else ct r' c' := by
  unfold totalShows totalValue
  split
  · split
    · unfold setAt
      by_cases h1 : r' = d.lastRow <;> by_cases h2 : c' = col <;> simp [h1, h2]
    · split
      · unfold setAt
        by_cases h1 : r' = d.lastRow <;> by_cases h2 : c' = col <;> simp [h1, h2]
      · simp
  · simp

theorem formulaShows_eq (rows : List Nat) (col : Nat) (c : TableCol Fmt) (ct : Nat → Nat → Content) (r' c' : Nat) :
    formulaShows cfg rows col c ct r' c' = if c' = col then formulaValue cfg rows col c r' (ct r' c') else ct r' c' := by
  unfold formulaShows formulaValue
  cases c.formula with
  | none => simp
  | some f =>
    simp only
    rw [foldl_setAt rows col (fun r => formulaContent cfg f r col)]
    by_cases h1 : r' ∈ rows <;> by_cases h2 : c' = col <;> simp [h1, h2]

/-- The effect of one column on a cell of its column. -/
def columnValue (cfg : Cfg) (t : Table Fmt) (d : Dims) (rows : List Nat) (col : Nat) (c : TableCol Fmt) (r : Nat)
    (old : Content) : Content :=
  formulaValue cfg rows col c r (totalValue cfg t d col c r (headerValue t d c r old))

theorem columnShows_eq (t : Table Fmt) (d : Dims) (rows : List Nat) (col : Nat) (c : TableCol Fmt)
    (ct : Nat → Nat → Content) (r' c' : Nat) :
    columnShows cfg t d rows col c ct r' c' =
      if c' = col then columnValue cfg t d rows col c r' (ct r' c') else ct r' c' := by
  unfold columnShows columnValue
  rw [formulaShows_eq, totalShows_eq, headerShows_eq]
  split <;> rfl

theorem foldl_columns (t : Table Fmt) (d : Dims) (rows : List Nat) (cs : List (TableCol Fmt)) (a : Nat)
    (ct : Nat → Nat → Content) (r' c' : Nat) :
    ((List.range' a cs.length).zip cs).foldl (fun ct p => columnShows cfg t d rows p.1 p.2 ct) ct r' c' =
      if c' < a then ct r' c'
      else match cs[c' - a]? with
        | none => ct r' c'
        | some c => columnValue cfg t d rows c' c r' (ct r' c') := by
  induction cs generalizing a ct with
  | nil => simp
  | cons c cs ih =>
    rw [List.length_cons, List.range'_succ, List.zip_cons_cons, List.foldl_cons, ih]
    simp only [columnShows_eq]
    by_cases h1 : c' < a
    · rw [if_pos (by omega), if_pos h1, if_neg (by omega)]
    · rw [if_neg h1]
      by_cases h2 : c' = a
      · subst h2
        rw [if_pos (by omega), if_pos rfl, Nat.sub_self, List.getElem?_cons_zero]
      · rw [if_neg (by omega), if_neg h2]
        have : c' - a = (c' - (a + 1)) + 1 := by omega
        rw [this, List.getElem?_cons_succ]

/-- The columns of a table, written. -/
theorem Shows.writeTable {s : Sheet Fmt} {ct : Nat → Nat → Content} (h : Shows cfg dflt s ct) (t : Table Fmt)
    (df : Fmt) (d : Dims) (rows : List Nat) (hd : rectOk d) (hr : ∀ r ∈ rows, r ≤ d.lastRow)
    (hw : t.columns.length = d.lastCol - d.firstCol + 1) :
    (∃ ct', Shows cfg dflt (s.writeTable t df d rows).2 ct') ∧
    ((s.writeTable t df d rows).1 = none → Shows cfg dflt (s.writeTable t df d rows).2
      (((List.range' d.firstCol t.columns.length).zip t.columns).foldl
        (fun ct p => columnShows cfg t d rows p.1 p.2 ct) ct)) := by
  unfold Sheet.writeTable
  refine Shows.forEach _ _ (fun (p : Nat × TableCol Fmt) ct => columnShows cfg t d rows p.1 p.2 ct) ?_ h
  intro p hp s ct hs
  refine hs.tableColumn t df d rows p.1 p.2 hd hr ?_
  have := List.mem_range'_1.mp (List.of_mem_zip hp).1
  have := hd.2.1
  omega

/-- The closed form of what a table shows. -/
theorem columnValue_eq (t : Table Fmt) (d : Dims) (last col : Nat) (c : TableCol Fmt) (r : Nat) (old : Content)
    (hok : tableRectOk d t) (hl : t.lastDataRow d = some last) (hc : ¬ col < d.firstCol)
    (hcol : t.columns[col - d.firstCol]? = some c) :
    columnValue cfg t d (List.range' (t.firstDataRow d) (last + 1 - t.firstDataRow d)) col c r old =
      tableShows cfg t d r col old := by
  unfold columnValue tableShows
  rw [if_neg hc, hcol]
  simp only
  obtain ⟨⟨h1, _⟩, h5⟩ := hok
  have hmem : r ∈ List.range' (t.firstDataRow d) (last + 1 - t.firstDataRow d) ↔
      d.firstRow ≤ r ∧ r ≤ d.lastRow ∧ ¬ (t.showHeaderRow = true ∧ r = d.firstRow) ∧
        ¬ (t.showTotalRow = true ∧ r = d.lastRow) := by
    rw [List.mem_range'_1]
    unfold Table.lastDataRow at hl
    unfold Table.firstDataRow
    cases ht : t.showTotalRow with
    | false =>
      rw [ht] at hl
      simp only [Bool.false_eq_true, if_false, Option.some.injEq] at hl
      subst hl
      cases hh : t.showHeaderRow with
      | false => simp; omega
      | true => have := h5 hh; simp; omega
    | true =>
      rw [ht] at hl
      simp only [if_true] at hl
      split at hl
      · cases hl
      · cases hl
        cases hh : t.showHeaderRow with
        | false => simp; omega
        | true => have := h5 hh; simp; omega
  have hne : t.showHeaderRow = true → d.firstRow ≠ d.lastRow := fun h => by have := h5 h; omega
  unfold formulaValue totalValue headerValue textShows
  by_cases hh : t.showHeaderRow = true ∧ r = d.firstRow
  · rw [if_pos hh]
    have hr1 : r ≠ d.lastRow := fun e => hne hh.1 (hh.2.symm.trans e)
    have hr2 : r ∉ List.range' (t.firstDataRow d) (last + 1 - t.firstDataRow d) := fun h => (hmem.mp h).2.2.1 hh
    have : ∀ x : Content, (match c.formula with
        | none => x
        | some f => if r ∈ List.range' (t.firstDataRow d) (last + 1 - t.firstDataRow d) then formulaContent cfg f r col else x) = x := by
      intro x
      cases c.formula with
      | none => rfl
      | some f => simp only; rw [if_neg hr2]
    rw [this]
    have hr3 := hne hh.1
    simp only [hh.1, hh.2, hr3, if_false, ite_self, Bool.true_and, if_true]
    cases t.isSerde <;> simp
  · rw [if_neg hh]
    have hhead : ∀ x : Content, (if (t.showHeaderRow && !t.isSerde) = true then if r = d.firstRow then x else old else old) = old := by
      intro x
      cases h1 : t.showHeaderRow with
      | false => simp
      | true =>
        have : r ≠ d.firstRow := fun e => hh ⟨h1, e⟩
        simp [this]
    rw [hhead]
    by_cases ht : t.showTotalRow = true ∧ r = d.lastRow
    · rw [if_pos ht]
      have hr2 : r ∉ List.range' (t.firstDataRow d) (last + 1 - t.firstDataRow d) := fun h => (hmem.mp h).2.2.2 ht
      have : ∀ x : Content, (match c.formula with
          | none => x
          | some f => if r ∈ List.range' (t.firstDataRow d) (last + 1 - t.firstDataRow d) then formulaContent cfg f r col else x) = x := by
        intro x
        cases c.formula with
        | none => rfl
        | some f => simp only; rw [if_neg hr2]
      rw [this]
      simp only [ht.1, ht.2, if_true]
    · rw [if_neg ht]
      have htot : ∀ x y : Content, (if t.showTotalRow = true then
          if c.totalLabel ≠ [] then if r = d.lastRow then x else old
          else if c.totalFunction ≠ .none then if r = d.lastRow then y else old else old
        else old) = old := by
        intro x y
        cases h1 : t.showTotalRow with
        | false => simp
        | true =>
          have : r ≠ d.lastRow := fun e => ht ⟨h1, e⟩
          simp [this]
      rw [htot]
      cases c.formula with
      | none => simp
      | some f =>
        simp only [hmem]
        by_cases hr : d.firstRow ≤ r ∧ r ≤ d.lastRow
        · rw [if_pos hr, if_pos ⟨hr.1, hr.2, hh, ht⟩]
        · rw [if_neg hr, if_neg (fun q => hr ⟨q.1, q.2.1⟩)]

/-- Every worksheet that calls lead to shows some contents. -/
theorem Shows.addTable {lower : Str → Str} {s : TSheet Fmt} {ct : Nat → Nat → Content} (h : Shows cfg dflt s.sheet ct)
    (d : Dims) (t : Table Fmt) :
    (∀ e u, s.addTable lower d t = .err e u → ∃ ct', Shows cfg dflt u.sheet ct') ∧
    (∀ u, s.addTable lower d t = .ok u → ∃ t', u.tables = s.tables ++ [(t', d)] ∧
      Shows cfg dflt u.sheet fun r c => tableShows cfg t' d r c (ct r c)) := by
  have key : ∀ t' last, tableRectOk d t → t.initializeColumns lower d (s.sheet.defaultTableHeaders d t.showHeaderRow) = some t' →
      t'.lastDataRow d = some last →
      (∃ ct', Shows cfg dflt (s.sheet.writeTable t' s.dflt d
        (List.range' (t'.firstDataRow d) (last + 1 - t'.firstDataRow d))).2 ct') ∧
      ((s.sheet.writeTable t' s.dflt d (List.range' (t'.firstDataRow d) (last + 1 - t'.firstDataRow d))).1 = none →
        Shows cfg dflt (s.sheet.writeTable t' s.dflt d
          (List.range' (t'.firstDataRow d) (last + 1 - t'.firstDataRow d))).2
            fun r c => tableShows cfg t' d r c (ct r c)) := by
    intro t' last hok hi hl
    have hlast : last ≤ d.lastRow := by
      unfold Table.lastDataRow at hl
      split at hl
      · split at hl
        · cases hl
        · cases hl; omega
      · cases hl; omega
    unfold Table.initializeColumns at hi
    obtain ⟨cs, hcs, rfl⟩ := Option.map_eq_some_iff.mp hi
    obtain ⟨h1, _⟩ := nameColumns_spec _ _ _ _ _ hcs
    rw [resizeColumns_length] at h1
    have hw := h.writeTable ({ t with columns := cs } : Table Fmt) s.dflt d
      (List.range' (({ t with columns := cs } : Table Fmt).firstDataRow d)
        (last + 1 - ({ t with columns := cs } : Table Fmt).firstDataRow d)) hok.1
      (by intro r hr; rw [List.mem_range'_1] at hr; omega) h1
    refine ⟨hw.1, fun hn => (hw.2 hn).congr ?_⟩
    intro r c
    rw [foldl_columns]
    by_cases hc : c < d.firstCol
    · rw [if_pos hc]; unfold tableShows; rw [if_pos hc]
    · rw [if_neg hc]
      cases hcol : ({ t with columns := cs } : Table Fmt).columns[c - d.firstCol]? with
      | none => unfold tableShows; rw [if_neg hc, hcol]
      | some col => exact (columnValue_eq ({ t with columns := cs } : Table Fmt) d last c col r (ct r c) hok hl hc hcol).symm
  rcases addTable_full lower s d t with ⟨e, _, hm⟩ | ⟨hm, _⟩ | ⟨hok, t', last, hi, hl, ⟨e, _, hm⟩ | ⟨hn, hm⟩⟩
  · rw [hm]
    exact ⟨fun e u he => by cases he; exact ⟨ct, h⟩, nofun⟩
  · rw [hm]
    exact ⟨nofun, nofun⟩
  · rw [hm]
    refine ⟨fun e u he => ?_, nofun⟩
    cases he
    exact (key t' last hok hi hl).1
  · rw [hm]
    have hk := (key t' last hok hi hl).2 hn
    refine ⟨fun e u he => ?_, fun u he => ?_⟩
    · rcases placeTable_err he with ⟨p, _, _, rfl⟩ | ⟨p, _, _, _, rfl⟩
      · exact ⟨_, hk⟩
      · exact ⟨_, hk⟩
    · obtain ⟨_, _, rfl⟩ := placeTable_ok he
      exact ⟨t', rfl, hk⟩

theorem Shows.run {lower : Str → Str} {s u : TSheet Fmt} {ct : Nat → Nat → Content} (h : Shows cfg dflt s.sheet ct)
    (ops : List (TOp Fmt)) (he : s.run lower ops = some u) : ∃ ct', Shows cfg dflt u.sheet ct' := by
  induction ops generalizing s ct with
  | nil => cases he; exact ⟨ct, h⟩
  | cons op ops ih =>
    simp only [TSheet.run, List.foldlM_cons] at he
    cases hx : s.exec lower op with
    | none => rw [hx] at he; cases he
    | some v =>
      rw [hx] at he
      have : ∃ ct', Shows cfg dflt v.sheet ct' := by
        unfold TSheet.exec at hx
        cases op with
        | cell op => cases hx; exact ⟨_, h.exec op⟩
        | table d t =>
          simp only [TSheet.call] at hx
          cases ha : s.addTable lower d t with
          | ok w => obtain ⟨t', _, hs⟩ := (h.addTable d t).2 w ha; rw [ha] at hx; cases hx; exact ⟨_, hs⟩
          | err e w => have hs := (h.addTable d t).1 e w ha; rw [ha] at hx; cases hx; exact hs
          | panic => rw [ha] at hx; cases hx
        | autofilter d =>
          simp only [TSheet.call] at hx
          rcases autofilter_cases s d with ⟨e, _, hm⟩ | ⟨_, p, _, hm⟩ | ⟨_, _, hm⟩ <;>
            (rw [hm] at hx; cases hx; exact ⟨ct, h⟩)
      obtain ⟨ct', h'⟩ := this
      exact ih h' he

/-- C36: in a standard mode worksheet, whatever calls came before, an accepted table changes what the cells show
in this way and no other: the header cells show the column names, the total row the labels and total formulas,
the data rows the column formula if there is one; all other cells show what they showed (`tableShows`, in
Spec/Table.lean). -/
theorem C36_cells (lower : Str → Str) (cfg : Cfg) (hstd : cfg.isStandard) (merge : Fmt → Fmt → Fmt) (dflt : Fmt)
    (ops : List (TOp Fmt)) (s u : TSheet Fmt) (h : (TSheet.new cfg merge dflt).run lower ops = some s)
    (d : Dims) (t : Table Fmt) (ha : s.addTable lower d t = .ok u) :
    ∃ t', u.tables = s.tables ++ [(t', d)] ∧ ∀ (sst : SST) r c,
      readContent (u.sheet.saveRows sst) r c = tableShows cfg t' d r c (readContent (s.sheet.saveRows sst) r c) := by
  have h0 : Shows cfg dflt (TSheet.new cfg merge dflt).sheet (fun _ _ => .blank) :=
    ⟨_, Rel.new cfg hstd.1 hstd.2.1 merge dflt false .any⟩
  obtain ⟨ct, hs⟩ := h0.run ops h
  obtain ⟨t', h1, h2⟩ := (hs.addTable (lower := lower) d t).2 u ha
  refine ⟨t', h1, fun sst r c => ?_⟩
  rw [h2.reads, hs.reads]

/-- Non-trivial case: a table over text, with a total row, a column formula and a header found in the sheet. -/
example : (((TSheet.new {} (fun a _ => a) 0 : TSheet Nat).run id
    [.cell (.string 1 1 "Item".toList none), .cell (.number 2 1 (.finite "7".toList) none),
     .table ⟨1, 1, 4, 2⟩ { showTotalRow := true, columns := [{ totalLabel := "Sum".toList },
       { formula := some ⟨"A1".toList, [], false⟩, totalFunction := .sum }] }]).map fun s =>
    ((List.range 5).map fun r => (List.range 3).map fun c => readContent (s.sheet.saveRows SST.new) r c)) =
    some [[.blank, .blank, .blank],
      [.blank, .text "Item".toList, .text "Column2".toList],
      [.blank, .number "7".toList, .formula "A1".toList "0".toList],
      [.blank, .blank, .formula "A1".toList "0".toList],
      [.blank, .text "Sum".toList, .formula "SUBTOTAL(109,[Column2])".toList "0".toList]] := by decide +kernel

end Verif
