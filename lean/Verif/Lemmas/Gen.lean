import Verif.Lemmas.SheetOut
import Verif.Model.Book
/-! Invariants that hold in every mode: valid style indices and string ids. -/
set_option linter.unusedSectionVars false
set_option linter.unusedSimpArgs false
namespace Verif
open BMap

/-- The string table is a proper index table. -/
structure SstInv (t : SST) : Prop where
  tbl : TblInv t.strings
  uniq : t.unique = t.strings.length

/-- Entry number `i` of the string table. -/
def SST.entry (t : SST) (i : Nat) : Option Str := (tblKeys t.strings)[i]?

/-- The string table only grows. -/
def SstGrow (t t' : SST) : Prop := ∀ i k, t.entry i = some k → t'.entry i = some k

theorem SstInv.new : SstInv SST.new := ⟨tblInv_nil, rfl⟩

theorem sstIndex_spec {t : SST} (h : SstInv t) (k : Str) :
    SstInv (t.index k).2 ∧ SstGrow t (t.index k).2 ∧ (t.index k).2.entry (t.index k).1 = some k ∧
    (t.index k).2.count = t.count + 1 := by
  unfold SST.index
  cases hl : t.strings.lookup k with
  | some i => exact ⟨⟨h.tbl, h.uniq⟩, fun _ _ h => h, lookup_some_get h.tbl hl, rfl⟩
  | none =>
    have hk := lookup_none_iff.mp hl
    have hk2 : tblKeys ((k, t.unique) :: t.strings) = tblKeys t.strings ++ [k] := tblKeys_cons _ _ _
    refine ⟨⟨?_, ?_⟩, ?_, ?_, rfl⟩
    · show TblInv ((k, t.unique) :: t.strings)
      rw [h.uniq]; exact tblInv_insert h.tbl hk
    · simp [h.uniq]
    · intro i q hi
      unfold SST.entry at hi ⊢
      rw [hk2, List.getElem?_append_left (List.getElem?_eq_some_iff.mp hi).1]
      exact hi
    · unfold SST.entry
      rw [hk2, h.uniq, ← tblKeys_length, List.getElem?_append_right (Nat.le_refl _)]
      simp

/-- The string id stored in a cell selects the cell's own string. -/
def Cell.IdOk (t : SST) : Cell → Prop
  | .string s _ (some i) => t.entry i = some s
  | .rich s _ _ (some i) => t.entry i = some s
  | _ => True

theorem Cell.IdOk.mono {t t' : SST} (hg : SstGrow t t') {c : Cell} (h : c.IdOk t) : c.IdOk t' := by
  cases c <;> try trivial
  · rename_i o; cases o
    · trivial
    · exact hg _ _ h
  · rename_i o; cases o
    · trivial
    · exact hg _ _ h

theorem Cell.IdOk.setXf {t : SST} {c : Cell} (x : Nat) (h : c.IdOk t) : (c.setXf x).IdOk t := by
  cases c <;> try trivial
  · rename_i o; cases o
    · trivial
    · exact h
  · rename_i o; cases o
    · trivial
    · exact h

/-- Every cell of a nested table satisfies `P`. -/
def TblAll (P : Cell → Prop) (t : BMap (BMap Cell)) : Prop := ∀ q ∈ t, ∀ p ∈ q.2, P p.2

theorem mem_of_get {β : Type} {m : BMap β} {k : Nat} {v : β} (h : BMap.get k m = some v) : (k, v) ∈ m := by
  induction m with
  | nil => simp [BMap.get] at h
  | cons p t ih =>
    obtain ⟨k', v'⟩ := p
    simp only [BMap.get] at h
    split at h
    · rename_i e; cases h; subst e; exact List.mem_cons_self
    · exact List.mem_cons_of_mem _ (ih h)

theorem mem_remove {β : Type} {m : BMap β} {k : Nat} {p : Nat × β} (h : p ∈ BMap.remove k m) : p ∈ m :=
  (List.mem_filter.mp h).1

theorem TblAll.insertRow {P : Cell → Prop} {t : BMap (BMap Cell)} (h : TblAll P t) {r : Nat}
    {m : BMap Cell} (hm : ∀ p ∈ m, P p.2) : TblAll P (t.insert r m) := by
  intro q hq p hp
  rcases mem_insert hq with rfl | hq
  · exact hm p hp
  · exact h q hq p hp

theorem TblAll.get {P : Cell → Prop} {t : BMap (BMap Cell)} (h : TblAll P t) {r : Nat} {m : BMap Cell}
    (hm : BMap.get r t = some m) : ∀ p ∈ m, P p.2 := h _ (mem_of_get hm)

theorem TblAll.insertCellToTable {P : Cell → Prop} {t : BMap (BMap Cell)} (h : TblAll P t)
    (r c : Nat) {cell : Cell} (hc : P cell) : TblAll P (insertCellToTable r c cell t) := by
  unfold Verif.insertCellToTable
  split
  · rename_i cols hcols
    refine h.insertRow ?_
    intro p hp
    rcases mem_insert hp with rfl | hp
    · exact hc
    · exact h.get hcols p hp
  · exact h.insertRow (by intro p hp; simp at hp; subst hp; exact hc)

theorem TblAll.imp {P Q : Cell → Prop} {t : BMap (BMap Cell)} (h : TblAll P t) (hi : ∀ c, P c → Q c) :
    TblAll Q t := fun q hq p hp => hi _ (h q hq p hp)

section
variable {Fmt : Type} [DecidableEq Fmt]

/-- Validity of a stored cell. -/
def CellV (s : Sheet Fmt) (c : Cell) : Prop := c.IdOk s.sst ∧ (s.fmtOf c.xf).isSome

/-- Validity of a written row (style indices are global ones). -/
def RowV (s : Sheet Fmt) (ro : RowOut Fmt) : Prop :=
  ∀ p ∈ ro.cells.getD [], p.2.1.IdOk s.sst ∧ (s.cfg.globalXfs = true → ((tblKeys s.gxf)[p.2.2]?).isSome)

/-- The invariant of a worksheet in any mode. -/
structure Gen (dflt : Fmt) (s : Sheet Fmt) : Prop where
  xf : XfInv dflt s
  sst : SstInv s.sst
  table : TblAll (CellV s) s.table
  ahead : TblAll (CellV s) s.writeAhead
  out : ∀ ro ∈ s.out, RowV s ro
  rowsS : Sorted s.changedRows
  colsS : Sorted s.changedCols
  rowsV : ∀ r o, s.changedRows.get r = some o → (s.fmtOf o.xf).isSome
  colsV : ∀ c o, s.changedCols.get c = some o → (s.fmtOf o.xf).isSome

variable {rc : Bool}

/-- The dimensions `d'` contain the dimensions `d`. -/
def DimsLe (d d' : Dims) : Prop :=
  d'.firstRow ≤ d.firstRow ∧ d'.firstCol ≤ d.firstCol ∧ d.lastRow ≤ d'.lastRow ∧ d.lastCol ≤ d'.lastCol

theorem DimsLe.refl (d : Dims) : DimsLe d d := ⟨Nat.le_refl _, Nat.le_refl _, Nat.le_refl _, Nat.le_refl _⟩

theorem DimsLe.trans {a b c : Dims} (h1 : DimsLe a b) (h2 : DimsLe b c) : DimsLe a c := by
  unfold DimsLe at *; omega

/-- The shared and local tables only grow; the mode is fixed; unless `rc`, the row and column
settings are unchanged. -/
structure Grow (rc : Bool) (s s' : Sheet Fmt) : Prop where
  cfg : s'.cfg = s.cfg
  merge : s'.merge = s.merge
  fmt : ∀ i f, s.fmtOf i = some f → s'.fmtOf i = some f
  gxf : ∀ (i : Nat) (f : Fmt), (tblKeys s.gxf)[i]? = some f → (tblKeys s'.gxf)[i]? = some f
  sst : SstGrow s.sst s'.sst
  gsst : s.cfg.globalSst = false → s'.sst = s.sst
  ggxf : s.cfg.globalXfs = false → s'.gxf = s.gxf
  dims : DimsLe s.dims s'.dims
  rows : rc = false → s'.changedRows = s.changedRows ∧ s'.changedCols = s.changedCols

theorem Grow.refl (s : Sheet Fmt) : Grow rc s s :=
  ⟨rfl, rfl, fun _ _ h => h, fun _ _ h => h, fun _ _ h => h, fun _ => rfl, fun _ => rfl, DimsLe.refl _, fun _ => ⟨rfl, rfl⟩⟩

theorem Grow.trans {a b c : Sheet Fmt} (h1 : Grow rc a b) (h2 : Grow rc b c) : Grow rc a c :=
  ⟨h2.cfg.trans h1.cfg, h2.merge.trans h1.merge, fun i f h => h2.fmt i f (h1.fmt i f h),
    fun i f h => h2.gxf i f (h1.gxf i f h), fun i k h => h2.sst i k (h1.sst i k h),
    fun e => (h2.gsst (by rw [h1.cfg]; exact e)).trans (h1.gsst e),
    fun e => (h2.ggxf (by rw [h1.cfg]; exact e)).trans (h1.ggxf e),
    h1.dims.trans h2.dims,
    fun e => ⟨(h2.rows e).1.trans (h1.rows e).1, (h2.rows e).2.trans (h1.rows e).2⟩⟩

theorem CellV.mono {s s' : Sheet Fmt} (hg : Grow rc s s') {c : Cell} (h : CellV s c) : CellV s' c :=
  ⟨h.1.mono hg.sst, isSome_mono hg.fmt h.2⟩

theorem RowV.mono {s s' : Sheet Fmt} (hg : Grow rc s s') {ro : RowOut Fmt} (h : RowV s ro) : RowV s' ro := by
  intro p hp
  refine ⟨(h p hp).1.mono hg.sst, ?_⟩
  intro e
  rw [hg.cfg] at e
  obtain ⟨f, hf⟩ := Option.isSome_iff_exists.mp ((h p hp).2 e)
  rw [hg.gxf _ _ hf]; rfl

/-- Change of fields outside the tables. -/
theorem Gen.frame {dflt : Fmt} {s s' : Sheet Fmt} (h : Gen dflt s) (hx : XfInv dflt s') (hs : SstInv s'.sst)
    (hg : Grow rc s s') (ht : s'.table = s.table) (ha : s'.writeAhead = s.writeAhead)
    (ho : s'.out = s.out) (hr : s'.changedRows = s.changedRows) (hc : s'.changedCols = s.changedCols) :
    Gen dflt s' := by
  refine ⟨hx, hs, ?_, ?_, ?_, hr ▸ h.rowsS, hc ▸ h.colsS, ?_, ?_⟩
  · rw [ht]; exact h.table.imp fun c hc => hc.mono hg
  · rw [ha]; exact h.ahead.imp fun c hc => hc.mono hg
  · rw [ho]; exact fun ro hro => (h.out ro hro).mono hg
  · rw [hr]; exact fun r o e => isSome_mono hg.fmt (h.rowsV r o e)
  · rw [hc]; exact fun r o e => isSome_mono hg.fmt (h.colsV r o e)

/-- What every step establishes. -/
def StepG (rc : Bool) (dflt : Fmt) (s s' : Sheet Fmt) : Prop := Gen dflt s' ∧ Grow rc s s'

theorem StepG.refl {dflt : Fmt} {s : Sheet Fmt} (h : Gen dflt s) : StepG rc dflt s s := ⟨h, Grow.refl s⟩

theorem StepG.trans {dflt : Fmt} {a b c : Sheet Fmt} (h1 : StepG rc dflt a b)
    (h2 : Gen dflt b → StepG rc dflt b c) : StepG rc dflt a c :=
  ⟨(h2 h1.1).1, h1.2.trans (h2 h1.1).2⟩

variable {dflt : Fmt} {s : Sheet Fmt}

theorem Gen.dims (h : Gen dflt s) (d : Dims) (hd : DimsLe s.dims d) : StepG rc dflt s { s with dims := d } := by
  have hg : Grow rc s { s with dims := d } :=
    ⟨rfl, rfl, fun _ _ h => h, fun _ _ h => h, fun _ _ h => h, fun _ => rfl, fun _ => rfl, hd, fun _ => ⟨rfl, rfl⟩⟩
  exact ⟨h.frame ⟨h.xf.loc, h.xf.fmts, h.xf.glob, h.xf.loc0, h.xf.glob0⟩ h.sst hg rfl rfl rfl rfl rfl, hg⟩

theorem checkDimensions_shape (s : Sheet Fmt) (r c : Nat) :
    ∃ d, DimsLe s.dims d ∧ (s.checkDimensions r c).2 = { s with dims := d } := by
  unfold Sheet.checkDimensions
  split
  · exact ⟨s.dims, DimsLe.refl _, rfl⟩
  · split
    · exact ⟨s.dims, DimsLe.refl _, rfl⟩
    · refine ⟨_, ?_, rfl⟩
      unfold DimsLe
      dsimp only
      split
      · split <;> dsimp only <;> omega
      · dsimp only; omega

theorem Gen.checkDims (h : Gen dflt s) (r c : Nat) : StepG rc dflt s (s.checkDimensions r c).2 := by
  obtain ⟨d, hd, e⟩ := checkDimensions_shape s r c
  rw [e]; exact h.dims d hd

theorem Gen.ofGrow (h : Gen dflt s) {s' : Sheet Fmt} (hx : XfInv dflt s') (hg : XfGrow s s')
    (hgx : ∀ (i : Nat) (f : Fmt), (tblKeys s.gxf)[i]? = some f → (tblKeys s'.gxf)[i]? = some f)
    (hgg : s.cfg.globalXfs = false → s'.gxf = s.gxf) : StepG rc dflt s s' := by
  have e := hg.same
  have hgr : Grow rc s s' := by
    refine ⟨by rw [e], by rw [e], hg.grow, hgx, ?_, ?_, hgg, by rw [e]; exact DimsLe.refl _, fun _ => ⟨by rw [e], by rw [e]⟩⟩
    · have : s'.sst = s.sst := by rw [e]
      intro i k h; rw [this]; exact h
    · intro _; rw [e]
  have e1 : s'.sst = s.sst := by rw [e]
  have e2 : s'.table = s.table := by rw [e]
  have e3 : s'.writeAhead = s.writeAhead := by rw [e]
  have e4 : s'.out = s.out := by rw [e]
  have e5 : s'.changedRows = s.changedRows := by rw [e]
  have e6 : s'.changedCols = s.changedCols := by rw [e]
  exact ⟨h.frame hx (e1 ▸ h.sst) hgr e2 e3 e4 e5 e6, hgr⟩

theorem formatXfIndex_gxf (s : Sheet Fmt) (f : Fmt) :
    (∀ (i : Nat) (g : Fmt), (tblKeys s.gxf)[i]? = some g → (tblKeys (s.formatXfIndex f).2.gxf)[i]? = some g) ∧
    (s.cfg.globalXfs = false → (s.formatXfIndex f).2.gxf = s.gxf) := by
  unfold Sheet.formatXfIndex
  by_cases hg : s.cfg.globalXfs = true
  · rw [if_pos hg]
    refine ⟨?_, by rw [hg]; simp⟩
    split
    · exact fun _ _ h => h
    · intro i g hi
      simp only [tblKeys_cons]
      rw [List.getElem?_append_left (List.getElem?_eq_some_iff.mp hi).1]
      exact hi
  · rw [if_neg hg]
    split <;> exact ⟨fun _ _ h => h, fun _ => rfl⟩

theorem Gen.formatXf (h : Gen dflt s) (f : Fmt) : StepG rc dflt s (s.formatXfIndex f).2 :=
  h.ofGrow (formatXfIndex_spec h.xf f).1 (formatXfIndex_spec h.xf f).2.1 (formatXfIndex_gxf s f).1
    (formatXfIndex_gxf s f).2

theorem Gen.rowCol (h : Gen dflt s) (r c : Nat) : StepG rc dflt s (s.rowColFormat r c).2 := by
  unfold Sheet.rowColFormat
  split
  · exact StepG.refl h
  · split
    · exact StepG.refl h
    · split
      · exact StepG.refl h
      · split
        · exact StepG.refl h
        · exact h.formatXf _

theorem Gen.xfFor (h : Gen dflt s) (r c : Nat) (fo : Option Fmt) : StepG rc dflt s (s.xfFor r c fo).2 := by
  unfold Sheet.xfFor
  cases fo with
  | some f => exact h.formatXf f
  | none => exact h.rowCol r c

/-- Resolved style indices are valid. -/
theorem Gen.style (h : Gen dflt s) (hgl : s.cfg.globalXfs = true) {xf : Nat} (hx : (s.fmtOf xf).isSome)
    {ro : Option (RowOpt Fmt)} (hro : ∀ o, ro = some o → (s.fmtOf o.xf).isSome) (col : Nat) :
    ((tblKeys s.gxf)[s.getCellXfIndex xf ro col]?).isSome := by
  have hf : ∀ i, s.fmtOf i = (tblKeys s.gxf)[i]? := by intro i; simp [Sheet.fmtOf, hgl]
  have key : ∀ i, (s.fmtOf i).isSome → ((tblKeys s.gxf)[if i ≠ 0 then s.getGlobalXfIndex i else i]?).isSome := by
    intro i hi
    rw [hf] at hi
    simp only [Sheet.getGlobalXfIndex, hgl, if_true]
    split <;> exact hi
  unfold Sheet.getCellXfIndex
  apply key
  cases ro with
  | none =>
    cases hc : s.changedCols.get col with
    | none => simp only [ite_self]; exact hx
    | some o =>
      simp only [ite_self]
      split
      · exact h.colsV col o hc
      · exact hx
  | some o' =>
    have h1 := hro o' rfl
    cases hc : s.changedCols.get col with
    | none => simp only [ite_self]; split <;> assumption
    | some o =>
      have h2 := h.colsV col o hc
      simp only
      split
      · split <;> assumption
      · exact hx

theorem Gen.writeCells (h : Gen dflt s) {cols : BMap Cell} (hc : ∀ p ∈ cols, CellV s p.2) (r : Nat) :
    RowV s ⟨r, s.changedRows.get r, some (s.writeCells (s.changedRows.get r) cols)⟩ := by
  intro p hp
  simp only [Option.getD_some, Sheet.writeCells, List.mem_map, List.mem_filter] at hp
  obtain ⟨a, ⟨ha, _⟩, rfl⟩ := hp
  refine ⟨(hc a ha).1, ?_⟩
  intro hgl
  have hst := h.style hgl (hc a ha).2 (ro := s.changedRows.get r) (fun o ho => h.rowsV r o ho) a.1
  simp only [Sheet.cellStyle]
  split
  · rename_i t x e
    rw [e] at hst
    split
    · exact hst
    · have := (hc a ha).2
      rw [e] at this
      simpa [Sheet.fmtOf, hgl, Cell.xf] using this
  · exact hst

theorem Gen.flushDataRow (h : Gen dflt s) (next : Nat) : StepG rc dflt s (s.flushDataRow next) := by
  unfold Sheet.flushDataRow
  have hg : ∀ o t a n, Grow rc s { s with out := o, table := t, writeAhead := a, currentRow := n } := fun _ _ _ _ =>
    ⟨rfl, rfl, fun _ _ h => h, fun _ _ h => h, fun _ _ h => h, fun _ => rfl, fun _ => rfl, DimsLe.refl _, fun _ => ⟨rfl, rfl⟩⟩
  refine ⟨⟨⟨h.xf.loc, h.xf.fmts, h.xf.glob, h.xf.loc0, h.xf.glob0⟩, h.sst, ?_, ?_, ?_, h.rowsS, h.colsS,
    h.rowsV, h.colsV⟩, hg _ _ _ _⟩
  · intro q hq p hp
    have hq' : q ∈ (match s.writeAhead.get next with
      | some columns => [(next, columns)]
      | none => []) := hq
    cases hw : s.writeAhead.get next with
    | none => rw [hw] at hq'; cases hq'
    | some cols =>
      rw [hw] at hq'
      cases List.mem_singleton.mp hq'
      exact (h.ahead.get hw p hp).mono (hg _ _ _ _)
  · intro q hq p hp
    exact (h.ahead q (mem_remove hq) p hp).mono (hg _ _ _ _)
  · intro ro hro
    simp only at hro
    split at hro
    · split at hro
      · rcases List.mem_append.mp hro with hro | hro
        · exact (h.out ro hro).mono (hg _ _ _ _)
        · simp at hro; subst hro; intro p hp; simp at hp
      · exact (h.out ro hro).mono (hg _ _ _ _)
    · rename_i cols hcols
      rcases List.mem_append.mp hro with hro | hro
      · exact (h.out ro hro).mono (hg _ _ _ _)
      · simp at hro; subst hro
        exact (h.writeCells (h.table.get hcols) s.currentRow).mono (hg _ _ _ _)

theorem Gen.flushRows (l : List Nat) (h : Gen dflt s) : StepG rc dflt s (l.foldl Sheet.flushDataRow s) := by
  induction l generalizing s with
  | nil => exact StepG.refl h
  | cons a l ih => exact (h.flushDataRow a).trans (fun h' => ih h')

theorem Gen.flushToRow (h : Gen dflt s) (next : Nat) : StepG rc dflt s (s.flushToRow next) :=
  (h.flushRows _).trans (fun h' => h'.flushDataRow next)

theorem Gen.flushLastRow (h : Gen dflt s) : StepG rc dflt s s.flushLastRow := h.flushRows _

theorem Gen.setTable (h : Gen dflt s) {t : BMap (BMap Cell)} (ht : TblAll (CellV s) t) :
    StepG rc dflt s { s with table := t } := by
  have hg : Grow rc s { s with table := t } :=
    ⟨rfl, rfl, fun _ _ h => h, fun _ _ h => h, fun _ _ h => h, fun _ => rfl, fun _ => rfl, DimsLe.refl _, fun _ => ⟨rfl, rfl⟩⟩
  exact ⟨⟨⟨h.xf.loc, h.xf.fmts, h.xf.glob, h.xf.loc0, h.xf.glob0⟩, h.sst, ht.imp fun c hc => hc.mono hg,
    h.ahead.imp fun c hc => hc.mono hg, fun ro hro => (h.out ro hro).mono hg, h.rowsS, h.colsS,
    h.rowsV, h.colsV⟩, hg⟩

theorem Gen.insertCell (h : Gen dflt s) (r c : Nat) {cell : Cell} (hc : CellV s cell) :
    StepG rc dflt s (s.insertCell r c cell) := by
  unfold Sheet.insertCell
  split
  · split
    · exact StepG.refl h
    · split
      · split
        · have hg : ∀ t, Grow rc s { s with writeAhead := t } := fun _ =>
            ⟨rfl, rfl, fun _ _ h => h, fun _ _ h => h, fun _ _ h => h, fun _ => rfl, fun _ => rfl, DimsLe.refl _, fun _ => ⟨rfl, rfl⟩⟩
          refine ⟨⟨⟨h.xf.loc, h.xf.fmts, h.xf.glob, h.xf.loc0, h.xf.glob0⟩, h.sst,
            h.table.imp fun c hc => hc.mono (hg _), ?_, fun ro hro => (h.out ro hro).mono (hg _),
            h.rowsS, h.colsS, h.rowsV, h.colsV⟩, hg _⟩
          exact (h.ahead.insertCellToTable r c hc).imp fun c hc => hc.mono (hg _)
        · exact (h.flushToRow r).trans fun h' =>
            h'.setTable (h'.table.insertCellToTable r c (hc.mono (h.flushToRow (rc := rc) r).2))
      · exact h.setTable (h.table.insertCellToTable r c hc)
  · exact h.setTable (h.table.insertCellToTable r c hc)

/-- Bookkeeping flags. -/
theorem Gen.flags (h : Gen dflt s) (b1 b2 : Bool) (n : BMap (BMap Unit)) :
    StepG rc dflt s { s with writingAhead := b1, hasLocalSst := b2, notes := n } := by
  have hg : Grow rc s { s with writingAhead := b1, hasLocalSst := b2, notes := n } :=
    ⟨rfl, rfl, fun _ _ h => h, fun _ _ h => h, fun _ _ h => h, fun _ => rfl, fun _ => rfl, DimsLe.refl _, fun _ => ⟨rfl, rfl⟩⟩
  exact ⟨h.frame ⟨h.xf.loc, h.xf.fmts, h.xf.glob, h.xf.loc0, h.xf.glob0⟩ h.sst hg rfl rfl rfl rfl rfl, hg⟩

theorem Gen.setSst (h : Gen dflt s) {t : SST} (ht : SstInv t) (hg : SstGrow s.sst t)
    (hgs : s.cfg.globalSst = true) (b : Bool) :
    StepG rc dflt s { s with sst := t, hasLocalSst := b } := by
  have hg : Grow rc s { s with sst := t, hasLocalSst := b } :=
    ⟨rfl, rfl, fun _ _ h => h, fun _ _ h => h, hg, by rw [hgs]; simp, fun _ => rfl, DimsLe.refl _, fun _ => ⟨rfl, rfl⟩⟩
  exact ⟨h.frame ⟨h.xf.loc, h.xf.fmts, h.xf.glob, h.xf.loc0, h.xf.glob0⟩ ht hg rfl rfl rfl rfl rfl, hg⟩

theorem Gen.rowOpt (h : Gen dflt s) (r : Nat) (o : RowOpt Fmt) (ho : (s.fmtOf o.xf).isSome) :
    StepG true dflt s { s with changedRows := s.changedRows.insert r o } := by
  have hg : Grow true s { s with changedRows := s.changedRows.insert r o } :=
    ⟨rfl, rfl, fun _ _ h => h, fun _ _ h => h, fun _ _ h => h, fun _ => rfl, fun _ => rfl, DimsLe.refl _, fun e => by cases e⟩
  refine ⟨⟨⟨h.xf.loc, h.xf.fmts, h.xf.glob, h.xf.loc0, h.xf.glob0⟩, h.sst, h.table.imp fun c hc => hc.mono hg,
    h.ahead.imp fun c hc => hc.mono hg, fun ro hro => (h.out ro hro).mono hg, sorted_insert _ _ _ h.rowsS,
    h.colsS, ?_, h.colsV⟩, hg⟩
  intro r' o' hr
  simp only [get_insert _ _ _ h.rowsS] at hr
  split at hr
  · cases hr; exact ho
  · exact h.rowsV r' o' hr

theorem Gen.colOpt (h : Gen dflt s) (c : Nat) (o : ColOpt Fmt) (ho : (s.fmtOf o.xf).isSome) :
    StepG true dflt s { s with changedCols := s.changedCols.insert c o } := by
  have hg : Grow true s { s with changedCols := s.changedCols.insert c o } :=
    ⟨rfl, rfl, fun _ _ h => h, fun _ _ h => h, fun _ _ h => h, fun _ => rfl, fun _ => rfl, DimsLe.refl _, fun e => by cases e⟩
  refine ⟨⟨⟨h.xf.loc, h.xf.fmts, h.xf.glob, h.xf.loc0, h.xf.glob0⟩, h.sst, h.table.imp fun c hc => hc.mono hg,
    h.ahead.imp fun c hc => hc.mono hg, fun ro hro => (h.out ro hro).mono hg, h.rowsS,
    sorted_insert _ _ _ h.colsS, h.rowsV, ?_⟩, hg⟩
  intro r' o' hr
  simp only [get_insert _ _ _ h.colsS] at hr
  split at hr
  · cases hr; exact ho
  · exact h.colsV r' o' hr

/-! ### The API calls -/

theorem checkDimensions_cases (s : Sheet Fmt) (r c : Nat) :
    (s.checkDimensions r c = (false, s)) ∨
    (∃ d, DimsLe s.dims d ∧ s.checkDimensions r c = (true, { s with dims := d })) := by
  unfold Sheet.checkDimensions
  split
  · exact Or.inl rfl
  · split
    · exact Or.inl rfl
    · refine Or.inr ⟨_, ?_, rfl⟩
      unfold DimsLe
      dsimp only
      split
      · split <;> dsimp only <;> omega
      · dsimp only; omega

theorem checkDimensions_fst (s : Sheet Fmt) (r c : Nat) : (s.checkDimensions r c).1 = inGrid r c := by
  unfold Sheet.checkDimensions inGrid ROW_MAX COL_MAX
  split
  · simp; omega
  · split
    · simp; omega
    · simp; omega

theorem Gen.storeBlank (h : Gen dflt s) (r c : Nat) (f : Fmt) : StepG rc dflt s (s.storeBlank r c f).2 := by
  unfold Sheet.storeBlank
  rcases checkDimensions_cases s r c with e | ⟨d, hd, e⟩
  · rw [e]; exact StepG.refl h
  · rw [e]
    refine (h.dims d hd).trans fun h1 => ?_
    generalize ({ s with dims := d } : Sheet Fmt) = s1 at h1 ⊢
    refine (h1.formatXf f).trans fun h2 => ?_
    show StepG rc dflt (s1.formatXfIndex f).2 (Sheet.insertCell (if (s1.formatXfIndex f).1 = 0 then
        (s1.formatXfIndex f).2.rowColFormat r c else ((s1.formatXfIndex f).1, (s1.formatXfIndex f).2)).2
        r c (.blank (if (s1.formatXfIndex f).1 = 0 then
        (s1.formatXfIndex f).2.rowColFormat r c else ((s1.formatXfIndex f).1, (s1.formatXfIndex f).2)).1))
    by_cases hz : (s1.formatXfIndex f).1 = 0
    · simp only [if_pos hz]
      refine (h2.rowCol r c).trans fun h3 => h3.insertCell r c ⟨trivial, ?_⟩
      exact (rowColFormat_spec h2.xf r c).2.2.1
    · simp only [if_neg hz]
      refine h2.insertCell r c ⟨trivial, ?_⟩
      simp only [Cell.xf]; rw [(formatXfIndex_spec h1.xf f).2.2]; rfl

theorem Gen.storeString (h : Gen dflt s) (r c : Nat) (str : Str) (fo : Option Fmt) :
    StepG rc dflt s (s.storeString r c str fo).2 := by
  unfold Sheet.storeString
  split
  · cases fo with
    | some f => exact h.storeBlank r c f
    | none => exact StepG.refl h
  · rcases checkDimensions_cases s r c with e | ⟨d, hd, e⟩
    · rw [e]; exact StepG.refl h
    · rw [e]
      refine (h.dims d hd).trans fun h1 => ?_
      generalize ({ s with dims := d } : Sheet Fmt) = s1 at h1 ⊢
      simp only
      split
      · exact StepG.refl h1
      · refine (h1.xfFor r c fo).trans fun h2 => ?_
        have hv := (xfFor_spec h1.xf r c fo).2.2.1
        split
        · exact h2.insertCell r c ⟨trivial, hv⟩
        · by_cases hgl : (s1.xfFor r c fo).2.cfg.globalSst = true
          · simp only [if_pos hgl]
            have hsp := sstIndex_spec h2.sst str
            refine (h2.setSst hsp.1 hsp.2.1 hgl true).trans fun h3 => ?_
            exact h3.insertCell r c ⟨hsp.2.2.1, hv⟩
          · simp only [if_neg hgl]
            exact (h2.flags _ true _).trans fun h3 => h3.insertCell r c ⟨trivial, hv⟩

theorem Gen.storeRich (h : Gen dflt s) (r c : Nat) (str raw : Str) (fo : Option Fmt) :
    StepG rc dflt s (s.storeRich r c str raw fo).2 := by
  unfold Sheet.storeRich
  split
  · cases fo with
    | some f => exact h.storeBlank r c f
    | none => exact StepG.refl h
  · rcases checkDimensions_cases s r c with e | ⟨d, hd, e⟩
    · rw [e]; exact StepG.refl h
    · rw [e]
      refine (h.dims d hd).trans fun h1 => ?_
      generalize ({ s with dims := d } : Sheet Fmt) = s1 at h1 ⊢
      simp only
      split
      · exact StepG.refl h1
      · refine (h1.xfFor r c fo).trans fun h2 => ?_
        have hv := (xfFor_spec h1.xf r c fo).2.2.1
        have hflag : ∀ s' : Sheet Fmt, Gen dflt s' → StepG rc dflt s' (if s'.cfg.inlineStrings = true then s'
            else { s' with hasLocalSst := true }) := by
          intro s' hs'
          split
          · exact StepG.refl hs'
          · exact hs'.flags _ _ _
        by_cases hgl : (s1.xfFor r c fo).2.cfg.globalSst = true
        · simp only [if_pos hgl]
          have hsp := sstIndex_spec h2.sst str
          refine (h2.setSst hsp.1 hsp.2.1 hgl (s1.xfFor r c fo).2.hasLocalSst).trans fun h3 => ?_
          refine StepG.trans (h3.insertCell r c (cell := .rich str raw _ (some _)) ⟨hsp.2.2.1, hv⟩) fun h4 => ?_
          exact hflag _ h4
        · simp only [if_neg hgl]
          refine StepG.trans (h2.insertCell r c (cell := .rich str raw _ none) ⟨trivial, hv⟩) fun h4 => ?_
          exact hflag _ h4

theorem Gen.storeNumberType (h : Gen dflt s) (r c : Nat) (n : F64) (fo : Option Fmt) (b : Bool) :
    StepG rc dflt s (s.storeNumberType r c n fo b).2 := by
  unfold Sheet.storeNumberType
  rcases checkDimensions_cases s r c with e | ⟨d, hd, e⟩
  · rw [e]; exact StepG.refl h
  · rw [e]
    refine (h.dims d hd).trans fun h1 => ?_
    generalize ({ s with dims := d } : Sheet Fmt) = s1 at h1 ⊢
    cases n with
    | nan => exact h1.storeString r c _ fo
    | posInf => exact h1.storeString r c _ fo
    | negInf => exact h1.storeString r c _ fo
    | finite t =>
      refine (h1.xfFor r c fo).trans fun h2 => ?_
      have hv := (xfFor_spec h1.xf r c fo).2.2.1
      refine h2.insertCell r c ?_
      cases b
      · exact ⟨trivial, hv⟩
      · exact ⟨trivial, hv⟩

theorem gen_forEach {α : Type} (l : List α) (f : α → Sheet Fmt → Res Fmt)
    (hf : ∀ a ∈ l, ∀ s, Gen dflt s → StepG rc dflt s (f a s).2) (h : Gen dflt s) :
    StepG rc dflt s (forEach l f s).2 := by
  induction l generalizing s with
  | nil => exact StepG.refl h
  | cons a l ih =>
    simp only [forEach, Res.andThen]
    have h1 := hf a List.mem_cons_self s h
    split
    · exact h1
    · exact h1.trans fun h' => ih (fun b hb => hf b (List.mem_cons_of_mem _ hb)) h'

theorem gen_andThen {r : Res Fmt} {f : Sheet Fmt → Res Fmt} (h : StepG rc dflt s r.2)
    (hf : ∀ s', Gen dflt s' → StepG rc dflt s' (f s').2) : StepG rc dflt s (Res.andThen r f).2 := by
  unfold Res.andThen
  split
  · exact h
  · exact h.trans fun h' => hf _ h'

theorem Gen.storeArray (h : Gen dflt s) (r1 c1 r2 c2 : Nat) (fa : FormulaArg) (fo : Option Fmt) (b : Bool) :
    StepG rc dflt s (s.storeArrayFormula r1 c1 r2 c2 fa fo b).2 := by
  unfold Sheet.storeArrayFormula
  rcases checkDimensions_cases s r1 c1 with e | ⟨d, hd, e⟩
  · rw [e]; exact StepG.refl h
  · rw [e]
    refine (h.dims d hd).trans fun h1 => ?_
    generalize ({ s with dims := d } : Sheet Fmt) = s1 at h1 ⊢
    simp only
    rcases checkDimensions_cases s1 r2 c2 with e | ⟨d, hd, e⟩
    · rw [e]; exact StepG.refl h1
    · rw [e]
      refine (h1.dims d hd).trans fun h2 => ?_
      generalize ({ s1 with dims := d } : Sheet Fmt) = s2 at h2 ⊢
      simp only
      split
      · exact StepG.refl h2
      · refine (h2.xfFor r1 c1 fo).trans fun h3 => ?_
        have hv := (xfFor_spec h2.xf r1 c1 fo).2.2.1
        generalize (if fa.result = [] then (s2.xfFor r1 c1 fo).2.cfg.defaultResult else fa.result) = res
        refine StepG.trans (h3.insertCell r1 c1 (cell := .arrayFormula fa.text res _ (b || fa.dynamic) (cellRange r1 c1 r2 c2)) ⟨trivial, hv⟩) fun h4 => ?_
        have hfl := gen_forEach (rc := rc) (List.range' (c1 + 1) (c2 - c1))
            (fun c s => s.storeNumberType r1 c (.finite "0".toList) fo false)
            (fun a _ s hs => hs.storeNumberType r1 a _ fo false) h4
        have key : ∀ s' : Sheet Fmt, Gen dflt s' → StepG rc dflt s' (Res.andThen
              (forEach (List.range' (r1 + 1) (r2 - r1))
                (fun r s => forEach (List.range' c1 (c2 + 1 - c1))
                  (fun c s => s.storeNumberType r c (.finite "0".toList) fo false) s) s')
              fun s => (none, if s.cfg.constMem = true then { s with writingAhead := false } else s)).2 := by
          intro s' hs'
          have h5 := gen_forEach (rc := rc) (List.range' (r1 + 1) (r2 - r1))
            (fun r s => forEach (List.range' c1 (c2 + 1 - c1))
                  (fun c s => s.storeNumberType r c (.finite "0".toList) fo false) s)
            (fun a _ s hs => gen_forEach _ _ (fun b _ s hs => hs.storeNumberType a b _ fo false) hs) hs'
          simp only [Res.andThen]
          split
          · exact h5
          · refine h5.trans fun h6 => ?_
            simp only
            split
            · exact h6.flags _ _ _
            · exact StepG.refl h6
        refine gen_andThen hfl fun s' h5 => ?_
        by_cases hcm : s'.cfg.constMem = true
        · simp only [if_pos hcm]
          exact (h5.flags true _ _).trans fun h6 => key _ h6
        · simp only [if_neg hcm]
          exact key _ h5

theorem Gen.storeFormula (h : Gen dflt s) (r c : Nat) (fa : FormulaArg) (fo : Option Fmt) :
    StepG rc dflt s (s.storeFormula r c fa fo).2 := by
  unfold Sheet.storeFormula
  split
  · exact h.storeArray r c r c fa none true
  · rcases checkDimensions_cases s r c with e | ⟨d, hd, e⟩
    · rw [e]; exact StepG.refl h
    · rw [e]
      refine (h.dims d hd).trans fun h1 => ?_
      generalize ({ s with dims := d } : Sheet Fmt) = s1 at h1 ⊢
      exact (h1.xfFor r c fo).trans fun h2 =>
        h2.insertCell r c ⟨trivial, (xfFor_spec h1.xf r c fo).2.2.1⟩

theorem Gen.storeBoolean (h : Gen dflt s) (r c : Nat) (b : Bool) (fo : Option Fmt) :
    StepG rc dflt s (s.storeBoolean r c b fo).2 := by
  unfold Sheet.storeBoolean
  rcases checkDimensions_cases s r c with e | ⟨d, hd, e⟩
  · rw [e]; exact StepG.refl h
  · rw [e]
    refine (h.dims d hd).trans fun h1 => ?_
    generalize ({ s with dims := d } : Sheet Fmt) = s1 at h1 ⊢
    exact (h1.xfFor r c fo).trans fun h2 =>
      h2.insertCell r c ⟨trivial, (xfFor_spec h1.xf r c fo).2.2.1⟩

theorem Gen.insertCellFormat (h : Gen dflt s) (r c xf : Nat) (hx : (s.fmtOf xf).isSome) :
    StepG rc dflt s (s.insertCellFormat r c xf) := by
  unfold Sheet.insertCellFormat
  split
  · rename_i cols hcols
    split
    · rename_i cell hcell
      refine h.setTable (h.table.insertRow ?_)
      intro p hp
      rcases mem_insert hp with rfl | hp
      · have := h.table.get hcols _ (mem_of_get hcell)
        exact ⟨this.1.setXf xf, by rw [xf_setXf]; exact hx⟩
      · exact h.table.get hcols p hp
    · refine h.setTable (h.table.insertRow ?_)
      intro p hp
      rcases mem_insert hp with rfl | hp
      · exact ⟨trivial, hx⟩
      · exact h.table.get hcols p hp
  · split
    · refine h.setTable (h.table.insertRow ?_)
      intro p hp
      simp at hp; subst hp
      exact ⟨trivial, hx⟩
    · exact StepG.refl h

theorem gen_foldl {α : Type} (xf : Nat) (l : List α) (f : Sheet Fmt → α → Sheet Fmt)
    (hf : ∀ a ∈ l, ∀ s, Gen dflt s → (s.fmtOf xf).isSome → StepG rc dflt s (f s a))
    (h : Gen dflt s) (hx : (s.fmtOf xf).isSome) : StepG rc dflt s (l.foldl f s) := by
  induction l generalizing s with
  | nil => exact StepG.refl h
  | cons a l ih =>
    have h1 := hf a List.mem_cons_self s h hx
    exact h1.trans fun h' => ih (fun b hb => hf b (List.mem_cons_of_mem _ hb)) h' (isSome_mono h1.2.fmt hx)

/-- Calls that change row or column settings. -/
def Op.isRowCol : Op Fmt → Bool
  | .rowFormat .. | .columnFormat .. | .rowHeight .. | .rowHidden .. => true
  | _ => false

/-- Every API call, in every mode, keeps the invariant and only grows the tables. -/
theorem Gen.exec (h : Gen dflt s) (op : Op Fmt) : StepG op.isRowCol dflt s (s.exec op).2 := by
  cases op with
  | number r c n f => exact h.storeNumberType r c n f false
  | dateTime r c n f => exact h.storeNumberType r c n f true
  | string r c t f => exact h.storeString r c t f
  | rich r c t raw f => exact h.storeRich r c t raw f
  | formula r c fa f => exact h.storeFormula r c fa f
  | arrayFormula r1 c1 r2 c2 fa f d => exact h.storeArray r1 c1 r2 c2 fa f d
  | blank r c f => exact h.storeBlank r c f
  | boolean r c b f => exact h.storeBoolean r c b f
  | cellFormat r c f =>
    show StepG false dflt s (s.setCellFormat r c f).2
    unfold Sheet.setCellFormat
    rcases checkDimensions_cases s r c with e | ⟨d, hd, e⟩
    · rw [e]; exact StepG.refl h
    · rw [e]
      refine (h.dims d hd).trans fun h1 => ?_
      generalize ({ s with dims := d } : Sheet Fmt) = s1 at h1 ⊢
      refine (h1.formatXf f).trans fun h2 => h2.insertCellFormat r c _ ?_
      rw [(formatXfIndex_spec h1.xf f).2.2]; rfl
  | rangeFormat r1 c1 r2 c2 f =>
    show StepG false dflt s (s.setRangeFormat r1 c1 r2 c2 f).2
    unfold Sheet.setRangeFormat
    split
    · exact StepG.refl h
    · split
      · exact StepG.refl h
      · refine (h.formatXf f).trans fun h1 => ?_
        have hx : ((s.formatXfIndex f).2.fmtOf (s.formatXfIndex f).1).isSome := by
          rw [(formatXfIndex_spec h.xf f).2.2]; rfl
        exact gen_foldl _ _ _ (fun a _ s hs hx => gen_foldl _ _ _
          (fun b _ s hs hx => hs.insertCellFormat a b _ hx) hs hx) h1 hx
  | clearCell r c =>
    show StepG false dflt s (s.clearCell r c)
    unfold Sheet.clearCell
    split
    · exact StepG.refl h
    · split
      · exact StepG.refl h
      · rename_i cols hcols
        refine h.setTable (h.table.insertRow ?_)
        intro p hp
        exact h.table.get hcols p (mem_remove hp)
  | clearFormat r c =>
    show StepG false dflt s (s.clearCellFormat r c)
    unfold Sheet.clearCellFormat
    split
    · exact StepG.refl h
    · split
      · exact StepG.refl h
      · rename_i cols hcols
        split
        · exact StepG.refl h
        · rename_i cell hcell
          refine h.setTable (h.table.insertRow ?_)
          intro p hp
          rcases mem_insert hp with rfl | hp
          · have := h.table.get hcols _ (mem_of_get hcell)
            refine ⟨this.1.setXf 0, by rw [xf_setXf, h.xf.fmtOf_zero]; rfl⟩
          · exact h.table.get hcols p hp
  | rowFormat r f =>
    show StepG true dflt s (s.setRowFormat r f).2
    unfold Sheet.setRowFormat
    rcases checkDimensions_cases s r s.getMinCol with e | ⟨d, hd, e⟩
    · rw [e]; exact StepG.refl h
    · rw [e]
      refine (h.dims d hd).trans fun h1 => ?_
      generalize ({ s with dims := d } : Sheet Fmt) = s1 at h1 ⊢
      refine (h1.formatXf f).trans fun h2 => ?_
      have hx : ((s1.formatXfIndex f).2.fmtOf (s1.formatXfIndex f).1).isSome := by
        rw [(formatXfIndex_spec h1.xf f).2.2]; rfl
      simp only
      split <;> exact h2.rowOpt r _ hx
  | columnFormat c f =>
    show StepG true dflt s (s.setColumnFormat c f).2
    unfold Sheet.setColumnFormat
    rcases checkDimensions_cases s s.getMinRow c with e | ⟨d, hd, e⟩
    · rw [e]; exact StepG.refl h
    · rw [e]
      refine (h.dims d hd).trans fun h1 => ?_
      generalize ({ s with dims := d } : Sheet Fmt) = s1 at h1 ⊢
      refine (h1.formatXf f).trans fun h2 => ?_
      have hx : ((s1.formatXfIndex f).2.fmtOf (s1.formatXfIndex f).1).isSome := by
        rw [(formatXfIndex_spec h1.xf f).2.2]; rfl
      simp only
      split <;> exact h2.colOpt c _ hx
  | rowHeight r ht =>
    show StepG true dflt s (s.setRowHeight r ht).2
    unfold Sheet.setRowHeight
    rcases checkDimensions_cases s r s.getMinCol with e | ⟨d, hd, e⟩
    · rw [e]; exact StepG.refl h
    · rw [e]
      refine (h.dims d hd).trans fun h1 => ?_
      generalize ({ s with dims := d } : Sheet Fmt) = s1 at h1 ⊢
      simp only
      split
      · rename_i o ho; exact h1.rowOpt r _ (h1.rowsV r o ho)
      · exact h1.rowOpt r _ (by simp only; rw [h1.xf.fmtOf_zero]; rfl)
  | rowHidden r =>
    show StepG true dflt s (s.setRowHidden r).2
    unfold Sheet.setRowHidden
    rcases checkDimensions_cases s r s.getMinCol with e | ⟨d, hd, e⟩
    · rw [e]; exact StepG.refl h
    · rw [e]
      refine (h.dims d hd).trans fun h1 => ?_
      generalize ({ s with dims := d } : Sheet Fmt) = s1 at h1 ⊢
      simp only
      split
      · rename_i o ho; exact h1.rowOpt r _ (h1.rowsV r o ho)
      · exact h1.rowOpt r _ (by simp only; rw [h1.xf.fmtOf_zero]; rfl)
  | note r c t =>
    show StepG false dflt s (s.insertNote r c t).2
    unfold Sheet.insertNote
    rcases checkDimensions_cases s r c with e | ⟨d, hd, e⟩
    · rw [e]; exact StepG.refl h
    · rw [e]
      refine (h.dims d hd).trans fun h1 => ?_
      generalize ({ s with dims := d } : Sheet Fmt) = s1 at h1 ⊢
      simp only
      split
      · exact StepG.refl h1
      · split
        · exact h1.flags _ _ _
        · exact h1.flags _ _ _

theorem Gen.new (cfg : Cfg) (merge : Fmt → Fmt → Fmt) (dflt : Fmt) : Gen dflt (Sheet.new cfg merge dflt) := by
  refine ⟨⟨tblInv_single _, rfl, tblInv_single _, rfl, rfl⟩, SstInv.new, ?_, ?_, ?_,
    by simp [Sheet.new, Sorted], by simp [Sheet.new, Sorted], ?_, ?_⟩
  · intro q hq; simp [Sheet.new] at hq
  · intro q hq; simp [Sheet.new] at hq
  · intro q hq; simp [Sheet.new] at hq
  · intro r o h; simp [Sheet.new, BMap.get] at h
  · intro r o h; simp [Sheet.new, BMap.get] at h

end
end Verif
