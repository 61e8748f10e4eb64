import Verif.Lemmas.RowRead
import Verif.Lemmas.SavedAll
/-!
Every stored and written cell holds text that the file can carry, when the calls gave such texts.
-/
set_option linter.unusedSectionVars false
set_option linter.unusedSimpArgs false
namespace Verif
open BMap Spec
variable {Fmt : Type} [DecidableEq Fmt]

/-- The content of a cell can be written. -/
def CellGood (c : Cell) : Prop := contentOk c.content

/-- Every text in the worksheet can be written. -/
structure Hold (cfg : Cfg) (s : Sheet Fmt) : Prop where
  cfgEq : s.cfg = cfg
  dh : s.defaultHeight = DEFAULT_ROW_HEIGHT
  table : TblAll CellGood s.table
  ahead : TblAll CellGood s.writeAhead
  out : ∀ ro ∈ s.out, (∀ p ∈ ro.cells.getD [], CellGood p.2.1 ∧ p.2.1.isWritten cfg.constMem = true) ∧
    ∀ o, ro.opt = some o → attrSafe o.height = true
  keys : ∀ p ∈ s.sst.strings, keyOk p.1
  rows : ∀ q ∈ s.changedRows, attrSafe q.2.height = true

variable {cfg : Cfg} {s : Sheet Fmt}

theorem Hold.frame (h : Hold cfg s) {s' : Sheet Fmt} (h1 : s'.cfg = s.cfg) (h2 : s'.defaultHeight = s.defaultHeight)
    (h3 : s'.table = s.table) (h4 : s'.writeAhead = s.writeAhead) (h5 : s'.out = s.out) (h6 : s'.sst = s.sst)
    (h7 : s'.changedRows = s.changedRows) : Hold cfg s' :=
  ⟨h1 ▸ h.cfgEq, h2 ▸ h.dh, h3 ▸ h.table, h4 ▸ h.ahead, h5 ▸ h.out, h6 ▸ h.keys, h7 ▸ h.rows⟩

theorem Hold.formatXf (h : Hold cfg s) (f : Fmt) : Hold cfg (s.formatXfIndex f).2 := by
  unfold Sheet.formatXfIndex
  split <;> split <;> first | exact h | exact h.frame rfl rfl rfl rfl rfl rfl rfl

theorem Hold.rowCol (h : Hold cfg s) (r c : Nat) : Hold cfg (s.rowColFormat r c).2 := by
  unfold Sheet.rowColFormat
  repeat (first | exact h | exact h.formatXf _ | split)

theorem Hold.xfFor (h : Hold cfg s) (r c : Nat) (f : Option Fmt) : Hold cfg (s.xfFor r c f).2 := by
  cases f with
  | some f => exact h.formatXf f
  | none => exact h.rowCol r c

theorem Hold.writeCells (h : Hold cfg s) {cols : BMap Cell} (hc : ∀ p ∈ cols, CellGood p.2) (ro : Option (RowOpt Fmt)) :
    ∀ p ∈ s.writeCells ro cols, CellGood p.2.1 ∧ p.2.1.isWritten cfg.constMem = true := by
  intro p hp
  simp only [Sheet.writeCells, List.mem_map, List.mem_filter] at hp
  obtain ⟨a, ⟨ha, hw⟩, rfl⟩ := hp
  exact ⟨hc a ha, h.cfgEq ▸ hw⟩

theorem Hold.flushDataRow (h : Hold cfg s) (next : Nat) : Hold cfg (s.flushDataRow next) := by
  unfold Sheet.flushDataRow
  have ho : ∀ o, s.changedRows.get s.currentRow = some o → attrSafe o.height = true :=
    fun o ho => h.rows _ (mem_of_get ho)
  refine ⟨h.cfgEq, h.dh, ?_, ?_, ?_, h.keys, h.rows⟩
  · intro q hq p hp
    have hq' : q ∈ (match s.writeAhead.get next with
      | some columns => [(next, columns)]
      | none => []) := hq
    cases hw : s.writeAhead.get next with
    | none => rw [hw] at hq'; cases hq'
    | some cols =>
      rw [hw] at hq'
      cases List.mem_singleton.mp hq'
      exact h.ahead.get hw p hp
  · intro q hq p hp
    exact h.ahead q (mem_remove hq) p hp
  · intro ro hro
    simp only at hro
    split at hro
    · split at hro
      · rcases List.mem_append.mp hro with hro | hro
        · exact h.out ro hro
        · simp at hro; subst hro; exact ⟨by intro p hp; simp at hp, ho⟩
      · exact h.out ro hro
    · rename_i cols hcols
      rcases List.mem_append.mp hro with hro | hro
      · exact h.out ro hro
      · simp at hro; subst hro
        exact ⟨h.writeCells (h.table.get hcols) _, ho⟩

theorem Hold.flushRows (l : List Nat) (h : Hold cfg s) : Hold cfg (l.foldl Sheet.flushDataRow s) := by
  induction l generalizing s with
  | nil => exact h
  | cons a l ih => exact ih (h.flushDataRow a)

theorem Hold.setTable (h : Hold cfg s) {t : BMap (BMap Cell)} (ht : TblAll CellGood t) : Hold cfg { s with table := t } :=
  ⟨h.cfgEq, h.dh, ht, h.ahead, h.out, h.keys, h.rows⟩

theorem Hold.insertCell (h : Hold cfg s) (r c : Nat) {cell : Cell} (hc : CellGood cell) : Hold cfg (s.insertCell r c cell) := by
  unfold Sheet.insertCell
  split
  · split
    · exact h
    · split
      · split
        · exact ⟨h.cfgEq, h.dh, h.table, h.ahead.insertCellToTable r c hc, h.out, h.keys, h.rows⟩
        · have h' : Hold cfg (s.flushToRow r) := (h.flushRows _).flushDataRow r
          exact h'.setTable (h'.table.insertCellToTable r c hc)
      · exact h.setTable (h.table.insertCellToTable r c hc)
  · exact h.setTable (h.table.insertCellToTable r c hc)

theorem Hold.setSst (h : Hold cfg s) {t : SST} (ht : ∀ p ∈ t.strings, keyOk p.1) (b : Bool) :
    Hold cfg { s with sst := t, hasLocalSst := b } :=
  ⟨h.cfgEq, h.dh, h.table, h.ahead, h.out, ht, h.rows⟩

theorem index_keys {t : SST} (ht : ∀ p ∈ t.strings, keyOk p.1) {k : Str} (hk : keyOk k) :
    ∀ p ∈ (t.index k).2.strings, keyOk p.1 := by
  unfold SST.index
  split
  · exact ht
  · intro p hp
    rcases List.mem_cons.mp hp with rfl | hp
    · exact hk
    · exact ht p hp

theorem Hold.dims (h : Hold cfg s) (d : Dims) : Hold cfg { s with dims := d } := h.frame rfl rfl rfl rfl rfl rfl rfl

theorem Hold.storeBlank (h : Hold cfg s) (r c : Nat) (f : Fmt) : Hold cfg (s.storeBlank r c f).2 := by
  unfold Sheet.storeBlank
  rcases checkDimensions_cases s r c with e | ⟨d, hd, e⟩
  · rw [e]; exact h
  · rw [e]
    have h1 := (h.dims d).formatXf f
    generalize ({ s with dims := d } : Sheet Fmt) = s1 at h1
    show Hold cfg (Sheet.insertCell (if (s1.formatXfIndex f).1 = 0 then
        (s1.formatXfIndex f).2.rowColFormat r c else ((s1.formatXfIndex f).1, (s1.formatXfIndex f).2)).2
        r c (.blank (if (s1.formatXfIndex f).1 = 0 then
        (s1.formatXfIndex f).2.rowColFormat r c else ((s1.formatXfIndex f).1, (s1.formatXfIndex f).2)).1))
    by_cases hz : (s1.formatXfIndex f).1 = 0
    · simp only [if_pos hz]
      exact (h1.rowCol r c).insertCell r c trivial
    · simp only [if_neg hz]
      exact h1.insertCell r c trivial

theorem Hold.storeString (h : Hold cfg s) (r c : Nat) {str : Str} (hs : plainOk str) (fo : Option Fmt) :
    Hold cfg (s.storeString r c str fo).2 := by
  unfold Sheet.storeString
  split
  · cases fo with
    | some f => exact h.storeBlank r c f
    | none => exact h
  · rcases checkDimensions_cases s r c with e | ⟨d, hd, e⟩
    · rw [e]; exact h
    · rw [e]
      have h1 := h.dims d
      generalize ({ s with dims := d } : Sheet Fmt) = s1 at h1
      simp only
      split
      · exact h1
      · have h2 := h1.xfFor r c fo
        split
        · exact h2.insertCell r c hs
        · by_cases hgl : (s1.xfFor r c fo).2.cfg.globalSst = true
          · simp only [if_pos hgl]
            exact (h2.setSst (index_keys h2.keys (Or.inl hs)) true).insertCell r c hs
          · simp only [if_neg hgl]
            exact (h2.setSst h2.keys true).insertCell r c hs

theorem Hold.storeRich (h : Hold cfg s) (r c : Nat) {str raw : Str} (hs : contentOk (.rich str raw)) (fo : Option Fmt) :
    Hold cfg (s.storeRich r c str raw fo).2 := by
  unfold Sheet.storeRich
  split
  · cases fo with
    | some f => exact h.storeBlank r c f
    | none => exact h
  · rcases checkDimensions_cases s r c with e | ⟨d, hd, e⟩
    · rw [e]; exact h
    · rw [e]
      have h1 := h.dims d
      generalize ({ s with dims := d } : Sheet Fmt) = s1 at h1
      simp only
      split
      · exact h1
      · have h2 := h1.xfFor r c fo
        have hflag : ∀ s' : Sheet Fmt, Hold cfg s' → Hold cfg (if s'.cfg.inlineStrings = true then s'
            else { s' with hasLocalSst := true }) := by
          intro s' hs'
          split
          · exact hs'
          · exact hs'.frame rfl rfl rfl rfl rfl rfl rfl
        have hk : keyOk str := by
          obtain ⟨segs, g1, g2⟩ := hs
          exact Or.inr ⟨segs, raw, g1, g2⟩
        by_cases hgl : (s1.xfFor r c fo).2.cfg.globalSst = true
        · simp only [if_pos hgl]
          exact hflag _ (((h2.setSst (index_keys h2.keys hk) (s1.xfFor r c fo).2.hasLocalSst)).insertCell r c
            (cell := .rich str raw _ (some _)) hs)
        · simp only [if_neg hgl]
          exact hflag _ (h2.insertCell r c (cell := .rich str raw _ none) hs)

theorem Hold.storeNumber (h : Hold cfg s) (r c : Nat) {n : F64} (hn : numberOk cfg n) (fo : Option Fmt) (b : Bool) :
    Hold cfg (s.storeNumberType r c n fo b).2 := by
  unfold Sheet.storeNumberType
  rcases checkDimensions_cases s r c with e | ⟨d, hd, e⟩
  · rw [e]; exact h
  · rw [e]
    have h1 := h.dims d
    have hcfg := h1.cfgEq
    generalize ({ s with dims := d } : Sheet Fmt) = s1 at h1 hcfg
    cases n with
    | nan => exact h1.storeString r c (by rw [hcfg]; exact hn) fo
    | posInf => exact h1.storeString r c (by rw [hcfg]; exact hn) fo
    | negInf => exact h1.storeString r c (by rw [hcfg]; exact hn) fo
    | finite t =>
      refine (h1.xfFor r c fo).insertCell r c ?_
      cases b
      · exact hn
      · exact hn

theorem hold_forEach {α : Type} (l : List α) (f : α → Sheet Fmt → Res Fmt)
    (hf : ∀ a ∈ l, ∀ s, Hold cfg s → Hold cfg (f a s).2) (h : Hold cfg s) : Hold cfg (forEach l f s).2 := by
  induction l generalizing s with
  | nil => exact h
  | cons a l ih =>
    simp only [forEach, Res.andThen]
    have h1 := hf a List.mem_cons_self s h
    split
    · exact h1
    · exact ih (fun b hb => hf b (List.mem_cons_of_mem _ hb)) h1

theorem hold_andThen {r : Res Fmt} {f : Sheet Fmt → Res Fmt} (h : Hold cfg r.2)
    (hf : ∀ s', Hold cfg s' → Hold cfg (f s').2) : Hold cfg (Res.andThen r f).2 := by
  unfold Res.andThen
  split
  · exact h
  · exact hf _ h

theorem ref_plain (r c : Nat) : (rowColToCell r c).all (fun x => isLetter x || isDigit x || x = ':') = true := by
  unfold rowColToCell
  rw [List.all_append, Bool.and_eq_true, List.all_eq_true, List.all_eq_true]
  constructor
  · intro x hx
    simp [List.all_eq_true.mp (columnName_all c) x hx]
  · intro x hx
    simp [showNat_isDigit hx]

theorem cellRange_plain (r1 c1 r2 c2 : Nat) :
    (cellRange r1 c1 r2 c2).all (fun x => isLetter x || isDigit x || x = ':') = true := by
  unfold cellRange
  simp only
  split
  · exact ref_plain _ _
  · rw [List.all_append, List.all_cons, ref_plain, ref_plain]; rfl

theorem zero_ok : numberOk cfg (.finite "0".toList) := show isDecimal "0".toList = true by decide

theorem Hold.storeArray (h : Hold cfg s) (r1 c1 r2 c2 : Nat) {fa : FormulaArg} (hfa : formulaOk cfg fa) (fo : Option Fmt)
    (b : Bool) : Hold cfg (s.storeArrayFormula r1 c1 r2 c2 fa fo b).2 := by
  unfold Sheet.storeArrayFormula
  rcases checkDimensions_cases s r1 c1 with e | ⟨d, hd, e⟩
  · rw [e]; exact h
  · rw [e]
    have h1 := h.dims d
    generalize ({ s with dims := d } : Sheet Fmt) = s1 at h1
    simp only
    rcases checkDimensions_cases s1 r2 c2 with e | ⟨d, hd, e⟩
    · rw [e]; exact h1
    · rw [e]
      have h2 := h1.dims d
      generalize ({ s1 with dims := d } : Sheet Fmt) = s2 at h2
      simp only
      split
      · exact h2
      · have h3 := h2.xfFor r1 c1 fo
        have hres : (if fa.result = [] then (s2.xfFor r1 c1 fo).2.cfg.defaultResult else fa.result) = resultOf cfg fa := by
          rw [h3.cfgEq]; rfl
        rw [hres]
        have h4 := h3.insertCell r1 c1 (cell := .arrayFormula fa.text (resultOf cfg fa) (s2.xfFor r1 c1 fo).1
          (b || fa.dynamic) (cellRange r1 c1 r2 c2)) ⟨hfa.1, hfa.2.1, hfa.2.2, cellRange_plain _ _ _ _⟩
        have hfl := hold_forEach (List.range' (c1 + 1) (c2 - c1))
            (fun c s => s.storeNumberType r1 c (.finite "0".toList) fo false)
            (fun a _ s hs => hs.storeNumber r1 a zero_ok fo false) h4
        have key : ∀ s' : Sheet Fmt, Hold cfg s' → Hold cfg (Res.andThen
              (forEach (List.range' (r1 + 1) (r2 - r1))
                (fun r s => forEach (List.range' c1 (c2 + 1 - c1))
                  (fun c s => s.storeNumberType r c (.finite "0".toList) fo false) s) s')
              fun s => (none, if s.cfg.constMem = true then { s with writingAhead := false } else s)).2 := by
          intro s' hs'
          have h5 := hold_forEach (List.range' (r1 + 1) (r2 - r1))
            (fun r s => forEach (List.range' c1 (c2 + 1 - c1))
                  (fun c s => s.storeNumberType r c (.finite "0".toList) fo false) s)
            (fun a _ s hs => hold_forEach _ _ (fun b _ s hs => hs.storeNumber a b zero_ok fo false) hs) hs'
          refine hold_andThen h5 fun s6 h6 => ?_
          simp only
          split
          · exact h6.frame rfl rfl rfl rfl rfl rfl rfl
          · exact h6
        refine hold_andThen hfl fun s' h5 => ?_
        by_cases hcm : s'.cfg.constMem = true
        · simp only [if_pos hcm]
          exact key _ (h5.frame rfl rfl rfl rfl rfl rfl rfl)
        · simp only [if_neg hcm]
          exact key _ h5

theorem Hold.storeFormula (h : Hold cfg s) (r c : Nat) {fa : FormulaArg} (hfa : formulaOk cfg fa) (fo : Option Fmt) :
    Hold cfg (s.storeFormula r c fa fo).2 := by
  unfold Sheet.storeFormula
  split
  · exact h.storeArray r c r c hfa none true
  · rcases checkDimensions_cases s r c with e | ⟨d, hd, e⟩
    · rw [e]; exact h
    · rw [e]
      have h1 := h.dims d
      generalize ({ s with dims := d } : Sheet Fmt) = s1 at h1
      have h2 := h1.xfFor r c fo
      have hres : (if fa.result = [] then (s1.xfFor r c fo).2.cfg.defaultResult else fa.result) = resultOf cfg fa := by
        rw [h2.cfgEq]; rfl
      simp only
      rw [hres]
      exact h2.insertCell r c hfa

theorem Hold.storeBoolean (h : Hold cfg s) (r c : Nat) (b : Bool) (fo : Option Fmt) : Hold cfg (s.storeBoolean r c b fo).2 := by
  unfold Sheet.storeBoolean
  rcases checkDimensions_cases s r c with e | ⟨d, hd, e⟩
  · rw [e]; exact h
  · rw [e]; exact ((h.dims d).xfFor r c fo).insertCell r c trivial

theorem CellGood.setXf {c : Cell} (h : CellGood c) (x : Nat) : CellGood (c.setXf x) := by
  unfold CellGood at h ⊢; rw [content_setXf]; exact h

theorem Hold.insertCellFormat (h : Hold cfg s) (r c xf : Nat) : Hold cfg (s.insertCellFormat r c xf) := by
  unfold Sheet.insertCellFormat
  split
  · rename_i cols hcols
    split
    · rename_i cell hcell
      refine h.setTable (h.table.insertRow ?_)
      intro p hp
      rcases mem_insert hp with rfl | hp
      · exact (h.table.get hcols _ (mem_of_get hcell)).setXf xf
      · exact h.table.get hcols p hp
    · refine h.setTable (h.table.insertRow ?_)
      intro p hp
      rcases mem_insert hp with rfl | hp
      · exact trivial
      · exact h.table.get hcols p hp
  · split
    · refine h.setTable (h.table.insertRow ?_)
      intro p hp
      simp at hp; subst hp
      exact trivial
    · exact h

theorem hold_foldl {α : Type} (l : List α) (f : Sheet Fmt → α → Sheet Fmt) (hf : ∀ a ∈ l, ∀ s, Hold cfg s → Hold cfg (f s a))
    (h : Hold cfg s) : Hold cfg (l.foldl f s) := by
  induction l generalizing s with
  | nil => exact h
  | cons a l ih => exact ih (fun b hb => hf b (List.mem_cons_of_mem _ hb)) (hf a List.mem_cons_self s h)

theorem Hold.rowOpt (h : Hold cfg s) (r : Nat) (o : RowOpt Fmt) (ho : attrSafe o.height = true) :
    Hold cfg { s with changedRows := s.changedRows.insert r o } := by
  refine ⟨h.cfgEq, h.dh, h.table, h.ahead, h.out, h.keys, ?_⟩
  intro q hq
  rcases mem_insert hq with rfl | hq
  · exact ho
  · exact h.rows q hq

theorem decimal_attrSafe {t : Str} (h : isDecimal t = true) : attrSafe t = true := by
  have := num_xmlText (decimal_num h)
  unfold attrSafe
  rw [List.all_eq_true]
  intro c hc
  have h1 := List.all_eq_true.mp (decimal_num h) c hc
  have h' : ((((isDigit c = true ∨ c = '+') ∨ c = '-') ∨ c = '.') ∨ c = 'e') ∨ c = 'E' := by
    simpa [numChar, Bool.or_eq_true] using h1
  rcases h' with ((((h' | rfl) | rfl) | rfl) | rfl) | rfl
  · have := ref_attrSafe (s := [c]) (by simp [refChar, h'])
    simpa [attrSafe] using this
  all_goals decide

theorem dh_safe (h : Hold cfg s) : attrSafe s.defaultHeight = true := by rw [h.dh]; decide

/-- Every call keeps the texts good. -/
theorem Hold.exec (h : Hold cfg s) (op : Op Fmt) (ho : textsOk cfg op) : Hold cfg (s.exec op).2 := by
  cases op with
  | number r c n f => exact h.storeNumber r c ho f false
  | dateTime r c n f => exact h.storeNumber r c ho f true
  | string r c t f => exact h.storeString r c ho f
  | rich r c t raw f => exact h.storeRich r c ho f
  | formula r c fa f => exact h.storeFormula r c ho f
  | arrayFormula r1 c1 r2 c2 fa f d => exact h.storeArray r1 c1 r2 c2 ho f d
  | blank r c f => exact h.storeBlank r c f
  | boolean r c b f => exact h.storeBoolean r c b f
  | cellFormat r c f =>
    show Hold cfg (s.setCellFormat r c f).2
    unfold Sheet.setCellFormat
    rcases checkDimensions_cases s r c with e | ⟨d, hd, e⟩
    · rw [e]; exact h
    · rw [e]; exact ((h.dims d).formatXf f).insertCellFormat r c _
  | rangeFormat r1 c1 r2 c2 f =>
    show Hold cfg (s.setRangeFormat r1 c1 r2 c2 f).2
    unfold Sheet.setRangeFormat
    split
    · exact h
    · split
      · exact h
      · exact hold_foldl _ _ (fun a _ s hs => hold_foldl _ _ (fun b _ s hs => hs.insertCellFormat a b _) hs) (h.formatXf f)
  | clearCell r c =>
    show Hold cfg (s.clearCell r c)
    unfold Sheet.clearCell
    split
    · exact h
    · split
      · exact h
      · rename_i cols hcols
        refine h.setTable (h.table.insertRow ?_)
        intro p hp
        exact h.table.get hcols p (mem_remove hp)
  | clearFormat r c =>
    show Hold cfg (s.clearCellFormat r c)
    unfold Sheet.clearCellFormat
    split
    · exact h
    · split
      · exact h
      · rename_i cols hcols
        split
        · exact h
        · rename_i cell hcell
          refine h.setTable (h.table.insertRow ?_)
          intro p hp
          rcases mem_insert hp with rfl | hp
          · exact (h.table.get hcols _ (mem_of_get hcell)).setXf 0
          · exact h.table.get hcols p hp
  | rowFormat r f =>
    show Hold cfg (s.setRowFormat r f).2
    unfold Sheet.setRowFormat
    rcases checkDimensions_cases s r s.getMinCol with e | ⟨d, hd, e⟩
    · rw [e]; exact h
    · rw [e]
      have h2 := (h.dims d).formatXf f
      simp only
      split
      · rename_i o ho; exact h2.rowOpt r _ (h2.rows _ (mem_of_get ho))
      · exact h2.rowOpt r _ (dh_safe h2)
  | columnFormat c f =>
    show Hold cfg (s.setColumnFormat c f).2
    unfold Sheet.setColumnFormat
    rcases checkDimensions_cases s s.getMinRow c with e | ⟨d, hd, e⟩
    · rw [e]; exact h
    · rw [e]
      have h2 := (h.dims d).formatXf f
      simp only
      split <;> exact h2.frame rfl rfl rfl rfl rfl rfl rfl
  | rowHeight r ht =>
    show Hold cfg (s.setRowHeight r ht).2
    unfold Sheet.setRowHeight
    rcases checkDimensions_cases s r s.getMinCol with e | ⟨d, hd, e⟩
    · rw [e]; exact h
    · rw [e]
      have h2 := h.dims d
      simp only
      split
      · exact h2.rowOpt r _ (decimal_attrSafe ho)
      · exact h2.rowOpt r _ (decimal_attrSafe ho)
  | rowHidden r =>
    show Hold cfg (s.setRowHidden r).2
    unfold Sheet.setRowHidden
    rcases checkDimensions_cases s r s.getMinCol with e | ⟨d, hd, e⟩
    · rw [e]; exact h
    · rw [e]
      have h2 := h.dims d
      simp only
      split
      · rename_i o ho; exact h2.rowOpt r _ (h2.rows _ (mem_of_get ho))
      · exact h2.rowOpt r _ (dh_safe h)
  | note r c t =>
    show Hold cfg (s.insertNote r c t).2
    unfold Sheet.insertNote
    rcases checkDimensions_cases s r c with e | ⟨d, hd, e⟩
    · rw [e]; exact h
    · rw [e]
      have h1 := h.dims d
      simp only
      split
      · exact h1
      · split <;> exact h1.frame rfl rfl rfl rfl rfl rfl rfl

theorem Hold.new (cfg : Cfg) (merge : Fmt → Fmt → Fmt) (dflt : Fmt) : Hold cfg (Sheet.new cfg merge dflt) := by
  refine ⟨rfl, rfl, ?_, ?_, ?_, ?_, ?_⟩ <;> intro q hq <;> simp [Sheet.new, SST.new] at hq

/-! ### The workbook -/

/-- Every text in the workbook can be written. -/
structure BookHold (cfgs : List Cfg) (b : Book Fmt) : Prop where
  keys : ∀ p ∈ b.sst.strings, keyOk p.1
  sheets : ∀ (i : Nat) (s : Sheet Fmt), b.sheets[i]? = some s →
    ∃ cfg, cfgs[i]? = some cfg ∧ ∀ t : SST, (∀ p ∈ t.strings, keyOk p.1) → Hold cfg { s with sst := t }

theorem BookHold.new (cfgs : List Cfg) (merge : Fmt → Fmt → Fmt) (dflt : Fmt) : BookHold cfgs (Book.new cfgs merge dflt) := by
  refine ⟨by simp [Book.new, SST.new], ?_⟩
  intro i s hs
  simp only [Book.new, List.getElem?_map, Option.map_eq_some_iff] at hs
  obtain ⟨c, hc, rfl⟩ := hs
  have h := Hold.new c merge dflt
  exact ⟨c, hc, fun t ht => ⟨h.cfgEq, h.dh, h.table, h.ahead, h.out, ht, h.rows⟩⟩

theorem BookHold.run {cfgs : List Cfg} (ops : List (Nat × Op Fmt)) {b : Book Fmt} (h : BookHold cfgs b)
    (ho : ∀ (i : Nat) (cfg : Cfg) (op : Op Fmt), (i, op) ∈ ops → cfgs[i]? = some cfg → textsOk cfg op) :
    BookHold cfgs (b.run ops) := by
  induction ops generalizing b with
  | nil => exact h
  | cons p ops ih =>
    refine ih (b := b.exec p.1 p.2) ?_ fun i cfg op hm => ho i cfg op (List.mem_cons_of_mem _ hm)
    unfold Book.exec
    cases hs : b.sheets[p.1]? with
    | none => exact h
    | some s =>
      obtain ⟨cfg, hc, hh⟩ := h.sheets _ _ hs
      have h1 : Hold cfg ({ s with sst := b.sst, gxf := b.gxf } : Sheet Fmt) :=
        (hh b.sst h.keys).frame rfl rfl rfl rfl rfl rfl rfl
      have h2 := h1.exec p.2 (ho p.1 cfg p.2 List.mem_cons_self hc)
      refine ⟨h2.keys, ?_⟩
      intro j s' hj
      by_cases hij : p.1 = j
      · subst hij
        have hlt := (List.getElem?_eq_some_iff.mp hs).1
        simp only [List.getElem?_set_self hlt, Option.some.injEq] at hj
        subst hj
        exact ⟨cfg, hc, fun t ht => ⟨h2.cfgEq, h2.dh, h2.table, h2.ahead, h2.out, ht, h2.rows⟩⟩
      · simp only [List.getElem?_set_ne hij] at hj
        exact h.sheets j s' hj

theorem assignId_keys {c : Cell} (hc : CellGood c) {t : SST} (ht : ∀ p ∈ t.strings, keyOk p.1) :
    ∀ p ∈ (c.assignId t).2.strings, keyOk p.1 := by
  cases c with
  | string s x o =>
    cases o with
    | none => exact index_keys ht (Or.inl hc)
    | some i => exact ht
  | rich s raw x o =>
    cases o with
    | none =>
      obtain ⟨segs, g1, g2⟩ := hc
      exact index_keys ht (Or.inr ⟨segs, raw, g1, g2⟩)
    | some i => exact ht
  | _ => exact ht

theorem assignIdsRow_good {m : BMap Cell} (hm : ∀ p ∈ m, CellGood p.2) {t : SST} (ht : ∀ p ∈ t.strings, keyOk p.1) :
    ∀ p ∈ (assignIdsRow m t).2.strings, keyOk p.1 := by
  induction m generalizing t with
  | nil => exact ht
  | cons q m ih =>
    obtain ⟨k, c⟩ := q
    simp only [assignIdsRow]
    exact ih (fun p hp => hm p (List.mem_cons_of_mem _ hp)) (assignId_keys (hm (k, c) List.mem_cons_self) ht)

theorem assignIdsTable_good {m : BMap (BMap Cell)} (hm : TblAll CellGood m) {t : SST} (ht : ∀ p ∈ t.strings, keyOk p.1) :
    ∀ p ∈ (assignIdsTable m t).2.strings, keyOk p.1 := by
  induction m generalizing t with
  | nil => exact ht
  | cons q m ih =>
    obtain ⟨k, c⟩ := q
    simp only [assignIdsTable]
    exact ih (fun p hp => hm p (List.mem_cons_of_mem _ hp)) (assignIdsRow_good (hm (k, c) List.mem_cons_self) ht)

theorem withIds_keys {s : Sheet Fmt} (hm : TblAll CellGood s.table) {t : SST} (ht : ∀ p ∈ t.strings, keyOk p.1) :
    ∀ p ∈ (s.withIds t).2.strings, keyOk p.1 := by
  unfold Sheet.withIds Sheet.updateStringTableIds
  split
  · exact ht
  · split
    · exact ht
    · exact assignIdsTable_good hm ht

theorem idSheets_keys {ss : List (Sheet Fmt)} (hm : ∀ s ∈ ss, TblAll CellGood s.table) {t : SST}
    (ht : ∀ p ∈ t.strings, keyOk p.1) : ∀ p ∈ (idSheets ss t).2.strings, keyOk p.1 := by
  induction ss generalizing t with
  | nil => exact ht
  | cons s ss ih =>
    simp only [idSheets]
    exact ih (fun s hs => hm s (List.mem_cons_of_mem _ hs)) (withIds_keys (hm s List.mem_cons_self) ht)

theorem regSheets_tables {ss : List (Sheet Fmt)} {g : List (Fmt × Nat)} {s : Sheet Fmt} (h : s ∈ (regSheets ss g).1) :
    ∃ s' ∈ ss, s.table = s'.table := by
  induction ss generalizing g with
  | nil => simp [regSheets] at h
  | cons a ss ih =>
    simp only [regSheets] at h
    rcases List.mem_cons.mp h with rfl | h
    · exact ⟨a, List.mem_cons_self, rfl⟩
    · obtain ⟨s', h1, h2⟩ := ih h
      exact ⟨s', List.mem_cons_of_mem _ h1, h2⟩

/-- The entries of the shared strings part can be written. -/
theorem BookHold.prepare_keys {cfgs : List Cfg} {b : Book Fmt} (h : BookHold cfgs b) (extra : List Fmt) :
    ∀ p ∈ (b.prepare extra).sst.strings, keyOk p.1 := by
  unfold Book.prepare
  refine idSheets_keys ?_ h.keys
  intro s hs
  obtain ⟨s', h1, h2⟩ := regSheets_tables hs
  obtain ⟨i, hi⟩ := List.getElem?_of_mem h1
  obtain ⟨cfg, _, hh⟩ := h.sheets i s' hi
  rw [h2]
  exact (hh b.sst h.keys).table

end Verif
