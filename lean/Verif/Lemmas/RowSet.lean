import Verif.Lemmas.StdBook
import Verif.Spec.CellXml
import Verif.Lemmas.SavedAll
/-! Row heights and hidden rows follow the calls. -/
set_option linter.unusedSectionVars false
set_option linter.unusedSimpArgs false
namespace Verif
open BMap Spec
variable {Fmt : Type} [DecidableEq Fmt]

/-- The row settings agree with the history. -/
structure RowSet (s : Sheet Fmt) (l : List (Op Fmt)) : Prop where
  dh : s.defaultHeight = DEFAULT_ROW_HEIGHT
  no : ∀ r, s.changedRows.get r = none → specHeight l r = none ∧ specHidden l r = false
  yes : ∀ r o, s.changedRows.get r = some o → o.height = (specHeight l r).getD DEFAULT_ROW_HEIGHT ∧
    o.hidden = specHidden l r ∧ o.level = 0 ∧ o.collapsed = false ∧
    (s.cfg.constMem = false → s.dims.firstRow ≤ r ∧ r ≤ s.dims.lastRow)

theorem specHeight_snoc (ops : List (Op Fmt)) (op : Op Fmt) (r : Nat) :
    specHeight (ops ++ [op]) r = match op with
      | .rowHeight r' h => if r' = r ∧ r < 1048576 then some h else specHeight ops r
      | _ => specHeight ops r := by
  simp only [specHeight, List.foldl_append, List.foldl_cons, List.foldl_nil]
  cases op <;> rfl

theorem specHidden_snoc (ops : List (Op Fmt)) (op : Op Fmt) (r : Nat) :
    specHidden (ops ++ [op]) r = match op with
      | .rowHidden r' => specHidden ops r || decide (r' = r ∧ r < 1048576)
      | _ => specHidden ops r := by
  simp only [specHidden, List.any_append, List.any_cons, List.any_nil, Bool.or_false]
  cases op <;> simp

theorem checkDims_cov (s : Sheet Fmt) (r c : Nat) {d : Dims} (h : s.checkDimensions r c = (true, { s with dims := d })) :
    s.cfg.constMem = false → d.firstRow ≤ r ∧ r ≤ d.lastRow := by
  intro hm
  have e2 : (s.checkDimensions r c).2.dims = d := by rw [h]
  have h3 : (s.checkDimensions r c).1 = true := by rw [h]
  unfold Sheet.checkDimensions at e2 h3
  split at e2
  · rename_i h4; simp [h4] at h3
  · split at e2
    · rename_i h4 h5; simp [h4, h5] at h3
    · rw [hm] at e2
      simp only [Bool.false_eq_true, if_false] at e2
      subst e2; dsimp only; omega

theorem RowSet.new (cfg : Cfg) (merge : Fmt → Fmt → Fmt) (dflt : Fmt) : RowSet (Sheet.new cfg merge dflt) [] := by
  refine ⟨rfl, fun _ _ => ⟨rfl, rfl⟩, ?_⟩
  intro r o h; simp [Sheet.new, BMap.get] at h

theorem RowSet.same {s s' : Sheet Fmt} {l l' : List (Op Fmt)} (h : RowSet s l) (hd : DimsLe s.dims s'.dims)
    (hr : s'.changedRows = s.changedRows) (hh : s'.defaultHeight = s.defaultHeight) (hm : s'.cfg = s.cfg)
    (e1 : ∀ r, specHeight l' r = specHeight l r) (e2 : ∀ r, specHidden l' r = specHidden l r) : RowSet s' l' := by
  refine ⟨hh ▸ h.dh, ?_, ?_⟩
  · intro r; rw [hr, e1, e2]; exact h.no r
  · intro r o ho
    rw [hr] at ho
    rw [e1, e2]
    obtain ⟨h1, h2, h3, h4, h5⟩ := h.yes r o ho
    exact ⟨h1, h2, h3, h4, fun e => ⟨Nat.le_trans hd.1 (h5 (hm ▸ e)).1, Nat.le_trans (h5 (hm ▸ e)).2 hd.2.2.1⟩⟩

/-- A change of the settings of row `r`, made from the old settings or the default ones. -/
theorem RowSet.setRow {s : Sheet Fmt} {l l' : List (Op Fmt)} (h : RowSet s l) (hS : Sorted s.changedRows) {r : Nat}
    {o : RowOpt Fmt} (hin : s.cfg.constMem = false → s.dims.firstRow ≤ r ∧ r ≤ s.dims.lastRow)
    (e1 : ∀ r', r' ≠ r → specHeight l' r' = specHeight l r') (e2 : ∀ r', r' ≠ r → specHidden l' r' = specHidden l r')
    (ho : o.height = (specHeight l' r).getD DEFAULT_ROW_HEIGHT ∧ o.hidden = specHidden l' r ∧ o.level = 0 ∧ o.collapsed = false) :
    RowSet { s with changedRows := s.changedRows.insert r o } l' := by
  refine ⟨h.dh, ?_, ?_⟩
  · intro r' hr'
    simp only [get_insert _ _ _ hS] at hr'
    split at hr'
    · cases hr'
    · rename_i hne
      rw [e1 r' (fun e => hne (by omega)), e2 r' (fun e => hne (by omega))]; exact h.no r' hr'
  · intro r' o' hr'
    simp only [get_insert _ _ _ hS] at hr'
    split at hr'
    · rename_i heq
      cases hr'
      have : r' = r := by omega
      subst this
      exact ⟨ho.1, ho.2.1, ho.2.2.1, ho.2.2.2, hin⟩
    · rename_i hne
      rw [e1 r' (fun e => hne (by omega)), e2 r' (fun e => hne (by omega))]; exact h.yes r' o' hr'

/-! ### The default row height does not change -/

/-- The default row height is the initial one. -/
def Dh (s : Sheet Fmt) : Prop := s.defaultHeight = DEFAULT_ROW_HEIGHT

variable {s : Sheet Fmt}

theorem Dh.formatXf (h : Dh s) (f : Fmt) : Dh (s.formatXfIndex f).2 := by
  unfold Sheet.formatXfIndex
  split <;> split <;> exact h

theorem Dh.rowCol (h : Dh s) (r c : Nat) : Dh (s.rowColFormat r c).2 := by
  unfold Sheet.rowColFormat
  repeat (first | exact h | exact h.formatXf _ | split)

theorem Dh.xfFor (h : Dh s) (r c : Nat) (f : Option Fmt) : Dh (s.xfFor r c f).2 := by
  cases f with
  | some f => exact h.formatXf f
  | none => exact h.rowCol r c

theorem Dh.flushRows (l : List Nat) (h : Dh s) : Dh (l.foldl Sheet.flushDataRow s) := by
  induction l generalizing s with
  | nil => exact h
  | cons a l ih => exact ih (s := s.flushDataRow a) h

theorem Dh.insertCell (h : Dh s) (r c : Nat) (cell : Cell) : Dh (s.insertCell r c cell) := by
  unfold Sheet.insertCell
  split
  · split
    · exact h
    · split
      · split
        · exact h
        · exact h.flushRows _
      · exact h
  · exact h

theorem Dh.dims (h : Dh s) (d : Dims) : Dh { s with dims := d } := h

theorem Dh.setSst (h : Dh s) (t : SST) : Dh { s with sst := t } := h

theorem Dh.storeBlank (h : Dh s) (r c : Nat) (f : Fmt) : Dh (s.storeBlank r c f).2 := by
  unfold Sheet.storeBlank
  rcases checkDimensions_cases s r c with e | ⟨d, hd, e⟩
  · rw [e]; exact h
  · rw [e]
    have h1 := (h.dims d).formatXf f
    generalize ({ s with dims := d } : Sheet Fmt) = s1 at h1
    show Dh (Sheet.insertCell (if (s1.formatXfIndex f).1 = 0 then
        (s1.formatXfIndex f).2.rowColFormat r c else ((s1.formatXfIndex f).1, (s1.formatXfIndex f).2)).2
        r c (.blank (if (s1.formatXfIndex f).1 = 0 then
        (s1.formatXfIndex f).2.rowColFormat r c else ((s1.formatXfIndex f).1, (s1.formatXfIndex f).2)).1))
    by_cases hz : (s1.formatXfIndex f).1 = 0
    · simp only [if_pos hz]
      exact (h1.rowCol r c).insertCell r c _
    · simp only [if_neg hz]
      exact h1.insertCell r c _

theorem Dh.storeString (h : Dh s) (r c : Nat) (str : Str) (fo : Option Fmt) : Dh (s.storeString r c str fo).2 := by
  unfold Sheet.storeString
  split
  · cases fo with
    | some f => exact h.storeBlank r c f
    | none => exact h
  · rcases checkDimensions_cases s r c with e | ⟨d, hd, e⟩
    · rw [e]; exact h
    · rw [e]
      have h1 := h.dims d
      generalize ({ s with dims := d } : Sheet Fmt) = s1 at h1
      simp only
      split
      · exact h1
      · have h2 := h1.xfFor r c fo
        split
        · exact h2.insertCell r c _
        · by_cases hgl : (s1.xfFor r c fo).2.cfg.globalSst = true
          · simp only [if_pos hgl]
            exact Dh.insertCell (s := { (s1.xfFor r c fo).2 with sst := _, hasLocalSst := true }) h2 r c _
          · simp only [if_neg hgl]
            exact Dh.insertCell (s := { (s1.xfFor r c fo).2 with hasLocalSst := true }) h2 r c _

theorem Dh.storeRich (h : Dh s) (r c : Nat) (str raw : Str) (fo : Option Fmt) : Dh (s.storeRich r c str raw fo).2 := by
  unfold Sheet.storeRich
  split
  · cases fo with
    | some f => exact h.storeBlank r c f
    | none => exact h
  · rcases checkDimensions_cases s r c with e | ⟨d, hd, e⟩
    · rw [e]; exact h
    · rw [e]
      have h1 := h.dims d
      generalize ({ s with dims := d } : Sheet Fmt) = s1 at h1
      simp only
      split
      · exact h1
      · have h2 := h1.xfFor r c fo
        have hflag : ∀ s' : Sheet Fmt, Dh s' → Dh (if s'.cfg.inlineStrings = true then s'
            else { s' with hasLocalSst := true }) := by
          intro s' hs'
          split <;> exact hs'
        by_cases hgl : (s1.xfFor r c fo).2.cfg.globalSst = true
        · simp only [if_pos hgl]
          exact hflag _ ((h2.setSst _).insertCell r c _)
        · simp only [if_neg hgl]
          exact hflag _ (h2.insertCell r c _)

theorem Dh.storeNumber (h : Dh s) (r c : Nat) (n : F64) (fo : Option Fmt) (b : Bool) :
    Dh (s.storeNumberType r c n fo b).2 := by
  unfold Sheet.storeNumberType
  rcases checkDimensions_cases s r c with e | ⟨d, hd, e⟩
  · rw [e]; exact h
  · rw [e]
    have h1 := h.dims d
    generalize ({ s with dims := d } : Sheet Fmt) = s1 at h1
    cases n with
    | nan => exact h1.storeString r c _ fo
    | posInf => exact h1.storeString r c _ fo
    | negInf => exact h1.storeString r c _ fo
    | finite t => exact (h1.xfFor r c fo).insertCell r c _

theorem dh_forEach {α : Type} (l : List α) (f : α → Sheet Fmt → Res Fmt)
    (hf : ∀ a ∈ l, ∀ s, Dh s → Dh (f a s).2) (h : Dh s) : Dh (forEach l f s).2 := by
  induction l generalizing s with
  | nil => exact h
  | cons a l ih =>
    simp only [forEach, Res.andThen]
    have h1 := hf a List.mem_cons_self s h
    split
    · exact h1
    · exact ih (fun b hb => hf b (List.mem_cons_of_mem _ hb)) h1

theorem dh_andThen {r : Res Fmt} {f : Sheet Fmt → Res Fmt} (h : Dh r.2)
    (hf : ∀ s', Dh s' → Dh (f s').2) : Dh (Res.andThen r f).2 := by
  unfold Res.andThen
  split
  · exact h
  · exact hf _ h

theorem Dh.storeArray (h : Dh s) (r1 c1 r2 c2 : Nat) (fa : FormulaArg) (fo : Option Fmt)
    (b : Bool) : Dh (s.storeArrayFormula r1 c1 r2 c2 fa fo b).2 := by
  unfold Sheet.storeArrayFormula
  rcases checkDimensions_cases s r1 c1 with e | ⟨d, hd, e⟩
  · rw [e]; exact h
  · rw [e]
    have h1 := h.dims d
    generalize ({ s with dims := d } : Sheet Fmt) = s1 at h1
    simp only
    rcases checkDimensions_cases s1 r2 c2 with e | ⟨d, hd, e⟩
    · rw [e]; exact h1
    · rw [e]
      have h2 := h1.dims d
      generalize ({ s1 with dims := d } : Sheet Fmt) = s2 at h2
      simp only
      split
      · exact h2
      · have h3 := h2.xfFor r1 c1 fo
        refine dh_andThen (dh_forEach _ _ (fun a _ s hs => hs.storeNumber r1 a _ fo false) (h3.insertCell r1 c1 _)) fun s' h5 => ?_
        have key : ∀ s' : Sheet Fmt, Dh s' → Dh (Res.andThen
              (forEach (List.range' (r1 + 1) (r2 - r1))
                (fun r s => forEach (List.range' c1 (c2 + 1 - c1))
                  (fun c s => s.storeNumberType r c (.finite "0".toList) fo false) s) s')
              fun s => (none, if s.cfg.constMem = true then { s with writingAhead := false } else s)).2 := by
          intro s' hs'
          refine dh_andThen (dh_forEach _ _ (fun a _ s hs => dh_forEach _ _ (fun b _ s hs => hs.storeNumber a b _ fo false) hs) hs')
            fun s6 h6 => ?_
          simp only
          split <;> exact h6
        by_cases hcm : s'.cfg.constMem = true
        · simp only [if_pos hcm]
          exact key _ h5
        · simp only [if_neg hcm]
          exact key _ h5

theorem Dh.insertCellFormat (h : Dh s) (r c xf : Nat) : Dh (s.insertCellFormat r c xf) := by
  unfold Sheet.insertCellFormat
  repeat (first | exact h | split)

theorem dh_foldl {α : Type} (l : List α) (f : Sheet Fmt → α → Sheet Fmt) (hf : ∀ a ∈ l, ∀ s, Dh s → Dh (f s a))
    (h : Dh s) : Dh (l.foldl f s) := by
  induction l generalizing s with
  | nil => exact h
  | cons a l ih => exact ih (fun b hb => hf b (List.mem_cons_of_mem _ hb)) (hf a List.mem_cons_self s h)

/-- No call changes the default height. -/
theorem Dh.exec (h : Dh s) (op : Op Fmt) : Dh (s.exec op).2 := by
  cases op with
  | number r c n f => exact h.storeNumber r c _ f false
  | dateTime r c n f => exact h.storeNumber r c _ f true
  | string r c t f => exact h.storeString r c _ f
  | rich r c t raw f => exact h.storeRich r c _ _ f
  | formula r c fa f =>
    show Dh (s.storeFormula r c fa f).2
    unfold Sheet.storeFormula
    split
    · exact h.storeArray r c r c _ none true
    · rcases checkDimensions_cases s r c with e | ⟨d, hd, e⟩
      · rw [e]; exact h
      · rw [e]; exact ((h.dims d).xfFor r c f).insertCell r c _
  | arrayFormula r1 c1 r2 c2 fa f d => exact h.storeArray r1 c1 r2 c2 _ f d
  | blank r c f => exact h.storeBlank r c f
  | boolean r c b f =>
    show Dh (s.storeBoolean r c b f).2
    unfold Sheet.storeBoolean
    rcases checkDimensions_cases s r c with e | ⟨d, hd, e⟩
    · rw [e]; exact h
    · rw [e]; exact ((h.dims d).xfFor r c f).insertCell r c _
  | cellFormat r c f =>
    show Dh (s.setCellFormat r c f).2
    unfold Sheet.setCellFormat
    rcases checkDimensions_cases s r c with e | ⟨d, hd, e⟩
    · rw [e]; exact h
    · rw [e]; exact ((h.dims d).formatXf f).insertCellFormat r c _
  | rangeFormat r1 c1 r2 c2 f =>
    show Dh (s.setRangeFormat r1 c1 r2 c2 f).2
    unfold Sheet.setRangeFormat
    split
    · exact h
    · split
      · exact h
      · exact dh_foldl _ _ (fun a _ s hs => dh_foldl _ _ (fun b _ s hs => hs.insertCellFormat a b _) hs) (h.formatXf f)
  | clearCell r c =>
    show Dh (s.clearCell r c)
    unfold Sheet.clearCell
    repeat (first | exact h | split)
  | clearFormat r c =>
    show Dh (s.clearCellFormat r c)
    unfold Sheet.clearCellFormat
    repeat (first | exact h | split)
  | rowFormat r f =>
    show Dh (s.setRowFormat r f).2
    unfold Sheet.setRowFormat
    rcases checkDimensions_cases s r s.getMinCol with e | ⟨d, hd, e⟩
    · rw [e]; exact h
    · rw [e]
      have h2 := (h.dims d).formatXf f
      simp only
      split <;> exact h2
  | columnFormat c f =>
    show Dh (s.setColumnFormat c f).2
    unfold Sheet.setColumnFormat
    rcases checkDimensions_cases s s.getMinRow c with e | ⟨d, hd, e⟩
    · rw [e]; exact h
    · rw [e]
      have h2 := (h.dims d).formatXf f
      simp only
      split <;> exact h2
  | rowHeight r ht =>
    show Dh (s.setRowHeight r ht).2
    unfold Sheet.setRowHeight
    rcases checkDimensions_cases s r s.getMinCol with e | ⟨d, hd, e⟩
    · rw [e]; exact h
    · rw [e]
      simp only
      split <;> exact h
  | rowHidden r =>
    show Dh (s.setRowHidden r).2
    unfold Sheet.setRowHidden
    rcases checkDimensions_cases s r s.getMinCol with e | ⟨d, hd, e⟩
    · rw [e]; exact h
    · rw [e]
      simp only
      split <;> exact h
  | note r c t =>
    show Dh (s.insertNote r c t).2
    unfold Sheet.insertNote
    rcases checkDimensions_cases s r c with e | ⟨d, hd, e⟩
    · rw [e]; exact h
    · rw [e]
      simp only
      repeat (first | exact h | split)

/-! ### Every call keeps the agreement -/

theorem RowSet.exec {dflt : Fmt} {l : List (Op Fmt)} (hG : Gen dflt s) (hc : s.dims.firstCol ≤ COL_MAX) (h : RowSet s l)
    (op : Op Fmt) : RowSet (s.exec op).2 (l ++ [op]) := by
  have hst := hG.exec op
  have hdh : Dh (s.exec op).2 := Dh.exec h.dh op
  have hcm : (s.exec op).2.cfg = s.cfg := hst.2.cfg
  by_cases hrc : op.isRowCol = false
  · rw [hrc] at hst
    refine h.same hst.2.dims (hst.2.rows rfl).1 (by rw [h.dh]; exact hdh) hcm ?_ ?_
    · intro r; rw [specHeight_snoc]; cases op <;> first | rfl | simp [Op.isRowCol] at hrc
    · intro r; rw [specHidden_snoc]; cases op <;> first | rfl | simp [Op.isRowCol] at hrc
  · cases op <;> first | exact absurd rfl hrc | skip
    · -- set_row_format
      rename_i r f
      have e1 : ∀ r', specHeight (l ++ [Op.rowFormat r f]) r' = specHeight l r' := fun r' => specHeight_snoc l _ r'
      have e2 : ∀ r', specHidden (l ++ [Op.rowFormat r f]) r' = specHidden l r' := fun r' => specHidden_snoc l _ r'
      show RowSet (s.setRowFormat r f).2 _
      unfold Sheet.setRowFormat
      rcases checkDimensions_cases s r s.getMinCol with e | ⟨d, hd, e⟩
      · rw [e]
        exact h.same (DimsLe.refl _) rfl rfl rfl e1 e2
      · have hcov := checkDims_cov s r s.getMinCol e
        rw [e]
        have h1 := (hG.dims (rc := true) d hd).1
        have hk : RowSet ({ s with dims := d } : Sheet Fmt) l := h.same hd rfl rfl rfl (fun _ => rfl) (fun _ => rfl)
        have hcov' : ({ s with dims := d } : Sheet Fmt).cfg.constMem = false →
          ({ s with dims := d } : Sheet Fmt).dims.firstRow ≤ r ∧ r ≤ ({ s with dims := d } : Sheet Fmt).dims.lastRow := hcov
        generalize ({ s with dims := d } : Sheet Fmt) = s1 at h1 hk hcov'
        have hf := formatXfIndex_spec h1.xf f
        have h2 := h1.formatXf (rc := true) f
        have hk2 : RowSet (s1.formatXfIndex f).2 l :=
          hk.same h2.2.dims (by rw [hf.2.1.same]) (by rw [hf.2.1.same]) h2.2.cfg (fun _ => rfl) (fun _ => rfl)
        have hcov2 : (s1.formatXfIndex f).2.cfg.constMem = false → (s1.formatXfIndex f).2.dims.firstRow ≤ r ∧
            r ≤ (s1.formatXfIndex f).2.dims.lastRow := by
          rw [hf.2.1.same]; exact hcov'
        simp only
        split
        · rename_i o ho
          obtain ⟨g1, g2, g3, g4, _⟩ := hk2.yes r o ho
          exact hk2.setRow h2.1.rowsS hcov2 (fun r' _ => e1 r') (fun r' _ => e2 r') ⟨by rw [e1]; exact g1, by rw [e2]; exact g2, g3, g4⟩
        · rename_i ho
          obtain ⟨g1, g2⟩ := hk2.no r ho
          exact hk2.setRow h2.1.rowsS hcov2 (fun r' _ => e1 r') (fun r' _ => e2 r')
            ⟨by rw [e1, g1]; exact hk2.dh, by rw [e2, g2], rfl, rfl⟩
    · -- set_column_format
      rename_i c f
      have e1 : ∀ r', specHeight (l ++ [Op.columnFormat c f]) r' = specHeight l r' := fun r' => specHeight_snoc l _ r'
      have e2 : ∀ r', specHidden (l ++ [Op.columnFormat c f]) r' = specHidden l r' := fun r' => specHidden_snoc l _ r'
      have hrows : (s.setColumnFormat c f).2.changedRows = s.changedRows := by
        unfold Sheet.setColumnFormat
        rcases checkDimensions_cases s s.getMinRow c with e | ⟨d, hd, e⟩
        · rw [e]
        · rw [e]
          have h1 := (hG.dims (rc := true) d hd).1
          have hf := formatXfIndex_spec h1.xf f
          simp only
          have hx : (({ s with dims := d } : Sheet Fmt).formatXfIndex f).2.changedRows = s.changedRows := by rw [hf.2.1.same]
          split <;> exact hx
      exact h.same hst.2.dims hrows (by rw [h.dh]; exact hdh) hcm e1 e2
    · -- set_row_height
      rename_i r ht
      have e2 : ∀ r', specHidden (l ++ [Op.rowHeight r ht]) r' = specHidden l r' := fun r' => specHidden_snoc l _ r'
      show RowSet (s.setRowHeight r ht).2 _
      unfold Sheet.setRowHeight
      have hfst := checkDimensions_fst s r s.getMinCol
      have hmc := getMinCol_lt hc
      rcases checkDimensions_cases s r s.getMinCol with e | ⟨d, hd, e⟩
      · rw [e] at hfst ⊢
        refine h.same (DimsLe.refl _) rfl rfl rfl ?_ e2
        intro r'
        rw [specHeight_snoc]
        simp only
        rw [if_neg]
        rintro ⟨rfl, hlt⟩
        simp [inGrid, COL_MAX] at hfst hmc
        omega
      · have hcov := checkDims_cov s r s.getMinCol e
        rw [e] at hfst ⊢
        have hlt : r < 1048576 := by
          simp [inGrid] at hfst; exact hfst.1
        have h1 := (hG.dims (rc := true) d hd).1
        have hk : RowSet ({ s with dims := d } : Sheet Fmt) l := h.same hd rfl rfl rfl (fun _ => rfl) (fun _ => rfl)
        have hcov' : ({ s with dims := d } : Sheet Fmt).cfg.constMem = false →
          ({ s with dims := d } : Sheet Fmt).dims.firstRow ≤ r ∧ r ≤ ({ s with dims := d } : Sheet Fmt).dims.lastRow := hcov
        generalize ({ s with dims := d } : Sheet Fmt) = s1 at h1 hk hcov'
        have e1 : ∀ r', r' ≠ r → specHeight (l ++ [Op.rowHeight r ht]) r' = specHeight l r' := by
          intro r' hne
          rw [specHeight_snoc]
          simp only
          rw [if_neg (by rintro ⟨rfl, _⟩; exact hne rfl)]
        have e0 : specHeight (l ++ [Op.rowHeight r ht]) r = some ht := by
          rw [specHeight_snoc]
          simp only
          rw [if_pos ⟨trivial, hlt⟩]
        simp only
        split
        · rename_i o ho
          obtain ⟨g1, g2, g3, g4, _⟩ := hk.yes r o ho
          exact hk.setRow h1.rowsS hcov' e1 (fun r' _ => e2 r') ⟨by rw [e0]; rfl, by rw [e2]; exact g2, g3, g4⟩
        · rename_i ho
          obtain ⟨g1, g2⟩ := hk.no r ho
          exact hk.setRow h1.rowsS hcov' e1 (fun r' _ => e2 r') ⟨by rw [e0]; rfl, by rw [e2, g2], rfl, rfl⟩
    · -- set_row_hidden
      rename_i r
      have e1 : ∀ r', specHeight (l ++ [Op.rowHidden r]) r' = specHeight l r' := fun r' => specHeight_snoc l _ r'
      show RowSet (s.setRowHidden r).2 _
      unfold Sheet.setRowHidden
      have hfst := checkDimensions_fst s r s.getMinCol
      have hmc := getMinCol_lt hc
      rcases checkDimensions_cases s r s.getMinCol with e | ⟨d, hd, e⟩
      · rw [e] at hfst ⊢
        refine h.same (DimsLe.refl _) rfl rfl rfl e1 ?_
        intro r'
        rw [specHidden_snoc]
        simp only
        rw [decide_eq_false, Bool.or_false]
        rintro ⟨rfl, hlt⟩
        simp [inGrid, COL_MAX] at hfst hmc
        omega
      · have hcov := checkDims_cov s r s.getMinCol e
        rw [e] at hfst ⊢
        have hlt : r < 1048576 := by
          simp [inGrid] at hfst; exact hfst.1
        have h1 := (hG.dims (rc := true) d hd).1
        have hk : RowSet ({ s with dims := d } : Sheet Fmt) l := h.same hd rfl rfl rfl (fun _ => rfl) (fun _ => rfl)
        have hcov' : ({ s with dims := d } : Sheet Fmt).cfg.constMem = false →
          ({ s with dims := d } : Sheet Fmt).dims.firstRow ≤ r ∧ r ≤ ({ s with dims := d } : Sheet Fmt).dims.lastRow := hcov
        generalize ({ s with dims := d } : Sheet Fmt) = s1 at h1 hk hcov'
        have e2 : ∀ r', r' ≠ r → specHidden (l ++ [Op.rowHidden r]) r' = specHidden l r' := by
          intro r' hne
          rw [specHidden_snoc]
          simp only
          rw [decide_eq_false (by rintro ⟨rfl, _⟩; exact hne rfl), Bool.or_false]
        have e0 : specHidden (l ++ [Op.rowHidden r]) r = true := by
          rw [specHidden_snoc]
          simp only
          rw [decide_eq_true ⟨trivial, hlt⟩, Bool.or_true]
        simp only
        split
        · rename_i o ho
          obtain ⟨g1, g2, g3, g4, _⟩ := hk.yes r o ho
          exact hk.setRow h1.rowsS hcov' (fun r' _ => e1 r') e2 ⟨by rw [e1]; exact g1, by rw [e0], g3, g4⟩
        · rename_i ho
          obtain ⟨g1, g2⟩ := hk.no r ho
          exact hk.setRow h1.rowsS hcov' (fun r' _ => e1 r') e2 ⟨by rw [e1, g1]; exact hk.dh, by rw [e0], rfl, rfl⟩

/-- The row settings of a worksheet and its history. -/
def RowR (dflt : Fmt) (s : Sheet Fmt) (l : List (Op Fmt)) : Prop := RowColOk dflt s l ∧ RowSet s l

theorem RowR.book (cfgs : List Cfg) (merge : Fmt → Fmt → Fmt) (dflt : Fmt) (ops : List (Nat × Op Fmt)) :
    BookInv cfgs dflt (RowR dflt) ((Book.new cfgs merge dflt).run ops) ops := by
  apply book_lift
  · intro cfg
    exact ⟨RowColOk.new cfg merge dflt, RowSet.new cfg merge dflt⟩
  · intro s l op hG h
    exact ⟨h.1.exec hG op, h.2.exec hG h.1.fc op⟩
  · intro s l t g _ hs h
    exact ⟨h.1.same hs.fmtOf (DimsLe.refl _) rfl rfl (fun _ => rfl) (fun _ => rfl),
      h.2.same (DimsLe.refl _) rfl rfl rfl (fun _ => rfl) (fun _ => rfl)⟩

end Verif
