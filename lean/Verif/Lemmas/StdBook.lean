import Verif.Lemmas.Book
/-! Standard worksheets inside a workbook: content and styles of the saved rows. -/
set_option linter.unusedSectionVars false
set_option linter.unusedSimpArgs false
namespace Verif
open BMap
variable {Fmt : Type} [DecidableEq Fmt]

/-! ### Row and column formats -/

/-- Row and column settings agree with the history. -/
structure RowColOk (dflt : Fmt) (s : Sheet Fmt) (ops : List (Op Fmt)) : Prop where
  fr : s.dims.firstRow ≤ ROW_MAX
  fc : s.dims.firstCol ≤ COL_MAX
  rows0 : ∀ r, s.changedRows.get r = none → specRowFmt ops r = none
  rows : ∀ r o, s.changedRows.get r = some o → s.fmtOf o.xf = some ((specRowFmt ops r).getD dflt)
  cols0 : ∀ c, s.changedCols.get c = none → specColFmt ops c = none
  cols : ∀ c o, s.changedCols.get c = some o → s.fmtOf o.xf = some ((specColFmt ops c).getD dflt)

theorem specRowFmt_snoc (ops : List (Op Fmt)) (op : Op Fmt) (r : Nat) :
    specRowFmt (ops ++ [op]) r = match op with
      | .rowFormat r' f => if r' = r ∧ r < 1048576 then some f else specRowFmt ops r
      | _ => specRowFmt ops r := by
  simp only [specRowFmt, List.foldl_append, List.foldl_cons, List.foldl_nil]
  cases op <;> rfl

theorem specColFmt_snoc (ops : List (Op Fmt)) (op : Op Fmt) (c : Nat) :
    specColFmt (ops ++ [op]) c = match op with
      | .columnFormat c' f => if c' = c ∧ c < 16384 then some f else specColFmt ops c
      | _ => specColFmt ops c := by
  simp only [specColFmt, List.foldl_append, List.foldl_cons, List.foldl_nil]
  cases op <;> rfl

theorem RowColOk.new (cfg : Cfg) (merge : Fmt → Fmt → Fmt) (dflt : Fmt) :
    RowColOk dflt (Sheet.new cfg merge dflt) [] := by
  refine ⟨Nat.le_refl _, Nat.le_refl _, fun _ _ => rfl, ?_, fun _ _ => rfl, ?_⟩ <;>
  · intro r o h; simp [Sheet.new, BMap.get] at h

/-- Growth that leaves the row and column settings alone. -/
theorem RowColOk.same {dflt : Fmt} {s s' : Sheet Fmt} {l l' : List (Op Fmt)} (h : RowColOk dflt s l)
    (hg : ∀ i f, s.fmtOf i = some f → s'.fmtOf i = some f) (hd : DimsLe s.dims s'.dims)
    (hr : s'.changedRows = s.changedRows) (hc : s'.changedCols = s.changedCols)
    (e1 : ∀ r, specRowFmt l' r = specRowFmt l r) (e2 : ∀ c, specColFmt l' c = specColFmt l c) :
    RowColOk dflt s' l' := by
  refine ⟨Nat.le_trans hd.1 h.fr, Nat.le_trans hd.2.1 h.fc, ?_, ?_, ?_, ?_⟩
  · intro r; rw [hr, e1]; exact h.rows0 r
  · intro r o; rw [hr, e1]; exact fun ho => hg _ _ (h.rows r o ho)
  · intro r; rw [hc, e2]; exact h.cols0 r
  · intro r o; rw [hc, e2]; exact fun ho => hg _ _ (h.cols r o ho)

theorem getMinCol_lt {s : Sheet Fmt} (h : s.dims.firstCol ≤ COL_MAX) : s.getMinCol < COL_MAX := by
  unfold Sheet.getMinCol; split
  · simp [COL_MAX]
  · omega

theorem getMinRow_lt {s : Sheet Fmt} (h : s.dims.firstRow ≤ ROW_MAX) : s.getMinRow < ROW_MAX := by
  unfold Sheet.getMinRow; split
  · simp [ROW_MAX]
  · omega

theorem RowColOk.setRow {dflt : Fmt} {s : Sheet Fmt} {l l' : List (Op Fmt)} (h : RowColOk dflt s l)
    (hG : Gen dflt s) {r : Nat} {o : RowOpt Fmt}
    (ho : (∃ o0, s.changedRows.get r = some o0 ∧ o.xf = o0.xf) ∨ (s.changedRows.get r = none ∧ o.xf = 0))
    (e1 : ∀ r, specRowFmt l' r = specRowFmt l r) (e2 : ∀ c, specColFmt l' c = specColFmt l c) :
    RowColOk dflt { s with changedRows := s.changedRows.insert r o } l' := by
  refine ⟨h.fr, h.fc, ?_, ?_, ?_, ?_⟩
  · intro r' hr'
    simp only [get_insert _ _ _ hG.rowsS] at hr'
    split at hr'
    · cases hr'
    · rw [e1]; exact h.rows0 r' hr'
  · intro r' o' hr'
    simp only [get_insert _ _ _ hG.rowsS] at hr'
    split at hr'
    · rename_i heq
      cases hr'
      subst heq
      rw [e1]
      rcases ho with ⟨o0, hg, he⟩ | ⟨hg, he⟩
      · rw [he]; exact h.rows r' o0 hg
      · rw [he, h.rows0 r' hg]; exact hG.xf.fmtOf_zero
    · rw [e1]; exact h.rows r' o' hr'
  · intro c hc; rw [e2]; exact h.cols0 c hc
  · intro c o' hc; rw [e2]; exact h.cols c o' hc

theorem RowColOk.exec {dflt : Fmt} {s : Sheet Fmt} {l : List (Op Fmt)} (hG : Gen dflt s)
    (h : RowColOk dflt s l) (op : Op Fmt) : RowColOk dflt (s.exec op).2 (l ++ [op]) := by
  have hst := hG.exec op
  by_cases hrc : op.isRowCol = false
  · rw [hrc] at hst
    refine h.same hst.2.fmt hst.2.dims (hst.2.rows rfl).1 (hst.2.rows rfl).2 ?_ ?_
    · intro r; rw [specRowFmt_snoc]; cases op <;> first | rfl | simp [Op.isRowCol] at hrc
    · intro r; rw [specColFmt_snoc]; cases op <;> first | rfl | simp [Op.isRowCol] at hrc
  · cases op <;> first | exact absurd rfl hrc | skip
    · -- set_row_format
      rename_i r f
      have e2 : ∀ c, specColFmt (l ++ [Op.rowFormat r f]) c = specColFmt l c := fun c => specColFmt_snoc l _ c
      show RowColOk dflt (s.setRowFormat r f).2 _
      unfold Sheet.setRowFormat
      have hfst := checkDimensions_fst s r s.getMinCol
      rcases checkDimensions_cases s r s.getMinCol with e | ⟨d, hd, e⟩
      · rw [e] at hfst ⊢
        refine h.same (fun _ _ h => h) (DimsLe.refl _) rfl rfl ?_ e2
        intro r'
        rw [specRowFmt_snoc]
        simp only
        rw [if_neg]
        rintro ⟨rfl, hlt⟩
        have := getMinCol_lt h.fc
        simp [inGrid, COL_MAX] at hfst this
        omega
      · rw [e] at hfst ⊢
        have hlt : r < 1048576 := by
          simp [inGrid] at hfst; exact hfst.1
        have h1 := (hG.dims (rc := true) d hd).1
        have hk : RowColOk dflt ({ s with dims := d } : Sheet Fmt) l :=
          h.same (fun _ _ h => h) hd rfl rfl (fun _ => rfl) (fun _ => rfl)
        generalize ({ s with dims := d } : Sheet Fmt) = s1 at h1 hk
        have hf := formatXfIndex_spec h1.xf f
        have h2 := h1.formatXf (rc := true) f
        have hk2 : RowColOk dflt (s1.formatXfIndex f).2 l :=
          hk.same h2.2.fmt h2.2.dims (by rw [hf.2.1.same]) (by rw [hf.2.1.same]) (fun _ => rfl) (fun _ => rfl)
        have fin : ∀ o : RowOpt Fmt, o.xf = (s1.formatXfIndex f).1 →
            RowColOk dflt { (s1.formatXfIndex f).2 with
              changedRows := (s1.formatXfIndex f).2.changedRows.insert r o } (l ++ [Op.rowFormat r f]) := by
          intro o ho
          refine ⟨hk2.fr, hk2.fc, ?_, ?_, ?_, ?_⟩
          · intro r' hr'
            simp only [get_insert _ _ _ h2.1.rowsS] at hr'
            split at hr'
            · cases hr'
            · rename_i hne
              rw [specRowFmt_snoc]; simp only
              rw [if_neg (by rintro ⟨rfl, _⟩; exact hne rfl)]
              exact hk2.rows0 r' hr'
          · intro r' o' hr'
            simp only [get_insert _ _ _ h2.1.rowsS] at hr'
            split at hr'
            · rename_i heq
              cases hr'
              rw [specRowFmt_snoc]; simp only
              rw [if_pos ⟨heq.symm, by omega⟩, ho]
              exact hf.2.2
            · rename_i hne
              rw [specRowFmt_snoc]; simp only
              rw [if_neg (by rintro ⟨rfl, _⟩; exact hne rfl)]
              exact hk2.rows r' o' hr'
          · intro c hc; rw [e2]; exact hk2.cols0 c hc
          · intro c o' hc; rw [e2]; exact hk2.cols c o' hc
        simp only
        split
        · exact fin _ rfl
        · exact fin _ rfl
    · -- set_column_format
      rename_i c f
      have e1 : ∀ r, specRowFmt (l ++ [Op.columnFormat c f]) r = specRowFmt l r := fun r => specRowFmt_snoc l _ r
      show RowColOk dflt (s.setColumnFormat c f).2 _
      unfold Sheet.setColumnFormat
      have hfst := checkDimensions_fst s s.getMinRow c
      rcases checkDimensions_cases s s.getMinRow c with e | ⟨d, hd, e⟩
      · rw [e] at hfst ⊢
        refine h.same (fun _ _ h => h) (DimsLe.refl _) rfl rfl e1 ?_
        intro r'
        rw [specColFmt_snoc]
        simp only
        rw [if_neg]
        rintro ⟨rfl, hlt⟩
        have := getMinRow_lt h.fr
        simp [inGrid, ROW_MAX] at hfst this
        omega
      · rw [e] at hfst ⊢
        have hlt : c < 16384 := by
          simp [inGrid] at hfst; exact hfst.2
        have h1 := (hG.dims (rc := true) d hd).1
        have hk : RowColOk dflt ({ s with dims := d } : Sheet Fmt) l :=
          h.same (fun _ _ h => h) hd rfl rfl (fun _ => rfl) (fun _ => rfl)
        generalize ({ s with dims := d } : Sheet Fmt) = s1 at h1 hk
        have hf := formatXfIndex_spec h1.xf f
        have h2 := h1.formatXf (rc := true) f
        have hk2 : RowColOk dflt (s1.formatXfIndex f).2 l :=
          hk.same h2.2.fmt h2.2.dims (by rw [hf.2.1.same]) (by rw [hf.2.1.same]) (fun _ => rfl) (fun _ => rfl)
        have fin : ∀ o : ColOpt Fmt, o.xf = (s1.formatXfIndex f).1 →
            RowColOk dflt { (s1.formatXfIndex f).2 with
              changedCols := (s1.formatXfIndex f).2.changedCols.insert c o } (l ++ [Op.columnFormat c f]) := by
          intro o ho
          refine ⟨hk2.fr, hk2.fc, ?_, ?_, ?_, ?_⟩
          · intro c hc; rw [e1]; exact hk2.rows0 c hc
          · intro c o' hc; rw [e1]; exact hk2.rows c o' hc
          · intro r' hr'
            simp only [get_insert _ _ _ h2.1.colsS] at hr'
            split at hr'
            · cases hr'
            · rename_i hne
              rw [specColFmt_snoc]; simp only
              rw [if_neg (by rintro ⟨rfl, _⟩; exact hne rfl)]
              exact hk2.cols0 r' hr'
          · intro r' o' hr'
            simp only [get_insert _ _ _ h2.1.colsS] at hr'
            split at hr'
            · rename_i heq
              cases hr'
              rw [specColFmt_snoc]; simp only
              rw [if_pos ⟨heq.symm, by omega⟩, ho]
              exact hf.2.2
            · rename_i hne
              rw [specColFmt_snoc]; simp only
              rw [if_neg (by rintro ⟨rfl, _⟩; exact hne rfl)]
              exact hk2.cols r' o' hr'
        simp only
        split
        · exact fin _ rfl
        · exact fin _ rfl
    · -- set_row_height
      rename_i r ht
      have e1 : ∀ r', specRowFmt (l ++ [Op.rowHeight r ht]) r' = specRowFmt l r' := fun r' => specRowFmt_snoc l _ r'
      have e2 : ∀ c, specColFmt (l ++ [Op.rowHeight r ht]) c = specColFmt l c := fun c => specColFmt_snoc l _ c
      show RowColOk dflt (s.setRowHeight r ht).2 _
      unfold Sheet.setRowHeight
      rcases checkDimensions_cases s r s.getMinCol with e | ⟨d, hd, e⟩
      · rw [e]; exact h.same (fun _ _ h => h) (DimsLe.refl _) rfl rfl e1 e2
      · rw [e]
        have h1 := (hG.dims (rc := true) d hd).1
        have hk : RowColOk dflt ({ s with dims := d } : Sheet Fmt) l :=
          h.same (fun _ _ h => h) hd rfl rfl (fun _ => rfl) (fun _ => rfl)
        generalize ({ s with dims := d } : Sheet Fmt) = s1 at h1 hk
        simp only
        split
        · rename_i o ho; exact hk.setRow h1 (Or.inl ⟨o, ho, rfl⟩) e1 e2
        · rename_i ho; exact hk.setRow h1 (Or.inr ⟨ho, rfl⟩) e1 e2
    · -- set_row_hidden
      rename_i r
      have e1 : ∀ r', specRowFmt (l ++ [Op.rowHidden r]) r' = specRowFmt l r' := fun r' => specRowFmt_snoc l _ r'
      have e2 : ∀ c, specColFmt (l ++ [Op.rowHidden r]) c = specColFmt l c := fun c => specColFmt_snoc l _ c
      show RowColOk dflt (s.setRowHidden r).2 _
      unfold Sheet.setRowHidden
      rcases checkDimensions_cases s r s.getMinCol with e | ⟨d, hd, e⟩
      · rw [e]; exact h.same (fun _ _ h => h) (DimsLe.refl _) rfl rfl e1 e2
      · rw [e]
        have h1 := (hG.dims (rc := true) d hd).1
        have hk : RowColOk dflt ({ s with dims := d } : Sheet Fmt) l :=
          h.same (fun _ _ h => h) hd rfl rfl (fun _ => rfl) (fun _ => rfl)
        generalize ({ s with dims := d } : Sheet Fmt) = s1 at h1 hk
        simp only
        split
        · rename_i o ho; exact hk.setRow h1 (Or.inl ⟨o, ho, rfl⟩) e1 e2
        · rename_i ho; exact hk.setRow h1 (Or.inr ⟨ho, rfl⟩) e1 e2

/-! ### The combined invariant of a worksheet and its history -/

/-- Contents after the calls `l`, as the code treats them. -/
def codedContent (cfg : Cfg) (l : List (Op Fmt)) (r c : Nat) : Content :=
  l.foldl (fun a op => (op.asCoded.effectAt cfg r c).content a) .blank

/-- Explicit formats after the calls `l`, as the code treats them. -/
def codedFmt (cfg : Cfg) (l : List (Op Fmt)) (r c : Nat) : Option Fmt :=
  l.foldl (fun a op => (op.asCoded.effectAt cfg r c).fmt a) none

/-- Invariant of a standard worksheet relative to its own history. -/
def StdR (dflt : Fmt) (s : Sheet Fmt) (l : List (Op Fmt)) : Prop :=
  RowColOk dflt s l ∧ (s.cfg.isStandard → ∀ nr nf, (nr = true → ∀ op ∈ l, op.isRangeFormat = false) →
    (∀ op ∈ l, op.respects nf = true) → Rel s.cfg dflt nr nf s (codedContent s.cfg l) (codedFmt s.cfg l))

theorem Rel.shared {cfg : Cfg} {dflt : Fmt} {nr : Bool} {nf : NF} {s : Sheet Fmt}
    {ct : Nat → Nat → Content} {fm : Nat → Nat → Option Fmt} (h : Rel cfg dflt nr nf s ct fm)
    {t : SST} {g : List (Fmt × Nat)} (hs : Shared dflt s t g) :
    Rel cfg dflt nr nf { s with sst := t, gxf := g } ct fm := by
  have h1 : Rel cfg dflt nr nf { s with sst := t } ct fm :=
    h.frame rfl rfl rfl rfl rfl rfl rfl id (fun _ _ h => h)
  exact h1.grow ⟨h.xf.loc, h.xf.fmts, hs.gxfI, h.xf.loc0, hs.gxf0⟩ ⟨rfl, fun i f hi => hs.fmtOf i f hi⟩

theorem StdR.exec {dflt : Fmt} (s : Sheet Fmt) (l : List (Op Fmt)) (op : Op Fmt) (hG : Gen dflt s)
    (h : StdR dflt s l) : StdR dflt (s.exec op).2 (l ++ [op]) := by
  refine ⟨h.1.exec hG op, ?_⟩
  have hcfg : (s.exec op).2.cfg = s.cfg := (hG.exec op).2.cfg
  rw [hcfg]
  intro hstd nr nf hnr hnf
  have h1 := (h.2 hstd nr nf (fun e o ho => hnr e o (List.mem_append_left _ ho))
    (fun o ho => hnf o (List.mem_append_left _ ho))).exec op
    (fun e => hnr e op (by simp)) (hnf op (by simp))
  refine h1.congr ?_ ?_
  · intro r c; simp [codedContent, ctAfter]
  · intro r c; simp [codedFmt, fmAfter]

theorem StdR.shared {dflt : Fmt} {s : Sheet Fmt} {l : List (Op Fmt)} {t : SST} {g : List (Fmt × Nat)}
    (hs : Shared dflt s t g) (h : StdR dflt s l) : StdR dflt { s with sst := t, gxf := g } l := by
  refine ⟨h.1.same hs.fmtOf (DimsLe.refl _) rfl rfl (fun _ => rfl) (fun _ => rfl), ?_⟩
  intro hstd nr nf hnr hnf
  exact (h.2 hstd nr nf hnr hnf).shared hs

theorem StdR.book (cfgs : List Cfg) (merge : Fmt → Fmt → Fmt) (dflt : Fmt) (ops : List (Nat × Op Fmt)) :
    BookInv cfgs dflt (StdR dflt) ((Book.new cfgs merge dflt).run ops) ops := by
  apply book_lift
  · intro cfg
    refine ⟨RowColOk.new cfg merge dflt, ?_⟩
    intro hstd nr nf _ _
    exact Rel.new cfg hstd.1 hstd.2.1 merge dflt nr nf
  · intro s l op hG h; exact StdR.exec s l op hG h
  · intro s l t g _ hs h; exact StdR.shared hs h

end Verif
