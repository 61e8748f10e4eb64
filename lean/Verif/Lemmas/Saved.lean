import Verif.Lemmas.StdBook
/-! Standard worksheets of a saved workbook. -/
set_option linter.unusedSectionVars false
set_option linter.unusedSimpArgs false
namespace Verif
open BMap
variable {Fmt : Type} [DecidableEq Fmt]

/-- Everything known about a standard worksheet after `prepare`. -/
structure SavedStd (cfg : Cfg) (dflt : Fmt) (b b' : Book Fmt) (l : List (Op Fmt)) (s' : Sheet Fmt) : Prop where
  cfgEq : s'.cfg = cfg
  rowcol : RowColOk dflt (s'.view b) l
  rel : ∀ nr nf, (nr = true → ∀ op ∈ l, op.isRangeFormat = false) → (∀ op ∈ l, op.respects nf = true) →
    Rel cfg dflt nr nf (s'.view b) (codedContent cfg l) (codedFmt cfg l)
  written : ∀ r c cell, cellAt s'.table r c = some cell → cell.isWritten false = true
  xf : ∀ (k : Nat) (f : Fmt), (s'.view b).fmtOf k = some f →
    ∃ j, s'.globalXf[k]? = some j ∧ (tblKeys b'.gxf)[j]? = some f
  ids : TblAll (·.IdOk b'.sst) s'.table

theorem saved_std {cfgs : List Cfg} {dflt : Fmt} {b : Book Fmt} {ops : List (Nat × Op Fmt)}
    (h : BookInv cfgs dflt (StdR dflt) b ops) (extra : List Fmt) {i : Nat} {cfg : Cfg}
    (hc : cfgs[i]? = some cfg) (hstd : cfg.isStandard) :
    ∃ s', (b.prepare extra).sheets[i]? = some s' ∧
      SavedStd cfg dflt b (b.prepare extra) (opsFor i ops) s' := by
  have hlt : i < b.sheets.length := by
    rw [h.len]; exact (List.getElem?_eq_some_iff.mp hc).1
  have hs : b.sheets[i]? = some b.sheets[i] := List.getElem?_eq_getElem hlt
  generalize b.sheets[i] = s at hs
  obtain ⟨_, _, _, _, _, hp⟩ := prepare_spec h extra
  obtain ⟨l, t', ht1, ht2, hl, hg, hget⟩ := hp i s hs
  have hcfg : s.cfg = cfg := by
    have := h.cfg i s hs; rw [hc] at this; cases this; rfl
  have hR := h.rel i s hs
  have hG := h.gen i s hs
  have hup : ({ s with globalXf := l } : Sheet Fmt).withIds t' =
      ({ s with globalXf := l } : Sheet Fmt).updateStringTableIds t' := by
    unfold Sheet.withIds; rw [if_neg]; simp only [hcfg, hstd.2.2.2]; simp
  rw [hup] at hg hget
  refine ⟨_, hget, ?_⟩
  have hview : (({ s with globalXf := l } : Sheet Fmt).updateStringTableIds t').1.view b =
      (({ (s.view b) with globalXf := l } : Sheet Fmt).updateStringTableIds t').1 := by
    unfold Sheet.updateStringTableIds Sheet.view
    dsimp only
    split <;> rfl
  have hrel : ∀ nr nf, (nr = true → ∀ op ∈ opsFor i ops, op.isRangeFormat = false) →
      (∀ op ∈ opsFor i ops, op.respects nf = true) →
      Rel cfg dflt nr nf ({ (s.view b) with globalXf := l } : Sheet Fmt) (codedContent cfg (opsFor i ops))
        (codedFmt cfg (opsFor i ops)) := by
    intro nr nf h1 h2
    have e : (s.view b).cfg = cfg := hcfg
    have := hR.2 (by rw [e]; exact hstd) nr nf h1 h2
    rw [e] at this
    exact this.frame rfl rfl rfl rfl rfl rfl rfl id (fun _ _ h => h)
  have hany := (hrel false .any (by simp) (fun op _ => by cases op <;> rfl)).ids t'
  have hsame : ∀ s0 : Sheet Fmt, (s0.updateStringTableIds t').1 =
      { s0 with table := (s0.updateStringTableIds t').1.table } := by
    intro s0; unfold Sheet.updateStringTableIds; split <;> rfl
  refine ⟨?_, ?_, ?_, ?_, ?_, ?_⟩
  · rw [hsame]; exact hcfg
  · rw [hview, hsame]
    exact hR.1.same (fun _ _ h => h) (DimsLe.refl _) rfl rfl (fun _ => rfl) (fun _ => rfl)
  · intro nr nf h1 h2
    rw [hview]
    exact ((hrel nr nf h1 h2).ids t').1
  · rw [← hview] at hany; exact hany.2
  · intro k f hk
    rw [hsame]
    have e1 : (s.view b).fmtOf k = some f := by
      rw [hview, hsame] at hk
      simpa [Sheet.fmtOf] using hk
    have hgx : (s.view b).cfg.globalXfs = false := by
      show s.cfg.globalXfs = false
      rw [hcfg]; exact hstd.2.2.1
    have e2 : s.xfFormats[k]? = some f := by
      have := hG.xf.fmts
      have e3 : (s.view b).xfFormats = s.xfFormats := rfl
      rw [← e3, this]
      simpa [Sheet.fmtOf, hgx] using e1
    exact hl k f e2
  · have := (update_spec ({ s with globalXf := l } : Sheet Fmt) ht1
      ((hG.table.imp fun c hc => hc.1.mono ht2))).2.2
    exact this.imp fun c hc => hc.mono hg

/-- The style index written for a cell resolves to the format of its effective local index. -/
theorem SavedStd.style {cfg : Cfg} {dflt : Fmt} {b b' : Book Fmt} {l : List (Op Fmt)} {s' : Sheet Fmt}
    (h : SavedStd cfg dflt b b' l s') (hstd : cfg.isStandard) (hz : (tblKeys b'.gxf)[0]? = some dflt)
    {xf : Nat} {f : Fmt} (hf : (s'.view b).fmtOf xf = some f) (r c : Nat) :
    (xf ≠ 0 → (tblKeys b'.gxf)[s'.getCellXfIndex xf (s'.changedRows.get r) c]? = some f) ∧
    (xf = 0 → (tblKeys b'.gxf)[s'.getCellXfIndex 0 (s'.changedRows.get r) c]? =
      some (match specRowFmt l r with
        | some g => if g ≠ dflt then g else (specColFmt l c).getD dflt
        | none => (specColFmt l c).getD dflt)) := by
  have hgl : s'.cfg.globalXfs = false := by rw [h.cfgEq]; exact hstd.2.2.1
  have hx : XfInv dflt (s'.view b) := (h.rel false .any (by simp) (fun op _ => by cases op <;> rfl)).xf
  have hzero : (s'.view b).fmtOf 0 = some dflt := hx.fmtOf_zero
  have key : ∀ k g, (s'.view b).fmtOf k = some g →
      (tblKeys b'.gxf)[if k ≠ 0 then s'.getGlobalXfIndex k else k]? = some g := by
    intro k g hk
    by_cases e : k = 0
    · subst e
      rw [hzero] at hk; cases hk
      simpa using hz
    · rw [if_pos e]
      obtain ⟨j, hj, hjf⟩ := h.xf k g hk
      simp only [Sheet.getGlobalXfIndex, hgl]
      simp [List.getD, hj, hjf]
  constructor
  · intro hne
    unfold Sheet.getCellXfIndex
    simp only [if_neg hne]
    exact key xf f hf
  · intro _
    unfold Sheet.getCellXfIndex
    apply key
    have hcolv : ∀ k, k = 0 → (s'.view b).fmtOf (match s'.changedCols.get c with | some o => o.xf | none => k) =
        some ((specColFmt l c).getD dflt) := by
      intro k hk
      cases hc : s'.changedCols.get c with
      | some o => exact h.rowcol.cols c o hc
      | none => rw [h.rowcol.cols0 c hc, hk]; exact hzero
    cases hr : s'.changedRows.get r with
    | none =>
      rw [h.rowcol.rows0 r hr]
      simp only [if_true]
      exact hcolv 0 rfl
    | some o =>
      have ho := h.rowcol.rows r o hr
      simp only [if_true]
      by_cases hox : o.xf = 0
      · rw [if_pos hox]
        have hd : (specRowFmt l r).getD dflt = dflt := by
          rw [hox, hzero] at ho; exact (Option.some.inj ho).symm
        have : (match specRowFmt l r with
          | some g => if g ≠ dflt then g else (specColFmt l c).getD dflt
          | none => (specColFmt l c).getD dflt) = (specColFmt l c).getD dflt := by
          cases hs : specRowFmt l r with
          | none => rfl
          | some g => rw [hs] at hd; simp at hd; simp [hd]
        rw [this]
        exact hcolv o.xf hox
      · rw [if_neg hox, ho]
        have hne : (specRowFmt l r).getD dflt ≠ dflt := by
          intro e
          rw [e] at ho
          exact hox (hx.fmtOf_inj ho hzero)
        cases hs : specRowFmt l r with
        | none => rw [hs] at hne; simp at hne
        | some g => rw [hs] at hne; simp at hne; simp [hne]

/-- Reading the saved rows of a standard worksheet. -/
theorem SavedStd.find {cfg : Cfg} {dflt : Fmt} {b b' : Book Fmt} {l : List (Op Fmt)} {s' : Sheet Fmt}
    (h : SavedStd cfg dflt b b' l s') (hstd : cfg.isStandard) (r c : Nat) :
    (cellsOf s'.rows).find? (fun e => e.1 == r && e.2.1 == c) =
      if s'.dims.firstRow ≤ r ∧ r ≤ s'.dims.lastRow then
        (cellAt s'.table r c).map
          (fun cell => (r, c, cell, s'.getCellXfIndex cell.xf (s'.changedRows.get r) c))
      else none := by
  have hcm : s'.cfg.constMem = false := by rw [h.cfgEq]; exact hstd.1
  have hrel := h.rel false .any (by simp) (fun op _ => by cases op <;> rfl)
  have htbl : TableOk s'.table := hrel.tbl
  unfold Sheet.rows
  rw [hcm]
  simp only [Bool.false_eq_true, if_false]
  rw [find_writeDataTable s' htbl]
  split
  · cases hc : cellAt s'.table r c with
    | none => rfl
    | some cell =>
      have hw := h.written r c cell hc
      have hni := (hrel.cells r c cell hc).nonInline
      simp only [hcm, Option.filter, hw, if_true, Option.map_some, Option.some.injEq, Prod.mk.injEq, true_and]
      unfold Sheet.cellStyle
      split
      · rename_i t x; exact absurd rfl (hni t x)
      · rfl
  · rfl

end Verif
