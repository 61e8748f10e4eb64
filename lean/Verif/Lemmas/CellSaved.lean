import Verif.Lemmas.CellHold
import Verif.Lemmas.SavedAll
import Verif.Lemmas.Read
/-!
The rows of a saved worksheet hold texts that can be written, so the cells read back from the text of the part are the
cells of the rows.
-/
set_option linter.unusedSectionVars false
set_option linter.unusedSimpArgs false
namespace Verif
open BMap Spec
variable {Fmt : Type} [DecidableEq Fmt]
variable {cfg : Cfg} {s : Sheet Fmt}

/-- The rows of a worksheet with good texts. -/
theorem Hold.rows_good (h : Hold cfg s) : ∀ ro ∈ s.rows,
    (∀ p ∈ ro.cells.getD [], CellGood p.2.1 ∧ p.2.1.isWritten cfg.constMem = true) ∧
      ∀ o, ro.opt = some o → attrSafe o.height = true := by
  unfold Sheet.rows
  split
  · exact (h.flushRows _).out
  · intro ro hro
    unfold Sheet.writeDataTable at hro
    simp only [List.mem_filterMap] at hro
    obtain ⟨r, _, hro⟩ := hro
    split at hro
    · split at hro
      · cases hro
        refine ⟨by simp, fun o ho => h.rows _ (mem_of_get ho)⟩
      · cases hro
    · rename_i cols hcols
      cases hro
      refine ⟨?_, fun o ho => h.rows _ (mem_of_get ho)⟩
      exact h.writeCells (fun p hp => h.table.get hcols p hp) _

/-- A saved worksheet holds good texts. -/
theorem saved_hold {cfgs : List Cfg} {dflt : Fmt} {R : Sheet Fmt → List (Op Fmt) → Prop} {b : Book Fmt}
    {ops : List (Nat × Op Fmt)} (hb : BookInv cfgs dflt R b ops) (h : BookHold cfgs b) (extra : List Fmt) {i : Nat}
    (hs : (b.prepare extra).sheets[i]? = some s) : ∃ cfg, cfgs[i]? = some cfg ∧ ∃ t, Hold cfg { s with sst := t } := by
  obtain ⟨_, _, _, _, g5, hp⟩ := prepare_spec hb extra
  have hlt : i < b.sheets.length := by
    rw [← g5]; exact (List.getElem?_eq_some_iff.mp hs).1
  have hs0 : b.sheets[i]? = some b.sheets[i] := List.getElem?_eq_getElem hlt
  generalize b.sheets[i] = s0 at hs0
  obtain ⟨l, t', _, _, _, _, hget⟩ := hp i s0 hs0
  rw [hs] at hget
  obtain ⟨cfg, hc, hh⟩ := h.sheets i s0 hs0
  refine ⟨cfg, hc, b.sst, ?_⟩
  have h0 := hh b.sst h.keys
  have e := Option.some.inj hget
  have e2 := withIds_same ({ s0 with globalXf := l } : Sheet Fmt) t'
  rw [← e] at e2
  have ht : TblAll CellGood s.table := by
    intro q hq p hp
    rw [e] at hq
    obtain ⟨q', hq', _, c, hc, _, hcc⟩ := withIds_cells _ _ hq hp
    unfold CellGood
    rw [hcc]
    exact h0.table q' hq' (p.1, c) hc
  rw [e2]
  exact ⟨h0.cfgEq, h0.dh, ht, h0.ahead, h0.out, h0.keys, h0.rows⟩

theorem rows_sst (s : Sheet Fmt) (t : SST) : ({ s with sst := t } : Sheet Fmt).rows = s.rows := by
  have key : ∀ (l : List Nat) (s : Sheet Fmt), (l.foldl Sheet.flushDataRow ({ s with sst := t } : Sheet Fmt)) =
      { (l.foldl Sheet.flushDataRow s) with sst := t } := by
    intro l; induction l with
    | nil => intro s; rfl
    | cons a l ih => intro s; simp only [List.foldl_cons]; rw [← ih]; rfl
  unfold Sheet.rows
  have : ({ s with sst := t } : Sheet Fmt).cfg = s.cfg := rfl
  rw [this]
  split
  · have : ({ s with sst := t } : Sheet Fmt).flushLastRow = { s.flushLastRow with sst := t } := key _ _
    rw [this]
  · rfl

/-- What a reader finds in the text of a saved worksheet and of the shared strings part. -/
theorem saved_read {cfgs : List Cfg} {dflt : Fmt} {R : Sheet Fmt → List (Op Fmt) → Prop} {b : Book Fmt}
    {ops : List (Nat × Op Fmt)} (hb : BookInv cfgs dflt R b ops) (h : BookHold cfgs b) (extra : List Fmt)
    (siOrder : List (Str × Nat)) (hsi : siOrder.Perm (b.prepare extra).sst.strings) {i : Nat}
    (hs : (b.prepare extra).sheets[i]? = some s) (hr : ∀ e ∈ cellsOf s.rows, e.2.2.1.resolvesIn (sstList siOrder))
    (hm : rowMajor s.rows) (hempty : s.table = [] → s.notes = [] → s.changedRows = [] → s.rows = []) (x14 : Bool)
    (images : List Nat) :
    ∃ seen, readSheet (sharedStringsText (b.prepare extra).sst (sstList siOrder)) (s.sheetDataText x14 images) = some seen ∧
      (∀ r c, Meant (readVia (sstList siOrder) s.rows r c) (viewAt seen r c)) ∧
      (∀ r c, styleAt seen r c = (readStyle s.rows r c).getD 0) ∧
      (∀ r, settingsAt seen r = (s.rows.find? fun ro => ro.row == r).map fun ro => s.rowSettings ro.opt) := by
  obtain ⟨cfg, hc, t, hh⟩ := saved_hold hb h extra hs
  have hrow := hh.rows_good
  rw [rows_sst] at hrow
  have hcfg : s.cfg = cfg := hh.cfgEq
  have hkeys : ∀ k ∈ sstList siOrder, keyOk k := by
    intro k hk
    simp only [sstList, List.mem_map, List.mem_mergeSort] at hk
    obtain ⟨p, hp, rfl⟩ := hk
    exact h.prepare_keys extra p (hsi.mem_iff.mp hp)
  obtain ⟨shared, hsh, hok⟩ := sharedStrings_spec (b.prepare extra).sst (sstList siOrder) hkeys
  have hg : ∀ ro ∈ s.rows, RowGood s.cfg.constMem (sstList siOrder) ro := by
    intro ro hro
    refine ⟨fun p hp => ⟨?_, hr (ro.row, p) ?_, ((hrow ro hro).1 p hp).1⟩, (hrow ro hro).2⟩
    · rw [hcfg]; exact ((hrow ro hro).1 p hp).2
    · simp only [cellsOf, List.mem_flatMap, List.mem_map]
      exact ⟨ro, hro, p, hp, rfl⟩
  obtain ⟨n, seen, h1, h2, h3, h4⟩ := sheetData_spec s x14 images shared (sstList siOrder) hok (show attrSafe s.defaultHeight = true by have := hh.dh; dsimp only at this; rw [this]; decide) hm hg hempty
  refine ⟨seen, ?_, ?_, ?_, h4⟩
  · unfold readSheet
    rw [hsh, h1]
    exact h2
  · intro r c
    have := h3 r c
    unfold readVia viewAt
    cases e : (cellsOf s.rows).find? (fun e => e.1 == r && e.2.1 == c) with
    | none =>
      rw [e] at this
      have : seenAt seen r c = none := this
      rw [this]
      exact Meant.blank
    | some e' =>
      rw [e] at this
      dsimp only
      rw [contentVia_of_resolves (hr e' (List.mem_of_find?_eq_some e))]
      rcases this with ⟨h1, h2, h3⟩ | ⟨v, hv, hx⟩
      · rw [h1, h2]; exact Meant.blank
      · rw [hx]; exact hv
  · intro r c
    have := h3 r c
    unfold readStyle styleAt
    cases e : (cellsOf s.rows).find? (fun e => e.1 == r && e.2.1 == c) with
    | none =>
      rw [e] at this
      have : seenAt seen r c = none := this
      rw [this]; rfl
    | some e' =>
      rw [e] at this
      rcases this with ⟨h1, h2, h3⟩ | ⟨v, hv, hx⟩
      · rw [h1]; exact h3.symm
      · rw [hx]; rfl

end Verif
