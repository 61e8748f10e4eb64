import Verif.Lemmas.Saved
/-! Worksheets of a saved workbook in any mode. -/
set_option linter.unusedSectionVars false
set_option linter.unusedSimpArgs false
namespace Verif
open BMap
variable {Fmt : Type} [DecidableEq Fmt]

theorem mem_assignIdsRow {m : BMap Cell} {t : SST} {p : Nat × Cell} (h : p ∈ (assignIdsRow m t).1) :
    ∃ c, (p.1, c) ∈ m ∧ IdRel c p.2 := by
  induction m generalizing t with
  | nil => simp [assignIdsRow] at h
  | cons q m ih =>
    obtain ⟨k, c⟩ := q
    simp only [assignIdsRow] at h
    rcases List.mem_cons.mp h with rfl | h
    · exact ⟨c, List.mem_cons_self, t, rfl⟩
    · obtain ⟨c', hc, hi⟩ := ih h
      exact ⟨c', List.mem_cons_of_mem _ hc, hi⟩

theorem mem_assignIdsTable {m : BMap (BMap Cell)} {t : SST} {q : Nat × BMap Cell}
    (h : q ∈ (assignIdsTable m t).1) :
    ∃ m' t', (q.1, m') ∈ m ∧ q.2 = (assignIdsRow m' t').1 := by
  induction m generalizing t with
  | nil => simp [assignIdsTable] at h
  | cons p m ih =>
    obtain ⟨k, c⟩ := p
    simp only [assignIdsTable] at h
    rcases List.mem_cons.mp h with rfl | h
    · exact ⟨c, t, List.mem_cons_self, rfl⟩
    · obtain ⟨m', t', hc, hi⟩ := ih h
      exact ⟨m', t', List.mem_cons_of_mem _ hc, hi⟩

theorem withIds_same (s : Sheet Fmt) (t : SST) :
    (s.withIds t).1 = { s with table := (s.withIds t).1.table } := by
  unfold Sheet.withIds Sheet.updateStringTableIds
  split
  · rfl
  · split <;> rfl

theorem withIds_cells (s : Sheet Fmt) (t : SST) {q : Nat × BMap Cell} (hq : q ∈ (s.withIds t).1.table)
    {p : Nat × Cell} (hp : p ∈ q.2) :
    ∃ q' ∈ s.table, q'.1 = q.1 ∧ ∃ c, (p.1, c) ∈ q'.2 ∧ p.2.xf = c.xf ∧ p.2.content = c.content := by
  unfold Sheet.withIds Sheet.updateStringTableIds at hq
  split at hq
  · exact ⟨q, hq, rfl, p.2, hp, rfl, rfl⟩
  · split at hq
    · exact ⟨q, hq, rfl, p.2, hp, rfl, rfl⟩
    · obtain ⟨m', t', hm, e⟩ := mem_assignIdsTable hq
      rw [e] at hp
      obtain ⟨c, hc, hi⟩ := mem_assignIdsRow hp
      exact ⟨_, hm, rfl, c, hc, hi.xf, hi.content⟩

/-- Every worksheet of a prepared workbook satisfies the all-mode invariant on the final
tables. -/
theorem saved_gen {cfgs : List Cfg} {dflt : Fmt} {R : Sheet Fmt → List (Op Fmt) → Prop} {b : Book Fmt}
    {ops : List (Nat × Op Fmt)} (h : BookInv cfgs dflt R b ops) (extra : List Fmt) {i : Nat}
    {s' : Sheet Fmt} (hs' : (b.prepare extra).sheets[i]? = some s') :
    Gen dflt (s'.view (b.prepare extra)) ∧ cfgs[i]? = some s'.cfg := by
  obtain ⟨g1, g2, g3, g4, g5, hp⟩ := prepare_spec h extra
  have hlt : i < b.sheets.length := by
    rw [← g5]; exact (List.getElem?_eq_some_iff.mp hs').1
  have hs : b.sheets[i]? = some b.sheets[i] := List.getElem?_eq_getElem hlt
  generalize b.sheets[i] = s at hs
  obtain ⟨l, t', ht1, ht2, hl, hg, hget⟩ := hp i s hs
  rw [hs'] at hget
  cases hget
  have hG := h.gen i s hs
  have hsh : Shared dflt (s.view b) (b.prepare extra).sst (b.prepare extra).gxf :=
    ⟨g3, g4, g1, g2 _ _ h.gxf0, g2⟩
  have hG' := hG.shared hsh
  have hids := (withIds_spec ({ s with globalXf := l } : Sheet Fmt) ht1
    (hG.table.imp fun c hc => hc.1.mono ht2)).2.2
  rw [withIds_same]
  refine ⟨?_, h.cfg i s hs⟩
  refine ⟨⟨hG'.xf.loc, hG'.xf.fmts, hG'.xf.glob, hG'.xf.loc0, hG'.xf.glob0⟩, hG'.sst, ?_, ?_, ?_, hG'.rowsS,
    hG'.colsS, ?_, ?_⟩
  · intro q hq p hp
    have hq' : q ∈ (({ s with globalXf := l } : Sheet Fmt).withIds t').1.table := hq
    refine ⟨(hids q hq' p hp).mono hg, ?_⟩
    obtain ⟨q', hq', _, c, hc, hx, _⟩ := withIds_cells _ _ hq' hp
    rw [hx]
    exact (hG'.table q' hq' _ hc).2
  · exact hG'.ahead
  · exact hG'.out
  · exact hG'.rowsV
  · exact hG'.colsV

/-- Cells written by the standard writer come from the table. -/
theorem mem_writeDataTable {s : Sheet Fmt} {e : Nat × Nat × Cell × Nat} (h : e ∈ cellsOf s.writeDataTable) :
    ∃ q ∈ s.table, q.1 = e.1 ∧ (e.2.1, e.2.2.1) ∈ q.2 ∧
      e.2.2.2 = s.cellStyle (s.changedRows.get e.1) e.2.1 e.2.2.1 := by
  unfold cellsOf Sheet.writeDataTable at h
  simp only [List.mem_flatMap, List.mem_filterMap, List.mem_map] at h
  obtain ⟨ro, ⟨q, _, hro⟩, p, hp, rfl⟩ := h
  split at hro
  · split at hro
    · cases hro; simp at hp
    · cases hro
  · rename_i cols hcols
    cases hro
    simp only [Option.getD_some, Sheet.writeCells, List.mem_map, List.mem_filter] at hp
    obtain ⟨a, ⟨ha, _⟩, rfl⟩ := hp
    exact ⟨(q, cols), mem_of_get hcols, rfl, ha, rfl⟩

/-- All written cells of any sheet satisfying the all-mode invariant have proper string ids. -/
theorem Gen.rows_ids {dflt : Fmt} {s : Sheet Fmt} (h : Gen dflt s) {e : Nat × Nat × Cell × Nat}
    (he : e ∈ cellsOf s.rows) : e.2.2.1.IdOk s.sst := by
  unfold Sheet.rows at he
  split at he
  · have h1 := h.flushLastRow (rc := false)
    simp only [cellsOf, List.mem_flatMap, List.mem_map] at he
    obtain ⟨ro, hro, p, hp, rfl⟩ := he
    have := (h1.1.out ro hro p hp).1
    have e2 : s.flushLastRow.sst = s.sst := by
      have : ∀ (l : List Nat) (s : Sheet Fmt), (l.foldl Sheet.flushDataRow s).sst = s.sst := by
        intro l; induction l with
        | nil => intro s; rfl
        | cons a l ih => intro s; simp only [List.foldl_cons]; rw [ih]; rfl
      exact this _ _
    rw [e2] at this
    exact this
  · obtain ⟨q, hq, _, hp, _⟩ := mem_writeDataTable he
    exact (h.table q hq _ hp).1

/-- In the modes using workbook-wide formats the written style indices are valid. -/
theorem Gen.rows_styles {dflt : Fmt} {s : Sheet Fmt} (h : Gen dflt s) (hcm : s.cfg.constMem = true)
    (hgl : s.cfg.globalXfs = true) {e : Nat × Nat × Cell × Nat}
    (he : e ∈ cellsOf s.rows) : ((tblKeys s.gxf)[e.2.2.2]?).isSome := by
  unfold Sheet.rows at he
  rw [if_pos hcm] at he
  have h1 := h.flushLastRow (rc := false)
  simp only [cellsOf, List.mem_flatMap, List.mem_map] at he
  obtain ⟨ro, hro, p, hp, rfl⟩ := he
  have := (h1.1.out ro hro p hp).2 (by rw [h1.2.cfg]; exact hgl)
  have e2 : s.flushLastRow.gxf = s.gxf := by
    have : ∀ (l : List Nat) (s : Sheet Fmt), (l.foldl Sheet.flushDataRow s).gxf = s.gxf := by
      intro l; induction l with
      | nil => intro s; rfl
      | cons a l ih => intro s; simp only [List.foldl_cons]; rw [ih]; rfl
    exact this _ _
  rw [e2] at this
  exact this

theorem view_rows (s : Sheet Fmt) (b : Book Fmt) : cellsOf (s.view b).rows = cellsOf s.rows := by
  have key : ∀ (l : List Nat) (s : Sheet Fmt), (l.foldl Sheet.flushDataRow (s.view b)) =
      (l.foldl Sheet.flushDataRow s).view b := by
    intro l; induction l with
    | nil => intro s; rfl
    | cons a l ih => intro s; simp only [List.foldl_cons]; rw [← ih]; rfl
  unfold Sheet.rows
  have : (s.view b).cfg = s.cfg := rfl
  rw [this]
  split
  · have : (s.view b).flushLastRow = s.flushLastRow.view b := key _ _
    rw [this]; rfl
  · rfl

end Verif
