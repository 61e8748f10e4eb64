import Verif.Lemmas.SstCount
import Verif.Props.Stream
import Verif.Model.CellXml
/-!
C08: the `count` attribute of the shared string part.
-/
set_option linter.unusedSectionVars false
set_option linter.unusedSimpArgs false
namespace Verif
open BMap
variable {Fmt : Type} [DecidableEq Fmt]

theorem run_sst (cfgs : List Cfg) (merge : Fmt → Fmt → Fmt) (dflt : Fmt) (hall : ∀ c ∈ cfgs, c.globalSst = false)
    (ops : List (Nat × Op Fmt)) : ((Book.new cfgs merge dflt).run ops).sst = SST.new := by
  suffices H : ∀ (rest pre : List (Nat × Op Fmt)), ((Book.new cfgs merge dflt).run pre).sst = SST.new →
      ((Book.new cfgs merge dflt).run (pre ++ rest)).sst = SST.new from H ops [] rfl
  intro rest
  induction rest with
  | nil => intro pre h; rw [List.append_nil]; exact h
  | cons p rest ih =>
    intro pre h
    rw [show pre ++ p :: rest = (pre ++ [p]) ++ rest by simp]
    refine ih (pre ++ [p]) ?_
    have hb := StdR.book cfgs merge dflt pre
    unfold Book.run at h hb ⊢
    rw [List.foldl_append, List.foldl_cons, List.foldl_nil]
    generalize pre.foldl (fun b p => b.exec p.1 p.2) (Book.new cfgs merge dflt) = b at h hb
    unfold Book.exec
    split
    · exact h
    · rename_i s hs
      have hg := ((hb.gen p.1 s hs).exec p.2).2.gsst (hall _ (List.mem_of_getElem? (hb.cfg p.1 s hs)))
      exact hg.trans h

theorem Nl.book (cfgs : List Cfg) (merge : Fmt → Fmt → Fmt) (dflt : Fmt) (ops : List (Nat × Op Fmt)) :
    BookInv cfgs dflt (fun s _ => Nl s) ((Book.new cfgs merge dflt).run ops) ops := by
  refine book_lift cfgs merge dflt (fun s _ => Nl s) ?_ ?_ ?_ ops
  · intro cfg _; rfl
  · intro s l op _ h; exact h.exec op
  · intro s l t g _ _ h; exact h

theorem noRefs_of_new {c : Cell} (h : c.IdOk SST.new) : c.stringRef = none := by
  cases c with
  | string s x i =>
    cases i with
    | none => rfl
    | some i => cases h
  | rich s r x i =>
    cases i with
    | none => rfl
    | some i => cases h
  | _ => rfl

theorem countP_flatMap' {α β : Type} (p : β → Bool) (f : α → List β) (l : List α) :
    (l.flatMap f).countP p = (l.map fun a => (f a).countP p).sum := by
  induction l with
  | nil => rfl
  | cons a l ih => simp only [List.flatMap_cons, List.countP_append, List.map_cons, List.sum_cons, ih]

theorem sum_filterMap {α β : Type} (f : α → Option β) (g : β → Nat) (l : List α) :
    ((l.filterMap f).map g).sum = (l.map fun a => ((f a).map g).getD 0).sum := by
  induction l with
  | nil => rfl
  | cons a l ih =>
    simp only [List.filterMap_cons, List.map_cons, List.sum_cons]
    cases e : f a with
    | none => simp only [Option.map_none, Option.getD_none, ih, Nat.zero_add]
    | some b => simp only [List.map_cons, List.sum_cons, Option.map_some, Option.getD_some, ih]

/-- The references in the rows of a standard worksheet are those of its table. -/
theorem writeDataTable_refs {s : Sheet Fmt} (hs : Sorted s.table)
    (hin : ∀ q ∈ s.table, refsOf q.2 ≠ 0 → s.dims.firstRow ≤ q.1 ∧ q.1 ≤ s.dims.lastRow) :
    (cellsOf s.writeDataTable).countP (fun e => e.2.2.1.stringRef.isSome) = tableRefs s.table := by
  unfold cellsOf Sheet.writeDataTable tableRefs
  rw [countP_flatMap', sum_filterMap, ← sum_get s.table hs refsOf
    (l := List.range' s.dims.firstRow (s.dims.lastRow + 1 - s.dims.firstRow)) List.nodup_range' ?_]
  · congr 1
    refine List.map_congr_left fun r _ => ?_
    simp only
    cases e : s.table.get r with
    | none =>
      simp only
      split <;> rfl
    | some m =>
      simp only [Option.map_some, Option.getD_some, List.countP_map]
      exact writeCells_refs s _ m
  · intro q hq h0
    have := hin q hq h0
    rw [List.mem_range']
    exact ⟨q.1 - s.dims.firstRow, by omega, by omega⟩

/-- C08: the `count` attribute is the number of cells that refer to a shared string, for every history on any number of standard
and constant memory worksheets (partial: low memory worksheets are excluded, see the counterexample). -/
theorem C08_count_partial (cfgs : List Cfg) (merge : Fmt → Fmt → Fmt) (dflt : Fmt) (ops : List (Nat × Op Fmt))
    (extra : List Fmt) (hk : ∀ c ∈ cfgs, c.isStandard ∨ c.isConstant) :
    (savedBook cfgs merge dflt ops extra).sst.count =
      ((savedBook cfgs merge dflt ops extra).sheets.map fun s =>
        (cellsOf s.rows).countP fun e => e.2.2.1.stringRef.isSome).sum := by
  have hall : ∀ c ∈ cfgs, c.globalSst = false := fun c hc => by
    rcases hk c hc with h | h
    · exact h.2.2.2
    · exact h.2.2.2
  have hb := StdR.book cfgs merge dflt ops
  have hn := Nl.book cfgs merge dflt ops
  have h0 := run_sst cfgs merge dflt hall ops
  unfold savedBook
  generalize (Book.new cfgs merge dflt).run ops = b at hb hn h0
  have hr := regSheets_spec b.sheets (regFormats_spec extra hb.gxfI).1
  have hno : ∀ s ∈ (regSheets b.sheets (regFormats extra b.gxf).2).1, s.cfg.globalSst = false ∧ NoRefs s.table := by
    intro s hs
    obtain ⟨i, hi⟩ := List.getElem?_of_mem hs
    have hlt : i < b.sheets.length := by rw [← hr.2.2.1]; exact (List.getElem?_eq_some_iff.mp hi).1
    have hsi := List.getElem?_eq_getElem hlt
    obtain ⟨l, hl, _⟩ := hr.2.2.2 i b.sheets[i] hsi
    rw [hl] at hi; cases hi
    refine ⟨hall _ (List.mem_of_getElem? (hb.cfg i b.sheets[i] hsi)), ?_⟩
    intro q hq p hp
    have := ((hb.gen i b.sheets[i] hsi).table q hq p hp).1
    rw [show (b.sheets[i].view b).sst = SST.new from h0] at this
    exact noRefs_of_new this
  have hcount := idSheets_count _ b.sst hno
  rw [h0] at hcount
  have e0 : (b.prepare extra).sst.count = (idSheets (regSheets b.sheets (regFormats extra b.gxf).2).1 b.sst).2.count := rfl
  have e1 : (b.prepare extra).sheets = (idSheets (regSheets b.sheets (regFormats extra b.gxf).2).1 b.sst).1 := rfl
  rw [e0, h0, hcount, ← h0, ← e1, show b.sst.count = 0 by rw [h0]; rfl, Nat.zero_add]
  congr 1
  refine List.map_congr_left fun s' hs' => ?_
  obtain ⟨i, hi⟩ := List.getElem?_of_mem hs'
  obtain ⟨_, _, _, _, g5, hp⟩ := prepare_spec hb extra
  have hlt : i < b.sheets.length := by rw [← g5]; exact (List.getElem?_eq_some_iff.mp hi).1
  have hsi := List.getElem?_eq_getElem hlt
  have hci := hb.cfg i _ hsi
  rcases hk _ (List.mem_of_getElem? hci) with hstd | hcm
  · obtain ⟨s2, hs2, hS⟩ := saved_std hb extra hci hstd
    rw [hi] at hs2; cases hs2
    have hrel := hS.rel false .any (by simp) (by intro op _; cases op <;> rfl)
    unfold Sheet.rows
    rw [hS.cfgEq, hstd.1]
    simp only [Bool.false_eq_true, if_false]
    refine (writeDataTable_refs hrel.tbl.rows ?_).symm
    intro q hq h1
    unfold refsOf at h1
    obtain ⟨p, hp, hpr⟩ := List.countP_pos_iff.mp (Nat.pos_of_ne_zero h1)
    have hgq := get_of_mem_sorted hrel.tbl.rows hq
    have hgp := get_of_mem_sorted (hrel.tbl.cols _ _ hgq) hp
    have hc := hrel.cover q.1 p.1 p.2 (by
      show (BMap.get q.1 s'.table).bind (BMap.get p.1) = some p.2
      rw [show BMap.get q.1 s'.table = some q.2 from hgq]; exact hgp)
      (Or.inr (by
        intro hbl
        obtain ⟨k, c⟩ := p
        cases c <;> first | cases hpr | cases hbl))
    exact ⟨hc.1, hc.2.1⟩
  · obtain ⟨l, t', _, _, _, _, hget⟩ := hp i _ hsi
    rw [hi] at hget; cases hget
    have hls : b.sheets[i].hasLocalSst = false := hn.rel i _ hsi hcm.2.1
    have hw : (({ b.sheets[i] with globalXf := l } : Sheet Fmt).withIds t').1 = { b.sheets[i] with globalXf := l } := by
      unfold Sheet.withIds Sheet.updateStringTableIds
      rw [if_neg (by simp [hcm.2.2.2]), if_pos (by simp [hls])]
    rw [hw]
    have hG := hb.gen i _ hsi
    have hG' : Gen dflt (({ b.sheets[i] with globalXf := l } : Sheet Fmt).view b) :=
      ⟨⟨hG.xf.loc, hG.xf.fmts, hG.xf.glob, hG.xf.loc0, hG.xf.glob0⟩, hG.sst, hG.table, hG.ahead, hG.out, hG.rowsS, hG.colsS,
        hG.rowsV, hG.colsV⟩
    rw [tableRefs_none (fun q hq p hp => ?_), ← view_rows _ b]
    · symm
      rw [List.countP_eq_zero]
      intro e he
      have := hG'.rows_ids he
      rw [show (({ b.sheets[i] with globalXf := l } : Sheet Fmt).view b).sst = SST.new from h0] at this
      rw [noRefs_of_new this]; simp
    · have := (hG.table q hq p hp).1
      rw [show (b.sheets[i].view b).sst = SST.new from h0] at this
      exact noRefs_of_new this

/-- A low memory worksheet writes rich strings inline, and numbers a string that is overwritten at once, but counts both as
shared: `count` is not the number of cells that refer to a shared string (F15). -/
theorem C08_low_memory_count_counterexample :
    let b := savedBook [lowCfg] demoMerge 0 [(0, .rich 0 0 "<r><t>a</t></r>".toList "a".toList none)] []
    let b2 := savedBook [lowCfg] demoMerge 0 [(0, .string 0 0 "a".toList none), (0, .string 0 0 "b".toList none)] []
    b.sst.count = 1 ∧ b.sheets.flatMap (fun s => (cellsOf s.rows).map fun e => cellText true [] e.1 e.2.1 e.2.2.1 e.2.2.2) =
      ["<c r=\"A1\" t=\"inlineStr\"><is><r><t>a</t></r></is></c>".toList] ∧
    b2.sst.count = 2 ∧ (b2.sheets.map fun s => (cellsOf s.rows).length).sum = 1 := by
  refine ⟨?_, ?_, ?_, ?_⟩ <;> decide +kernel

-- three worksheets, two of them standard, with strings, rich strings and an overwritten string
example : (savedBook [{}, streamCfg, {}] demoMerge 0 [(0, .string 0 0 "a".toList none), (0, .string 0 0 "b".toList none),
    (2, .rich 3 3 "<r><t>a</t></r>".toList "a".toList none), (1, .string 0 0 "c".toList none), (2, .string 9 9 "b".toList none)]
    []).sst.count = 3 := by decide +kernel
example : ∀ c ∈ [({} : Cfg), streamCfg, {}], c.isStandard ∨ c.isConstant := by
  intro c hc
  simp only [List.mem_cons, List.not_mem_nil, or_false] at hc
  rcases hc with rfl | rfl | rfl
  · exact Or.inl ⟨rfl, rfl, rfl, rfl⟩
  · exact Or.inr ⟨rfl, rfl, rfl, rfl⟩
  · exact Or.inl ⟨rfl, rfl, rfl, rfl⟩

end Verif
