import Verif.Lemmas.StreamLast
import Verif.Props.Sheet
/-! Constant memory worksheets: the rows of a saved worksheet, in any mode. -/
set_option linter.unusedSectionVars false
set_option linter.unusedSimpArgs false
set_option linter.unusedVariables false
namespace Verif
open BMap
variable {Fmt : Type} [DecidableEq Fmt]
variable {E : Env Fmt} {A : Abs Fmt} {s : Sheet Fmt}

/-- The rows of the decoded machine. -/
def Abs.IsRows (dflt : Fmt) (A : Abs Fmt) (l : List (RowView Fmt)) : Prop :=
  ∃ N, (∀ q, N ≤ q → A.rowView dflt q = none) ∧ l = (List.range N).filterMap (A.rowView dflt)

theorem Abs.IsRows.unique {dflt : Fmt} {l l' : List (RowView Fmt)} (h : A.IsRows dflt l) (h' : A.IsRows dflt l') :
    l = l' := by
  obtain ⟨N, h1, rfl⟩ := h
  obtain ⟨M, h2, rfl⟩ := h'
  rcases Nat.le_total N M with e | e
  · exact (range_filterMap_skip _ e fun q hq _ => h1 q hq).symm
  · exact range_filterMap_skip _ e fun q hq _ => h2 q hq

theorem rowView_says {dflt : Fmt} {r : Nat} {v : RowView Fmt} (h : A.rowView dflt r = some v) :
    (v.settings.isSome || v.cells.isSome) = true := by
  unfold Abs.rowView at h
  split at h
  · rename_i e
    cases h
    simp only [Option.isSome_map]
    rw [Bool.or_comm]; exact e
  · cases h

theorem readRows_eq (xfs : List Fmt) (si : List Str) (s : Sheet Fmt) :
    s.readRows xfs si = (s.rows.map (s.readRow xfs si)).filter fun v => v.settings.isSome || v.cells.isSome := by
  unfold Sheet.readRows
  rw [List.filter_map]
  congr 1
  apply List.filter_congr
  intro ro _
  simp [Sheet.readRow]

theorem IsRows.filter {dflt : Fmt} {l : List (RowView Fmt)} (h : A.IsRows dflt l) :
    l.filter (fun v => v.settings.isSome || v.cells.isSome) = l := by
  rw [List.filter_eq_self]
  obtain ⟨N, _, rfl⟩ := h
  intro v hv
  obtain ⟨q, _, hq⟩ := List.mem_filterMap.mp hv
  exact rowView_says hq

/-! ### Constant memory -/

theorem inTimeFrom_sub (c : Cfg) (k : Nat) (l : List (Op Fmt)) : ∀ op ∈ inTimeFrom c k l, op ∈ l := by
  induction l generalizing k with
  | nil => intro op h; cases h
  | cons a l ih =>
    intro op h
    have h' : op ∈ (if a.isLate k then [] else [a]) ++ inTimeFrom c (nextCur c k a) l := h
    rcases List.mem_append.mp h' with h | h
    · split at h
      · cases h
      · simp at h; subst h; exact List.mem_cons_self
    · exact List.mem_cons_of_mem _ (ih _ op h)


theorem withIds_const {s : Sheet Fmt} {t : SST} (h : s.cfg.globalSst = true ∨ s.hasLocalSst = false) :
    (s.withIds t).1 = s := by
  unfold Sheet.withIds Sheet.updateStringTableIds
  split
  · rfl
  · rename_i e
    rcases h with h | h
    · exact absurd h e
    · rw [h]; rfl

/-- The rows a reader finds in a saved constant memory or low memory worksheet. -/
theorem saved_const {cfgs : List Cfg} {merge : Fmt → Fmt → Fmt} {dflt : Fmt} {ops : List (Nat × Op Fmt)}
    {extra : List Fmt} {i : Nat} {c : Cfg} (hc : cfgs[i]? = some c) (hk : c.isConstant ∨ c.isLow)
    {xfOrder : List (Fmt × Nat)} (hxf : xfOrder.Perm (savedBook cfgs merge dflt ops extra).gxf)
    {siOrder : List (Str × Nat)} (hsi : siOrder.Perm (savedBook cfgs merge dflt ops extra).sst.strings)
    (hst : streamsFrom c 0 (opsFor i ops) = true)
    (hset : ∀ op ∈ opsFor i ops, op.settingsRow ≠ some (cursor c (opsFor i ops)))
    (hdata : (∃ op ∈ opsFor i ops, (op.lands c).isSome) ∨ ∀ op ∈ opsFor i ops, op.settingsRow = none)
    (e0 : Env Fmt) (he : e0 = ⟨c, merge, dflt⟩) :
    ∃ s, (savedBook cfgs merge dflt ops extra).sheets[i]? = some s ∧
      (Abs.run e0 (inTime c (opsFor i ops))).IsRows dflt (s.readRows (xfList xfOrder) (sstList siOrder)) ∧
      (∀ ro ∈ s.rows, (ro.opt.isSome || ro.cells.isSome) = true) ∧ (s.table = [] → s.rows = []) := by
  subst he
  have hb := StreamR.book cfgs merge dflt ops
  generalize hbk : (Book.new cfgs merge dflt).run ops = b at hb
  have hlt : i < b.sheets.length := by rw [hb.len]; exact (List.getElem?_eq_some_iff.mp hc).1
  have hs : b.sheets[i]? = some b.sheets[i] := List.getElem?_eq_getElem hlt
  generalize b.sheets[i] = s0 at hs
  have hcfg : s0.cfg = c := by have := hb.cfg i s0 hs; rw [hc] at this; cases this; rfl
  have hm : c.constMem = true := by rcases hk with k | k <;> exact k.1
  obtain ⟨hSim, hcur, _⟩ := (hb.rel i s0 hs c (by rw [show (s0.view b).cfg = c from hcfg]; exact Or.inr hk)
    (by rw [show (s0.view b).cfg = c from hcfg]; exact ⟨rfl, rfl, rfl, rfl⟩)).1
    (by rw [show (s0.view b).cfg = c from hcfg]; exact hm) hst
  obtain ⟨g1, g2, g3, g4, g5, hp⟩ := prepare_spec hb extra
  obtain ⟨l, t', ht1, ht2, hl, hg, hget⟩ := hp i s0 hs
  rw [withIds_const (s := { s0 with globalXf := l })] at hget
  rotate_left
  · show s0.cfg.globalSst = true ∨ s0.hasLocalSst = false
    rcases hk with k | k
    · right
      have := hSim.hasLocal (by rw [show (s0.view b).cfg = c from hcfg]; exact k.2.1)
      exact this
    · left; rw [hcfg]; exact k.2.2.2
  have hsaved : savedBook cfgs merge dflt ops extra = b.prepare extra := by unfold savedBook; rw [hbk]
  rw [hsaved] at hxf hsi ⊢
  refine ⟨_, hget, ?_⟩
  generalize hB : b.prepare extra = B at *
  have hS : Sim ⟨c, merge, dflt⟩ (Abs.run ⟨c, merge, dflt⟩ (inTime c (opsFor i ops)))
      (({ s0 with globalXf := l } : Sheet Fmt).view B) := by
    have hsh : Shared dflt (s0.view b) B.sst B.gxf := ⟨g3, g4, g1, g2 _ _ hb.gxf0, g2⟩
    have hG := hSim.gen.shared hsh
    exact hSim.frame ⟨⟨hG.xf.loc, hG.xf.fmts, hG.xf.glob, hG.xf.loc0, hG.xf.glob0⟩, hG.sst, hG.table, hG.ahead, hG.out,
      hG.rowsS, hG.colsS, hG.rowsV, hG.colsV⟩ rfl rfl (fun i f => hsh.fmtOf i f) (DimsLe.refl _) rfl rfl rfl rfl rfl rfl rfl
      (fun _ => rfl)
  have hcv : (({ s0 with globalXf := l } : Sheet Fmt).view B).cfg = c := hcfg
  have hmv : (({ s0 with globalXf := l } : Sheet Fmt).view B).cfg.constMem = true := by rw [hcv]; exact hm
  have hcur' : (({ s0 with globalXf := l } : Sheet Fmt).view B).currentRow = cursor c (opsFor i ops) := hcur
  have hsub : ∀ op ∈ inTime c (opsFor i ops), op ∈ opsFor i ops := fun op ho => inTimeFrom_sub _ _ _ op ho
  have hrows : ∀ q, (∀ op ∈ opsFor i ops, op.settingsRow ≠ some q) →
      (Abs.run ⟨c, merge, dflt⟩ (inTime c (opsFor i ops))).rows.get q = none := by
    intro q hq
    cases e : (Abs.run ⟨c, merge, dflt⟩ (inTime c (opsFor i ops))).rows.get q with
    | none => rfl
    | some o =>
      obtain ⟨op, ho, h⟩ := run_rows (E := ⟨c, merge, dflt⟩) (inTime c (opsFor i ops)) (by rw [e]; rfl)
      exact absurd h (hq op (hsub op ho))
  have hdd : ((Abs.run ⟨c, merge, dflt⟩ (inTime c (opsFor i ops))).table.get (cursor c (opsFor i ops))).isSome ∨
      ∀ q, (Abs.run ⟨c, merge, dflt⟩ (inTime c (opsFor i ops))).table.get q = none ∧
        (Abs.run ⟨c, merge, dflt⟩ (inTime c (opsFor i ops))).rows.get q = none := by
    by_cases hex : ∃ op ∈ opsFor i ops, (op.lands c).isSome
    · left
      exact (has_iff _).mp (cursor_has ⟨c, merge, dflt⟩ _ hst hex)
    · have hno : ∀ op ∈ opsFor i ops, op.lands c = none := by
        intro op ho
        cases e : op.lands c with
        | none => rfl
        | some r => exact absurd ⟨op, ho, by rw [e]; rfl⟩ hex
      have hns : ∀ op ∈ opsFor i ops, op.settingsRow = none := by
        rcases hdata with h | h
        · exact absurd h hex
        · exact h
      obtain ⟨hz, hf⟩ := first_only ⟨c, merge, dflt⟩ _ hst hno
      rw [show cursor c (opsFor i ops) = 0 from hz]
      cases e0 : (Abs.run ⟨c, merge, dflt⟩ (inTime c (opsFor i ops))).table.get 0 with
      | some m => left; rfl
      | none =>
        right
        intro q
        refine ⟨?_, hrows q (fun op ho e => by rw [hns op ho] at e; cases e)⟩
        cases e : (Abs.run ⟨c, merge, dflt⟩ (inTime c (opsFor i ops))).table.get q with
        | none => rfl
        | some m =>
          have : q = 0 := hf q ((has_iff q).mpr (by
            show ((Abs.run ⟨c, merge, dflt⟩ (inTime c (opsFor i ops))).table.get q).isSome = true
            rw [e]; rfl))
          rw [this] at e
          rw [e0] at e; cases e
  obtain ⟨N, hN, hout⟩ := hS.flushLast hmv (by rw [hcur']; exact hrows _ hset) (by rw [hcur']; exact hdd)
  have hrowsEq : ({ s0 with globalXf := l } : Sheet Fmt).rows = (({ s0 with globalXf := l } : Sheet Fmt).view B).flushLastRow.out := by
    have key : ∀ (l : List Nat) (s : Sheet Fmt), (l.foldl Sheet.flushDataRow (s.view B)) =
        (l.foldl Sheet.flushDataRow s).view B := by
      intro l; induction l with
      | nil => intro s; rfl
      | cons a l ih => intro s; simp only [List.foldl_cons]; rw [← ih]; rfl
    have e : ∀ s : Sheet Fmt, (s.view B).flushLastRow = s.flushLastRow.view B := fun s => key _ s
    unfold Sheet.rows
    rw [if_pos (show ({ s0 with globalXf := l } : Sheet Fmt).cfg.constMem = true from hmv), e]
    rfl
  refine ⟨⟨N, hN, ?_⟩, ?_, ?_⟩
  rotate_left
  · intro ro hro
    rw [hrowsEq] at hro
    have h1 : (({ s0 with globalXf := l } : Sheet Fmt).view B).decOut ro ∈
        (List.range N).filterMap ((Abs.run ⟨c, merge, dflt⟩ (inTime c (opsFor i ops))).rowView dflt) := by
      rw [← hout]; exact List.mem_map_of_mem hro
    obtain ⟨q, _, hq⟩ := List.mem_filterMap.mp h1
    have h2 := rowView_says hq
    unfold Sheet.decOut at h2
    simpa only [Option.isSome_map] using h2
  · intro htab
    rcases hdd with h | h
    · have h1 := hS.tbl (cursor c (opsFor i ops)) (fun _ => hcur'.symm)
      rw [← h1, show (({ s0 with globalXf := l } : Sheet Fmt).view B).table = [] from htab] at h
      cases h
    · have h1 : (List.range N).filterMap ((Abs.run ⟨c, merge, dflt⟩ (inTime c (opsFor i ops))).rowView dflt) = [] :=
        List.filterMap_eq_nil_iff.mpr fun q _ => rowView_none (h q).1 (h q).2
      rw [h1] at hout
      rw [hrowsEq]
      exact List.map_eq_nil_iff.mp hout
  have hisr : (Abs.run ⟨c, merge, dflt⟩ (inTime c (opsFor i ops))).IsRows dflt
      ((List.range N).filterMap ((Abs.run ⟨c, merge, dflt⟩ (inTime c (opsFor i ops))).rowView dflt)) := ⟨N, hN, rfl⟩
  rw [readRows_eq, ← IsRows.filter hisr]
  congr 1
  rw [← hout]
  rw [hrowsEq]
  have hgl : c.globalXfs = true := by rcases hk with k | k <;> exact k.2.2.1
  have hxe : xfList xfOrder = tblKeys B.gxf := sort_by_index g1 hxf
  have hfm : ∀ x, (({ s0 with globalXf := l } : Sheet Fmt).view B).fmtOf x = (xfList xfOrder)[x]? := by
    intro x; unfold Sheet.fmtOf; rw [hcv, hgl, hxe]; rfl
  apply List.map_congr_left
  intro ro hro
  have hGf := (hS.gen.flushLastRow (rc := false)).1
  have hsst : (({ s0 with globalXf := l } : Sheet Fmt).view B).flushLastRow.sst = B.sst :=
    (flushList_dec _ (({ s0 with globalXf := l } : Sheet Fmt).view B)).2.2.2
  unfold Sheet.readRow Sheet.decOut
  congr 1
  · cases ro.opt with
    | none => rfl
    | some o =>
      simp only [Option.map_some, hfm]
      rw [show ({ s0 with globalXf := l } : Sheet Fmt).getGlobalXfIndex o.xf = o.xf from by
        unfold Sheet.getGlobalXfIndex
        rw [if_pos (show ({ s0 with globalXf := l } : Sheet Fmt).cfg.globalXfs = true from by
          show s0.cfg.globalXfs = true
          rw [hcfg]; exact hgl)]]
  · cases ec : ro.cells with
    | none => rfl
    | some cs =>
      simp only [Option.map_some, Option.some.injEq]
      apply List.map_congr_left
      intro p hp
      have := (hGf.out ro hro p (by rw [ec]; exact hp)).1
      rw [hsst] at this
      rw [contentVia_of_resolves (idOk_resolves g3 hsi this), hfm]


/-! ### Standard worksheets -/

/-- The cells of a row without string ids. -/
def bare (m : BMap Cell) : List (Nat × Content × Nat) := m.map fun p => (p.1, p.2.content, p.2.xf)

theorem bare_assign (m : BMap Cell) (t : SST) : bare (assignIdsRow m t).1 = bare m := by
  induction m generalizing t with
  | nil => rfl
  | cons q m ih =>
    obtain ⟨k, c⟩ := q
    have hi : IdRel c (c.assignId t).1 := ⟨t, rfl⟩
    have : bare (assignIdsRow ((k, c) :: m) t).1 =
      (k, (c.assignId t).1.content, (c.assignId t).1.xf) :: bare (assignIdsRow m (c.assignId t).2).1 := rfl
    rw [this, ih, hi.content, hi.xf]; rfl

theorem bare_table (m : BMap (BMap Cell)) (t : SST) (r : Nat) :
    ((assignIdsTable m t).1.get r).map bare = (m.get r).map bare := by
  induction m generalizing t with
  | nil => rfl
  | cons q m ih =>
    obtain ⟨k, c⟩ := q
    simp only [assignIdsTable, BMap.get]
    split
    · simp [bare_assign]
    · exact ih _

theorem bare_withIds (s : Sheet Fmt) (t : SST) (r : Nat) :
    ((s.withIds t).1.table.get r).map bare = (s.table.get r).map bare := by
  unfold Sheet.withIds Sheet.updateStringTableIds
  split
  · rfl
  · split
    · rfl
    · exact bare_table _ _ _

theorem get_of_mem_sorted {β : Type} {m : BMap β} (hs : Sorted m) {p : Nat × β} (h : p ∈ m) : BMap.get p.1 m = some p.2 := by
  induction m with
  | nil => cases h
  | cons q m ih =>
    obtain ⟨k, v⟩ := q
    have hp := List.pairwise_cons.mp hs
    simp only [BMap.get]
    rcases List.mem_cons.mp h with rfl | h
    · simp
    · have := hp.1 _ h
      rw [if_neg (by simp at this; omega)]
      exact ih hp.2 h

theorem filterMap_map_filter {α β γ : Type} (l : List α) (g : α → Option β) (f : β → γ) (P : γ → Bool) (h : α → Option γ)
    (hh : ∀ a ∈ l, ((g a).map f).filter P = h a) : ((l.filterMap g).map f).filter P = l.filterMap h := by
  induction l with
  | nil => rfl
  | cons a l ih =>
    have h1 := hh a List.mem_cons_self
    have h2 := ih fun b hb => hh b (List.mem_cons_of_mem _ hb)
    simp only [List.filterMap_cons]
    cases e : g a with
    | none => rw [e] at h1; simp only [Option.map_none, Option.filter_none] at h1; rw [← h1]; exact h2
    | some b =>
      rw [e] at h1
      simp only [Option.map_some, Option.filter_some] at h1
      rw [← h1]
      simp only [List.map_cons, List.filter_cons]
      split
      · simp only [h2]
      · exact h2

theorem range_filterMap_from {β : Type} (f : Nat → Option β) (a n : Nat) (h : ∀ q, q < a → f q = none)
    (h' : n < a → ∀ q, f q = none) : (List.range n).filterMap f = (List.range' a (n - a)).filterMap f := by
  by_cases e : n < a
  · rw [show n - a = 0 by omega]
    rw [List.filterMap_eq_nil_iff.mpr fun q _ => h' e q]; rfl
  · have : List.range n = List.range a ++ List.range' a (n - a) := by
      rw [List.range_eq_range', List.range_eq_range']
      have := List.range'_append (s := 0) (m := a) (n := n - a) (step := 1)
      simp only [Nat.one_mul, Nat.zero_add] at this
      rw [this]; congr 1; omega
    rw [this, List.filterMap_append, List.filterMap_eq_nil_iff.mpr fun q hq => h q (List.mem_range.mp hq)]
    rfl

/-- The rows a reader finds in a saved standard worksheet. -/
theorem saved_stdRows {cfgs : List Cfg} {merge : Fmt → Fmt → Fmt} {dflt : Fmt} {ops : List (Nat × Op Fmt)}
    {extra : List Fmt} {i : Nat} {c : Cfg} (hc : cfgs[i]? = some c) (hstd : c.isStandard)
    {xfOrder : List (Fmt × Nat)} (hxf : xfOrder.Perm (savedBook cfgs merge dflt ops extra).gxf)
    {siOrder : List (Str × Nat)} (hsi : siOrder.Perm (savedBook cfgs merge dflt ops extra).sst.strings)
    (hnr : ∀ op ∈ opsFor i ops, op.isRangeFormat = false)
    (cE : Cfg) (hte : c.sameTexts cE) :
    ∃ s, (savedBook cfgs merge dflt ops extra).sheets[i]? = some s ∧
      (Abs.run ⟨cE, merge, dflt⟩ (opsFor i ops)).IsRows dflt (s.readRows (xfList xfOrder) (sstList siOrder)) := by
  have hb := StreamR.book cfgs merge dflt ops
  obtain ⟨s', hs', hS⟩ := saved_std (StdR.book cfgs merge dflt ops) extra hc hstd
  refine ⟨s', hs', ?_⟩
  have hsaved : savedBook cfgs merge dflt ops extra = ((Book.new cfgs merge dflt).run ops).prepare extra := rfl
  rw [hsaved] at hxf hsi
  generalize hbk : (Book.new cfgs merge dflt).run ops = b at *
  have hlt : i < b.sheets.length := by rw [hb.len]; exact (List.getElem?_eq_some_iff.mp hc).1
  have hs : b.sheets[i]? = some b.sheets[i] := List.getElem?_eq_getElem hlt
  generalize b.sheets[i] = s0 at hs
  have hcfg : s0.cfg = c := by have := hb.cfg i s0 hs; rw [hc] at this; cases this; rfl
  obtain ⟨hSim, _⟩ := (hb.rel i s0 hs cE (by rw [show (s0.view b).cfg = c from hcfg]; exact Or.inl hstd)
    (by rw [show (s0.view b).cfg = c from hcfg]; exact hte)).2
    (by rw [show (s0.view b).cfg = c from hcfg]; exact hstd.1) hnr
  generalize hA : Abs.run ⟨cE, merge, dflt⟩ (opsFor i ops) = A at hSim ⊢
  obtain ⟨g1, g2, g3, g4, g5, hp⟩ := prepare_spec hb extra
  obtain ⟨l, t', ht1, ht2, hl, hg, hget⟩ := hp i s0 hs
  rw [hs'] at hget
  have hsame := Option.some.inj hget
  have hbare : ∀ r, (s'.table.get r).map bare = (s0.table.get r).map bare := by
    intro r; rw [hsame]; exact bare_withIds _ _ _
  have hsame2 := withIds_same ({ s0 with globalXf := l } : Sheet Fmt) t'
  rw [← hsame] at hsame2
  have hro : s'.changedRows = s0.changedRows := by rw [hsame2]
  have hco : s'.changedCols = s0.changedCols := by rw [hsame2]
  have hdi : s'.dims = s0.dims := by rw [hsame2]
  have hfm : (s'.view b).fmtOf = (s0.view b).fmtOf := by rw [hsame2]; rfl
  have hcm : s'.cfg.constMem = false := by rw [hS.cfgEq]; exact hstd.1
  have hgl : s'.cfg.globalXfs = false := by rw [hS.cfgEq]; exact hstd.2.2.1
  have hxe : xfList xfOrder = tblKeys (b.prepare extra).gxf := sort_by_index g1 hxf
  have hnc : (s0.view b).cfg.constMem = true → False := by
    intro e; rw [show (s0.view b).cfg = c from hcfg, hstd.1] at e; cases e
  -- styles
  have hglob : ∀ k, ((s0.view b).fmtOf k).isSome → (xfList xfOrder)[s'.getGlobalXfIndex k]? = (s0.view b).fmtOf k := by
    intro k hk
    obtain ⟨f, hf⟩ := Option.isSome_iff_exists.mp hk
    obtain ⟨j, hj, hjf⟩ := hS.xf k f (by rw [hfm]; exact hf)
    rw [hf, hxe]
    simp only [Sheet.getGlobalXfIndex, hgl]
    simp [List.getD, hj, hjf]
  have hz : (xfList xfOrder)[0]? = some dflt := by rw [hxe]; exact g2 _ _ hb.gxf0
  have hz0 : (s0.view b).fmtOf 0 = some dflt := hSim.gen.xf.fmtOf_zero
  have hrowsA : ∀ r, (s0.changedRows.get r).map (s0.view b).decOpt = A.rows.get r :=
    fun r => hSim.rows r fun e => (hnc e).elim
  have hopt : ∀ r, (s'.changedRows.get r).map (fun o => (o.height, o.hidden, if o.xf = 0 then none else
        (xfList xfOrder)[s'.getGlobalXfIndex o.xf]?)) =
      (A.rows.get r).map fun o => (o.height, o.hidden, if o.sty = some dflt then none else o.sty) := by
    intro r
    rw [← hrowsA r, hro]
    cases e1 : s0.changedRows.get r with
    | none => rfl
    | some o =>
      simp only [Option.map_some, Sheet.decOpt, Option.some.injEq, Prod.mk.injEq, true_and]
      by_cases e : o.xf = 0
      · rw [if_pos e, if_pos ((zero_iff hSim.gen.xf _).mp e)]
      · rw [if_neg e, if_neg (fun e' => e ((zero_iff hSim.gen.xf _).mpr e'))]
        exact hglob _ (hSim.gen.rowsV r o e1)
  have htblA : ∀ r, (s0.table.get r).map (s0.view b).decRow = A.table.get r :=
    fun r => hSim.tbl r fun e => (hnc e).elim
  have hrowsEq : s'.rows = s'.writeDataTable := by unfold Sheet.rows; rw [hcm]; rfl
  rw [readRows_eq, hrowsEq]
  have hcov := hSim.cover
  have hcov' : ∀ r, A.rowView dflt r ≠ none → s0.dims.firstRow ≤ r ∧ r ≤ s0.dims.lastRow := by
    intro r hr
    have : (A.table.get r).isSome ∨ (A.rows.get r).isSome := by
      unfold Abs.rowView at hr
      split at hr
      · rename_i e; simpa using e
      · exact absurd rfl hr
    exact hcov r this (by rw [show (s0.view b).cfg = c from hcfg]; exact hstd.1)
  refine ⟨s0.dims.lastRow + 1, ?_, ?_⟩
  · intro q hq
    cases e : A.rowView dflt q with
    | none => rfl
    | some v => have := hcov' q (by rw [e]; simp); omega
  · have hcov2 : ∀ q, (q < s0.dims.firstRow ∨ s0.dims.lastRow < q) → A.rowView dflt q = none := by
      intro q hq
      cases e : A.rowView dflt q with
      | none => rfl
      | some v => have := hcov' q (by rw [e]; simp); omega
    rw [range_filterMap_from _ s0.dims.firstRow _ (fun q hq => hcov2 q (Or.inl hq)) (fun h q => hcov2 q (by omega))]
    unfold Sheet.writeDataTable
    rw [hdi]
    apply filterMap_map_filter
    intro r hr
    dsimp only
    have hb2 := hbare r
    have hA2 := htblA r
    cases et : s'.table.get r with
    | none =>
      rw [et] at hb2
      have e0 : s0.table.get r = none := by simpa using hb2.symm
      rw [e0] at hA2
      have hA3 : A.table.get r = none := hA2.symm
      unfold Abs.rowView
      rw [hA3]
      have hi : (A.rows.get r).isSome = (s'.changedRows.get r).isSome := by rw [← hrowsA r, hro]; simp
      rw [hi]
      cases er : (s'.changedRows.get r).isSome with
      | true =>
        simp only [Bool.true_or, if_true, Option.map_some, Option.isSome_none, Bool.false_or, Option.map_none]
        have : (s'.readRow (xfList xfOrder) (sstList siOrder) ⟨r, s'.changedRows.get r, none⟩) =
            ⟨r, (A.rows.get r).map fun o => (o.height, o.hidden, if o.sty = some dflt then none else o.sty), none⟩ := by
          unfold Sheet.readRow; rw [hopt r]; rfl
        rw [this, Option.filter_some, if_pos]
        simp [hi, er]
      | false =>
        simp only [Bool.false_or, Option.isSome_none, Bool.or_self, Bool.false_eq_true, if_false]
        have er2 : s'.changedRows.get r = none := by simpa using er
        rw [er2]
        split
        · rfl
        · rfl
    | some cols =>
      rw [et] at hb2
      cases e0 : s0.table.get r with
      | none => rw [e0] at hb2; cases hb2
      | some cols0 =>
        rw [e0] at hb2 hA2
        have hb3 : bare cols = bare cols0 := by simpa using hb2
        simp only [Option.map_some] at hA2
        unfold Abs.rowView
        rw [← hA2]
        simp only [Option.map_some, Option.isSome_some, Bool.true_or, if_true]
        have hcells : (s'.writeCells (s'.changedRows.get r) cols).map (fun p => (p.1, p.2.1.contentVia (sstList siOrder), (xfList xfOrder)[p.2.2]?)) =
            ((s0.view b).decRow cols0).map fun p => (p.1, p.2.1, A.eff dflt r p.1 p.2.2) := by
          have hsortR := (hS.rel false .any (by simp) (fun op _ => by cases op <;> rfl))
          have hcellAt : ∀ p ∈ cols, cellAt s'.table r p.1 = some p.2 := by
            intro p hp
            unfold cellAt
            rw [et]
            exact get_of_mem_sorted (hsortR.tbl.cols r cols et) hp
          unfold Sheet.writeCells
          rw [List.filter_eq_self.mpr (by
            intro p hp
            rw [hcm]; exact hS.written r p.1 p.2 (hcellAt p hp))]
          have e1 : ((s0.view b).decRow cols0).map (fun p => (p.1, p.2.1, A.eff dflt r p.1 p.2.2)) =
              (bare cols0).map fun p => (p.1, p.2.1, A.eff dflt r p.1 ((s0.view b).fmtOf p.2.2)) := by
            simp [Sheet.decRow, bare, Sheet.decCell, List.map_map, Function.comp]
          rw [e1, ← hb3]
          unfold bare
          rw [List.map_map, List.map_map]
          apply List.map_congr_left
          intro p hp
          simp only [Function.comp]
          have hni := (hsortR.cells r p.1 p.2 (hcellAt p hp)).nonInline
          have hst : s'.cellStyle (s'.changedRows.get r) p.1 p.2 =
              s'.getCellXfIndex p.2.xf (s'.changedRows.get r) p.1 := by
            unfold Sheet.cellStyle
            split
            · rename_i t x e; exact absurd e (hni t x)
            · rfl
          have hid := hS.ids _ (mem_of_get et) p hp
          rw [contentVia_of_resolves (idOk_resolves g3 hsi hid), hst, getCellXfIndex_eff]
          congr 2
          have hv : ((s0.view b).fmtOf p.2.xf).isSome := by
            have := (hsortR.cells r p.1 p.2 (hcellAt p hp)).valid
            rw [hfm] at this; exact this
          have heff : s'.effXf p.2.xf (s'.changedRows.get r) p.1 =
              (s0.view b).effXf p.2.xf (s0.changedRows.get r) p.1 := by
            unfold Sheet.effXf; rw [hco, hro]; rfl
          have hev : ((s0.view b).fmtOf ((s0.view b).effXf p.2.xf (s0.changedRows.get r) p.1)).isSome := by
            unfold Sheet.effXf
            have h1 : ((s0.view b).fmtOf (if p.2.xf = 0 then (match s0.changedRows.get r with | some o => o.xf | none => p.2.xf) else p.2.xf)).isSome := by
              split
              · cases e : s0.changedRows.get r with
                | none => exact hv
                | some o => exact hSim.gen.rowsV r o e
              · exact hv
            dsimp only
            generalize (if p.2.xf = 0 then (match s0.changedRows.get r with | some o => o.xf | none => p.2.xf) else p.2.xf) = x at h1 ⊢
            split
            · cases e : (s0.view b).changedCols.get p.1 with
              | none => exact h1
              | some o => exact hSim.gen.colsV p.1 o e
            · exact h1
          rw [heff, ← eff_dec hSim.gen.xf p.2.xf (hrowsA r) (hSim.cols p.1)]
          generalize (s0.view b).effXf p.2.xf (s0.changedRows.get r) p.1 = x at hev ⊢
          by_cases ex : x = 0
          · rw [if_neg (by simpa using ex), ex, hz, hz0]
          · rw [if_pos ex]; exact hglob x hev
        have : (s'.readRow (xfList xfOrder) (sstList siOrder) ⟨r, s'.changedRows.get r, some (s'.writeCells (s'.changedRows.get r) cols)⟩) =
            ⟨r, (A.rows.get r).map fun o => (o.height, o.hidden, if o.sty = some dflt then none else o.sty),
              some (((s0.view b).decRow cols0).map fun p => (p.1, p.2.1, A.eff dflt r p.1 p.2.2))⟩ := by
          unfold Sheet.readRow; rw [hopt r]; simp only [Option.map_some, hcells]
        rw [this, Option.filter_some, if_pos]
        simp

end Verif
