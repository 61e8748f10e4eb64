import Verif.Lemmas.CellSaved
import Verif.Lemmas.RowSet
import Verif.Lemmas.StreamSaved
import Verif.Props.Sheet
import Verif.Props.Stream
/-!
C64: the text of the worksheet part and of the shared strings part, read back with an XML parser, shows in every cell
what the last call on that cell asked for, and for every row the height, visibility and format asked for.
-/
set_option linter.unusedSectionVars false
set_option linter.unusedSimpArgs false
set_option linter.unusedVariables false
namespace Verif
open BMap Spec
variable {Fmt : Type} [DecidableEq Fmt]

section
variable (cfgs : List Cfg) (merge : Fmt → Fmt → Fmt) (dflt : Fmt) (ops : List (Nat × Op Fmt)) (extra : List Fmt)

/-- The texts given to the calls can be written and are not taken for something else. -/
def callsOk (cfgs : List Cfg) (ops : List (Nat × Op Fmt)) : Prop :=
  ∀ (i : Nat) (cfg : Cfg) (op : Op Fmt), (i, op) ∈ ops → cfgs[i]? = some cfg → textsOk cfg op

theorem bookHold (ho : callsOk cfgs ops) : BookHold cfgs ((Book.new cfgs merge dflt).run ops) :=
  (BookHold.new cfgs merge dflt).run ops ho

theorem std_empty {s : Sheet Fmt} (hm : s.cfg.constMem = false) (h1 : s.table = []) (h2 : s.notes = []) (h3 : s.changedRows = []) :
    s.rows = [] := by
  unfold Sheet.rows
  rw [hm]
  simp only [Bool.false_eq_true, if_false]
  unfold Sheet.writeDataTable
  rw [h1, h2, h3]
  exact List.filterMap_eq_nil_iff.mpr fun r _ => rfl

/-- C64: for every history of calls, the text of a standard worksheet and of the shared strings part is well formed, and in
every cell a reader of the two texts finds what the last call that affected the cell put there. -/
theorem C64_cells_read_back (ho : callsOk cfgs ops) (siOrder : List (Str × Nat))
    (hsi : siOrder.Perm (savedBook cfgs merge dflt ops extra).sst.strings) (x14 : Bool) (images : List Nat) (i : Nat)
    (cfg : Cfg) (hc : cfgs[i]? = some cfg) (hstd : cfg.isStandard) :
    ∃ s seen, (savedBook cfgs merge dflt ops extra).sheets[i]? = some s ∧
      readSheet (sharedStringsText (savedBook cfgs merge dflt ops extra).sst (sstList siOrder)) (s.sheetDataText x14 images) =
        some seen ∧
      ∀ r c, Meant (specContent cfg (opsFor i ops) r c) (viewAt seen r c) := by
  obtain ⟨s, hs, h1⟩ := C09_last_write_wins cfgs merge dflt ops extra siOrder hsi i cfg hc hstd
  obtain ⟨s', hs', hm⟩ := C09_rows_in_order cfgs merge dflt ops extra i cfg hc hstd
  rw [hs] at hs'; cases hs'
  have hcfg : s.cfg = cfg := by
    have := (saved_gen (StdR.book cfgs merge dflt ops) extra hs).2; rw [hc] at this; cases this; rfl
  obtain ⟨seen, g1, g2, _⟩ := saved_read (StdR.book cfgs merge dflt ops) (bookHold cfgs merge dflt ops ho) extra siOrder hsi hs
    (C08_string_ids_resolve cfgs merge dflt ops extra siOrder hsi i s hs) hm
    (std_empty (by rw [hcfg]; exact hstd.1)) x14 images
  refine ⟨s, seen, hs, g1, ?_⟩
  intro r c
  rw [← h1]
  exact g2 r c

/-- C64: a cell whose last explicit format is `f` is read with a style index that stands for `f` in the style list (partial:
the cases where C13 is false are excluded). -/
theorem C64_cell_format_read_back_partial (ho : callsOk cfgs ops) (siOrder : List (Str × Nat))
    (hsi : siOrder.Perm (savedBook cfgs merge dflt ops extra).sst.strings) (xfOrder : List (Fmt × Nat))
    (hxf : xfOrder.Perm (savedBook cfgs merge dflt ops extra).gxf) (x14 : Bool) (images : List Nat) (i : Nat)
    (cfg : Cfg) (hc : cfgs[i]? = some cfg) (hstd : cfg.isStandard) (r c : Nat) (f : Fmt)
    (hf : specFmt cfg (opsFor i ops) r c = some f) (hne : f ≠ dflt)
    (hdyn : ∀ op ∈ opsFor i ops, op.isDynamicWithFormat = false)
    (hrange : (∀ op ∈ opsFor i ops, op.isRangeFormat = false) ∨ specContent cfg (opsFor i ops) r c ≠ .blank) :
    ∃ s seen, (savedBook cfgs merge dflt ops extra).sheets[i]? = some s ∧
      readSheet (sharedStringsText (savedBook cfgs merge dflt ops extra).sst (sstList siOrder)) (s.sheetDataText x14 images) =
        some seen ∧
      (xfList xfOrder)[styleAt seen r c]? = some f := by
  obtain ⟨s, x, hs, h1, h2⟩ := C13_explicit_format_written_partial cfgs merge dflt ops extra xfOrder hxf i cfg hc hstd r c f hf hne
    hdyn hrange
  obtain ⟨s', hs', hm⟩ := C09_rows_in_order cfgs merge dflt ops extra i cfg hc hstd
  rw [hs] at hs'; cases hs'
  have hcfg : s.cfg = cfg := by
    have := (saved_gen (StdR.book cfgs merge dflt ops) extra hs).2; rw [hc] at this; cases this; rfl
  obtain ⟨seen, g1, _, g3, _⟩ := saved_read (StdR.book cfgs merge dflt ops) (bookHold cfgs merge dflt ops ho) extra siOrder hsi hs
    (C08_string_ids_resolve cfgs merge dflt ops extra siOrder hsi i s hs) hm
    (std_empty (by rw [hcfg]; exact hstd.1)) x14 images
  refine ⟨s, seen, hs, g1, ?_⟩
  rw [g3, h1]
  exact h2

theorem find_range (f : Nat → Option (RowOut Fmt)) (hf : ∀ q ro, f q = some ro → ro.row = q) (r a n : Nat) :
    ((List.range' a n).filterMap f).find? (fun ro => ro.row == r) = if a ≤ r ∧ r < a + n then f r else none := by
  induction n generalizing a with
  | zero => rw [if_neg (by omega)]; rfl
  | succ n ih =>
    rw [List.range'_succ, List.filterMap_cons]
    have ih' := ih (a + 1)
    by_cases har : a = r
    · subst har
      rw [if_neg (by omega)] at ih'
      rw [if_pos ⟨Nat.le_refl a, by omega⟩]
      cases e : f a with
      | none => exact ih'
      | some ro =>
        have := hf a ro e
        simp [this]
    · have hcond : (a ≤ r ∧ r < a + (n + 1)) ↔ (a + 1 ≤ r ∧ r < a + 1 + n) := by omega
      simp only [hcond]
      rw [← ih']
      cases e : f a with
      | none => rfl
      | some ro =>
        have h1 := hf a ro e
        have : (ro.row == r) = false := by rw [h1]; simpa using har
        simp only [List.find?_cons, this]

/-- The row elements of a standard worksheet. -/
theorem find_row (s : Sheet Fmt) (r : Nat) :
    s.writeDataTable.find? (fun ro => ro.row == r) = if s.dims.firstRow ≤ r ∧ r ≤ s.dims.lastRow then
      (match s.table.get r with
        | none => if (s.changedRows.get r).isSome || (s.notes.get r).isSome then some ⟨r, s.changedRows.get r, none⟩ else none
        | some columns => some ⟨r, s.changedRows.get r, some (s.writeCells (s.changedRows.get r) columns)⟩) else none := by
  unfold Sheet.writeDataTable
  rw [find_range]
  · have hin : (s.dims.firstRow ≤ r ∧ r ≤ s.dims.lastRow) ↔
        (s.dims.firstRow ≤ r ∧ r < s.dims.firstRow + (s.dims.lastRow + 1 - s.dims.firstRow)) := by omega
    simp only [hin]
    rfl
  · intro q ro h
    dsimp only at h
    split at h
    · split at h
      · cases h; rfl
      · cases h
    · cases h; rfl

/-- C64: for every history of calls, the row settings a reader finds in the text of a standard worksheet are the height, the
visibility and the format that the calls ask for. -/
theorem C64_row_settings_read_back (ho : callsOk cfgs ops) (siOrder : List (Str × Nat))
    (hsi : siOrder.Perm (savedBook cfgs merge dflt ops extra).sst.strings) (xfOrder : List (Fmt × Nat))
    (hxf : xfOrder.Perm (savedBook cfgs merge dflt ops extra).gxf) (x14 : Bool) (images : List Nat) (i : Nat)
    (cfg : Cfg) (hc : cfgs[i]? = some cfg) (hstd : cfg.isStandard) :
    ∃ s seen, (savedBook cfgs merge dflt ops extra).sheets[i]? = some s ∧
      readSheet (sharedStringsText (savedBook cfgs merge dflt ops extra).sst (sstList siOrder)) (s.sheetDataText x14 images) =
        some seen ∧
      ∀ r, let row := (settingsAt seen r).getD plainRow
        row.height.getD "15".toList = (specHeight (opsFor i ops) r).getD "15".toList ∧
        row.hidden = specHidden (opsFor i ops) r ∧
        (xfList xfOrder)[row.style.getD 0]? = some ((specRowFmt (opsFor i ops) r).getD dflt) ∧
        row.level = 0 ∧ row.collapsed = false := by
  obtain ⟨s, hs, hm⟩ := C09_rows_in_order cfgs merge dflt ops extra i cfg hc hstd
  have hcfg : s.cfg = cfg := by
    have := (saved_gen (StdR.book cfgs merge dflt ops) extra hs).2; rw [hc] at this; cases this; rfl
  obtain ⟨seen, g1, _, _, g4⟩ := saved_read (StdR.book cfgs merge dflt ops) (bookHold cfgs merge dflt ops ho) extra siOrder hsi hs
    (C08_string_ids_resolve cfgs merge dflt ops extra siOrder hsi i s hs) hm
    (std_empty (by rw [hcfg]; exact hstd.1)) x14 images
  refine ⟨s, seen, hs, g1, ?_⟩
  intro r
  dsimp only
  obtain ⟨s2, hs2, hS⟩ := saved_std (StdR.book cfgs merge dflt ops) extra hc hstd
  have hs2' : (savedBook cfgs merge dflt ops extra).sheets[i]? = some s2 := hs2
  rw [hs] at hs2'; cases hs2'
  have hset : RowSet (s.view ((Book.new cfgs merge dflt).run ops)) (opsFor i ops) := by
    have hb := RowR.book cfgs merge dflt ops
    obtain ⟨_, _, _, _, g5, hp⟩ := prepare_spec hb extra
    have hlt : i < ((Book.new cfgs merge dflt).run ops).sheets.length := by
      rw [hb.len]; exact (List.getElem?_eq_some_iff.mp hc).1
    have hs0 := List.getElem?_eq_getElem hlt
    generalize ((Book.new cfgs merge dflt).run ops).sheets[i] = s0 at hs0
    obtain ⟨l, t', _, _, _, _, hget⟩ := hp i s0 hs0
    have hs3 : (((Book.new cfgs merge dflt).run ops).prepare extra).sheets[i]? = some s := hs
    rw [hs3] at hget
    have e := Option.some.inj hget
    have e2 := withIds_same ({ s0 with globalXf := l } : Sheet Fmt) t'
    rw [← e] at e2
    have h0 := (hb.rel i s0 hs0).2
    rw [e2]
    exact h0.same (DimsLe.refl _) rfl rfl rfl (fun _ => rfl) (fun _ => rfl)
  have hz : (xfList xfOrder)[0]? = some dflt := (C13_style_list_nodup cfgs merge dflt ops extra xfOrder hxf).2
  have hxe := xfList_eq cfgs merge dflt ops extra xfOrder hxf
  have hdh : s.defaultHeight = DEFAULT_ROW_HEIGHT := hset.dh
  have hcm : s.cfg.constMem = false := by rw [hcfg]; exact hstd.1
  have hgl : s.cfg.globalXfs = false := by rw [hcfg]; exact hstd.2.2.1
  have hrows : s.rows = s.writeDataTable := by
    unfold Sheet.rows; rw [hcm]; rfl
  -- the options of the row as found
  have hopt : ∃ opt : Option (RowOpt Fmt), opt = s.changedRows.get r ∧ (settingsAt seen r).getD plainRow = s.rowSettings opt := by
    refine ⟨_, rfl, ?_⟩
    rw [g4, hrows, find_row]
    have hnone : s.rowSettings (none : Option (RowOpt Fmt)) = plainRow := by
      unfold Sheet.rowSettings plainRow
      simp [hdh]
    cases e : s.changedRows.get r with
    | none =>
      split
      · split
        · split
          · exact rfl
          · exact hnone.symm
        · exact rfl
      · exact hnone.symm
    | some o =>
      have : s.dims.firstRow ≤ r ∧ r ≤ s.dims.lastRow := (hset.yes r o e).2.2.2.2 hcm
      rw [if_pos this]
      split <;> rfl
  obtain ⟨opt, ho1, ho2⟩ := hopt
  rw [ho2]
  cases e : s.changedRows.get r with
  | none =>
    rw [e] at ho1; subst ho1
    obtain ⟨k1, k2⟩ := hset.no r e
    have k3 := hS.rowcol.rows0 r e
    rw [k1, k2, k3]
    refine ⟨?_, rfl, hz, rfl, rfl⟩
    unfold Sheet.rowSettings
    simp [hdh]
  | some o =>
    rw [e] at ho1; subst ho1
    obtain ⟨k1, k2, k3, k4, _⟩ := hset.yes r o e
    have k5 := hS.rowcol.rows r o e
    refine ⟨?_, k2, ?_, ?_, ?_⟩
    · rw [show ("15".toList : Str) = DEFAULT_ROW_HEIGHT from rfl, ← k1]
      unfold Sheet.rowSettings
      dsimp only
      by_cases hh : o.height = DEFAULT_ROW_HEIGHT
      · rw [if_neg (by simp [hh, hdh]), hh]; rfl
      · rw [if_pos (by simp [hh])]; rfl
    · unfold Sheet.rowSettings
      dsimp only
      by_cases hx : o.xf = 0
      · rw [if_neg (by simp [hx])]
        have hG := (saved_gen (StdR.book cfgs merge dflt ops) extra hs).1
        have h0 : (s.view ((Book.new cfgs merge dflt).run ops)).fmtOf 0 = some dflt := by
          have := hG.xf.fmtOf_zero
          unfold Sheet.fmtOf at this ⊢
          rw [show (s.view (((Book.new cfgs merge dflt).run ops).prepare extra)).cfg.globalXfs = false from hgl] at this
          rw [show (s.view ((Book.new cfgs merge dflt).run ops)).cfg.globalXfs = false from hgl]
          exact this
        rw [hx, h0] at k5
        rw [← k5]; exact hz
      · rw [if_pos hx]
        obtain ⟨j, j1, j2⟩ := hS.xf _ _ k5
        have : s.getGlobalXfIndex o.xf = j := by
          unfold Sheet.getGlobalXfIndex
          rw [if_neg (by rw [hgl]; decide)]
          simp [j1]
        dsimp only [Option.getD]
        rw [this, hxe]
        exact j2
    · unfold Sheet.rowSettings
      dsimp only
      rw [k3]; split <;> rfl
    · unfold Sheet.rowSettings
      dsimp only
      rw [k4]; rfl

end

/-! ### Constant memory and low memory worksheets -/

/-- The cell found in decoded rows. -/
def viewCell (vs : List (RowView Fmt)) (r c : Nat) : Option (Content × Option Fmt) :=
  ((vs.flatMap fun v => (v.cells.getD []).map fun p => (v.row, p)).find? fun e => e.1 == r && e.2.1 == c).map fun e => e.2.2

theorem viewCell_readRows (xfs : List Fmt) (si : List Str) (s : Sheet Fmt) (r c : Nat) :
    viewCell (s.readRows xfs si) r c = ((cellsOf s.rows).find? fun e => e.1 == r && e.2.1 == c).map fun e =>
      (e.2.2.1.contentVia si, xfs[e.2.2.2]?) := by
  have key : ∀ rows : List (RowOut Fmt),
      (((rows.filter fun ro => ro.opt.isSome || ro.cells.isSome).map (s.readRow xfs si)).flatMap fun v =>
        (v.cells.getD []).map fun p => (v.row, p)) =
      (cellsOf rows).map fun e => (e.1, e.2.1, e.2.2.1.contentVia si, xfs[e.2.2.2]?) := by
    intro rows
    induction rows with
    | nil => rfl
    | cons ro rows ih =>
      have hone : ((s.readRow xfs si ro).cells.getD []).map (fun p => ((s.readRow xfs si ro).row, p)) =
          ((ro.cells.getD []).map fun p => (ro.row, p.1, p.2.1, p.2.2)).map
            fun e => (e.1, e.2.1, e.2.2.1.contentVia si, xfs[e.2.2.2]?) := by
        unfold Sheet.readRow
        cases ro.cells with
        | none => rfl
        | some l => simp [Function.comp_def]
      have hsplit : cellsOf (ro :: rows) = ((ro.cells.getD []).map fun p => (ro.row, p.1, p.2.1, p.2.2)) ++ cellsOf rows := rfl
      rw [hsplit, List.map_append, ← hone, List.filter_cons]
      split
      · rw [List.map_cons, List.flatMap_cons, ih]
      · rename_i hno
        have : ro.cells = none := by
          cases e : ro.cells with
          | none => rfl
          | some l => exact absurd (by simp [e]) hno
        rw [ih]
        unfold Sheet.readRow
        rw [this]
        rfl
  unfold viewCell Sheet.readRows
  rw [key, List.find?_map, Option.map_map]
  rfl

theorem readVia_viewCell (xfs : List Fmt) (si : List Str) (s : Sheet Fmt) (r c : Nat) :
    readVia si s.rows r c = ((viewCell (s.readRows xfs si) r c).map Prod.fst).getD .blank := by
  rw [viewCell_readRows]
  unfold readVia
  cases (cellsOf s.rows).find? fun e => e.1 == r && e.2.1 == c <;> rfl

theorem rowMajor_of_readRows {xfs xfs' : List Fmt} {si si' : List Str} {s s' : Sheet Fmt}
    (h : s.readRows xfs si = s'.readRows xfs' si') (hf : ∀ ro ∈ s.rows, (ro.opt.isSome || ro.cells.isSome) = true)
    (hm : rowMajor s'.rows) : rowMajor s.rows := by
  unfold Sheet.readRows at h
  rw [List.filter_eq_self.mpr hf] at h
  have hsub : (s'.rows.filter fun ro => ro.opt.isSome || ro.cells.isSome).Sublist s'.rows := List.filter_sublist
  constructor
  · have h1 : s.rows.map (·.row) = (s'.rows.filter fun ro => ro.opt.isSome || ro.cells.isSome).map (·.row) := by
      have := congrArg (List.map RowView.row) h
      rw [List.map_map, List.map_map] at this
      exact this
    have h2 : ((s'.rows.filter fun ro => ro.opt.isSome || ro.cells.isSome).map (·.row)).Pairwise (· < ·) :=
      List.pairwise_map.mpr (hm.1.sublist hsub)
    rw [← h1] at h2
    exact List.pairwise_map.mp h2
  · intro ro hro
    have h3 : s.readRow xfs si ro ∈ (s'.rows.filter fun ro => ro.opt.isSome || ro.cells.isSome).map (s'.readRow xfs' si') := by
      rw [← h]; exact List.mem_map_of_mem hro
    obtain ⟨ro', hro', e⟩ := List.mem_map.mp h3
    have h4 := hm.2 ro' (hsub.subset hro')
    have hk : ∀ (xfs : List Fmt) (si : List Str) (s : Sheet Fmt) (ro : RowOut Fmt),
        (ro.cells.getD []).map Prod.fst = ((s.readRow xfs si ro).cells.getD []).map Prod.fst := by
      intro xfs si s ro
      unfold Sheet.readRow
      cases ro.cells with
      | none => rfl
      | some l => simp [Function.comp_def]
    rw [hk xfs' si' s', e, ← hk] at h4
    exact h4

theorem effectAt_texts {c c' : Cfg} (h : c'.nanText = c.nanText ∧ c'.infText = c.infText ∧ c'.negInfText = c.negInfText ∧
    c'.defaultResult = c.defaultResult) (r k : Nat) (op : Op Fmt) : op.effectAt c' r k = op.effectAt c r k := by
  obtain ⟨h1, h2, h3, h4⟩ := h
  cases op <;> simp only [Op.effectAt, updNumber, resultOf, h1, h2, h3, h4]

theorem specContent_texts {c c' : Cfg} (h : c'.nanText = c.nanText ∧ c'.infText = c.infText ∧ c'.negInfText = c.negInfText ∧
    c'.defaultResult = c.defaultResult) (l : List (Op Fmt)) (r k : Nat) : specContent c' l r k = specContent c l r k := by
  unfold specContent
  congr 1
  funext a op
  rw [effectAt_texts h]

theorem specFmt_texts {c c' : Cfg} (h : c'.nanText = c.nanText ∧ c'.infText = c.infText ∧ c'.negInfText = c.negInfText ∧
    c'.defaultResult = c.defaultResult) (l : List (Op Fmt)) (r k : Nat) : specFmt c' l r k = specFmt c l r k := by
  unfold specFmt
  congr 1
  funext a op
  rw [effectAt_texts h]

theorem opsFor_self (l : List (Op Fmt)) : opsFor 0 (l.map fun op => (0, op)) = l := by
  induction l with
  | nil => rfl
  | cons a l ih =>
    unfold opsFor at ih ⊢
    simp only [List.map_cons, List.filter_cons, beq_self_eq_true, if_true]
    rw [ih]

/-- C64 (partial): for the calls that constant memory mode can serve, the text of a constant memory or low memory worksheet
shows in every cell what the last call in time put there, with its explicit format.  Missing: the histories where C17 is
false. -/
theorem C64_streamed_cells_read_back_partial (cfgs : List Cfg) (merge : Fmt → Fmt → Fmt) (dflt : Fmt) (ops : List (Nat × Op Fmt))
    (extra : List Fmt) (ho : callsOk cfgs ops) (siOrder : List (Str × Nat))
    (hsi : siOrder.Perm (savedBook cfgs merge dflt ops extra).sst.strings) (xfOrder : List (Fmt × Nat))
    (hxf : xfOrder.Perm (savedBook cfgs merge dflt ops extra).gxf) (x14 : Bool) (images : List Nat) (i : Nat)
    (c : Cfg) (hc : cfgs[i]? = some c) (hk : c.isConstant ∨ c.isLow)
    (hst : streamsFrom c 0 (opsFor i ops) = true)
    (hset : ∀ op ∈ opsFor i ops, op.settingsRow ≠ some (cursor c (opsFor i ops)))
    (hdata : (∃ op ∈ opsFor i ops, (op.lands c).isSome) ∨ ∀ op ∈ opsFor i ops, op.settingsRow = none) :
    ∃ s seen, (savedBook cfgs merge dflt ops extra).sheets[i]? = some s ∧
      readSheet (sharedStringsText (savedBook cfgs merge dflt ops extra).sst (sstList siOrder)) (s.sheetDataText x14 images) =
        some seen ∧
      (∀ r k, Meant (specContent c (inTime c (opsFor i ops)) r k) (viewAt seen r k)) ∧
      ∀ r k f, specFmt c (inTime c (opsFor i ops)) r k = some f → f ≠ dflt →
        (∀ op ∈ opsFor i ops, op.isDynamicWithFormat = false) → (xfList xfOrder)[styleAt seen r k]? = some f := by
  obtain ⟨s, hs, -, hsays, hempty⟩ := saved_const hc hk hxf hsi hst hset hdata ⟨c, merge, dflt⟩ rfl
  let c' : Cfg := { nanText := c.nanText, infText := c.infText, negInfText := c.negInfText, defaultResult := c.defaultResult }
  have hc' : [c'][0]? = some c' := rfl
  have hstd : c'.isStandard := ⟨rfl, rfl, rfl, rfl⟩
  have htx : c'.nanText = c.nanText ∧ c'.infText = c.infText ∧ c'.negInfText = c.negInfText ∧
      c'.defaultResult = c.defaultResult := ⟨rfl, rfl, rfl, rfl⟩
  generalize hl : inTime c (opsFor i ops) = l
  have hl' := opsFor_self l
  generalize hb' : savedBook [c'] merge dflt (l.map fun op => (0, op)) ([] : List Fmt) = b'
  obtain ⟨s1, s', hs1, hs', heq⟩ := C17_same_rows_partial merge dflt cfgs ops extra i c hc hk xfOrder hxf siOrder hsi [c']
    (l.map fun op => (0, op)) [] 0 c' hc' hstd b'.gxf (by rw [hb']) b'.sst.strings
    (by rw [hb']) htx (by rw [hl', hl]) hst hset hdata
  rw [hs] at hs1; cases hs1
  obtain ⟨s2, hs2, hm⟩ := C09_rows_in_order [c'] merge dflt (l.map fun op => (0, op)) [] 0 c' hc' hstd
  rw [hs'] at hs2; cases hs2
  obtain ⟨s2, hs2, hw⟩ := C09_last_write_wins [c'] merge dflt (l.map fun op => (0, op)) [] b'.sst.strings
    (by rw [hb']) 0 c' hc' hstd
  rw [hs'] at hs2; cases hs2
  obtain ⟨seen, g1, g2, g3, _⟩ := saved_read (StdR.book cfgs merge dflt ops) (bookHold cfgs merge dflt ops ho) extra siOrder hsi hs
    (C08_string_ids_resolve cfgs merge dflt ops extra siOrder hsi i s hs) (rowMajor_of_readRows heq hsays hm)
    (fun h _ _ => hempty h) x14 images
  refine ⟨s, seen, hs, g1, ?_, ?_⟩
  · intro r k
    have h1 := hw r k
    rw [readVia_viewCell (xfList b'.gxf), ← heq, ← readVia_viewCell, hl', specContent_texts htx] at h1
    rw [← h1]
    exact g2 r k
  · intro r k f hf hne hdyn
    have hin : ∀ op ∈ l, op ∈ opsFor i ops := by rw [← hl]; exact fun op h => inTimeFrom_sub _ _ _ op h
    have hnr : ∀ op ∈ l, op.isRangeFormat = false := by
      have : ∀ (l : List (Op Fmt)) (k : Nat), streamsFrom c k l = true → ∀ op ∈ l, op.isRangeFormat = false := by
        intro l
        induction l with
        | nil => intro k _ op h; cases h
        | cons a l ih =>
          intro k h op ho
          unfold streamsFrom at h
          rw [Bool.and_eq_true] at h
          rcases List.mem_cons.mp ho with rfl | ho
          · exact streams_notRange h.1
          · exact ih _ h.2 op ho
      exact fun op h => this _ 0 hst op (hin op h)
    obtain ⟨s2, x, hs2, j1, j2⟩ := C13_explicit_format_written_partial [c'] merge dflt (l.map fun op => (0, op)) [] b'.gxf
      (by rw [hb']) 0 c' hc' hstd r k f (by rw [hl', specFmt_texts htx]; exact hf) hne
      (by rw [hl']; exact fun op h => hdyn op (hin op h)) (Or.inl (by rw [hl']; exact hnr))
    rw [hs'] at hs2; cases hs2
    have h1 := viewCell_readRows (xfList b'.gxf) (sstList b'.sst.strings) s' r k
    rw [← heq, viewCell_readRows] at h1
    rw [g3]
    unfold readStyle at j1 ⊢
    cases e' : (cellsOf s'.rows).find? fun e => e.1 == r && e.2.1 == k with
    | none => rw [e'] at j1; cases j1
    | some p' =>
      cases e : (cellsOf s.rows).find? fun e => e.1 == r && e.2.1 == k with
      | none => rw [e, e'] at h1; cases h1
      | some p =>
        rw [e, e'] at h1
        rw [e'] at j1
        have h2 := Option.some.inj h1
        have h3 : (xfList xfOrder)[p.2.2.2]? = (xfList b'.gxf)[p'.2.2.2]? := (Prod.mk.inj h2).2
        have h4 : p'.2.2.2 = x := Option.some.inj j1
        show (xfList xfOrder)[p.2.2.2]? = some f
        rw [h3, h4]
        exact j2

/-! ### Images in cells -/

/-- C64: the cell of an embedded image reads as the error cell that refers to the image by its value metadata index, with the
style of the cell. -/
theorem C64_image_cell_read_back (shared : List Value) (images : List Nat) (constMem : Bool) (r c k x j : Nat)
    (hj : images[k]? = some j) :
    ∃ n, parseContent (cellText constMem images r c (.error k x) x) = some [n] ∧
      readCellElem shared n = some { row := r, col := c, style := x, formula := none, cm := none, vm := some j,
                                     value := some (.error "#VALUE!".toList) } := by
  have hg : images.getD k 0 = j := by simp [List.getD, hj]
  unfold cellText
  dsimp only
  rw [hg]
  refine ⟨(Tree.node "c".toList (cAttrs r c x false (some "e".toList) (some j)) [.data "v".toList "#VALUE!".toList []]).toNode, ?_, ?_⟩
  · have ht : ∀ s, some "e".toList = some s → s.all refChar = true := by
      intro s hs; injection hs with hs; subst hs; decide
    rw [show errorCellText (r + 1) (columnNumberToName c) j x = writeCalls (Tree.node "c".toList
        (cAttrs r c x false (some "e".toList) (some j)) [.data "v".toList "#VALUE!".toList []]).calls from ?_]
    · refine parseContent_tree _ ?_
      have hg := cAttrs_good r c x false (some "e".toList) (some j) (fun s hs => ref_attrSafe (ht s hs))
      have hk : treesOk [Tree.data "v".toList "#VALUE!".toList []] = true := by decide
      simp only [treeOk, hk, List.all_eq_true.mpr hg.1, decide_eq_true hg.2, Bool.and_true]
      decide
    · rw [c_node_text r c x false (some "e".toList) (some j) _ ht, v_text]
      have e1 : escapeXmlData "#VALUE!".toList = "#VALUE!".toList := by decide
      rw [e1]
      simp [errorCellText, afterStyle, mayText]
  · rw [Tree.toNode, readCell_c shared r c x false (some "e".toList) (some j) _ none (some (.error "#VALUE!".toList)) (v_no_formula _) ?_]
    · rfl
    · unfold readValue
      rw [childText_data]
      rfl

/-! ### Concrete cases -/

/-- What a reader finds in worksheet `i` of a saved workbook. -/
def readBookText (b : Book Nat) (i : Nat) : Option (List RowSeen) :=
  (b.sheets[i]?).bind fun s => readSheet (sharedStringsText b.sst (tblKeys b.sst.strings)) (s.sheetDataText false [])

-- the demo history meets the hypotheses
example : callsOk demoCfgs demoOps := by
  intro i cfg op hm hc
  have hd : cfg.nanText = "NAN".toList ∧ cfg.defaultResult = "0".toList := by
    match i with
    | 0 => cases hc; exact ⟨rfl, rfl⟩
    | 1 => cases hc; exact ⟨rfl, rfl⟩
    | 2 => cases hc; exact ⟨rfl, rfl⟩
    | n + 3 => cases hc
  simp only [demoOps, List.mem_cons, List.not_mem_nil, or_false, Prod.mk.injEq] at hm
  rcases hm with ⟨_, rfl⟩ | ⟨_, rfl⟩ | ⟨_, rfl⟩ | ⟨_, rfl⟩ | ⟨_, rfl⟩ | ⟨_, rfl⟩ | ⟨_, rfl⟩ | ⟨_, rfl⟩ | ⟨_, rfl⟩ | ⟨_, rfl⟩ |
    ⟨_, rfl⟩ | ⟨_, rfl⟩
  · exact ⟨by decide +kernel, by decide +kernel⟩
  · exact ⟨by decide +kernel, by decide +kernel⟩
  · exact ⟨by decide +kernel, by decide +kernel⟩
  · show isDecimal "2.5".toList = true; decide +kernel
  · trivial
  · exact ⟨by decide +kernel, by decide +kernel⟩
  · exact ⟨by decide +kernel, by decide +kernel⟩
  · exact ⟨by decide +kernel, by decide +kernel⟩
  · show plainOk cfg.nanText; rw [hd.1]; exact ⟨by decide +kernel, by decide +kernel⟩
  · exact ⟨by decide +kernel, by decide +kernel⟩
  · show formulaOk cfg _
    unfold formulaOk resultOf
    rw [if_pos rfl, hd.2]
    exact ⟨by decide +kernel, by decide +kernel, by decide +kernel⟩
  · trivial

example : (readBookText demoBook 0).map (fun l => (viewAt l 3 4, viewAt l 5 5, styleAt l 3 2, (settingsAt l 3).bind (·.style))) =
    some ({ value := some (.text "hello".toList) },
      { formula := some ("A1:B2".toList, some "F6:G7".toList), value := some (.number "0".toList) }, 2, some 3) := by
  decide +kernel
example : (readBookText demoBook 1).map (fun l => viewAt l 0 0) = some { value := some (.text "abc".toList) } := by
  decide +kernel
example : (readBookText demoBook 2).map (fun l => (viewAt l 1 1, styleAt l 2 0)) =
    some ({ value := some (.text "hello".toList) }, 1) := by
  decide +kernel
example : streamsFrom demoCfgs[1] 0 (opsFor 1 demoOps) = true ∧ streamsFrom demoCfgs[2] 0 (opsFor 2 demoOps) = true := by
  decide +kernel
example : (readBookText (savedBook [{}] demoMerge 0 [(0, .rowHeight 4 "30.5".toList), (0, .rowHidden 4), (0, .rowFormat 2 7)] []) 0).map
    (fun l => (settingsAt l 4, settingsAt l 2, settingsAt l 3)) =
    some (some ⟨none, some "30.5".toList, true, 0, false⟩, some ⟨some 1, none, false, 0, false⟩, none) := by
  decide +kernel

/-! ### Where it is false -/

/-- A standard workbook with one worksheet. -/
def oneSheet (ops : List (Op Nat)) : Option (List RowSeen) :=
  readBookText (savedBook [{}] demoMerge 0 (ops.map fun op => (0, op)) []) 0

/-- A formula result `nan` (or `inf`, `-Infinity`, ...) is taken for a number and written without a type, as a value that is not
a number: the worksheet cannot be read (F122). -/
theorem C64_nan_result_counterexample :
    oneSheet [.formula 0 0 ⟨"A1".toList, "nan".toList, false⟩ none] = none ∧
    oneSheet [.formula 0 0 ⟨"A1".toList, "-Infinity".toList, false⟩ none] = none ∧
    (oneSheet [.formula 0 0 ⟨"A1".toList, "nano".toList, false⟩ none]).isSome = true := by
  refine ⟨?_, ?_, ?_⟩ <;> decide +kernel

/-- A string that looks like a run of formatted text is written as such: other text is shown (C09 and C64 fail). -/
theorem C64_lookalike_counterexample :
    (oneSheet [.string 0 0 "<r><t>x</t></r>".toList none]).map (fun l => (viewAt l 0 0).value) =
      some (some (.runs [(none, "x".toList)])) ∧
    oneSheet [.string 0 0 "<r>a<b</r>".toList none] = none := by
  refine ⟨?_, ?_⟩ <;> decide +kernel

/-- An escape look-alike in a formula or its result is read as the character it stands for (F17). -/
theorem C64_formula_escape_counterexample :
    (oneSheet [.formula 0 0 ⟨"LEN(\"_x0041_\")".toList, "_x0042_".toList, false⟩ none]).map (fun l => viewAt l 0 0) =
      some { formula := some ("LEN(\"A\")".toList, none), value := some (.text "B".toList) } := by
  decide +kernel

/-- In constant memory mode the outline level of a row and its collapsed flag are not written (F50). -/
theorem C64_streamed_outline_counterexample :
    let o : RowOpt Nat := ⟨"15".toList, 0, true, 1, true, none⟩
    let s : Sheet Nat := Sheet.new { constMem := true, inlineStrings := true, globalXfs := true } demoMerge 0
    let t : Sheet Nat := Sheet.new {} demoMerge 0
    (t.rowAttrs false none 0 (some o)).lookup "outlineLevel".toList = some "1".toList ∧
    (t.rowAttrs false none 0 (some o)).lookup "collapsed".toList = some "1".toList ∧
    (s.rowAttrs false none 0 (some o)).lookup "outlineLevel".toList = none ∧
    (s.rowAttrs false none 0 (some o)).lookup "collapsed".toList = none := by
  refine ⟨?_, ?_, ?_, ?_⟩ <;> decide +kernel

/-! ### C65: rich strings -/

/-- Rich strings are refused exactly when they have no segment or an empty one. -/
theorem C65_rich_refused_iff (segs : List (Format × Text)) :
    getRichString segs = none ↔ segs = [] ∨ ∃ s ∈ segs, s.2 = [] := by
  have key : ∀ (segs : List (Format × Text)) first, runTrees first segs = none ↔ ∃ s ∈ segs, s.2 = [] := by
    intro segs
    induction segs with
    | nil => intro first; simp [runTrees]
    | cons s ss ih =>
      intro first
      simp only [runTrees]
      by_cases h : s.2 = []
      · simp [h]
      · rw [if_neg h, Option.map_eq_none_iff, ih]; simp [h]
  unfold getRichString
  by_cases h : segs = []
  · simp [h]
  · rw [if_neg h, Option.map_eq_none_iff, key]; simp [h]

/-- The plain text of an accepted rich string is the text of its segments. -/
theorem C65_rich_plain_text (segs : List (Format × Text)) (markup raw : Str) (h : getRichString segs = some (markup, raw)) :
    raw = (segs.map (·.2)).flatten ∧ (runsMeant segs).map (·.2) = segs.map (·.2) := by
  constructor
  · unfold getRichString at h
    split at h
    · cases h
    · cases e : runTrees true segs with
      | none => rw [e] at h; cases h
      | some ts =>
        rw [e] at h
        simp only [Option.map_some, Option.some.injEq, Prod.mk.injEq] at h
        rw [← h.2, List.flatMap_def]
  · cases segs with
    | nil => rfl
    | cons s ss => simp [runsMeant]

/-- A rich string determines the runs that are read back. -/
theorem meant_rich {segs : List (Format × Text)} {markup raw : Str} {v : View} (h : getRichString segs = some (markup, raw))
    (hok : segsOk segs = true) (hm : Meant (.rich markup raw) v) : v = { value := some (.runs (runsMeant segs)) } := by
  generalize hc : Content.rich markup raw = c at hm
  cases hm with
  | rich segs' markup' raw' h' hok' =>
    cases hc
    obtain ⟨ts, e1, g1, r1⟩ := rich_spec h hok
    obtain ⟨ts', e2, g2, r2⟩ := rich_spec h' hok'
    have p1 := parseContent_trees ts g1
    have p2 := parseContent_trees ts' g2
    rw [← e1] at p1
    rw [← e2, p1] at p2
    have p3 : toNodes ts = toNodes ts' := Option.some.inj p2
    rw [p3, r2] at r1
    injection r1 with r1
    injection r1 with r1
    rw [r1]
  | _ => cases hc

/-- C65: when the last call that affected a cell of a standard worksheet was `write_rich_string(segs)`, a reader of the saved
texts finds exactly the runs of `segs` there: their texts, in order, each with all properties of its font (the first one with
the font of the cell when its format is the default one). -/
theorem C65_rich_read_back {Fmt : Type} [DecidableEq Fmt] (cfgs : List Cfg) (merge : Fmt → Fmt → Fmt) (dflt : Fmt)
    (ops : List (Nat × Op Fmt)) (extra : List Fmt) (ho : callsOk cfgs ops) (siOrder : List (Str × Nat))
    (hsi : siOrder.Perm (savedBook cfgs merge dflt ops extra).sst.strings) (x14 : Bool) (images : List Nat) (i : Nat)
    (cfg : Cfg) (hc : cfgs[i]? = some cfg) (hstd : cfg.isStandard) :
    ∃ s seen, (savedBook cfgs merge dflt ops extra).sheets[i]? = some s ∧
      readSheet (sharedStringsText (savedBook cfgs merge dflt ops extra).sst (sstList siOrder)) (s.sheetDataText x14 images) =
        some seen ∧
      ∀ r c segs markup raw, specContent cfg (opsFor i ops) r c = .rich markup raw →
        getRichString segs = some (markup, raw) → segsOk segs = true →
        viewAt seen r c = { value := some (.runs (runsMeant segs)) } := by
  obtain ⟨s, seen, h1, h2, h3⟩ := C64_cells_read_back cfgs merge dflt ops extra ho siOrder hsi x14 images i cfg hc hstd
  refine ⟨s, seen, h1, h2, ?_⟩
  intro r c segs markup raw hs hg hok
  have := h3 r c
  rw [hs] at this
  exact meant_rich hg hok this

/-- A bold red segment and a default one. -/
def demoSegs : List (Format × Text) :=
  [({}, "plain ".toList), ({ font := { bold := true, color := .rgb 0xFF0000 } }, "<b> & red".toList)]

example : segsOk demoSegs = true := by decide +kernel
example : ((getRichString demoSegs).bind fun p => oneSheet [.rich 2 1 p.1 p.2 none]).map (fun l => (viewAt l 2 1).value) =
    some (some (.runs (runsMeant demoSegs))) ∧
    (runsMeant demoSegs).map (fun r => (r.1.map (fun f => (f.bold, f.name)), r.2)) =
      [(none, "plain ".toList), (some (true, "Calibri".toList), "<b> & red".toList)] := by
  refine ⟨?_, ?_⟩ <;> decide +kernel

/-- An escape look-alike in a rich string is read as the character it stands for, other than in a plain string (F17). -/
theorem C65_escape_counterexample :
    ((getRichString [({}, "_x0041_".toList)]).bind fun p => oneSheet [.rich 0 0 p.1 p.2 none]).map (fun l => (viewAt l 0 0).value) =
      some (some (.runs [(none, "A".toList)])) ∧
    (oneSheet [.string 0 0 "_x0041_".toList none]).map (fun l => (viewAt l 0 0).value) =
      some (some (.text "_x0041_".toList)) := by
  refine ⟨?_, ?_⟩ <;> decide +kernel

/-- The length limit is applied to the markup instead of the text: a rich string of 400 characters is refused although Excel's
limit is 32767 characters (F56). -/
theorem C65_length_counterexample :
    (getRichString (List.replicate 400 ({ font := { bold := true } }, ['x']))).map
      (fun p => (p.2.length, ((Sheet.new {} demoMerge 0).exec (.rich 0 0 p.1 p.2 none)).1)) =
      some (400, some .maxStringLength) := by
  decide +kernel

end Verif
