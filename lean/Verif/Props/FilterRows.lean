import Verif.Props.Filter
/-!
C33: the rows hidden by an autofilter, after any history of calls.
-/
set_option linter.unusedSectionVars false
namespace Verif
open Spec BMap
variable {Fmt : Type} [DecidableEq Fmt] {dflt : Fmt} {rc : Bool} {cfg : Cfg}

theorem Shows.unhide {s : Sheet Fmt} {ct : Nat → Nat → Content} (h : Shows cfg dflt s ct) (r : Nat) :
    Shows cfg dflt (s.setRowUnhidden r).2 ct := by
  obtain ⟨fm, h⟩ := h
  refine ⟨fm, ?_⟩
  unfold Sheet.setRowUnhidden
  rcases checkDimensions_std s h.constMem r s.getMinCol with ⟨hg, hc⟩ | ⟨hg, hc⟩
  · rw [hc]; exact h
  · rw [hc]
    have h1 := h.extend r s.getMinCol
    simp only
    split
    · rename_i o ho
      exact h1.rowOpt r _ (h1.rowsV r o ho)
    · exact h1

theorem Gen.unhide {s : Sheet Fmt} (h : Gen dflt s) (r : Nat) : Gen dflt (s.setRowUnhidden r).2 := by
  unfold Sheet.setRowUnhidden
  rcases checkDimensions_cases s r s.getMinCol with e | ⟨d, hd, e⟩
  · rw [e]; exact h
  · rw [e]
    have h1 := (h.dims (rc := true) d hd).1
    simp only
    split
    · rename_i o ho
      exact (h1.rowOpt r { o with hidden := false } (h1.rowsV r o ho)).1
    · exact h1

/-- What holds of a worksheet after calls that the specification sums up as `st`. -/
structure FInv (cfg : Cfg) (dflt : Fmt) (s : FSheet Fmt) (st : FilterState) : Prop where
  shows : ∃ ct, Shows cfg dflt s.tsheet.sheet ct
  gen : Gen dflt s.tsheet.sheet
  rows : RowsOk s.tsheet.sheet st.hidden
  name : s.tsheet.definedName = st.range
  nameOk : ∀ d, st.range = some d → rangeOk d
  sorted : Sorted s.conds
  conds : ∀ c, s.conds.get c = (st.cond c).map Cond.build
  within : ∀ c calls, st.cond c = some calls → inColumns st.range c = true
  off : s.off = st.off

theorem clearsConds_iff (d : Dims) : clearsConds (Fmt := Fmt) (.autofilter d) = true ↔ rangeOk d := by
  unfold clearsConds checkDimensionsOnly rangeOk ROW_MAX COL_MAX
  simp only [Bool.and_eq_true, Bool.not_eq_true', Bool.or_eq_false_iff, Bool.not_eq_false', decide_eq_true_eq,
    decide_eq_false_iff_not]
  omega

theorem says_iff (calls : List CondCall) : saysSomething calls = true ↔
    ((Cond.build calls).list.isEmpty && (Cond.build calls).custom1.isNone && !(Cond.build calls).blanks) = false := by
  have hb := build_ok calls
  rw [hb.list, hb.custom1, hb.blanks]
  simp only [saysSomething, List.any_eq_true, Bool.and_eq_false_iff, Bool.not_eq_false', List.contains_iff_mem]
  constructor
  · rintro ⟨x, hx, h⟩
    cases x with
    | addList v =>
      left; left
      have : v ∈ listValues calls := List.mem_filterMap.mpr ⟨_, hx, rfl⟩
      cases hl : listValues calls with
      | nil => rw [hl] at this; cases this
      | cons => rfl
    | addBlanks => exact .inr hx
    | addCustom k v =>
      left; right
      have : (k, v) ∈ customs calls := List.mem_filterMap.mpr ⟨_, hx, rfl⟩
      cases hl : customs calls with
      | nil => rw [hl] at this; cases this
      | cons => rfl
    | customOr => cases h
  · rintro ((h | h) | h)
    · cases hl : listValues calls with
      | nil => rw [hl] at h; cases h
      | cons v l =>
        have : v ∈ listValues calls := by rw [hl]; exact List.mem_cons_self
        obtain ⟨x, hx, e⟩ := List.mem_filterMap.mp this
        refine ⟨x, hx, ?_⟩
        cases x <;> first | rfl | cases e
    · cases hl : customs calls with
      | nil => rw [hl] at h; cases h
      | cons v l =>
        have : v ∈ customs calls := by rw [hl]; exact List.mem_cons_self
        obtain ⟨x, hx, e⟩ := List.mem_filterMap.mp this
        refine ⟨x, hx, ?_⟩
        cases x <;> first | rfl | cases e
    · exact ⟨_, h, rfl⟩

/-- Exactly when `filter_column` accepts a condition. -/
theorem filterColumn_spec {s : FSheet Fmt} {st : FilterState} (h : FInv cfg dflt s st) (col : Nat) (calls : List CondCall) :
    s.filterColumn col (Cond.build calls) = if inColumns st.range col = true ∧ saysSomething calls = true then
      some { s with conds := s.conds.insert col (Cond.build calls) } else none := by
  unfold FSheet.filterColumn
  rw [h.name]
  cases hr : st.range with
  | none => simp [inColumns]
  | some d =>
    have hd := h.nameOk d hr
    unfold rangeOk at hd
    dsimp only
    by_cases h1 : d.firstCol ≤ col ∧ col ≤ d.lastCol
    · have e1 : inColumns (some d) col = true := by simp [inColumns, h1]
      have e2 : ¬ col ≥ COL_MAX := by unfold COL_MAX; omega
      have e3 : (decide (col < d.firstCol) || decide (col > d.lastCol)) = false := by simp; omega
      simp only [e1, e2, e3, if_false, Bool.false_eq_true, true_and]
      by_cases h2 : saysSomething calls = true
      · have := (says_iff calls).mp h2
        simp only [this, h2, if_true, Bool.false_eq_true, if_false]
      · have := mt (says_iff calls).mpr h2
        rw [Bool.not_eq_false] at this
        simp only [this, h2, if_true, Bool.false_eq_true, if_false]
    · have e1 : inColumns (some d) col = false := by simp [inColumns]; omega
      have e3 : (decide (col < d.firstCol) || decide (col > d.lastCol)) = true := by simp; omega
      simp only [e1, e3, if_true, Bool.false_eq_true, false_and, if_false, ite_self]

theorem FInv.new (hstd : cfg.isStandard) (merge : Fmt → Fmt → Fmt) :
    FInv cfg dflt { tsheet := TSheet.new cfg merge dflt } {} := by
  refine ⟨⟨_, _, Rel.new cfg hstd.1 hstd.2.1 merge dflt false .any⟩, Gen.new cfg merge dflt, ⟨Nat.le_refl _, Nat.le_refl _,
    ?_, ?_⟩, rfl, nofun, by simp [Sorted], fun c => rfl, nofun, rfl⟩
  · intro r o h; simp [TSheet.new, Sheet.new, BMap.get] at h
  · intro r; simp [TSheet.new, Sheet.new, BMap.get]

/-- The parts of the invariant that a change of the worksheet below keeps. -/
theorem FInv.sheet {s : FSheet Fmt} {st : FilterState} (h : FInv cfg dflt s st) (t : TSheet Fmt) (hidden : Nat → Bool)
    (h1 : ∃ ct, Shows cfg dflt t.sheet ct) (h2 : Gen dflt t.sheet) (h3 : RowsOk t.sheet hidden)
    (h4 : t.definedName = s.tsheet.definedName) : FInv cfg dflt { s with tsheet := t } { st with hidden := hidden } :=
  ⟨h1, h2, h3, h4.trans h.name, h.nameOk, h.sorted, h.conds, h.within, h.off⟩

theorem FInv.addTable {lower : Str → Str} {s : FSheet Fmt} {st : FilterState} (h : FInv cfg dflt s st) (d : Dims)
    (t : Table Fmt) (u : TSheet Fmt)
    (hu : s.tsheet.addTable lower d t = .ok u ∨ ∃ e, s.tsheet.addTable lower d t = .err e u) :
    FInv cfg dflt { s with tsheet := u } st := by
  obtain ⟨ct, hs⟩ := h.shows
  have h1 : ∃ ct, Shows cfg dflt u.sheet ct := by
    rcases hu with hu | ⟨e, hu⟩
    · obtain ⟨t', _, hs⟩ := (hs.addTable d t).2 u hu; exact ⟨_, hs⟩
    · exact (hs.addTable d t).1 e u hu
  have h2 : (u.sheet = s.tsheet.sheet ∨ ∃ t' rows, u.sheet = (s.tsheet.sheet.writeTable t' s.tsheet.dflt d rows).2) ∧
      u.definedName = s.tsheet.definedName := by
    rcases addTable_full lower s.tsheet d t with ⟨e, _, hm⟩ | ⟨hm, _⟩ | ⟨_, t', last, hi, hl, ⟨e, _, hm⟩ | ⟨hn, hm⟩⟩
    · rw [hm] at hu
      rcases hu with hu | ⟨e, hu⟩ <;> cases hu
      exact ⟨.inl rfl, rfl⟩
    · rw [hm] at hu
      rcases hu with hu | ⟨e, hu⟩ <;> cases hu
    · rw [hm] at hu
      rcases hu with hu | ⟨e, hu⟩ <;> cases hu
      exact ⟨.inr ⟨_, _, rfl⟩, rfl⟩
    · rw [hm] at hu
      rcases hu with hu | ⟨e, hu⟩
      · obtain ⟨_, _, rfl⟩ := placeTable_ok hu
        exact ⟨.inr ⟨_, _, rfl⟩, rfl⟩
      · rcases placeTable_err hu with ⟨p, _, _, rfl⟩ | ⟨p, _, _, _, rfl⟩
        · exact ⟨.inr ⟨_, _, rfl⟩, rfl⟩
        · exact ⟨.inr ⟨_, _, rfl⟩, rfl⟩
  have h3 : StepG false dflt s.tsheet.sheet u.sheet := by
    rcases h2.1 with e | ⟨t', rows, e⟩
    · rw [e]; exact StepG.refl h.gen
    · rw [e]; exact h.gen.writeTable _ _ _ _
  exact h.sheet u st.hidden h1 h3.1 (h.rows.step h3) h2.2

theorem FInv.exec {lower : Str → Str} {s u : FSheet Fmt} {st : FilterState} (h : FInv cfg dflt s st) (op : FOp Fmt)
    (hx : s.exec lower op = some u) : FInv cfg dflt u (st.step op) := by
  obtain ⟨ct, hs⟩ := h.shows
  cases op with
  | filterOff => cases hx; exact ⟨⟨ct, hs⟩, h.gen, h.rows, h.name, h.nameOk, h.sorted, h.conds, h.within, rfl⟩
  | unhide r =>
    cases hx
    have hr := h.rows.setUnhidden hs.std h.gen.rowsS r
    have := h.sheet { s.tsheet with sheet := (s.tsheet.sheet.setRowUnhidden r).2 } _ ⟨ct, hs.unhide r⟩ (h.gen.unhide r) hr rfl
    show FInv cfg dflt _ (if r < 1048576 then _ else _)
    split
    · rename_i e; simpa [e] using this
    · rename_i e; simpa [e] using this
  | filterColumn col calls =>
    cases hx
    rw [filterColumn_spec h]
    show FInv cfg dflt _ (if _ then _ else _)
    split
    · rename_i hc
      refine ⟨⟨ct, hs⟩, h.gen, h.rows, h.name, h.nameOk, sorted_insert _ _ _ h.sorted, fun c => ?_, fun c q hq => ?_, h.off⟩
      · show BMap.get c (BMap.insert _ _ _) = _
        rw [get_insert _ _ _ h.sorted]
        dsimp only
        split
        · rfl
        · exact h.conds c
      · dsimp only at hq
        split at hq
        · rename_i e; subst e; exact hc.1
        · exact h.within c q hq
    · exact h
  | base op =>
    unfold FSheet.exec at hx
    cases op with
    | cell op =>
      cases hx
      have hr := h.rows.exec h.gen hs.std op
      have := h.sheet { s.tsheet with sheet := (s.tsheet.sheet.exec op).2 } _ ⟨_, hs.exec op⟩ (h.gen.exec op).1 hr rfl
      cases op with
      | rowHidden r =>
        show FInv cfg dflt _ (if r < 1048576 then _ else _)
        by_cases e : r < 1048576
        · simp only [if_pos e] at this ⊢
          exact this
        · simp only [if_neg e] at this ⊢
          exact this
      | _ => exact this
    | table d t =>
      simp only [TSheet.exec, TSheet.call] at hx
      cases ha : s.tsheet.addTable lower d t with
      | ok w => rw [ha] at hx; cases hx; exact h.addTable d t w (.inl ha)
      | err e w => rw [ha] at hx; cases hx; exact h.addTable d t w (.inr ⟨e, ha⟩)
      | panic => rw [ha] at hx; cases hx
    | autofilter d =>
      simp only [TSheet.exec, TSheet.call] at hx
      have hcl := clearsConds_iff (Fmt := Fmt) d
      have fresh : ∀ t : TSheet Fmt, t.sheet = s.tsheet.sheet → t.definedName = some d → rangeOk d →
          FInv cfg dflt { s with tsheet := t, conds := [] } { st with range := some d, cond := fun _ => none } := by
        intro t e1 e2 hd
        exact ⟨⟨ct, e1 ▸ hs⟩, e1 ▸ h.gen, e1 ▸ h.rows, e2, fun d' hd' => by cases hd'; exact hd, by simp [Sorted], fun c => rfl,
          nofun, h.off⟩
      rcases autofilter_cases s.tsheet d with ⟨e, hne, hm⟩ | ⟨hd, p, _, hm⟩ | ⟨hd, _, hm⟩
      · rw [hm] at hx
        have hno : ¬ rangeOk d := by
          intro hd
          have h0 := hcl.mpr hd
          unfold TSheet.autofilter at hm
          simp only [clearsConds, Bool.and_eq_true, Bool.not_eq_true'] at h0
          rw [h0.1, h0.2] at hm
          simp only [if_neg Bool.false_ne_true] at hm
          split at hm
          · rename_i p hp
            have hsame := congrArg (fun x : TRes Fmt => match x with | .err e _ => e | _ => .noRow) hm
            dsimp only at hsame
            exact (hne d p).2 hsame.symm
          · cases hm
        cases hx
        show FInv cfg dflt _ (if _ then _ else _)
        rw [if_neg hno, if_neg (mt hcl.mp hno)]
        exact h
      · rw [hm] at hx
        cases hx
        show FInv cfg dflt _ (if _ then _ else _)
        rw [if_pos (show rangeOk d from hd), if_pos (hcl.mpr hd)]
        exact fresh _ rfl rfl hd
      · rw [hm] at hx
        cases hx
        show FInv cfg dflt _ (if _ then _ else _)
        rw [if_pos (show rangeOk d from hd), if_pos (hcl.mpr hd)]
        exact fresh _ rfl rfl hd

theorem FInv.run {lower : Str → Str} {s u : FSheet Fmt} {st : FilterState} (h : FInv cfg dflt s st) (ops : List (FOp Fmt))
    (hx : s.run lower ops = some u) : FInv cfg dflt u (ops.foldl FilterState.step st) := by
  induction ops generalizing s st with
  | nil => cases hx; exact h
  | cons op ops ih =>
    simp only [FSheet.run, List.foldlM_cons] at hx
    cases he : s.exec lower op with
    | none => rw [he] at hx; cases hx
    | some v => rw [he] at hx; exact ih (h.exec op he) hx

/-! ### Hiding the rows -/

/-- The worksheet on the way of hiding: the rows in `P` are hidden, nothing else is changed. -/
structure HInv (cfg : Cfg) (dflt : Fmt) (ct : Nat → Nat → Content) (s0 : Sheet Fmt) (P : Nat → Prop) (s : Sheet Fmt) :
    Prop where
  shows : Shows cfg dflt s ct
  table : s.table = s0.table
  height : s.defaultHeight = s0.defaultHeight
  rowsS : Sorted s.changedRows
  fc : s.dims.firstCol ≤ COL_MAX
  within : ∀ r o, s.changedRows.get r = some o → s.dims.firstRow ≤ r ∧ r ≤ s.dims.lastRow
  hid : ∀ r, P r → s.changedRows.get r = some (s0.hiddenOpt r)
  same : ∀ r, ¬ P r → s.changedRows.get r = s0.changedRows.get r

theorem HInv.congr {ct : Nat → Nat → Content} {s0 s : Sheet Fmt} {P Q : Nat → Prop} (h : HInv cfg dflt ct s0 P s)
    (e : ∀ r, Q r ↔ P r) : HInv cfg dflt ct s0 Q s :=
  { h with hid := fun r hr => h.hid r ((e r).mp hr), same := fun r hr => h.same r (fun hp => hr ((e r).mpr hp)) }

/-- The cell in a table. -/
def cellIn (s : Sheet Fmt) (col row : Nat) : Option Cell := (s.table.get row).bind fun cols => cols.get col

theorem HInv.hideRow {cmp : Str → Str → Ordering} {lower : Str → Str} {ct : Nat → Nat → Content} {s0 s : Sheet Fmt}
    {P : Nat → Prop} (h : HInv cfg dflt ct s0 P s) (col : Nat) (c : Cond) (row : Nat) (hr : row < ROW_MAX) :
    ∃ s', s.hideRow cmp lower col c row = some s' ∧
      HInv cfg dflt ct s0 (fun r => P r ∨ (r = row ∧ c.matches cmp lower (cellIn s0 col row) = false)) s' := by
  unfold Sheet.hideRow
  rw [h.table]
  change ∃ s', (if c.matches cmp lower (cellIn s0 col row) = true then _ else _) = _ ∧ _
  cases hm : c.matches cmp lower (cellIn s0 col row) with
  | true =>
    rw [if_pos rfl]
    exact ⟨s, rfl, h.congr fun r => by simp⟩
  | false =>
    rw [if_neg Bool.false_ne_true]
    have hsh := h.shows.exec (.rowHidden row)
    change Shows cfg dflt (s.setRowHidden row).2 ct at hsh
    rcases setRowHidden_spec s h.shows.std h.fc row with ⟨hn, _⟩ | ⟨_, d, h1, h2, h3, e⟩
    · exact absurd hr hn
    · rw [e] at hsh ⊢
      unfold DimsLe at h1
      have hopt : s.hiddenOpt row = s0.hiddenOpt row := by
        unfold Sheet.hiddenOpt
        by_cases hp : P row
        · rw [h.hid row hp, h.height]
          rfl
        · rw [h.same row hp, h.height]
      refine ⟨_, rfl, hsh, h.table, h.height, sorted_insert _ _ _ h.rowsS, Nat.le_trans h1.2.1 h.fc, ?_, ?_, ?_⟩
      · intro r o ho
        change BMap.get r (BMap.insert _ _ _) = _ at ho
        rw [get_insert _ _ _ h.rowsS] at ho
        split at ho
        · rename_i e; subst e; exact ⟨h2, h3⟩
        · have := h.within r o ho
          change d.firstRow ≤ r ∧ r ≤ d.lastRow
          omega
      · intro r hP
        change BMap.get r (BMap.insert _ _ _) = _
        rw [get_insert _ _ _ h.rowsS]
        split
        · rename_i e; subst e; rw [hopt]
        · rename_i e
          rcases hP with hP | ⟨hP, _⟩
          · exact h.hid r hP
          · exact absurd hP e
      · intro r hP
        change BMap.get r (BMap.insert _ _ _) = _
        rw [get_insert _ _ _ h.rowsS]
        split
        · rename_i e; exact absurd (.inr ⟨e, rfl⟩) hP
        · exact h.same r fun hp => hP (.inl hp)

theorem HInv.hideAll {cmp : Str → Str → Ordering} {lower : Str → Str} {ct : Nat → Nat → Content} {s0 s : Sheet Fmt}
    {P : Nat → Prop} (h : HInv cfg dflt ct s0 P s) (col : Nat) (c : Cond) (rows : List Nat) (hr : ∀ r ∈ rows, r < ROW_MAX) :
    ∃ s', rows.foldlM (fun sh row => sh.hideRow cmp lower col c row) s = some s' ∧
      HInv cfg dflt ct s0 (fun r => P r ∨ (r ∈ rows ∧ c.matches cmp lower (cellIn s0 col r) = false)) s' := by
  induction rows generalizing s P with
  | nil => exact ⟨s, rfl, h.congr fun r => by simp⟩
  | cons a rows ih =>
    obtain ⟨s1, e1, h1⟩ := h.hideRow (cmp := cmp) (lower := lower) col c a (hr a List.mem_cons_self)
    obtain ⟨s2, e2, h2⟩ := ih h1 fun r hr' => hr r (List.mem_cons_of_mem _ hr')
    refine ⟨s2, ?_, h2.congr fun r => ?_⟩
    · rw [List.foldlM_cons, e1]; exact e2
    · simp only [List.mem_cons]
      constructor
      · rintro (h | ⟨rfl | h, h'⟩)
        · exact .inl (.inl h)
        · exact .inl (.inr ⟨rfl, h'⟩)
        · exact .inr ⟨h, h'⟩
      · rintro ((h | ⟨rfl, h⟩) | ⟨h, h'⟩)
        · exact .inl h
        · exact .inr ⟨.inl rfl, h⟩
        · exact .inr ⟨.inr h, h'⟩

theorem HInv.hideConds {cmp : Str → Str → Ordering} {lower : Str → Str} {ct : Nat → Nat → Content} {s0 s : Sheet Fmt}
    {P : Nat → Prop} (h : HInv cfg dflt ct s0 P s) (conds : List (Nat × Cond)) (rows : List Nat)
    (hr : ∀ r ∈ rows, r < ROW_MAX) :
    ∃ s', conds.foldlM (fun sh p => rows.foldlM (fun sh row => sh.hideRow cmp lower p.1 p.2 row) sh) s = some s' ∧
      HInv cfg dflt ct s0 (fun r => P r ∨ (r ∈ rows ∧ ∃ p ∈ conds, p.2.matches cmp lower (cellIn s0 p.1 r) = false)) s' := by
  induction conds generalizing s P with
  | nil => exact ⟨s, rfl, h.congr fun r => by simp⟩
  | cons a conds ih =>
    obtain ⟨s1, e1, h1⟩ := h.hideAll (cmp := cmp) (lower := lower) a.1 a.2 rows hr
    obtain ⟨s2, e2, h2⟩ := ih h1
    refine ⟨s2, ?_, h2.congr fun r => ?_⟩
    · rw [List.foldlM_cons, e1]; exact e2
    · simp only [List.mem_cons]
      constructor
      · rintro (h | ⟨h', p, rfl | h, hp⟩)
        · exact .inl (.inl h)
        · exact .inl (.inr ⟨h', hp⟩)
        · exact .inr ⟨h', p, h, hp⟩
      · rintro ((h | ⟨h', h⟩) | ⟨h', p, hp, h⟩)
        · exact .inl h
        · exact .inr ⟨h', a, .inl rfl, h⟩
        · exact .inr ⟨h', p, .inr hp, h⟩

/-- The content of a stored cell is the content shown. -/
theorem Shows.cellIn {s : Sheet Fmt} {ct : Nat → Nat → Content} (h : Shows cfg dflt s ct) (r c : Nat) :
    contentOf (cellIn s c r) = ct r c ∧ ∀ t x, Verif.cellIn s c r ≠ some (.inlineString t x) := by
  obtain ⟨fm, h⟩ := h
  cases hc : Verif.cellIn s c r with
  | none => exact ⟨(h.absent r c hc).1.symm, nofun⟩
  | some cell =>
    have := h.cells r c cell hc
    exact ⟨this.content, fun t x e => this.nonInline t x (by cases e; rfl)⟩

/-- No number in a filtered column is compared with a text value. -/
def NumbersSuit (st : FilterState) (content : Nat → Nat → Content) : Prop :=
  ∀ r c calls, st.dataRow r → st.cond c = some calls → ∀ v ∈ (meaning calls).values, ∀ n t,
    content r c = .number n → v ≠ .text t

theorem hidden_rows (cmp : Str → Str → Ordering) (lower : Str → Str) {s : FSheet Fmt} {st : FilterState}
    (h : FInv cfg dflt s st) (ct : Nat → Nat → Content) (hs : Shows cfg dflt s.tsheet.sheet ct) (hn : NumbersSuit st ct) :
    ∃ s', s.hideRows cmp lower = some s' ∧
      HInv cfg dflt ct s.tsheet.sheet (fun r => st.filteredOut cmp lower r (ct r)) s' := by
  have h0 : HInv cfg dflt ct s.tsheet.sheet (fun _ => False) s.tsheet.sheet :=
    ⟨hs, rfl, rfl, h.gen.rowsS, h.rows.fc, h.rows.within, fun r hr => hr.elim, fun r _ => rfl⟩
  unfold FSheet.hideRows
  by_cases hc : s.conds.isEmpty || s.off
  · rw [if_pos hc]
    refine ⟨_, rfl, h0.congr fun r => ⟨fun hf => ?_, False.elim⟩⟩
    obtain ⟨h1, ⟨d, h2, h3⟩, c, calls, h4, h5⟩ := hf
    rw [h.off, h1, Bool.or_false, List.isEmpty_iff] at hc
    have := h.conds c
    rw [hc, h4] at this
    cases this
  · rw [if_neg hc]
    simp only [Bool.or_eq_true, List.isEmpty_iff, not_or, Bool.not_eq_true] at hc
    rw [h.name]
    have hsome : ∃ d, st.range = some d := by
      cases hl : s.conds with
      | nil => exact absurd hl hc.1
      | cons p l =>
        have hg := (mem_iff_get h.sorted p.1 p.2).mp (by rw [hl]; exact List.mem_cons_self)
        rw [h.conds] at hg
        obtain ⟨calls, hcalls, _⟩ := Option.map_eq_some_iff.mp hg
        have := h.within _ _ hcalls
        cases hr : st.range with
        | none => rw [hr] at this; cases this
        | some d => exact ⟨d, rfl⟩
    obtain ⟨d, hd⟩ := hsome
    have hok := h.nameOk d hd
    rw [hd]
    dsimp only [Option.getD_some]
    obtain ⟨s', e, h'⟩ := h0.hideConds (cmp := cmp) (lower := lower) s.conds
      (List.range' (d.firstRow + 1) (d.lastRow + 1 - (d.firstRow + 1))) (by
        intro r hr
        rw [List.mem_range'_1] at hr
        have := hok.2.2.1
        unfold ROW_MAX
        omega)
    refine ⟨s', e, h'.congr fun r => ?_⟩
    rw [List.mem_range'_1]
    have hmatch : ∀ c calls, st.dataRow r → st.cond c = some calls →
        ((Cond.build calls).matches cmp lower (cellIn s.tsheet.sheet c r) = false ↔
          ¬ Accepts cmp lower (meaning calls) (ct r c)) := by
      intro c calls hdr hcalls
      have hcell := hs.cellIn r c
      have := matches_iff cmp lower calls (cellIn s.tsheet.sheet c r) hcell.2 (by
        intro v hv n t
        rw [hcell.1]
        exact hn r c calls hdr hcalls v hv n t)
      rw [hcell.1] at this
      rw [← this, Bool.not_eq_true]
    constructor
    · rintro ⟨h1, hdr, c, calls, h4, h5⟩
      refine .inr ⟨?_, (c, Cond.build calls), ?_, (hmatch c calls hdr h4).mpr h5⟩
      · obtain ⟨d', e', h2, h3⟩ := hdr
        rw [hd] at e'; cases e'
        omega
      · rw [mem_iff_get h.sorted, h.conds, h4]; rfl
    · rintro (hf | ⟨h2, p, hp, h5⟩)
      · exact hf.elim
      · have hdr : st.dataRow r := ⟨d, hd, by omega, by omega⟩
        have hg := (mem_iff_get h.sorted p.1 p.2).mp hp
        rw [h.conds] at hg
        obtain ⟨calls, hcalls, hb⟩ := Option.map_eq_some_iff.mp hg
        rw [← hb] at h5
        exact ⟨h.off ▸ hc.2, hdr, p.1, calls, hcalls, (hmatch _ _ hdr hcalls).mp h5⟩

/-- C33: after any history of calls on a standard mode worksheet, saving hides exactly the rows that were hidden by
a call and the data rows of the autofilter that a condition does not show; it changes no other setting of a row and
no cell. `cmp` and `lower` are any comparison of numbers and any lower case. Missing for the full property: cells
with numbers compared with text values (see `C33_text_value_counterexample`). -/
theorem C33_hidden_rows_partial (cmp : Str → Str → Ordering) (lower : Str → Str) (cfg : Cfg) (hstd : cfg.isStandard)
    (merge : Fmt → Fmt → Fmt) (dflt : Fmt) (ops : List (FOp Fmt)) (s : FSheet Fmt)
    (h : ({ tsheet := TSheet.new cfg merge dflt } : FSheet Fmt).run lower ops = some s) (sst : SST)
    (hn : NumbersSuit (filterState ops) (readContent (s.tsheet.sheet.saveRows sst))) :
    ∃ s', s.hideRows cmp lower = some s' ∧
      (∀ r c, readContent (s'.saveRows sst) r c = readContent (s.tsheet.sheet.saveRows sst) r c) ∧
      ∀ r, let out := (filterState ops).filteredOut cmp lower r (readContent (s.tsheet.sheet.saveRows sst) r)
        (rowIsHidden (s'.saveRows sst) r ↔ (filterState ops).hidden r = true ∨ out) ∧
        (¬ out → rowSettings (s'.saveRows sst) r = rowSettings (s.tsheet.sheet.saveRows sst) r) ∧
        (out → rowSettings (s'.saveRows sst) r = some
          { (rowSettings (s.tsheet.sheet.saveRows sst) r).getD ⟨s.tsheet.sheet.defaultHeight, 0, false, 0, false, none⟩ with
            hidden := true }) := by
  have hI := (FInv.new (dflt := dflt) hstd merge).run ops h
  change FInv cfg dflt s (filterState ops) at hI
  obtain ⟨ct, hs⟩ := hI.shows
  have hct : readContent (s.tsheet.sheet.saveRows sst) = ct := by
    funext r c; exact hs.reads sst r c
  rw [hct] at hn ⊢
  obtain ⟨s', e, h'⟩ := hidden_rows cmp lower hI ct hs hn
  have hset : ∀ r, rowSettings (s.tsheet.sheet.saveRows sst) r = s.tsheet.sheet.changedRows.get r :=
    fun r => saveRows_settings _ sst r (hI.rows.within r)
  have hset' : ∀ r, rowSettings (s'.saveRows sst) r = s'.changedRows.get r :=
    fun r => saveRows_settings _ sst r (h'.within r)
  refine ⟨s', e, fun r c => h'.shows.reads sst r c, fun r => ?_⟩
  unfold rowIsHidden
  rw [hset, hset', hI.rows.hidden r]
  dsimp only
  refine ⟨?_, fun hno => h'.same r hno, fun ho => h'.hid r ho⟩
  by_cases ho : (filterState ops).filteredOut cmp lower r (ct r)
  · rw [h'.hid r ho]
    exact ⟨fun _ => .inr ho, fun _ => ⟨_, rfl, rfl⟩⟩
  · rw [h'.same r ho]
    exact ⟨fun h => .inl h, fun h => h.resolve_right ho⟩

end Verif
