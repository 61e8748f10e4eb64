import Verif.Lemmas.Claim
import Verif.Model.Table
import Verif.Props.Refusal
import Verif.Props.Dims
/-!
C16: tables and the autofilter do not overlap.
-/
set_option linter.unusedSectionVars false
namespace Verif
open Spec
variable {Fmt : Type} [DecidableEq Fmt]

/-- A worksheet without tables. -/
def TSheet.new (cfg : Cfg) (merge : Fmt → Fmt → Fmt) (dflt : Fmt) : TSheet Fmt :=
  { sheet := Sheet.new cfg merge dflt, dflt := dflt }

/-! ### Marks of header cells -/

theorem lookup_mark_ne {m : List ((Nat × Nat) × FilterMark)} {p q : Nat × Nat} {k : FilterMark} (h : q ≠ p) :
    List.lookup q ((p, k) :: m) = m.lookup q := by
  simp only [List.lookup]
  have : (q == p) = false := by simpa using h
  rw [this]

theorem lookup_mark_eq {m : List ((Nat × Nat) × FilterMark)} {p : Nat × Nat} {k : FilterMark} :
    List.lookup p ((p, k) :: m) = some k := by simp [List.lookup]

/-- The kind of a mark. -/
def kindAt (m : List ((Nat × Nat) × FilterMark)) (q : Nat × Nat) : Option Bool := (m.lookup q).map (·.ofTable)

theorem markHeader_step (k : Bool) (d : Dims) (c : Nat) (cs : List Nat) (m : List ((Nat × Nat) × FilterMark)) :
    (∃ p, markHeader k d (c :: cs) m = (some p, m) ∧ kindAt m (d.firstRow, c) = some (!k)) ∨
    (markHeader k d (c :: cs) m = markHeader k d cs (((d.firstRow, c), ⟨k, d⟩) :: m) ∧
      kindAt m (d.firstRow, c) ≠ some (!k)) := by
  have e : ∀ r, markHeader k d cs (((d.firstRow, c), ⟨k, d⟩) :: m) = r → markHeader k d (c :: cs) m =
      match (match m.lookup (d.firstRow, c) with
        | some j => if j.ofTable ≠ k then some j.range else none
        | none => none) with
      | some p => (some p, m)
      | none => r := by
    intro r hr
    subst hr
    rfl
  generalize markHeader k d cs (((d.firstRow, c), ⟨k, d⟩) :: m) = r at e ⊢
  rw [e r rfl]
  unfold kindAt
  cases h : m.lookup (d.firstRow, c) with
  | none => exact .inr ⟨rfl, by simp⟩
  | some mk =>
    by_cases hk : mk.ofTable = k
    · right
      simp [hk]
    · left
      have hk' : mk.ofTable = !k := by
        cases k <;> cases h2 : mk.ofTable <;> simp_all
      simp [hk']

/-- No mark changes its kind. -/
theorem mark_keeps (k : Bool) (d : Dims) (cs : List Nat) (m : List ((Nat × Nat) × FilterMark)) (q : Nat × Nat)
    (b : Bool) (h : kindAt m q = some b) : kindAt (markHeader k d cs m).2 q = some b := by
  induction cs generalizing m with
  | nil => exact h
  | cons c cs ih =>
    rcases markHeader_step k d c cs m with ⟨p, e, _⟩ | ⟨e, hn⟩
    · rw [e]; exact h
    · rw [e]
      apply ih
      by_cases hq : q = (d.firstRow, c)
      · subst hq
        rw [h] at hn
        unfold kindAt
        rw [lookup_mark_eq]
        cases k <;> cases b <;> simp_all
      · unfold kindAt at h ⊢
        rw [lookup_mark_ne hq]; exact h

/-- If no cell clashes all cells are marked. -/
theorem mark_all (k : Bool) (d : Dims) (cs : List Nat) (m : List ((Nat × Nat) × FilterMark))
    (h : (markHeader k d cs m).1 = none) : ∀ c ∈ cs, kindAt (markHeader k d cs m).2 (d.firstRow, c) = some k := by
  induction cs generalizing m with
  | nil => simp
  | cons c cs ih =>
    rcases markHeader_step k d c cs m with ⟨p, e, _⟩ | ⟨e, _⟩
    · rw [e] at h; cases h
    · rw [e] at h ⊢
      intro x hx
      rcases List.mem_cons.mp hx with rfl | hx
      · apply mark_keeps
        unfold kindAt
        rw [lookup_mark_eq]; rfl
      · exact ih _ h x hx

/-- A clash is with a mark of the other kind. -/
theorem mark_clash (k : Bool) (d : Dims) (cs : List Nat) (m : List ((Nat × Nat) × FilterMark)) (p : Dims)
    (h : (markHeader k d cs m).1 = some p) : ∃ c ∈ cs, kindAt m (d.firstRow, c) = some (!k) := by
  induction cs generalizing m with
  | nil => cases h
  | cons c cs ih =>
    rcases markHeader_step k d c cs m with ⟨q, _, hk⟩ | ⟨e, hn⟩
    · exact ⟨c, List.mem_cons_self, hk⟩
    · rw [e] at h
      obtain ⟨x, hx, hk⟩ := ih _ h
      refine ⟨x, List.mem_cons_of_mem _ hx, ?_⟩
      unfold kindAt at hk ⊢
      by_cases hq : (d.firstRow, x) = (d.firstRow, c)
      · rw [hq, lookup_mark_eq] at hk
        cases k <;> simp at hk
      · rw [lookup_mark_ne hq] at hk; exact hk

/-! ### What a call does -/

theorem mem_columns (d : Dims) (c : Nat) (h : d.firstCol ≤ d.lastCol) : c ∈ d.columns ↔ d.firstCol ≤ c ∧ c ≤ d.lastCol := by
  unfold Dims.columns
  rw [List.mem_range'_1]; omega

/-- The corners of a range are in order and inside the grid, and a table with a header row has another row. -/
def tableRectOk (d : Dims) (t : Table Fmt) : Prop :=
  rectOk d ∧ (t.showHeaderRow = true → d.firstRow < d.lastRow)

/-- The data rows of a table whose last data row is `last`. -/
def dataRows (t : Table Fmt) (d : Dims) (last : Nat) : List Nat :=
  List.range' (t.firstDataRow d) (last + 1 - t.firstDataRow d)

/-- What a call of `add_table` comes to. -/
theorem addTable_full (lower : Str → Str) (s : TSheet Fmt) (d : Dims) (t : Table Fmt) :
    (∃ e, (∀ a b, e ≠ .overlaps a b ∧ e ≠ .filterOverlaps a b) ∧ s.addTable lower d t = .err e s) ∨
    (s.addTable lower d t = .panic ∧ tableRectOk d t ∧ t.showTotalRow = true ∧ d.lastRow = 0) ∨
    (tableRectOk d t ∧ ∃ t' last, t.initializeColumns lower d (s.sheet.defaultTableHeaders d t.showHeaderRow) = some t' ∧
      t'.lastDataRow d = some last ∧
      ((∃ e, (s.sheet.writeTable t' s.dflt d (dataRows t' d last)).1 = some e ∧ s.addTable lower d t =
          .err (.cell e) { s with sheet := (s.sheet.writeTable t' s.dflt d (dataRows t' d last)).2 }) ∨
       ((s.sheet.writeTable t' s.dflt d (dataRows t' d last)).1 = none ∧ s.addTable lower d t =
          ({ s with sheet := (s.sheet.writeTable t' s.dflt d (dataRows t' d last)).2 } : TSheet Fmt).placeTable d t'))) := by
  unfold TSheet.addTable
  split
  · exact .inl ⟨.cell .rowColumnLimit, fun _ _ => ⟨nofun, nofun⟩, rfl⟩
  · rename_i hg
    split
    · exact .inl ⟨.cell .rowColumnOrder, fun _ _ => ⟨nofun, nofun⟩, rfl⟩
    · rename_i ho
      split
      · exact .inl ⟨.noRow, fun _ _ => ⟨nofun, nofun⟩, rfl⟩
      · rename_i hr
        have hok : tableRectOk d t := by
          simp [checkDimensionsOnly] at hg ho hr
          have hg2 := hg.2
          simp only [ROW_MAX, COL_MAX] at hg2
          refine ⟨⟨by omega, by omega, by omega, by omega⟩, ?_⟩
          intro hh
          have : ¬ d.firstRow = d.lastRow := fun e => by have := hr e; rw [hh] at this; cases this
          omega
        cases hi : t.initializeColumns lower d (s.sheet.defaultTableHeaders d t.showHeaderRow) with
        | none => exact .inl ⟨.columnName, fun _ _ => ⟨nofun, nofun⟩, rfl⟩
        | some t' =>
          have hsame : t'.showTotalRow = t.showTotalRow := by
            unfold Table.initializeColumns at hi
            obtain ⟨cs, _, rfl⟩ := Option.map_eq_some_iff.mp hi
            rfl
          cases hl : t'.lastDataRow d with
          | none =>
            simp only [hl]
            refine .inr (.inl ⟨trivial, hok, ?_⟩)
            unfold Table.lastDataRow at hl
            rw [hsame] at hl
            split at hl
            · rename_i h1
              split at hl
              · rename_i h2; exact ⟨h1, h2⟩
              · cases hl
            · cases hl
          | some last =>
            simp only [hl]
            refine .inr (.inr ⟨hok, t', last, rfl, hl, ?_⟩)
            have e : List.range' (t'.firstDataRow d) (last + 1 - t'.firstDataRow d) = dataRows t' d last := rfl
            rw [e]
            cases hw : s.sheet.writeTable t' s.dflt d (dataRows t' d last) with
            | mk e sh =>
              cases e with
              | some e => exact .inl ⟨e, rfl, rfl⟩
              | none => exact .inr ⟨rfl, rfl⟩

/-- A call of `add_table` fails before the overlap checks, changing at most cells, or gets to them. -/
theorem addTable_cases (lower : Str → Str) (s : TSheet Fmt) (d : Dims) (t : Table Fmt) :
    (∃ e sh, (∀ a b, e ≠ .overlaps a b ∧ e ≠ .filterOverlaps a b) ∧ s.addTable lower d t = .err e { s with sheet := sh }) ∨
    (s.addTable lower d t = .panic ∧ tableRectOk d t ∧ t.showTotalRow = true ∧ d.lastRow = 0) ∨
    (tableRectOk d t ∧ ∃ t' sh, t.initializeColumns lower d (s.sheet.defaultTableHeaders d t.showHeaderRow) = some t' ∧
      s.addTable lower d t = ({ s with sheet := sh } : TSheet Fmt).placeTable d t') := by
  rcases addTable_full lower s d t with ⟨e, h1, h2⟩ | h | ⟨hok, t', last, hi, _, ⟨e, _, h2⟩ | ⟨_, h2⟩⟩
  · exact .inl ⟨e, s.sheet, h1, h2⟩
  · exact .inr (.inl h)
  · exact .inl ⟨.cell e, _, fun _ _ => ⟨nofun, nofun⟩, h2⟩
  · exact .inr (.inr ⟨hok, t', _, hi, h2⟩)

theorem autofilter_cases (s : TSheet Fmt) (d : Dims) :
    (∃ e, (∀ a b, e ≠ .overlaps a b ∧ e ≠ .filterOverlaps a b) ∧ s.autofilter d = .err e s) ∨
    (rectOk d ∧ ∃ p, (markHeader false d d.columns s.marks).1 = some p ∧ s.autofilter d = .err (.filterOverlaps d p)
      { s with definedName := some d, marks := (markHeader false d d.columns s.marks).2 }) ∨
    (rectOk d ∧ (markHeader false d d.columns s.marks).1 = none ∧ s.autofilter d = .ok
      { s with definedName := some d, marks := (markHeader false d d.columns s.marks).2, area := some d }) := by
  unfold TSheet.autofilter
  split
  · exact .inl ⟨.cell .rowColumnLimit, fun _ _ => ⟨nofun, nofun⟩, rfl⟩
  · rename_i hg
    split
    · exact .inl ⟨.cell .rowColumnOrder, fun _ _ => ⟨nofun, nofun⟩, rfl⟩
    · rename_i ho
      have hok : rectOk d := by
        simp [checkDimensionsOnly] at hg ho
        have hg2 := hg.2
        simp only [ROW_MAX, COL_MAX] at hg2
        exact ⟨by omega, by omega, by omega, by omega⟩
      simp only
      cases hm : (markHeader false d d.columns s.marks).1 with
      | some p => exact .inr (.inl ⟨hok, p, rfl, rfl⟩)
      | none => exact .inr (.inr ⟨hok, rfl, rfl⟩)

/-- What every reachable worksheet satisfies. -/
structure TInv (s : TSheet Fmt) : Prop where
  claim : ClaimInv s.ranges s.index
  same : s.tables.map Prod.snd = s.ranges
  args : ∀ p ∈ s.tables, tableRectOk p.2 p.1
  tmarks : ∀ p ∈ s.tables, p.1.showAutofilter = true → ∀ c ∈ p.2.columns, kindAt s.marks (p.2.firstRow, c) = some true
  amarks : ∀ a, s.area = some a → rectOk a ∧ ∀ c ∈ a.columns, kindAt s.marks (a.firstRow, c) = some false

theorem initializeColumns_flags {lower : Str → Str} {t t' : Table Fmt} {d : Dims} {hs : List Str}
    (h : t.initializeColumns lower d hs = some t') : ∃ cs, t' = { t with columns := cs } := by
  unfold Table.initializeColumns at h
  obtain ⟨cs, _, rfl⟩ := Option.map_eq_some_iff.mp h
  exact ⟨cs, rfl⟩

/-- The worksheet after the overlap checks of an accepted table. -/
theorem placeTable_ok {s u : TSheet Fmt} {d : Dims} {t : Table Fmt} (h : s.placeTable d t = .ok u) :
    (claimCells s.ranges d.cells s.index).1 = .free ∧
    (t.showAutofilter = true → (markHeader true d d.columns s.marks).1 = none) ∧
    u = { s with index := (claimCells s.ranges d.cells s.index).2,
                 marks := if t.showAutofilter then (markHeader true d d.columns s.marks).2 else s.marks,
                 ranges := s.ranges ++ [d], tables := s.tables ++ [(t, d)] } := by
  unfold TSheet.placeTable at h
  cases hc : claimCells s.ranges d.cells s.index with
  | mk a m =>
    rw [hc] at h
    cases a with
    | taken p => cases h
    | panic => cases h
    | free =>
      simp only at h
      cases ht : t.showAutofilter with
      | false =>
        rw [ht] at h
        cases h
        exact ⟨rfl, nofun, rfl⟩
      | true =>
        rw [ht] at h
        simp only [if_true] at h
        cases hm : (markHeader true d d.columns s.marks).1 with
        | some p => rw [hm] at h; cases h
        | none =>
          rw [hm] at h
          cases h
          exact ⟨rfl, fun _ => rfl, rfl⟩

/-- The worksheet after a table is refused by the overlap checks. -/
theorem placeTable_err {s u : TSheet Fmt} {d : Dims} {t : Table Fmt} {e : TableErr} (h : s.placeTable d t = .err e u) :
    (∃ p, e = .overlaps d p ∧ (claimCells s.ranges d.cells s.index).1 = .taken p ∧
      u = { s with index := (claimCells s.ranges d.cells s.index).2 }) ∨
    (∃ p, e = .filterOverlaps d p ∧ t.showAutofilter = true ∧ (markHeader true d d.columns s.marks).1 = some p ∧
      u = { s with index := (claimCells s.ranges d.cells s.index).2,
                   marks := (markHeader true d d.columns s.marks).2 }) := by
  unfold TSheet.placeTable at h
  cases hc : claimCells s.ranges d.cells s.index with
  | mk a m =>
    rw [hc] at h
    cases a with
    | taken p => cases h; exact .inl ⟨p, rfl, rfl, rfl⟩
    | panic => cases h
    | free =>
      simp only at h
      cases ht : t.showAutofilter with
      | false => rw [ht] at h; cases h
      | true =>
        rw [ht] at h
        simp only [if_true] at h
        cases hm : (markHeader true d d.columns s.marks).1 with
        | some p => rw [hm] at h; cases h; exact .inr ⟨p, rfl, rfl, rfl, rfl⟩
        | none => rw [hm] at h; cases h

theorem TInv.place_ok {s u : TSheet Fmt} (hI : TInv s) {d : Dims} {t : Table Fmt} (hok : tableRectOk d t)
    (h : s.placeTable d t = .ok u) : TInv u := by
  obtain ⟨h1, h2, rfl⟩ := placeTable_ok h
  have keep : ∀ q b, kindAt s.marks q = some b →
      kindAt (if t.showAutofilter then (markHeader true d d.columns s.marks).2 else s.marks) q = some b := by
    intro q b hq
    split
    · exact mark_keeps _ _ _ _ _ _ hq
    · exact hq
  refine ⟨hI.claim.free h1, by simp [hI.same], ?_, ?_, ?_⟩
  · intro p hp
    rcases List.mem_append.mp hp with hp | hp
    · exact hI.args p hp
    · rw [List.mem_singleton.mp hp]; exact hok
  · intro p hp hf c hc
    rcases List.mem_append.mp hp with hp | hp
    · exact keep _ _ (hI.tmarks p hp hf c hc)
    · rw [List.mem_singleton.mp hp] at hf hc ⊢
      simp only at hf hc ⊢
      rw [if_pos hf]
      exact mark_all _ _ _ _ (h2 hf) c hc
  · intro a ha
    exact ⟨(hI.amarks a ha).1, fun c hc => keep _ _ ((hI.amarks a ha).2 c hc)⟩

theorem TInv.place_err {s u : TSheet Fmt} (hI : TInv s) {d : Dims} {t : Table Fmt} {e : TableErr}
    (h : s.placeTable d t = .err e u) : TInv u ∧ u.tables = s.tables ∧ u.ranges = s.ranges ∧ u.area = s.area := by
  rcases placeTable_err h with ⟨p, _, _, rfl⟩ | ⟨p, _, _, _, rfl⟩
  · exact ⟨⟨hI.claim.taken d, hI.same, hI.args, hI.tmarks, hI.amarks⟩, rfl, rfl, rfl⟩
  · refine ⟨⟨hI.claim.taken d, hI.same, hI.args, ?_, ?_⟩, rfl, rfl, rfl⟩
    · exact fun p hp hf c hc => mark_keeps _ _ _ _ _ _ (hI.tmarks p hp hf c hc)
    · exact fun a ha => ⟨(hI.amarks a ha).1, fun c hc => mark_keeps _ _ _ _ _ _ ((hI.amarks a ha).2 c hc)⟩

theorem TInv.withSheet {s : TSheet Fmt} (h : TInv s) (sh : Sheet Fmt) : TInv ({ s with sheet := sh } : TSheet Fmt) :=
  ⟨h.claim, h.same, h.args, h.tmarks, h.amarks⟩

theorem TInv.exec {lower : Str → Str} {s u : TSheet Fmt} (hI : TInv s) (op : TOp Fmt)
    (he : s.exec lower op = some u) : TInv u := by
  unfold TSheet.exec at he
  cases op with
  | cell op => cases he; exact hI.withSheet _
  | table d t =>
    simp only [TSheet.call] at he
    rcases addTable_cases lower s d t with ⟨e, sh, _, hm⟩ | ⟨hm, _⟩ | ⟨hok, t', sh, hi, hm⟩
    · rw [hm] at he; cases he; exact hI.withSheet _
    · rw [hm] at he; cases he
    · rw [hm] at he
      obtain ⟨cs, rfl⟩ := initializeColumns_flags hi
      cases hp : ({ s with sheet := sh } : TSheet Fmt).placeTable d { t with columns := cs } with
      | ok v =>
        rw [hp] at he; cases he
        exact (hI.withSheet sh).place_ok (t := { t with columns := cs }) hok hp
      | err e v => rw [hp] at he; cases he; exact ((hI.withSheet sh).place_err hp).1
      | panic => rw [hp] at he; cases he
  | autofilter d =>
    simp only [TSheet.call] at he
    rcases autofilter_cases s d with ⟨e, _, hm⟩ | ⟨_, p, _, hm⟩ | ⟨hok, hn, hm⟩
    · rw [hm] at he; cases he; exact hI
    · rw [hm] at he; cases he
      exact ⟨hI.claim, hI.same, hI.args, fun p hp hf c hc => mark_keeps _ _ _ _ _ _ (hI.tmarks p hp hf c hc),
        fun a ha => ⟨(hI.amarks a ha).1, fun c hc => mark_keeps _ _ _ _ _ _ ((hI.amarks a ha).2 c hc)⟩⟩
    · rw [hm] at he; cases he
      refine ⟨hI.claim, hI.same, hI.args, fun p hp hf c hc => mark_keeps _ _ _ _ _ _ (hI.tmarks p hp hf c hc), ?_⟩
      intro a ha
      cases ha
      exact ⟨hok, mark_all _ _ _ _ hn⟩

theorem TInv.run {lower : Str → Str} {s u : TSheet Fmt} (h : TInv s) (ops : List (TOp Fmt))
    (he : s.run lower ops = some u) : TInv u := by
  induction ops generalizing s with
  | nil => cases he; exact h
  | cons op ops ih =>
    simp only [TSheet.run, List.foldlM_cons] at he
    cases hx : s.exec lower op with
    | none => rw [hx] at he; cases he
    | some v => rw [hx] at he; exact ih (h.exec op hx) he

theorem TInv.new (cfg : Cfg) (merge : Fmt → Fmt → Fmt) (dflt : Fmt) : TInv (TSheet.new cfg merge dflt) :=
  ⟨ClaimInv.empty, rfl, by simp [TSheet.new], by simp [TSheet.new], by simp [TSheet.new]⟩

variable {cfg : Cfg} {merge : Fmt → Fmt → Fmt} {dflt : Fmt} {lower : Str → Str}

/-- C16: whatever calls are made, no two tables of a worksheet have a cell in common, and each lies
inside the grid with ordered corners; a table with a header row has at least one more row. -/
theorem C16_tables_disjoint (ops : List (TOp Fmt)) (s : TSheet Fmt)
    (h : (TSheet.new cfg merge dflt).run lower ops = some s) :
    (s.tables.map Prod.snd).Pairwise apart ∧
    ∀ p ∈ s.tables, rectOk p.2 ∧ (p.1.showHeaderRow = true → p.2.firstRow < p.2.lastRow) := by
  have i := (TInv.new cfg merge dflt).run ops h
  exact ⟨i.same ▸ i.claim.disjoint, i.args⟩

/-- C16: the worksheet's autofilter and the autofilter of a table never have a header cell in common. -/
theorem C16_filters_apart (ops : List (TOp Fmt)) (s : TSheet Fmt)
    (h : (TSheet.new cfg merge dflt).run lower ops = some s) (a : Dims) (ha : s.area = some a)
    (t : Table Fmt) (d : Dims) (ht : (t, d) ∈ s.tables) (hf : t.showAutofilter = true) :
    ¬ ∃ c, covers a a.firstRow c ∧ covers d d.firstRow c ∧ a.firstRow = d.firstRow := by
  have i := (TInv.new cfg merge dflt).run ops h
  rintro ⟨c, h1, h2, e⟩
  have hd := (i.args _ ht).1
  have ha' := (i.amarks a ha).1
  have k1 := i.tmarks _ ht hf c ((mem_columns d c hd.2.1).mpr ⟨h2.2.2.1, h2.2.2.2⟩)
  have k2 := (i.amarks a ha).2 c ((mem_columns a c ha'.2.1).mpr ⟨h1.2.2.1, h1.2.2.2⟩)
  rw [e] at k2
  simp only at k1
  rw [k1] at k2
  cases k2

/-- C16: an `add_table` call whose range overlaps a table of the worksheet is not accepted, and the tables
stay as they are. -/
theorem C16_overlap_refused (ops : List (TOp Fmt)) (s : TSheet Fmt)
    (h : (TSheet.new cfg merge dflt).run lower ops = some s) (d : Dims) (t : Table Fmt)
    (ho : ∃ p ∈ s.tables, ¬ apart p.2 d) :
    s.addTable lower d t = .panic ∨ ∃ e u, s.addTable lower d t = .err e u ∧ u.tables = s.tables := by
  have i := (TInv.new cfg merge dflt).run ops h
  rcases addTable_cases lower s d t with ⟨e, sh, _, hm⟩ | ⟨hm, _⟩ | ⟨_, t', sh, _, hm⟩
  · exact .inr ⟨e, _, hm, rfl⟩
  · exact .inl hm
  · rw [hm]
    cases hp : ({ s with sheet := sh } : TSheet Fmt).placeTable d t' with
    | panic => exact .inl rfl
    | err e u => exact .inr ⟨e, u, rfl, ((i.withSheet sh).place_err hp).2.1⟩
    | ok u =>
      obtain ⟨p, hpm, hpa⟩ := ho
      have := (placeTable_ok hp).1
      refine absurd (i.claim.apart_of_free this p.2 ?_) hpa
      rw [← i.same]
      exact List.mem_map_of_mem hpm

/-! ### As long as no call was refused for an overlap -/

/-- No call of the history is refused for an overlap and none panics. -/
def noClash (lower : Str → Str) : TSheet Fmt → List (TOp Fmt) → Prop
  | _, [] => True
  | s, op :: ops =>
    match s.call lower op with
    | .ok u => noClash lower u ops
    | .err (.overlaps _ _) _ => False
    | .err (.filterOverlaps _ _) _ => False
    | .err _ u => noClash lower u ops
    | .panic => False

/-- The marks of worksheet filters are those of accepted autofilters: there are none without one. -/
theorem noClash_exact (s : TSheet Fmt) (ops : List (TOp Fmt)) (hI : TInv s) (hE : ClaimExact s.ranges s.index)
    (hn : noClash lower s ops) : ∃ u, s.run lower ops = some u ∧ TInv u ∧ ClaimExact u.ranges u.index := by
  induction ops generalizing s with
  | nil => exact ⟨s, rfl, hI, hE⟩
  | cons op ops ih =>
    simp only [TSheet.run, List.foldlM_cons]
    unfold noClash at hn
    have step : ∀ u, s.exec lower op = some u → ClaimExact u.ranges u.index → noClash lower u ops →
        ∃ v, (do let x ← s.exec lower op; ops.foldlM (TSheet.exec lower) x) = some v ∧ TInv v ∧
          ClaimExact v.ranges v.index := by
      intro u hu hE' hn'
      rw [hu]
      exact ih u (hI.exec op hu) hE' hn'
    cases op with
    | cell op => exact step _ rfl hE hn
    | table d t =>
      simp only [TSheet.call] at hn
      have hx : s.exec lower (.table d t) = match s.addTable lower d t with
        | .ok s => some s | .err _ s => some s | .panic => none := rfl
      rcases addTable_cases lower s d t with ⟨e, sh, hne, hm⟩ | ⟨hm, _⟩ | ⟨hok, t', sh, hi, hm⟩
      · rw [hm] at hn hx
        refine step _ hx hE ?_
        cases e with
        | overlaps a b => exact absurd rfl (hne a b).1
        | filterOverlaps a b => exact absurd rfl (hne a b).2
        | _ => exact hn
      · rw [hm] at hn; exact hn.elim
      · rw [hm] at hn hx
        cases hp : ({ s with sheet := sh } : TSheet Fmt).placeTable d t' with
        | panic => rw [hp] at hn; exact hn.elim
        | err e u =>
          rw [hp] at hn
          rcases placeTable_err hp with ⟨p, rfl, _⟩ | ⟨p, rfl, _⟩
          · exact hn.elim
          · exact hn.elim
        | ok u =>
          rw [hp] at hn hx
          refine step _ hx ?_ hn
          obtain ⟨h1, _, rfl⟩ := placeTable_ok hp
          exact hE.free h1
    | autofilter d =>
      simp only [TSheet.call] at hn
      have hx : s.exec lower (.autofilter d) = match s.autofilter d with
        | .ok s => some s | .err _ s => some s | .panic => none := rfl
      rcases autofilter_cases s d with ⟨e, hne, hm⟩ | ⟨_, p, _, hm⟩ | ⟨_, _, hm⟩
      · rw [hm] at hn hx
        refine step _ hx hE ?_
        cases e with
        | overlaps a b => exact absurd rfl (hne a b).1
        | filterOverlaps a b => exact absurd rfl (hne a b).2
        | _ => exact hn
      · rw [hm] at hn; exact hn.elim
      · rw [hm] at hn hx
        exact step _ hx hE hn

/-- C16, partial: as long as no call was refused for an overlap, `add_table` refuses a table for an overlap
exactly if it overlaps a table of the worksheet, and names one that it overlaps; the only panic is that of
a total row in row 1 without a header row (see `C36_total_row_panic`). Missing: after a refused call this is
false, see `C16_phantom_panic_counterexample`. -/
theorem C16_first_overlap_partial (ops : List (TOp Fmt)) (hn : noClash lower (TSheet.new cfg merge dflt) ops)
    (d : Dims) (t : Table Fmt) :
    ∃ s, (TSheet.new cfg merge dflt).run lower ops = some s ∧
      (s.addTable lower d t = .panic → t.showTotalRow = true ∧ t.showHeaderRow = false ∧ d.lastRow = 0) ∧
      (∀ n p u, s.addTable lower d t = .err (.overlaps n p) u → n = d ∧ (p ∈ s.tables.map Prod.snd) ∧ ¬ apart p d) ∧
      (∀ u, s.addTable lower d t = .ok u → (∀ p ∈ s.tables, apart p.2 d) ∧ ∃ t', u.tables = s.tables ++ [(t', d)]) := by
  obtain ⟨s, h1, hI, hE⟩ := noClash_exact _ ops (TInv.new cfg merge dflt) ClaimExact.empty hn
  refine ⟨s, h1, ?_, ?_, ?_⟩
  · intro hp
    rcases addTable_cases lower s d t with ⟨e, sh, _, hm⟩ | ⟨_, hr, h2, h3⟩ | ⟨_, t', sh, _, hm⟩
    · rw [hm] at hp; cases hp
    · refine ⟨h2, ?_, h3⟩
      cases hh : t.showHeaderRow with
      | false => rfl
      | true => have := hr.2 hh; omega
    · rw [hm] at hp
      unfold TSheet.placeTable at hp
      rcases hE.cases hI.claim d with ⟨hf, _⟩ | ⟨p, hp', _, _⟩
      · cases hc : claimCells s.ranges d.cells s.index with
        | mk a m =>
          rw [hc] at hf
          cases hf
          simp only [hc] at hp
          split at hp <;> cases hp
      · cases hc : claimCells s.ranges d.cells s.index with
        | mk a m => rw [hc] at hp'; cases hp'; simp only [hc] at hp; cases hp
  · intro n p u he
    rcases addTable_cases lower s d t with ⟨e, sh, hne, hm⟩ | ⟨hm, _⟩ | ⟨_, t', sh, _, hm⟩
    · rw [hm] at he; cases he; exact absurd rfl (hne _ _).1
    · rw [hm] at he; cases he
    · rw [hm] at he
      rcases placeTable_err he with ⟨q, hq, hc, _⟩ | ⟨q, hq, _⟩
      · cases hq
        have hc' : (claimCells s.ranges d.cells s.index).1 = .taken p := hc
        rcases hE.cases hI.claim d with ⟨hf, _⟩ | ⟨p', hp', hm', ha'⟩
        · rw [hf] at hc'; cases hc'
        · rw [hc'] at hp'; cases hp'
          exact ⟨rfl, hI.same ▸ hm', ha'⟩
      · cases hq
  · intro u he
    rcases addTable_cases lower s d t with ⟨e, sh, hne, hm⟩ | ⟨hm, _⟩ | ⟨_, t', sh, _, hm⟩
    · rw [hm] at he; cases he
    · rw [hm] at he; cases he
    · rw [hm] at he
      obtain ⟨hf, _, rfl⟩ := placeTable_ok he
      refine ⟨?_, t', rfl⟩
      intro p hp
      refine hI.claim.apart_of_free hf p.2 ?_
      rw [← hI.same]
      exact List.mem_map_of_mem hp

/-! ### What goes wrong -/

/-- A table with two columns. -/
def tableDemo : Table Nat := { columns := [{ name := "A".toList }, { name := "B".toList }] }

/-- A worksheet whose only table is B2:C4. -/
def tableHistory : List (TOp Nat) := [.table ⟨1, 1, 3, 2⟩ tableDemo]

/-- C16 is false after a refused call: with the table B2:C4 in place A1:B3 is refused, as it should be; A1:A2,
which has no cell in common with B2:C4, is then not accepted, and the program panics (finding F30). -/
theorem C16_phantom_panic_counterexample :
    (((TSheet.new {} (fun a _ => a) 0 : TSheet Nat).run id (tableHistory ++ [.table ⟨0, 0, 2, 1⟩ tableDemo])).map
      fun s => s.tables.map Prod.snd) = some [⟨1, 1, 3, 2⟩] ∧
    apart ⟨1, 1, 3, 2⟩ ⟨0, 0, 1, 0⟩ ∧
    ((TSheet.new {} (fun a _ => a) 0 : TSheet Nat).run id (tableHistory ++ [.table ⟨0, 0, 1, 0⟩ {}])).isSome = true ∧
    ((TSheet.new {} (fun a _ => a) 0 : TSheet Nat).run id (tableHistory ++ [.table ⟨0, 0, 2, 1⟩ tableDemo] ++
      [.table ⟨0, 0, 1, 0⟩ {}])).isNone = true := by
  refine ⟨by decide +kernel, ?_, by decide +kernel, by decide +kernel⟩
  rintro r c ⟨h1, h2⟩
  simp [covers] at h1 h2
  omega

/-- C10 is false of `autofilter`: a call refused because the range meets the filter of a table leaves the hidden
name of the filter set for the refused range, without any filter on the worksheet (finding F28). -/
theorem C16_refused_filter_counterexample :
    ∃ s : TSheet Nat, (TSheet.new {} (fun a _ => a) 0).run id tableHistory = some s ∧ s.definedName = none ∧
      ∃ u, s.autofilter ⟨1, 0, 5, 1⟩ = .err (.filterOverlaps ⟨1, 0, 5, 1⟩ ⟨1, 1, 3, 2⟩) u ∧
        u.definedName = some ⟨1, 0, 5, 1⟩ ∧ u.area = none :=
  ⟨_, rfl, by decide +kernel, _, by rfl, by decide +kernel, by decide +kernel⟩

/-- A worksheet filter that has been moved away still keeps tables off its old header cells (finding F29). -/
theorem C16_moved_filter_counterexample :
    (((TSheet.new {} (fun a _ => a) 0 : TSheet Nat).run id
      [.autofilter ⟨0, 0, 5, 1⟩, .autofilter ⟨20, 0, 25, 1⟩]).map fun s => s.area) = some (some ⟨20, 0, 25, 1⟩) ∧
    (((TSheet.new {} (fun a _ => a) 0 : TSheet Nat).run id
      [.autofilter ⟨0, 0, 5, 1⟩, .autofilter ⟨20, 0, 25, 1⟩, .table ⟨0, 0, 2, 1⟩ tableDemo]).map
        fun s => s.tables.length) = some 0 := by
  decide +kernel

/-- C36 is false of a table with a total row and no header row in the first row of the worksheet: the program
panics (finding F43). -/
theorem C36_total_row_panic (lower : Str → Str) :
    rectOk ⟨0, 0, 0, 0⟩ ∧ (TSheet.new {} (fun a _ => a) 0 : TSheet Nat).addTable lower ⟨0, 0, 0, 0⟩
      { showTotalRow := true, showHeaderRow := false } = .panic :=
  ⟨⟨by decide, by decide, by decide, by decide⟩, rfl⟩

/-- A table with a header row and a total row and no data row at all is accepted (finding F81). -/
theorem C36_no_data_row_counterexample :
    (((TSheet.new {} (fun a _ => a) 0 : TSheet Nat).run id
      [.table ⟨0, 0, 1, 1⟩ { tableDemo with showTotalRow := true }]).map fun s => s.tables.map Prod.snd) =
        some [⟨0, 0, 1, 1⟩] := by
  decide +kernel

/-- Non-trivial case: two tables and a filter are accepted, an overlapping table and a filter that meets a
table's header are not. -/
example : (((TSheet.new {} (fun a _ => a) 0 : TSheet Nat).run id
    (tableHistory ++ [.table ⟨5, 1, 8, 2⟩ tableDemo, .autofilter ⟨20, 0, 25, 1⟩, .table ⟨3, 1, 9, 2⟩ tableDemo,
      .autofilter ⟨5, 0, 9, 1⟩])).map fun s => (s.tables.map Prod.snd, s.area)) =
    some ([⟨1, 1, 3, 2⟩, ⟨5, 1, 8, 2⟩], some ⟨20, 0, 25, 1⟩) := by decide +kernel

example : noClash id (TSheet.new {} (fun a _ => a) 0 : TSheet Nat) (tableHistory ++ [.table ⟨5, 1, 8, 2⟩ tableDemo]) := by
  trivial

end Verif
