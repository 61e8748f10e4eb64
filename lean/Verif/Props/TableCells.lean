import Verif.Props.Table
import Verif.Spec.Table
import Verif.Lemmas.SheetOut
/-!
C36: the columns of a table and its cells.
-/
set_option linter.unusedSectionVars false
namespace Verif
open Spec
variable {Fmt : Type} [DecidableEq Fmt]

/-! ### Names -/

theorem nameColumns_cons (lower : Str → Str) (c : TableCol Fmt) (cs : List (TableCol Fmt)) (hs seen : List Str)
    (name : Str) (hn : name = if c.name = [] then hs.headD [] else c.name) :
    nameColumns lower (c :: cs) hs seen =
      if lower name ∈ seen then none
      else (nameColumns lower cs hs.tail (lower name :: seen)).map ({ c with name := name } :: ·) := by
  subst hn
  simp only [nameColumns, List.contains_iff_mem]

theorem nameColumns_spec (lower : Str → Str) (cs : List (TableCol Fmt)) (hs : List Str) (seen : List Str)
    (out : List (TableCol Fmt)) (h : nameColumns lower cs hs seen = some out) :
    out.length = cs.length ∧
    (∀ (i : Nat) (c : TableCol Fmt), cs[i]? = some c → out[i]? = some { c with name := if c.name = [] then hs.getD i [] else c.name }) ∧
    (out.map fun c => lower c.name).Nodup ∧ ∀ c ∈ out, lower c.name ∉ seen := by
  induction cs generalizing hs seen out with
  | nil => cases h; simp
  | cons c cs ih =>
    rw [nameColumns_cons lower c cs hs seen _ rfl] at h
    generalize hname : (if c.name = [] then hs.headD [] else c.name) = name at h
    by_cases hc : lower name ∈ seen
    · rw [if_pos hc] at h; cases h
    · rw [if_neg hc] at h
      obtain ⟨o, ho, rfl⟩ := Option.map_eq_some_iff.mp h
      obtain ⟨h1, h2, h3, h4⟩ := ih _ _ _ ho
      refine ⟨by simp [h1], ?_, ?_, ?_⟩
      · intro i x hx
        cases i with
        | zero =>
          simp only [List.getElem?_cons_zero, Option.some.injEq] at hx ⊢
          subst hx
          rw [← hname]
          cases hs <;> rfl
        | succ i =>
          simp only [List.getElem?_cons_succ] at hx ⊢
          rw [h2 i x hx]
          cases hs <;> simp
      · rw [List.map_cons, List.nodup_cons]
        refine ⟨?_, h3⟩
        intro hm
        obtain ⟨x, hx, e⟩ := List.mem_map.mp hm
        exact h4 x hx (by rw [e]; exact List.mem_cons_self)
      · intro x hx
        rcases List.mem_cons.mp hx with rfl | hx
        · exact hc
        · exact fun hm => h4 x hx (List.mem_cons_of_mem _ hm)

/-- The loop fails only for a repeated name. -/
theorem nameColumns_none (lower : Str → Str) (cs : List (TableCol Fmt)) (hs : List Str) (seen : List Str)
    (hl : hs.length = cs.length)
    (hn : nameColumns lower cs hs seen = none) :
    ¬ ((cs.zip hs).map fun p => lower (if p.1.name = [] then p.2 else p.1.name)).Nodup ∨
    ∃ p ∈ cs.zip hs, lower (if p.1.name = [] then p.2 else p.1.name) ∈ seen := by
  induction cs generalizing hs seen with
  | nil => cases hn
  | cons c cs ih =>
    cases hs with
    | nil => cases hl
    | cons x hs =>
      rw [nameColumns_cons lower c cs (x :: hs) seen (if c.name = [] then x else c.name) rfl] at hn
      by_cases hc : lower (if c.name = [] then x else c.name) ∈ seen
      · exact .inr ⟨(c, x), by simp, hc⟩
      · rw [if_neg hc, Option.map_eq_none_iff] at hn
        rcases ih hs _ (by simpa using hl) hn with h | ⟨p, hp, hm⟩
        · left
          rw [List.zip_cons_cons, List.map_cons, List.nodup_cons]
          exact fun q => h q.2
        · rcases List.mem_cons.mp hm with e | hm
          · left
            rw [List.zip_cons_cons, List.map_cons, List.nodup_cons]
            intro q
            apply q.1
            rw [← e]
            exact List.mem_map_of_mem (f := fun p : TableCol Fmt × Str => lower (if p.1.name = [] then p.2 else p.1.name)) hp
          · exact .inr ⟨p, by rw [List.zip_cons_cons]; exact List.mem_cons_of_mem _ hp, hm⟩

theorem resizeColumns_length (n : Nat) (cs : List (TableCol Fmt)) : (resizeColumns n cs).length = n := by
  unfold resizeColumns; simp; omega

theorem resizeColumns_get (n : Nat) (cs : List (TableCol Fmt)) (i : Nat) (hi : i < n) :
    (resizeColumns n cs)[i]? = some ((cs[i]?).getD {}) := by
  unfold resizeColumns
  by_cases h : i < cs.length
  · rw [List.getElem?_append_left (by simp; omega), List.getElem?_take_of_lt hi]
    simp [h]
  · rw [List.getElem?_append_right (by simp; omega), List.getElem?_replicate]
    rw [List.getElem?_eq_none (by omega : cs.length ≤ i)]
    simp
    omega

/-- What the header row holds, as the program reads it. -/
theorem defaultTableHeaders_get (s : Sheet Fmt) (d : Dims) (b : Bool) (i : Nat) (hi : i < d.lastCol + 1 - d.firstCol) :
    (s.defaultTableHeaders d b).getD i [] = columnName []
      (if b then (cellAt s.table d.firstRow (d.firstCol + i)).bind (fun x => plainText x.content) else none) i := by
  unfold Sheet.defaultTableHeaders columnName
  rw [List.getD_eq_getElem?_getD, List.getElem?_map, List.getElem?_range' hi]
  simp only [Option.map_some, Option.getD_some, Nat.one_mul]
  have e : d.firstCol + i - d.firstCol = i := by omega
  rw [e]
  cases b with
  | false => simp
  | true =>
    simp only [Bool.not_true, Bool.false_eq_true, if_false, if_true, ne_eq, not_true_eq_false]
    unfold cellAt
    have e2 : ((s.table.get d.firstRow).bind fun cols => cols.get (d.firstCol + i)) =
        (s.table.get d.firstRow).bind (BMap.get (d.firstCol + i)) := rfl
    rw [e2]
    cases (s.table.get d.firstRow).bind (BMap.get (d.firstCol + i)) with
    | none => rfl
    | some x => cases x <;> rfl

theorem named_eq (s : TSheet Fmt) (d : Dims) (t : Table Fmt) (i : Nat) (hi : i < d.lastCol + 1 - d.firstCol) :
    (if ((t.columns[i]?).getD {}).name = [] then (s.sheet.defaultTableHeaders d t.showHeaderRow).getD i []
      else ((t.columns[i]?).getD {}).name) = wantedName s d t i := by
  rw [defaultTableHeaders_get _ _ _ _ hi]
  unfold wantedName givenName columnName
  cases t.columns[i]? with
  | none => simp
  | some c => by_cases hn : c.name = [] <;> simp [hn]

/-- C36: the table that `add_table` records has one column for each column of its range; each column has the
name the user gave, or the text found in its header cell, or its default name; the other settings of the
columns are those given; and no two names are equal when case is ignored. -/
theorem C36_columns (lower : Str → Str) (s u : TSheet Fmt) (d : Dims) (t : Table Fmt)
    (h : s.addTable lower d t = .ok u) :
    ∃ cs, u.tables = s.tables ++ [({ t with columns := cs }, d)] ∧
      cs.length = d.lastCol - d.firstCol + 1 ∧ d.firstCol ≤ d.lastCol ∧
      (∀ i, i < cs.length → cs[i]? = some { (t.columns[i]?).getD {} with name := wantedName s d t i }) ∧
      (cs.map fun c => lower c.name).Nodup := by
  rcases addTable_cases lower s d t with ⟨e, sh, _, hm⟩ | ⟨hm, _⟩ | ⟨hok, t', sh, hi, hm⟩
  · rw [hm] at h; cases h
  · rw [hm] at h; cases h
  · rw [hm] at h
    unfold Table.initializeColumns at hi
    obtain ⟨cs, hcs, rfl⟩ := Option.map_eq_some_iff.mp hi
    obtain ⟨h1, h2, h3, _⟩ := nameColumns_spec _ _ _ _ _ hcs
    rw [resizeColumns_length] at h1
    have hle := hok.1.2.1
    refine ⟨cs, by rw [(placeTable_ok h).2.2], h1, hle, ?_, h3⟩
    intro i hlt
    rw [h2 i _ (resizeColumns_get _ t.columns i (by omega)), named_eq _ _ _ _ (by omega)]

theorem headers_length (s : Sheet Fmt) (d : Dims) (b : Bool) :
    (s.defaultTableHeaders d b).length = d.lastCol + 1 - d.firstCol := by
  unfold Sheet.defaultTableHeaders
  rw [List.length_map, List.length_range']

/-- The checks of the corners passed. -/
theorem addTable_good (lower : Str → Str) (s : TSheet Fmt) (d : Dims) (t : Table Fmt) (hok : tableRectOk d t) :
    (t.initializeColumns lower d (s.sheet.defaultTableHeaders d t.showHeaderRow) = none ∧
      s.addTable lower d t = .err .columnName s) ∨
    (∃ t', t.initializeColumns lower d (s.sheet.defaultTableHeaders d t.showHeaderRow) = some t' ∧
      ∀ u, s.addTable lower d t ≠ .err .columnName u) := by
  obtain ⟨⟨h1, h2, h3, h4⟩, h5⟩ := hok
  have g1 : checkDimensionsOnly d.firstRow d.firstCol = true := by
    unfold checkDimensionsOnly
    rw [Bool.and_eq_true]
    exact ⟨decide_eq_true (show d.firstRow < 1048576 by omega), decide_eq_true (show d.firstCol < 16384 by omega)⟩
  have g2 : checkDimensionsOnly d.lastRow d.lastCol = true := by
    unfold checkDimensionsOnly
    rw [Bool.and_eq_true]
    exact ⟨decide_eq_true (show d.lastRow < 1048576 by omega), decide_eq_true (show d.lastCol < 16384 by omega)⟩
  have g3 : (decide (d.firstRow > d.lastRow) || decide (d.firstCol > d.lastCol)) = false := by
    simp; omega
  have g4 : (decide (d.firstRow = d.lastRow) && t.showHeaderRow) = false := by
    cases hh : t.showHeaderRow with
    | false => simp
    | true => have := h5 hh; simp; omega
  unfold TSheet.addTable
  simp only [g1, g2, g3, g4, Bool.not_true, Bool.or_self, Bool.false_eq_true, if_false]
  cases hi : t.initializeColumns lower d (s.sheet.defaultTableHeaders d t.showHeaderRow) with
  | none => exact .inl ⟨rfl, rfl⟩
  | some t' =>
    refine .inr ⟨t', rfl, ?_⟩
    intro u he
    simp only at he
    cases hl : t'.lastDataRow d with
    | none => rw [hl] at he; cases he
    | some last =>
      simp only [hl] at he
      split at he
      · cases he
      · rcases placeTable_err he with ⟨p, h, _⟩ | ⟨p, h, _⟩ <;> cases h

/-- C36: a table with good corners is refused for its column names exactly if two of them are equal when case
is ignored. -/
theorem C36_names_refused (lower : Str → Str) (s : TSheet Fmt) (d : Dims) (t : Table Fmt)
    (hok : rectOk d ∧ (t.showHeaderRow = true → d.firstRow < d.lastRow)) :
    (∃ u, s.addTable lower d t = .err .columnName u) ↔ ¬ ((wantedNames s d t).map lower).Nodup := by
  have hle := hok.1.2.1
  have hnames : ((resizeColumns (d.lastCol - d.firstCol + 1) t.columns).zip
      (s.sheet.defaultTableHeaders d t.showHeaderRow)).map
        (fun p => lower (if p.1.name = [] then p.2 else p.1.name)) = (wantedNames s d t).map lower := by
    apply List.ext_getElem?
    intro i
    have hlen := headers_length s.sheet d t.showHeaderRow
    generalize hH : s.sheet.defaultTableHeaders d t.showHeaderRow = H at hlen
    unfold wantedNames
    by_cases hlt : i < d.lastCol - d.firstCol + 1
    · rw [List.getElem?_map, List.getElem?_map, List.getElem?_map, List.getElem?_range hlt]
      have hg : H[i]? = some (H.getD i []) := by
        rw [List.getD_eq_getElem?_getD, List.getElem?_eq_getElem (by omega)]; rfl
      rw [List.getElem?_zip_eq_some (z := ((t.columns[i]?).getD {}, H.getD i [])) |>.mpr
        ⟨resizeColumns_get _ t.columns i hlt, hg⟩]
      simp only [Option.map_some, Option.some.injEq]
      rw [← named_eq s d t i (by omega), hH]
    · rw [List.getElem?_eq_none, List.getElem?_eq_none]
      · rw [List.length_map, List.length_map, List.length_range]; omega
      · rw [List.length_map, List.length_zip, resizeColumns_length, hlen]; omega
  have hlen : (s.sheet.defaultTableHeaders d t.showHeaderRow).length =
      (resizeColumns (d.lastCol - d.firstCol + 1) t.columns).length := by
    rw [resizeColumns_length, headers_length]; omega
  have hspec : ∀ cs, nameColumns lower (resizeColumns (d.lastCol - d.firstCol + 1) t.columns)
      (s.sheet.defaultTableHeaders d t.showHeaderRow) [] = some cs →
      cs.map (fun c => lower c.name) = (wantedNames s d t).map lower := by
    intro cs hcs
    obtain ⟨h1, h2, _⟩ := nameColumns_spec _ _ _ _ _ hcs
    rw [resizeColumns_length] at h1
    unfold wantedNames
    apply List.ext_getElem?
    intro i
    by_cases hlt : i < d.lastCol - d.firstCol + 1
    · rw [List.getElem?_map, List.getElem?_map, List.getElem?_map, h2 i _ (resizeColumns_get _ t.columns i hlt),
        List.getElem?_range hlt, named_eq s d t i (by omega)]
      rfl
    · rw [List.getElem?_eq_none, List.getElem?_eq_none]
      · rw [List.length_map, List.length_map, List.length_range]; omega
      · rw [List.length_map]; omega
  rcases addTable_good lower s d t hok with ⟨hi, he⟩ | ⟨t', hi, he⟩
  · refine ⟨fun _ => ?_, fun _ => ⟨s, he⟩⟩
    unfold Table.initializeColumns at hi
    rw [Option.map_eq_none_iff] at hi
    rcases nameColumns_none _ _ _ _ hlen hi with h | ⟨p, _, hp⟩
    · rw [← hnames]; exact h
    · cases hp
  · refine ⟨fun ⟨u, hu⟩ => absurd hu (he u), fun hd => ?_⟩
    unfold Table.initializeColumns at hi
    obtain ⟨cs, hcs, rfl⟩ := Option.map_eq_some_iff.mp hi
    obtain ⟨_, _, h3, _⟩ := nameColumns_spec _ _ _ _ _ hcs
    rw [hspec cs hcs] at h3
    exact absurd h3 hd

end Verif
