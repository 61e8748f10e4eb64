import Verif.Lemmas.Serialize
import Verif.Props.Sheet
/-!
C66: serialized records go to the columns of their headers, one row after the other.
-/
namespace Verif
open Spec
section
variable {Fmt : Type} [DecidableEq Fmt]

/-! ### The history decides the cells -/

omit [DecidableEq Fmt] in
theorem custom_lookup (l : List (SerField Fmt)) (m : List (Str × SerField Fmt)) (n : Str) :
    (l.foldl (fun m h => hashSet m h.name h) m).lookup n = (settingsOf l n).or (m.lookup n) := by
  induction l generalizing m with
  | nil => rfl
  | cons h t ih =>
    rw [List.foldl_cons, ih, lookup_hashSet]
    unfold settingsOf
    rw [List.reverse_cons, List.find?_append]
    cases List.find? (fun c => decide (c.name = n)) t.reverse with
    | some x => rfl
    | none =>
      by_cases e : h.name = n
      · simp [e]
      · have : ¬ n = h.name := fun x => e x.symm
        simp [e, this]

omit [DecidableEq Fmt] in
theorem merge_shown (o : SerOptions Fmt) (names : List Str) :
    (o.merge names).filter (fun f => !f.skip) = shownFields o names := by
  unfold SerOptions.merge shownFields
  split
  · rfl
  · dsimp only
    induction names with
    | nil => rfl
    | cons n t ih =>
      rw [List.filterMap_cons, List.map_cons, List.filter_cons, custom_lookup]
      have e : (settingsOf o.custom n).or (List.lookup n ([] : List (Str × SerField Fmt))) =
          settingsOf o.custom n := by cases settingsOf o.custom n <;> rfl
      rw [e]
      cases hs : settingsOf o.custom n with
      | none =>
        dsimp only
        rw [List.filter_cons, ih]
        rfl
      | some c =>
        dsimp only
        rw [Option.getD_some]
        by_cases hk : c.skip = true
        · simp only [hk, Bool.not_true, Bool.false_eq_true, if_false]
          exact ih
        · have hk' : c.skip = false := by simpa using hk
          simp only [hk', Bool.not_false, if_true]
          rw [List.filter_cons, hk', ih]
          rfl

theorem ser_events_run : ∀ (rs : List Rec) (s t : SerSheet Fmt) (past : List (SerEvent Fmt)),
    SerInv s past → s.calls (rs.flatMap recCalls) = .ok t →
    SerInv t ((rs.map .record).reverse ++ past) ∧
    ∃ x, cellOps ((rs.map .record).reverse ++ past) = cellOps past ++ x ∧ t.sheet = s.sheet.run x
  | [], s, t, past, hinv, h => by
    cases h
    exact ⟨hinv, [], by simp, rfl⟩
  | r :: rs, s, t, past, hinv, h => by
    rw [List.flatMap_cons] at h
    obtain ⟨u, h1, h2⟩ := ser_calls_append _ _ _ _ h
    obtain ⟨a1, a2⟩ := ser_record r s u past hinv h1
    obtain ⟨b1, x, b2, b3⟩ := ser_events_run rs u t (.record r :: past) a1 h2
    rw [List.map_cons, List.reverse_cons, List.append_assoc, List.singleton_append]
    refine ⟨b1, recordOps past r ++ x, ?_, ?_⟩
    · rw [b2, cellOps, List.append_assoc]
    · rw [b3, a2, Sheet.run, Sheet.run, Sheet.run, List.foldl_append]

theorem ser_op (op : SerOp Fmt) (evs : List (SerEvent Fmt)) (s t : SerSheet Fmt)
    (past : List (SerEvent Fmt)) (hinv : SerInv s past) (he : eventsOf op = some evs)
    (h : s.exec op = .ok t) :
    SerInv t (evs.reverse ++ past) ∧
    ∃ x, cellOps (evs.reverse ++ past) = cellOps past ++ x ∧ t.sheet = s.sheet.run x := by
  cases op with
  | cell op =>
    injection he with he
    subst he
    rw [SerSheet.exec] at h
    split at h
    · cases h
    next sh hsh =>
      cases h
      refine ⟨?_, [op], rfl, ?_⟩
      · intro n
        exact hinv n
      · rw [Sheet.run, List.foldl_cons, List.foldl_nil, hsh]
  | headers row col hd f =>
    injection he with he
    subst he
    have := ser_declare s t past row col _ hinv h _ rfl
    have hfil : (hd.fieldNames.map (SerField.new (Fmt := Fmt))).filter (fun f => !f.skip) =
        hd.fieldNames.map SerField.new := by
      rw [List.filter_eq_self]
      intro a ha
      rw [List.mem_map] at ha
      obtain ⟨n, _, rfl⟩ := ha
      rfl
    dsimp only at this
    rw [hfil] at this
    exact ⟨this.1, _, rfl, this.2⟩
  | headersWith row col hd o =>
    injection he with he
    subst he
    rw [SerSheet.exec, SerSheet.storeHeadersWithOptions] at h
    split at h
    · cases h
    have := ser_declare s t past row col _ hinv h _ rfl
    dsimp only at this
    rw [merge_shown] at this
    exact ⟨this.1, _, rfl, this.2⟩
  | setHeaders row col o =>
    injection he with he
    subst he
    have := ser_declare s t past row col _ hinv h _ rfl
    exact ⟨this.1, _, rfl, this.2⟩
  | serialize v =>
    rw [eventsOf] at he
    cases hr : recordsOf v with
    | none => rw [hr] at he; cases he
    | some rs =>
      rw [hr] at he
      injection he with he
      subst he
      rw [SerSheet.exec, SerSheet.serialize, calls_records v rs hr] at h
      exact ser_events_run rs s t past hinv h

theorem ser_run : ∀ (ops : List (SerOp Fmt)) (evs : List (SerEvent Fmt)) (s t : SerSheet Fmt)
    (past : List (SerEvent Fmt)), SerInv s past → eventsOfAll ops = some evs → s.run ops = some t →
    SerInv t (evs.reverse ++ past) ∧
    ∃ x, cellOps (evs.reverse ++ past) = cellOps past ++ x ∧ t.sheet = s.sheet.run x
  | [], evs, s, t, past, hinv, he, h => by
    injection he with he
    injection h with h
    subst he h
    exact ⟨hinv, [], by simp, rfl⟩
  | op :: ops, evs, s, t, past, hinv, he, h => by
    rw [eventsOfAll] at he
    cases e1 : eventsOf op with
    | none => rw [e1] at he; cases he
    | some a =>
      cases e2 : eventsOfAll ops with
      | none => rw [e1, e2] at he; cases he
      | some b =>
        rw [e1, e2] at he
        injection he with he
        subst he
        rw [SerSheet.run] at h
        split at h
        · next u hu =>
          obtain ⟨a1, x, a2, a3⟩ := ser_op op a s u past hinv e1 hu
          obtain ⟨b1, y, b2, b3⟩ := ser_run ops b u t _ a1 e2 h
          rw [List.reverse_append, List.append_assoc]
          refine ⟨b1, x ++ y, ?_, ?_⟩
          · rw [b2, a2, List.append_assoc]
          · rw [b3, a3, Sheet.run, Sheet.run, Sheet.run, List.foldl_append]
        · cases h

omit [DecidableEq Fmt] in
theorem serInv_new (sh : Sheet Fmt) : SerInv ({ sheet := sh } : SerSheet Fmt) [] := by
  intro n
  rfl

/-- C66: for every accepted history of cell calls, header calls and serialized records, the
worksheet holds exactly what the specified cell calls would have put there. -/
theorem C66_cells_follow_history (sh : Sheet Fmt) (ops : List (SerOp Fmt)) (evs : List (SerEvent Fmt))
    (t : SerSheet Fmt) (he : eventsOfAll ops = some evs)
    (h : ({ sheet := sh } : SerSheet Fmt).run ops = some t) :
    t.sheet = sh.run (cellOps evs.reverse) := by
  obtain ⟨_, x, h1, h2⟩ := ser_run ops evs _ t [] (serInv_new sh) he h
  rw [List.append_nil] at h1
  rw [h2, h1]
  rfl

/-- C66: `get_serialize_dimensions` gives the area from the first cell of the last headers to the
last record since and the last column; it fails for a struct without headers. -/
theorem C66_dimensions (sh : Sheet Fmt) (ops : List (SerOp Fmt)) (evs : List (SerEvent Fmt))
    (t : SerSheet Fmt) (he : eventsOfAll ops = some evs)
    (h : ({ sheet := sh } : SerSheet Fmt).run ops = some t) (n : Str) :
    t.getDimensions n =
      match area n evs.reverse with
      | none => .error .parameter
      | some (d, k) => .ok (areaDims d k) := by
  obtain ⟨hinv, _⟩ := ser_run ops evs _ t [] (serInv_new sh) he h
  rw [List.append_nil] at hinv
  have := hinv n
  unfold SerSheet.getDimensions
  cases ha : area n evs.reverse with
  | none =>
    rw [ha] at this
    dsimp only at this
    rw [this]
  | some p =>
    obtain ⟨d, k⟩ := p
    rw [ha] at this
    obtain ⟨c, h0, h1, h2, h3, h4, _, _⟩ := this
    rw [h0]
    dsimp only
    rw [h1, h2, h3, h4]
    rfl

/-- C66: `get_serialize_column_dimensions` gives the column of the field and the same rows. -/
theorem C66_column_dimensions (sh : Sheet Fmt) (ops : List (SerOp Fmt)) (evs : List (SerEvent Fmt))
    (t : SerSheet Fmt) (he : eventsOfAll ops = some evs)
    (h : ({ sheet := sh } : SerSheet Fmt).run ops = some t) (n key : Str) :
    t.getColumnDimensions n key =
      match area n evs.reverse with
      | none => .error .parameter
      | some (d, k) =>
        match columnOf d.fields key with
        | none => .error .parameter
        | some (i, _) => .ok ((areaDims d k).map fun a => ⟨a.firstRow, d.col + i, a.lastRow, d.col + i⟩) := by
  obtain ⟨hinv, _⟩ := ser_run ops evs _ t [] (serInv_new sh) he h
  rw [List.append_nil] at hinv
  have := hinv n
  unfold SerSheet.getColumnDimensions
  cases ha : area n evs.reverse with
  | none =>
    rw [ha] at this
    dsimp only at this
    rw [this]
  | some p =>
    obtain ⟨d, k⟩ := p
    rw [ha] at this
    obtain ⟨c, h0, h1, h2, h3, h4, _, h5⟩ := this
    rw [h0]
    dsimp only
    rw [h5]
    cases columnOf d.fields key with
    | none => rfl
    | some q =>
      dsimp only [Option.map_some]
      rw [h1, h3]
      unfold areaDims
      split <;> rfl

omit [DecidableEq Fmt] in
theorem ser_lookup_mem (n : Str) (c : SerConfig Fmt) (m : List (Str × SerConfig Fmt))
    (h0 : m.lookup n = some c) : (n, c) ∈ m := by
  induction m with
  | nil => simp at h0
  | cons p m ih =>
    rw [List.lookup_cons] at h0
    by_cases e : n = p.1
    · rw [beq_iff_eq.2 e] at h0
      injection h0 with h0
      rw [← h0, e]
      simp
    · have : (n == p.1) = false := by simp [e]
      rw [this] at h0
      exact List.mem_cons_of_mem _ (ih h0)

theorem storeTables_mem (order : List (Str × SerConfig Fmt)) (s t : SerSheet Fmt)
    (h : s.storeTables order = .ok t) (a : Dims) :
    (a ∈ s.tables → a ∈ t.tables) ∧
    (∀ p ∈ order, p.2.table.isSome → a = ⟨p.2.minRow, p.2.minCol, p.2.maxRow - 1, p.2.maxCol⟩ →
      a ∈ t.tables) := by
  induction order generalizing s with
  | nil =>
    cases h
    exact ⟨id, by simp⟩
  | cons p order ih =>
    rw [SerSheet.storeTables] at h
    split at h
    · next u hu =>
      obtain ⟨h1, h2⟩ := ih u h
      have hw : (a ∈ s.tables → a ∈ u.tables) ∧ (p.2.table.isSome →
          a = ⟨p.2.minRow, p.2.minCol, p.2.maxRow - 1, p.2.maxCol⟩ → a ∈ u.tables) := by
        unfold SerSheet.writeTable at hu
        split at hu
        · next e => cases hu; exact ⟨id, by rw [e]; intro x; cases x⟩
        · split at hu
          · cases hu
          · split at hu
            · cases hu
            · split at hu
              · cases hu
              · cases hu
                refine ⟨fun hm => by simp [hm], fun _ e => by simp [e]⟩
      refine ⟨fun hm => h1 (hw.1 hm), ?_⟩
      intro q hq hs e
      rw [List.mem_cons] at hq
      rcases hq with hq | hq
      · subst hq
        exact h1 (hw.2 hs e)
      · exact h2 q hq hs e
    · next hx => cases hr : s.writeTable p.2 with
      | ok u => exact absurd hr (hx u)
      | err e u => rw [hr] at h; cases h
      | panic => rw [hr] at h; cases h

/-- C66: when the save succeeds, whatever the order of the hash map, each struct whose last headers
asked for a table has one over exactly its area: its headers and all its records. -/
theorem C66_table_covers_area (sh : Sheet Fmt) (ops : List (SerOp Fmt)) (evs : List (SerEvent Fmt))
    (t t' : SerSheet Fmt) (he : eventsOfAll ops = some evs)
    (h : ({ sheet := sh } : SerSheet Fmt).run ops = some t) (order : List (Str × SerConfig Fmt))
    (ho : order.Perm t.structs) (hs : t.storeTables order = .ok t') (n : Str) (d : Decl Fmt) (k : Nat)
    (ha : area n evs.reverse = some (d, k)) (ht : d.table = true) (a : Dims)
    (hd : areaDims d k = some a) : a ∈ t'.tables := by
  obtain ⟨hinv, _⟩ := ser_run ops evs _ t [] (serInv_new sh) he h
  rw [List.append_nil] at hinv
  have := hinv n
  rw [ha] at this
  obtain ⟨c, h0, h1, h2, h3, h4, h5, _⟩ := this
  have hmem : (n, c) ∈ t.structs := ser_lookup_mem _ _ _ h0
  refine (storeTables_mem order t t' hs a).2 (n, c) (ho.mem_iff.2 hmem) ?_ ?_
  · rw [h5, ht]
    rfl
  · dsimp only
    rw [h1, h2, h3, h4]
    unfold areaDims at hd
    split at hd
    · cases hd
    · injection hd with hd
      exact hd.symm

omit [DecidableEq Fmt] in
/-- C66: the header names found from a struct given as a prototype are its field names in order,
whatever the fields hold. -/
theorem C66_header_names (name : Str) (fs : List (Str × SerValue)) :
    SerHeader.capture (.struct name fs) ⟨[], []⟩ = ⟨name, fs.map Prod.fst⟩ := by
  simp [SerHeader.capture]

/-- C66: headers outside the grid, for a struct without name or without fields, or with settings for
a field the struct does not have, are refused and leave the worksheet as it was. -/
theorem C66_bad_headers_refused (s : SerSheet Fmt) (row col : Nat) (h : SerHeader) (o : SerOptions Fmt)
    (hbad : row ≥ 1048576 ∨ col ≥ 16384 ∨ h.structName = [] ∨ h.fieldNames = [] ∨
      ∃ c ∈ o.custom, c.name ∉ h.fieldNames) :
    (∃ e, s.exec (.headersWith row col h o) = .err e s) := by
  rw [SerSheet.exec, SerSheet.storeHeadersWithOptions]
  by_cases hu : (o.custom.any fun c => !h.fieldNames.contains c.name) = true
  · rw [if_pos hu]
    exact ⟨_, rfl⟩
  · rw [if_neg hu, SerSheet.storeCustomHeaders]
    dsimp only
    split
    · exact ⟨_, rfl⟩
    next hd =>
      split
      · exact ⟨_, rfl⟩
      next hs =>
        split
        · exact ⟨_, rfl⟩
        next hm =>
          exfalso
          rw [List.any_eq_true] at hu
          have hd' : row < 1048576 ∧ col < 16384 := by
            simp [checkDimensionsOnly, ROW_MAX, COL_MAX] at hd
            exact ⟨of_decide_eq_true hd.1, of_decide_eq_true hd.2⟩
          rcases hbad with hb | hb | hb | hb | ⟨c, hc, hb⟩
          · omega
          · omega
          · exact hs hb
          · have hcus : o.custom = [] := by
              cases hl : o.custom with
              | nil => rfl
              | cons c cs =>
                exfalso
                apply hu
                exact ⟨c, by rw [hl]; simp, by simp [hb]⟩
            apply hm
            unfold SerOptions.merge
            rw [hcus, hb]
            split <;> rfl
          · exact hu ⟨c, hc, by simpa using hb⟩

end
end Verif
