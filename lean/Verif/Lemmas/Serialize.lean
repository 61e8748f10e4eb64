import Verif.Spec.Serialize
/-!
Serialization: the worksheet follows the history.
-/
namespace Verif
open Spec
section
variable {Fmt : Type} [DecidableEq Fmt]

theorem lookup_hashSet {α : Type} (m : List (Str × α)) (k k' : Str) (v : α) :
    (hashSet m k v).lookup k' = if k' = k then some v else m.lookup k' := by
  unfold hashSet
  rw [List.lookup_cons]
  by_cases h : k' = k
  · simp [h]
  · rw [if_neg h]
    have : (k' == k) = false := by simp [h]
    rw [this]
    dsimp only
    induction m with
    | nil => rfl
    | cons a m ih =>
      rw [List.filter_cons]
      by_cases ha : a.1 = k
      · simp only [ha, ne_eq, not_true_eq_false, decide_false, Bool.false_eq_true, if_false]
        rw [ih, List.lookup_cons]
        have : (k' == a.1) = false := by simp [ha, h]
        rw [this]
      · simp only [ha, ne_eq, not_false_eq_true, decide_true, if_true]
        rw [List.lookup_cons, List.lookup_cons, ih]

/-- The calls made for a scalar. -/
def leafCalls : Leaf → List SerCall
  | .boolean b => [.boolean b]
  | .number n => [.number n]
  | .text s => [.text s]
  | .empty => [.text []]
  | .bytes => []

/-- The calls made for a record. -/
def recCalls (r : Rec) : List SerCall :=
  .struct r.struct :: r.fields.flatMap fun p => .field p.1 :: leafCalls p.2

theorem calls_leaf : ∀ (v : SerValue) (l : Leaf), leafOf v = some l → v.calls = leafCalls l
  | .boolean _, l, h | .number _, l, h | .text _, l, h | .none, l, h | .bytes, l, h => by
    simp only [leafOf, Option.some.injEq] at h
    subst h
    simp [SerValue.calls, leafCalls]
  | .wrap v, l, h => by
    simp only [leafOf] at h
    rw [SerValue.calls]
    exact calls_leaf v l h
  | .seq _, l, h | .map _, l, h | .struct _ _, l, h | .tupleVariant _ _, l, h
  | .structVariant _ _, l, h => by simp [leafOf] at h

theorem calls_fields : ∀ (fs : List (Str × SerValue)) (ls : List (Str × Leaf)),
    (fs.mapM fun p => (leafOf p.2).map fun l => (p.1, l)) = some ls →
    serCallsFields fs = ls.flatMap fun p => .field p.1 :: leafCalls p.2
  | [], ls, h => by
    simp at h
    subst h
    simp [serCallsFields]
  | (k, v) :: fs, ls, h => by
    rw [List.mapM_cons] at h
    cases hv : leafOf v with
    | none => rw [hv] at h; simp at h
    | some l =>
      rw [hv] at h
      cases hm : (fs.mapM fun p => (leafOf p.2).map fun l => (p.1, l)) with
      | none => rw [hm] at h; simp at h
      | some ls' =>
        rw [hm] at h
        simp at h
        subst h
        rw [serCallsFields, calls_fields fs ls' hm, calls_leaf v l hv]
        simp

mutual
theorem calls_records : ∀ (v : SerValue) (rs : List Rec), recordsOf v = some rs →
    v.calls = rs.flatMap recCalls
  | .struct name fs, rs, h => by
    simp only [recordsOf, recordOf] at h
    cases hm : (fs.mapM fun p => (leafOf p.2).map fun l => (p.1, l)) with
    | none => rw [hm] at h; simp at h
    | some ls =>
      rw [hm] at h
      simp at h
      subst h
      rw [SerValue.calls, calls_fields fs ls hm]
      simp [recCalls]
  | .wrap v, rs, h => by
    simp only [recordsOf] at h
    rw [SerValue.calls]
    exact calls_records v rs h
  | .seq vs, rs, h => by
    simp only [recordsOf] at h
    rw [SerValue.calls]
    exact calls_records_all vs rs h
  | .boolean _, rs, h | .number _, rs, h | .text _, rs, h | .none, rs, h | .bytes, rs, h
  | .map _, rs, h | .tupleVariant _ _, rs, h | .structVariant _ _, rs, h => by
    simp [recordsOf] at h
theorem calls_records_all : ∀ (vs : List SerValue) (rs : List Rec), recordsOfAll vs = some rs →
    serCallsAll vs = rs.flatMap recCalls
  | [], rs, h => by
    simp [recordsOfAll] at h
    subst h
    simp [serCallsAll]
  | v :: vs, rs, h => by
    rw [recordsOfAll] at h
    cases hv : recordsOf v with
    | none => rw [hv] at h; simp at h
    | some a =>
      cases hs : recordsOfAll vs with
      | none => rw [hv, hs] at h; simp at h
      | some b =>
        rw [hv, hs] at h
        simp at h
        subst h
        rw [serCallsAll, calls_records v a hv, calls_records_all vs b hs, List.flatMap_append]
end

theorem ser_calls_append (a b : List SerCall) (s s' : SerSheet Fmt) (h : s.calls (a ++ b) = .ok s') :
    ∃ t, s.calls a = .ok t ∧ t.calls b = .ok s' := by
  induction a generalizing s with
  | nil => exact ⟨s, rfl, h⟩
  | cons c cs ih =>
    rw [List.cons_append, SerSheet.calls] at h
    cases hc : s.call c with
    | ok t =>
      rw [hc] at h
      obtain ⟨u, h1, h2⟩ := ih t h
      refine ⟨u, ?_, h2⟩
      rw [SerSheet.calls, hc]
      exact h1
    | err e t => rw [hc] at h; cases h
    | panic => rw [hc] at h; cases h

theorem ser_forEach_run (ops : List (Op Fmt)) (s s' : Sheet Fmt)
    (h : forEach ops (fun op sh => sh.exec op) s = (none, s')) : s' = s.run ops := by
  induction ops generalizing s with
  | nil =>
    simp only [forEach, Prod.mk.injEq, true_and] at h
    exact h.symm
  | cons op ops ih =>
    rw [forEach, Res.andThen] at h
    cases e : s.exec op with
    | mk a t =>
      rw [e] at h
      cases a with
      | some x => simp at h
      | none =>
        have := ih t h
        rw [this, Sheet.run, Sheet.run, List.foldl_cons, e]

/-- The fields that are shown, with their columns. -/
def placedFrom (col0 : Nat) : Nat → List (SerField Fmt) → List (SerField Fmt)
  | _, [] => []
  | i, f :: fs => { f with col := col0 + i } :: placedFrom col0 (i + 1) fs

omit [DecidableEq Fmt] in
theorem placeFields_eq (col0 : Nat) (l : List (SerField Fmt)) (off : Nat) :
    placeFields col0 l off = placedFrom col0 off (l.filter fun f => !f.skip) := by
  induction l generalizing off with
  | nil => rfl
  | cons f fs ih =>
    rw [placeFields, List.filter_cons]
    by_cases h : f.skip = true
    · simp [h, ih]
    · have h' : f.skip = false := by simpa using h
      rw [h']
      simp only [Bool.false_eq_true, if_false, Bool.not_false, if_true]
      rw [ih]
      simp [placedFrom, h']

omit [DecidableEq Fmt] in
theorem placed_headers (o : SerOptions Fmt) (d : Decl Fmt) (row col0 : Nat) (hr : d.row = row)
    (hcol : d.col = col0)
    (hh : d.headers = o.hasHeaders) (hf : d.headerFmt = o.headerFmt) (fs : List (SerField Fmt)) (i : Nat) :
    (placedFrom col0 i fs).flatMap (o.headerOps row) = headersFrom d i fs := by
  subst hcol
  induction fs generalizing i with
  | nil => rfl
  | cons f fs ih =>
    rw [placedFrom, List.flatMap_cons, ih, headersFrom]
    congr 1
    unfold SerOptions.headerOps headerAt
    rw [hh, hf, hr]
    dsimp only
    congr 1
    by_cases hb : o.hasHeaders = true
    · rw [if_pos hb, if_pos hb]
      cases f.headerFmt with
      | some x => rfl
      | none => cases o.headerFmt <;> rfl
    · rw [if_neg hb, if_neg hb]

omit [DecidableEq Fmt] in
theorem placed_lookup (col0 : Nat) (fs : List (SerField Fmt)) (i : Nat)
    (m : List (Str × SerField Fmt)) (key : Str) :
    ((placedFrom col0 i fs).foldl (fun m h => hashSet m h.name h) m).lookup key =
      match columnOf fs key with
      | some p => some { p.2 with col := col0 + (i + p.1) }
      | none => m.lookup key := by
  induction fs generalizing i m with
  | nil => rfl
  | cons f fs ih =>
    rw [placedFrom, List.foldl_cons, ih, columnOf]
    cases columnOf fs key with
    | some p =>
      dsimp only
      rw [show i + 1 + p.1 = i + (p.1 + 1) by omega]
    | none =>
      dsimp only
      rw [lookup_hashSet]
      by_cases h : f.name = key
      · rw [if_pos h.symm, if_pos h]
        simp
      · rw [if_neg (fun e => h e.symm), if_neg h]

omit [DecidableEq Fmt] in
theorem placed_maxCol (col0 : Nat) (fs : List (SerField Fmt)) (i c : Nat) :
    (placedFrom col0 i fs).foldl (fun _ h => h.col) c =
      if fs = [] then c else col0 + (i + (fs.length - 1)) := by
  induction fs generalizing i c with
  | nil => rfl
  | cons f fs ih =>
    rw [placedFrom, List.foldl_cons, ih]
    cases fs with
    | nil => simp
    | cons g gs => simp; omega

/-- The stored settings of a struct are those the history asks for. -/
def SerInv (s : SerSheet Fmt) (past : List (SerEvent Fmt)) : Prop :=
  ∀ n, match area n past with
    | none => s.structs.lookup n = none
    | some (d, k) => ∃ c, s.structs.lookup n = some c ∧ c.minRow = d.row ∧ c.minCol = d.col ∧
        c.maxRow = d.dataRow k ∧ c.maxCol = d.col + (d.fields.length - 1) ∧
        c.table = (if d.table then some d.headers else none) ∧
        ∀ key, c.fields.lookup key =
          (columnOf d.fields key).map fun p => { p.2 with col := d.col + p.1 }

theorem writeTable_frame (s t : SerSheet Fmt) (c : SerConfig Fmt) (h : s.writeTable c = .ok t) :
    t.sheet = s.sheet ∧ t.structs = s.structs ∧ t.curStruct = s.curStruct := by
  unfold SerSheet.writeTable at h
  split at h
  · cases h; exact ⟨rfl, rfl, rfl⟩
  · split at h
    · cases h
    · split at h
      · cases h
      · split at h
        · cases h
        · cases h; exact ⟨rfl, rfl, rfl⟩

/-- One accepted header call. -/
theorem ser_declare (s t : SerSheet Fmt) (past : List (SerEvent Fmt)) (row col : Nat)
    (o : SerOptions Fmt) (hinv : SerInv s past) (h : s.storeCustomHeaders row col o = .ok t)
    (d : Decl Fmt) (hd : d = ⟨o.structName, row, col, o.hasHeaders, o.headerFmt,
      o.custom.filter (fun f => !f.skip), o.table⟩) :
    SerInv t (.declare d :: past) ∧ t.sheet = s.sheet.run (headersFrom d 0 d.fields) := by
  unfold SerSheet.storeCustomHeaders at h
  split at h
  · cases h
  split at h
  · cases h
  split at h
  · cases h
  dsimp only at h
  rw [placeFields_eq] at h
  have hd1 : d.fields = o.custom.filter (fun f => !f.skip) := by rw [hd]
  have hrow : d.row = row := by rw [hd]
  have hcol : d.col = col := by rw [hd]
  have hhd : d.headers = o.hasHeaders := by rw [hd]
  rw [← hd1] at h
  rw [placed_headers o d row col hrow hcol hhd (by rw [hd])] at h
  generalize hF : (placedFrom col 0 d.fields).foldl (fun m h => hashSet m h.name h) [] = F at h
  generalize hM : (placedFrom col 0 d.fields).foldl (fun _ h => h.col) col = M at h
  have hfields : ∀ key, F.lookup key = (columnOf d.fields key).map fun p => { p.2 with col := d.col + p.1 } := by
    intro key
    rw [← hF, placed_lookup]
    cases columnOf d.fields key with
    | none => rfl
    | some p => simp [hcol]
  have hmax : M = d.col + (d.fields.length - 1) := by
    rw [← hM, placed_maxCol, hcol]
    split
    · next e => rw [e]; rfl
    · omega
  have hdr : (if o.hasHeaders = true then row + 1 else row) = d.dataRow 0 := by
    unfold Decl.dataRow
    rw [hrow, hhd]
    split <;> omega
  rw [hdr] at h
  split at h
  · cases h
  next sh hsh =>
  have hrun := ser_forEach_run _ _ _ hsh
  have final : ∀ (u : SerSheet Fmt) (tb : Option Bool), u.sheet = sh →
      (∀ n, n ≠ o.structName → u.structs.lookup n = s.structs.lookup n) →
      tb = (if d.table then some d.headers else none) →
      t = { u with structs := hashSet u.structs o.structName ⟨F, row, col, d.dataRow 0, M, tb⟩ } →
      SerInv t (.declare d :: past) ∧ t.sheet = s.sheet.run (headersFrom d 0 d.fields) := by
    intro u tb h1 h2 htb h3
    subst h3
    refine ⟨?_, by rw [← hrun, h1]⟩
    intro n
    by_cases hn : d.struct = n
    · rw [area, if_pos hn]
      dsimp only
      have hn' : n = o.structName := by rw [← hn, hd]
      refine ⟨⟨F, row, col, d.dataRow 0, M, tb⟩, ?_, hrow.symm, hcol.symm, rfl, hmax, htb, hfields⟩
      rw [lookup_hashSet, if_pos hn']
    · rw [area, if_neg hn]
      have hn' : n ≠ o.structName := by
        intro e
        apply hn
        rw [hd, e]
      have := hinv n
      have hl : (hashSet u.structs o.structName ⟨F, row, col, d.dataRow 0, M, tb⟩).lookup n =
          s.structs.lookup n := by
        rw [lookup_hashSet, if_neg hn', h2 n hn']
      dsimp only
      rw [hl]
      exact this
  split at h
  · injection h with h
    exact final { s with sheet := sh } _ rfl (fun n _ => rfl) (by rw [hd]) h.symm
  next old hold =>
    split at h
    · next u hu =>
      obtain ⟨h1, h2, _⟩ := writeTable_frame _ _ _ hu
      injection h with h
      refine final u _ (by rw [h1]) ?_ (by rw [hd]) h.symm
      intro n hn
      rw [h2]
      dsimp only
      rw [lookup_hashSet, if_neg hn]
    · cases h
    · cases h

/-- One value written while a record is being serialized. -/
theorem ser_write (s t : SerSheet Fmt) (op : Nat → Nat → Option Fmt → Op Fmt)
    (h : s.writeCurrent op = .ok t) :
    t.structs = s.structs ∧ t.curStruct = s.curStruct ∧ t.curField = s.curField ∧
    t.sheet = s.sheet.run (match s.structs.lookup s.curStruct with
      | none => []
      | some c => match c.fields.lookup s.curField with
        | none => []
        | some f => [op (c.maxRow - 1) f.col f.valueFmt]) := by
  unfold SerSheet.writeCurrent at h
  split at h
  · next e => cases h; rw [e]; exact ⟨rfl, rfl, rfl, rfl⟩
  next c hc =>
    rw [hc]
    dsimp only
    split at h
    · next e => cases h; rw [e]; exact ⟨rfl, rfl, rfl, rfl⟩
    next f hf =>
      rw [hf]
      dsimp only
      split at h
      · cases h
      split at h
      · cases h
      next sh hsh =>
        cases h
        refine ⟨rfl, rfl, rfl, ?_⟩
        rw [Sheet.run, List.foldl_cons, List.foldl_nil, hsh]

/-- The calls a scalar stands for. -/
theorem ser_leaf (s t : SerSheet Fmt) (l : Leaf) (h : s.calls (leafCalls l) = .ok t) :
    t.structs = s.structs ∧ t.curStruct = s.curStruct ∧
    t.sheet = s.sheet.run (match s.structs.lookup s.curStruct with
      | none => []
      | some c => match c.fields.lookup s.curField with
        | none => []
        | some f => leafOp (c.maxRow - 1) f.col f.valueFmt l) := by
  have one : ∀ (c : SerCall), s.calls [c] = .ok t → s.call c = .ok t := by
    intro c hc
    rw [SerSheet.calls] at hc
    split at hc
    · next u hu => rw [hu]; exact hc
    · exact hc
  cases l with
  | bytes =>
    simp only [leafCalls, SerSheet.calls] at h
    cases h
    refine ⟨rfl, rfl, ?_⟩
    split
    · rfl
    · split <;> rfl
  | boolean b =>
    obtain ⟨h1, h2, _, h4⟩ := ser_write s t (fun r c f => .boolean r c b f) (one _ h)
    exact ⟨h1, h2, h4⟩
  | number b =>
    obtain ⟨h1, h2, _, h4⟩ := ser_write s t (fun r c f => .number r c b f) (one _ h)
    exact ⟨h1, h2, h4⟩
  | text b =>
    obtain ⟨h1, h2, _, h4⟩ := ser_write s t (fun r c f => .string r c b f) (one _ h)
    exact ⟨h1, h2, h4⟩
  | empty =>
    obtain ⟨h1, h2, _, h4⟩ := ser_write s t (fun r c f => .string r c [] f) (one _ h)
    exact ⟨h1, h2, h4⟩

theorem ser_fields (fs : List (Str × Leaf)) (s t : SerSheet Fmt)
    (h : s.calls (fs.flatMap fun p => .field p.1 :: leafCalls p.2) = .ok t) :
    t.structs = s.structs ∧
    t.sheet = s.sheet.run (match s.structs.lookup s.curStruct with
      | none => []
      | some c => fs.flatMap fun p =>
        match c.fields.lookup p.1 with
        | none => []
        | some f => leafOp (c.maxRow - 1) f.col f.valueFmt p.2) := by
  induction fs generalizing s with
  | nil =>
    cases h
    refine ⟨rfl, ?_⟩
    split <;> rfl
  | cons p fs ih =>
    rw [List.flatMap_cons] at h
    obtain ⟨u, h1, h2⟩ := ser_calls_append _ _ _ _ h
    rw [SerSheet.calls, SerSheet.call] at h1
    dsimp only at h1
    obtain ⟨a1, a2, a3⟩ := ser_leaf _ _ _ h1
    obtain ⟨b1, b2⟩ := ih u h2
    dsimp only at a1 a2 a3
    refine ⟨b1.trans a1, ?_⟩
    rw [b2, a3, a1, a2]
    cases s.structs.lookup s.curStruct with
    | none => rfl
    | some c =>
      dsimp only
      rw [List.flatMap_cons, Sheet.run, Sheet.run, Sheet.run, List.foldl_append]

/-- One record. -/
theorem ser_record (r : Rec) (s t : SerSheet Fmt) (past : List (SerEvent Fmt)) (hinv : SerInv s past)
    (h : s.calls (recCalls r) = .ok t) :
    SerInv t (.record r :: past) ∧ t.sheet = s.sheet.run (recordOps past r) := by
  rw [recCalls, SerSheet.calls, SerSheet.call] at h
  dsimp only at h
  obtain ⟨h1, h2⟩ := ser_fields _ _ _ h
  have hr := hinv r.struct
  unfold SerSheet.setCurrentStruct at h1 h2
  dsimp only at h1 h2
  cases ha : area r.struct past with
  | none =>
    rw [ha] at hr
    dsimp only at hr
    rw [hr] at h1 h2
    dsimp only at h1 h2
    rw [hr] at h2
    refine ⟨?_, ?_⟩
    · intro n
      have := hinv n
      rw [area, h1]
      cases hn : area n past with
      | none => rw [hn] at this; exact this
      | some p =>
        rw [hn] at this
        have hne : r.struct ≠ n := by
          intro e
          rw [← e, ha] at hn
          cases hn
        simp only [Option.map_some, if_neg hne, Nat.add_zero]
        exact this
    · rw [recordOps, ha]
      exact h2
  | some p =>
    obtain ⟨d, k⟩ := p
    rw [ha] at hr
    obtain ⟨c, hc, c1, c2, c3, c4, c6, c5⟩ := hr
    rw [hc] at h1 h2
    dsimp only at h1 h2
    rw [lookup_hashSet, if_pos rfl] at h2
    refine ⟨?_, ?_⟩
    · intro n
      rw [area, h1, lookup_hashSet]
      by_cases hn : n = r.struct
      · rw [hn, ha]
        refine ⟨_, if_pos rfl, c1, c2, ?_, c4, c6, c5⟩
        dsimp only
        rw [c3, if_pos rfl]
        unfold Decl.dataRow
        omega
      · rw [if_neg hn]
        have := hinv n
        cases hm : area n past with
        | none => rw [hm] at this; exact this
        | some q =>
          rw [hm] at this
          simp only [Option.map_some, if_neg (Ne.symm hn), Nat.add_zero]
          exact this
    · rw [recordOps, ha]
      rw [h2]
      dsimp only
      congr 2
      funext p
      rw [c5]
      cases columnOf d.fields p.1 with
      | none => rfl
      | some q =>
        dsimp only [Option.map_some]
        rw [c3, Nat.add_sub_cancel]

end
end Verif
