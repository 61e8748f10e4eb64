import Verif.Props.Serialize
import Verif.Lemmas.Gen
/-!
C66, cell by cell: where each field of each record is found, when serialization succeeds, and the
cases where the property fails.
-/
namespace Verif
open Spec
section
variable {Fmt : Type} [DecidableEq Fmt]

/-! ### One cell -/

/-- The cells written by a list of calls that do not touch `(r, c)`. -/
def Untouched (cfg : Cfg) (r c : Nat) (ops : List (Op Fmt)) : Prop :=
  ∀ op ∈ ops, Op.effectAt cfg r c op = Upd.keep

omit [DecidableEq Fmt] in
theorem untouched_content (cfg : Cfg) (r c : Nat) (ops : List (Op Fmt)) (h : Untouched cfg r c ops) (a : Content) :
    ops.foldl (fun a op => (op.effectAt cfg r c).content a) a = a := by
  induction ops generalizing a with
  | nil => rfl
  | cons op ops ih =>
    rw [List.foldl_cons, h op (by simp)]
    exact ih (fun o ho => h o (by simp [ho])) a

omit [DecidableEq Fmt] in
theorem untouched_fmt (cfg : Cfg) (r c : Nat) (ops : List (Op Fmt)) (h : Untouched cfg r c ops) (a : Option Fmt) :
    ops.foldl (fun a op => (op.effectAt cfg r c).fmt a) a = a := by
  induction ops generalizing a with
  | nil => rfl
  | cons op ops ih =>
    rw [List.foldl_cons, h op (by simp)]
    exact ih (fun o ho => h o (by simp [ho])) a

omit [DecidableEq Fmt] in
theorem leafOp_other (cfg : Cfg) (r c row col : Nat) (f : Option Fmt) (l : Leaf)
    (h : r ≠ row ∨ c ≠ col) : Untouched cfg r c (leafOp row col f l) := by
  have hn : ¬ (r = row ∧ c = col) := by omega
  intro op ho
  cases l <;> simp only [leafOp, List.mem_singleton, List.not_mem_nil] at ho <;> subst ho <;>
    simp only [Op.effectAt]
  · rw [if_neg (fun hh => hn ⟨hh.1, hh.2.1⟩)]
  · rw [if_neg hn]
  · rw [if_neg hn]
  · rw [if_neg hn]

omit [DecidableEq Fmt] in
theorem recordOps_row (cfg : Cfg) (r c : Nat) (past : List (SerEvent Fmt)) (x : Rec) (d : Decl Fmt) (k : Nat)
    (ha : area x.struct past = some (d, k)) (h : r ≠ d.dataRow k) : Untouched cfg r c (recordOps past x) := by
  rw [recordOps, ha]
  intro op ho
  dsimp only at ho
  rw [List.mem_flatMap] at ho
  obtain ⟨p, _, hp⟩ := ho
  split at hp
  · simp at hp
  · exact leafOp_other cfg r c _ _ _ _ (Or.inl h) op hp

omit [DecidableEq Fmt] in
theorem area_records (d : Decl Fmt) (rs : List Rec) (older : List (SerEvent Fmt))
    (hrs : ∀ r ∈ rs, r.struct = d.struct) :
    area d.struct ((rs.map .record).reverse ++ .declare d :: older) = some (d, rs.length) := by
  rw [← List.map_reverse]
  have : ∀ (l : List Rec), (∀ r ∈ l, r.struct = d.struct) →
      area d.struct (l.map .record ++ .declare d :: older) = some (d, l.length) := by
    intro l hl
    induction l with
    | nil => simp [area]
    | cons a l ih =>
      rw [List.map_cons, List.cons_append, area, ih (fun r hr => hl r (by simp [hr]))]
      rw [hl a (by simp)]
      simp
  rw [this rs.reverse (by simpa using hrs), List.length_reverse]

omit [DecidableEq Fmt] in
/-- Records after the `j`-th leave its row alone. -/
theorem later_records (cfg : Cfg) (c j : Nat) (d : Decl Fmt) (older : List (SerEvent Fmt)) (a b : List Rec)
    (ha : ∀ r ∈ a, r.struct = d.struct) (hb : ∀ r ∈ b, r.struct = d.struct) (hj : j < a.length) :
    ∃ x, cellOps (((a ++ b).map .record).reverse ++ .declare d :: older) =
      cellOps ((a.map .record).reverse ++ .declare d :: older) ++ x ∧
      Untouched cfg (d.dataRow j) c x := by
  induction b generalizing a with
  | nil => exact ⟨[], by simp, by intro op ho; simp at ho⟩
  | cons r b ih =>
    have hr : r.struct = d.struct := hb r (by simp)
    obtain ⟨x, h1, h2⟩ := ih (a ++ [r])
      (by intro y hy; rw [List.mem_append, List.mem_singleton] at hy
          rcases hy with hy | hy
          · exact ha y hy
          · rw [hy]; exact hr)
      (fun y hy => hb y (by simp [hy])) (by simp; omega)
    rw [List.append_assoc, List.singleton_append] at h1
    refine ⟨recordOps ((a.map .record).reverse ++ .declare d :: older) r ++ x, ?_, ?_⟩
    · rw [h1]
      rw [List.map_append, List.reverse_append]
      simp only [List.map_cons, List.map_nil, List.reverse_cons, List.reverse_nil, List.nil_append,
        List.cons_append]
      rw [cellOps, List.append_assoc]
    · intro op ho
      rw [List.mem_append] at ho
      rcases ho with ho | ho
      · refine recordOps_row cfg _ c _ r d a.length ?_ ?_ op ho
        · rw [hr]
          exact area_records d a older ha
        · unfold Decl.dataRow
          omega
      · exact h2 op ho

omit [DecidableEq Fmt] in
theorem columnOf_name (fs : List (SerField Fmt)) (key : Str) (p : Nat × SerField Fmt)
    (h : columnOf fs key = some p) : fs[p.1]? = some p.2 ∧ p.2.name = key := by
  induction fs generalizing p with
  | nil => simp [columnOf] at h
  | cons f fs ih =>
    rw [columnOf] at h
    cases hc : columnOf fs key with
    | some q =>
      rw [hc] at h
      injection h with h
      subst h
      have := ih q hc
      exact ⟨by simpa using this.1, this.2⟩
    | none =>
      rw [hc] at h
      dsimp only at h
      split at h
      · injection h with h
        subst h
        next e => exact ⟨rfl, e⟩
      · cases h

omit [DecidableEq Fmt] in
/-- With distinct names the column of a field is its position. -/
theorem columnOf_get (fs : List (SerField Fmt)) (i : Nat) (f : SerField Fmt)
    (hn : (fs.map SerField.name).Nodup) (h : fs[i]? = some f) : columnOf fs f.name = some (i, f) := by
  induction fs generalizing i with
  | nil => simp at h
  | cons g fs ih =>
    rw [List.map_cons, List.nodup_cons] at hn
    rw [columnOf]
    cases i with
    | zero =>
      rw [List.getElem?_cons_zero] at h
      injection h with h
      subst h
      cases hc : columnOf fs g.name with
      | some p =>
        exfalso
        have := columnOf_name fs g.name p hc
        exact hn.1 (List.mem_map.2 ⟨p.2, List.mem_of_getElem? this.1, this.2⟩)
      | none => simp
    | succ i =>
      rw [List.getElem?_cons_succ] at h
      rw [ih i hn.2 h]

omit [DecidableEq Fmt] in
/-- What the calls of a record do to the cell of one of its fields. -/
theorem recordOps_cell (cfg : Cfg) (past : List (SerEvent Fmt)) (r : Rec) (d : Decl Fmt) (k i : Nat)
    (f : SerField Fmt) (l : Leaf) (ha : area r.struct past = some (d, k))
    (hn : (d.fields.map SerField.name).Nodup) (hf : d.fields[i]? = some f)
    (hk : (r.fields.map Prod.fst).Nodup) (hl : (f.name, l) ∈ r.fields) :
    ∃ x y, recordOps past r = x ++ (leafOp (d.dataRow k) (d.col + i) f.valueFmt l ++ y) ∧
      Untouched cfg (d.dataRow k) (d.col + i) y := by
  obtain ⟨fa, fb, e⟩ := List.append_of_mem hl
  rw [recordOps, ha]
  dsimp only
  rw [e, List.flatMap_append, List.flatMap_cons, columnOf_get d.fields i f hn hf]
  refine ⟨_, _, rfl, ?_⟩
  intro op ho
  rw [List.mem_flatMap] at ho
  obtain ⟨p, hp, ho⟩ := ho
  cases hc : columnOf d.fields p.1 with
  | none => rw [hc] at ho; simp at ho
  | some q =>
    rw [hc] at ho
    have hq := columnOf_name _ _ _ hc
    refine leafOp_other cfg _ _ _ _ _ _ (Or.inr ?_) op ho
    intro e2
    have e3 : i = q.1 := by omega
    rw [e3, hq.1] at hf
    injection hf with hf
    rw [e, List.map_append, List.map_cons, List.nodup_append] at hk
    have := hk.2.1
    rw [List.nodup_cons] at this
    apply this.1
    rw [List.mem_map]
    exact ⟨p, hp, by rw [← hq.2, hf]⟩

/-- What a field looks like in its cell, if it shows at all. -/
def leafShown (cfg : Cfg) : Leaf → Option Content
  | .boolean b => some (.boolean b)
  | .number (.finite t) => some (.number t)
  | .number .nan => if cfg.nanText = [] then none else some (.text cfg.nanText)
  | .number .posInf => if cfg.infText = [] then none else some (.text cfg.infText)
  | .number .negInf => if cfg.negInfText = [] then none else some (.text cfg.negInfText)
  | .text s => if s = [] then none else some (.text s)
  | .empty | .bytes => none

/-- The text of a field is not too long. -/
def leafFits (cfg : Cfg) : Leaf → Prop
  | .text s => s.length ≤ 32767
  | .number .nan => cfg.nanText.length ≤ 32767
  | .number .posInf => cfg.infText.length ≤ 32767
  | .number .negInf => cfg.negInfText.length ≤ 32767
  | _ => True

omit [DecidableEq Fmt] in
theorem string_shown (cfg : Cfg) (r c : Nat) (f : Option Fmt) (s : Str) (hg : inGrid r c = true)
    (hs : s ≠ []) (hl : s.length ≤ 32767) :
    updString r c (.text s) s f = .write (.text s) f := by
  unfold updString
  rw [if_neg hs, if_pos (by simp [hg, hl])]

omit [DecidableEq Fmt] in
theorem leaf_effect (cfg : Cfg) (r c : Nat) (f : Option Fmt) (l : Leaf) (v : Content)
    (hg : inGrid r c = true) (hv : leafShown cfg l = some v) (hl : leafFits cfg l) :
    ∃ op, leafOp r c f l = [op] ∧ op.effectAt cfg r c = .write v f := by
  cases l with
  | boolean b =>
    refine ⟨_, rfl, ?_⟩
    injection hv with hv
    rw [Op.effectAt, if_pos ⟨rfl, rfl, hg⟩, hv]
  | number n =>
    refine ⟨_, rfl, ?_⟩
    rw [Op.effectAt, if_pos ⟨rfl, rfl⟩]
    cases n with
    | finite t =>
      injection hv with hv
      rw [updNumber, if_pos hg, ← hv]
      rfl
    | nan =>
      simp only [leafShown] at hv
      split at hv
      · cases hv
      next e => injection hv with hv; rw [updNumber, if_pos hg, string_shown cfg r c f _ hg e hl, hv]
    | posInf =>
      simp only [leafShown] at hv
      split at hv
      · cases hv
      next e => injection hv with hv; rw [updNumber, if_pos hg, string_shown cfg r c f _ hg e hl, hv]
    | negInf =>
      simp only [leafShown] at hv
      split at hv
      · cases hv
      next e => injection hv with hv; rw [updNumber, if_pos hg, string_shown cfg r c f _ hg e hl, hv]
  | text s =>
    refine ⟨_, rfl, ?_⟩
    simp only [leafShown] at hv
    split at hv
    · cases hv
    next e =>
      injection hv with hv
      rw [Op.effectAt, if_pos ⟨rfl, rfl⟩, string_shown cfg r c f _ hg e hl, hv]
  | empty => cases hv
  | bytes => cases hv

omit [DecidableEq Fmt] in
/-- C66: whatever was done before, after the headers of a struct and any number of its records the
cell in the row of the `j`-th record and the column of its field holds the value of the field with
the format given for it. -/
theorem C66_field_in_its_cell (cfg : Cfg) (older : List (SerEvent Fmt)) (d : Decl Fmt) (rs : List Rec)
    (hrs : ∀ r ∈ rs, r.struct = d.struct) (hn : (d.fields.map SerField.name).Nodup)
    (j i : Nat) (r : Rec) (f : SerField Fmt) (l : Leaf) (v : Content)
    (hj : rs[j]? = some r) (hi : d.fields[i]? = some f) (hk : (r.fields.map Prod.fst).Nodup)
    (hl : (f.name, l) ∈ r.fields) (hv : leafShown cfg l = some v) (hfit : leafFits cfg l)
    (hg : inGrid (d.row + (if d.headers then 1 else 0) + j) (d.col + i) = true) :
    let ops := cellOps ((rs.map .record).reverse ++ .declare d :: older)
    specContent cfg ops (d.row + (if d.headers then 1 else 0) + j) (d.col + i) = v ∧
    specFmt cfg ops (d.row + (if d.headers then 1 else 0) + j) (d.col + i) = f.valueFmt := by
  intro ops
  obtain ⟨hlt, hget⟩ := List.getElem?_eq_some_iff.1 hj
  have hsplit : rs = (rs.take j ++ [r]) ++ rs.drop (j + 1) := by
    rw [← hget, List.append_assoc, List.singleton_append, List.getElem_cons_drop, List.take_append_drop]
  have hlen : (rs.take j).length = j := by rw [List.length_take]; omega
  have hA : ∀ x ∈ rs.take j, x.struct = d.struct := fun x hx => hrs x (List.mem_of_mem_take hx)
  have hB : ∀ x ∈ rs.drop (j + 1), x.struct = d.struct := fun x hx => hrs x (List.mem_of_mem_drop hx)
  have hr : r.struct = d.struct := hrs r (List.mem_of_getElem? hj)
  have hA' : ∀ x ∈ rs.take j ++ [r], x.struct = d.struct := by
    intro x hx
    rw [List.mem_append, List.mem_singleton] at hx
    rcases hx with hx | hx
    · exact hA x hx
    · rw [hx]; exact hr
  obtain ⟨x, h1, h2⟩ := later_records cfg (d.col + i) j d older (rs.take j ++ [r]) (rs.drop (j + 1)) hA' hB
    (by rw [List.length_append, hlen]; simp)
  rw [← hsplit] at h1
  have hcell : cellOps (((rs.take j ++ [r]).map .record).reverse ++ .declare d :: older) =
      cellOps (((rs.take j).map .record).reverse ++ .declare d :: older) ++
      recordOps (((rs.take j).map .record).reverse ++ .declare d :: older) r := by
    rw [List.map_append, List.reverse_append]
    simp only [List.map_cons, List.map_nil, List.reverse_cons, List.reverse_nil, List.nil_append,
      List.cons_append]
    rw [cellOps]
  have harea := area_records d (rs.take j) older hA
  rw [hlen] at harea
  obtain ⟨a, b, h3, h4⟩ := recordOps_cell cfg _ r d j i f l (by rw [hr]; exact harea) hn hi hk hl
  obtain ⟨op, h5, h6⟩ := leaf_effect cfg (d.dataRow j) (d.col + i) f.valueFmt l v hg hv hfit
  have hops : ops = (cellOps (((rs.take j).map .record).reverse ++ .declare d :: older) ++ a) ++ (op :: (b ++ x)) := by
    show cellOps _ = _
    rw [h1, hcell, h3, h5]
    simp
  show specContent cfg ops (d.dataRow j) (d.col + i) = v ∧ specFmt cfg ops (d.dataRow j) (d.col + i) = f.valueFmt
  rw [hops]
  have hun : Untouched cfg (d.dataRow j) (d.col + i) (b ++ x) := by
    intro o ho
    rw [List.mem_append] at ho
    rcases ho with ho | ho
    · exact h4 o ho
    · exact h2 o ho
  constructor
  · rw [specContent, List.foldl_append, List.foldl_cons, untouched_content cfg _ _ _ hun, h6]
    rfl
  · rw [specFmt, List.foldl_append, List.foldl_cons, untouched_fmt cfg _ _ _ hun, h6]
    rfl

omit [DecidableEq Fmt] in
theorem headersFrom_other (cfg : Cfg) (d : Decl Fmt) (r c : Nat) (fs : List (SerField Fmt)) (k : Nat)
    (h : c < d.col + k) : Untouched cfg r c (headersFrom d k fs) := by
  induction fs generalizing k with
  | nil => intro op ho; simp [headersFrom] at ho
  | cons f fs ih =>
    intro op ho
    rw [headersFrom, List.mem_append] at ho
    rcases ho with ho | ho
    · unfold headerAt at ho
      rw [List.mem_append] at ho
      rcases ho with ho | ho
      · split at ho
        · rw [List.mem_singleton] at ho; subst ho; rfl
        · simp at ho
      · split at ho
        · rw [List.mem_singleton] at ho
          subst ho
          rw [Op.effectAt, if_neg (by omega)]
        · simp at ho
    · exact ih (k + 1) (by omega) op ho

omit [DecidableEq Fmt] in
theorem headersFrom_split (cfg : Cfg) (d : Decl Fmt) (hh : d.headers = true) (fs : List (SerField Fmt)) (k i : Nat)
    (f : SerField Fmt) (h : fs[i]? = some f) :
    ∃ x y, headersFrom d k fs =
      x ++ (.string d.row (d.col + (k + i)) f.header (f.headerFmt.or d.headerFmt) :: y) ∧
      Untouched cfg d.row (d.col + (k + i)) y := by
  induction fs generalizing k i with
  | nil => simp at h
  | cons g fs ih =>
    rw [headersFrom]
    cases i with
    | zero =>
      rw [List.getElem?_cons_zero] at h
      injection h with h
      subst h
      unfold headerAt
      rw [if_pos hh]
      refine ⟨_, headersFrom d (k + 1) fs, by rw [List.append_assoc]; rfl, ?_⟩
      exact headersFrom_other cfg d _ _ fs (k + 1) (by omega)
    | succ i =>
      rw [List.getElem?_cons_succ] at h
      obtain ⟨x, y, h1, h2⟩ := ih (k + 1) i h
      rw [show k + 1 + i = k + (i + 1) by omega] at h1 h2
      refine ⟨headerAt d k g ++ x, y, ?_, h2⟩
      rw [h1, List.append_assoc]

omit [DecidableEq Fmt] in
theorem records_below (cfg : Cfg) (c : Nat) (d : Decl Fmt) (older : List (SerEvent Fmt)) (hh : d.headers = true)
    (rs : List Rec) (hrs : ∀ r ∈ rs, r.struct = d.struct) :
    ∃ x, cellOps ((rs.map .record).reverse ++ .declare d :: older) = cellOps (.declare d :: older) ++ x ∧
      Untouched cfg d.row c x := by
  rw [← List.map_reverse]
  have : ∀ (l : List Rec), (∀ r ∈ l, r.struct = d.struct) →
      ∃ x, cellOps (l.map .record ++ .declare d :: older) = cellOps (.declare d :: older) ++ x ∧
        Untouched cfg d.row c x := by
    intro l hl
    induction l with
    | nil => exact ⟨[], by simp, by intro op ho; simp at ho⟩
    | cons r l ih =>
      obtain ⟨x, h1, h2⟩ := ih (fun y hy => hl y (by simp [hy]))
      refine ⟨x ++ recordOps (l.map .record ++ .declare d :: older) r, ?_, ?_⟩
      · show cellOps (l.map .record ++ .declare d :: older) ++ _ = _
        rw [h1, List.append_assoc]
        rfl
      intro op ho
      rw [List.mem_append] at ho
      rcases ho with ho | ho
      · exact h2 op ho
      · refine recordOps_row cfg _ c _ r d l.length ?_ ?_ op ho
        · rw [hl r (by simp)]
          have := area_records d l.reverse older (by intro y hy; exact hl y (by simp at hy; simp [hy]))
          rw [List.map_reverse, List.reverse_reverse, List.length_reverse] at this
          exact this
        · unfold Decl.dataRow
          rw [hh]
          simp
          omega
  exact this rs.reverse (by simpa using hrs)

omit [DecidableEq Fmt] in
/-- C66: the header of each column stands in the first row, with its own format or that of the
header row, whatever records follow. -/
theorem C66_header_in_its_cell (cfg : Cfg) (older : List (SerEvent Fmt)) (d : Decl Fmt) (rs : List Rec)
    (hrs : ∀ r ∈ rs, r.struct = d.struct) (hh : d.headers = true) (i : Nat) (f : SerField Fmt)
    (hi : d.fields[i]? = some f) (ht : f.header ≠ []) (hlen : f.header.length ≤ 32767)
    (hg : inGrid d.row (d.col + i) = true) :
    let ops := cellOps ((rs.map .record).reverse ++ .declare d :: older)
    specContent cfg ops d.row (d.col + i) = .text f.header ∧
    specFmt cfg ops d.row (d.col + i) = f.headerFmt.or d.headerFmt := by
  intro ops
  obtain ⟨x, h1, h2⟩ := records_below cfg (d.col + i) d older hh rs hrs
  obtain ⟨a, b, h3, h4⟩ := headersFrom_split cfg d hh d.fields 0 i f hi
  rw [Nat.zero_add] at h3 h4
  have hops : ops = (cellOps older ++ a) ++
      (.string d.row (d.col + i) f.header (f.headerFmt.or d.headerFmt) :: (b ++ x)) := by
    show cellOps _ = _
    rw [h1, cellOps, h3]
    simp
  have heff : Op.effectAt cfg d.row (d.col + i)
      (.string d.row (d.col + i) f.header (f.headerFmt.or d.headerFmt)) =
      .write (.text f.header) (f.headerFmt.or d.headerFmt) := by
    rw [Op.effectAt, if_pos ⟨rfl, rfl⟩, string_shown cfg _ _ _ _ hg ht hlen]
  have hun : Untouched cfg d.row (d.col + i) (b ++ x) := by
    intro o ho
    rw [List.mem_append] at ho
    rcases ho with ho | ho
    · exact h4 o ho
    · exact h2 o ho
  rw [hops]
  constructor
  · rw [specContent, List.foldl_append, List.foldl_cons, untouched_content cfg _ _ _ hun, heff]
    rfl
  · rw [specFmt, List.foldl_append, List.foldl_cons, untouched_fmt cfg _ _ _ hun, heff]
    rfl

/-! ### Records that fit are accepted -/

/-- A value a cell can take: a finite number, a text that is not too long, or no text at all. -/
def leafPlain : Leaf → Prop
  | .text s => s.length ≤ 32767
  | .number (.finite _) => True
  | .number _ => False
  | _ => True

theorem leaf_accept (s : Sheet Fmt) (row col : Nat) (f : Option Fmt) (l : Leaf) (hp : leafPlain l)
    (hg : inGrid row col = true) (op : Op Fmt) (ho : op ∈ leafOp row col f l) : (s.exec op).1 = none := by
  have hc := checkDimensions_fst s row col
  rw [hg] at hc
  have str : ∀ t : Str, t.length ≤ 32767 → (s.storeString row col t f).1 = none := by
    intro t ht
    unfold Sheet.storeString
    split
    · split
      · unfold Sheet.storeBlank
        split
        · next e => rw [e] at hc; cases hc
        · rfl
      · rfl
    · split
      · next e => rw [e] at hc; cases hc
      · rw [if_neg (by unfold MAX_STRING_LEN; omega)]
        dsimp only
        split <;> rfl
  cases l with
  | boolean b =>
    simp only [leafOp, List.mem_singleton] at ho
    subst ho
    simp only [Sheet.exec, Sheet.storeBoolean]
    split
    · next e => rw [e] at hc; cases hc
    · rfl
  | number n =>
    simp only [leafOp, List.mem_singleton] at ho
    subst ho
    cases n with
    | finite t =>
      simp only [Sheet.exec, Sheet.storeNumberType]
      split
      · next e => rw [e] at hc; cases hc
      · rfl
    | nan => exact hp.elim
    | posInf => exact hp.elim
    | negInf => exact hp.elim
  | text t =>
    simp only [leafOp, List.mem_singleton] at ho
    subst ho
    exact str t hp
  | empty =>
    simp only [leafOp, List.mem_singleton] at ho
    subst ho
    exact str [] (by simp)
  | bytes => simp [leafOp] at ho

theorem write_accept (s : SerSheet Fmt) (op : Nat → Nat → Option Fmt → Op Fmt)
    (h : ∀ c f, s.structs.lookup s.curStruct = some c → c.fields.lookup s.curField = some f →
      c.maxRow ≠ 0 ∧ (s.sheet.exec (op (c.maxRow - 1) f.col f.valueFmt)).1 = none) :
    ∃ sh, s.writeCurrent op = .ok { s with sheet := sh } := by
  unfold SerSheet.writeCurrent
  split
  · exact ⟨s.sheet, rfl⟩
  next c hc =>
    split
    · exact ⟨s.sheet, rfl⟩
    next f hf =>
      obtain ⟨h1, h2⟩ := h c f hc hf
      rw [if_neg h1]
      split
      · next e => rw [e] at h2; cases h2
      next sh _ => exact ⟨sh, rfl⟩

theorem fields_accept (fs : List (Str × Leaf)) (s : SerSheet Fmt)
    (h : ∀ c key f l, s.structs.lookup s.curStruct = some c → c.fields.lookup key = some f →
      (key, l) ∈ fs → c.maxRow ≠ 0 ∧ inGrid (c.maxRow - 1) f.col = true)
    (hp : ∀ p ∈ fs, leafPlain p.2) :
    ∃ t, s.calls (fs.flatMap fun p => .field p.1 :: leafCalls p.2) = .ok t := by
  induction fs generalizing s with
  | nil => exact ⟨s, rfl⟩
  | cons p fs ih =>
    have one : ∃ sh, ({ s with curField := p.1 } : SerSheet Fmt).calls (leafCalls p.2) =
        .ok { s with curField := p.1, sheet := sh } := by
      have w : ∀ op : Nat → Nat → Option Fmt → Op Fmt,
          (∀ r c f, op r c f ∈ leafOp r c f p.2) →
          ∃ sh, ({ s with curField := p.1 } : SerSheet Fmt).writeCurrent op =
            .ok { s with curField := p.1, sheet := sh } := by
        intro op hop
        refine write_accept _ op ?_
        intro c f hc hf
        obtain ⟨h1, h2⟩ := h c p.1 f p.2 hc hf (by simp)
        exact ⟨h1, leaf_accept _ _ _ _ p.2 (hp p (by simp)) h2 _ (hop _ _ _)⟩
      cases hl : p.2 with
      | bytes => exact ⟨s.sheet, rfl⟩
      | boolean b =>
        obtain ⟨sh, e⟩ := w (fun r c f => .boolean r c b f) (by intro r c f; rw [hl]; simp [leafOp])
        refine ⟨sh, ?_⟩
        simp only [leafCalls, SerSheet.calls, SerSheet.call]
        rw [e]
      | number b =>
        obtain ⟨sh, e⟩ := w (fun r c f => .number r c b f) (by intro r c f; rw [hl]; simp [leafOp])
        refine ⟨sh, ?_⟩
        simp only [leafCalls, SerSheet.calls, SerSheet.call]
        rw [e]
      | text b =>
        obtain ⟨sh, e⟩ := w (fun r c f => .string r c b f) (by intro r c f; rw [hl]; simp [leafOp])
        refine ⟨sh, ?_⟩
        simp only [leafCalls, SerSheet.calls, SerSheet.call]
        rw [e]
      | empty =>
        obtain ⟨sh, e⟩ := w (fun r c f => .string r c [] f) (by intro r c f; rw [hl]; simp [leafOp])
        refine ⟨sh, ?_⟩
        simp only [leafCalls, SerSheet.calls, SerSheet.call]
        rw [e]
    obtain ⟨sh, e1⟩ := one
    obtain ⟨t, e2⟩ := ih { s with curField := p.1, sheet := sh }
      (fun c key f l h1 h2 h3 => h c key f l h1 h2 (by simp [h3])) (fun q hq => hp q (by simp [hq]))
    refine ⟨t, ?_⟩
    rw [List.flatMap_cons, List.cons_append, SerSheet.calls, SerSheet.call]
    dsimp only
    have app : ∀ (a b : List SerCall) (x y : SerSheet Fmt), x.calls a = .ok y → x.calls (a ++ b) = y.calls b := by
      intro a b
      induction a with
      | nil => intro x y hx; cases hx; rfl
      | cons c cs ihc =>
        intro x y hx
        rw [SerSheet.calls] at hx
        rw [List.cons_append, SerSheet.calls]
        cases hcall : x.call c with
        | ok z => rw [hcall] at hx; exact ihc z y hx
        | err e z => rw [hcall] at hx; cases hx
        | panic => rw [hcall] at hx; cases hx
    rw [app _ _ _ _ e1]
    exact e2

/-- C66: after any accepted history, serializing a record succeeds if the next row of its area and
its columns are in the grid and its values are finite numbers and texts of at most 32767
characters; a struct without headers is accepted (and ignored). -/
theorem C66_record_accepted (sh : Sheet Fmt) (ops : List (SerOp Fmt)) (evs : List (SerEvent Fmt))
    (t : SerSheet Fmt) (he : eventsOfAll ops = some evs)
    (h : ({ sheet := sh } : SerSheet Fmt).run ops = some t) (v : SerValue) (r : Rec)
    (hv : recordsOf v = some [r]) (hp : ∀ p ∈ r.fields, leafPlain p.2)
    (hfit : ∀ d k, area r.struct evs.reverse = some (d, k) →
      d.row + (if d.headers then 1 else 0) + k < 1048576 ∧ d.col + d.fields.length ≤ 16384) :
    ∃ t', t.serialize v = .ok t' := by
  obtain ⟨hinv, _⟩ := ser_run ops evs _ t [] (serInv_new sh) he h
  rw [List.append_nil] at hinv
  unfold SerSheet.serialize
  rw [calls_records v [r] hv]
  simp only [List.flatMap_cons, List.flatMap_nil, List.append_nil]
  rw [recCalls, SerSheet.calls, SerSheet.call]
  dsimp only
  refine fields_accept r.fields _ ?_ hp
  intro c key f l hc hf _
  have hr := hinv r.struct
  unfold SerSheet.setCurrentStruct at hc
  dsimp only at hc
  cases ha : area r.struct evs.reverse with
  | none =>
    rw [ha] at hr
    dsimp only at hr
    rw [hr] at hc
    dsimp only at hc
    rw [hr] at hc
    cases hc
  | some q =>
    obtain ⟨d, k⟩ := q
    rw [ha] at hr
    obtain ⟨c0, h0, _, _, h3, _, _, h5⟩ := hr
    rw [h0] at hc
    dsimp only at hc
    rw [lookup_hashSet, if_pos rfl] at hc
    injection hc with hc
    rw [← hc] at hf ⊢
    dsimp only at hf ⊢
    rw [h5] at hf
    obtain ⟨f1, f2⟩ := hfit d k ha
    refine ⟨by omega, ?_⟩
    rw [Nat.add_sub_cancel, h3]
    cases hcol : columnOf d.fields key with
    | none => rw [hcol] at hf; cases hf
    | some p =>
      rw [hcol] at hf
      injection hf with hf
      rw [← hf]
      have hlt := (List.getElem?_eq_some_iff.1 (columnOf_name _ _ _ hcol).1).1
      unfold inGrid Decl.dataRow
      dsimp only
      simp
      omega

/-- C66, in the file: a workbook one of whose worksheets got the calls a serialization stands for
(`C66_cells_follow_history`) shows each field of each record in its cell when it is read back. -/
theorem C66_field_read_back (cfgs : List Cfg) (merge : Fmt → Fmt → Fmt) (dflt : Fmt)
    (ops : List (Nat × Op Fmt)) (extra : List Fmt) (siOrder : List (Str × Nat))
    (hsi : siOrder.Perm (savedBook cfgs merge dflt ops extra).sst.strings) (n : Nat) (cfg : Cfg)
    (hc : cfgs[n]? = some cfg) (hstd : cfg.isStandard) (older : List (SerEvent Fmt)) (d : Decl Fmt)
    (rs : List Rec) (hops : opsFor n ops = cellOps ((rs.map .record).reverse ++ .declare d :: older))
    (hrs : ∀ r ∈ rs, r.struct = d.struct) (hn : (d.fields.map SerField.name).Nodup)
    (j i : Nat) (r : Rec) (f : SerField Fmt) (l : Leaf) (v : Content)
    (hj : rs[j]? = some r) (hi : d.fields[i]? = some f) (hk : (r.fields.map Prod.fst).Nodup)
    (hl : (f.name, l) ∈ r.fields) (hv : leafShown cfg l = some v) (hfit : leafFits cfg l)
    (hg : inGrid (d.row + (if d.headers then 1 else 0) + j) (d.col + i) = true) :
    ∃ s, (savedBook cfgs merge dflt ops extra).sheets[n]? = some s ∧
      readVia (sstList siOrder) s.rows (d.row + (if d.headers then 1 else 0) + j) (d.col + i) = v := by
  obtain ⟨s, h1, h2⟩ := C09_last_write_wins cfgs merge dflt ops extra siOrder hsi n cfg hc hstd
  refine ⟨s, h1, ?_⟩
  rw [h2, hops]
  exact (C66_field_in_its_cell cfg older d rs hrs hn j i r f l v hj hi hk hl hv hfit hg).1

end

/-! ### A concrete history -/

/-- A new worksheet for the examples; formats are numbers. -/
def serNew : SerSheet Nat := { sheet := Sheet.new {} (fun a _ => a) 0 }

/-- What a reader of the saved sheet finds in a cell. -/
def serShown (t : SerSheet Nat) (r c : Nat) : Content :=
  readContent (t.sheet.updateStringTableIds SST.new).1.writeDataTable r c

/-- `struct Fruit { name, cost, note }`, one value. -/
def fruit (name : String) (cost : String) (note : SerValue) : SerValue :=
  .struct "Fruit".toList [("name".toList, .text name.toList), ("cost".toList, .wrap (.number (.finite cost.toList))),
    ("note".toList, note)]

/-- Headers at B3 with a renamed column, a value format and a skipped field. -/
def fruitOptions : SerOptions Nat :=
  { headerFmt := some 7,
    custom := [{ name := "cost".toList, header := "Price".toList, valueFmt := some 5 },
               { name := "note".toList, header := "Note".toList, skip := true }] }

/-- Headers, a vector of two records, a stray cell and another record. -/
def fruitOps : List (SerOp Nat) :=
  [.headersWith 2 1 ⟨"Fruit".toList, ["name".toList, "cost".toList, "note".toList]⟩ fruitOptions,
   .serialize (.seq [fruit "Pear" "1.5" .none, fruit "Fig" "2" (.text "ripe".toList)]),
   .cell (.boolean 0 0 true none),
   .serialize (fruit "Kiwi" "3" .none)]

/-- What the history comes to: the stray cell, the area and its third record. -/
def fruitSheet : Option (Bool × Option (Option Dims) × Option (Option Dims) × List Content) :=
  (serNew.run fruitOps).map fun t =>
    ((eventsOfAll fruitOps).isSome, (t.getDimensions "Fruit".toList).toOption,
      (t.getColumnDimensions "Fruit".toList "cost".toList).toOption,
      [serShown t 2 2, serShown t 3 1,
       serShown t 5 1, serShown t 5 2,
       serShown t 5 3])

/-- The hypotheses of the C66 theorems are met: the history is accepted and made of records. -/
example : fruitSheet = some (true, some (some ⟨2, 1, 5, 2⟩), some (some ⟨2, 2, 5, 2⟩),
    [.text "Price".toList, .text "Pear".toList, .text "Kiwi".toList, .number "3".toList, .blank]) := by
  decide +kernel

/-! ### Where the property fails -/

/-- `struct Outer { a: Inner, b }`. -/
def nestedOps : List (SerOp Nat) :=
  [.headers 0 0 ⟨"Outer".toList, ["a".toList, "b".toList]⟩ 1,
   .serialize (.struct "Outer".toList
     [("a".toList, .struct "Inner".toList [("x".toList, .number (.finite "1".toList))]),
      ("b".toList, .number (.finite "2".toList))])]

/-- F131: a field that is itself a struct makes the later fields of the outer struct disappear,
although their columns have headers and all calls succeed. -/
theorem C66_nested_struct_counterexample :
    ((serNew.run nestedOps).map fun t =>
      [serShown t 0 1, serShown t 1 1]) =
    some [.text "b".toList, .blank] := by
  decide +kernel

/-- F132: serializing a bare value after a record overwrites the last field of that record. -/
theorem C66_bare_value_counterexample :
    ((serNew.run [.headers 0 0 ⟨"S".toList, ["a".toList]⟩ 1,
        .serialize (.struct "S".toList [("a".toList, .text "kept?".toList)]),
        .serialize (.text "stray".toList)]).map fun t =>
      serShown t 1 0) =
    some (.text "stray".toList) := by
  decide +kernel

/-- F133: with hidden headers and no records the reported area ends above its first row, and at the
top of the sheet the call panics. -/
theorem C66_empty_area_counterexample :
    ((serNew.run [.headersWith 5 0 ⟨"S".toList, ["a".toList]⟩ { hasHeaders := false }]).map fun t =>
        t.getDimensions "S".toList) = some (.ok (some ⟨5, 0, 4, 0⟩)) ∧
    ((serNew.run [.headersWith 0 0 ⟨"S".toList, ["a".toList]⟩ { hasHeaders := false }]).map fun t =>
        t.getDimensions "S".toList) = some (.ok none) := by
  exact ⟨rfl, rfl⟩

/-- The headers of two fields in the last column. -/
def lastColumn : SerRes Nat :=
  serNew.exec (.headers 0 16383 ⟨"S".toList, ["a".toList, "b".toList]⟩ 1)

/-- F134: a header call refused because the last header does not fit has already written the
others, and the struct is not known afterwards. -/
theorem C66_refused_headers_counterexample :
    (match lastColumn with
      | .err e t => some (e, serShown t 0 16383, (t.getDimensions "S".toList).toOption)
      | _ => none) =
    some (.rowColumnLimit, .text "a".toList, none) := by
  decide +kernel

/-- Two structs with tables and one record each. -/
def tableOps : List (SerOp Nat) :=
  [.headersWith 0 0 ⟨"A".toList, ["x".toList]⟩ { table := true },
   .headersWith 0 3 ⟨"B".toList, ["y".toList]⟩ { table := true },
   .serialize (.struct "A".toList [("x".toList, .text "1".toList)]),
   .serialize (.struct "B".toList [("y".toList, .text "2".toList)])]

/-- The tables made at save, for an order of the hash map. -/
def tablesInOrder (order : List (Str × SerConfig Nat) → List (Str × SerConfig Nat)) : Option (List Dims) :=
  (serNew.run tableOps).bind fun t =>
    match t.storeTables (order t.structs) with
    | .ok t => some t.tables
    | _ => none

/-- F135: which of two serialized structs gets the first table (hence its number and name) depends
on the iteration order of a hash map, which differs between runs. -/
theorem C66_table_order_counterexample :
    tablesInOrder id = some [⟨0, 3, 1, 3⟩, ⟨0, 0, 1, 0⟩] ∧
    tablesInOrder List.reverse = some [⟨0, 0, 1, 0⟩, ⟨0, 3, 1, 3⟩] := by
  exact ⟨rfl, rfl⟩

/-- F136: headers with a table but no records: all calls succeed and the save fails. -/
theorem C66_table_without_records_counterexample :
    ((serNew.run [.headersWith 0 0 ⟨"A".toList, ["x".toList]⟩ { table := true }]).map fun t =>
      match t.storeTables t.structs with
      | .err e _ => some e
      | _ => none) = some (some .parameter) := by
  rfl

end Verif
