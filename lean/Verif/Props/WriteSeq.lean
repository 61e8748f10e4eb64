import Verif.Spec.WriteSeq
import Verif.Props.TableShow
/-!
Writing rows, columns and blocks (C70).
-/
set_option linter.unusedSectionVars false
namespace Verif
open Spec
variable {Fmt : Type} [DecidableEq Fmt]

theorem call_some (s : Sheet Fmt) (f : Option Fmt) (p : Item) (op : Op Fmt) (h : p.call f = some op) :
    s.writeDatum p.row p.col f p.datum = s.exec op := by
  obtain ⟨r, c, d⟩ := p
  cases d <;> cases f <;> simp only [Item.call, Option.some.injEq, reduceCtorEq] at h <;> subst h <;> rfl

theorem call_none (s : Sheet Fmt) (f : Option Fmt) (p : Item) (h : p.call f = none) :
    s.writeDatum p.row p.col f p.datum = (none, s) := by
  obtain ⟨r, c, d⟩ := p
  cases d <;> cases f <;> simp only [Item.call, reduceCtorEq] at h <;> rfl

theorem storeFormula_outc (s : Sheet Fmt) (r c : Nat) (fa : FormulaArg) (f : Option Fmt) :
    Outc s (if !inGrid r c then some .rowColumnLimit else none) (s.storeFormula r c fa f) := by
  unfold Sheet.storeFormula
  by_cases hdy : fa.dynamic = true
  · rw [if_pos hdy]
    have := storeArray_outc s r c r c fa none true
    unfold refuseRange at this
    simp only [Nat.lt_irrefl, gt_iff_lt, decide_false, Bool.or_self, Bool.false_eq_true, if_false] at this
    exact this
  · rw [if_neg hdy]
    rcases cd_cases s r c with ⟨hg, e⟩ | ⟨hg, d, e⟩
    · rw [e, hg]; exact outc_err
    · rw [e, hg]; exact outc_none

theorem storeBoolean_outc (s : Sheet Fmt) (r c : Nat) (b : Bool) (f : Option Fmt) :
    Outc s (if !inGrid r c then some .rowColumnLimit else none) (s.storeBoolean r c b f) := by
  unfold Sheet.storeBoolean
  rcases cd_cases s r c with ⟨hg, e⟩ | ⟨hg, d, e⟩
  · rw [e, hg]; exact outc_err
  · rw [e, hg]; exact outc_none

theorem writeDatum_outc (s : Sheet Fmt) (f : Option Fmt) (p : Item) :
    Outc s (p.refusal s.cfg f) (s.writeDatum p.row p.col f p.datum) := by
  obtain ⟨r, c, d⟩ := p
  cases d with
  | num n => exact storeNumber_outc s r c n f false
  | date n => exact storeNumber_outc s r c n f true
  | text t => exact storeString_outc s r c t f
  | bool b => exact storeBoolean_outc s r c b f
  | formula fa => exact storeFormula_outc s r c fa f
  | nothing =>
    cases f with
    | none => exact outc_none
    | some f => exact storeBlank_outc s r c f

/-- An item that is not skipped and not refused is in the grid. -/
theorem in_grid (cfg : Cfg) (f : Option Fmt) (p : Item) (hs : ¬ Skipped f p.datum) (h : p.refusal cfg f = none) :
    p.row < 1048576 ∧ p.col < 16384 := by
  obtain ⟨r, c, d⟩ := p
  have key : inGrid r c = true := by
    unfold Item.refusal Item.call at h
    unfold Skipped at hs
    cases d with
    | num n =>
      have h : refuseNumber cfg r c n = none := h
      cases hg : inGrid r c with
      | true => rfl
      | false => simp [refuseNumber, hg] at h
    | date n =>
      have h : refuseNumber cfg r c n = none := h
      cases hg : inGrid r c with
      | true => rfl
      | false => simp [refuseNumber, hg] at h
    | text t =>
      have h : refuseString r c t f = none := h
      cases hg : inGrid r c with
      | true => rfl
      | false =>
        unfold refuseString at h
        rw [if_neg (by rintro ⟨a, b⟩; exact hs ⟨by simpa using b, .inr (by rw [a])⟩)] at h
        simp [hg] at h
    | bool b =>
      have h : (if !inGrid r c then some Err.rowColumnLimit else none) = none := h
      cases hg : inGrid r c with
      | true => rfl
      | false => simp [hg] at h
    | formula fa =>
      have h : (if !inGrid r c then some Err.rowColumnLimit else none) = none := h
      cases hg : inGrid r c with
      | true => rfl
      | false => simp [hg] at h
    | nothing =>
      cases f with
      | none => exact absurd ⟨rfl, .inl rfl⟩ hs
      | some f =>
        have h : (if !inGrid r c then some Err.rowColumnLimit else none) = none := h
        cases hg : inGrid r c with
        | true => rfl
        | false => simp [hg] at h
  simpa [inGrid] using key

/-- Written one after the other, `items` and then what `k` does. -/
theorem outcome_cons {dflt : Fmt} {s : Sheet Fmt} (hG : Gen dflt s) (f : Option Fmt) (p : Item) (items : List Item)
    (k : Sheet Fmt → SeqRes Fmt)
    (hk : p.refusal s.cfg f = none → ∀ s', Gen dflt s' → s'.cfg = s.cfg → Outcome s' f items (k s')) :
    Outcome s f (p :: items) (match s.writeDatum p.row p.col f p.datum with
      | (some e, s) => .done (some e, s)
      | (none, s) => k s) := by
  have ho := writeDatum_outc s f p
  cases hr : p.refusal s.cfg f with
  | some e =>
    rw [hr] at ho
    obtain ⟨h1, h2⟩ := ho
    obtain ⟨d, h2⟩ := h2 (by simp)
    refine .inr ⟨[], p, items, e, d, rfl, nofun, hr, ?_⟩
    generalize s.writeDatum p.row p.col f p.datum = w at h1 h2 ⊢
    obtain ⟨a, b⟩ := w
    cases h1; cases h2
    rfl
  | none =>
    rw [hr] at ho
    obtain ⟨h1, _⟩ := ho
    have hs' : ∃ s', s.writeDatum p.row p.col f p.datum = (none, s') ∧ Gen dflt s' ∧ s'.cfg = s.cfg ∧
        s' = s.run ([p].filterMap (Item.call f)) := by
      cases hc : p.call f with
      | none => exact ⟨s, call_none s f p hc, hG, rfl, by simp [hc, Sheet.run]⟩
      | some op =>
        have e := call_some s f p op hc
        rw [e] at h1
        refine ⟨(s.exec op).2, ?_, (hG.exec op).1, (hG.exec op).2.cfg, by simp [hc, Sheet.run]⟩
        rw [e]
        exact Prod.ext h1 rfl
    obtain ⟨s', e, g, hc, hrun⟩ := hs'
    rw [e]
    dsimp only
    have split : ∀ l : List Item, (p :: l).filterMap (Item.call f) =
        [p].filterMap (Item.call f) ++ l.filterMap (Item.call f) := by
      intro l; rw [← List.filterMap_append]; rfl
    rcases hk hr s' g hc with ⟨h3, h4⟩ | ⟨pre, q, post, e', d, h3, h4, h5, h6⟩
    · refine .inl ⟨?_, ?_⟩
      · intro q hq
        rcases List.mem_cons.mp hq with rfl | hq
        · exact hr
        · rw [← hc]; exact h3 q hq
      · rw [h4, split, run_append, ← hrun]
    · refine .inr ⟨p :: pre, q, post, e', d, by rw [h3]; rfl, ?_, by rw [← hc]; exact h5, ?_⟩
      · intro q hq
        rcases List.mem_cons.mp hq with rfl | hq
        · exact hr
        · rw [← hc]; exact h4 q hq
      · rw [h6, split, run_append, ← hrun]

theorem outcome_nil (s : Sheet Fmt) (f : Option Fmt) : Outcome s f [] (.done (none, s)) :=
  .inl ⟨nofun, rfl⟩

theorem rowItems_cons (r c : Nat) (d : Datum) (ds : List Datum) :
    rowItems r c (d :: ds) = ⟨r, c, d⟩ :: rowItems r (c + 1) ds := by
  unfold rowItems
  rw [List.mapIdx_cons]
  have : (fun i d => (⟨r, c + (i + 1), d⟩ : Item)) = fun i d => ⟨r, c + 1 + i, d⟩ := by
    funext i d; rw [show c + (i + 1) = c + 1 + i by omega]
  rw [this]
  rfl

theorem columnItems_cons (r c : Nat) (d : Datum) (ds : List Datum) :
    columnItems r c (d :: ds) = ⟨r, c, d⟩ :: columnItems (r + 1) c ds := by
  unfold columnItems
  rw [List.mapIdx_cons]
  have : (fun i d => (⟨r + (i + 1), c, d⟩ : Item)) = fun i d => ⟨r + 1 + i, c, d⟩ := by
    funext i d; rw [show r + (i + 1) = r + 1 + i by omega]
  rw [this]
  rfl

/-- `n` items from number `a` on do not run over the end of the numbers, or each of them is a value. -/
def Fits (f : Option Fmt) (max a : Nat) (data : List Datum) : Prop :=
  a + data.length ≤ max ∨ ∀ d ∈ data, ¬ Skipped f d

theorem fits_tail {f : Option Fmt} {max a : Nat} {d : Datum} {ds : List Datum} (h : Fits f max a (d :: ds)) :
    Fits f max (a + 1) ds := by
  rcases h with h | h
  · left; simp only [List.length_cons] at h; omega
  · exact .inr fun x hx => h x (List.mem_cons_of_mem _ hx)

theorem outcome_row (checked : Bool) {dflt : Fmt} {s : Sheet Fmt} (hG : Gen dflt s) (f : Option Fmt) (r c : Nat) (data : List Datum)
    (hf : Fits f 65535 c data) : Outcome s f (rowItems r c data) (s.writeRow checked f r c data) := by
  induction data generalizing s c with
  | nil => exact outcome_nil s f
  | cons d ds ih =>
    rw [rowItems_cons]
    refine outcome_cons hG f ⟨r, c, d⟩ _ (fun s => match bump checked 65535 c with
      | none => .panic
      | some col => Sheet.writeRow checked f r col ds s) ?_
    intro hr s' g _
    have : bump checked 65535 c = some (c + 1) := by
      refine if_neg ?_
      rintro rfl
      rcases hf with hf | hf
      · simp only [List.length_cons] at hf; omega
      · have := in_grid s.cfg f ⟨r, 65535, d⟩ (hf d List.mem_cons_self) hr
        exact absurd this.2 (by simp)
    rw [this]
    exact ih g (c + 1) (fits_tail hf)

theorem outcome_column (checked : Bool) {dflt : Fmt} {s : Sheet Fmt} (hG : Gen dflt s) (f : Option Fmt) (r c : Nat) (data : List Datum)
    (hf : Fits f 4294967295 r data) : Outcome s f (columnItems r c data) (s.writeColumn checked f c r data) := by
  induction data generalizing s r with
  | nil => exact outcome_nil s f
  | cons d ds ih =>
    rw [columnItems_cons]
    refine outcome_cons hG f ⟨r, c, d⟩ _ (fun s => match bump checked 4294967295 r with
      | none => .panic
      | some row => Sheet.writeColumn checked f c row ds s) ?_
    intro hr s' g _
    have : bump checked 4294967295 r = some (r + 1) := by
      refine if_neg ?_
      rintro rfl
      rcases hf with hf | hf
      · simp only [List.length_cons] at hf; omega
      · have := in_grid s.cfg f ⟨4294967295, c, d⟩ (hf d List.mem_cons_self) hr
        exact absurd this.1 (by simp)
    rw [this]
    exact ih g (r + 1) (fits_tail hf)

theorem run_gen {dflt : Fmt} {s : Sheet Fmt} (hG : Gen dflt s) (ops : List (Op Fmt)) :
    Gen dflt (s.run ops) ∧ (s.run ops).cfg = s.cfg := by
  induction ops generalizing s with
  | nil => exact ⟨hG, rfl⟩
  | cons op ops ih =>
    have := ih (hG.exec op).1
    exact ⟨this.1, this.2.trans (hG.exec op).2.cfg⟩

theorem outcome_append {dflt : Fmt} {s : Sheet Fmt} (hG : Gen dflt s) (f : Option Fmt) (a b : List Item) (r : SeqRes Fmt)
    (hr : Outcome s f a r) (k : Sheet Fmt → SeqRes Fmt)
    (hk : ∀ s', Gen dflt s' → Outcome s' f b (k s')) :
    Outcome s f (a ++ b) (match (generalizing := false) r with
      | .panic => .panic
      | .done (some e, s) => .done (some e, s)
      | .done (none, s) => k s) := by
  rcases hr with ⟨h1, rfl⟩ | ⟨pre, p, post, e, d, h1, h2, h3, rfl⟩
  · dsimp only
    obtain ⟨g, hc⟩ := run_gen hG (a.filterMap (Item.call f))
    rcases hk _ g with ⟨h3, h4⟩ | ⟨pre, q, post, e', d, h3, h4, h5, h6⟩
    · refine .inl ⟨?_, ?_⟩
      · intro q hq
        rcases List.mem_append.mp hq with hq | hq
        · exact h1 q hq
        · rw [← hc]; exact h3 q hq
      · rw [h4, List.filterMap_append, run_append]
    · refine .inr ⟨a ++ pre, q, post, e', d, by rw [h3, List.append_assoc], ?_, by rw [← hc]; exact h5, ?_⟩
      · intro q hq
        rcases List.mem_append.mp hq with hq | hq
        · exact h1 q hq
        · rw [← hc]; exact h4 q hq
      · rw [h6, List.filterMap_append, run_append]
  · exact .inr ⟨pre, p, post ++ b, e, d, by rw [h1, List.append_assoc]; rfl, h2, h3, rfl⟩

theorem rowMatrixItems_cons (r c : Nat) (ds : List Datum) (dss : List (List Datum)) :
    rowMatrixItems r c (ds :: dss) = rowItems r c ds ++ rowMatrixItems (r + 1) c dss := by
  unfold rowMatrixItems
  rw [List.mapIdx_cons, List.flatten_cons]
  have : (fun i ds => rowItems (r + (i + 1)) c ds) = fun i ds => rowItems (r + 1 + i) c ds := by
    funext i d; rw [show r + (i + 1) = r + 1 + i by omega]
  rw [this]
  rfl

theorem columnMatrixItems_cons (r c : Nat) (ds : List Datum) (dss : List (List Datum)) :
    columnMatrixItems r c (ds :: dss) = columnItems r c ds ++ columnMatrixItems r (c + 1) dss := by
  unfold columnMatrixItems
  rw [List.mapIdx_cons, List.flatten_cons]
  have : (fun i ds => columnItems r (c + (i + 1)) ds) = fun i ds => columnItems r (c + 1 + i) ds := by
    funext i d; rw [show c + (i + 1) = c + 1 + i by omega]
  rw [this]
  rfl

theorem outcome_rowMatrix (checked : Bool) {dflt : Fmt} {s : Sheet Fmt} (hG : Gen dflt s) (r c : Nat) (data : List (List Datum))
    (hf : ∀ ds ∈ data, Fits (none : Option Fmt) 65535 c ds) (hr : r + data.length ≤ 4294967295) :
    Outcome s none (rowMatrixItems r c data) (s.writeRowMatrix checked c r data) := by
  induction data generalizing s r with
  | nil => exact outcome_nil s none
  | cons ds dss ih =>
    rw [rowMatrixItems_cons]
    have e : bump checked 4294967295 r = some (r + 1) := if_neg (by simp only [List.length_cons] at hr; omega)
    have := outcome_append hG none (rowItems r c ds) (rowMatrixItems (r + 1) c dss) _
      (outcome_row checked hG none r c ds (hf ds List.mem_cons_self))
      (fun s => match bump checked 4294967295 r with
        | none => .panic
        | some row => Sheet.writeRowMatrix checked c row dss s)
      (fun s' g => by
        rw [e]
        exact ih g (r + 1) (fun x hx => hf x (List.mem_cons_of_mem _ hx)) (by simp only [List.length_cons] at hr; omega))
    exact this

theorem outcome_columnMatrix (checked : Bool) {dflt : Fmt} {s : Sheet Fmt} (hG : Gen dflt s) (r c : Nat) (data : List (List Datum))
    (hf : ∀ ds ∈ data, Fits (none : Option Fmt) 4294967295 r ds) (hr : c + data.length ≤ 65535) :
    Outcome s none (columnMatrixItems r c data) (s.writeColumnMatrix checked r c data) := by
  induction data generalizing s c with
  | nil => exact outcome_nil s none
  | cons ds dss ih =>
    rw [columnMatrixItems_cons]
    have e : bump checked 65535 c = some (c + 1) := if_neg (by simp only [List.length_cons] at hr; omega)
    have := outcome_append hG none (columnItems r c ds) (columnMatrixItems r (c + 1) dss) _
      (outcome_column checked hG none r c ds (hf ds List.mem_cons_self))
      (fun s => match bump checked 65535 c with
        | none => .panic
        | some col => Sheet.writeColumnMatrix checked r col dss s)
      (fun s' g => by
        rw [e]
        exact ih g (c + 1) (fun x hx => hf x (List.mem_cons_of_mem _ hx)) (by simp only [List.length_cons] at hr; omega))
    exact this

theorem Reachable.gen {dflt : Fmt} {s : Sheet Fmt} (h : Reachable dflt s) : Gen dflt s := by
  obtain ⟨cfgs, merge, ops, i, s0, hs, rfl⟩ := h
  exact (StdR.book cfgs merge dflt ops).gen i s0 hs

/-- C70. `write_row` and `write_row_with_format` on any worksheet, in every mode: the items of the row are written as
single calls, from the first to the last one or to the first one that is refused, whose error is returned. Missing: rows
with skipped items that run over column 65535. -/
theorem C70_row_partial (checked : Bool) {dflt : Fmt} {s : Sheet Fmt} (hs : Reachable dflt s) (f : Option Fmt) (r c : Nat) (data : List Datum)
    (hf : Fits f 65535 c data) : Outcome s f (rowItems r c data) (s.writeRow checked f r c data) :=
  outcome_row checked hs.gen f r c data hf

/-- C70. The same for `write_column` and `write_column_with_format`. Missing: columns with skipped items that run over
row 4294967295. -/
theorem C70_column_partial (checked : Bool) {dflt : Fmt} {s : Sheet Fmt} (hs : Reachable dflt s) (f : Option Fmt) (r c : Nat)
    (data : List Datum) (hf : Fits f 4294967295 r data) :
    Outcome s f (columnItems r c data) (s.writeColumn checked f c r data) :=
  outcome_column checked hs.gen f r c data hf

/-- C70. The same for `write_row_matrix`. -/
theorem C70_row_matrix_partial (checked : Bool) {dflt : Fmt} {s : Sheet Fmt} (hs : Reachable dflt s) (r c : Nat)
    (data : List (List Datum)) (hf : ∀ ds ∈ data, Fits (none : Option Fmt) 65535 c ds) (hr : r + data.length ≤ 4294967295) :
    Outcome s none (rowMatrixItems r c data) (s.writeRowMatrix checked c r data) :=
  outcome_rowMatrix checked hs.gen r c data hf hr

/-- C70. The same for `write_column_matrix`. -/
theorem C70_column_matrix_partial (checked : Bool) {dflt : Fmt} {s : Sheet Fmt} (hs : Reachable dflt s) (r c : Nat)
    (data : List (List Datum)) (hf : ∀ ds ∈ data, Fits (none : Option Fmt) 4294967295 r ds) (hr : c + data.length ≤ 65535) :
    Outcome s none (columnMatrixItems r c data) (s.writeColumnMatrix checked r c data) :=
  outcome_columnMatrix checked hs.gen r c data hf hr

/-- The contents after the items have been written one after the other. -/
def putAll (cfg : Cfg) (f : Option Fmt) (items : List Item) (ct : Nat → Nat → Content) : Nat → Nat → Content :=
  items.foldl (fun ct p => setAt p.row p.col (p.shows cfg f) ct) ct

theorem written_eq (t : Str) (f : Option Fmt) (old : Content) : textShows t f old = writtenText t f old := by
  unfold textShows writtenText
  by_cases h : t = []
  · rw [if_neg (by simp [h]), if_pos h]
  · rw [if_pos h, if_neg h]

theorem upd_string {r c : Nat} {t : Str} {f : Option Fmt} (h : refuseString r c t f = none) (old : Content) :
    (updString r c (.text t) t f).content old = writtenText t f old := by
  unfold refuseString at h
  unfold updString writtenText
  by_cases he : t = []
  · subst he
    cases f with
    | none => rfl
    | some f =>
      cases hg : inGrid r c with
      | true => simp [Upd.content]
      | false => simp [hg] at h
  · simp only [he, if_false, false_and] at h ⊢
    cases hg : inGrid r c with
    | false => simp [hg] at h
    | true =>
      simp only [hg, Bool.not_true, Bool.false_eq_true, if_false] at h
      have : t.length ≤ 32767 := by
        by_cases hl : t.length > 32767
        · rw [if_pos hl] at h; cases h
        · omega
      simp [this, Upd.content]

theorem upd_text {r c : Nat} {t : Str} {f : Option Fmt} (hg : inGrid r c = true) (hl : ¬ t.length > 32767) (old : Content) :
    (updString r c (.text t) t f).content old = writtenText t f old := by
  refine upd_string ?_ old
  unfold refuseString
  rw [if_neg hl, hg]
  split <;> rfl

theorem upd_number {cfg : Cfg} {r c : Nat} {n : F64} {f : Option Fmt} {b : Bool} (h : refuseNumber cfg r c n = none) (old : Content) :
    (updNumber cfg r c n f b).content old = (Item.mk r c (if b then .date n else .num n)).shows cfg f old := by
  unfold refuseNumber at h
  cases hg : inGrid r c with
  | false => simp [hg] at h
  | true =>
    simp only [hg, Bool.not_true, Bool.false_eq_true, if_false] at h
    cases n with
    | finite t => cases b <;> simp [updNumber, hg, Item.shows, Upd.content]
    | nan =>
      have h : (if cfg.nanText.length > 32767 then some Err.maxStringLength else none) = none := h
      have hl : ¬ cfg.nanText.length > 32767 := by intro k; rw [if_pos k] at h; cases h
      unfold updNumber
      dsimp only
      rw [if_pos hg, upd_text hg hl]
      cases b <;> rfl
    | posInf =>
      have h : (if cfg.infText.length > 32767 then some Err.maxStringLength else none) = none := h
      have hl : ¬ cfg.infText.length > 32767 := by intro k; rw [if_pos k] at h; cases h
      unfold updNumber
      dsimp only
      rw [if_pos hg, upd_text hg hl]
      cases b <;> rfl
    | negInf =>
      have h : (if cfg.negInfText.length > 32767 then some Err.maxStringLength else none) = none := h
      have hl : ¬ cfg.negInfText.length > 32767 := by intro k; rw [if_pos k] at h; cases h
      unfold updNumber
      dsimp only
      rw [if_pos hg, upd_text hg hl]
      cases b <;> rfl

theorem grid_of {r c : Nat} (h : (if !inGrid r c then some Err.rowColumnLimit else none) = none) : inGrid r c = true := by
  cases hg : inGrid r c with
  | true => rfl
  | false => simp [hg] at h

/-- The effect of the call of an item. -/
theorem item_effect {cfg : Cfg} {f : Option Fmt} {p : Item} {op : Op Fmt} (hc : p.call f = some op)
    (hr : p.refusal cfg f = none) (ct : Nat → Nat → Content) (r' c' : Nat) :
    (op.asCoded.effectAt cfg r' c').content (ct r' c') = setAt p.row p.col (p.shows cfg f) ct r' c' := by
  obtain ⟨r, c, d⟩ := p
  have hr : op.refusal cfg = none := by unfold Item.refusal at hr; rw [hc] at hr; exact hr
  unfold setAt
  by_cases hh : r' = r ∧ c' = c
  · rw [if_pos hh]
    obtain ⟨rfl, rfl⟩ := hh
    cases d with
    | num n =>
      cases (Option.some.inj hc)
      simp only [Op.asCoded, Op.effectAt, and_self, if_true]
      exact upd_number (b := false) hr _
    | date n =>
      cases (Option.some.inj hc)
      simp only [Op.asCoded, Op.effectAt, and_self, if_true]
      exact upd_number (b := true) hr _
    | text t =>
      cases (Option.some.inj hc)
      simp only [Op.asCoded, Op.effectAt, and_self, if_true]
      exact upd_string hr _
    | bool b =>
      cases (Option.some.inj hc)
      have hg := grid_of hr
      simp only [Op.asCoded, Op.effectAt, hg, and_self, if_true]
      rfl
    | formula fa =>
      cases (Option.some.inj hc)
      have hg := grid_of hr
      simp only [Op.asCoded, Op.effectAt, hg, and_self, if_true, Item.shows, formulaContent]
      split <;> rfl
    | nothing =>
      cases f with
      | none => cases hc
      | some f =>
        cases (Option.some.inj hc)
        have hg := grid_of hr
        simp only [Op.asCoded, Op.effectAt, hg, and_self, if_true, Item.shows, writtenText, Option.isSome_some]
        rfl
  · rw [if_neg hh]
    have h3 : ¬ (r' = r ∧ c' = c ∧ inGrid r' c' = true) := fun k => hh ⟨k.1, k.2.1⟩
    cases d with
    | nothing =>
      cases f with
      | none => cases hc
      | some f =>
        cases (Option.some.inj hc)
        simp only [Op.asCoded, Op.effectAt, if_neg h3]
        rfl
    | num n => cases (Option.some.inj hc); simp only [Op.asCoded, Op.effectAt, if_neg hh]; rfl
    | date n => cases (Option.some.inj hc); simp only [Op.asCoded, Op.effectAt, if_neg hh]; rfl
    | text t => cases (Option.some.inj hc); simp only [Op.asCoded, Op.effectAt, if_neg hh]; rfl
    | bool b => cases (Option.some.inj hc); simp only [Op.asCoded, Op.effectAt, if_neg h3]; rfl
    | formula fa => cases (Option.some.inj hc); simp only [Op.asCoded, Op.effectAt, if_neg h3]; rfl

/-- An item without a call shows nothing new. -/
theorem item_none {cfg : Cfg} {f : Option Fmt} {p : Item} (hc : p.call f = none) (ct : Nat → Nat → Content) (r' c' : Nat) :
    ct r' c' = setAt p.row p.col (p.shows cfg f) ct r' c' := by
  obtain ⟨r, c, d⟩ := p
  unfold setAt
  cases d with
  | nothing =>
    cases f with
    | none => split <;> rfl
    | some f => cases hc
  | num n => cases hc
  | date n => cases hc
  | text t => cases hc
  | bool b => cases hc
  | formula fa => cases hc

theorem Shows.items {cfg : Cfg} {dflt : Fmt} {s : Sheet Fmt} {ct : Nat → Nat → Content} (h : Shows cfg dflt s ct) (f : Option Fmt)
    (items : List Item) (hn : ∀ p ∈ items, p.refusal cfg f = none) :
    Shows cfg dflt (s.run (items.filterMap (Item.call f))) (putAll cfg f items ct) := by
  induction items generalizing s ct with
  | nil => exact h
  | cons p items ih =>
    have hp := hn p List.mem_cons_self
    have hq := fun q hq => hn q (List.mem_cons_of_mem _ hq)
    cases hc : p.call f with
    | none =>
      rw [List.filterMap_cons_none hc]
      exact ih (h.congr (fun r' c' => (item_none hc ct r' c').symm)) hq
    | some op =>
      rw [List.filterMap_cons_some hc]
      exact ih ((h.exec op).congr (fun r' c' => (item_effect hc hp ct r' c').symm)) hq

theorem putAll_append (cfg : Cfg) (f : Option Fmt) (a b : List Item) (ct : Nat → Nat → Content) :
    putAll cfg f (a ++ b) ct = putAll cfg f b (putAll cfg f a ct) := List.foldl_append

/-- What a cell shows if the item `d`, or none, is written to it. -/
def shownAt (cfg : Cfg) (f : Option Fmt) (r c : Nat) (d : Option Datum) (old : Content) : Content :=
  match d with
  | some d => (Item.mk r c d).shows cfg f old
  | none => old

theorem putAll_row (cfg : Cfg) (f : Option Fmt) (r c : Nat) (data : List Datum) (ct : Nat → Nat → Content) (r' c' : Nat) :
    putAll cfg f (rowItems r c data) ct r' c' =
      if r' = r ∧ c ≤ c' then shownAt cfg f r' c' data[c' - c]? (ct r' c') else ct r' c' := by
  induction data generalizing c ct with
  | nil => unfold shownAt; simp [putAll, rowItems]
  | cons d ds ih =>
    rw [rowItems_cons]
    show putAll cfg f (rowItems r (c + 1) ds) (setAt r c ((Item.mk r c d).shows cfg f) ct) r' c' = _
    rw [ih]
    unfold setAt
    by_cases h1 : r' = r
    · subst h1
      by_cases h2 : c' = c
      · subst h2
        rw [if_neg (by omega), if_pos ⟨rfl, rfl⟩, if_pos ⟨rfl, Nat.le_refl _⟩, Nat.sub_self]
        rfl
      · rw [if_neg (show ¬ (r' = r' ∧ c' = c) from fun h => h2 h.2)]
        by_cases h3 : c ≤ c'
        · rw [if_pos ⟨rfl, by omega⟩, if_pos ⟨rfl, h3⟩, show c' - c = (c' - (c + 1)) + 1 by omega]
          rfl
        · rw [if_neg (by omega), if_neg (by omega)]
    · rw [if_neg (fun h => h1 h.1), if_neg (fun h => h1 h.1), if_neg (fun h => h1 h.1)]

theorem putAll_column (cfg : Cfg) (f : Option Fmt) (r c : Nat) (data : List Datum) (ct : Nat → Nat → Content) (r' c' : Nat) :
    putAll cfg f (columnItems r c data) ct r' c' =
      if c' = c ∧ r ≤ r' then shownAt cfg f r' c' data[r' - r]? (ct r' c') else ct r' c' := by
  induction data generalizing r ct with
  | nil => unfold shownAt; simp [putAll, columnItems]
  | cons d ds ih =>
    rw [columnItems_cons]
    show putAll cfg f (columnItems (r + 1) c ds) (setAt r c ((Item.mk r c d).shows cfg f) ct) r' c' = _
    rw [ih]
    unfold setAt
    by_cases h1 : c' = c
    · subst h1
      by_cases h2 : r' = r
      · subst h2
        rw [if_neg (by omega), if_pos ⟨rfl, rfl⟩, if_pos ⟨rfl, Nat.le_refl _⟩, Nat.sub_self]
        rfl
      · rw [if_neg (show ¬ (r' = r ∧ c' = c') from fun h => h2 h.1)]
        by_cases h3 : r ≤ r'
        · rw [if_pos ⟨rfl, by omega⟩, if_pos ⟨rfl, h3⟩, show r' - r = (r' - (r + 1)) + 1 by omega]
          rfl
        · rw [if_neg (by omega), if_neg (by omega)]
    · rw [if_neg (fun h => h1 h.1), if_neg (fun h => h1 h.2), if_neg (fun h => h1 h.1)]

theorem putAll_rowMatrix (cfg : Cfg) (r c : Nat) (data : List (List Datum)) (ct : Nat → Nat → Content) (r' c' : Nat) :
    putAll cfg (none : Option Fmt) (rowMatrixItems r c data) ct r' c' =
      if r ≤ r' ∧ c ≤ c' then shownAt cfg (none : Option Fmt) r' c' ((data[r' - r]?).bind (·[c' - c]?)) (ct r' c') else ct r' c' := by
  induction data generalizing r ct with
  | nil => unfold shownAt; simp [putAll, rowMatrixItems]
  | cons ds dss ih =>
    rw [rowMatrixItems_cons, putAll_append, ih, putAll_row]
    by_cases h1 : r' = r
    · subst h1
      rw [if_neg (by omega), Nat.sub_self]
      by_cases h2 : c ≤ c'
      · rw [if_pos ⟨rfl, h2⟩, if_pos ⟨Nat.le_refl _, h2⟩]; rfl
      · rw [if_neg (fun h => h2 h.2), if_neg (fun h => h2 h.2)]
    · rw [if_neg (show ¬ (r' = r ∧ c ≤ c') from fun h => h1 h.1)]
      by_cases h2 : r ≤ r' ∧ c ≤ c'
      · rw [if_pos ⟨by omega, h2.2⟩, if_pos h2, show r' - r = (r' - (r + 1)) + 1 by omega]; rfl
      · rw [if_neg (by omega), if_neg h2]

theorem putAll_columnMatrix (cfg : Cfg) (r c : Nat) (data : List (List Datum)) (ct : Nat → Nat → Content) (r' c' : Nat) :
    putAll cfg (none : Option Fmt) (columnMatrixItems r c data) ct r' c' =
      if r ≤ r' ∧ c ≤ c' then shownAt cfg (none : Option Fmt) r' c' ((data[c' - c]?).bind (·[r' - r]?)) (ct r' c') else ct r' c' := by
  induction data generalizing c ct with
  | nil => unfold shownAt; simp [putAll, columnMatrixItems]
  | cons ds dss ih =>
    rw [columnMatrixItems_cons, putAll_append, ih, putAll_column]
    by_cases h1 : c' = c
    · subst h1
      rw [if_neg (by omega), Nat.sub_self]
      by_cases h2 : r ≤ r'
      · rw [if_pos ⟨rfl, h2⟩, if_pos ⟨h2, Nat.le_refl _⟩]; rfl
      · rw [if_neg (fun h => h2 h.2), if_neg (fun h => h2 h.1)]
    · rw [if_neg (show ¬ (c' = c ∧ r ≤ r') from fun h => h1 h.1)]
      by_cases h2 : r ≤ r' ∧ c ≤ c'
      · rw [if_pos ⟨h2.1, by omega⟩, if_pos h2, show c' - c = (c' - (c + 1)) + 1 by omega]; rfl
      · rw [if_neg (by omega), if_neg h2]

/-- A standard sheet with any history. -/
theorem std_shows (cfg : Cfg) (hstd : cfg.isStandard) (merge : Fmt → Fmt → Fmt) (dflt : Fmt) (ops : List (Op Fmt)) :
    ∃ ct, Shows cfg dflt ((Sheet.new cfg merge dflt).run ops) ct := by
  have key : ∀ (ops : List (Op Fmt)) (s : Sheet Fmt) (ct : Nat → Nat → Content), Shows cfg dflt s ct → ∃ ct, Shows cfg dflt (s.run ops) ct := by
    intro ops
    induction ops with
    | nil => intro s ct h; exact ⟨ct, h⟩
    | cons op ops ih => intro s ct h; exact ih _ _ (h.exec op)
  exact key ops _ _ ⟨_, Rel.new cfg hstd.1 hstd.2.1 merge dflt false .any⟩

theorem accepted_shows {cfg : Cfg} {dflt : Fmt} {s u : Sheet Fmt} {ct : Nat → Nat → Content} (h : Shows cfg dflt s ct) (f : Option Fmt)
    (items : List Item) (r : SeqRes Fmt) (ho : Outcome s f items r) (hr : r = .done (none, u)) (t : SST) (r' c' : Nat) :
    readContent (u.saveRows t) r' c' = putAll cfg f items (fun a b => readContent (s.saveRows t) a b) r' c' := by
  have hc : s.cfg = cfg := by obtain ⟨fm, h⟩ := h; exact h.cfgEq
  have h := h.congr (ct' := fun a b => readContent (s.saveRows t) a b) (fun a b => h.reads t a b)
  rcases ho with ⟨h1, h2⟩ | ⟨_, _, _, _, _, _, _, _, h2⟩
  · rw [h2] at hr
    cases hr
    exact (h.items f items (fun p hp => hc ▸ h1 p hp)).reads t r' c'
  · rw [h2] at hr; cases hr

theorem std_gen (cfg : Cfg) (merge : Fmt → Fmt → Fmt) (dflt : Fmt) (ops : List (Op Fmt)) :
    Gen dflt ((Sheet.new cfg merge dflt).run ops) := by
  refine (run_gen ?_ ops).1
  have := (StdR.book [cfg] merge dflt []).gen 0 (Sheet.new cfg merge dflt) rfl
  exact this

section
variable (checked : Bool) (cfg : Cfg) (hstd : cfg.isStandard) (merge : Fmt → Fmt → Fmt) (dflt : Fmt) (ops : List (Op Fmt))
  (s u : Sheet Fmt) (hs : s = (Sheet.new cfg merge dflt).run ops) (t : SST) (r c : Nat)
include hstd hs

/-- C70. After an accepted `write_row` on a standard worksheet with any history, item `i` of the row is what the saved
cell `i` columns to the right of the first one shows, and every other cell shows what it showed before. -/
theorem C70_row_shows_partial (f : Option Fmt) (data : List Datum) (hf : Fits f 65535 c data)
    (hu : s.writeRow checked f r c data = .done (none, u)) :
    (∀ (i : Nat) (d : Datum), data[i]? = some d → readContent (u.saveRows t) r (c + i) =
      (Item.mk r (c + i) d).shows cfg f (readContent (s.saveRows t) r (c + i))) ∧
    ∀ r' c', ¬ (r' = r ∧ c ≤ c' ∧ c' < c + data.length) →
      readContent (u.saveRows t) r' c' = readContent (s.saveRows t) r' c' := by
  obtain ⟨ct, h⟩ := std_shows cfg hstd merge dflt ops
  have hg := std_gen cfg merge dflt ops
  rw [← hs] at h hg
  have key := accepted_shows h f _ _ (outcome_row checked hg f r c data hf) hu t
  refine ⟨fun i d hi => ?_, fun r' c' hn => ?_⟩
  · rw [key, putAll_row, if_pos ⟨rfl, by omega⟩, show c + i - c = i by omega, hi]; rfl
  · rw [key, putAll_row]
    split
    · rename_i hh
      rw [List.getElem?_eq_none (by have := hh.1; have := hh.2; omega)]; rfl
    · rfl

/-- C70. The same for `write_column`. -/
theorem C70_column_shows_partial (f : Option Fmt) (data : List Datum) (hf : Fits f 4294967295 r data)
    (hu : s.writeColumn checked f c r data = .done (none, u)) :
    (∀ (i : Nat) (d : Datum), data[i]? = some d → readContent (u.saveRows t) (r + i) c =
      (Item.mk (r + i) c d).shows cfg f (readContent (s.saveRows t) (r + i) c)) ∧
    ∀ r' c', ¬ (c' = c ∧ r ≤ r' ∧ r' < r + data.length) →
      readContent (u.saveRows t) r' c' = readContent (s.saveRows t) r' c' := by
  obtain ⟨ct, h⟩ := std_shows cfg hstd merge dflt ops
  have hg := std_gen cfg merge dflt ops
  rw [← hs] at h hg
  have key := accepted_shows h f _ _ (outcome_column checked hg f r c data hf) hu t
  refine ⟨fun i d hi => ?_, fun r' c' hn => ?_⟩
  · rw [key, putAll_column, if_pos ⟨rfl, by omega⟩, show r + i - r = i by omega, hi]; rfl
  · rw [key, putAll_column]
    split
    · rename_i hh
      rw [List.getElem?_eq_none (by have := hh.1; have := hh.2; omega)]; rfl
    · rfl

/-- C70. After an accepted `write_row_matrix`, item `j` of row `i` of the data is what the saved cell `i` rows below and
`j` columns to the right of the first one shows, and every other cell shows what it showed before. -/
theorem C70_row_matrix_shows_partial (data : List (List Datum)) (hf : ∀ ds ∈ data, Fits (none : Option Fmt) 65535 c ds)
    (hr : r + data.length ≤ 4294967295) (hu : s.writeRowMatrix checked c r data = .done (none, u)) :
    (∀ (i j : Nat) (ds : List Datum) (d : Datum), data[i]? = some ds → ds[j]? = some d →
      readContent (u.saveRows t) (r + i) (c + j) =
        (Item.mk (r + i) (c + j) d).shows cfg (none : Option Fmt) (readContent (s.saveRows t) (r + i) (c + j))) ∧
    ∀ r' c', (∀ (i j : Nat) (ds : List Datum), data[i]? = some ds → j < ds.length → ¬ (r' = r + i ∧ c' = c + j)) →
      readContent (u.saveRows t) r' c' = readContent (s.saveRows t) r' c' := by
  obtain ⟨ct, h⟩ := std_shows cfg hstd merge dflt ops
  have hg := std_gen cfg merge dflt ops
  rw [← hs] at h hg
  have key := accepted_shows h none _ _ (outcome_rowMatrix checked hg r c data hf hr) hu t
  refine ⟨fun i j ds d hi hj => ?_, fun r' c' hn => ?_⟩
  · rw [key, putAll_rowMatrix, if_pos ⟨by omega, by omega⟩, show r + i - r = i by omega, show c + j - c = j by omega, hi]
    show shownAt cfg none _ _ ds[j]? _ = _
    rw [hj]; rfl
  · rw [key, putAll_rowMatrix]
    split
    · rename_i hh
      cases hi : data[r' - r]? with
      | none => rfl
      | some ds =>
        show shownAt cfg none _ _ ds[c' - c]? _ = _
        by_cases hj : c' - c < ds.length
        · exact absurd ⟨by omega, by omega⟩ (hn _ _ ds hi hj)
        · rw [List.getElem?_eq_none (by omega)]; rfl
    · rfl

/-- C70. After an accepted `write_column_matrix`, item `j` of column `i` of the data is what the saved cell `j` rows below
and `i` columns to the right of the first one shows, and every other cell shows what it showed before. -/
theorem C70_column_matrix_shows_partial (data : List (List Datum)) (hf : ∀ ds ∈ data, Fits (none : Option Fmt) 4294967295 r ds)
    (hr : c + data.length ≤ 65535) (hu : s.writeColumnMatrix checked r c data = .done (none, u)) :
    (∀ (i j : Nat) (ds : List Datum) (d : Datum), data[i]? = some ds → ds[j]? = some d →
      readContent (u.saveRows t) (r + j) (c + i) =
        (Item.mk (r + j) (c + i) d).shows cfg (none : Option Fmt) (readContent (s.saveRows t) (r + j) (c + i))) ∧
    ∀ r' c', (∀ (i j : Nat) (ds : List Datum), data[i]? = some ds → j < ds.length → ¬ (r' = r + j ∧ c' = c + i)) →
      readContent (u.saveRows t) r' c' = readContent (s.saveRows t) r' c' := by
  obtain ⟨ct, h⟩ := std_shows cfg hstd merge dflt ops
  have hg := std_gen cfg merge dflt ops
  rw [← hs] at h hg
  have key := accepted_shows h none _ _ (outcome_columnMatrix checked hg r c data hf hr) hu t
  refine ⟨fun i j ds d hi hj => ?_, fun r' c' hn => ?_⟩
  · rw [key, putAll_columnMatrix, if_pos ⟨by omega, by omega⟩, show c + i - c = i by omega, show r + j - r = j by omega, hi]
    show shownAt cfg none _ _ ds[j]? _ = _
    rw [hj]; rfl
  · rw [key, putAll_columnMatrix]
    split
    · rename_i hh
      cases hi : data[c' - c]? with
      | none => rfl
      | some ds =>
        show shownAt cfg none _ _ ds[r' - r]? _ = _
        by_cases hj : r' - r < ds.length
        · exact absurd ⟨by omega, by omega⟩ (hn _ _ ds hi hj)
        · rw [List.getElem?_eq_none (by omega)]; rfl
    · rfl
end

/-! ### Concrete cases -/

/-- A row with every kind of item. -/
def demoRow : List Datum :=
  [.num (.finite "1".toList), .text "two".toList, .nothing, .bool true, .num .nan, .formula ⟨"1+1".toList, "2".toList, false⟩, .text []]

/-- A sheet with something in it. -/
def demoSeqSheet : Sheet Nat := (Sheet.new {} (fun a _ => a) 0).run [.boolean 1 4 false none, .string 2 2 "x".toList none]

/-- What is left by a call, if it is accepted. -/
def SeqRes.accepted : SeqRes Nat → Option (Sheet Nat)
  | .done (none, s) => some s
  | _ => none

/-- The error of a call. -/
def SeqRes.error : SeqRes Nat → Option Err
  | .done (some e, _) => some e
  | _ => none

def SeqRes.isPanic : SeqRes Nat → Bool
  | .panic => true
  | _ => false

/-- The contents of a row of a saved sheet. -/
def rowSeen (s : Sheet Nat) (r : Nat) (cs : List Nat) : List Content := cs.map fun c => readContent (s.saveRows SST.new) r c

example : Fits (none : Option Nat) 65535 2 demoRow := .inl (by decide)
example : ((demoSeqSheet.writeRow true none 1 2 demoRow).accepted.map fun s => rowSeen s 1 [1, 2, 3, 4, 5, 6, 7, 8]) =
    some [.blank, .number "1".toList, .text "two".toList, .boolean false, .boolean true, .text "NAN".toList,
      .formula "1+1".toList "2".toList, .blank] := by decide +kernel
example : ((demoSeqSheet.writeRowMatrix true 1 1 [demoRow.take 2, [], demoRow.drop 3]).accepted.map fun s =>
    (rowSeen s 1 [1, 2, 4], rowSeen s 2 [1, 2], rowSeen s 3 [1, 2, 3])) =
    some ([.number "1".toList, .text "two".toList, .boolean false], [.blank, .text "x".toList],
      [.boolean true, .text "NAN".toList, .formula "1+1".toList "2".toList]) := by decide +kernel
example : (demoSeqSheet.writeRow true none 0 16383 [.bool true, .bool false]).error = some .rowColumnLimit ∧
    (demoSeqSheet.writeColumn true none 0 1048575 [.bool true, .bool false]).error = some .rowColumnLimit := by decide +kernel

/-- C70 is false for rows with items that are skipped: the column number overflows. A debug build panics, also after the
last item; in a release build the number starts again at 0, so that a row that starts far outside the worksheet
is written into its first columns (finding F27). -/
theorem C70_column_overflow :
    (demoSeqSheet.writeRow true none 0 65535 [.text [], .bool true]).isPanic = true ∧
    (demoSeqSheet.writeRow true none 0 65535 [.nothing]).isPanic = true ∧
    ((demoSeqSheet.writeRow false none 0 65535 [.text [], .bool true]).accepted.map fun s => rowSeen s 0 [0, 1]) =
      some [.boolean true, .blank] := by decide +kernel

end Verif
