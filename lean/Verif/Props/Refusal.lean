import Verif.Spec.Dims
import Verif.Lemmas.StdBook
/-!
C10: which calls are refused, and that refused calls change no cell.
-/
set_option linter.unusedSectionVars false
set_option linter.unusedSimpArgs false
namespace Verif
open BMap
variable {Fmt : Type} [DecidableEq Fmt]

theorem cd_cases (s : Sheet Fmt) (r c : Nat) :
    (inGrid r c = false ∧ s.checkDimensions r c = (false, s)) ∨
    (inGrid r c = true ∧ ∃ d, s.checkDimensions r c = (true, { s with dims := d })) := by
  have h := checkDimensions_fst s r c
  rcases checkDimensions_cases s r c with e | ⟨d, _, e⟩
  · rw [e] at h; exact Or.inl ⟨h.symm, e⟩
  · rw [e] at h; exact Or.inr ⟨h.symm, d, e⟩

/-- The outcome of a call: it is accepted, or it is refused and only the recorded dimensions
may have changed. -/
def Outc (s : Sheet Fmt) (e : Option Err) (r : Res Fmt) : Prop :=
  r.1 = e ∧ (e ≠ none → ∃ d, r.2 = { s with dims := d })

theorem outc_none {s s' : Sheet Fmt} : Outc s none (none, s') := ⟨rfl, fun h => absurd rfl h⟩
theorem outc_err {s : Sheet Fmt} {e : Err} : Outc s (some e) (some e, s) :=
  ⟨rfl, fun _ => ⟨s.dims, rfl⟩⟩
theorem outc_err' {s : Sheet Fmt} {e : Err} {d : Dims} :
    Outc s (some e) (some e, { s with dims := d }) := ⟨rfl, fun _ => ⟨d, rfl⟩⟩
theorem outc_dims {s : Sheet Fmt} {e : Option Err} {r : Res Fmt} {d : Dims}
    (h : Outc { s with dims := d } e r) : Outc s e r :=
  ⟨h.1, fun hn => (h.2 hn).elim fun d' h' => ⟨d', h'⟩⟩

theorem storeBlank_outc (s : Sheet Fmt) (r c : Nat) (f : Fmt) :
    Outc s (if !inGrid r c then some .rowColumnLimit else none) (s.storeBlank r c f) := by
  unfold Sheet.storeBlank
  rcases cd_cases s r c with ⟨hg, e⟩ | ⟨hg, d, e⟩
  · rw [e, hg]; exact outc_err
  · rw [e, hg]; exact outc_none

theorem storeString_outc (s : Sheet Fmt) (r c : Nat) (t : Str) (f : Option Fmt) :
    Outc s (refuseString r c t f) (s.storeString r c t f) := by
  unfold Sheet.storeString refuseString
  by_cases h0 : t = []
  · subst h0
    cases f with
    | none => exact outc_none
    | some f =>
      simp only [if_true, List.length_nil]
      have := storeBlank_outc s r c f
      revert this
      cases inGrid r c <;> exact id
  · simp only [h0, if_false, false_and]
    rcases cd_cases s r c with ⟨hg, e⟩ | ⟨hg, d, e⟩
    · rw [e, hg]; exact outc_err
    · rw [e, hg]
      simp only [Bool.not_true, Bool.false_eq_true, if_false, MAX_STRING_LEN]
      by_cases hl : t.length > 32767
      · simp only [hl, if_true]; exact outc_err'
      · simp only [hl, if_false]
        split <;> exact outc_none

private theorem storeRich_outc (s : Sheet Fmt) (r c : Nat) (t raw : Str) (f : Option Fmt) :
    Outc s (refuseString r c t f) (s.storeRich r c t raw f) := by
  unfold Sheet.storeRich refuseString
  by_cases h0 : t = []
  · subst h0
    cases f with
    | none => exact outc_none
    | some f =>
      simp only [if_true, List.length_nil]
      have := storeBlank_outc s r c f
      revert this
      cases inGrid r c <;> exact id
  · simp only [h0, if_false, false_and]
    rcases cd_cases s r c with ⟨hg, e⟩ | ⟨hg, d, e⟩
    · rw [e, hg]; exact outc_err
    · rw [e, hg]
      simp only [Bool.not_true, Bool.false_eq_true, if_false, MAX_STRING_LEN]
      by_cases hl : t.length > 32767
      · simp only [hl, if_true]; exact outc_err'
      · simp only [hl, if_false]
        exact outc_none

theorem storeNumber_outc (s : Sheet Fmt) (r c : Nat) (n : F64) (f : Option Fmt) (b : Bool) :
    Outc s (refuseNumber s.cfg r c n) (s.storeNumberType r c n f b) := by
  unfold Sheet.storeNumberType refuseNumber
  rcases cd_cases s r c with ⟨hg, e⟩ | ⟨hg, d, e⟩
  · rw [e, hg]; exact outc_err
  · rw [e, hg]
    have key : ∀ t : Str, Outc s (if t.length > 32767 then some Err.maxStringLength else none)
        (({ s with dims := d } : Sheet Fmt).storeString r c t f) := by
      intro t
      have := outc_dims (storeString_outc ({ s with dims := d } : Sheet Fmt) r c t f)
      unfold refuseString at this
      rw [hg] at this
      by_cases h0 : t = [] ∧ f.isNone = true
      · rw [if_pos h0] at this; rw [h0.1]; rw [h0.1] at this; exact this
      · rw [if_neg h0] at this
        exact this
    cases n with
    | nan => exact key _
    | posInf => exact key _
    | negInf => exact key _
    | finite t => exact outc_none

theorem forEach_none {α : Type} (l : List α) (f : α → Sheet Fmt → Res Fmt)
    (h : ∀ a ∈ l, ∀ s, (f a s).1 = none) (s : Sheet Fmt) : (forEach l f s).1 = none := by
  induction l generalizing s with
  | nil => rfl
  | cons a l ih =>
    simp only [forEach, Res.andThen]
    have := h a List.mem_cons_self s
    split
    · rename_i e he; rw [this] at he; cases he
    · exact ih (fun b hb => h b (List.mem_cons_of_mem _ hb)) _

theorem number_none (s : Sheet Fmt) (r c : Nat) (t : Str) (f : Option Fmt) (hg : inGrid r c = true) :
    (s.storeNumberType r c (.finite t) f false).1 = none := by
  rw [(storeNumber_outc s r c _ f false).1]
  simp [refuseNumber, hg, F64.textIn]

theorem inGrid_mono {r c r' c' : Nat} (h : inGrid r' c' = true) (hr : r ≤ r') (hc : c ≤ c') :
    inGrid r c = true := by
  simp [inGrid] at *; omega

theorem andThen_none {r : Res Fmt} {f : Sheet Fmt → Res Fmt} (h : r.1 = none)
    (hf : ∀ s, (f s).1 = none) : (Res.andThen r f).1 = none := by
  unfold Res.andThen; rw [h]; exact hf _

theorem storeArray_outc (s : Sheet Fmt) (r1 c1 r2 c2 : Nat) (fa : FormulaArg) (f : Option Fmt) (b : Bool) :
    Outc s (refuseRange r1 c1 r2 c2) (s.storeArrayFormula r1 c1 r2 c2 fa f b) := by
  unfold Sheet.storeArrayFormula refuseRange
  rcases cd_cases s r1 c1 with ⟨hg, e⟩ | ⟨hg, d, e⟩
  · rw [e, hg]; exact outc_err
  · rw [e, hg]
    simp only
    rcases cd_cases ({ s with dims := d } : Sheet Fmt) r2 c2 with ⟨hg2, e2⟩ | ⟨hg2, d2, e2⟩
    · rw [e2, hg2]; exact outc_err'
    · rw [e2, hg2]
      simp only [Bool.not_true, Bool.or_self, Bool.false_eq_true, if_false]
      by_cases ho : (decide (r1 > r2) || decide (c1 > c2)) = true
      · rw [if_pos ho, if_pos ho]; exact outc_err'
      · rw [if_neg ho, if_neg ho]
        simp only [Bool.or_eq_true, decide_eq_true_eq] at ho
        refine ⟨?_, fun h => absurd rfl h⟩
        refine andThen_none ?_ ?_
        · refine forEach_none _ _ ?_ _
          intro c hc s
          rw [List.mem_range'_1] at hc
          exact number_none s r1 c _ f (inGrid_mono hg2 (by omega) (by omega))
        · intro s
          refine andThen_none ?_ (fun _ => rfl)
          refine forEach_none _ _ ?_ _
          intro r hr s
          refine forEach_none _ _ ?_ _
          intro c hc s
          rw [List.mem_range'_1] at hr hc
          exact number_none s r c _ f (inGrid_mono hg2 (by omega) (by omega))

theorem exec_outc (s : Sheet Fmt) (hr : s.dims.firstRow ≤ ROW_MAX) (hc : s.dims.firstCol ≤ COL_MAX)
    (op : Op Fmt) : Outc s (op.refusal s.cfg) (s.exec op) := by
  have one : ∀ r c (k : Sheet Fmt → Res Fmt), (∀ s, (k s).1 = none) →
      Outc s (if !inGrid r c then some .rowColumnLimit else none)
        (match s.checkDimensions r c with
          | (false, s) => (some .rowColumnLimit, s)
          | (true, s) => k s) := by
    intro r c k hk
    rcases cd_cases s r c with ⟨hg, e⟩ | ⟨hg, d, e⟩
    · rw [e, hg]; exact outc_err
    · rw [e, hg]; exact ⟨hk _, fun h => absurd rfl h⟩
  have row : ∀ r, (if !inGrid r s.getMinCol then some Err.rowColumnLimit else none) =
      (if r < 1048576 then none else some Err.rowColumnLimit) := by
    intro r
    have := getMinCol_lt hc
    simp only [inGrid, COL_MAX] at *
    by_cases h : r < 1048576 <;> simp [h, this]
  have col : ∀ c, (if !inGrid s.getMinRow c then some Err.rowColumnLimit else none) =
      (if c < 16384 then none else some Err.rowColumnLimit) := by
    intro c
    have := getMinRow_lt hr
    simp only [inGrid, ROW_MAX] at *
    by_cases h : c < 16384 <;> simp [h, this]
  cases op with
  | number r c n f => exact storeNumber_outc s r c n f false
  | dateTime r c n f => exact storeNumber_outc s r c n f true
  | string r c t f => exact storeString_outc s r c t f
  | rich r c t raw f => exact storeRich_outc s r c t raw f
  | formula r c fa f =>
    show Outc s (if !inGrid r c then some .rowColumnLimit else none) (s.storeFormula r c fa f)
    unfold Sheet.storeFormula
    by_cases hdy : fa.dynamic = true
    · rw [if_pos hdy]
      have := storeArray_outc s r c r c fa none true
      unfold refuseRange at this
      simp only [Nat.lt_irrefl, gt_iff_lt, decide_false, Bool.or_self, Bool.false_eq_true, if_false] at this
      exact this
    · rw [if_neg hdy]; exact one r c _ (fun _ => rfl)
  | arrayFormula r1 c1 r2 c2 fa f d => exact storeArray_outc s r1 c1 r2 c2 fa f d
  | blank r c f => exact storeBlank_outc s r c f
  | boolean r c b f => exact one r c _ (fun _ => rfl)
  | cellFormat r c f => exact one r c _ (fun _ => rfl)
  | rangeFormat r1 c1 r2 c2 f =>
    show Outc s (refuseRange r1 c1 r2 c2) (s.setRangeFormat r1 c1 r2 c2 f)
    unfold Sheet.setRangeFormat refuseRange
    have e : ∀ r c, checkDimensionsOnly r c = inGrid r c := fun _ _ => rfl
    rw [e, e]
    split
    · exact outc_err
    · split
      · exact outc_err
      · exact outc_none
  | clearCell r c => exact outc_none
  | clearFormat r c => exact outc_none
  | rowFormat r f =>
    show Outc s (if r < 1048576 then none else some Err.rowColumnLimit) (s.setRowFormat r f)
    rw [← row]
    exact one r s.getMinCol _ (fun s => by
      dsimp only; split <;> rfl)
  | columnFormat c f =>
    show Outc s (if c < 16384 then none else some Err.rowColumnLimit) (s.setColumnFormat c f)
    rw [← col]
    exact one s.getMinRow c _ (fun s => by dsimp only; split <;> rfl)
  | rowHeight r h =>
    show Outc s (if r < 1048576 then none else some Err.rowColumnLimit) (s.setRowHeight r h)
    rw [← row]
    exact one r s.getMinCol _ (fun s => by split <;> rfl)
  | rowHidden r =>
    show Outc s (if r < 1048576 then none else some Err.rowColumnLimit) (s.setRowHidden r)
    rw [← row]
    exact one r s.getMinCol _ (fun s => by split <;> rfl)
  | note r c t =>
    show Outc s (if !inGrid r c then some .rowColumnLimit
      else if t then some .maxStringLength else none) (s.insertNote r c t)
    unfold Sheet.insertNote
    rcases cd_cases s r c with ⟨hg, e⟩ | ⟨hg, d, e⟩
    · rw [e, hg]; exact outc_err
    · rw [e, hg]
      cases t
      · simp only [Bool.not_true, Bool.false_eq_true, if_false]
        refine ⟨?_, fun h => absurd rfl h⟩
        split <;> rfl
      · exact outc_err'

/-- The sheets a program can have in hand: worksheet `i` of a workbook after any calls on any
of its worksheets. -/
def Reachable (dflt : Fmt) (s : Sheet Fmt) : Prop :=
  ∃ (cfgs : List Cfg) (merge : Fmt → Fmt → Fmt) (ops : List (Nat × Op Fmt)) (i : Nat) (s0 : Sheet Fmt),
    ((Book.new cfgs merge dflt).run ops).sheets[i]? = some s0 ∧
    s = { s0 with sst := ((Book.new cfgs merge dflt).run ops).sst,
                  gxf := ((Book.new cfgs merge dflt).run ops).gxf }

theorem Reachable.dims {dflt : Fmt} {s : Sheet Fmt} (h : Reachable dflt s) :
    s.dims.firstRow ≤ ROW_MAX ∧ s.dims.firstCol ≤ COL_MAX := by
  obtain ⟨cfgs, merge, ops, i, s0, hs, rfl⟩ := h
  have := (StdR.book cfgs merge dflt ops).rel i s0 hs
  exact ⟨this.1.fr, this.1.fc⟩

variable {dflt : Fmt}

/-- C10: a call fails exactly for the reasons that its arguments give (`Op.refusal`), whatever
was written before and in every mode. -/
theorem C10_error_exact {s : Sheet Fmt} (hs : Reachable dflt s) (op : Op Fmt) :
    (s.exec op).1 = op.refusal s.cfg :=
  (exec_outc s hs.dims.1 hs.dims.2 op).1

/-- C10: a call on a cell (other than an ignored empty string) returns the row/column error if
and only if the cell is outside the grid of 1048576 rows and 16384 columns. -/
theorem C10_limit_error_iff {s : Sheet Fmt} (hs : Reachable dflt s) (op : Op Fmt) (r c : Nat)
    (ht : op.target = some (r, c))
    (hne : ∀ r c, op ≠ .string r c [] none ∧ ∀ raw, op ≠ .rich r c [] raw none) :
    (s.exec op).1 = some .rowColumnLimit ↔ ¬ (r < 1048576 ∧ c < 16384) := by
  rw [C10_error_exact hs]
  have hg : ¬ (r < 1048576 ∧ c < 16384) ↔ inGrid r c = false := by
    simp [inGrid]
  rw [hg]
  have str : ∀ (t : Str) (f : Option Fmt), ¬ (t = [] ∧ f = none) →
      (refuseString r c t f = some .rowColumnLimit ↔ inGrid r c = false) := by
    intro t f h
    unfold refuseString
    rw [if_neg (by simpa using h)]
    cases inGrid r c
    · simp
    · simp only [Bool.not_true, Bool.false_eq_true, if_false, Bool.true_eq_false, iff_false]
      split <;> simp
  have num : ∀ n : F64, (refuseNumber s.cfg r c n = some .rowColumnLimit ↔ inGrid r c = false) := by
    intro n
    unfold refuseNumber
    cases inGrid r c
    · simp
    · simp only [Bool.not_true, Bool.false_eq_true, if_false, Bool.true_eq_false, iff_false]
      split
      · split <;> simp
      · simp
  cases op <;> simp only [Op.target, Option.some.injEq, Prod.mk.injEq, reduceCtorEq] at ht <;>
    obtain ⟨rfl, rfl⟩ := ht
  · exact num _
  · exact num _
  · rename_i t f
    refine str t f ?_
    rintro ⟨rfl, rfl⟩; exact (hne _ _).1 rfl
  · rename_i t raw f
    refine str t f ?_
    rintro ⟨rfl, rfl⟩; exact (hne _ _).2 raw rfl
  all_goals (simp only [Op.refusal]; cases hh : inGrid _ _ <;> simp [hh])

/-- C10: a refused call, in any mode, changes no cell, string, row setting or flushed data:
only the recorded dimensions may differ. -/
theorem C10_refused_changes_no_cell {s : Sheet Fmt} (hs : Reachable dflt s) (op : Op Fmt) (e : Err)
    (he : (s.exec op).1 = some e) : ∃ d, (s.exec op).2 = { s with dims := d } := by
  have h := exec_outc s hs.dims.1 hs.dims.2 op
  exact h.2 (by rw [← h.1, he]; simp)

/-- C10: a single-cell call outside the grid changes nothing at all. -/
theorem C10_outside_changes_nothing (s : Sheet Fmt) (op : Op Fmt) (r c : Nat)
    (ht : op.target = some (r, c)) (hg : ¬ (r < 1048576 ∧ c < 16384)) : (s.exec op).2 = s := by
  have hg' : inGrid r c = false := by simpa [inGrid] using hg
  have hcd : s.checkDimensions r c = (false, s) := by
    rcases cd_cases s r c with ⟨_, e⟩ | ⟨h, _⟩
    · exact e
    · rw [hg'] at h; cases h
  cases op <;> simp only [Op.target, Option.some.injEq, Prod.mk.injEq, reduceCtorEq] at ht <;>
    obtain ⟨rfl, rfl⟩ := ht <;> simp only [Sheet.exec]
  · simp [Sheet.storeNumberType, hcd]
  · simp [Sheet.storeNumberType, hcd]
  · rename_i t f
    unfold Sheet.storeString
    split
    · cases f
      · rfl
      · simp [Sheet.storeBlank, hcd]
    · simp [hcd]
  · rename_i t raw f
    unfold Sheet.storeRich
    split
    · cases f
      · rfl
      · simp [Sheet.storeBlank, hcd]
    · simp [hcd]
  · unfold Sheet.storeFormula Sheet.storeArrayFormula
    split <;> simp [hcd]
  · simp [Sheet.storeBlank, hcd]
  · simp [Sheet.storeBoolean, hcd]
  · simp [Sheet.setCellFormat, hcd]
  · simp [Sheet.insertNote, hcd]

/-! ### Concrete cases -/

section
private def s1 : Sheet Nat := ((Sheet.new {} (fun a _ => a) 0).exec (.number 2 3 (.finite "1".toList) none)).2

example : Reachable 0 s1 :=
  ⟨[{}], fun a _ => a, [(0, .number 2 3 (.finite "1".toList) none)], 0, s1, rfl, rfl⟩
example : (s1.exec (.number 1048576 0 (.finite "1".toList) none)).1 = some .rowColumnLimit ∧
    (s1.exec (.number 1048575 16383 (.finite "1".toList) none)).1 = none ∧
    (s1.exec (.boolean 0 16384 true none)).1 = some .rowColumnLimit ∧
    (s1.exec (.arrayFormula 3 3 2 4 ⟨[], [], false⟩ none false)).1 = some .rowColumnOrder := by
  decide +kernel

/-- C10 is false for an empty string without a format: it is accepted outside the grid
(finding F5). -/
theorem C10_empty_string_counterexample :
    ((Sheet.new {} (fun a _ => a) 0 : Sheet Nat).exec (.string 1048576 20000 [] none)).1 = none := by
  decide +kernel

/-- Refused calls may extend the dimensions: an array formula whose last corner is outside the
grid (finding F4). -/
theorem C10_refused_extends_dimensions_counterexample :
    (s1.exec (.arrayFormula 9 9 9 16384 ⟨[], [], false⟩ none false)).1 = some .rowColumnLimit ∧
    s1.dims = ⟨2, 3, 2, 3⟩ ∧
    (s1.exec (.arrayFormula 9 9 9 16384 ⟨[], [], false⟩ none false)).2.dims = ⟨2, 3, 9, 9⟩ := by
  decide +kernel
end

end Verif
