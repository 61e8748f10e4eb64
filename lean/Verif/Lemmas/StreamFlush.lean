import Verif.Lemmas.Stream
/-! Constant memory worksheets: writing finished rows. -/
set_option linter.unusedSectionVars false
set_option linter.unusedSimpArgs false
set_option linter.unusedVariables false
namespace Verif
open BMap
variable {Fmt : Type} [DecidableEq Fmt]
variable {E : Env Fmt} {A : Abs Fmt} {s : Sheet Fmt}

/-- The local style index in effect for a cell. -/
def Sheet.effXf (s : Sheet Fmt) (xf : Nat) (ro : Option (RowOpt Fmt)) (col : Nat) : Nat :=
  let xf := if xf = 0 then (match ro with | some o => o.xf | none => xf) else xf
  if xf = 0 then (match s.changedCols.get col with | some o => o.xf | none => xf) else xf

theorem getCellXfIndex_eff (s : Sheet Fmt) (xf : Nat) (ro : Option (RowOpt Fmt)) (col : Nat) :
    s.getCellXfIndex xf ro col = if s.effXf xf ro col ≠ 0 then s.getGlobalXfIndex (s.effXf xf ro col)
      else s.effXf xf ro col := rfl

theorem zero_iff {dflt : Fmt} (h : XfInv dflt s) (x : Nat) : x = 0 ↔ s.fmtOf x = some dflt :=
  ⟨fun e => by rw [e]; exact h.fmtOf_zero, fun e => h.fmtOf_inj e h.fmtOf_zero⟩

theorem eff_dec {dflt : Fmt} (h : XfInv dflt s) {ro : Option (RowOpt Fmt)} {r col : Nat} (xf : Nat)
    (hr : ro.map s.decOpt = A.rows.get r) (hc : (s.changedCols.get col).map s.decCol = A.cols.get col) :
    s.fmtOf (s.effXf xf ro col) = A.eff dflt r col (s.fmtOf xf) := by
  unfold Sheet.effXf Abs.eff
  rw [← hr, ← hc]
  have z := fun x => (zero_iff h x).symm
  have z0 := h.fmtOf_zero
  cases ro with
  | none =>
    cases s.changedCols.get col with
    | none => simp
    | some o => 
      simp only [Option.map_none, Option.map_some, ite_self, z, Sheet.decCol]
      by_cases e : xf = 0 <;> simp [e]
  | some q =>
    cases s.changedCols.get col with
    | none =>
      simp only [Option.map_none, Option.map_some, ite_self, z, Sheet.decOpt]
      by_cases e : xf = 0 <;> simp [e]
    | some o => 
      simp only [Option.map_some, z, Sheet.decCol, Sheet.decOpt]
      by_cases e : xf = 0
      · simp only [e, if_true, z]
        by_cases e2 : q.xf = 0 <;> simp [e2]
      · simp [e, z]

theorem Sim.glob (h : Sim E A s) (hm : s.cfg.constMem = true) : s.cfg.globalXfs = true := by
  rcases h.kind with k | k | k
  · rw [k.1] at hm; cases hm
  · exact k.2.2.1
  · exact k.2.2.1

theorem rowView_none {dflt : Fmt} {r : Nat} (h1 : A.table.get r = none) (h2 : A.rows.get r = none) :
    A.rowView dflt r = none := by
  unfold Abs.rowView; rw [h1, h2]; rfl

/-- The row view depends on the row, its settings and the columns only. -/
theorem rowView_congr {dflt : Fmt} {A' : Abs Fmt} {r : Nat} (h1 : A'.table.get r = A.table.get r)
    (h2 : A'.rows.get r = A.rows.get r) (h3 : A'.cols = A.cols) : A'.rowView dflt r = A.rowView dflt r := by
  unfold Abs.rowView Abs.eff; rw [h1, h2, h3]

/-- What `flush_data_row` writes. -/
def Sheet.flushed (s : Sheet Fmt) : List (RowOut Fmt) :=
  match s.table.get s.currentRow with
  | none => if (s.changedRows.get s.currentRow).isSome then [⟨s.currentRow, s.changedRows.get s.currentRow, none⟩] else []
  | some columns => [⟨s.currentRow, s.changedRows.get s.currentRow, some (s.writeCells (s.changedRows.get s.currentRow) columns)⟩]

theorem flushDataRow_out (s : Sheet Fmt) (next : Nat) : (s.flushDataRow next).out = s.out ++ s.flushed := by
  unfold Sheet.flushDataRow Sheet.flushed
  dsimp only
  cases s.table.get s.currentRow with
  | some c => rfl
  | none =>
    dsimp only
    split
    · rfl
    · simp

theorem Sim.flushed (h : Sim E A s) (hm : s.cfg.constMem = true) :
    s.flushed.map s.decOut = (A.rowView E.dflt s.currentRow).toList := by
  have ht := h.tbl s.currentRow (fun _ => rfl)
  have hr := h.rows s.currentRow (fun _ => Nat.le_refl _)
  have hopt : (s.changedRows.get s.currentRow).map (fun o => (o.height, o.hidden, if o.xf = 0 then none else s.fmtOf o.xf)) =
      (A.rows.get s.currentRow).map fun o => (o.height, o.hidden, if o.sty = some E.dflt then none else o.sty) := by
    rw [← hr]
    cases s.changedRows.get s.currentRow with
    | none => rfl
    | some o =>
      simp only [Option.map_some, Sheet.decOpt, Option.some.injEq, Prod.mk.injEq, true_and]
      by_cases e : o.xf = 0
      · rw [if_pos e, if_pos ((zero_iff h.gen.xf _).mp e)]
      · rw [if_neg e, if_neg (fun e' => e ((zero_iff h.gen.xf _).mpr e'))]
  unfold Sheet.flushed Abs.rowView
  cases ec : s.table.get s.currentRow with
  | none =>
    rw [ec] at ht
    rw [← ht]
    dsimp only [Option.map_none]
    have hi : (A.rows.get s.currentRow).isSome = (s.changedRows.get s.currentRow).isSome := by rw [← hr]; simp
    rw [hi]
    by_cases e : (s.changedRows.get s.currentRow).isSome = true
    · simp only [e, if_true, Option.isSome_none, Bool.false_or, List.map_cons, List.map_nil, Option.toList_some,
        Sheet.decOut, hopt, Option.map_none]
    · simp [e]
  | some cols =>
    rw [ec] at ht
    rw [← ht]
    simp only [Option.map_some, Option.isSome_some, Bool.true_or, if_true, List.map_cons, List.map_nil,
      Option.toList_some, Sheet.decOut, hopt]
    congr 1
    congr 1
    unfold Sheet.writeCells
    rw [List.filter_eq_self.mpr (by
      intro p hp; rw [hm]; exact h.wrT hm _ (mem_of_get ec) p hp)]
    simp only [Sheet.decRow, List.map_map, Option.some.injEq]
    apply List.map_congr_left
    intro p hp
    simp only [Function.comp, Sheet.decCell, Prod.mk.injEq, true_and]
    have hst : s.cellStyle (s.changedRows.get s.currentRow) p.1 p.2 =
        s.getCellXfIndex p.2.xf (s.changedRows.get s.currentRow) p.1 := by
      unfold Sheet.cellStyle
      split
      · rename_i t x e; rw [if_pos hm, e]; rfl
      · rfl
    rw [hst, getCellXfIndex_eff]
    have : ∀ x, (if x ≠ 0 then s.getGlobalXfIndex x else x) = x := by
      intro x; unfold Sheet.getGlobalXfIndex; rw [h.glob hm]; simp
    rw [this]
    exact eff_dec h.gen.xf _ hr (h.cols _)

theorem range_filterMap_skip {β : Type} (f : Nat → Option β) {a b : Nat} (hab : a ≤ b)
    (h : ∀ q, a ≤ q → q < b → f q = none) : (List.range b).filterMap f = (List.range a).filterMap f := by
  induction b with
  | zero => have : a = 0 := by omega
            rw [this]
  | succ b ih =>
    by_cases e : a = b + 1
    · rw [e]
    · rw [List.range_succ, List.filterMap_append, ih (by omega) (fun q h1 h2 => h q h1 (by omega))]
      simp [h b (by omega) (by omega)]

/-- `flush_data_row` over rows that say nothing. -/
theorem Sim.flushData (h : Sim E A s) (hm : s.cfg.constMem = true) {next : Nat} (hn : s.currentRow < next)
    (hgap : ∀ q, s.currentRow < q → q < next → A.table.get q = none ∧ A.rows.get q = none) :
    Sim E A (s.flushDataRow next) := by
  have hG := (h.gen.flushDataRow (rc := false) next)
  have hcov : ∀ r, (A.table.get r).isSome ∨ (A.rows.get r).isSome → (s.flushDataRow next).Cov r := h.cover
  have hW : ∀ q, s.currentRow < q → (s.writeAhead.get q).map s.decRow = A.table.get q := h.ahead hm
  refine ⟨hG.1, h.kind, h.texts, h.merge, h.height, h.hasLocal, h.dims, ?_, sorted_remove _ _ h.srtW, h.srtA,
    h.srtAr, h.srtAc, ?_, h.cols, ?_, ?_, ?_, ?_, ?_, ?_, ?_, hcov⟩
  · show Sorted (match s.writeAhead.get next with | some columns => [(next, columns)] | none => [])
    split <;> simp [Sorted]
  · intro r e
    have e' : next ≤ r := e hm
    exact h.rows r (fun _ => by omega)
  · intro r e
    have e' : r = next := e hm
    subst e'
    rw [← hW r hn]
    show (BMap.get r (match s.writeAhead.get r with | some columns => [(r, columns)] | none => [])).map s.decRow = _
    cases s.writeAhead.get r with
    | none => rfl
    | some c => simp [BMap.get]
  · intro _ r hr
    have hr' : next < r := hr
    show ((s.writeAhead.remove next).get r).map s.decRow = _
    rw [get_remove, if_neg (by omega)]
    exact hW r (by omega)
  · intro r e
    have e' : ((s.writeAhead.remove next).get r).isSome := e
    show next < r
    rw [get_remove] at e'
    split at e'
    · cases e'
    · have h1 := h.aheadK r e'
      by_cases h2 : r < next
      · have h3 := (hgap r h1 h2).1
        rw [← hW r h1] at h3
        simp at h3; rw [h3] at e'; cases e'
      · omega
  · intro _
    show (s.flushDataRow next).out.map s.decOut = (List.range next).filterMap (A.rowView E.dflt)
    rw [flushDataRow_out, List.map_append, h.out hm, h.flushed hm,
      range_filterMap_skip (a := s.currentRow + 1) (b := next) _ (by omega)
        (fun q h1 h2 => rowView_none (hgap q (by omega) h2).1 (hgap q (by omega) h2).2),
      List.range_succ, List.filterMap_append]
    simp only [List.filterMap_cons, List.filterMap_nil]
    cases A.rowView E.dflt s.currentRow <;> rfl
  · intro ro hro o e
    have hro' : ro ∈ s.out ++ s.flushed := by rw [← flushDataRow_out s next]; exact hro
    rcases List.mem_append.mp hro' with h1 | h1
    · exact h.outV ro h1 o e
    · have : ro.opt = s.changedRows.get s.currentRow := by
        unfold Sheet.flushed at h1
        split at h1
        · split at h1
          · cases List.mem_singleton.mp h1; rfl
          · cases h1
        · cases List.mem_singleton.mp h1; rfl
      rw [e] at this
      exact h.gen.rowsV _ _ this.symm
  · intro _ q hq p hp
    have hq' : q ∈ (match s.writeAhead.get next with | some columns => [(next, columns)] | none => []) := hq
    cases hw : s.writeAhead.get next with
    | none => rw [hw] at hq'; cases hq'
    | some cols =>
      rw [hw] at hq'
      cases List.mem_singleton.mp hq'
      exact h.wrW hm _ (mem_of_get hw) p hp
  · intro _ q hq p hp
    exact h.wrW hm q (mem_remove hq) p hp

theorem mem_insert_keys {β : Type} {k : Nat} {v : β} {m : BMap β} {q : Nat} :
    q ∈ (BMap.insert k v m).map Prod.fst ↔ q = k ∨ q ∈ m.map Prod.fst := by
  induction m with
  | nil => simp [BMap.insert]
  | cons p t ih =>
    obtain ⟨k', v'⟩ := p
    simp only [BMap.insert]
    split
    · simp
    · split
      · rename_i h1 h2; subst h2; simp
      · simp only [List.map_cons, List.mem_cons, ih]
        grind

theorem sortDedup_sorted (l : List Nat) : (sortDedup l).Pairwise (· < ·) := by
  unfold sortDedup
  rw [← sorted_iff_keys]
  suffices H : ∀ (l : List Nat) (m : BMap Unit), Sorted m → Sorted (l.foldl (fun (m : BMap Unit) k => m.insert k ()) m) from
    H l [] (by simp [Sorted])
  intro l
  induction l with
  | nil => exact fun m h => h
  | cons a l ih => exact fun m h => ih _ (sorted_insert _ _ _ h)

theorem mem_sortDedup (l : List Nat) (q : Nat) : q ∈ sortDedup l ↔ q ∈ l := by
  unfold sortDedup
  suffices H : ∀ (l : List Nat) (m : BMap Unit), q ∈ (l.foldl (fun (m : BMap Unit) k => m.insert k ()) m).map Prod.fst ↔
      q ∈ m.map Prod.fst ∨ q ∈ l by simpa using H l []
  intro l
  induction l with
  | nil => simp
  | cons a l ih =>
    intro m
    simp only [List.foldl_cons]
    rw [ih, mem_insert_keys, List.mem_cons]
    grind

theorem flushDataRow_cur (s : Sheet Fmt) (n : Nat) : (s.flushDataRow n).currentRow = n := rfl

/-- Flushing all rows that say something below `next`, and then `next`. -/
theorem Sim.flushList (h : Sim E A s) (hm : s.cfg.constMem = true) {next : Nat} (l : List Nat)
    (hn : s.currentRow < next) (hl : l.Pairwise (· < ·)) (hb : ∀ q ∈ l, s.currentRow < q ∧ q < next)
    (hall : ∀ q, s.currentRow < q → q < next → q ∉ l → A.table.get q = none ∧ A.rows.get q = none) :
    Sim E A ((l.foldl Sheet.flushDataRow s).flushDataRow next) := by
  induction l generalizing s with
  | nil => exact h.flushData hm hn (fun q h1 h2 => hall q h1 h2 (by simp))
  | cons a l ih =>
    have ha := hb a List.mem_cons_self
    have hp := List.pairwise_cons.mp hl
    have h1 : Sim E A (s.flushDataRow a) := by
      refine h.flushData hm ha.1 fun q h1 h2 => hall q h1 (by omega) ?_
      intro hq
      rcases List.mem_cons.mp hq with rfl | hq
      · omega
      · have := hp.1 q hq; omega
    refine ih h1 hm ha.2 hp.2 (fun q hq => ⟨hp.1 q hq, (hb q (List.mem_cons_of_mem _ hq)).2⟩) ?_
    intro q h2 h3 h4
    have h2' : a < q := h2
    refine hall q (by omega) h3 ?_
    intro hq
    rcases List.mem_cons.mp hq with rfl | hq
    · omega
    · exact h4 hq

theorem Sim.table_some (h : Sim E A s) (hm : s.cfg.constMem = true) {q : Nat} (hq : s.currentRow < q) :
    (s.writeAhead.get q).isSome = (A.table.get q).isSome := by
  rw [← h.ahead hm q hq]; simp

theorem Sim.rows_some (h : Sim E A s) {q : Nat} (hq : s.currentRow ≤ q) :
    (s.changedRows.get q).isSome = (A.rows.get q).isSome := by
  rw [← h.rows q (fun _ => hq)]; simp

/-- `flush_to_row`. -/
theorem Sim.flushTo (h : Sim E A s) (hm : s.cfg.constMem = true) {next : Nat} (hn : s.currentRow < next) :
    Sim E A (s.flushToRow next) := by
  unfold Sheet.flushToRow
  refine h.flushList hm _ hn (sortDedup_sorted _) ?_ ?_
  · intro q hq
    rw [mem_sortDedup] at hq
    rcases List.mem_append.mp hq with hq | hq
    · simp only [List.mem_filter, mem_keys_iff, decide_eq_true_eq] at hq
      exact ⟨h.aheadK q hq.1, hq.2⟩
    · simp only [List.mem_filter, List.mem_range'_1] at hq
      omega
  · intro q h1 h2 h3
    rw [mem_sortDedup, List.mem_append] at h3
    simp only [List.mem_filter, mem_keys_iff, decide_eq_true_eq, List.mem_range'_1] at h3
    rw [h.table_some hm h1, h.rows_some (by omega)] at h3
    constructor
    · cases e : A.table.get q with
      | none => rfl
      | some _ => exact absurd (Or.inl ⟨by rw [e]; rfl, h2⟩) h3
    · cases e : A.rows.get q with
      | none => rfl
      | some _ => exact absurd (Or.inr ⟨⟨by omega, by omega⟩, by rw [e]; rfl⟩) h3

theorem flushToRow_cur (s : Sheet Fmt) (n : Nat) : (s.flushToRow n).currentRow = n := rfl

end Verif
