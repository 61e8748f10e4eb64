import Verif.Lemmas.Claim
import Verif.Props.Refusal
import Verif.Props.Sheet
import Verif.Props.Notes
import Verif.Props.Url
import Verif.Lemmas.StyleOk
/-!
C15: merged ranges.
-/
set_option linter.unusedSectionVars false
namespace Verif
open Spec
variable {Fmt : Type} [DecidableEq Fmt]

/-- A worksheet without merged ranges. -/
def MSheet.new (cfg : Cfg) (merge : Fmt → Fmt → Fmt) (dflt : Fmt) : MSheet Fmt :=
  { sheet := Sheet.new cfg merge dflt }

/-- The arguments of a `merge_range` call are acceptable in themselves. -/
def mergeArgsOk (d : Dims) (str : List Char) : Prop :=
  rectOk d ∧ severalCells d ∧ str.length ≤ 32767

instance (d : Dims) (str : List Char) : Decidable (mergeArgsOk d str) := by
  unfold mergeArgsOk rectOk severalCells; infer_instance

/-! ### What one call does -/

theorem storeBlank_none (s : Sheet Fmt) {r c : Nat} (f : Fmt) (h : inGrid r c = true) :
    (s.storeBlank r c f).1 = none := by
  rw [(storeBlank_outc s r c f).1, h]; rfl

theorem writeMerged_err (s : Sheet Fmt) (d : Dims) (str : Str) (f : Fmt) (h : rectOk d) :
    (s.writeMerged d str f).1 = if str.length ≤ 32767 then none else some .maxStringLength := by
  obtain ⟨h1, h2, h3, h4⟩ := h
  have hg : inGrid d.lastRow d.lastCol = true := by simp [inGrid]; omega
  have hs := (storeString_outc s d.firstRow d.firstCol str (some f)).1
  unfold refuseString at hs
  rw [if_neg (by simp), inGrid_mono hg h1 h2] at hs
  unfold Sheet.writeMerged
  by_cases hl : str.length ≤ 32767
  · rw [if_pos hl]
    rw [if_neg (by simp), if_neg (by omega)] at hs
    refine andThen_none hs fun s => andThen_none ?_ fun s => andThen_none ?_ fun s => rfl
    · refine forEach_none _ _ ?_ s
      intro c hc s
      refine storeBlank_none s f ?_
      rw [List.mem_range'_1] at hc
      exact inGrid_mono hg h1 (by omega)
    · refine forEach_none _ _ ?_ _
      intro r hr s
      refine forEach_none _ _ ?_ s
      intro c hc s
      refine storeBlank_none s f ?_
      rw [List.mem_range'_1] at hr hc
      exact inGrid_mono (r' := d.lastRow) (c' := d.lastCol) hg (by omega) (by omega)
  · rw [if_neg hl]
    rw [if_neg (by simp), if_pos (by omega)] at hs
    unfold Res.andThen
    rw [hs]

/-- The four ways a call ends. -/
theorem mergeRange_cases (s : MSheet Fmt) (d : Dims) (str : Str) (f : Fmt) :
    (¬ mergeArgsOk d str ∧ ∃ e t, (∀ a b, e ≠ .overlaps a b) ∧ s.mergeRange d str f = .err e { s with sheet := t }) ∨
    (mergeArgsOk d str ∧ ∃ t, s.mergeRange d str f =
      match claimCells s.ranges d.cells s.index with
      | (.free, m) => .ok { sheet := t, ranges := s.ranges ++ [d], index := m }
      | (.taken p, m) => .err (.overlaps d p) { s with sheet := t, index := m }
      | (.panic, _) => .panic) := by
  unfold MSheet.mergeRange
  rcases cd_cases s.sheet d.firstRow d.firstCol with ⟨hg, e⟩ | ⟨hg, d1, e⟩
  · rw [e]
    refine .inl ⟨?_, (.cell .rowColumnLimit), _, (by intro a b h; cases h), rfl⟩
    rintro ⟨⟨h1, h2, h3, h4⟩, _⟩
    simp [inGrid] at hg; omega
  · rw [e]
    simp only
    rcases cd_cases ({ s.sheet with dims := d1 } : Sheet Fmt) d.lastRow d.lastCol with ⟨hg2, e2⟩ | ⟨hg2, d2, e2⟩
    · rw [e2]
      refine .inl ⟨?_, (.cell .rowColumnLimit), _, (by intro a b h; cases h), rfl⟩
      rintro ⟨⟨h1, h2, h3, h4⟩, _⟩
      simp [inGrid] at hg2; omega
    · rw [e2]
      simp only
      split
      · rename_i ho
        refine .inl ⟨?_, (.cell .rowColumnOrder), _, (by intro a b h; cases h), rfl⟩
        rintro ⟨⟨h1, h2, h3, h4⟩, _⟩
        simp at ho; omega
      · rename_i ho
        split
        · rename_i h1
          refine .inl ⟨?_, .single, _, (by intro a b h; cases h), rfl⟩
          rintro ⟨_, h2, _⟩
          simp at h1
          rcases h2 with h2 | h2
          · exact h2 h1.1
          · exact h2 h1.2
        · rename_i h1
          have hr : rectOk d := by
            simp [inGrid] at hg2 ho; exact ⟨by omega, by omega, by omega, by omega⟩
          have hw := writeMerged_err ({ s.sheet with dims := d2 } : Sheet Fmt) d str f hr
          split
          · rename_i er t hwt
            rw [hwt] at hw
            refine .inl ⟨?_, (.cell er), _, (by intro a b h; cases h), rfl⟩
            rintro ⟨_, _, h3⟩
            rw [if_pos h3] at hw; cases hw
          · rename_i t hwt
            rw [hwt] at hw
            refine .inr ⟨⟨hr, ?_, ?_⟩, t, rfl⟩
            · unfold severalCells; simp at h1; omega
            · by_cases hl : str.length ≤ 32767
              · exact hl
              · rw [if_neg hl] at hw; cases hw

/-! ### The invariants -/

/-- What every reachable worksheet satisfies. -/
structure MInv (s : MSheet Fmt) : Prop where
  claim : ClaimInv s.ranges s.index
  args : ∀ d ∈ s.ranges, rectOk d ∧ severalCells d

theorem MInv.exec {s t : MSheet Fmt} (h : MInv s) (op : MOp Fmt) (he : s.exec op = some t) : MInv t := by
  cases op with
  | cell op => cases he; exact ⟨h.claim, h.args⟩
  | merge d str f =>
    simp only [MSheet.exec] at he
    rcases mergeRange_cases s d str f with ⟨_, e, t', _, hm⟩ | ⟨hok, t', hm⟩
    · rw [hm] at he; cases he; exact ⟨h.claim, h.args⟩
    · rw [hm] at he
      cases hc : claimCells s.ranges d.cells s.index with
      | mk a m =>
        rw [hc] at he
        have e1 : (claimCells s.ranges d.cells s.index).1 = a := by rw [hc]
        have e2 : (claimCells s.ranges d.cells s.index).2 = m := by rw [hc]
        cases a with
        | free =>
          cases he
          refine ⟨e2 ▸ h.claim.free e1, ?_⟩
          intro x hx
          rcases List.mem_append.mp hx with hx | hx
          · exact h.args x hx
          · rw [List.mem_singleton.mp hx]; exact ⟨hok.1, hok.2.1⟩
        | taken p => cases he; exact ⟨e2 ▸ h.claim.taken d, h.args⟩
        | panic => cases he

theorem MInv.run {s t : MSheet Fmt} (h : MInv s) (ops : List (MOp Fmt)) (he : s.run ops = some t) : MInv t := by
  induction ops generalizing s with
  | nil => cases he; exact h
  | cons op ops ih =>
    simp only [MSheet.run, List.foldlM_cons] at he
    cases hx : s.exec op with
    | none => rw [hx] at he; cases he
    | some u => rw [hx] at he; exact ih (h.exec op hx) he

theorem MInv.new (cfg : Cfg) (merge : Fmt → Fmt → Fmt) (dflt : Fmt) : MInv (MSheet.new cfg merge dflt) :=
  ⟨ClaimInv.empty, by simp [MSheet.new]⟩

variable {cfg : Cfg} {merge : Fmt → Fmt → Fmt} {dflt : Fmt}

/-- C15: whatever calls are made, the merged ranges of a worksheet have no cell in common, lie inside the
grid with ordered corners and have at least two cells. -/
theorem C15_ranges_disjoint (ops : List (MOp Fmt)) (s : MSheet Fmt)
    (h : (MSheet.new cfg merge dflt).run ops = some s) :
    s.ranges.Pairwise apart ∧ ∀ d ∈ s.ranges, rectOk d ∧ severalCells d :=
  let i := (MInv.new cfg merge dflt).run ops h
  ⟨i.claim.disjoint, i.args⟩

/-- C15: a call that would overlap an accepted range is not accepted, and the accepted ranges stay as
they are; so does a call with bad corners, a single cell, or a text of over 32767 characters. -/
theorem C15_overlap_refused (ops : List (MOp Fmt)) (s : MSheet Fmt)
    (h : (MSheet.new cfg merge dflt).run ops = some s) (d : Dims) (str : Str) (f : Fmt)
    (ho : (∃ e ∈ s.ranges, ¬ apart e d) ∨ ¬ mergeArgsOk d str) :
    s.mergeRange d str f = .panic ∨ ∃ e t, s.mergeRange d str f = .err e t ∧ t.ranges = s.ranges := by
  have i := (MInv.new cfg merge dflt).run ops h
  rcases mergeRange_cases s d str f with ⟨_, e, t', _, hm⟩ | ⟨hok, t', hm⟩
  · exact .inr ⟨e, _, hm, rfl⟩
  · rcases ho with ⟨e, he, ha⟩ | ho
    · rw [hm]
      cases hc : claimCells s.ranges d.cells s.index with
      | mk a m =>
        have e1 : (claimCells s.ranges d.cells s.index).1 = a := by rw [hc]
        cases a with
        | free => exact absurd (i.claim.apart_of_free e1 e he) ha
        | taken p => exact .inr ⟨_, _, rfl, rfl⟩
        | panic => exact .inl rfl
    · exact absurd hok ho

/-! ### Histories without overlapping calls -/

/-- The ranges of the acceptable `merge_range` calls of a history, in order. -/
def wantedRanges : List (MOp Fmt) → List Dims
  | [] => []
  | .cell _ :: ops => wantedRanges ops
  | .merge d str _ :: ops => if mergeArgsOk d str then d :: wantedRanges ops else wantedRanges ops

theorem run_exact (s : MSheet Fmt) (ops : List (MOp Fmt)) (hI : MInv s) (hE : ClaimExact s.ranges s.index)
    (ha : (s.ranges ++ wantedRanges ops).Pairwise apart) :
    ∃ t, s.run ops = some t ∧ t.ranges = s.ranges ++ wantedRanges ops ∧ ClaimExact t.ranges t.index := by
  induction ops generalizing s with
  | nil => exact ⟨s, rfl, by simp [wantedRanges], hE⟩
  | cons op ops ih =>
    cases op with
    | cell op =>
      have hI' : MInv ({ s with sheet := (s.sheet.exec op).2 } : MSheet Fmt) := ⟨hI.claim, hI.args⟩
      exact ih { s with sheet := (s.sheet.exec op).2 } hI' hE ha
    | merge d str f =>
      simp only [wantedRanges] at ha ⊢
      rcases mergeRange_cases s d str f with ⟨hn, e, t', _, hm⟩ | ⟨hok, t', hm⟩
      · rw [if_neg hn] at ha ⊢
        have hI' : MInv ({ s with sheet := t' } : MSheet Fmt) := ⟨hI.claim, hI.args⟩
        obtain ⟨t, h1, h2⟩ := ih { s with sheet := t' } hI' hE ha
        refine ⟨t, ?_, h2⟩
        simp only [MSheet.run, List.foldlM_cons, MSheet.exec, hm]
        exact h1
      · rw [if_pos hok] at ha ⊢
        have happ : ∀ e ∈ s.ranges, apart e d := by
          intro e he
          rw [List.pairwise_append] at ha
          exact ha.2.2 e he d List.mem_cons_self
        rcases hE.cases hI.claim d with ⟨hf, _⟩ | ⟨p, _, hp, hpa⟩
        · have hx : s.mergeRange d str f = .ok ⟨t', s.ranges ++ [d], (claimCells s.ranges d.cells s.index).2⟩ := by
            rw [hm]
            cases hc : claimCells s.ranges d.cells s.index with
            | mk a m => rw [hc] at hf; cases hf; rfl
          have hex : s.exec (.merge d str f) = some ⟨t', s.ranges ++ [d], (claimCells s.ranges d.cells s.index).2⟩ := by
            simp only [MSheet.exec, hx]
          have hI' := hI.exec _ hex
          obtain ⟨t, h1, h2, h3⟩ := ih _ hI' (hE.free hf) (by simpa using ha)
          refine ⟨t, ?_, by simpa using h2, h3⟩
          simp only [MSheet.run, List.foldlM_cons, hex]
          exact h1
        · exact absurd (happ p hp) hpa

/-- C15, partial: as long as no two acceptable `merge_range` calls overlap, every one of them is accepted
and nothing panics. The full claim, that any call apart from the accepted ranges is accepted, is false:
see `C15_phantom_panic_counterexample`. -/
theorem C15_accepts_all_partial (ops : List (MOp Fmt)) (ha : (wantedRanges ops).Pairwise apart) :
    ∃ s, (MSheet.new cfg merge dflt).run ops = some s ∧ s.ranges = wantedRanges ops := by
  obtain ⟨t, h1, h2, _⟩ := run_exact (MSheet.new cfg merge dflt) ops (MInv.new ..) ClaimExact.empty (by simpa [MSheet.new])
  exact ⟨t, h1, by simpa [MSheet.new] using h2⟩

/-- C15, partial: the first call that overlaps is refused with an error that names the new range and an
accepted range it overlaps. -/
theorem C15_first_overlap_partial (ops : List (MOp Fmt)) (ha : (wantedRanges ops).Pairwise apart)
    (d : Dims) (str : Str) (f : Fmt) (hok : mergeArgsOk d str) (ho : ∃ e ∈ wantedRanges ops, ¬ apart e d) :
    ∃ s p t, (MSheet.new cfg merge dflt).run ops = some s ∧
      s.mergeRange d str f = .err (.overlaps d p) t ∧ p ∈ wantedRanges ops ∧ ¬ apart p d ∧ t.ranges = s.ranges := by
  obtain ⟨s, h1, h2, h3⟩ := run_exact (MSheet.new cfg merge dflt) ops (MInv.new ..) ClaimExact.empty (by simpa [MSheet.new])
  have h2' : s.ranges = wantedRanges ops := by simpa [MSheet.new] using h2
  have hI := (MInv.new cfg merge dflt).run ops h1
  rcases h3.cases hI.claim d with ⟨hf, hall⟩ | ⟨p, hp, hpm, hpa⟩
  · obtain ⟨e, he, hea⟩ := ho
    exact absurd (hall e (h2' ▸ he)) hea
  · rcases mergeRange_cases s d str f with ⟨hn, _⟩ | ⟨_, t', hm⟩
    · exact absurd hok hn
    · refine ⟨s, p, { s with sheet := t', index := (claimCells s.ranges d.cells s.index).2 }, h1, ?_, h2' ▸ hpm, hpa, rfl⟩
      rw [hm]
      cases hc : claimCells s.ranges d.cells s.index with
      | mk a m => rw [hc] at hp; cases hp; rfl

/-! ### The cells of a merged range -/

theorem run_append (s : Sheet Fmt) (a b : List (Op Fmt)) : s.run (a ++ b) = (s.run a).run b := by
  simp [Sheet.run]

theorem exec_cfg_blank (s : Sheet Fmt) (r c : Nat) (f : Fmt) : s.exec (.blank r c f) = s.storeBlank r c f := rfl

theorem forEach_run {α : Type} (l : List α) (g : α → Op Fmt) (hn : ∀ a ∈ l, ∀ s : Sheet Fmt, (s.exec (g a)).1 = none)
    (s : Sheet Fmt) : forEach l (fun a s => s.exec (g a)) s = (none, s.run (l.map g)) := by
  induction l generalizing s with
  | nil => rfl
  | cons a l ih =>
    simp only [forEach, Res.andThen, List.map_cons, Sheet.run, List.foldl_cons]
    rw [hn a List.mem_cons_self s]
    exact ih (fun b hb => hn b (List.mem_cons_of_mem _ hb)) _

theorem forEach_congr {α : Type} (l : List α) (f g : α → Sheet Fmt → Res Fmt) (h : ∀ a ∈ l, ∀ s, f a s = g a s)
    (s : Sheet Fmt) : forEach l f s = forEach l g s := by
  induction l generalizing s with
  | nil => rfl
  | cons a l ih =>
    simp only [forEach, Res.andThen]
    rw [h a List.mem_cons_self s]
    split
    · rfl
    · exact ih (fun b hb => h b (List.mem_cons_of_mem _ hb)) _

theorem forEach_runs {α : Type} (l : List α) (f : α → Sheet Fmt → Res Fmt) (g : α → List (Op Fmt))
    (hn : ∀ a ∈ l, ∀ s : Sheet Fmt, f a s = (none, s.run (g a)))
    (s : Sheet Fmt) : forEach l f s = (none, s.run (l.flatMap g)) := by
  induction l generalizing s with
  | nil => rfl
  | cons a l ih =>
    simp only [forEach, Res.andThen, List.flatMap_cons, run_append, hn a List.mem_cons_self s]
    exact ih (fun b hb => hn b (List.mem_cons_of_mem _ hb)) _

/-- A call that has no effect but to extend the used range, as the corner checks of `merge_range` do: a
note that is refused for its length. -/
def touchCell (r c : Nat) : Op Fmt := .note r c true

theorem exec_touch (s : Sheet Fmt) (r c : Nat) : (s.exec (touchCell r c)).2 = (s.checkDimensions r c).2 := by
  unfold touchCell
  simp only [Sheet.exec, Sheet.insertNote]
  split <;> (rename_i h; rw [h]; try rfl)

theorem formatXfIndex_cfg (s : Sheet Fmt) (f : Fmt) : (s.formatXfIndex f).2.cfg = s.cfg := by
  unfold Sheet.formatXfIndex; split <;> split <;> rfl

theorem rowColFormat_cfg (s : Sheet Fmt) (r c : Nat) : (s.rowColFormat r c).2.cfg = s.cfg := by
  unfold Sheet.rowColFormat
  split
  · rfl
  · split
    · rfl
    · split
      · rfl
      · split
        · rfl
        · exact formatXfIndex_cfg _ _

theorem insertCell_cfg_std (s : Sheet Fmt) (hs : s.cfg.constMem = false) (r c : Nat) (x : Cell) :
    (s.insertCell r c x).cfg = s.cfg := by
  unfold Sheet.insertCell; rw [hs]; rfl

/-- A write of a blank or a text leaves the settings of a standard mode sheet alone. -/
def stringOrBlank : Op Fmt → Bool
  | .string .. | .blank .. => true
  | _ => false

theorem storeBlank_cfg (s : Sheet Fmt) (hs : s.cfg.constMem = false) (r c : Nat) (f : Fmt) :
    (s.storeBlank r c f).2.cfg = s.cfg := by
  unfold Sheet.storeBlank
  rcases cd_cases s r c with ⟨_, e⟩ | ⟨_, d, e⟩
  · rw [e]
  · rw [e]
    simp only
    have h1 := formatXfIndex_cfg ({ s with dims := d } : Sheet Fmt) f
    split
    · have h2 := rowColFormat_cfg (({ s with dims := d } : Sheet Fmt).formatXfIndex f).2 r c
      rw [insertCell_cfg_std _ (by rw [h2, h1]; exact hs), h2, h1]
    · rw [insertCell_cfg_std _ (by rw [h1]; exact hs), h1]

theorem storeString_cfg' (s : Sheet Fmt) (hs : s.cfg.constMem = false) (r c : Nat) (t : Str) (f : Fmt) :
    (s.storeString r c t (some f)).2.cfg = s.cfg := by
  unfold Sheet.storeString
  split
  · exact storeBlank_cfg s hs r c f
  · rcases cd_cases s r c with ⟨_, e⟩ | ⟨_, d, e⟩
    · rw [e]
    · rw [e]
      have h1 : (({ s with dims := d } : Sheet Fmt).xfFor r c (some f)).2.cfg = s.cfg :=
        formatXfIndex_cfg ({ s with dims := d } : Sheet Fmt) f
      rcases hq : ({ s with dims := d } : Sheet Fmt).xfFor r c (some f) with ⟨x, q⟩
      rw [hq] at h1
      have h1' : q.cfg = s.cfg := h1
      have h2 : q.cfg.constMem = false := by rw [h1']; exact hs
      simp only [hq]
      split
      · rfl
      · split
        · rw [insertCell_cfg_std _ h2, h1']
        · rw [insertCell_cfg_std]
          · exact h1'
          · exact h2

theorem storeString_cfg (s : Sheet Fmt) (r c : Nat) (t : Str) (f : Option Fmt) :
    s.exec (.string r c t f) = s.storeString r c t f := rfl

theorem setWritingAhead_std (s : Sheet Fmt) (h : s.cfg.constMem = false) (b : Bool) : s.setWritingAhead b = s := by
  simp [Sheet.setWritingAhead, h]

theorem writeMerged_run (s : Sheet Fmt) (hs : s.cfg.constMem = false) (d : Dims) (str : Str) (f : Fmt)
    (h : rectOk d) (hl : str.length ≤ 32767) :
    s.writeMerged d str f = (none, s.run (mergedCellWrites d str f)) := by
  obtain ⟨h1, h2, h3, h4⟩ := h
  have hg : inGrid d.lastRow d.lastCol = true := by simp [inGrid]; omega
  have hs1 := (storeString_outc s d.firstRow d.firstCol str (some f)).1
  unfold refuseString at hs1
  rw [if_neg (by simp), inGrid_mono hg h1 h2, if_neg (by simp), if_neg (by omega)] at hs1
  have hblank : ∀ (l : List (Nat × Nat)) (t : Sheet Fmt), t.cfg.constMem = false →
      (t.run (l.map fun p => .blank p.1 p.2 f)).cfg.constMem = false := by
    intro l
    induction l with
    | nil => exact fun _ h => h
    | cons p l ih =>
      intro t ht
      exact ih _ (by show (t.storeBlank _ _ _).2.cfg.constMem = false; rw [storeBlank_cfg _ ht]; exact ht)
  unfold Sheet.writeMerged
  have e1 : ∀ t : Sheet Fmt, forEach (List.range' (d.firstCol + 1) (d.lastCol - d.firstCol))
      (fun c s => s.storeBlank d.firstRow c f) t = (none, t.run ((List.range' (d.firstCol + 1) (d.lastCol - d.firstCol)).map
        fun c => .blank d.firstRow c f)) := by
    intro t
    refine forEach_run _ (fun c => Op.blank d.firstRow c f) ?_ t
    intro c hc s
    rw [List.mem_range'_1] at hc
    exact storeBlank_none s f (inGrid_mono hg h1 (by omega))
  have e2 : ∀ t : Sheet Fmt, forEach (List.range' (d.firstRow + 1) (d.lastRow - d.firstRow))
      (fun r s => forEach (List.range' d.firstCol (d.lastCol + 1 - d.firstCol)) (fun c s => s.storeBlank r c f) s) t =
      (none, t.run ((List.range' (d.firstRow + 1) (d.lastRow - d.firstRow)).flatMap fun r =>
        (List.range' d.firstCol (d.lastCol + 1 - d.firstCol)).map fun c => .blank r c f)) := by
    intro t
    refine forEach_runs _ _ _ ?_ t
    intro r hr s
    refine forEach_run _ (fun c => Op.blank r c f) ?_ s
    intro c hc s
    rw [List.mem_range'_1] at hr hc
    exact storeBlank_none s f (inGrid_mono (r' := d.lastRow) (c' := d.lastCol) hg (by omega) (by omega))
  unfold Res.andThen
  rw [hs1]
  have ex : (s.storeString d.firstRow d.firstCol str (some f)).2 = s.run [.string d.firstRow d.firstCol str (some f)] := rfl
  rw [ex]
  simp only [e1]
  have c1 : (s.run [.string d.firstRow d.firstCol str (some f)]).cfg.constMem = false := by
    show (s.storeString _ _ _ _).2.cfg.constMem = false
    rw [storeString_cfg' _ hs]; exact hs
  have c2 := hblank ((List.range' (d.firstCol + 1) (d.lastCol - d.firstCol)).map fun c => (d.firstRow, c)) _ c1
  simp only [List.map_map, Function.comp_def] at c2
  have c3 := hblank ((List.range' (d.firstRow + 1) (d.lastRow - d.firstRow)).flatMap fun r =>
        (List.range' d.firstCol (d.lastCol + 1 - d.firstCol)).map fun c => (r, c)) _ c2
  rw [List.map_flatMap] at c3
  simp only [List.map_map, Function.comp_def] at c3
  rw [setWritingAhead_std _ c2]
  simp only [e2]
  rw [setWritingAhead_std _ c3]
  rw [← run_append, ← run_append]
  unfold mergedCellWrites
  simp

/-- C15: an accepted call leaves the cells of a worksheet in standard mode exactly as the single cell
writes would: the text in the upper left cell, formatted blanks in all others. -/
theorem C15_accepted_writes (s : MSheet Fmt) (hs : s.sheet.cfg.constMem = false) (d : Dims) (str : Str) (f : Fmt)
    (t : MSheet Fmt) (h : s.mergeRange d str f = .ok t) :
    t.sheet = s.sheet.run (touchCell d.firstRow d.firstCol :: touchCell d.lastRow d.lastCol ::
      mergedCellWrites d str f) ∧ t.ranges = s.ranges ++ [d] := by
  have hok : mergeArgsOk d str := by
    rcases mergeRange_cases s d str f with ⟨_, e, t', _, hm⟩ | ⟨hok, _⟩
    · rw [hm] at h; cases h
    · exact hok
  have hrun : s.sheet.run (touchCell d.firstRow d.firstCol :: touchCell d.lastRow d.lastCol ::
      mergedCellWrites d str f) = ((s.sheet.checkDimensions d.firstRow d.firstCol).2.checkDimensions d.lastRow d.lastCol).2.run
        (mergedCellWrites d str f) := by
    show ((((s.sheet.exec (touchCell d.firstRow d.firstCol)).2).exec (touchCell d.lastRow d.lastCol)).2).run _ = _
    rw [exec_touch, exec_touch]
  unfold MSheet.mergeRange at h
  rcases cd_cases s.sheet d.firstRow d.firstCol with ⟨_, e⟩ | ⟨_, d1, e⟩
  · rw [e] at h; cases h
  · rw [e] at h
    simp only at h
    rcases cd_cases ({ s.sheet with dims := d1 } : Sheet Fmt) d.lastRow d.lastCol with ⟨_, e2⟩ | ⟨_, d2, e2⟩
    · rw [e2] at h; cases h
    · rw [e2] at h
      simp only at h
      rw [hrun, e, e2]
      split at h
      · cases h
      · split at h
        · cases h
        · rw [writeMerged_run ({ s.sheet with dims := d2 } : Sheet Fmt) hs d str f hok.1 hok.2.2] at h
          simp only at h
          split at h
          · cases h; exact ⟨rfl, rfl⟩
          · cases h
          · cases h

/-- All the cell calls an accepted `merge_range` amounts to. -/
def mergeCalls (d : Dims) (str : Str) (f : Fmt) : List (Op Fmt) :=
  touchCell d.firstRow d.firstCol :: touchCell d.lastRow d.lastCol :: mergedCellWrites d str f

theorem blanks_effect (cfg : Cfg) (f : Fmt) (r c : Nat) (hg : inGrid r c = true) (l : List (Nat × Nat))
    (a : Content) (b : Option Fmt) :
    (l.map fun p => Op.blank p.1 p.2 f).foldl (fun a op => (op.effectAt cfg r c).content a) a =
      (if (r, c) ∈ l then .blank else a) ∧
    (l.map fun p => Op.blank p.1 p.2 f).foldl (fun a op => (op.effectAt cfg r c).fmt a) b =
      (if (r, c) ∈ l then some f else b) := by
  induction l generalizing a b with
  | nil => simp
  | cons p l ih =>
    obtain ⟨r', c'⟩ := p
    simp only [List.map_cons, List.foldl_cons]
    rw [(ih _ b).1, (ih a _).2]
    simp only [Op.effectAt, List.mem_cons, Prod.mk.injEq]
    by_cases h : r = r' ∧ c = c'
    · obtain ⟨rfl, rfl⟩ := h
      simp [hg, Upd.content, Upd.fmt]
    · have hn : ¬ (r = r' ∧ c = c' ∧ inGrid r c = true) := fun q => h ⟨q.1, q.2.1⟩
      simp [h, hn, Upd.content, Upd.fmt]

theorem blanks_away (cfg : Cfg) (f : Fmt) (r c : Nat) (l : List (Nat × Nat)) (hl : (r, c) ∉ l)
    (a : Content) (b : Option Fmt) :
    (l.map fun p => Op.blank p.1 p.2 f).foldl (fun a op => (op.effectAt cfg r c).content a) a = a ∧
    (l.map fun p => Op.blank p.1 p.2 f).foldl (fun a op => (op.effectAt cfg r c).fmt a) b = b := by
  induction l generalizing a b with
  | nil => simp
  | cons p l ih =>
    obtain ⟨r', c'⟩ := p
    simp only [List.mem_cons, Prod.mk.injEq, not_or] at hl
    simp only [List.map_cons, List.foldl_cons, Op.effectAt]
    have hn : ¬ (r = r' ∧ c = c' ∧ inGrid r c = true) := fun q => hl.1 ⟨q.1, q.2.1⟩
    simp only [hn, if_false]
    exact ih hl.2 a b

/-- The content a merged range leaves in a cell. -/
theorem mergeCalls_spec (cfg : Cfg) (ops : List (Op Fmt)) (d : Dims) (str : Str) (f : Fmt)
    (h : mergeArgsOk d str) (r c : Nat) :
    specContent cfg (ops ++ mergeCalls d str f) r c =
      (if covers d r c then
        if r = d.firstRow ∧ c = d.firstCol ∧ str ≠ [] then .text str else .blank
       else specContent cfg ops r c) ∧
    specFmt cfg (ops ++ mergeCalls d str f) r c =
      (if covers d r c then some f else specFmt cfg ops r c) := by
  obtain ⟨⟨h1, h2, h3, h4⟩, _, h6⟩ := h
  have hl1 : ∀ (L : List Nat) (x : Nat), (L.map fun c => Op.blank x c f) =
      (L.map fun c => (x, c)).map fun p => Op.blank p.1 p.2 f := by
    intro L x; rw [List.map_map]; rfl
  have hw : mergedCellWrites d str f = .string d.firstRow d.firstCol str (some f) ::
      ((((List.range' (d.firstCol + 1) (d.lastCol - d.firstCol)).map fun c => (d.firstRow, c)) ++
      (List.range' (d.firstRow + 1) (d.lastRow - d.firstRow)).flatMap fun r =>
      (List.range' d.firstCol (d.lastCol + 1 - d.firstCol)).map fun c => (r, c)).map fun p => .blank p.1 p.2 f) := by
    unfold mergedCellWrites
    simp [List.map_flatMap, List.map_map, Function.comp_def]
  generalize hL : (((List.range' (d.firstCol + 1) (d.lastCol - d.firstCol)).map fun c => (d.firstRow, c)) ++
      (List.range' (d.firstRow + 1) (d.lastRow - d.firstRow)).flatMap fun r =>
      (List.range' d.firstCol (d.lastCol + 1 - d.firstCol)).map fun c => (r, c)) = L at hw
  have hmem : (r, c) ∈ L ↔ covers d r c ∧ ¬ (r = d.firstRow ∧ c = d.firstCol) := by
    rw [← hL]
    simp only [List.mem_append, List.mem_map, List.mem_flatMap, List.mem_range'_1, Prod.mk.injEq, covers]
    constructor
    · rintro (⟨c', h, rfl, rfl⟩ | ⟨r', h, c', h', rfl, rfl⟩) <;> omega
    · intro h
      by_cases hr : r = d.firstRow
      · exact .inl ⟨c, by omega, hr.symm, rfl⟩
      · exact .inr ⟨r, by omega, c, by omega, rfl, rfl⟩
  unfold specContent specFmt mergeCalls
  rw [hw]
  simp only [List.foldl_append, List.foldl_cons]
  have t1 : ∀ (x y : Nat) (a : Content), ((touchCell x y : Op Fmt).effectAt cfg r c).content a = a := fun _ _ _ => rfl
  have t2 : ∀ (x y : Nat) (a : Option Fmt), ((touchCell x y : Op Fmt).effectAt cfg r c).fmt a = a := fun _ _ _ => rfl
  simp only [t1, t2]
  generalize ops.foldl (fun a op => (op.effectAt cfg r c).content a) Content.blank = a
  generalize ops.foldl (fun a op => (op.effectAt cfg r c).fmt a) none = b
  by_cases hc : covers d r c
  · have hg : inGrid r c = true := by simp [inGrid, covers] at *; omega
    rw [(blanks_effect cfg f r c hg L _ none).1, (blanks_effect cfg f r c hg L .blank _).2, if_pos hc, if_pos hc]
    by_cases hf : r = d.firstRow ∧ c = d.firstCol
    · have : (r, c) ∉ L := fun h => (hmem.mp h).2 hf
      rw [if_neg this, if_neg this]
      obtain ⟨rfl, rfl⟩ := hf
      simp only [Op.effectAt, updString, hg]
      by_cases he : str = []
      · simp [he, Upd.content, Upd.fmt]
      · simp [he, h6, Upd.content, Upd.fmt]
    · have : (r, c) ∈ L := hmem.mpr ⟨hc, hf⟩
      rw [if_pos this, if_pos this]
      simp only [and_true]
      rw [if_neg (fun h => hf ⟨h.1, h.2.1⟩)]
  · have hn : (r, c) ∉ L := fun h => hc (hmem.mp h).1
    rw [(blanks_away cfg f r c L hn _ none).1, (blanks_away cfg f r c L hn .blank _).2, if_neg hc, if_neg hc]
    have : ¬ (r = d.firstRow ∧ c = d.firstCol) := by
      rintro ⟨rfl, rfl⟩; exact hc (by simp [covers]; omega)
    simp [Op.effectAt, this, Upd.content, Upd.fmt]

theorem opsFor_append (i : Nat) (a b : List (Nat × Op Fmt)) : opsFor i (a ++ b) = opsFor i a ++ opsFor i b := by
  simp [opsFor]

theorem opsFor_same (i : Nat) (l : List (Op Fmt)) : opsFor i (l.map fun o => (i, o)) = l := by
  induction l with
  | nil => rfl
  | cons o l ih =>
    simp only [opsFor] at ih ⊢
    simp [ih]

/-- C15: in the saved workbook an accepted merged range of a standard mode worksheet shows its text in the
upper left cell and blanks in all its other cells, and every other cell shows what it showed before
(`C15_accepted_writes` says that the calls `mergeCalls` are what the accepted `merge_range` does). -/
theorem C15_saved_cells (cfgs : List Cfg) (merge : Fmt → Fmt → Fmt) (dflt : Fmt) (ops : List (Nat × Op Fmt))
    (extra : List Fmt) (i : Nat) (cfg : Cfg) (hc : cfgs[i]? = some cfg) (hstd : cfg.isStandard)
    (d : Dims) (str : Str) (f : Fmt) (hok : mergeArgsOk d str) (siOrder : List (Str × Nat))
    (hsi : siOrder.Perm (savedBook cfgs merge dflt (ops ++ (mergeCalls d str f).map fun o => (i, o)) extra).sst.strings) :
    ∃ s, (savedBook cfgs merge dflt (ops ++ (mergeCalls d str f).map fun o => (i, o)) extra).sheets[i]? = some s ∧
      ∀ r c, readVia (sstList siOrder) s.rows r c =
        if covers d r c then
          if r = d.firstRow ∧ c = d.firstCol ∧ str ≠ [] then .text str else .blank
        else specContent cfg (opsFor i ops) r c := by
  obtain ⟨s, h1, h2⟩ := C09_last_write_wins cfgs merge dflt _ extra siOrder hsi i cfg hc hstd
  refine ⟨s, h1, fun r c => ?_⟩
  rw [h2, opsFor_append, opsFor_same]
  exact (mergeCalls_spec cfg _ d str f hok r c).1

/-! ### The written element -/

theorem cellRange_attrSafe (r1 c1 r2 c2 : Nat) : attrSafe (cellRange r1 c1 r2 c2) = true := by
  unfold cellRange
  simp only
  split
  · exact cell_attrSafe _ _
  · have h1 := cell_attrSafe r1 c1
    have h2 := cell_attrSafe r2 c2
    rw [attrSafe_mem] at h1 h2 ⊢
    intro c hc
    rcases List.mem_append.mp hc with hc | hc
    · exact h1 c hc
    · rcases List.mem_cons.mp hc with rfl | hc
      · decide
      · exact h2 c hc

/-- C15: the `mergeCells` element is well-formed and a reader finds in it the number of the accepted ranges and
exactly the accepted ranges, in the order of the calls. -/
theorem C15_ranges_read_back (ranges : List Dims) :
    ∃ as kids, parseDoc (writePart (mergeCellsTree ranges)) = some (.elem "mergeCells".toList as kids) ∧
      readMergeCells as kids = some (ranges.length, ranges) := by
  have hok : treeOk (mergeCellsTree ranges) = true := by
    refine treeOk_node (by decide) (attrsGood_one (by decide) (showNat_attrSafe _)) ?_
    intro k hk
    obtain ⟨d, _, rfl⟩ := List.mem_map.mp hk
    exact treeOk_empty (by decide) (attrsGood_one (by decide) (cellRange_attrSafe _ _ _ _))
  refine ⟨_, _, C07_part_roundtrip _ hok, ?_⟩
  unfold readMergeCells
  rw [childrenAll_toNodes _ _ (by
    intro t ht
    obtain ⟨d, _, rfl⟩ := List.mem_map.mp ht
    rfl)]
  have hn : attrNat "count".toList [("count".toList, showNat ranges.length)] = some ranges.length := by
    simp [attrNat, List.lookup, readNat_showNat]
  simp only [hn, Option.bind_eq_bind, Option.bind_some, List.map_map]
  rw [List.mapM_map]
  have : ranges.mapM (fun d => ((treeParts (Tree.empty "mergeCell".toList
      [("ref".toList, cellRange d.firstRow d.firstCol d.lastRow d.lastCol)])).1.lookup "ref".toList).bind fun ref =>
      (readRange ref).bind fun q => some (⟨q.1.1, q.1.2, q.2.1, q.2.2⟩ : Dims)) = some (ranges.map id) := by
    apply mapM_some_of_forall
    intro d _
    simp [treeParts, List.lookup, C02_range_roundtrip]
  rw [List.map_id] at this
  simp only [Function.comp_def]
  rw [this]
  rfl

/-! ### What goes wrong after an overlap -/

/-- A worksheet with the merged range B2:C3. -/
def mergeDemo : List (MOp Nat) := [.merge ⟨1, 1, 2, 2⟩ "x".toList 7]

/-- C15 is false after a refused call: B2:C3 is accepted and A1:B2 refused; A1:A2, which has no cell in
common with B2:C3, is then not accepted, and the program panics (finding F26). -/
theorem C15_phantom_panic_counterexample :
    ∃ s : MSheet Nat, (MSheet.new {} (fun a _ => a) 0).run
        (mergeDemo ++ [.merge ⟨0, 0, 1, 1⟩ "y".toList 7]) = some s ∧
      s.ranges = [⟨1, 1, 2, 2⟩] ∧ apart ⟨1, 1, 2, 2⟩ ⟨0, 0, 1, 0⟩ ∧ mergeArgsOk ⟨0, 0, 1, 0⟩ "z".toList ∧
      ((MSheet.new {} (fun a _ => a) 0).run (mergeDemo ++ [.merge ⟨0, 0, 1, 1⟩ "y".toList 7] ++
        [.merge ⟨0, 0, 1, 0⟩ "z".toList 7]) : Option (MSheet Nat)).isNone = true := by
  have h : ((MSheet.new {} (fun a _ => a) 0 : MSheet Nat).run
        (mergeDemo ++ [.merge ⟨0, 0, 1, 1⟩ "y".toList 7])).map (·.ranges) = some [⟨1, 1, 2, 2⟩] := by decide +kernel
  obtain ⟨s, h1, h2⟩ := Option.map_eq_some_iff.mp h
  refine ⟨s, h1, h2, ?_, by decide, by decide +kernel⟩
  rintro r c ⟨h1, h2⟩
  simp [covers] at h1 h2
  omega

/-- C10 is false of `merge_range`: a call refused for an overlap has already overwritten the cells of its
range: the text of B2:C3 is lost when A1:B2 is refused (finding F26). -/
theorem C15_refused_overwrites_counterexample :
    (((MSheet.new {} (fun a _ => a) 0 : MSheet Nat).run mergeDemo).bind fun s =>
      (s.sheet.table.get 1).bind fun row => row.get 1) = some (.string "x".toList 1 none) ∧
    (((MSheet.new {} (fun a _ => a) 0 : MSheet Nat).run (mergeDemo ++ [.merge ⟨0, 0, 1, 1⟩ "y".toList 7])).bind
      fun s => (s.sheet.table.get 1).bind fun row => row.get 1) = some (.blank 1) := by
  decide +kernel

/-- Non-trivial case: two apart ranges with a cell write between them are both accepted. -/
example : wantedRanges ([.merge ⟨1, 1, 2, 2⟩ "x".toList 7, .cell (.number 0 0 (.finite "1".toList) none),
      .merge ⟨0, 3, 1, 3⟩ "y".toList 7, .merge ⟨5, 5, 5, 5⟩ "single".toList 7] : List (MOp Nat)) =
    [⟨1, 1, 2, 2⟩, ⟨0, 3, 1, 3⟩] := by decide +kernel

example : ([⟨1, 1, 2, 2⟩, ⟨0, 3, 1, 3⟩] : List Dims).Pairwise apart := by
  simp [apart, covers]; omega

end Verif
