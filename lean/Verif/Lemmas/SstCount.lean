import Verif.Lemmas.SavedAll
import Verif.Lemmas.StreamSaved
import Verif.Spec.Book
/-!
The `count` attribute of the shared string part: every reference to a shared string is counted once.
-/
set_option linter.unusedSectionVars false
set_option linter.unusedSimpArgs false
namespace Verif
open BMap
variable {Fmt : Type} [DecidableEq Fmt]

/-! ### Worksheets with inline strings have no strings to number -/

/-- With inline strings the worksheet has no strings of its own to number. -/
def Nl (s : Sheet Fmt) : Prop := s.cfg.inlineStrings = true → s.hasLocalSst = false

variable {s : Sheet Fmt}

theorem Nl.formatXf (h : Nl s) (f : Fmt) : Nl (s.formatXfIndex f).2 := by
  unfold Sheet.formatXfIndex
  split <;> split <;> exact h

theorem Nl.rowCol (h : Nl s) (r c : Nat) : Nl (s.rowColFormat r c).2 := by
  unfold Sheet.rowColFormat
  repeat (first | exact h | exact h.formatXf _ | split)

theorem Nl.xfFor (h : Nl s) (r c : Nat) (f : Option Fmt) : Nl (s.xfFor r c f).2 := by
  cases f with
  | some f => exact h.formatXf f
  | none => exact h.rowCol r c

theorem Nl.flushRows (l : List Nat) (h : Nl s) : Nl (l.foldl Sheet.flushDataRow s) := by
  induction l generalizing s with
  | nil => exact h
  | cons a l ih => exact ih (s := s.flushDataRow a) h

theorem Nl.insertCell (h : Nl s) (r c : Nat) (cell : Cell) : Nl (s.insertCell r c cell) := by
  unfold Sheet.insertCell
  split
  · split
    · exact h
    · split
      · split
        · exact h
        · exact h.flushRows _
      · exact h
  · exact h

theorem Nl.dims (h : Nl s) (d : Dims) : Nl { s with dims := d } := h

theorem Nl.setSst (h : Nl s) (t : SST) : Nl { s with sst := t } := h

theorem Nl.storeBlank (h : Nl s) (r c : Nat) (f : Fmt) : Nl (s.storeBlank r c f).2 := by
  unfold Sheet.storeBlank
  rcases checkDimensions_cases s r c with e | ⟨d, hd, e⟩
  · rw [e]; exact h
  · rw [e]
    have h1 := (h.dims d).formatXf f
    generalize ({ s with dims := d } : Sheet Fmt) = s1 at h1
    show Nl (Sheet.insertCell (if (s1.formatXfIndex f).1 = 0 then
        (s1.formatXfIndex f).2.rowColFormat r c else ((s1.formatXfIndex f).1, (s1.formatXfIndex f).2)).2
        r c (.blank (if (s1.formatXfIndex f).1 = 0 then
        (s1.formatXfIndex f).2.rowColFormat r c else ((s1.formatXfIndex f).1, (s1.formatXfIndex f).2)).1))
    by_cases hz : (s1.formatXfIndex f).1 = 0
    · simp only [if_pos hz]
      exact (h1.rowCol r c).insertCell r c _
    · simp only [if_neg hz]
      exact h1.insertCell r c _

theorem Nl.storeString (h : Nl s) (r c : Nat) (str : Str) (fo : Option Fmt) : Nl (s.storeString r c str fo).2 := by
  unfold Sheet.storeString
  split
  · cases fo with
    | some f => exact h.storeBlank r c f
    | none => exact h
  · rcases checkDimensions_cases s r c with e | ⟨d, hd, e⟩
    · rw [e]; exact h
    · rw [e]
      have h1 := h.dims d
      generalize ({ s with dims := d } : Sheet Fmt) = s1 at h1
      simp only
      split
      · exact h1
      · have h2 := h1.xfFor r c fo
        split
        · exact h2.insertCell r c _
        · rename_i hinl
          by_cases hgl : (s1.xfFor r c fo).2.cfg.globalSst = true
          · simp only [if_pos hgl]
            exact Nl.insertCell (s := { (s1.xfFor r c fo).2 with sst := _, hasLocalSst := true }) (fun e => absurd e hinl) r c _
          · simp only [if_neg hgl]
            exact Nl.insertCell (s := { (s1.xfFor r c fo).2 with hasLocalSst := true }) (fun e => absurd e hinl) r c _

theorem Nl.storeRich (h : Nl s) (r c : Nat) (str raw : Str) (fo : Option Fmt) : Nl (s.storeRich r c str raw fo).2 := by
  unfold Sheet.storeRich
  split
  · cases fo with
    | some f => exact h.storeBlank r c f
    | none => exact h
  · rcases checkDimensions_cases s r c with e | ⟨d, hd, e⟩
    · rw [e]; exact h
    · rw [e]
      have h1 := h.dims d
      generalize ({ s with dims := d } : Sheet Fmt) = s1 at h1
      simp only
      split
      · exact h1
      · have h2 := h1.xfFor r c fo
        have hflag : ∀ s' : Sheet Fmt, Nl s' → Nl (if s'.cfg.inlineStrings = true then s'
            else { s' with hasLocalSst := true }) := by
          intro s' hs'
          split
          · exact hs'
          · rename_i hinl; exact fun e => absurd e hinl
        by_cases hgl : (s1.xfFor r c fo).2.cfg.globalSst = true
        · simp only [if_pos hgl]
          exact hflag _ ((h2.setSst _).insertCell r c _)
        · simp only [if_neg hgl]
          exact hflag _ (h2.insertCell r c _)

theorem Nl.storeNumber (h : Nl s) (r c : Nat) (n : F64) (fo : Option Fmt) (b : Bool) :
    Nl (s.storeNumberType r c n fo b).2 := by
  unfold Sheet.storeNumberType
  rcases checkDimensions_cases s r c with e | ⟨d, hd, e⟩
  · rw [e]; exact h
  · rw [e]
    have h1 := h.dims d
    generalize ({ s with dims := d } : Sheet Fmt) = s1 at h1
    cases n with
    | nan => exact h1.storeString r c _ fo
    | posInf => exact h1.storeString r c _ fo
    | negInf => exact h1.storeString r c _ fo
    | finite t => exact (h1.xfFor r c fo).insertCell r c _

theorem nl_forEach {α : Type} (l : List α) (f : α → Sheet Fmt → Res Fmt)
    (hf : ∀ a ∈ l, ∀ s, Nl s → Nl (f a s).2) (h : Nl s) : Nl (forEach l f s).2 := by
  induction l generalizing s with
  | nil => exact h
  | cons a l ih =>
    simp only [forEach, Res.andThen]
    have h1 := hf a List.mem_cons_self s h
    split
    · exact h1
    · exact ih (fun b hb => hf b (List.mem_cons_of_mem _ hb)) h1

theorem nl_andThen {r : Res Fmt} {f : Sheet Fmt → Res Fmt} (h : Nl r.2)
    (hf : ∀ s', Nl s' → Nl (f s').2) : Nl (Res.andThen r f).2 := by
  unfold Res.andThen
  split
  · exact h
  · exact hf _ h

theorem Nl.storeArray (h : Nl s) (r1 c1 r2 c2 : Nat) (fa : FormulaArg) (fo : Option Fmt)
    (b : Bool) : Nl (s.storeArrayFormula r1 c1 r2 c2 fa fo b).2 := by
  unfold Sheet.storeArrayFormula
  rcases checkDimensions_cases s r1 c1 with e | ⟨d, hd, e⟩
  · rw [e]; exact h
  · rw [e]
    have h1 := h.dims d
    generalize ({ s with dims := d } : Sheet Fmt) = s1 at h1
    simp only
    rcases checkDimensions_cases s1 r2 c2 with e | ⟨d, hd, e⟩
    · rw [e]; exact h1
    · rw [e]
      have h2 := h1.dims d
      generalize ({ s1 with dims := d } : Sheet Fmt) = s2 at h2
      simp only
      split
      · exact h2
      · have h3 := h2.xfFor r1 c1 fo
        refine nl_andThen (nl_forEach _ _ (fun a _ s hs => hs.storeNumber r1 a _ fo false) (h3.insertCell r1 c1 _)) fun s' h5 => ?_
        have key : ∀ s' : Sheet Fmt, Nl s' → Nl (Res.andThen
              (forEach (List.range' (r1 + 1) (r2 - r1))
                (fun r s => forEach (List.range' c1 (c2 + 1 - c1))
                  (fun c s => s.storeNumberType r c (.finite "0".toList) fo false) s) s')
              fun s => (none, if s.cfg.constMem = true then { s with writingAhead := false } else s)).2 := by
          intro s' hs'
          refine nl_andThen (nl_forEach _ _ (fun a _ s hs => nl_forEach _ _ (fun b _ s hs => hs.storeNumber a b _ fo false) hs) hs')
            fun s6 h6 => ?_
          simp only
          split <;> exact h6
        by_cases hcm : s'.cfg.constMem = true
        · simp only [if_pos hcm]
          exact key _ h5
        · simp only [if_neg hcm]
          exact key _ h5

theorem Nl.insertCellFormat (h : Nl s) (r c xf : Nat) : Nl (s.insertCellFormat r c xf) := by
  unfold Sheet.insertCellFormat
  repeat (first | exact h | split)

theorem nl_foldl {α : Type} (l : List α) (f : Sheet Fmt → α → Sheet Fmt) (hf : ∀ a ∈ l, ∀ s, Nl s → Nl (f s a))
    (h : Nl s) : Nl (l.foldl f s) := by
  induction l generalizing s with
  | nil => exact h
  | cons a l ih => exact ih (fun b hb => hf b (List.mem_cons_of_mem _ hb)) (hf a List.mem_cons_self s h)

/-- Every call keeps it. -/
theorem Nl.exec (h : Nl s) (op : Op Fmt) : Nl (s.exec op).2 := by
  cases op with
  | number r c n f => exact h.storeNumber r c _ f false
  | dateTime r c n f => exact h.storeNumber r c _ f true
  | string r c t f => exact h.storeString r c _ f
  | rich r c t raw f => exact h.storeRich r c _ _ f
  | formula r c fa f =>
    show Nl (s.storeFormula r c fa f).2
    unfold Sheet.storeFormula
    split
    · exact h.storeArray r c r c _ none true
    · rcases checkDimensions_cases s r c with e | ⟨d, hd, e⟩
      · rw [e]; exact h
      · rw [e]; exact ((h.dims d).xfFor r c f).insertCell r c _
  | arrayFormula r1 c1 r2 c2 fa f d => exact h.storeArray r1 c1 r2 c2 _ f d
  | blank r c f => exact h.storeBlank r c f
  | boolean r c b f =>
    show Nl (s.storeBoolean r c b f).2
    unfold Sheet.storeBoolean
    rcases checkDimensions_cases s r c with e | ⟨d, hd, e⟩
    · rw [e]; exact h
    · rw [e]; exact ((h.dims d).xfFor r c f).insertCell r c _
  | cellFormat r c f =>
    show Nl (s.setCellFormat r c f).2
    unfold Sheet.setCellFormat
    rcases checkDimensions_cases s r c with e | ⟨d, hd, e⟩
    · rw [e]; exact h
    · rw [e]; exact ((h.dims d).formatXf f).insertCellFormat r c _
  | rangeFormat r1 c1 r2 c2 f =>
    show Nl (s.setRangeFormat r1 c1 r2 c2 f).2
    unfold Sheet.setRangeFormat
    split
    · exact h
    · split
      · exact h
      · exact nl_foldl _ _ (fun a _ s hs => nl_foldl _ _ (fun b _ s hs => hs.insertCellFormat a b _) hs) (h.formatXf f)
  | clearCell r c =>
    show Nl (s.clearCell r c)
    unfold Sheet.clearCell
    repeat (first | exact h | split)
  | clearFormat r c =>
    show Nl (s.clearCellFormat r c)
    unfold Sheet.clearCellFormat
    repeat (first | exact h | split)
  | rowFormat r f =>
    show Nl (s.setRowFormat r f).2
    unfold Sheet.setRowFormat
    rcases checkDimensions_cases s r s.getMinCol with e | ⟨d, hd, e⟩
    · rw [e]; exact h
    · rw [e]
      have h2 := (h.dims d).formatXf f
      simp only
      split <;> exact h2
  | columnFormat c f =>
    show Nl (s.setColumnFormat c f).2
    unfold Sheet.setColumnFormat
    rcases checkDimensions_cases s s.getMinRow c with e | ⟨d, hd, e⟩
    · rw [e]; exact h
    · rw [e]
      have h2 := (h.dims d).formatXf f
      simp only
      split <;> exact h2
  | rowHeight r ht =>
    show Nl (s.setRowHeight r ht).2
    unfold Sheet.setRowHeight
    rcases checkDimensions_cases s r s.getMinCol with e | ⟨d, hd, e⟩
    · rw [e]; exact h
    · rw [e]
      simp only
      split <;> exact h
  | rowHidden r =>
    show Nl (s.setRowHidden r).2
    unfold Sheet.setRowHidden
    rcases checkDimensions_cases s r s.getMinCol with e | ⟨d, hd, e⟩
    · rw [e]; exact h
    · rw [e]
      simp only
      split <;> exact h
  | note r c t =>
    show Nl (s.insertNote r c t).2
    unfold Sheet.insertNote
    rcases checkDimensions_cases s r c with e | ⟨d, hd, e⟩
    · rw [e]; exact h
    · rw [e]
      simp only
      repeat (first | exact h | split)
/-! ### Counting -/

/-- The shared string a cell refers to. -/
def Cell.stringRef : Cell → Option Nat
  | .string _ _ i => i
  | .rich _ _ _ i => i
  | _ => none

/-- The number of references to shared strings in a row. -/
def refsOf (m : BMap Cell) : Nat := m.countP fun p => p.2.stringRef.isSome

/-- The number of references in a table. -/
def tableRefs (m : BMap (BMap Cell)) : Nat := (m.map fun q => refsOf q.2).sum

/-- No cell has a string number yet. -/
def NoRefs (m : BMap (BMap Cell)) : Prop := ∀ q ∈ m, ∀ p ∈ q.2, p.2.stringRef = none

theorem index_count (t : SST) (k : Str) : (t.index k).2.count = t.count + 1 := by
  unfold SST.index; split <;> rfl

theorem assignId_count (c : Cell) (t : SST) (h : c.stringRef = none) :
    (c.assignId t).2.count = t.count + if (c.assignId t).1.stringRef.isSome then 1 else 0 := by
  cases c with
  | string s x i =>
    cases i with
    | none => simp only [Cell.assignId, Cell.stringRef, Option.isSome_some, if_true, index_count]
    | some i => cases h
  | rich s r x i =>
    cases i with
    | none => simp only [Cell.assignId, Cell.stringRef, Option.isSome_some, if_true, index_count]
    | some i => cases h
  | _ => simp [Cell.assignId, Cell.stringRef]

theorem assignIdsRow_count (m : BMap Cell) (t : SST) (h : ∀ p ∈ m, p.2.stringRef = none) :
    (assignIdsRow m t).2.count = t.count + refsOf (assignIdsRow m t).1 := by
  induction m generalizing t with
  | nil => rfl
  | cons p m ih =>
    obtain ⟨k, c⟩ := p
    have h1 := assignId_count c t (h _ List.mem_cons_self)
    have h2 := ih (c.assignId t).2 fun p hp => h p (List.mem_cons_of_mem _ hp)
    unfold refsOf at h2 ⊢
    simp only [assignIdsRow, List.countP_cons]
    rw [h2, h1]
    omega

theorem assignIdsTable_count (m : BMap (BMap Cell)) (t : SST) (h : NoRefs m) :
    (assignIdsTable m t).2.count = t.count + tableRefs (assignIdsTable m t).1 := by
  induction m generalizing t with
  | nil => rfl
  | cons p m ih =>
    obtain ⟨k, c⟩ := p
    have h1 := assignIdsRow_count c t (h _ List.mem_cons_self)
    have h2 := ih (assignIdsRow c t).2 fun p hp => h p (List.mem_cons_of_mem _ hp)
    unfold tableRefs at h2 ⊢
    simp only [assignIdsTable, List.map_cons, List.sum_cons]
    rw [h2, h1]
    omega

theorem sum_zero {l : List Nat} (h : ∀ n ∈ l, n = 0) : l.sum = 0 := by
  induction l with
  | nil => rfl
  | cons a l ih =>
    rw [List.sum_cons, h a List.mem_cons_self, ih fun n hn => h n (List.mem_cons_of_mem _ hn)]

theorem tableRefs_none {m : BMap (BMap Cell)} (h : NoRefs m) : tableRefs m = 0 := by
  unfold tableRefs
  refine sum_zero fun n hn => ?_
  obtain ⟨q, hq, rfl⟩ := List.mem_map.mp hn
  unfold refsOf
  rw [List.countP_eq_zero]
  intro p hp
  rw [h q hq p hp]; simp

theorem update_count (s : Sheet Fmt) (t : SST) (h : NoRefs s.table) :
    (s.updateStringTableIds t).2.count = t.count + tableRefs (s.updateStringTableIds t).1.table := by
  unfold Sheet.updateStringTableIds
  split
  · rw [tableRefs_none h]; rfl
  · exact assignIdsTable_count _ _ h

theorem idSheets_count (ss : List (Sheet Fmt)) (t : SST)
    (h : ∀ s ∈ ss, s.cfg.globalSst = false ∧ NoRefs s.table) :
    (idSheets ss t).2.count = t.count + ((idSheets ss t).1.map fun s => tableRefs s.table).sum := by
  induction ss generalizing t with
  | nil => rfl
  | cons s ss ih =>
    obtain ⟨h0, h1⟩ := h s List.mem_cons_self
    have h2 := update_count s t h1
    simp only [idSheets, h0, Bool.false_eq_true, if_false, List.map_cons, List.sum_cons]
    rw [ih _ fun s hs => h s (List.mem_cons_of_mem _ hs), h2]
    omega

/-! ### The written rows -/

theorem sum_if {l : List Nat} (hn : l.Nodup) (k x : Nat) (f : Nat → Nat) (hf : f k = 0) :
    (l.map fun r => if r = k then x else f r).sum = (if k ∈ l then x else 0) + (l.map f).sum := by
  induction l with
  | nil => simp
  | cons a l ih =>
    have hn' := List.nodup_cons.mp hn
    simp only [List.map_cons, List.sum_cons, ih hn'.2, List.mem_cons]
    by_cases e : a = k
    · subst e
      simp [hn'.1, hf]
    · have : ¬ k = a := fun h => e h.symm
      simp only [if_neg e, this, false_or]
      omega

theorem sum_get {β : Type} (m : BMap β) (hs : Sorted m) (g : β → Nat) {l : List Nat} (hn : l.Nodup)
    (hin : ∀ q ∈ m, g q.2 ≠ 0 → q.1 ∈ l) :
    (l.map fun r => match m.get r with | some v => g v | none => 0).sum = (m.map fun q => g q.2).sum := by
  induction m with
  | nil =>
    simp only [BMap.get, List.map_nil, List.sum_nil]
    exact sum_zero fun n hn => by obtain ⟨_, _, rfl⟩ := List.mem_map.mp hn; rfl
  | cons p m ih =>
    obtain ⟨k, v⟩ := p
    have hs' := List.pairwise_cons.mp hs
    have hk : BMap.get k m = none := get_none_of_not_mem fun w hw => Nat.lt_irrefl k (hs'.1 (k, w) hw)
    have h1 := ih hs'.2 fun q hq => hin q (List.mem_cons_of_mem _ hq)
    rw [List.map_cons, List.sum_cons, ← h1]
    rw [← show (if k ∈ l then g v else 0) = g v from ?_]
    · rw [← sum_if hn k (g v) _ (by rw [hk])]
      congr 1
      refine List.map_congr_left fun r _ => ?_
      simp only [BMap.get]
      by_cases e : r = k
      · rw [if_pos e, if_pos e]
      · rw [if_neg e, if_neg e]
    · split
      · rfl
      · rename_i h
        by_cases e : g v = 0
        · exact e.symm
        · exact absurd (hin (k, v) List.mem_cons_self e) h

/-- The references in the cells of a row element. -/
theorem writeCells_refs (s : Sheet Fmt) (ro : Option (RowOpt Fmt)) (m : BMap Cell) :
    (s.writeCells ro m).countP (fun p => p.2.1.stringRef.isSome) = refsOf m := by
  unfold Sheet.writeCells refsOf
  rw [List.countP_map, List.countP_filter]
  refine List.countP_congr fun p _ => ?_
  obtain ⟨k, c⟩ := p
  cases c with
  | string s x i => cases i <;> simp [Cell.isWritten, Cell.stringRef]
  | rich s r x i => cases i <;> simp [Cell.isWritten, Cell.stringRef]
  | _ => simp [Cell.stringRef]

end Verif
