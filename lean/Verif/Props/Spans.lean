import Verif.Props.Dims
/-!
C12: the `spans` attribute of each row.
-/
set_option linter.unusedSectionVars false
set_option linter.unusedSimpArgs false
namespace Verif
open BMap
variable {Fmt : Type} [DecidableEq Fmt]

/-! ### Notes are only changed by `insert_note` -/

/-- Same configuration and notes. -/
def SameN (s s' : Sheet Fmt) : Prop := s'.cfg = s.cfg ∧ s'.notes = s.notes

private theorem SameN.refl (s : Sheet Fmt) : SameN s s := ⟨rfl, rfl⟩
private theorem SameN.trans {a b c : Sheet Fmt} (h : SameN a b) (h' : SameN b c) : SameN a c :=
  ⟨h'.1.trans h.1, h'.2.trans h.2⟩

private theorem formatXf_n (s : Sheet Fmt) (f : Fmt) : SameN s (s.formatXfIndex f).2 := by
  unfold Sheet.formatXfIndex
  split
  · split <;> exact ⟨rfl, rfl⟩
  · split <;> exact ⟨rfl, rfl⟩

private theorem rowCol_n (s : Sheet Fmt) (r c : Nat) : SameN s (s.rowColFormat r c).2 := by
  unfold Sheet.rowColFormat
  split
  · exact ⟨rfl, rfl⟩
  · split
    · exact ⟨rfl, rfl⟩
    · split
      · exact ⟨rfl, rfl⟩
      · split
        · exact ⟨rfl, rfl⟩
        · exact formatXf_n _ _

private theorem xfFor_n (s : Sheet Fmt) (r c : Nat) (f : Option Fmt) : SameN s (s.xfFor r c f).2 := by
  unfold Sheet.xfFor
  split
  · exact formatXf_n _ _
  · exact rowCol_n _ _ _

private theorem flushDataRow_n (s : Sheet Fmt) (n : Nat) : SameN s (s.flushDataRow n) := ⟨rfl, rfl⟩

private theorem flushRows_n (l : List Nat) (s : Sheet Fmt) : SameN s (l.foldl Sheet.flushDataRow s) := by
  induction l generalizing s with
  | nil => exact .refl s
  | cons a l ih => exact (flushDataRow_n s a).trans (ih _)

private theorem insertCell_n (s : Sheet Fmt) (r c : Nat) (cell : Cell) : SameN s (s.insertCell r c cell) := by
  unfold Sheet.insertCell
  split
  · split
    · exact .refl s
    · split
      · split
        · exact ⟨rfl, rfl⟩
        · exact ((flushRows_n _ s).trans (flushDataRow_n _ r)).trans ⟨rfl, rfl⟩
      · exact ⟨rfl, rfl⟩
  · exact ⟨rfl, rfl⟩

private theorem cd_n (s : Sheet Fmt) (r c : Nat) : SameN s (s.checkDimensions r c).2 := by
  obtain ⟨d, _, e⟩ := checkDimensions_shape s r c
  rw [e]; exact ⟨rfl, rfl⟩

private theorem guard_n (s : Sheet Fmt) (r c : Nat) (k : Sheet Fmt → Res Fmt) (hk : ∀ s, SameN s (k s).2) :
    SameN s (match s.checkDimensions r c with
      | (false, s) => ((some .rowColumnLimit, s) : Res Fmt)
      | (true, s) => k s).2 := by
  have h := cd_n s r c
  cases hc : s.checkDimensions r c with
  | mk b s1 =>
    rw [hc] at h
    cases b
    · exact h
    · exact h.trans (hk _)

private theorem blank_n (s : Sheet Fmt) (r c : Nat) (f : Fmt) : SameN s (s.storeBlank r c f).2 := by
  refine guard_n s r c _ ?_
  intro s
  have hf := formatXf_n s f
  dsimp only
  split
  · exact hf.trans ((rowCol_n _ r c).trans (insertCell_n _ r c _))
  · exact hf.trans (insertCell_n _ r c _)

private theorem string_n (s : Sheet Fmt) (r c : Nat) (t : Str) (f : Option Fmt) : SameN s (s.storeString r c t f).2 := by
  unfold Sheet.storeString
  split
  · split
    · exact blank_n s r c _
    · exact .refl s
  · refine guard_n s r c _ ?_
    intro s
    dsimp only
    split
    · exact .refl s
    · have hx := xfFor_n s r c f
      split
      · exact hx.trans (insertCell_n _ r c _)
      · exact hx.trans (SameN.trans (b := { (s.xfFor r c f).2 with
            sst := (if (s.xfFor r c f).2.cfg.globalSst then
              (some ((s.xfFor r c f).2.sst.index t).1, ((s.xfFor r c f).2.sst.index t).2)
              else ((none : Option Nat), (s.xfFor r c f).2.sst)).2, hasLocalSst := true })
            ⟨rfl, rfl⟩ (insertCell_n _ r c _))

private theorem rich_n (s : Sheet Fmt) (r c : Nat) (t raw : Str) (f : Option Fmt) : SameN s (s.storeRich r c t raw f).2 := by
  unfold Sheet.storeRich
  split
  · split
    · exact blank_n s r c _
    · exact .refl s
  · refine guard_n s r c _ ?_
    intro s
    dsimp only
    split
    · exact .refl s
    · have hx := xfFor_n s r c f
      have e2 : ∀ q : Sheet Fmt, SameN q (if q.cfg.inlineStrings = true then q else { q with hasLocalSst := true }) := by
        intro q; split <;> exact ⟨rfl, rfl⟩
      exact (hx.trans (SameN.trans (b := { (s.xfFor r c f).2 with
            sst := (if (s.xfFor r c f).2.cfg.globalSst then
              (some ((s.xfFor r c f).2.sst.index t).1, ((s.xfFor r c f).2.sst.index t).2)
              else ((none : Option Nat), (s.xfFor r c f).2.sst)).2 })
            ⟨rfl, rfl⟩ (insertCell_n _ r c _))).trans (e2 _)

private theorem number_n (s : Sheet Fmt) (r c : Nat) (n : F64) (f : Option Fmt) (b : Bool) :
    SameN s (s.storeNumberType r c n f b).2 := by
  refine guard_n s r c _ ?_
  intro s
  cases n with
  | finite t => exact (xfFor_n s r c f).trans (insertCell_n _ r c _)
  | nan => exact string_n s r c _ f
  | posInf => exact string_n s r c _ f
  | negInf => exact string_n s r c _ f

private theorem forEach_n {α : Type} (l : List α) (f : α → Sheet Fmt → Res Fmt)
    (h : ∀ a s, SameN s (f a s).2) (s : Sheet Fmt) : SameN s (forEach l f s).2 := by
  induction l generalizing s with
  | nil => exact .refl s
  | cons a l ih =>
    simp only [forEach, Res.andThen]
    split
    · exact h a s
    · exact (h a s).trans (ih _)

private theorem andThen_n {s : Sheet Fmt} {r : Res Fmt} {f : Sheet Fmt → Res Fmt} (h : SameN s r.2)
    (hf : ∀ s, SameN s (f s).2) : SameN s (Res.andThen r f).2 := by
  unfold Res.andThen; split
  · exact h
  · exact h.trans (hf _)

private theorem array_n (s : Sheet Fmt) (r1 c1 r2 c2 : Nat) (fa : FormulaArg) (f : Option Fmt) (b : Bool) :
    SameN s (s.storeArrayFormula r1 c1 r2 c2 fa f b).2 := by
  refine guard_n s r1 c1 _ ?_
  intro s
  refine guard_n s r2 c2 _ ?_
  intro s
  dsimp only
  split
  · exact .refl s
  · refine andThen_n ?_ ?_
    · exact ((xfFor_n s r1 c1 f).trans (insertCell_n _ r1 c1 _)).trans
        (forEach_n _ _ (fun c s => number_n s r1 c _ f false) _)
    · intro q
      have hq : ∀ b, SameN q (if q.cfg.constMem = true then { q with writingAhead := b } else q) := by
        intro b; split <;> exact ⟨rfl, rfl⟩
      refine andThen_n ((hq true).trans (forEach_n _ _ (fun r s => forEach_n _ _
        (fun c s => number_n s r c _ f false) s) _)) ?_
      intro q
      show SameN q (if q.cfg.constMem = true then { q with writingAhead := false } else q)
      split <;> exact ⟨rfl, rfl⟩

private theorem insertCellFormat_n (s : Sheet Fmt) (r c xf : Nat) : SameN s (s.insertCellFormat r c xf) := by
  unfold Sheet.insertCellFormat
  split
  · split <;> exact ⟨rfl, rfl⟩
  · split <;> exact ⟨rfl, rfl⟩

private theorem foldl_n {α : Type} (l : List α) (f : Sheet Fmt → α → Sheet Fmt)
    (h : ∀ s a, SameN s (f s a)) (s : Sheet Fmt) : SameN s (l.foldl f s) := by
  induction l generalizing s with
  | nil => exact .refl s
  | cons a l ih => exact (h s a).trans (ih _)

theorem exec_n (s : Sheet Fmt) (op : Op Fmt) (h : ∀ r c t, op ≠ .note r c t) : SameN s (s.exec op).2 := by
  cases op with
  | number r c n f => exact number_n s r c n f false
  | dateTime r c n f => exact number_n s r c n f true
  | string r c t f => exact string_n s r c t f
  | rich r c t raw f => exact rich_n s r c t raw f
  | formula r c fa f =>
    show SameN s (s.storeFormula r c fa f).2
    unfold Sheet.storeFormula
    split
    · exact array_n s r c r c fa none true
    · exact guard_n s r c _ (fun s => (xfFor_n s r c f).trans (insertCell_n _ r c _))
  | arrayFormula r1 c1 r2 c2 fa f d => exact array_n s r1 c1 r2 c2 fa f d
  | blank r c f => exact blank_n s r c f
  | boolean r c b f => exact guard_n s r c _ (fun s => (xfFor_n s r c f).trans (insertCell_n _ r c _))
  | cellFormat r c f => exact guard_n s r c _ (fun s => (formatXf_n s f).trans (insertCellFormat_n _ r c _))
  | rangeFormat r1 c1 r2 c2 f =>
    show SameN s (s.setRangeFormat r1 c1 r2 c2 f).2
    unfold Sheet.setRangeFormat
    split
    · exact .refl s
    · split
      · exact .refl s
      · exact (formatXf_n s f).trans (foldl_n _ _ (fun s r => foldl_n _ _ (fun s c => insertCellFormat_n s r c _) s) _)
  | clearCell r c =>
    show SameN s (s.clearCell r c)
    unfold Sheet.clearCell
    split
    · exact .refl s
    · split
      · exact .refl s
      · exact ⟨rfl, rfl⟩
  | clearFormat r c =>
    show SameN s (s.clearCellFormat r c)
    unfold Sheet.clearCellFormat
    split
    · exact .refl s
    · split
      · exact .refl s
      · split
        · exact .refl s
        · exact ⟨rfl, rfl⟩
  | rowFormat r f =>
    refine guard_n s r s.getMinCol _ (fun s => ?_)
    have := formatXf_n s f
    dsimp only
    split <;> exact this.trans ⟨rfl, rfl⟩
  | columnFormat c f =>
    refine guard_n s s.getMinRow c _ (fun s => ?_)
    have := formatXf_n s f
    dsimp only
    split <;> exact this.trans ⟨rfl, rfl⟩
  | rowHeight r h => exact guard_n s r s.getMinCol _ (fun s => by split <;> exact ⟨rfl, rfl⟩)
  | rowHidden r => exact guard_n s r s.getMinCol _ (fun s => by split <;> exact ⟨rfl, rfl⟩)
  | note r c t => exact absurd rfl (h r c t)

/-- There is a note on `(r, c)`. -/
def noteAt (n : BMap (BMap Unit)) (r c : Nat) : Prop := ∃ cs, n.get r = some cs ∧ ∃ u, (c, u) ∈ cs

/-- Notes are inside the grid. -/
def NotesR (s : Sheet Fmt) (_ : List (Op Fmt)) : Prop :=
  Sorted s.notes ∧ ∀ r c, noteAt s.notes r c → c < COL_MAX

theorem NotesR.book (cfgs : List Cfg) (merge : Fmt → Fmt → Fmt) (dflt : Fmt) (ops : List (Nat × Op Fmt)) :
    BookInv cfgs dflt NotesR ((Book.new cfgs merge dflt).run ops) ops := by
  apply book_lift
  · intro cfg
    refine ⟨by simp [Sheet.new, Sorted], ?_⟩
    rintro r c ⟨cs, h, _⟩
    simp [Sheet.new, BMap.get] at h
  · intro s l op hG h
    by_cases hn : ∀ r c t, op ≠ .note r c t
    · have e := (exec_n s op hn).2
      unfold NotesR
      rw [e]; exact h
    · simp only [ne_eq, Classical.not_forall, Classical.not_not] at hn
      obtain ⟨r, c, t, rfl⟩ := hn
      show NotesR (s.insertNote r c t).2 _
      unfold Sheet.insertNote
      have hfst := checkDimensions_fst s r c
      rcases checkDimensions_cases s r c with e | ⟨d, hd, e⟩
      · rw [e]; exact h
      · rw [e] at hfst ⊢
        have hg := ((inGrid_iff r c).mp hfst.symm).2
        simp only
        split
        · exact h
        · split
          · rename_i cs hcs
            refine ⟨sorted_insert _ _ _ h.1, ?_⟩
            rintro r' c' ⟨cs', h1, u, h2⟩
            simp only [get_insert _ _ _ h.1] at h1
            split at h1
            · cases h1
              rcases mem_insert h2 with h3 | h3
              · cases h3; exact hg
              · exact h.2 r c' ⟨cs, hcs, u, h3⟩
            · exact h.2 r' c' ⟨cs', h1, u, h2⟩
          · refine ⟨sorted_insert _ _ _ h.1, ?_⟩
            rintro r' c' ⟨cs', h1, u, h2⟩
            simp only [get_insert _ _ _ h.1] at h1
            split at h1
            · cases h1
              simp only [List.mem_singleton, Prod.mk.injEq] at h2
              rw [h2.1]; exact hg
            · exact h.2 r' c' ⟨cs', h1, u, h2⟩
  · intro s l t g _ _ h
    exact h

/-! ### The spans loop -/

/-- `(m, M)` are the least and greatest columns of `P`, or `m` is the sentinel and `P` is
empty. -/
def MM (P : Nat → Prop) (m : Nat × Nat) : Prop :=
  (m.1 = COL_MAX ∧ ∀ c, ¬ P c) ∨ (m.1 ≠ COL_MAX ∧ P m.1 ∧ P m.2 ∧ ∀ c, P c → m.1 ≤ c ∧ c ≤ m.2)

private theorem MM.congr {P Q : Nat → Prop} {m : Nat × Nat} (h : MM P m) (e : ∀ c, Q c ↔ P c) : MM Q m := by
  have : Q = P := by funext c; exact propext (e c)
  rw [this]; exact h

private theorem MM.col {P : Nat → Prop} {m : Nat × Nat} (h : MM P m) {c : Nat} (hc : c < COL_MAX) :
    MM (fun x => P x ∨ x = c) (spanCol m c) := by
  unfold spanCol
  rcases h with ⟨h1, h2⟩ | ⟨h1, h2, h3, h4⟩
  · rw [if_pos h1]
    right
    refine ⟨by dsimp only; omega, Or.inr rfl, Or.inr rfl, ?_⟩
    rintro x (h | rfl)
    · exact absurd h (h2 x)
    · exact ⟨Nat.le_refl _, Nat.le_refl _⟩
  · rw [if_neg h1]
    right
    refine ⟨by dsimp only; have := (h4 _ h2); omega, ?_, ?_, ?_⟩
    · dsimp only
      by_cases h : m.1 ≤ c
      · rw [Nat.min_eq_left h]; exact Or.inl h2
      · rw [Nat.min_eq_right (by omega)]; exact Or.inr rfl
    · dsimp only
      by_cases h : m.2 ≤ c
      · rw [Nat.max_eq_right h]; exact Or.inr rfl
      · rw [Nat.max_eq_left (by omega)]; exact Or.inl h3
    · rintro x (h | rfl)
      · have := h4 x h; dsimp only; omega
      · dsimp only; omega

private theorem MM.cols {P : Nat → Prop} {m : Nat × Nat} (h : MM P m) (l : List Nat) (hl : ∀ c ∈ l, c < COL_MAX) :
    MM (fun x => P x ∨ x ∈ l) (l.foldl spanCol m) := by
  induction l generalizing P m with
  | nil => exact h.congr (fun c => by simp)
  | cons a l ih =>
    simp only [List.foldl_cons]
    refine (ih (h.col (hl a List.mem_cons_self)) (fun c hc => hl c (List.mem_cons_of_mem _ hc))).congr ?_
    intro c; simp only [List.mem_cons]; rw [or_assoc]

/-- Column `c` of row `r` holds a cell or a note. -/
def usedAt (s : Sheet Fmt) (r c : Nat) : Prop :=
  (∃ cell, cellAt s.table r c = some cell) ∨ noteAt s.notes r c

private theorem MM.row {P : Nat → Prop} {m : Nat × Nat} (h : MM P m) (s : Sheet Fmt) (ht : TableOk s.table) (r : Nat)
    (hg : ∀ c, usedAt s r c → c < COL_MAX) : MM (fun c => P c ∨ usedAt s r c) (s.spanRow m r) := by
  unfold Sheet.spanRow
  have h1 : MM (fun c => P c ∨ ∃ cell, cellAt s.table r c = some cell)
      (match s.table.get r with
        | some columns => (columns.map Prod.fst).foldl spanCol m
        | none => m) := by
    cases hc : s.table.get r with
    | none =>
      refine h.congr ?_
      intro c; simp [cellAt, hc]
    | some cols =>
      have key : ∀ c, c ∈ cols.map Prod.fst ↔ ∃ cell, cellAt s.table r c = some cell := by
        intro c
        simp only [List.mem_map, Prod.exists, exists_and_right, exists_eq_right, cellAt, hc, Option.bind_some]
        constructor
        · rintro ⟨v, hv⟩; exact ⟨v, (mem_iff_get (ht.cols r cols hc) c v).mp hv⟩
        · rintro ⟨v, hv⟩; exact ⟨v, (mem_iff_get (ht.cols r cols hc) c v).mpr hv⟩
      refine (h.cols (cols.map Prod.fst) ?_).congr ?_
      · intro c hcm; exact hg c (Or.inl ((key c).mp hcm))
      · intro c; rw [key]
  cases hn : s.notes.get r with
  | none =>
    refine h1.congr ?_
    intro c
    have : ¬ noteAt s.notes r c := by rintro ⟨cs, h, _⟩; rw [hn] at h; cases h
    simp [usedAt, this]
  | some cs =>
    have key : ∀ c, c ∈ cs.map Prod.fst ↔ noteAt s.notes r c := by
      intro c
      simp only [List.mem_map, Prod.exists, exists_and_right, exists_eq_right, noteAt, hn, Option.some.injEq,
        exists_eq_left']
    refine (h1.cols (cs.map Prod.fst) ?_).congr ?_
    · intro c hcm; exact hg c (Or.inr ((key c).mp hcm))
    · intro c; rw [key]; simp only [usedAt, or_assoc]

/-- Columns used in rows `lo ≤ r < hi`. -/
def usedIn (s : Sheet Fmt) (lo hi c : Nat) : Prop := ∃ r, lo ≤ r ∧ r < hi ∧ usedAt s r c

/-- A (one-based) span is the range of the columns in `P`; no span means no columns. -/
def IsSpan (P : Nat → Prop) : Option (Nat × Nat) → Prop
  | none => ∀ c, ¬ P c
  | some (a, b) => 1 ≤ a ∧ P (a - 1) ∧ P (b - 1) ∧ ∀ c, P c → a ≤ c + 1 ∧ c + 1 ≤ b

private structure SInv (s : Sheet Fmt) (f p : Nat) (st : SpanState) : Prop where
  srt : Sorted st.spans
  cur : p ≤ s.dims.lastRow → MM (usedIn s (max f (16 * (p / 16))) p) st.minMax
  done : ∀ b, (16 * (b + 1) ≤ p ∨ (p = s.dims.lastRow + 1 ∧ 16 * b < p)) →
    IsSpan (usedIn s (max f (16 * b)) (min p (16 * (b + 1)))) (st.spans.get b)
  todo : ∀ b, p ≤ 16 * b ∨ (p ≤ s.dims.lastRow ∧ p < 16 * (b + 1)) → st.spans.get b = none

private theorem sinv_step {s : Sheet Fmt} (ht : TableOk s.table) (hg : ∀ r c, usedAt s r c → c < COL_MAX)
    {f p : Nat} {st : SpanState} (hfp : f ≤ p) (hp : p ≤ s.dims.lastRow) (h : SInv s f p st) :
    SInv s f (p + 1) (s.spanStep st p) := by
  have hm : MM (usedIn s (max f (16 * (p / 16))) (p + 1)) (s.spanRow st.minMax p) := by
    refine ((h.cur hp).row s ht p (hg p)).congr ?_
    intro c
    constructor
    · rintro ⟨r, h1, h2, h3⟩
      by_cases e : r = p
      · subst e; exact Or.inr h3
      · exact Or.inl ⟨r, h1, by omega, h3⟩
    · rintro (⟨r, h1, h2, h3⟩ | h3)
      · exact ⟨r, h1, by omega, h3⟩
      · exact ⟨p, by omega, by omega, h3⟩
  generalize hmm : s.spanRow st.minMax p = m at hm
  have e : s.spanStep st p = (if (p + 1) % 16 = 0 ∨ p = s.dims.lastRow then
      if m.1 ≠ COL_MAX then ⟨(COL_MAX, m.2 + 1), st.spans.insert (p / 16) (m.1 + 1, m.2 + 1)⟩
      else ⟨m, st.spans⟩ else ⟨m, st.spans⟩) := by
    unfold Sheet.spanStep; rw [hmm]
  · rw [e]
    by_cases hb : (p + 1) % 16 = 0 ∨ p = s.dims.lastRow
    · rw [if_pos hb]
      have hmin : min (p + 1) (16 * (p / 16 + 1)) = p + 1 := by omega
      -- the block that ends here
      have hblock : ∀ b, ¬ 16 * (b + 1) ≤ p → (16 * (b + 1) ≤ p + 1 ∨ (p + 1 = s.dims.lastRow + 1 ∧ 16 * b < p + 1)) →
          b = p / 16 := by intro b; omega
      have hold : ∀ b, 16 * (b + 1) ≤ p → usedIn s (max f (16 * b)) (min (p + 1) (16 * (b + 1))) =
          usedIn s (max f (16 * b)) (min p (16 * (b + 1))) := by
        intro b hb'
        rw [Nat.min_eq_right (by omega), Nat.min_eq_right (by omega)]
      have hcurE : ∀ m' : Nat × Nat, (m'.1 = COL_MAX) → p + 1 ≤ s.dims.lastRow →
          MM (usedIn s (max f (16 * ((p + 1) / 16))) (p + 1)) m' := by
        intro m' hm' hle
        left
        refine ⟨hm', ?_⟩
        rintro c ⟨r, h1, h2, _⟩
        omega
      rcases hm with ⟨hm1, hm2⟩ | ⟨hm1, hm2, hm3, hm4⟩
      · rw [if_neg (by simp [hm1])]
        refine ⟨h.srt, hcurE m hm1, ?_, ?_⟩
        · intro b hbb
          by_cases hd : 16 * (b + 1) ≤ p
          · rw [hold b hd]; exact h.done b (Or.inl hd)
          · have := hblock b hd hbb
            subst this
            rw [hmin]
            have hz := h.todo (p / 16) (Or.inr ⟨hp, by omega⟩)
            simp only at hz ⊢
            rw [hz]
            exact hm2
        · intro b hbb
          exact h.todo b (by omega)
      · rw [if_pos hm1]
        refine ⟨sorted_insert _ _ _ h.srt, hcurE _ rfl, ?_, ?_⟩
        · intro b hbb
          simp only [get_insert _ _ _ h.srt]
          by_cases hd : 16 * (b + 1) ≤ p
          · rw [hold b hd, if_neg (by omega)]; exact h.done b (Or.inl hd)
          · have := hblock b hd hbb
            subst this
            rw [hmin, if_pos rfl]
            refine ⟨by omega, ?_, ?_, ?_⟩
            · simpa using hm2
            · simpa using hm3
            · intro c hc; have := hm4 c hc; omega
        · intro b hbb
          simp only [get_insert _ _ _ h.srt]
          rw [if_neg (by omega)]
          exact h.todo b (by omega)
    · rw [if_neg hb]
      refine ⟨h.srt, ?_, ?_, ?_⟩
      · intro _
        have : (p + 1) / 16 = p / 16 := by omega
        rw [this]; exact hm
      · intro b hbb
        have : 16 * (b + 1) ≤ p := by omega
        rw [Nat.min_eq_right (by omega)]
        have := h.done b (Or.inl this)
        rw [Nat.min_eq_right (by omega)] at this
        exact this
      · intro b hbb
        exact h.todo b (by omega)

private theorem sinv_all {s : Sheet Fmt} (ht : TableOk s.table) (hg : ∀ r c, usedAt s r c → c < COL_MAX)
    (n f p : Nat) (st : SpanState) (hfp : f ≤ p) (hp : p + n ≤ s.dims.lastRow + 1) (h : SInv s f p st) :
    SInv s f (p + n) ((List.range' p n).foldl s.spanStep st) := by
  induction n generalizing p st with
  | zero => exact h
  | succ n ih =>
    rw [List.range'_succ, List.foldl_cons]
    have := ih (p + 1) (s.spanStep st p) (by omega) (by omega) (sinv_step ht hg hfp (by omega) h)
    rw [show p + (n + 1) = p + 1 + n by omega]
    exact this

/-- The spans computed for a sheet: block `b` gets the range of the columns used in rows
`16 b .. 16 b + 15` of the sheet's dimensions. -/
theorem calculateSpans_spec {s : Sheet Fmt} (ht : TableOk s.table) (hg : ∀ r c, usedAt s r c → c < COL_MAX)
    (r : Nat) :
    IsSpan (fun c => ∃ r', r' / 16 = r / 16 ∧ s.dims.firstRow ≤ r' ∧ r' ≤ s.dims.lastRow ∧ usedAt s r' c)
      (s.rowSpan r) := by
  unfold Sheet.rowSpan Sheet.calculateSpans
  by_cases hle : s.dims.firstRow ≤ s.dims.lastRow + 1
  · have h0 : SInv s s.dims.firstRow s.dims.firstRow ⟨(COL_MAX, 0), []⟩ := by
      refine ⟨by simp [Sorted], ?_, ?_, fun _ _ => rfl⟩
      · intro _; left
        refine ⟨rfl, ?_⟩
        rintro c ⟨r, h1, h2, _⟩; omega
      · rintro b _ c ⟨r, h1, h2, _⟩; omega
    have h := sinv_all ht hg (s.dims.lastRow + 1 - s.dims.firstRow) s.dims.firstRow s.dims.firstRow _
      (Nat.le_refl _) (by omega) h0
    rw [show s.dims.firstRow + (s.dims.lastRow + 1 - s.dims.firstRow) = s.dims.lastRow + 1 by omega] at h
    by_cases hb : 16 * (r / 16) < s.dims.lastRow + 1
    · have := h.done (r / 16) (Or.inr ⟨rfl, hb⟩)
      have e : usedIn s (max s.dims.firstRow (16 * (r / 16))) (min (s.dims.lastRow + 1) (16 * (r / 16 + 1))) =
          fun c => ∃ r', r' / 16 = r / 16 ∧ s.dims.firstRow ≤ r' ∧ r' ≤ s.dims.lastRow ∧ usedAt s r' c := by
        funext c
        refine propext ⟨?_, ?_⟩
        · rintro ⟨r', h1, h2, h3⟩
          exact ⟨r', by omega, by omega, by omega, h3⟩
        · rintro ⟨r', h1, h2, h3, h4⟩
          exact ⟨r', by omega, by omega, h4⟩
      rw [e] at this
      exact this
    · rw [h.todo (r / 16) (Or.inl (by omega))]
      rintro c ⟨r', h1, h2, h3, _⟩
      omega
  · rw [show s.dims.lastRow + 1 - s.dims.firstRow = 0 by omega]
    rintro c ⟨r', h1, h2, h3, _⟩
    omega

section
variable (cfgs : List Cfg) (merge : Fmt → Fmt → Fmt) (dflt : Fmt) (ops : List (Nat × Op Fmt)) (extra : List Fmt)

/-- C12: for every history, the `spans` attribute of a row of a standard worksheet is the
one-based range from the least to the greatest column that holds a written cell, or a note, in
the block of 16 rows containing the row; the attribute is left out only if there are none. -/
theorem C12_spans_exact (i : Nat) (cfg : Cfg) (hc : cfgs[i]? = some cfg) (hstd : cfg.isStandard) :
    ∃ s, (savedBook cfgs merge dflt ops extra).sheets[i]? = some s ∧
      ∀ r, IsSpan (fun c => (∃ e ∈ cellsOf s.rows, e.1 / 16 = r / 16 ∧ e.2.1 = c) ∨
        (∃ r', r' / 16 = r / 16 ∧ s.dims.firstRow ≤ r' ∧ r' ≤ s.dims.lastRow ∧ noteAt s.notes r' c)) (s.rowSpan r) := by
  have hb := StdR.book cfgs merge dflt ops
  obtain ⟨s, hs, hS⟩ := saved_std hb extra hc hstd
  refine ⟨s, hs, ?_⟩
  intro r
  have hrel := hS.rel false .any (by simp) (fun op _ => by cases op <;> rfl)
  have hn := NotesR.book cfgs merge dflt ops
  obtain ⟨s0, hs0, _, _, hnotes, _⟩ := view_of_prepare hn extra hs
  have hnr := hn.rel i s0 hs0
  have hg : ∀ r c, usedAt s r c → c < COL_MAX := by
    rintro r c (⟨cell, h⟩ | h)
    · exact ((inGrid_iff r c).mp (hrel.grid r c cell h)).2
    · rw [hnotes] at h; exact hnr.2 r c h
  have := calculateSpans_spec (s := s) hrel.tbl hg r
  have e : (fun c => ∃ r', r' / 16 = r / 16 ∧ s.dims.firstRow ≤ r' ∧ r' ≤ s.dims.lastRow ∧ usedAt s r' c) =
      (fun c => (∃ e ∈ cellsOf s.rows, e.1 / 16 = r / 16 ∧ e.2.1 = c) ∨
        (∃ r', r' / 16 = r / 16 ∧ s.dims.firstRow ≤ r' ∧ r' ≤ s.dims.lastRow ∧ noteAt s.notes r' c)) := by
    have hrows : s.rows = s.writeDataTable := by
      unfold Sheet.rows; rw [hS.cfgEq, hstd.1]; rfl
    have hmem := mem_cellsOf_writeDataTable s hrel.tbl
    funext c
    refine propext ⟨?_, ?_⟩
    · rintro ⟨r', h1, h2, h3, ⟨cell, h4⟩ | h4⟩
      · left
        refine ⟨(r', c, cell, s.cellStyle (s.changedRows.get r') c cell), ?_, h1, rfl⟩
        rw [hrows, hmem]
        refine ⟨⟨h2, h3⟩, h4, ?_, rfl⟩
        have : s.cfg.constMem = false := by rw [hS.cfgEq]; exact hstd.1
        rw [this]
        exact hS.written r' c cell h4
      · exact Or.inr ⟨r', h1, h2, h3, h4⟩
    · rintro (⟨⟨r', c', cell, x⟩, he, h1, rfl⟩ | ⟨r', h1, h2, h3, h4⟩)
      · rw [hrows, hmem] at he
        exact ⟨r', h1, he.1.1, he.1.2, Or.inl ⟨cell, he.2.1⟩⟩
      · exact ⟨r', h1, h2, h3, Or.inr h4⟩
  rw [← e]
  exact this

/-- C12: every written cell lies inside the span written on its row. -/
theorem C12_cells_inside_span (i : Nat) (cfg : Cfg) (hc : cfgs[i]? = some cfg) (hstd : cfg.isStandard) :
    ∃ s, (savedBook cfgs merge dflt ops extra).sheets[i]? = some s ∧
      ∀ e ∈ cellsOf s.rows, ∃ a b, s.rowSpan e.1 = some (a, b) ∧ a ≤ e.2.1 + 1 ∧ e.2.1 + 1 ≤ b := by
  obtain ⟨s, hs, h⟩ := C12_spans_exact cfgs merge dflt ops extra i cfg hc hstd
  refine ⟨s, hs, ?_⟩
  intro e he
  have := h e.1
  cases hsp : s.rowSpan e.1 with
  | none =>
    rw [hsp] at this
    exact absurd (Or.inl ⟨e, he, rfl, rfl⟩) (this e.2.1)
  | some ab =>
    obtain ⟨a, b⟩ := ab
    rw [hsp] at this
    exact ⟨a, b, rfl, this.2.2.2 e.2.1 (Or.inl ⟨e, he, rfl, rfl⟩)⟩

end

/-! ### Concrete case -/
private def demoSpans : List (Nat × Op Nat) :=
  [(0, .string 3 2 "hello".toList none), (0, .boolean 15 7 true none), (0, .note 4 1 false),
   (0, .number 40 5 (.finite "1".toList) none), (0, .boolean 16 0 true none)]

example : ((savedBook [{}] (fun a _ => a) 0 demoSpans []).sheets[0]?).map (fun s =>
    [s.rowSpan 3, s.rowSpan 15, s.rowSpan 16, s.rowSpan 40, s.rowSpan 60]) =
    some [some (2, 8), some (2, 8), some (1, 1), some (6, 6), none] := by decide +kernel

end Verif
