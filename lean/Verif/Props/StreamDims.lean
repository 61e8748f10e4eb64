import Verif.Props.Dims
/-!
C11 for worksheets in constant and low memory: from the top down, the dimensions are the box of the touched cells as well.
-/
set_option linter.unusedSectionVars false
namespace Verif
open BMap
variable {Fmt : Type} [DecidableEq Fmt]

/-- What the dimensions depend on: the dimensions, the current row (at most `r`) and whether cells are written ahead. -/
structure Kept (cfg : Cfg) (D : Dims) (r : Nat) (w : Bool) (q : Sheet Fmt) : Prop where
  cfg : q.cfg = cfg
  dims : q.dims = D
  cur : q.currentRow ≤ r
  ahead : q.writingAhead = w

variable {cfg : Cfg} {D : Dims} {r : Nat} {w : Bool} {q : Sheet Fmt}

theorem Kept.check (h : Kept cfg D r w q) {r' c' : Nat} (hr : r ≤ r') (hg : inGrid r' c' = true) :
    q.checkDimensions r' c' = (true, { q with dims := extD D r' c' }) := by
  have g := (inGrid_iff r' c').mp hg
  have hc := h.cur
  unfold Sheet.checkDimensions
  rw [if_neg (by omega), if_neg (by omega)]
  dsimp only
  rw [← h.dims]
  split
  · rw [if_pos (by omega)]; rfl
  · rfl

theorem Kept.withDims (h : Kept cfg D r w q) (D' : Dims) : Kept cfg D' r w { q with dims := D' } :=
  ⟨h.cfg, rfl, h.cur, h.ahead⟩

theorem Kept.formatXf (h : Kept cfg D r w q) (f : Fmt) : Kept cfg D r w (q.formatXfIndex f).2 := by
  unfold Sheet.formatXfIndex
  split
  · split <;> exact ⟨h.cfg, h.dims, h.cur, h.ahead⟩
  · split <;> exact ⟨h.cfg, h.dims, h.cur, h.ahead⟩

theorem Kept.rowCol (h : Kept cfg D r w q) (r' c' : Nat) : Kept cfg D r w (q.rowColFormat r' c').2 := by
  unfold Sheet.rowColFormat
  split
  · exact h
  · split
    · exact h
    · split
      · exact h
      · split
        · exact h
        · exact h.formatXf _

theorem Kept.xfFor (h : Kept cfg D r w q) (r' c' : Nat) (f : Option Fmt) : Kept cfg D r w (q.xfFor r' c' f).2 := by
  unfold Sheet.xfFor
  split
  · exact h.formatXf _
  · exact h.rowCol _ _

theorem Kept.flush (h : Kept cfg D r w q) {n : Nat} : Kept cfg D n w (q.flushDataRow n) :=
  ⟨h.cfg, h.dims, Nat.le_refl _, h.ahead⟩

theorem flushes_kept (l : List Nat) (h : Kept cfg D r w q) : ∃ r', Kept cfg D r' w (l.foldl Sheet.flushDataRow q) := by
  induction l generalizing q r with
  | nil => exact ⟨r, h⟩
  | cons n l ih => exact ih h.flush

theorem Kept.flushTo (h : Kept cfg D r w q) {n : Nat} : Kept cfg D n w (q.flushToRow n) := by
  unfold Sheet.flushToRow
  dsimp only
  obtain ⟨r', h'⟩ := flushes_kept _ h
  exact h'.flush

theorem Kept.insert (h : Kept cfg D r w q) {r' : Nat} (c' : Nat) (cell : Cell) (hr : r' = r ∨ w = true) :
    Kept cfg D r w (q.insertCell r' c' cell) := by
  unfold Sheet.insertCell
  split
  · split
    · exact h
    · split
      · split
        · exact ⟨h.cfg, h.dims, h.cur, h.ahead⟩
        · rename_i hw
          rcases hr with rfl | hr
          · exact ⟨h.flushTo.cfg, h.flushTo.dims, h.flushTo.cur, h.flushTo.ahead⟩
          · exact absurd (h.ahead.trans hr) hw
      · exact ⟨h.cfg, h.dims, h.cur, h.ahead⟩
  · exact ⟨h.cfg, h.dims, h.cur, h.ahead⟩

theorem Kept.blank (h : Kept cfg D r w q) {r' c' : Nat} (hr : r ≤ r') (hg : inGrid r' c' = true) (hw : r' = r ∨ w = true) (f : Fmt) :
    Kept cfg (extD D r' c') r w (q.storeBlank r' c' f).2 := by
  unfold Sheet.storeBlank
  rw [h.check hr hg]
  dsimp only
  split
  · exact ((((h.withDims _).formatXf _).rowCol _ _).insert _ _ hw)
  · exact ((h.withDims _).formatXf _).insert _ _ hw

theorem Kept.string (h : Kept cfg D r w q) {r' c' : Nat} (hr : r ≤ r') (hg : inGrid r' c' = true) (hw : r' = r ∨ w = true)
    (t : Str) (f : Option Fmt) (hne : ¬ (t = [] ∧ f = none)) : Kept cfg (extD D r' c') r w (q.storeString r' c' t f).2 := by
  unfold Sheet.storeString
  by_cases h0 : t = []
  · rw [if_pos h0]
    cases f with
    | none => exact absurd ⟨h0, rfl⟩ hne
    | some f => exact h.blank hr hg hw f
  · rw [if_neg h0, h.check hr hg]
    dsimp only
    split
    · exact h.withDims _
    · have hx := (h.withDims (extD D r' c')).xfFor r' c' f
      split
      · exact hx.insert _ _ hw
      · refine Kept.insert ?_ _ _ hw
        exact ⟨hx.cfg, hx.dims, hx.cur, hx.ahead⟩

theorem Kept.finish (h : Kept cfg D r w q) (p : Prop) [Decidable p] :
    Kept cfg D r w (if p then q else { q with hasLocalSst := true }) := by
  split
  · exact h
  · exact ⟨h.cfg, h.dims, h.cur, h.ahead⟩

theorem Kept.rich (h : Kept cfg D r w q) {r' c' : Nat} (hr : r ≤ r') (hg : inGrid r' c' = true) (hw : r' = r ∨ w = true)
    (t raw : Str) (f : Option Fmt) (hne : ¬ (t = [] ∧ f = none)) : Kept cfg (extD D r' c') r w (q.storeRich r' c' t raw f).2 := by
  unfold Sheet.storeRich
  by_cases h0 : t = []
  · rw [if_pos h0]
    cases f with
    | none => exact absurd ⟨h0, rfl⟩ hne
    | some f => exact h.blank hr hg hw f
  · rw [if_neg h0, h.check hr hg]
    dsimp only
    split
    · exact h.withDims _
    · have hx := (h.withDims (extD D r' c')).xfFor r' c' f
      refine Kept.finish ?_ _
      refine Kept.insert ?_ _ _ hw
      exact ⟨hx.cfg, hx.dims, hx.cur, hx.ahead⟩

theorem Kept.number (h : Kept cfg D r w q) {r' c' : Nat} (hr : r ≤ r') (hg : inGrid r' c' = true) (hw : r' = r ∨ w = true)
    (n : F64) (f : Option Fmt) (b : Bool) : Kept cfg (extD D r' c') r w (q.storeNumberType r' c' n f b).2 := by
  unfold Sheet.storeNumberType
  rw [h.check hr hg]
  dsimp only
  have hd := h.withDims (extD D r' c')
  have cov : extD (extD D r' c') r' c' = extD D r' c' := extD_covers (by unfold Covers extD; dsimp only; omega)
  have key : ∀ t : Str, Kept cfg (extD D r' c') r w (({ q with dims := extD D r' c' } : Sheet Fmt).storeString r' c' t f).2 := by
    intro t
    by_cases h : t = [] ∧ f = none
    · obtain ⟨rfl, rfl⟩ := h; exact hd
    · have := hd.string hr hg hw t f h
      rw [cov] at this
      exact this
  cases n with
  | nan => exact key _
  | posInf => exact key _
  | negInf => exact key _
  | finite t => exact (hd.xfFor _ _ _).insert _ _ hw

theorem Kept.array {r1 c1 r2 c2 : Nat} (h : Kept cfg D r1 false q) (h1 : inGrid r1 c1 = true) (h2 : inGrid r2 c2 = true)
    (hr : r1 ≤ r2) (hc : c1 ≤ c2) (fa : FormulaArg) (f : Option Fmt) (b : Bool) :
    Kept cfg (extD (extD D r1 c1) r2 c2) r1 false (q.storeArrayFormula r1 c1 r2 c2 fa f b).2 := by
  unfold Sheet.storeArrayFormula
  rw [h.check (Nat.le_refl _) h1]
  dsimp only
  rw [(h.withDims _).check hr h2]
  dsimp only
  rw [if_neg (by simp; omega)]
  generalize hD : extD (extD D r1 c1) r2 c2 = E
  have cov : ∀ r c, r1 ≤ r → r ≤ r2 → c1 ≤ c → c ≤ c2 → extD E r c = E := by
    intro r c a1 a2 a3 a4
    refine extD_covers ?_
    rw [← hD]
    unfold Covers extD; dsimp only
    omega
  have grid : ∀ r c, r ≤ r2 → c ≤ c2 → inGrid r c = true := by
    intro r c a1 a2; simp [inGrid] at h2 ⊢; omega
  have cell : ∀ r c w, r1 ≤ r → r ≤ r2 → c1 ≤ c → c ≤ c2 → (r = r1 ∨ w = true) → ∀ q : Sheet Fmt, Kept cfg E r1 w q →
      Kept cfg E r1 w (q.storeNumberType r c (.finite "0".toList) f false).2 := by
    intro r c w a1 a2 a3 a4 a5 q hq
    have := hq.number a1 (grid r c a2 a4) a5 (.finite "0".toList) f false
    rw [cov r c a1 a2 a3 a4] at this
    exact this
  have each : ∀ {α : Type} (I : Sheet Fmt → Prop) (l : List α) (g : α → Sheet Fmt → Res Fmt)
      (_ : ∀ a ∈ l, ∀ s, I s → I (g a s).2 ∧ (g a s).1 = none) (s : Sheet Fmt), I s → I (forEach l g s).2 ∧ (forEach l g s).1 = none := by
    intro α I l g hg
    induction l with
    | nil => exact fun s hs => ⟨hs, rfl⟩
    | cons a l ih =>
      intro s hs
      have h1 := hg a List.mem_cons_self s hs
      simp only [forEach, Res.andThen, h1.2]
      exact ih (fun b hb => hg b (List.mem_cons_of_mem _ hb)) _ h1.1
  have ok : ∀ r c w, r1 ≤ r → r ≤ r2 → c1 ≤ c → c ≤ c2 → ∀ q : Sheet Fmt, Kept cfg E r1 w q →
      (q.storeNumberType r c (.finite "0".toList) f false).1 = none := by
    intro r c w a1 a2 a3 a4 q hq
    unfold Sheet.storeNumberType
    rw [hq.check a1 (grid r c a2 a4)]
  have hx := ((h.withDims E).xfFor r1 c1 f).insert c1
    (.arrayFormula fa.text (if fa.result = [] then (({ q with dims := E } : Sheet Fmt).xfFor r1 c1 f).2.cfg.defaultResult else fa.result)
      (({ q with dims := E } : Sheet Fmt).xfFor r1 c1 f).1 (b || fa.dynamic) (cellRange r1 c1 r2 c2)) (Or.inl rfl)
  have st1 := each (Kept cfg E r1 false) (List.range' (c1 + 1) (c2 - c1)) (fun c s => s.storeNumberType r1 c (.finite "0".toList) f false)
    (fun c hcm s hs => by
      rw [List.mem_range'_1] at hcm
      exact ⟨cell r1 c false (Nat.le_refl _) hr (by omega) (by omega) (Or.inl rfl) s hs,
        ok r1 c false (Nat.le_refl _) hr (by omega) (by omega) s hs⟩) _ hx
  unfold Res.andThen
  rw [st1.2]
  dsimp only
  generalize (forEach (List.range' (c1 + 1) (c2 - c1)) _ _).2 = q1 at st1
  by_cases hm : q1.cfg.constMem = true
  · rw [if_pos hm]
    have st2 := each (Kept cfg E r1 true) (List.range' (r1 + 1) (r2 - r1))
      (fun r s => forEach (List.range' c1 (c2 + 1 - c1)) (fun c s => s.storeNumberType r c (.finite "0".toList) f false) s)
      (fun r hrm s hs => each (Kept cfg E r1 true) _ _ (fun c hcm s hs => by
        rw [List.mem_range'_1] at hrm hcm
        exact ⟨cell r c true (by omega) (by omega) (by omega) (by omega) (Or.inr rfl) s hs,
          ok r c true (by omega) (by omega) (by omega) (by omega) s hs⟩) s hs)
      { q1 with writingAhead := true } ⟨st1.1.cfg, st1.1.dims, st1.1.cur, rfl⟩
    rw [st2.2]
    dsimp only
    rw [if_pos (by rw [st2.1.cfg, ← st1.1.cfg]; exact hm)]
    exact ⟨st2.1.cfg, st2.1.dims, st2.1.cur, rfl⟩
  · rw [if_neg hm]
    -- without constant memory nothing is flushed
    have std : ∀ (w : Bool) (r c : Nat) (s : Sheet Fmt), Kept cfg E r1 w s → r1 ≤ r → r ≤ r2 → c1 ≤ c → c ≤ c2 →
        Kept cfg E r1 w (s.storeNumberType r c (.finite "0".toList) f false).2 := by
      intro w r c s hs a1 a2 a3 a4
      have hm' : cfg.constMem = false := by rw [← st1.1.cfg]; simpa using hm
      unfold Sheet.storeNumberType
      rw [hs.check a1 (grid r c a2 a4)]
      dsimp only
      have hx := (hs.withDims (extD E r c)).xfFor r c f
      rw [cov r c a1 a2 a3 a4] at hx ⊢
      unfold Sheet.insertCell
      rw [if_neg (by rw [hx.cfg, hm']; decide)]
      exact ⟨hx.cfg, hx.dims, hx.cur, hx.ahead⟩
    have st2 := each (Kept cfg E r1 false) (List.range' (r1 + 1) (r2 - r1))
      (fun r s => forEach (List.range' c1 (c2 + 1 - c1)) (fun c s => s.storeNumberType r c (.finite "0".toList) f false) s)
      (fun r hrm s hs => each (Kept cfg E r1 false) _ _ (fun c hcm s hs => by
        rw [List.mem_range'_1] at hrm hcm
        exact ⟨std false r c s hs (by omega) (by omega) (by omega) (by omega),
          ok r c false (by omega) (by omega) (by omega) (by omega) s hs⟩) s hs)
      q1 st1.1
    rw [st2.2]
    dsimp only
    rw [if_neg (by rw [st2.1.cfg, ← st1.1.cfg]; exact hm)]
    exact st2.1

theorem Kept.insertFormat (h : Kept cfg D r w q) (r' c' xf : Nat) : Kept cfg D r w (q.insertCellFormat r' c' xf) := by
  unfold Sheet.insertCellFormat
  split
  · split <;> exact ⟨h.cfg, h.dims, h.cur, h.ahead⟩
  · split
    · exact ⟨h.cfg, h.dims, h.cur, h.ahead⟩
    · exact h

/-- An accepted call at or below the current row. -/
theorem Kept.exec {r0 : Nat} (h : Kept cfg D r0 false q) (op : Op Fmt) (hc : op.isCellCall = true) (hok : op.refusal cfg = none)
    (hr : ∀ t, op.topRow = some t → t = r0) : Kept cfg (extL D op.corners) r0 false (q.exec op).2 := by
  have gr : ∀ r c, (if !inGrid r c then some Err.rowColumnLimit else none) = none → inGrid r c = true := by
    intro r c; cases inGrid r c <;> simp
  have gn : ∀ r c n, refuseNumber cfg r c n = none → inGrid r c = true := by
    intro r c n; unfold refuseNumber; cases inGrid r c <;> simp
  have gs : ∀ r c (t : Str) (f : Option Fmt), ¬ (t = [] ∧ f = none) → refuseString r c t f = none → inGrid r c = true := by
    intro r c t f h
    unfold refuseString; rw [if_neg (by simpa using h)]
    cases inGrid r c <;> simp
  have hstr : ∀ (t : Str) (f : Option Fmt), (t = [] ∧ f.isNone) ↔ (t = [] ∧ f = none) := by
    intro t f; simp
  cases op with
  | number r c n f =>
    have hr0 : r = r0 := hr r rfl
    subst hr0
    exact h.number (Nat.le_refl _) (gn r c n hok) (Or.inl rfl) n f false
  | dateTime r c n f =>
    have hr0 : r = r0 := hr r rfl
    subst hr0
    exact h.number (Nat.le_refl _) (gn r c n hok) (Or.inl rfl) n f true
  | string r c t f =>
    show Kept cfg _ _ _ (q.storeString r c t f).2
    simp only [Op.corners, hstr]
    by_cases h0 : t = [] ∧ f = none
    · rw [if_pos h0]; obtain ⟨rfl, rfl⟩ := h0; exact h
    · rw [if_neg h0]
      have hr0 : r = r0 := hr r (by simp only [Op.topRow, hstr]; rw [if_neg h0])
      subst hr0
      exact h.string (Nat.le_refl _) (gs r c t f h0 hok) (Or.inl rfl) t f h0
  | rich r c t raw f =>
    show Kept cfg _ _ _ (q.storeRich r c t raw f).2
    simp only [Op.corners, hstr]
    by_cases h0 : t = [] ∧ f = none
    · rw [if_pos h0]; obtain ⟨rfl, rfl⟩ := h0; exact h
    · rw [if_neg h0]
      have hr0 : r = r0 := hr r (by simp only [Op.topRow, hstr]; rw [if_neg h0])
      subst hr0
      exact h.rich (Nat.le_refl _) (gs r c t f h0 hok) (Or.inl rfl) t raw f h0
  | formula r c fa f =>
    have hr0 : r = r0 := hr r rfl
    subst hr0
    have hg := gr r c hok
    show Kept cfg _ _ _ (q.storeFormula r c fa f).2
    unfold Sheet.storeFormula
    by_cases hd : fa.dynamic = true
    · rw [if_pos hd]
      have := h.array (c1 := c) (c2 := c) hg hg (Nat.le_refl _) (Nat.le_refl _) fa none true
      rw [extD_covers (by unfold Covers extD; dsimp only; omega)] at this
      exact this
    · rw [if_neg hd, h.check (Nat.le_refl _) hg]
      exact ((h.withDims _).xfFor _ _ _).insert _ _ (Or.inl rfl)
  | arrayFormula r1 c1 r2 c2 fa f d =>
    have hr0 : r1 = r0 := hr r1 rfl
    subst hr0
    simp only [Op.refusal, refuseRange] at hok
    have h1 : inGrid r1 c1 = true := by revert hok; cases inGrid r1 c1 <;> simp
    have h2 : inGrid r2 c2 = true := by revert hok; cases inGrid r2 c2 <;> simp
    rw [h1, h2] at hok
    simp only [Bool.not_true, Bool.or_self, Bool.false_eq_true, if_false] at hok
    have ho : r1 ≤ r2 ∧ c1 ≤ c2 := by
      by_cases h : r1 > r2 || c1 > c2
      · rw [if_pos h] at hok; cases hok
      · simp at h; omega
    exact h.array h1 h2 ho.1 ho.2 fa f d
  | blank r c f =>
    have hr0 : r = r0 := hr r rfl
    subst hr0
    exact h.blank (Nat.le_refl _) (gr r c hok) (Or.inl rfl) f
  | boolean r c b f =>
    have hr0 : r = r0 := hr r rfl
    subst hr0
    show Kept cfg _ _ _ (q.storeBoolean r c b f).2
    unfold Sheet.storeBoolean
    rw [h.check (Nat.le_refl _) (gr r c hok)]
    exact ((h.withDims _).xfFor _ _ _).insert _ _ (Or.inl rfl)
  | cellFormat r c f =>
    have hr0 : r = r0 := hr r rfl
    subst hr0
    show Kept cfg _ _ _ (q.setCellFormat r c f).2
    unfold Sheet.setCellFormat
    rw [h.check (Nat.le_refl _) (gr r c hok)]
    exact ((h.withDims _).formatXf _).insertFormat _ _ _
  | clearCell r c =>
    show Kept cfg _ _ _ (q.clearCell r c)
    unfold Sheet.clearCell
    split
    · exact h
    · split
      · exact h
      · exact ⟨h.cfg, h.dims, h.cur, h.ahead⟩
  | clearFormat r c =>
    show Kept cfg _ _ _ (q.clearCellFormat r c)
    unfold Sheet.clearCellFormat
    split
    · exact h
    · split
      · exact h
      · split
        · exact h
        · exact ⟨h.cfg, h.dims, h.cur, h.ahead⟩
  | note r c t =>
    have hr0 : r = r0 := hr r rfl
    subst hr0
    show Kept cfg _ _ _ (q.insertNote r c t).2
    have hg : inGrid r c = true := by
      simp only [Op.refusal] at hok; revert hok; cases inGrid r c <;> simp
    unfold Sheet.insertNote
    rw [h.check (Nat.le_refl _) hg]
    dsimp only
    have hd := h.withDims (extD D r c)
    split
    · exact hd
    · split <;> exact ⟨hd.cfg, hd.dims, hd.cur, hd.ahead⟩
  | _ => simp [Op.isCellCall] at hc

/-- Invariant of any worksheet: from the top down, its dimensions are the box of the touched cells. -/
def StreamDimsR (s : Sheet Fmt) (l : List (Op Fmt)) : Prop :=
  TopDown l → (∀ op ∈ l, op.isCellCall = true ∧ op.refusal s.cfg = none) →
    DimsFor (touched l) s.dims ∧ s.writingAhead = false ∧ ∀ r, (∀ t ∈ l.filterMap Op.topRow, t ≤ r) → s.currentRow ≤ r

theorem StreamDimsR.book (cfgs : List Cfg) (merge : Fmt → Fmt → Fmt) (dflt : Fmt) (ops : List (Nat × Op Fmt)) :
    BookInv cfgs dflt StreamDimsR ((Book.new cfgs merge dflt).run ops) ops := by
  apply book_lift
  · intro cfg _ _
    exact ⟨Or.inl ⟨fun r c ⟨op, ho, _⟩ => by simp at ho, rfl⟩, rfl, fun r _ => Nat.zero_le _⟩
  · intro s l op hG h htop hall
    have hcfg : (s.exec op).2.cfg = s.cfg := (hG.exec op).2.cfg
    rw [hcfg] at hall
    unfold TopDown at htop
    rw [List.filterMap_append, List.pairwise_append] at htop
    obtain ⟨h1, hw, hcur⟩ := h htop.1 (fun o ho => hall o (List.mem_append_left _ ho))
    have h2 := hall op (by simp)
    have hlast : ∀ t, op.topRow = some t → ∀ x ∈ l.filterMap Op.topRow, x ≤ t := by
      intro t ht x hx
      exact htop.2.2 x hx t (by simp [ht])
    have key : ∀ r0, s.currentRow ≤ r0 → (∀ t, op.topRow = some t → t = r0) →
        Kept s.cfg (extL s.dims op.corners) r0 false (s.exec op).2 :=
      fun r0 hr0 ht => Kept.exec ⟨rfl, rfl, hr0, hw⟩ op h2.1 h2.2 ht
    have hbox : DimsFor (touched (l ++ [op])) (extL s.dims op.corners) := by
      refine (h1.step s.cfg op h2.1 h2.2).congr ?_
      intro r c
      simp only [touched, List.mem_append, List.mem_singleton]
      constructor
      · rintro ⟨o, ho | rfl, ht⟩
        · exact Or.inl ⟨o, ho, ht⟩
        · exact Or.inr ht
      · rintro (⟨o, ho, ht⟩ | ht)
        · exact ⟨o, Or.inl ho, ht⟩
        · exact ⟨op, Or.inr rfl, ht⟩
    cases ht : op.topRow with
    | some t =>
      have hk := key t (hcur t (hlast t ht)) (fun x hx => by rw [ht] at hx; cases hx; rfl)
      refine ⟨by rw [hk.dims]; exact hbox, hk.ahead, fun r hr => Nat.le_trans hk.cur (hr t ?_)⟩
      rw [List.filterMap_append]
      exact List.mem_append_right _ (by simp [ht])
    | none =>
      have hk := key s.currentRow (Nat.le_refl _) (fun x hx => by rw [ht] at hx; cases hx)
      refine ⟨by rw [hk.dims]; exact hbox, hk.ahead, fun r hr => Nat.le_trans hk.cur (hcur r fun t ht' => hr t ?_)⟩
      rw [List.filterMap_append]
      exact List.mem_append_left _ ht'
  · intro s l t g _ _ h
    exact h

/-- C11 in every memory mode: if accepted calls on cells come from the top down, the `<dimension>` reference reads back as the bounding box
of the touched cells. (A late call is not written in constant memory but may change the reference: `C17_late_dimension_counterexample`.) -/
theorem C11_top_down_bounding_box (cfgs : List Cfg) (merge : Fmt → Fmt → Fmt) (dflt : Fmt) (ops : List (Nat × Op Fmt)) (extra : List Fmt)
    (i : Nat) (cfg : Cfg) (hc : cfgs[i]? = some cfg) (htop : TopDown (opsFor i ops))
    (hcell : ∀ op ∈ opsFor i ops, op.isCellCall = true)
    (hok : ∀ op ∈ opsFor i ops, op.refusal cfg = none) (s : Sheet Fmt)
    (hs : (savedBook cfgs merge dflt ops extra).sheets[i]? = some s) :
    ((∀ r c, ¬ touched (opsFor i ops) r c) ∧ s.dimensionRef = "A1".toList) ∨
    (∃ r1 c1 r2 c2, IsBox (touched (opsFor i ops)) r1 c1 r2 c2 ∧
      ((r1, c1, r2, c2) ≠ (0, 0, 0, 16383) → Spec.readRange s.dimensionRef = some ((r1, c1), (r2, c2)))) := by
  have hb := StreamDimsR.book cfgs merge dflt ops
  obtain ⟨s0, hs0, hd, hcf, _⟩ := view_of_prepare hb extra hs
  have hcfg0 : s0.cfg = cfg := by
    have := hb.cfg i s0 hs0; rw [hc] at this; cases this; rfl
  have := (hb.rel i s0 hs0 htop
    (fun op ho => ⟨hcell op ho, by show op.refusal s0.cfg = none; rw [hcfg0]; exact hok op ho⟩)).1
  have hD : DimsFor (touched (opsFor i ops)) s.dims := by rw [hd]; exact this
  exact dimensionRef_of_box hD

/-- Cells in constant memory, with a gap, an array formula, a note and a cleared cell. -/
def topDownOps : List (Nat × Op Nat) :=
  [(0, .string 3 2 "hello".toList none), (0, .number 3 5 (.finite "1".toList) none), (0, .string 1 50 [] none),
   (0, .arrayFormula 5 3 6 4 ⟨"X".toList, [], false⟩ none false), (0, .note 5 9 false), (0, .clearCell 1 9), (0, .number 8 0 .nan none)]

theorem C11_top_down_witness : TopDown (opsFor 0 topDownOps) ∧ (∀ op ∈ opsFor 0 topDownOps, op.isCellCall = true) ∧
    (∀ op ∈ opsFor 0 topDownOps, op.refusal { constMem := true, inlineStrings := true, globalXfs := true } = none) ∧
    ((savedBook [{ constMem := true, inlineStrings := true, globalXfs := true }] (fun a _ => a) 0 topDownOps []).sheets[0]?).map
      Sheet.dimensionRef = some "A4:J9".toList := by
  refine ⟨?_, ?_, ?_, ?_⟩
  · show (List.filterMap Op.topRow _).Pairwise _
    decide +kernel
  all_goals decide +kernel

end Verif
