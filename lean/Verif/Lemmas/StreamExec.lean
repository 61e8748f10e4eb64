import Verif.Lemmas.StreamStep
/-! Constant memory worksheets: the API calls. -/
set_option linter.unusedSectionVars false
set_option linter.unusedSimpArgs false
set_option linter.unusedVariables false
namespace Verif
open BMap
variable {Fmt : Type} [DecidableEq Fmt]
variable {E : Env Fmt} {A : Abs Fmt} {s : Sheet Fmt}

/-- The current row after a call on row `r`, if `w` says that it writes a cell. -/
def Sheet.afterIf (s : Sheet Fmt) (w : Bool) (r : Nat) : Nat := if w then s.after r else s.currentRow

theorem Went.keep {s1 : Sheet Fmt} (h : Went E A s s1 s.currentRow) (r : Nat) :
    Went E A s s1 (s.afterIf false r) := h

theorem Went.then {A' A'' : Abs Fmt} {s1 s2 : Sheet Fmt} {w : Bool} {r : Nat} (h : Went E A' s s1 s.currentRow)
    (h2 : Went E A'' s1 s2 (s1.afterIf w r)) : Went E A'' s s2 (s.afterIf w r) := by
  refine h.next (h2.cur_eq fun e => ?_)
  have e' : s.cfg.constMem = true := by rw [← h.cfg]; exact e
  unfold Sheet.afterIf
  rw [h.after e', h.cur e']

theorem Went.hit {A' : Abs Fmt} {s1 : Sheet Fmt} {r : Nat} (h : Went E A' s s1 (s.after r)) :
    Went E A' s s1 (s.afterIf true r) := h

theorem Sim.storeBlank (h : Sim E A s) {b : Bool} (r c : Nat) (f : Fmt) (hs : Side b s r) :
    Went E (A.storeBlank E b r c f) s (s.storeBlank r c f).2 (s.afterIf (inGrid r c) r) := by
  unfold Sheet.storeBlank Abs.storeBlank
  rcases h.check r c with ⟨g, e⟩ | ⟨g, s1, e, w, hcov⟩
  · rw [e, g]; exact (Went.refl h).keep r
  · rw [e, g]
    dsimp only [if_true]
    refine w.then ?_
    have h1 := w.sim
    have hs1 := w.side hs
    have hsp := formatXfIndex_spec h1.gen.xf f
    have w2 := h1.ofXf (h1.gen.formatXf f) hsp.2.1
    have hz : (s1.formatXfIndex f).1 = 0 ↔ f = E.dflt := by
      rw [zero_iff hsp.1, hsp.2.2]; simp
    by_cases ez : (s1.formatXfIndex f).1 = 0
    · simp only [if_pos ez, if_pos (hz.mp ez), if_true]
      obtain ⟨w3, hv, hf⟩ := w2.sim.rowCol r c (w2.side hs1)
      refine w2.then (w3.then ?_)
      exact (w3.sim.cell (cell := .blank _) (w3.side (w2.side hs1)) (w3.cov (w2.cov hcov)) ⟨trivial, hv⟩ (fun _ => rfl) rfl hf).hit
    · simp only [if_neg ez, if_neg (fun x => ez (hz.mpr x)), if_true]
      refine w2.then ?_
      refine (w2.sim.cell (cell := .blank _) (w2.side hs1) (w2.cov hcov) ⟨trivial, ?_⟩ (fun _ => rfl) rfl ?_).hit
      · simp only [Cell.xf]; rw [hsp.2.2]; rfl
      · intro _; exact hsp.2.2

theorem length_le_iff (str : Str) : (str.length > MAX_STRING_LEN) ↔ ¬ str.length ≤ 32767 := by
  unfold MAX_STRING_LEN; omega

theorem updString_isWrite (r c : Nat) (ct : Content) (str : Str) (f : Option Fmt) :
    (updString r c ct str f).isWrite =
      if str = [] then f.isSome && inGrid r c else inGrid r c && decide (str.length ≤ 32767) := by
  unfold updString
  split
  · cases f with
    | none => rfl
    | some f => cases inGrid r c <;> rfl
  · cases h : (inGrid r c && decide (str.length ≤ 32767)) <;> simp [Upd.isWrite]

theorem Sim.storeString (h : Sim E A s) {b : Bool} (r c : Nat) (str : Str) (f : Option Fmt) (hs : Side b s r) :
    Went E (A.storeText E b r c str (.text str) f) s (s.storeString r c str f).2
      (s.afterIf (updString r c (.text str) str f).isWrite r) := by
  rw [updString_isWrite]
  unfold Sheet.storeString Abs.storeText
  by_cases es : str = []
  · simp only [if_pos es]
    cases f with
    | none => exact (Went.refl h).keep r
    | some f => simpa using h.storeBlank r c f hs
  · simp only [if_neg es]
    rcases h.check r c with ⟨g, e⟩ | ⟨g, s1, e, w, hcov⟩
    · rw [e, g]; exact (Went.refl h).keep r
    · rw [e, g]
      simp only [Bool.true_and, decide_eq_true_eq]
      by_cases hl : str.length ≤ 32767
      · have hl' : ¬ str.length > MAX_STRING_LEN := by rw [length_le_iff]; simpa using hl
        have hl2 : str.length ≤ MAX_STRING_LEN := by omega
        simp only [if_neg hl', if_pos hl2, hl, decide_true]
        refine w.then ?_
        have h1 := w.sim
        have hs1 := w.side hs
        obtain ⟨w2, hv, hf⟩ := h1.xfFor r c f hs1
        refine w2.then ?_
        have h2 := w2.sim
        have hs2 := w2.side hs1
        have hc2 := w2.cov hcov
        generalize (s1.xfFor r c f).2 = s2 at *
        generalize (s1.xfFor r c f).1 = x at *
        by_cases hi : s2.cfg.inlineStrings = true
        · simp only [if_pos hi]
          exact (h2.cell (cell := .inlineString str x) hs2 hc2 ⟨trivial, hv⟩ (fun _ => rfl) rfl hf).hit
        · simp only [if_neg hi]
          by_cases hg : s2.cfg.globalSst = true
          · simp only [if_pos hg]
            have hsp := sstIndex_spec h2.gen.sst str
            have w3 : Went E A s2 { s2 with sst := (s2.sst.index str).2, hasLocalSst := true } s2.currentRow :=
              h2.wentFrame (h2.gen.setSst (rc := false) hsp.1 hsp.2.1 hg true) rfl rfl rfl rfl rfl rfl rfl
                (fun e => absurd e hi) rfl
            refine w3.then ?_
            exact (w3.sim.cell (cell := .string str x (some _)) (w3.side hs2) (w3.cov hc2) ⟨hsp.2.2.1, hv⟩ (fun _ => rfl) rfl hf).hit
          · simp only [if_neg hg]
            have w3 : Went E A s2 { s2 with sst := s2.sst, hasLocalSst := true } s2.currentRow :=
              h2.wentFrame (h2.gen.flags (rc := false) s2.writingAhead true s2.notes) rfl rfl rfl rfl rfl rfl rfl
                (fun e => absurd e hi) rfl
            refine w3.then ?_
            refine (w3.sim.cell (cell := .string str x none) (w3.side hs2) (w3.cov hc2) ⟨trivial, hv⟩ ?_ rfl hf).hit
            intro hm
            have hm' : s2.cfg.constMem = true := hm
            rcases h2.kind with k | k | k
            · rw [k.1] at hm'; cases hm'
            · exact absurd k.2.1 hi
            · exact absurd k.2.2.2 hg
      · have hl' : str.length > MAX_STRING_LEN := by rw [length_le_iff]; exact hl
        have hl2 : ¬ str.length ≤ MAX_STRING_LEN := by omega
        simp only [if_pos hl', if_neg hl2, hl, decide_false]
        exact w.keep r

theorem Sim.storeRich (h : Sim E A s) {b : Bool} (r c : Nat) (str raw : Str) (f : Option Fmt) (hs : Side b s r) :
    Went E (A.storeText E b r c str (.rich str raw) f) s (s.storeRich r c str raw f).2
      (s.afterIf (updString r c (.rich str raw) str f).isWrite r) := by
  rw [updString_isWrite]
  unfold Sheet.storeRich Abs.storeText
  by_cases es : str = []
  · simp only [if_pos es]
    cases f with
    | none => exact (Went.refl h).keep r
    | some f => simpa using h.storeBlank r c f hs
  · simp only [if_neg es]
    rcases h.check r c with ⟨g, e⟩ | ⟨g, s1, e, w, hcov⟩
    · rw [e, g]; exact (Went.refl h).keep r
    · rw [e, g]
      simp only [Bool.true_and, decide_eq_true_eq]
      by_cases hl : str.length ≤ 32767
      · have hl' : ¬ str.length > MAX_STRING_LEN := by rw [length_le_iff]; simpa using hl
        have hl2 : str.length ≤ MAX_STRING_LEN := by omega
        simp only [if_neg hl', if_pos hl2, hl, decide_true]
        refine w.then ?_
        have h1 := w.sim
        have hs1 := w.side hs
        obtain ⟨w2, hv, hf⟩ := h1.xfFor r c f hs1
        refine w2.then ?_
        have h2 := w2.sim
        have hs2 := w2.side hs1
        have hc2 := w2.cov hcov
        generalize (s1.xfFor r c f).2 = s2 at *
        generalize (s1.xfFor r c f).1 = x at *
        have hflag : ∀ (A' : Abs Fmt) (s' : Sheet Fmt), Sim E A' s' → Went E A' s' (if s'.cfg.inlineStrings = true then s'
            else { s' with hasLocalSst := true }) s'.currentRow := by
          intro A' s' hs'
          split
          · exact Went.refl hs'
          · rename_i hi
            exact hs'.wentFrame (hs'.gen.flags (rc := false) s'.writingAhead true s'.notes) rfl rfl rfl rfl rfl rfl rfl
                (fun e => absurd e hi) rfl
        have fin : ∀ (A' : Abs Fmt) (s3 s4 : Sheet Fmt) (k : Nat), Went E A' s3 s4 k →
            Went E A' s3 (if s4.cfg.inlineStrings = true then s4 else { s4 with hasLocalSst := true }) k := by
          intro A' s3 s4 k w4
          have w5 := hflag A' s4 w4.sim
          exact ⟨w5.sim, w5.cfg.trans w4.cfg, w5.wa.trans w4.wa,
            fun e => (w5.cur (by rw [w4.cfg]; exact e)).trans (w4.cur e), w4.dims.trans w5.dims⟩
        by_cases hg : s2.cfg.globalSst = true
        · simp only [if_pos hg]
          have hsp := sstIndex_spec h2.gen.sst str
          have w3 : Went E A s2 { s2 with sst := (s2.sst.index str).2 } s2.currentRow :=
            h2.wentFrame (h2.gen.setSst (rc := false) hsp.1 hsp.2.1 hg s2.hasLocalSst) rfl rfl rfl rfl rfl rfl rfl
              (fun e => rfl) rfl
          refine w3.then ?_
          exact (fin _ _ _ _ (w3.sim.cell (cell := .rich str raw x (some _)) (w3.side hs2) (w3.cov hc2) ⟨hsp.2.2.1, hv⟩ (fun _ => rfl) rfl hf)).hit
        · simp only [if_neg hg]
          exact (fin _ _ _ _ (h2.cell (cell := .rich str raw x none) hs2 hc2 ⟨trivial, hv⟩ (fun _ => rfl) rfl hf)).hit
      · have hl' : str.length > MAX_STRING_LEN := by rw [length_le_iff]; exact hl
        have hl2 : ¬ str.length ≤ MAX_STRING_LEN := by omega
        simp only [if_pos hl', if_neg hl2, hl, decide_false]
        exact w.keep r

theorem Sim.storeNumber (h : Sim E A s) {b : Bool} (r c : Nat) (n : F64) (f : Option Fmt) (d : Bool) (hs : Side b s r) :
    Went E (A.storeNumber E b r c n f d) s (s.storeNumberType r c n f d).2
      (s.afterIf (updNumber E.cfg r c n f d).isWrite r) := by
  unfold Sheet.storeNumberType Abs.storeNumber updNumber
  rcases h.check r c with ⟨g, e⟩ | ⟨g, s1, e, w, hcov⟩
  · rw [e, g]
    cases n <;> exact (Went.refl h).keep r
  · rw [e, g]
    have h1 := w.sim
    have hs1 := w.side hs
    have ht := h1.texts
    cases n with
    | nan =>
      simp only [if_true]
      rw [← ht.1]
      exact w.then (h1.storeString r c _ f hs1)
    | posInf =>
      simp only [if_true]
      rw [← ht.2.1]
      exact w.then (h1.storeString r c _ f hs1)
    | negInf =>
      simp only [if_true]
      rw [← ht.2.2.1]
      exact w.then (h1.storeString r c _ f hs1)
    | finite t =>
      simp only [if_true]
      refine w.then ?_
      cases d with
      | false =>
        exact (h1.checkCell (ct := .number t) (f := f) hs1 (fun _ x => .number t x) (fun _ => rfl) (fun _ => rfl) (fun _ _ => trivial)
          (fun _ _ => rfl) hcov).hit
      | true =>
        exact (h1.checkCell (ct := .dateTime t) (f := f) hs1 (fun _ x => .dateTime t x) (fun _ => rfl) (fun _ => rfl) (fun _ _ => trivial)
          (fun _ _ => rfl) hcov).hit

theorem storeZero_none (s : Sheet Fmt) (r c : Nat) (t : Str) (f : Option Fmt) (g : inGrid r c = true) :
    (s.storeNumberType r c (.finite t) f false).1 = none := by
  unfold Sheet.storeNumberType
  have := checkDimensions_fst s r c
  rcases checkDimensions_cases s r c with e | ⟨d, _, e⟩
  · rw [e, g] at this; cases this
  · rw [e]

/-- A row of zeros that does not move the current row. -/
theorem Sim.zeros (h : Sim E A s) {b : Bool} {r : Nat} (f : Option Fmt) (l : List Nat) (hs : Side b s r)
    (hg : ∀ c ∈ l, inGrid r c = true) (hk : s.cfg.constMem = true → s.after r = s.currentRow) :
    Went E (A.zeros E b f r l) s
      (forEach l (fun c s => s.storeNumberType r c (.finite "0".toList) f false) s).2 s.currentRow ∧
    (forEach l (fun c s => s.storeNumberType r c (.finite "0".toList) f false) s).1 = none := by
  generalize hz : "0".toList = z
  induction l generalizing s A with
  | nil => exact ⟨Went.refl h, rfl⟩
  | cons c l ih =>
    simp only [forEach, Res.andThen, storeZero_none s r c z f (hg c List.mem_cons_self)]
    have w := h.storeNumber (b := b) r c (.finite z) f false hs
    have w' : Went E (A.storeNumber E b r c (.finite z) f false) s (s.storeNumberType r c (.finite z) f false).2
        s.currentRow := w.cur_eq fun e => by
      unfold Sheet.afterIf; split
      · exact hk e
      · rfl
    have hi := ih w'.sim (w'.side hs) (fun c hc => hg c (List.mem_cons_of_mem _ hc)) (fun e => by
      have e' : s.cfg.constMem = true := by rw [← w'.cfg]; exact e
      rw [w'.after e', w'.cur e']; exact hk e')
    refine ⟨?_, hi.2⟩
    have : A.zeros E b f r (c :: l) = (A.storeNumber E b r c (.finite z) f false).zeros E b f r l := by
      unfold Abs.zeros; rw [hz]; rfl
    rw [this]
    exact w'.next (hi.1.cur_eq fun e => w'.cur (by rw [← w'.cfg]; exact e))

/-- The rows of zeros below an array formula. -/
theorem Sim.zeroRows (h : Sim E A s) {b : Bool} (f : Option Fmt) (cs l : List Nat)
    (hs : ∀ r ∈ l, Side b s r) (hg : ∀ r ∈ l, ∀ c ∈ cs, inGrid r c = true)
    (hk : s.cfg.constMem = true → s.writingAhead = true) :
    Went E (l.foldl (fun A r => A.zeros E b f r cs) A) s
      (forEach l (fun r s => forEach cs (fun c s => s.storeNumberType r c (.finite "0".toList) f false) s) s).2
      s.currentRow ∧
    (forEach l (fun r s => forEach cs (fun c s => s.storeNumberType r c (.finite "0".toList) f false) s) s).1 = none := by
  induction l generalizing s A with
  | nil => exact ⟨Went.refl h, rfl⟩
  | cons r l ih =>
    have w := h.zeros f cs (hs r List.mem_cons_self) (hg r List.mem_cons_self) (fun e => by
      unfold Sheet.after; rw [if_pos (hk e)])
    simp only [forEach, Res.andThen, w.2]
    have hi := ih w.1.sim (fun q hq => w.1.side (hs q (List.mem_cons_of_mem _ hq)))
      (fun q hq => hg q (List.mem_cons_of_mem _ hq)) (fun e => by
        rw [w.1.wa]; exact hk (by rw [← w.1.cfg]; exact e))
    exact ⟨w.1.next (hi.1.cur_eq fun e => w.1.cur (by rw [← w.1.cfg]; exact e)), hi.2⟩

theorem inGrid_le {r r' c c' : Nat} (h : inGrid r c = true) (hr : r' ≤ r) (hc : c' ≤ c) : inGrid r' c' = true := by
  unfold inGrid at *
  simp at *
  omega

theorem andThen_ok {x : Res Fmt} {k : Sheet Fmt → Res Fmt} (hx : x.1 = none) : Res.andThen x k = k x.2 := by
  unfold Res.andThen; rw [hx]

theorem Sim.storeArray (h : Sim E A s) {b : Bool} (r1 c1 r2 c2 : Nat) (fa : FormulaArg) (f : Option Fmt) (d : Bool)
    (hwa : s.writingAhead = false)
    (hs : (b = true ∧ (s.cfg.constMem = true → s.currentRow ≤ r1)) ∨
      (b = false ∧ s.cfg.constMem = true ∧ r2 < s.currentRow)) :
    Went E (A.storeArray E b r1 c1 r2 c2 fa f d) s (s.storeArrayFormula r1 c1 r2 c2 fa f d).2
      (s.afterIf (inGrid r1 c1 && inGrid r2 c2 && decide (r1 ≤ r2) && decide (c1 ≤ c2)) r1) := by
  unfold Sheet.storeArrayFormula Abs.storeArray
  rcases h.check r1 c1 with ⟨g1, e⟩ | ⟨g1, s1, e, w1, hcov1⟩
  · rw [e, g1]; exact (Went.refl h).keep r1
  · rw [e, g1]
    dsimp only
    rcases w1.sim.check r2 c2 with ⟨g2, e⟩ | ⟨g2, s2, e, w2, hcov2⟩
    · rw [e, g2]; exact w1.keep r1
    · rw [e, g2]
      dsimp only
      have w12 : Went E A s s2 s.currentRow := w1.next (w2.cur_eq fun e => w1.cur (by rw [← w1.cfg]; exact e))
      by_cases hno : ¬ (r1 ≤ r2 ∧ c1 ≤ c2)
      · have e1 : (decide (r1 > r2) || decide (c1 > c2)) = true := by
          simp only [Bool.or_eq_true, decide_eq_true_eq]; omega
        have e2 : (true && true && decide (r1 ≤ r2) && decide (c1 ≤ c2)) = false := by
          simp only [Bool.true_and, Bool.and_eq_false_iff, decide_eq_false_iff_not]; omega
        rw [if_pos e1, e2]
        exact w12.keep r1
      · have ho : r1 ≤ r2 ∧ c1 ≤ c2 := Classical.byContradiction hno
        have e1 : (decide (r1 > r2) || decide (c1 > c2)) = false := by
          simp only [Bool.or_eq_false_iff, decide_eq_false_iff_not]; omega
        have e2 : (true && true && decide (r1 ≤ r2) && decide (c1 ≤ c2)) = true := by
          simp [ho.1, ho.2]
        rw [e1, e2]
        simp only [Bool.false_eq_true, if_false, if_true]
        refine w12.then ?_
        have hside : Side b s r1 := by
          rcases hs with hs | hs
          · exact Or.inl hs
          · exact Or.inr ⟨hs.1, hs.2.1, by omega⟩
        have hcov : s2.Cov r1 := w2.cov hcov1
        have hside2 := w12.side hside
        have hres : (if fa.result = [] then s2.cfg.defaultResult else fa.result) = resultOf E.cfg fa := by
          unfold resultOf; rw [w12.sim.texts.2.2.2]
        have wi := w12.sim.checkCell (c := c1)
          (ct := .array fa.text (resultOf E.cfg fa) (d || fa.dynamic) (cellRange r1 c1 r2 c2)) (f := f) hside2
          (fun cfg x => .arrayFormula fa.text (if fa.result = [] then cfg.defaultResult else fa.result) x
            (d || fa.dynamic) (cellRange r1 c1 r2 c2))
          (fun x => by simp only [Cell.content, hres]) (fun _ => rfl) (fun _ _ => trivial) (fun _ _ => rfl) hcov
        have hwa2 : s2.writingAhead = false := w12.wa.trans hwa
        generalize hs3 : (s2.xfFor r1 c1 f).2.insertCell r1 c1 _ = s3 at wi ⊢
        -- the current row is now `r1` or the calls are late
        have hcur3 : s2.cfg.constMem = true → s3.currentRow = max s2.currentRow r1 := by
          intro e; rw [wi.cur e]; unfold Sheet.after; rw [hwa2]; rfl
        have hrows : ∀ r, r1 ≤ r → r ≤ r2 → Side b s3 r := by
          intro r h1 h2
          rcases hs with ⟨hb, hs⟩ | ⟨hb, hm, hs⟩
          · refine Or.inl ⟨hb, fun e => ?_⟩
            rw [wi.cfg] at e
            have e' : s.cfg.constMem = true := by rw [← w12.cfg]; exact e
            rw [hcur3 e, w12.cur e']
            have := hs e'; omega
          · have e : s2.cfg.constMem = true := by rw [w12.cfg]; exact hm
            refine Or.inr ⟨hb, by rw [wi.cfg]; exact e, ?_⟩
            rw [hcur3 e, w12.cur hm]; omega
        have hmax3 : s3.cfg.constMem = true → s3.after r1 = s3.currentRow := by
          intro e
          rw [wi.cfg] at e
          unfold Sheet.after
          rw [hcur3 e]
          split <;> omega
        have wz := wi.sim.zeros f (List.range' (c1 + 1) (c2 - c1)) (hrows r1 (Nat.le_refl _) ho.1)
          (fun c hc => by
            rw [List.mem_range'_1] at hc
            exact inGrid_le g2 ho.1 (by omega)) hmax3
        rw [andThen_ok wz.2]
        generalize hs4 : (forEach (List.range' (c1 + 1) (c2 - c1)) _ s3).2 = s4 at wz ⊢
        have wz1 := wz.1
        clear wz
        have hcfg4 : s4.cfg = s2.cfg := wz1.cfg.trans wi.cfg
        have hrows4 : ∀ r, r1 ≤ r → r ≤ r2 → Side b s4 r := fun r h1 h2 => wz1.side (hrows r h1 h2)
        -- writing ahead
        have hflag : ∀ (A' : Abs Fmt) (s' : Sheet Fmt) (v : Bool), Sim E A' s' →
            Sim E A' (if s'.cfg.constMem = true then { s' with writingAhead := v } else s') ∧
            (if s'.cfg.constMem = true then { s' with writingAhead := v } else s').cfg = s'.cfg ∧
            (if s'.cfg.constMem = true then { s' with writingAhead := v } else s').currentRow = s'.currentRow ∧
            (if s'.cfg.constMem = true then { s' with writingAhead := v } else s').dims = s'.dims ∧
            (s'.cfg.constMem = true → (if s'.cfg.constMem = true then { s' with writingAhead := v } else s').writingAhead = v) ∧
            (s'.cfg.constMem = false → (if s'.cfg.constMem = true then { s' with writingAhead := v } else s') = s') := by
          intro A' s' v hs'
          by_cases e : s'.cfg.constMem = true
          · rw [if_pos e]
            refine ⟨?_, rfl, rfl, rfl, fun _ => rfl, fun x => by rw [e] at x; cases x⟩
            exact hs'.frame (hs'.gen.flags (rc := false) v s'.hasLocalSst s'.notes).1 rfl rfl (fun _ _ h => h) (DimsLe.refl _) rfl rfl rfl rfl rfl rfl rfl
              (fun _ => rfl)
          · rw [if_neg e]
            exact ⟨hs', rfl, rfl, rfl, fun x => absurd x e, fun _ => rfl⟩
        obtain ⟨f1, f2, f3, f4, f5, f6⟩ := hflag _ s4 true wz1.sim
        generalize hs5 : (if s4.cfg.constMem = true then { s4 with writingAhead := true } else s4) = s5 at f1 f2 f3 f4 f5 f6 ⊢
        have hrows5 : ∀ r ∈ List.range' (r1 + 1) (r2 - r1), Side b s5 r := by
          intro r hr
          rw [List.mem_range'_1] at hr
          have := hrows4 r (by omega) (by omega)
          unfold Side at *
          rw [f2, f3]
          exact this
        have wr := f1.zeroRows f (List.range' c1 (c2 + 1 - c1)) (List.range' (r1 + 1) (r2 - r1)) hrows5
          (fun r hr c hc => by
            rw [List.mem_range'_1] at hr hc
            exact inGrid_le g2 (by omega) (by omega))
          (fun e => f5 (by rw [← f2]; exact e))
        rw [andThen_ok wr.2]
        have wr1 := wr.1
        generalize hs6 : (forEach (List.range' (r1 + 1) (r2 - r1)) _ s5).2 = s6 at wr1 ⊢
        obtain ⟨i1, i2, i3, i4, i5, i6⟩ := hflag _ s6 false wr1.sim
        have hcfg6 : s6.cfg = s2.cfg := wr1.cfg.trans (f2.trans hcfg4)
        refine ⟨i1, i2.trans hcfg6, ?_, ?_, ?_⟩
        · show (if s6.cfg.constMem = true then { s6 with writingAhead := false } else s6).writingAhead = _
          rw [hwa2]
          cases e : s6.cfg.constMem with
          | true => rfl
          | false =>
            simp only [Bool.false_eq_true, if_false]
            rw [wr1.wa, f6 (by rw [← f2, ← wr1.cfg]; exact e), wz1.wa, wi.wa, hwa2]
        · intro e
          refine i3.trans ?_
          have e5 : s5.cfg.constMem = true := by rw [f2, hcfg4]; exact e
          rw [wr1.cur e5, f3, wz1.cur (by rw [wi.cfg]; exact e), wi.cur e]
          rfl
        · show DimsLe s2.dims (if s6.cfg.constMem = true then { s6 with writingAhead := false } else s6).dims
          rw [i4]
          refine (wi.dims.trans wz1.dims).trans ?_
          rw [← f4]; exact wr1.dims

end Verif
