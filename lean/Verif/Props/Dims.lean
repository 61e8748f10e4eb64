import Verif.Model.Dims
import Verif.Props.Refusal
import Verif.Lemmas.Ref
import Verif.Lemmas.SavedAll
import Verif.Props.Ref
/-!
C11: the `<dimension>` element is the bounding box of what was written.
-/
set_option linter.unusedSectionVars false
set_option linter.unusedSimpArgs false
namespace Verif
open BMap
variable {Fmt : Type} [DecidableEq Fmt]

/-- Extension of the dimensions by one cell (standard mode). -/
def extD (d : Dims) (r c : Nat) : Dims :=
  ⟨min d.firstRow r, min d.firstCol c, max d.lastRow r, max d.lastCol c⟩

theorem extD_covers {d : Dims} {r c : Nat} (h : Covers d r c) : extD d r c = d := by
  unfold Covers at h
  obtain ⟨a, b, e, f⟩ := d
  simp only [extD, Dims.mk.injEq] at *
  omega

private theorem cd_std (s : Sheet Fmt) (hm : s.cfg.constMem = false) {r c : Nat} (hg : inGrid r c = true) :
    s.checkDimensions r c = (true, { s with dims := extD s.dims r c }) := by
  rcases checkDimensions_std s hm r c with ⟨h, _⟩ | ⟨_, h⟩
  · rw [hg] at h; cases h
  · exact h

private theorem formatXf_dims (s : Sheet Fmt) (f : Fmt) :
    (s.formatXfIndex f).2.dims = s.dims ∧ (s.formatXfIndex f).2.cfg = s.cfg := by
  unfold Sheet.formatXfIndex
  split
  · split <;> exact ⟨rfl, rfl⟩
  · split <;> exact ⟨rfl, rfl⟩

private theorem rowCol_dims (s : Sheet Fmt) (r c : Nat) :
    (s.rowColFormat r c).2.dims = s.dims ∧ (s.rowColFormat r c).2.cfg = s.cfg := by
  unfold Sheet.rowColFormat
  split
  · exact ⟨rfl, rfl⟩
  · split
    · exact ⟨rfl, rfl⟩
    · split
      · exact ⟨rfl, rfl⟩
      · split
        · exact ⟨rfl, rfl⟩
        · exact formatXf_dims _ _

private theorem xfFor_dims' (s : Sheet Fmt) (r c : Nat) (f : Option Fmt) :
    (s.xfFor r c f).2.dims = s.dims ∧ (s.xfFor r c f).2.cfg = s.cfg := by
  unfold Sheet.xfFor
  split
  · exact formatXf_dims _ _
  · exact rowCol_dims _ _ _

private theorem insertCell_dims (s : Sheet Fmt) (hm : s.cfg.constMem = false) (r c : Nat) (cell : Cell) :
    (s.insertCell r c cell).dims = s.dims ∧ (s.insertCell r c cell).cfg = s.cfg := by
  rw [insertCell_std s hm]; exact ⟨rfl, rfl⟩

private theorem blank_dims (s : Sheet Fmt) (hm : s.cfg.constMem = false) {r c : Nat} (hg : inGrid r c = true)
    (f : Fmt) : (s.storeBlank r c f).2.dims = extD s.dims r c := by
  unfold Sheet.storeBlank
  rw [cd_std s hm hg]
  simp only
  generalize hs : ({ s with dims := extD s.dims r c } : Sheet Fmt) = s1
  have e1 : s1.dims = extD s.dims r c := by rw [← hs]
  have c1 : s1.cfg.constMem = false := by rw [← hs]; exact hm
  have hf := formatXf_dims s1 f
  have hr := rowCol_dims (s1.formatXfIndex f).2 r c
  split
  · try simp only
    rw [(insertCell_dims _ (by rw [hr.2, hf.2]; exact c1) r c _).1, hr.1, hf.1, e1]
  · simp only
    rw [(insertCell_dims _ (by rw [hf.2]; exact c1) r c _).1, hf.1, e1]

private theorem string_dims (s : Sheet Fmt) (hm : s.cfg.constMem = false) {r c : Nat} (hg : inGrid r c = true)
    (t : Str) (f : Option Fmt) (hne : ¬ (t = [] ∧ f = none)) :
    (s.storeString r c t f).2.dims = extD s.dims r c := by
  unfold Sheet.storeString
  by_cases h0 : t = []
  · rw [if_pos h0]
    cases f with
    | none => exact absurd ⟨h0, rfl⟩ hne
    | some f => exact blank_dims s hm hg f
  · rw [if_neg h0, cd_std s hm hg]
    simp only
    split
    · rfl
    · generalize hs : ({ s with dims := extD s.dims r c } : Sheet Fmt) = s1
      have e1 : s1.dims = extD s.dims r c := by rw [← hs]
      have c1 : s1.cfg.constMem = false := by rw [← hs]; exact hm
      have hx := xfFor_dims' s1 r c f
      split
      · simp only
        rw [(insertCell_dims _ (by rw [hx.2]; exact c1) r c _).1, hx.1, e1]
      · simp only
        rw [(insertCell_dims _ (by simp only [hx.2]; exact c1) r c _).1]
        simp only [hx.1, e1]

private theorem rich_dims (s : Sheet Fmt) (hm : s.cfg.constMem = false) {r c : Nat} (hg : inGrid r c = true)
    (t raw : Str) (f : Option Fmt) (hne : ¬ (t = [] ∧ f = none)) :
    (s.storeRich r c t raw f).2.dims = extD s.dims r c := by
  unfold Sheet.storeRich
  by_cases h0 : t = []
  · rw [if_pos h0]
    cases f with
    | none => exact absurd ⟨h0, rfl⟩ hne
    | some f => exact blank_dims s hm hg f
  · rw [if_neg h0, cd_std s hm hg]
    simp only
    split
    · rfl
    · generalize hs : ({ s with dims := extD s.dims r c } : Sheet Fmt) = s1
      have e1 : s1.dims = extD s.dims r c := by rw [← hs]
      have c1 : s1.cfg.constMem = false := by rw [← hs]; exact hm
      have hx := xfFor_dims' s1 r c f
      have key : ∀ t', ((({ (s1.xfFor r c f).2 with sst := t' } : Sheet Fmt).insertCell r c
          (.rich t raw (s1.xfFor r c f).1 (if (s1.xfFor r c f).2.cfg.globalSst = true then
            some ((s1.xfFor r c f).2.sst.index t).1 else none)))).dims = extD s.dims r c := by
        intro t'
        rw [(insertCell_dims _ (by simp only [hx.2]; exact c1) r c _).1]
        simp only [hx.1, e1]
      have e2 : ∀ q : Sheet Fmt, (if q.cfg.inlineStrings = true then q else { q with hasLocalSst := true }).dims = q.dims := by
        intro q; split <;> rfl
      simp only
      rw [e2]
      rw [(insertCell_dims _ (by simp only [hx.2]; exact c1) r c _).1]
      simp only [hx.1, e1]

private theorem number_dims (s : Sheet Fmt) (hm : s.cfg.constMem = false) {r c : Nat} (hg : inGrid r c = true)
    (n : F64) (f : Option Fmt) (b : Bool) :
    (s.storeNumberType r c n f b).2.dims = extD s.dims r c := by
  unfold Sheet.storeNumberType
  rw [cd_std s hm hg]
  simp only
  have cov : Covers (extD s.dims r c) r c := by
    unfold Covers extD; dsimp only; omega
  have key : ∀ t : Str, (({ s with dims := extD s.dims r c } : Sheet Fmt).storeString r c t f).2.dims =
      extD s.dims r c := by
    intro t
    by_cases h : t = [] ∧ f = none
    · obtain ⟨rfl, rfl⟩ := h; rfl
    · rw [string_dims ({ s with dims := extD s.dims r c } : Sheet Fmt) hm hg t f h]
      exact extD_covers cov
  cases n with
  | nan => exact key _
  | posInf => exact key _
  | negInf => exact key _
  | finite t =>
    simp only
    have hx := xfFor_dims' ({ s with dims := extD s.dims r c } : Sheet Fmt) r c f
    rw [(insertCell_dims _ (by rw [hx.2]; exact hm) r c _).1, hx.1]

private theorem number_cfg (s : Sheet Fmt) (hm : s.cfg.constMem = false) {r c : Nat} (hg : inGrid r c = true)
    (t : Str) (f : Option Fmt) (b : Bool) :
    (s.storeNumberType r c (.finite t) f b).2.cfg = s.cfg := by
  unfold Sheet.storeNumberType
  rw [cd_std s hm hg]
  simp only
  have hx := xfFor_dims' ({ s with dims := extD s.dims r c } : Sheet Fmt) r c f
  rw [(insertCell_dims _ (by rw [hx.2]; exact hm) r c _).2, hx.2]

private theorem forEach_inv {α : Type} (I : Sheet Fmt → Prop) (l : List α) (f : α → Sheet Fmt → Res Fmt)
    (h : ∀ a ∈ l, ∀ s, I s → I (f a s).2) (s : Sheet Fmt) (hs : I s) : I (forEach l f s).2 := by
  induction l generalizing s with
  | nil => exact hs
  | cons a l ih =>
    simp only [forEach, Res.andThen]
    have h1 := h a List.mem_cons_self s hs
    split
    · exact h1
    · exact ih (fun b hb => h b (List.mem_cons_of_mem _ hb)) _ h1

private theorem andThen_inv (I : Sheet Fmt → Prop) {r : Res Fmt} {f : Sheet Fmt → Res Fmt} (h : I r.2)
    (hf : ∀ s, I s → I (f s).2) : I (Res.andThen r f).2 := by
  unfold Res.andThen; split
  · exact h
  · exact hf _ h

private theorem array_dims (s : Sheet Fmt) (hm : s.cfg.constMem = false) {r1 c1 r2 c2 : Nat}
    (h1 : inGrid r1 c1 = true) (h2 : inGrid r2 c2 = true) (hr : r1 ≤ r2) (hc : c1 ≤ c2)
    (fa : FormulaArg) (f : Option Fmt) (b : Bool) :
    (s.storeArrayFormula r1 c1 r2 c2 fa f b).2.dims = extD (extD s.dims r1 c1) r2 c2 := by
  unfold Sheet.storeArrayFormula
  rw [cd_std s hm h1]
  simp only
  rw [cd_std ({ s with dims := extD s.dims r1 c1 } : Sheet Fmt) hm h2]
  simp only
  rw [if_neg (by simp; omega)]
  try simp only
  generalize hD : extD (extD s.dims r1 c1) r2 c2 = D
  have cov : ∀ r c, r1 ≤ r → r ≤ r2 → c1 ≤ c → c ≤ c2 → Covers D r c := by
    intro r c a1 a2 a3 a4
    rw [← hD]
    unfold Covers extD; dsimp only
    omega
  let I : Sheet Fmt → Prop := fun q => q.dims = D ∧ q.cfg.constMem = false
  have grid : ∀ r c, r ≤ r2 → c ≤ c2 → inGrid r c = true := by
    intro r c a1 a2; simp [inGrid] at h2 ⊢; omega
  have cell : ∀ r c, r1 ≤ r → r ≤ r2 → c1 ≤ c → c ≤ c2 → ∀ q, I q → I (q.storeNumberType r c (.finite "0".toList) f false).2 := by
    intro r c a1 a2 a3 a4 q hq
    refine ⟨?_, ?_⟩
    · rw [number_dims q hq.2 (grid r c a2 a4), hq.1]
      exact extD_covers (cov r c a1 a2 a3 a4)
    · rw [number_cfg q hq.2 (grid r c a2 a4)]; exact hq.2
  have hx := xfFor_dims' ({ s with dims := D } : Sheet Fmt) r1 c1 f
  have fin : ∀ r : Res Fmt, I r.2 → r.2.dims = D := fun r h => h.1
  apply fin
  refine andThen_inv I ?_ ?_
  · refine forEach_inv I _ _ ?_ _ ?_
    · intro c hcm q hq
      rw [List.mem_range'_1] at hcm
      exact cell r1 c (Nat.le_refl _) hr (by omega) (by omega) q hq
    · have := insertCell_dims (({ s with dims := D } : Sheet Fmt).xfFor r1 c1 f).2 (by rw [hx.2]; exact hm) r1 c1
      refine ⟨?_, ?_⟩
      · rw [(this _).1, hx.1]
      · rw [(this _).2, hx.2]; exact hm
  · intro q hq
    have hq' : I (if q.cfg.constMem = true then { q with writingAhead := true } else q) := by
      rw [if_neg (by rw [hq.2]; simp)]; exact hq
    refine andThen_inv I ?_ ?_
    · refine forEach_inv I _ _ ?_ _ hq'
      intro r hrm q hq
      refine forEach_inv I _ _ ?_ _ hq
      intro c hcm q hq
      rw [List.mem_range'_1] at hrm hcm
      exact cell r c (by omega) (by omega) (by omega) (by omega) q hq
    · intro q hq
      show I (if q.cfg.constMem = true then { q with writingAhead := false } else q)
      rw [if_neg (by rw [hq.2]; simp)]; exact hq

/-- The corner cells by which an accepted call extends the dimensions. -/
def Op.corners : Op Fmt → List (Nat × Nat)
  | .string r c s f | .rich r c s _ f => if s = [] ∧ f.isNone then [] else [(r, c)]
  | .number r c _ _ | .dateTime r c _ _ | .formula r c _ _ | .blank r c _
  | .boolean r c _ _ | .cellFormat r c _ | .note r c _ => [(r, c)]
  | .arrayFormula r1 c1 r2 c2 _ _ _ => [(r1, c1), (r2, c2)]
  | _ => []

/-- Extension by a list of cells. -/
def extL (d : Dims) (l : List (Nat × Nat)) : Dims := l.foldl (fun d p => extD d p.1 p.2) d

private theorem insertCellFormat_dims (s : Sheet Fmt) (r c xf : Nat) : (s.insertCellFormat r c xf).dims = s.dims := by
  unfold Sheet.insertCellFormat
  split
  · split <;> rfl
  · split <;> rfl

theorem exec_dims (s : Sheet Fmt) (hm : s.cfg.constMem = false) (op : Op Fmt) (hc : op.isCellCall = true)
    (hok : op.refusal s.cfg = none) : (s.exec op).2.dims = extL s.dims op.corners := by
  have gr : ∀ r c, (if !inGrid r c then some Err.rowColumnLimit else none) = none → inGrid r c = true := by
    intro r c; cases inGrid r c <;> simp
  have gn : ∀ r c n, refuseNumber s.cfg r c n = none → inGrid r c = true := by
    intro r c n; unfold refuseNumber; cases inGrid r c <;> simp
  have gs : ∀ r c (t : Str) (f : Option Fmt), ¬ (t = [] ∧ f = none) → refuseString r c t f = none → inGrid r c = true := by
    intro r c t f h
    unfold refuseString; rw [if_neg (by simpa using h)]
    cases inGrid r c <;> simp
  have hstr : ∀ (t : Str) (f : Option Fmt), (t = [] ∧ f.isNone) ↔ (t = [] ∧ f = none) := by
    intro t f; simp
  cases op with
  | number r c n f => exact number_dims s hm (gn r c n hok) n f false
  | dateTime r c n f => exact number_dims s hm (gn r c n hok) n f true
  | string r c t f =>
    show (s.storeString r c t f).2.dims = _
    simp only [Op.corners, hstr]
    by_cases h : t = [] ∧ f = none
    · rw [if_pos h]; obtain ⟨rfl, rfl⟩ := h; rfl
    · rw [if_neg h]; exact string_dims s hm (gs r c t f h hok) t f h
  | rich r c t raw f =>
    show (s.storeRich r c t raw f).2.dims = _
    simp only [Op.corners, hstr]
    by_cases h : t = [] ∧ f = none
    · rw [if_pos h]; obtain ⟨rfl, rfl⟩ := h; rfl
    · rw [if_neg h]; exact rich_dims s hm (gs r c t f h hok) t raw f h
  | formula r c fa f =>
    have hg := gr r c hok
    show (s.storeFormula r c fa f).2.dims = _
    unfold Sheet.storeFormula
    by_cases hd : fa.dynamic = true
    · rw [if_pos hd, array_dims s hm hg hg (Nat.le_refl _) (Nat.le_refl _)]
      show _ = extD s.dims r c
      refine extD_covers ?_
      unfold Covers extD; dsimp only; omega
    · rw [if_neg hd, cd_std s hm hg]
      simp only
      have hx := xfFor_dims' ({ s with dims := extD s.dims r c } : Sheet Fmt) r c f
      rw [(insertCell_dims _ (by rw [hx.2]; exact hm) r c _).1, hx.1]
      rfl
  | arrayFormula r1 c1 r2 c2 fa f d =>
    simp only [Op.refusal, refuseRange] at hok
    have h1 : inGrid r1 c1 = true := by revert hok; cases inGrid r1 c1 <;> simp
    have h2 : inGrid r2 c2 = true := by revert hok; cases inGrid r2 c2 <;> simp
    rw [h1, h2] at hok
    simp only [Bool.not_true, Bool.or_self, Bool.false_eq_true, if_false] at hok
    have ho : r1 ≤ r2 ∧ c1 ≤ c2 := by
      by_cases h : r1 > r2 || c1 > c2
      · rw [if_pos h] at hok; cases hok
      · simp at h; omega
    exact array_dims s hm h1 h2 ho.1 ho.2 fa f d
  | blank r c f => exact blank_dims s hm (gr r c hok) f
  | boolean r c b f =>
    show (s.storeBoolean r c b f).2.dims = _
    unfold Sheet.storeBoolean
    rw [cd_std s hm (gr r c hok)]
    simp only
    have hx := xfFor_dims' ({ s with dims := extD s.dims r c } : Sheet Fmt) r c f
    rw [(insertCell_dims _ (by rw [hx.2]; exact hm) r c _).1, hx.1]
    rfl
  | cellFormat r c f =>
    show (s.setCellFormat r c f).2.dims = _
    unfold Sheet.setCellFormat
    rw [cd_std s hm (gr r c hok)]
    simp only
    rw [insertCellFormat_dims, (formatXf_dims _ f).1]
    rfl
  | clearCell r c =>
    show (s.clearCell r c).dims = _
    unfold Sheet.clearCell
    split
    · rfl
    · split <;> rfl
  | clearFormat r c =>
    show (s.clearCellFormat r c).dims = _
    unfold Sheet.clearCellFormat
    split
    · rfl
    · split
      · rfl
      · split <;> rfl
  | note r c t =>
    show (s.insertNote r c t).2.dims = _
    have hg : inGrid r c = true := by
      simp only [Op.refusal] at hok; revert hok; cases inGrid r c <;> simp
    unfold Sheet.insertNote
    rw [cd_std s hm hg]
    simp only
    split
    · rfl
    · split <;> rfl
  | _ => simp [Op.isCellCall] at hc

/-- The dimensions against the set of touched cells. -/
def DimsFor (P : Nat → Nat → Prop) (d : Dims) : Prop :=
  ((∀ r c, ¬ P r c) ∧ d = ⟨ROW_MAX, COL_MAX, 0, 0⟩) ∨ IsBox P d.firstRow d.firstCol d.lastRow d.lastCol

private theorem DimsFor.ext {P Q : Nat → Nat → Prop} {d : Dims} (h : DimsFor P d) (r1 c1 r2 c2 : Nat)
    (hr : r1 ≤ r2) (hc : c1 ≤ c2) (hg : inGrid r2 c2 = true)
    (hQ : ∀ r c, Q r c ↔ P r c ∨ (r1 ≤ r ∧ r ≤ r2 ∧ c1 ≤ c ∧ c ≤ c2)) :
    DimsFor Q (extD (extD d r1 c1) r2 c2) := by
  have g := (inGrid_iff r2 c2).mp hg
  right
  rcases h with ⟨hn, rfl⟩ | ⟨hin, ⟨tc, ht⟩, ⟨bc, hb⟩, ⟨lr, hl⟩, ⟨rr, hrr⟩⟩
  · have e : extD (extD ⟨ROW_MAX, COL_MAX, 0, 0⟩ r1 c1) r2 c2 = ⟨r1, c1, r2, c2⟩ := by
      simp only [extD, Dims.mk.injEq]; omega
    rw [e]
    refine ⟨?_, ⟨c1, (hQ _ _).mpr (Or.inr (by dsimp only; omega))⟩, ⟨c1, (hQ _ _).mpr (Or.inr (by dsimp only; omega))⟩,
      ⟨r1, (hQ _ _).mpr (Or.inr (by dsimp only; omega))⟩, ⟨r1, (hQ _ _).mpr (Or.inr (by dsimp only; omega))⟩⟩
    intro r c h
    rcases (hQ r c).mp h with h | h
    · exact absurd h (hn r c)
    · exact h
  · have e : extD (extD d r1 c1) r2 c2 = ⟨min d.firstRow r1, min d.firstCol c1, max d.lastRow r2, max d.lastCol c2⟩ := by
      simp only [extD, Dims.mk.injEq]; omega
    rw [e]
    refine ⟨?_, ?_, ?_, ?_, ?_⟩
    · intro r c h
      dsimp only
      rcases (hQ r c).mp h with h | h
      · have := hin r c h; omega
      · omega
    · dsimp only
      by_cases hh : d.firstRow ≤ r1
      · rw [Nat.min_eq_left hh]; exact ⟨tc, (hQ _ _).mpr (Or.inl ht)⟩
      · rw [Nat.min_eq_right (by omega)]; exact ⟨c1, (hQ _ _).mpr (Or.inr (by omega))⟩
    · dsimp only
      by_cases hh : d.lastRow ≤ r2
      · rw [Nat.max_eq_right hh]; exact ⟨c1, (hQ _ _).mpr (Or.inr (by omega))⟩
      · rw [Nat.max_eq_left (by omega)]; exact ⟨bc, (hQ _ _).mpr (Or.inl hb)⟩
    · dsimp only
      by_cases hh : d.firstCol ≤ c1
      · rw [Nat.min_eq_left hh]; exact ⟨lr, (hQ _ _).mpr (Or.inl hl)⟩
      · rw [Nat.min_eq_right (by omega)]; exact ⟨r1, (hQ _ _).mpr (Or.inr (by omega))⟩
    · dsimp only
      by_cases hh : d.lastCol ≤ c2
      · rw [Nat.max_eq_right hh]; exact ⟨r1, (hQ _ _).mpr (Or.inr (by omega))⟩
      · rw [Nat.max_eq_left (by omega)]; exact ⟨rr, (hQ _ _).mpr (Or.inl hrr)⟩

theorem DimsFor.congr {P Q : Nat → Nat → Prop} {d : Dims} (h : DimsFor P d)
    (hQ : ∀ r c, Q r c ↔ P r c) : DimsFor Q d := by
  have : Q = P := by funext r c; exact propext (hQ r c)
  rw [this]; exact h

private theorem DimsFor.one {P Q : Nat → Nat → Prop} {d : Dims} (h : DimsFor P d) (r0 c0 : Nat)
    (hg : inGrid r0 c0 = true) (hQ : ∀ r c, Q r c ↔ P r c ∨ (r = r0 ∧ c = c0)) :
    DimsFor Q (extD d r0 c0) := by
  have := h.ext (Q := Q) r0 c0 r0 c0 (Nat.le_refl _) (Nat.le_refl _) hg (fun r c => by
    rw [hQ r c]
    constructor
    · rintro (h | ⟨rfl, rfl⟩)
      · exact Or.inl h
      · exact Or.inr (by omega)
    · rintro (h | h)
      · exact Or.inl h
      · exact Or.inr (by omega))
  rw [extD_covers (d := extD d r0 c0) (by unfold Covers extD; dsimp only; omega)] at this
  exact this

theorem DimsFor.step {P : Nat → Nat → Prop} {d : Dims} (h : DimsFor P d) (cfg : Cfg) (op : Op Fmt)
    (hc : op.isCellCall = true) (hok : op.refusal cfg = none) :
    DimsFor (fun r c => P r c ∨ op.touches r c) (extL d op.corners) := by
  have gr : ∀ r c, (if !inGrid r c then some Err.rowColumnLimit else none) = none → inGrid r c = true := by
    intro r c; cases inGrid r c <;> simp
  have gn : ∀ r c n, refuseNumber cfg r c n = none → inGrid r c = true := by
    intro r c n; unfold refuseNumber; cases inGrid r c <;> simp
  have st : ∀ r0 c0 (t : Str) (f : Option Fmt), refuseString r0 c0 t f = none →
      DimsFor (fun r c => P r c ∨ ((r = r0 ∧ c = c0) ∧ ¬ (t = [] ∧ f = none)))
        (extL d (if t = [] ∧ f.isNone then [] else [(r0, c0)])) := by
    intro r0 c0 t f hok
    by_cases hh : t = [] ∧ f = none
    · rw [if_pos (by simpa using hh)]
      exact h.congr (fun r c => by simp [hh])
    · rw [if_neg (by simpa using hh)]
      have hg : inGrid r0 c0 = true := by
        unfold refuseString at hok; rw [if_neg (by simpa using hh)] at hok
        revert hok; cases inGrid r0 c0 <;> simp
      exact h.one r0 c0 hg (fun r c => by simp [hh])
  cases op with
  | number r c n f => exact h.one r c (gn r c n hok) (fun _ _ => Iff.rfl)
  | dateTime r c n f => exact h.one r c (gn r c n hok) (fun _ _ => Iff.rfl)
  | string r c t f => exact st r c t f hok
  | rich r c t raw f => exact st r c t f hok
  | formula r c fa f => exact h.one r c (gr r c hok) (fun _ _ => Iff.rfl)
  | arrayFormula r1 c1 r2 c2 fa f d' =>
    simp only [Op.refusal, refuseRange] at hok
    have h1 : inGrid r1 c1 = true := by revert hok; cases inGrid r1 c1 <;> simp
    have h2 : inGrid r2 c2 = true := by revert hok; cases inGrid r2 c2 <;> simp
    rw [h1, h2] at hok
    simp only [Bool.not_true, Bool.or_self, Bool.false_eq_true, if_false] at hok
    have ho : r1 ≤ r2 ∧ c1 ≤ c2 := by
      by_cases h : r1 > r2 || c1 > c2
      · rw [if_pos h] at hok; cases hok
      · simp at h; omega
    exact h.ext r1 c1 r2 c2 ho.1 ho.2 h2 (fun _ _ => Iff.rfl)
  | blank r c f => exact h.one r c (gr r c hok) (fun _ _ => Iff.rfl)
  | boolean r c b f => exact h.one r c (gr r c hok) (fun _ _ => Iff.rfl)
  | cellFormat r c f => exact h.one r c (gr r c hok) (fun _ _ => Iff.rfl)
  | note r c t =>
    have hg : inGrid r c = true := by
      simp only [Op.refusal] at hok; revert hok; cases inGrid r c <;> simp
    exact h.one r c hg (fun _ _ => Iff.rfl)
  | clearCell r c => exact h.congr (fun _ _ => by simp [Op.touches])
  | clearFormat r c => exact h.congr (fun _ _ => by simp [Op.touches])
  | _ => simp [Op.isCellCall] at hc

/-- The cells a history touches. -/
def touched (l : List (Op Fmt)) (r c : Nat) : Prop := ∃ op ∈ l, op.touches r c

/-- Invariant of a standard worksheet: its dimensions are the box of the touched cells. -/
def DimsR (s : Sheet Fmt) (l : List (Op Fmt)) : Prop :=
  s.cfg.isStandard → (∀ op ∈ l, op.isCellCall = true ∧ op.refusal s.cfg = none) → DimsFor (touched l) s.dims

theorem DimsR.book (cfgs : List Cfg) (merge : Fmt → Fmt → Fmt) (dflt : Fmt) (ops : List (Nat × Op Fmt)) :
    BookInv cfgs dflt DimsR ((Book.new cfgs merge dflt).run ops) ops := by
  apply book_lift
  · intro cfg _ _
    left
    exact ⟨fun r c ⟨op, ho, _⟩ => by simp at ho, rfl⟩
  · intro s l op hG h hstd hall
    have hcfg : (s.exec op).2.cfg = s.cfg := (hG.exec op).2.cfg
    rw [hcfg] at hstd hall
    have h1 := h hstd (fun o ho => hall o (List.mem_append_left _ ho))
    have h2 := hall op (by simp)
    rw [exec_dims s hstd.1 op h2.1 h2.2]
    refine (h1.step s.cfg op h2.1 h2.2).congr ?_
    intro r c
    simp only [touched, List.mem_append, List.mem_singleton]
    constructor
    · rintro ⟨o, ho | rfl, ht⟩
      · exact Or.inl ⟨o, ho, ht⟩
      · exact Or.inr ht
    · rintro (⟨o, ho, ht⟩ | ht)
      · exact ⟨o, Or.inl ho, ht⟩
      · exact ⟨op, Or.inr rfl, ht⟩
  · intro s l t g _ _ h
    exact h

theorem view_of_prepare {cfgs : List Cfg} {dflt : Fmt} {R : Sheet Fmt → List (Op Fmt) → Prop} {b : Book Fmt}
    {ops : List (Nat × Op Fmt)} (h : BookInv cfgs dflt R b ops) (extra : List Fmt) {i : Nat} {s' : Sheet Fmt}
    (hs : (b.prepare extra).sheets[i]? = some s') :
    ∃ s, b.sheets[i]? = some s ∧ s'.dims = s.dims ∧ s'.cfg = s.cfg ∧ s'.notes = s.notes ∧
      s'.changedRows = s.changedRows := by
  obtain ⟨_, _, _, _, hlen, hp⟩ := prepare_spec h extra
  have hlt : i < b.sheets.length := by
    have := (List.getElem?_eq_some_iff.mp hs).1
    omega
  have hs0 : b.sheets[i]? = some b.sheets[i] := List.getElem?_eq_getElem hlt
  obtain ⟨l, t', _, _, _, _, hget⟩ := hp i _ hs0
  rw [hs] at hget
  cases hget
  refine ⟨_, hs0, ?_⟩
  have := withIds_same ({ (b.sheets[i]) with globalXf := l } : Sheet Fmt) t'
  rw [this]
  exact ⟨rfl, rfl, rfl, rfl⟩

/-- The reference of dimensions that are a box. -/
theorem dimensionRef_of_box {P : Nat → Nat → Prop} {s : Sheet Fmt} (hD : DimsFor P s.dims) :
    ((∀ r c, ¬ P r c) ∧ s.dimensionRef = "A1".toList) ∨
    (∃ r1 c1 r2 c2, IsBox P r1 c1 r2 c2 ∧
      ((r1, c1, r2, c2) ≠ (0, 0, 0, 16383) → Spec.readRange s.dimensionRef = some ((r1, c1), (r2, c2)))) := by
  rcases hD with ⟨hn, he⟩ | hbox
  · left
    refine ⟨hn, ?_⟩
    unfold Sheet.dimensionRef
    rw [he]
    rfl
  · right
    refine ⟨_, _, _, _, hbox, ?_⟩
    intro hne
    unfold Sheet.dimensionRef
    simp only
    rw [if_neg, if_pos]
    · exact C02_range_roundtrip _ _ _ _
    · obtain ⟨r, hr⟩ := hbox.right
      have := hbox.inside _ _ hr
      by_cases h1 : s.dims.firstCol = COL_MAX
      · right; right; right; rw [h1] at this; simp only [COL_MAX] at this; omega
      · right; left; exact h1
    · rintro ⟨a, b, c, d⟩
      apply hne
      rw [a, b, c, d]; rfl

section
variable (cfgs : List Cfg) (merge : Fmt → Fmt → Fmt) (dflt : Fmt) (ops : List (Nat × Op Fmt)) (extra : List Fmt)

/-- C11: for every history of accepted cell calls on a standard worksheet, the `<dimension>`
reference reads back as the bounding box of the cells that were written, and is `A1` if there
are none.  The only exception in the code: when the box is exactly the whole first row `A1` is
written (finding F35). -/
theorem C11_dimension_is_bounding_box (i : Nat) (cfg : Cfg) (hc : cfgs[i]? = some cfg) (hstd : cfg.isStandard)
    (hcell : ∀ op ∈ opsFor i ops, op.isCellCall = true)
    (hok : ∀ op ∈ opsFor i ops, op.refusal cfg = none) (s : Sheet Fmt)
    (hs : (savedBook cfgs merge dflt ops extra).sheets[i]? = some s) :
    ((∀ r c, ¬ touched (opsFor i ops) r c) ∧ s.dimensionRef = "A1".toList) ∨
    (∃ r1 c1 r2 c2, IsBox (touched (opsFor i ops)) r1 c1 r2 c2 ∧
      ((r1, c1, r2, c2) ≠ (0, 0, 0, 16383) → Spec.readRange s.dimensionRef = some ((r1, c1), (r2, c2)))) := by
  have hb := DimsR.book cfgs merge dflt ops
  obtain ⟨s0, hs0, hd, hcf, _⟩ := view_of_prepare hb extra hs
  have hcfg0 : s0.cfg = cfg := by
    have := hb.cfg i s0 hs0; rw [hc] at this; cases this; rfl
  have := hb.rel i s0 hs0 (by show (s0.cfg).isStandard; rw [hcfg0]; exact hstd)
    (fun op ho => ⟨hcell op ho, by show op.refusal s0.cfg = none; rw [hcfg0]; exact hok op ho⟩)
  have hD : DimsFor (touched (opsFor i ops)) s.dims := by rw [hd]; exact this
  exact dimensionRef_of_box hD

end

/-! ### Concrete cases -/
section
private def demo : List (Nat × Op Nat) :=
  [(0, .string 3 2 "hello".toList none), (0, .string 100 50 [] none), (0, .note 1 9 false),
   (0, .arrayFormula 5 3 6 4 ⟨"X".toList, [], false⟩ none false), (0, .clearCell 1 9)]

example : (∀ op ∈ opsFor 0 demo, op.isCellCall = true) ∧ (∀ op ∈ opsFor 0 demo, op.refusal {} = none) := by
  decide +kernel
example : ((savedBook [{}] (fun a _ => a) 0 demo []).sheets[0]?).map Sheet.dimensionRef = some "C2:J7".toList := by
  decide +kernel

/-- C11 fails for a sheet that uses `A1` and `XFD1` (and nothing below): finding F35. -/
theorem C11_first_row_counterexample :
    ((savedBook [{}] (fun a _ => a) 0
      [(0, (.number 0 0 (.finite "1".toList) none : Op Nat)), (0, .number 0 16383 (.finite "1".toList) none)] []).sheets[0]?).map
      Sheet.dimensionRef = some "A1".toList := by decide +kernel
end
end Verif
