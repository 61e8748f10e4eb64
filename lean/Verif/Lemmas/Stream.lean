import Verif.Lemmas.SavedAll
import Verif.Spec.Stream
/-!
Constant memory worksheets: a machine on decoded data (contents and formats instead of indices) that standard and
constant memory worksheets both follow.
-/
set_option linter.unusedSectionVars false
set_option linter.unusedSimpArgs false
set_option linter.unusedVariables false
namespace Verif
open BMap
variable {Fmt : Type} [DecidableEq Fmt]

/-! ### Maps -/

theorem insert_map {β γ : Type} (f : β → γ) (k : Nat) (v : β) (m : BMap β) :
    (BMap.insert k v m).map (fun p => (p.1, f p.2)) = BMap.insert k (f v) (m.map fun p => (p.1, f p.2)) := by
  induction m with
  | nil => rfl
  | cons p t ih =>
    obtain ⟨k', v'⟩ := p
    simp only [BMap.insert, List.map_cons]
    split
    · rfl
    · split
      · rfl
      · simp [ih]

theorem get_map2 {β γ : Type} (f : β → γ) (k : Nat) (m : BMap β) :
    BMap.get k (m.map fun p => (p.1, f p.2)) = (BMap.get k m).map f := BMap.get_map (fun _ => f) m k

theorem remove_map {β γ : Type} (f : β → γ) (k : Nat) (m : BMap β) :
    (BMap.remove k m).map (fun p => (p.1, f p.2)) = BMap.remove k (m.map fun p => (p.1, f p.2)) := by
  simp only [BMap.remove, List.filter_map]; rfl

theorem remove_absent {β : Type} {k : Nat} {m : BMap β} (h : BMap.get k m = none) : BMap.remove k m = m := by
  unfold BMap.remove
  rw [List.filter_eq_self]
  intro p hp
  have : p.1 ≠ k := by
    intro e
    induction m with
    | nil => cases hp
    | cons q t ih =>
      obtain ⟨k', v'⟩ := q
      simp only [BMap.get] at h
      split at h
      · cases h
      · rcases List.mem_cons.mp hp with rfl | hp
        · rename_i hne; exact hne e.symm
        · exact ih h hp
  simpa using this

theorem mem_keys_iff {β : Type} {m : BMap β} {k : Nat} : k ∈ m.map Prod.fst ↔ (BMap.get k m).isSome := by
  induction m with
  | nil => simp [BMap.get]
  | cons q t ih =>
    obtain ⟨k', v'⟩ := q
    simp only [List.map_cons, List.mem_cons, BMap.get]
    by_cases e : k = k'
    · simp [e]
    · simp [e, ih]

/-! ### The decoded machine -/

/-- Decoded row settings. -/
structure ARow (Fmt : Type) where
  height : Str
  hidden : Bool
  sty : Option Fmt
  fmt : Option Fmt

/-- Decoded worksheet data. -/
structure Abs (Fmt : Type) where
  table : BMap (BMap (Content × Option Fmt))
  rows : BMap (ARow Fmt)
  cols : BMap (Option Fmt × Option Fmt)

/-- What the calls on all sheets have in common. -/
structure Env (Fmt : Type) where
  cfg : Cfg
  merge : Fmt → Fmt → Fmt
  dflt : Fmt

namespace Abs

def fmtFor (E : Env Fmt) (A : Abs Fmt) (r c : Nat) (f : Option Fmt) : Option Fmt :=
  match f with
  | some f => some f
  | none =>
    match (A.cols.get c).bind (·.2) with
    | none => some E.dflt
    | some cf =>
      match (A.rows.get r).bind (·.fmt) with
      | none => some E.dflt
      | some rf => some (E.merge rf cf)

def put (b : Bool) (A : Abs Fmt) (r c : Nat) (v : Content × Option Fmt) : Abs Fmt :=
  if b then { A with table := A.table.insert r (((A.table.get r).getD []).insert c v) } else A

def storeBlank (E : Env Fmt) (b : Bool) (A : Abs Fmt) (r c : Nat) (f : Fmt) : Abs Fmt :=
  if inGrid r c then A.put b r c (.blank, if f = E.dflt then A.fmtFor E r c none else some f) else A

def storeText (E : Env Fmt) (b : Bool) (A : Abs Fmt) (r c : Nat) (str : Str) (ct : Content) (f : Option Fmt) :
    Abs Fmt :=
  if str = [] then
    match f with
    | some f => A.storeBlank E b r c f
    | none => A
  else if inGrid r c && decide (str.length ≤ MAX_STRING_LEN) then A.put b r c (ct, A.fmtFor E r c f)
  else A

def storeNumber (E : Env Fmt) (b : Bool) (A : Abs Fmt) (r c : Nat) (n : F64) (f : Option Fmt) (isDate : Bool) :
    Abs Fmt :=
  if inGrid r c then
    match n with
    | .nan => A.storeText E b r c E.cfg.nanText (.text E.cfg.nanText) f
    | .posInf => A.storeText E b r c E.cfg.infText (.text E.cfg.infText) f
    | .negInf => A.storeText E b r c E.cfg.negInfText (.text E.cfg.negInfText) f
    | .finite t => A.put b r c (if isDate then .dateTime t else .number t, A.fmtFor E r c f)
  else A

def zeros (E : Env Fmt) (b : Bool) (f : Option Fmt) (r : Nat) (l : List Nat) (A : Abs Fmt) : Abs Fmt :=
  l.foldl (fun A c => A.storeNumber E b r c (.finite "0".toList) f false) A

def storeArray (E : Env Fmt) (b : Bool) (A : Abs Fmt) (r1 c1 r2 c2 : Nat) (fa : FormulaArg) (f : Option Fmt)
    (d : Bool) : Abs Fmt :=
  if inGrid r1 c1 && inGrid r2 c2 && decide (r1 ≤ r2) && decide (c1 ≤ c2) then
    (List.range' (r1 + 1) (r2 - r1)).foldl (fun A r => A.zeros E b f r (List.range' c1 (c2 + 1 - c1)))
      ((A.put b r1 c1 (.array fa.text (resultOf E.cfg fa) (d || fa.dynamic) (cellRange r1 c1 r2 c2),
        A.fmtFor E r1 c1 f)).zeros E b f r1 (List.range' (c1 + 1) (c2 - c1)))
  else A

def setFormat (E : Env Fmt) (A : Abs Fmt) (r c : Nat) (f : Fmt) : Abs Fmt :=
  match A.table.get r with
  | some cols =>
    match cols.get c with
    | some v => { A with table := A.table.insert r (cols.insert c (v.1, some f)) }
    | none => { A with table := A.table.insert r (cols.insert c (.blank, some f)) }
  | none => if f = E.dflt then A else { A with table := A.table.insert r [(c, (.blank, some f))] }

def clearCell (A : Abs Fmt) (r c : Nat) : Abs Fmt :=
  match A.table.get r with
  | none => A
  | some cols => { A with table := A.table.insert r (cols.remove c) }

def clearFormat (E : Env Fmt) (A : Abs Fmt) (r c : Nat) : Abs Fmt :=
  match A.table.get r with
  | none => A
  | some cols =>
    match cols.get c with
    | none => A
    | some v => { A with table := A.table.insert r (cols.insert c (v.1, some E.dflt)) }

def height0 : Str := "15".toList

def rowOpt (E : Env Fmt) (old : Option (ARow Fmt)) (h : Option Str) (f : Option Fmt) (hid : Bool) : ARow Fmt :=
  match old with
  | some o => ⟨h.getD o.height, o.hidden || hid, match f with | some f => some f | none => o.sty, o.fmt⟩
  | none => ⟨h.getD height0, hid, some (f.getD E.dflt), f⟩

def rowSet (E : Env Fmt) (A : Abs Fmt) (r : Nat) (h : Option Str) (f : Option Fmt) (hid : Bool) : Abs Fmt :=
  { A with rows := A.rows.insert r (rowOpt E (A.rows.get r) h f hid) }

def colSet (A : Abs Fmt) (c : Nat) (f : Fmt) : Abs Fmt :=
  match A.cols.get c with
  | some o => { A with cols := A.cols.insert c (some f, o.2) }
  | none => { A with cols := A.cols.insert c (some f, some f) }

/-- One call; `b` is false if it is ignored by constant memory mode. -/
def store (E : Env Fmt) (b : Bool) (A : Abs Fmt) : Op Fmt → Abs Fmt
  | .number r c n f => A.storeNumber E b r c n f false
  | .dateTime r c n f => A.storeNumber E b r c n f true
  | .string r c t f => A.storeText E b r c t (.text t) f
  | .rich r c t raw f => A.storeText E b r c t (.rich t raw) f
  | .formula r c fa f =>
    if fa.dynamic then A.storeArray E b r c r c fa none true
    else if inGrid r c then A.put b r c (.formula fa.text (resultOf E.cfg fa), A.fmtFor E r c f) else A
  | .arrayFormula r1 c1 r2 c2 fa f d => A.storeArray E b r1 c1 r2 c2 fa f d
  | .blank r c f => A.storeBlank E b r c f
  | .boolean r c v f => if inGrid r c then A.put b r c (.boolean v, A.fmtFor E r c f) else A
  | _ => A

def exec (E : Env Fmt) (A : Abs Fmt) : Op Fmt → Abs Fmt
  | .cellFormat r c f => if inGrid r c then A.setFormat E r c f else A
  | .clearCell r c => if inGrid r c then A.clearCell r c else A
  | .clearFormat r c => if inGrid r c then A.clearFormat E r c else A
  | .rowFormat r f => if r < ROW_MAX then A.rowSet E r none (some f) false else A
  | .rowHeight r h => if r < ROW_MAX then A.rowSet E r (some h) none false else A
  | .rowHidden r => if r < ROW_MAX then A.rowSet E r none none true else A
  | .columnFormat c f => if c < COL_MAX then A.colSet c f else A
  | op => A.store E true op

def new : Abs Fmt := ⟨[], [], []⟩

def run (E : Env Fmt) (ops : List (Op Fmt)) : Abs Fmt := ops.foldl (exec E) new

/-- The format in effect. -/
def eff (dflt : Fmt) (A : Abs Fmt) (r c : Nat) (f : Option Fmt) : Option Fmt :=
  let f := if f = some dflt then (match A.rows.get r with | some o => o.sty | none => f) else f
  if f = some dflt then (match A.cols.get c with | some o => o.1 | none => f) else f

/-- What a reader should find in row `r`. -/
def rowView (dflt : Fmt) (A : Abs Fmt) (r : Nat) : Option (RowView Fmt) :=
  if (A.table.get r).isSome || (A.rows.get r).isSome then
    some ⟨r, (A.rows.get r).map fun o => (o.height, o.hidden, if o.sty = some dflt then none else o.sty),
      (A.table.get r).map fun l => l.map fun p => (p.1, p.2.1, A.eff dflt r p.1 p.2.2)⟩
  else none

end Abs

/-! ### Decoding -/

def Sheet.decCell (s : Sheet Fmt) (c : Cell) : Content × Option Fmt := (c.content, s.fmtOf c.xf)
def Sheet.decRow (s : Sheet Fmt) (m : BMap Cell) : BMap (Content × Option Fmt) := m.map fun p => (p.1, s.decCell p.2)
def Sheet.decOpt (s : Sheet Fmt) (o : RowOpt Fmt) : ARow Fmt := ⟨o.height, o.hidden, s.fmtOf o.xf, o.fmt⟩
def Sheet.decCol (s : Sheet Fmt) (o : ColOpt Fmt) : Option Fmt × Option Fmt := (s.fmtOf o.xf, o.fmt)
def Sheet.decOut (s : Sheet Fmt) (ro : RowOut Fmt) : RowView Fmt :=
  ⟨ro.row, ro.opt.map fun o => (o.height, o.hidden, if o.xf = 0 then none else s.fmtOf o.xf),
    ro.cells.map fun l => l.map fun p => (p.1, p.2.1.content, s.fmtOf p.2.2)⟩

/-- The row is in the dimensions of the worksheet. -/
def Sheet.Cov (s : Sheet Fmt) (r : Nat) : Prop := s.cfg.constMem = false → s.dims.firstRow ≤ r ∧ r ≤ s.dims.lastRow

/-- The texts for special numbers and the default result do not depend on the mode. -/
def Cfg.sameTexts (a b : Cfg) : Prop :=
  a.nanText = b.nanText ∧ a.infText = b.infText ∧ a.negInfText = b.negInfText ∧ a.defaultResult = b.defaultResult

/-- The worksheet follows the decoded machine. -/
structure Sim (E : Env Fmt) (A : Abs Fmt) (s : Sheet Fmt) : Prop where
  gen : Gen E.dflt s
  kind : s.cfg.isReachable
  texts : s.cfg.sameTexts E.cfg
  merge : s.merge = E.merge
  height : s.defaultHeight = Abs.height0
  hasLocal : s.cfg.inlineStrings = true → s.hasLocalSst = false
  dims : s.dims.firstRow ≤ ROW_MAX ∧ s.dims.firstCol ≤ COL_MAX
  srtT : Sorted s.table
  srtW : Sorted s.writeAhead
  srtA : Sorted A.table
  srtAr : Sorted A.rows
  srtAc : Sorted A.cols
  rows : ∀ r, (s.cfg.constMem = true → s.currentRow ≤ r) → (s.changedRows.get r).map s.decOpt = A.rows.get r
  cols : ∀ c, (s.changedCols.get c).map s.decCol = A.cols.get c
  tbl : ∀ r, (s.cfg.constMem = true → r = s.currentRow) → (s.table.get r).map s.decRow = A.table.get r
  ahead : s.cfg.constMem = true → ∀ r, s.currentRow < r → (s.writeAhead.get r).map s.decRow = A.table.get r
  aheadK : ∀ r, (s.writeAhead.get r).isSome → s.currentRow < r
  out : s.cfg.constMem = true → s.out.map s.decOut = (List.range s.currentRow).filterMap (A.rowView E.dflt)
  outV : ∀ ro ∈ s.out, ∀ o, ro.opt = some o → (s.fmtOf o.xf).isSome
  wrT : s.cfg.constMem = true → TblAll (fun c => c.isWritten true = true) s.table
  wrW : s.cfg.constMem = true → TblAll (fun c => c.isWritten true = true) s.writeAhead
  cover : ∀ r, (A.table.get r).isSome ∨ (A.rows.get r).isSome → s.Cov r

theorem fmtOf_mono {s s' : Sheet Fmt} (hg : ∀ i f, s.fmtOf i = some f → s'.fmtOf i = some f) {i : Nat}
    (h : (s.fmtOf i).isSome) : s'.fmtOf i = s.fmtOf i := by
  obtain ⟨f, hf⟩ := Option.isSome_iff_exists.mp h
  rw [hf]; exact hg i f hf

theorem decRow_mono {s s' : Sheet Fmt} (hg : ∀ i f, s.fmtOf i = some f → s'.fmtOf i = some f) {m : BMap Cell}
    (h : ∀ p ∈ m, (s.fmtOf p.2.xf).isSome) : s'.decRow m = s.decRow m := by
  apply List.map_congr_left
  intro p hp
  simp only [Sheet.decCell, fmtOf_mono hg (h p hp)]

theorem decTbl_mono {s s' : Sheet Fmt} (hg : ∀ i f, s.fmtOf i = some f → s'.fmtOf i = some f)
    {t : BMap (BMap Cell)} (h : TblAll (CellV s) t) (r : Nat) :
    (t.get r).map s'.decRow = (t.get r).map s.decRow := by
  cases e : t.get r with
  | none => rfl
  | some m => simp only [Option.map_some, decRow_mono hg fun p hp => (h.get e p hp).2]

/-- Growth of the formats and changes outside the data. -/
theorem Sim.frame {E : Env Fmt} {A : Abs Fmt} {s s' : Sheet Fmt} (h : Sim E A s) (hG : Gen E.dflt s')
    (hcfg : s'.cfg = s.cfg) (hmg : s'.merge = s.merge)
    (hf : ∀ i f, s.fmtOf i = some f → s'.fmtOf i = some f) (hd : DimsLe s.dims s'.dims)
    (ht : s'.table = s.table) (ha : s'.writeAhead = s.writeAhead)
    (ho : s'.out = s.out) (hr : s'.changedRows = s.changedRows) (hc : s'.changedCols = s.changedCols)
    (hcur : s'.currentRow = s.currentRow) (hh : s'.defaultHeight = s.defaultHeight)
    (hl : s.cfg.inlineStrings = true → s'.hasLocalSst = s.hasLocalSst) : Sim E A s' := by
  refine ⟨hG, hcfg ▸ h.kind, hcfg ▸ h.texts, hmg.trans h.merge, hh.trans h.height, ?_, ?_, ht ▸ h.srtT, ha ▸ h.srtW,
    h.srtA, h.srtAr, h.srtAc, ?_, ?_, ?_, ?_, ?_, ?_, ?_, ?_, ?_, ?_⟩
  · rw [hcfg]; intro e; rw [hl e]; exact h.hasLocal e
  · have := h.dims; unfold DimsLe at hd; omega
  · intro r e
    rw [hcfg, hcur] at e
    rw [hr, ← h.rows r e]
    cases e' : s.changedRows.get r with
    | none => rfl
    | some o => simp only [Option.map_some, Sheet.decOpt, fmtOf_mono hf (h.gen.rowsV r o e')]
  · intro c
    rw [hc, ← h.cols c]
    cases e' : s.changedCols.get c with
    | none => rfl
    | some o => simp only [Option.map_some, Sheet.decCol, fmtOf_mono hf (h.gen.colsV c o e')]
  · intro r e
    rw [hcfg, hcur] at e
    rw [ht, ← h.tbl r e]
    exact decTbl_mono hf h.gen.table r
  · rw [hcfg, hcur, ha]
    intro e r hr
    rw [← h.ahead e r hr]
    exact decTbl_mono hf h.gen.ahead r
  · rw [hcur, ha]; exact h.aheadK
  · rw [hcfg, hcur, ho]
    intro e
    rw [← h.out e]
    apply List.map_congr_left
    intro ro hro
    have hgl : s.cfg.globalXfs = true := by
      rcases h.kind with k | k | k
      · rw [k.1] at e; cases e
      · exact k.2.2.1
      · exact k.2.2.1
    have hgx : ∀ i, s.fmtOf i = (tblKeys s.gxf)[i]? := by intro i; simp [Sheet.fmtOf, hgl]
    unfold Sheet.decOut
    congr 1
    · cases e1 : ro.opt with
      | none => rfl
      | some o => simp only [Option.map_some, fmtOf_mono hf (h.outV ro hro o e1)]
    · cases e1 : ro.cells with
      | none => rfl
      | some l =>
        simp only [Option.map_some, Option.some.injEq]
        apply List.map_congr_left
        intro p hp
        rw [fmtOf_mono hf]
        rw [hgx]
        exact (h.gen.out ro hro p (by rw [e1]; exact hp)).2 hgl
  · intro ro hro o e
    rw [ho] at hro
    exact isSome_mono hf (h.outV ro hro o e)
  · rw [hcfg, ht]; exact h.wrT
  · rw [hcfg, ha]; exact h.wrW
  · intro r e hm
    rw [hcfg] at hm
    have := h.cover r e hm
    unfold DimsLe at hd
    omega

theorem Sim.new (cfg : Cfg) (hk : cfg.isReachable) (E : Env Fmt) (ht : cfg.sameTexts E.cfg) :
    Sim E Abs.new (Sheet.new cfg E.merge E.dflt) := by
  refine ⟨Gen.new cfg E.merge E.dflt, hk, ht, rfl, rfl, fun _ => rfl, ⟨Nat.le_refl _, Nat.le_refl _⟩, by simp [Sheet.new, Sorted],
    by simp [Sheet.new, Sorted], by simp [Abs.new, Sorted], by simp [Abs.new, Sorted], by simp [Abs.new, Sorted],
    fun _ _ => rfl, fun _ => rfl, fun _ _ => rfl, fun _ _ _ => rfl, ?_, fun _ => rfl, ?_, ?_, ?_, ?_⟩
  · intro r e; simp [Sheet.new, BMap.get] at e
  · intro ro hro; simp [Sheet.new] at hro
  · intro _ q hq; simp [Sheet.new] at hq
  · intro _ q hq; simp [Sheet.new] at hq
  · intro r e; simp [Abs.new, BMap.get] at e

end Verif
