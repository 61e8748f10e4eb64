import Verif.Lemmas.StreamRun
/-! Constant memory worksheets: histories in a workbook and the last rows. -/
set_option linter.unusedSectionVars false
set_option linter.unusedSimpArgs false
set_option linter.unusedVariables false
namespace Verif
open BMap
variable {Fmt : Type} [DecidableEq Fmt]
variable {E : Env Fmt} {A : Abs Fmt} {s : Sheet Fmt}

/-! ### Histories -/

/-- The row in memory after calls that start with row `k` in memory. -/
def cursorFrom (cfg : Cfg) (k : Nat) (l : List (Op Fmt)) : Nat := l.foldl (nextCur cfg) k

theorem cursor_eq (cfg : Cfg) (l : List (Op Fmt)) : cursor cfg l = cursorFrom cfg 0 l := rfl

theorem cursorFrom_cons (cfg : Cfg) (k : Nat) (op : Op Fmt) (l : List (Op Fmt)) :
    cursorFrom cfg k (op :: l) = cursorFrom cfg (nextCur cfg k op) l := rfl

theorem cursorFrom_snoc (cfg : Cfg) (k : Nat) (l : List (Op Fmt)) (op : Op Fmt) :
    cursorFrom cfg k (l ++ [op]) = nextCur cfg (cursorFrom cfg k l) op := by
  simp [cursorFrom]

theorem inTimeFrom_snoc (cfg : Cfg) (k : Nat) (l : List (Op Fmt)) (op : Op Fmt) :
    inTimeFrom cfg k (l ++ [op]) =
      inTimeFrom cfg k l ++ (if op.isLate (cursorFrom cfg k l) then [] else [op]) := by
  induction l generalizing k with
  | nil => show (if op.isLate k then [] else [op]) ++ [] = [] ++ (if op.isLate k then [] else [op]); cases op.isLate k <;> rfl
  | cons a l ih =>
    show (if a.isLate k then [] else [a]) ++ inTimeFrom cfg (nextCur cfg k a) (l ++ [op]) =
      ((if a.isLate k then [] else [a]) ++ inTimeFrom cfg (nextCur cfg k a) l) ++ _
    rw [ih, List.append_assoc, cursorFrom_cons]

theorem streamsFrom_snoc (cfg : Cfg) (k : Nat) (l : List (Op Fmt)) (op : Op Fmt) :
    streamsFrom cfg k (l ++ [op]) = (streamsFrom cfg k l && op.streams (cursorFrom cfg k l)) := by
  induction l generalizing k with
  | nil => simp [streamsFrom, cursorFrom]
  | cons a l ih =>
    show (a.streams k && streamsFrom cfg (nextCur cfg k a) (l ++ [op])) =
      ((a.streams k && streamsFrom cfg (nextCur cfg k a) l) && _)
    rw [ih, Bool.and_assoc, cursorFrom_cons]

theorem run_snoc (l : List (Op Fmt)) (op : Op Fmt) : Abs.run E (l ++ [op]) = (Abs.run E l).exec E op := by
  simp [Abs.run]

theorem streams_notRange {k : Nat} {op : Op Fmt} (h : op.streams k = true) : op.isRangeFormat = false := by
  cases op <;> first | rfl | cases h

/-- What the worksheet's own history says about it. -/
def StreamR (merge : Fmt → Fmt → Fmt) (dflt : Fmt) (s : Sheet Fmt) (l : List (Op Fmt)) : Prop :=
  ∀ c : Cfg, s.cfg.isReachable → s.cfg.sameTexts c →
    (s.cfg.constMem = true → streamsFrom c 0 l = true →
      Sim ⟨c, merge, dflt⟩ (Abs.run ⟨c, merge, dflt⟩ (inTime c l)) s ∧ s.currentRow = cursor c l ∧
        s.writingAhead = false) ∧
    (s.cfg.constMem = false → (∀ op ∈ l, op.isRangeFormat = false) →
      Sim ⟨c, merge, dflt⟩ (Abs.run ⟨c, merge, dflt⟩ l) s ∧ s.writingAhead = false)

theorem StreamR.book (cfgs : List Cfg) (merge : Fmt → Fmt → Fmt) (dflt : Fmt) (ops : List (Nat × Op Fmt)) :
    BookInv cfgs dflt (StreamR merge dflt) ((Book.new cfgs merge dflt).run ops) ops := by
  apply book_lift
  · intro cfg c hk ht
    have := Sim.new cfg hk ⟨c, merge, dflt⟩ ht
    exact ⟨fun _ _ => ⟨this, rfl, rfl⟩, fun _ _ => ⟨this, rfl⟩⟩
  · intro s l op hG h c hk ht
    have hcfg : (s.exec op).2.cfg = s.cfg := (hG.exec op).2.cfg
    rw [hcfg] at hk ht ⊢
    obtain ⟨h1, h2⟩ := h c hk ht
    constructor
    · intro hm hst
      rw [streamsFrom_snoc, Bool.and_eq_true] at hst
      obtain ⟨hs, hc, hw⟩ := h1 hm hst.1
      have hop : op.streams s.currentRow = true := by rw [hc, cursor_eq]; exact hst.2
      unfold inTime
      rw [inTimeFrom_snoc, ← cursor_eq, ← hc, cursor_eq, cursorFrom_snoc, ← cursor_eq, ← hc]
      cases e : op.isLate s.currentRow with
      | true =>
        have w := hs.late op hw hm e
        simp only [if_true, List.append_nil]
        exact ⟨w.sim, w.cur hm, w.wa.trans hw⟩
      | false =>
        have w := hs.exec op hw (streams_notRange hop) (fun _ => e) (fun _ => hop)
        simp only [Bool.false_eq_true, if_false, run_snoc]
        exact ⟨w.sim, w.cur hm, w.wa.trans hw⟩
    · intro hm hn
      obtain ⟨hs, hw⟩ := h2 hm (fun o ho => hn o (List.mem_append_left _ ho))
      have w := hs.exec op hw (hn op (by simp)) (fun e => by rw [hm] at e; cases e) (fun e => by rw [hm] at e; cases e)
      rw [run_snoc]
      exact ⟨w.sim, w.wa.trans hw⟩
  · intro s l t g hG hs h c hk ht
    obtain ⟨h1, h2⟩ := h c hk ht
    have key : ∀ E A, E.dflt = dflt → Sim E A s → Sim E A { s with sst := t, gxf := g } := by
      intro E A e hS
      exact hS.frame (by rw [e]; exact hG.shared hs) rfl rfl (fun i f => hs.fmtOf i f) (DimsLe.refl _) rfl rfl rfl rfl rfl rfl rfl
        (fun _ => rfl)
    constructor
    · intro hm hst
      obtain ⟨a, b, c⟩ := h1 hm hst
      exact ⟨key _ _ rfl a, b, c⟩
    · intro hm hn
      obtain ⟨a, b⟩ := h2 hm hn
      exact ⟨key _ _ rfl a, b⟩

/-! ### Which rows there are -/

/-- The rows with cells. -/
def Abs.has (A : Abs Fmt) (r : Nat) : Prop := r ∈ A.table.map Prod.fst

theorem has_iff (r : Nat) : A.has r ↔ (A.table.get r).isSome := mem_keys_iff

theorem put_has (b : Bool) (r c : Nat) (v : Content × Option Fmt) {q : Nat} (h : A.has q) : (A.put b r c v).has q := by
  unfold Abs.put
  split
  · exact mem_insert_keys.mpr (Or.inr h)
  · exact h

theorem put_has_self (r c : Nat) (v : Content × Option Fmt) : (A.put true r c v).has r := by
  unfold Abs.put
  rw [if_pos rfl]
  exact mem_insert_keys.mpr (Or.inl rfl)

/-- `A'` has the rows of `A`, and its row and column settings. -/
structure Abs.Ge (A A' : Abs Fmt) : Prop where
  has : ∀ q, A.has q → A'.has q
  rows : A'.rows = A.rows
  cols : A'.cols = A.cols

theorem Abs.Ge.refl (A : Abs Fmt) : A.Ge A := ⟨fun _ h => h, rfl, rfl⟩
theorem Abs.Ge.trans {A B C : Abs Fmt} (h : A.Ge B) (h' : B.Ge C) : A.Ge C :=
  ⟨fun q x => h'.has q (h.has q x), h'.rows.trans h.rows, h'.cols.trans h.cols⟩

theorem put_ge (b : Bool) (r c : Nat) (v : Content × Option Fmt) : A.Ge (A.put b r c v) := by
  refine ⟨fun q h => put_has b r c v h, ?_, ?_⟩ <;> (unfold Abs.put; split <;> rfl)

theorem storeBlank_ge (b : Bool) (r c : Nat) (f : Fmt) : A.Ge (A.storeBlank E b r c f) := by
  unfold Abs.storeBlank
  split
  · exact put_ge _ _ _ _
  · exact Abs.Ge.refl A

theorem storeText_ge (b : Bool) (r c : Nat) (str : Str) (ct : Content) (f : Option Fmt) :
    A.Ge (A.storeText E b r c str ct f) := by
  unfold Abs.storeText
  split
  · cases f with
    | none => exact Abs.Ge.refl A
    | some f => exact storeBlank_ge _ _ _ _
  · split
    · exact put_ge _ _ _ _
    · exact Abs.Ge.refl A

theorem storeNumber_ge (b : Bool) (r c : Nat) (n : F64) (f : Option Fmt) (d : Bool) :
    A.Ge (A.storeNumber E b r c n f d) := by
  unfold Abs.storeNumber
  split
  · cases n with
    | finite t => exact put_ge _ _ _ _
    | nan => exact storeText_ge _ _ _ _ _ _
    | posInf => exact storeText_ge _ _ _ _ _ _
    | negInf => exact storeText_ge _ _ _ _ _ _
  · exact Abs.Ge.refl A

theorem zeros_ge (b : Bool) (f : Option Fmt) (r : Nat) (l : List Nat) : A.Ge (A.zeros E b f r l) := by
  unfold Abs.zeros
  induction l generalizing A with
  | nil => exact Abs.Ge.refl A
  | cons c l ih => exact (storeNumber_ge b r c _ f false).trans ih

theorem zeroRows_ge (b : Bool) (f : Option Fmt) (rs cs : List Nat) :
    A.Ge (rs.foldl (fun A r => A.zeros E b f r cs) A) := by
  induction rs generalizing A with
  | nil => exact Abs.Ge.refl A
  | cons r rs ih => exact (zeros_ge b f r cs).trans ih

theorem storeArray_ge (b : Bool) (r1 c1 r2 c2 : Nat) (fa : FormulaArg) (f : Option Fmt) (d : Bool) :
    A.Ge (A.storeArray E b r1 c1 r2 c2 fa f d) := by
  unfold Abs.storeArray
  split
  · exact (put_ge _ _ _ _).trans ((zeros_ge _ _ _ _).trans (zeroRows_ge _ _ _ _))
  · exact Abs.Ge.refl A

theorem store_ge (b : Bool) (op : Op Fmt) : A.Ge (A.store E b op) := by
  cases op <;> simp only [Abs.store]
  · exact storeNumber_ge _ _ _ _ _ _
  · exact storeNumber_ge _ _ _ _ _ _
  · exact storeText_ge _ _ _ _ _ _
  · exact storeText_ge _ _ _ _ _ _
  · split
    · exact storeArray_ge _ _ _ _ _ _ _ _
    · split
      · exact put_ge _ _ _ _
      · exact Abs.Ge.refl A
  · exact storeArray_ge _ _ _ _ _ _ _ _
  · exact storeBlank_ge _ _ _ _
  · split
    · exact put_ge _ _ _ _
    · exact Abs.Ge.refl A
  all_goals exact Abs.Ge.refl A

theorem exec_has (op : Op Fmt) {q : Nat} (h : A.has q) : (A.exec E op).has q := by
  have ins : ∀ (r : Nat) (m : BMap (Content × Option Fmt)), ({ A with table := A.table.insert r m } : Abs Fmt).has q :=
    fun r m => mem_insert_keys.mpr (Or.inr h)
  cases op with
  | cellFormat r c f =>
    simp only [Abs.exec]
    split
    · unfold Abs.setFormat
      split
      · split <;> exact ins _ _
      · split
        · exact h
        · exact ins _ _
    · exact h
  | clearCell r c =>
    simp only [Abs.exec]
    split
    · unfold Abs.clearCell
      split
      · exact h
      · exact ins _ _
    · exact h
  | clearFormat r c =>
    simp only [Abs.exec]
    split
    · unfold Abs.clearFormat
      split
      · exact h
      · split
        · exact h
        · exact ins _ _
    · exact h
  | rowFormat r f => simp only [Abs.exec]; split <;> exact h
  | rowHeight r f => simp only [Abs.exec]; split <;> exact h
  | rowHidden r => simp only [Abs.exec]; split <;> exact h
  | columnFormat c f =>
    simp only [Abs.exec]
    split
    · unfold Abs.colSet; split <;> exact h
    · exact h
  | _ => exact (store_ge true _).has q h

/-- The settings of a row come from the calls about that row. -/
theorem exec_rows (op : Op Fmt) {q : Nat} (h : q ∈ (A.exec E op).rows.map Prod.fst) :
    q ∈ A.rows.map Prod.fst ∨ op.settingsRow = some q := by
  have rs : ∀ r (o : ARow Fmt), q ∈ (A.rows.insert r o).map Prod.fst → q ∈ A.rows.map Prod.fst ∨ some r = some q := by
    intro r o h
    rcases mem_insert_keys.mp h with rfl | h
    · exact Or.inr rfl
    · exact Or.inl h
  cases op with
  | cellFormat r c f =>
    simp only [Abs.exec] at h
    split at h
    · unfold Abs.setFormat at h
      split at h
      · split at h <;> exact Or.inl h
      · split at h <;> exact Or.inl h
    · exact Or.inl h
  | clearCell r c =>
    simp only [Abs.exec] at h
    split at h
    · unfold Abs.clearCell at h
      split at h <;> exact Or.inl h
    · exact Or.inl h
  | clearFormat r c =>
    simp only [Abs.exec] at h
    split at h
    · unfold Abs.clearFormat at h
      split at h
      · exact Or.inl h
      · split at h <;> exact Or.inl h
    · exact Or.inl h
  | rowFormat r f =>
    simp only [Abs.exec] at h
    split at h
    · exact rs _ _ h
    · exact Or.inl h
  | rowHeight r f =>
    simp only [Abs.exec] at h
    split at h
    · exact rs _ _ h
    · exact Or.inl h
  | rowHidden r =>
    simp only [Abs.exec] at h
    split at h
    · exact rs _ _ h
    · exact Or.inl h
  | columnFormat c f =>
    simp only [Abs.exec] at h
    split at h
    · unfold Abs.colSet at h; split at h <;> exact Or.inl h
    · exact Or.inl h
  | number r c n f => left; have := (store_ge (A := A) (E := E) true (.number r c n f)).rows; rw [← this]; exact h
  | dateTime r c n f => left; have := (store_ge (A := A) (E := E) true (.dateTime r c n f)).rows; rw [← this]; exact h
  | string r c n f => left; have := (store_ge (A := A) (E := E) true (.string r c n f)).rows; rw [← this]; exact h
  | rich r c n raw f => left; have := (store_ge (A := A) (E := E) true (.rich r c n raw f)).rows; rw [← this]; exact h
  | formula r c fa f => left; have := (store_ge (A := A) (E := E) true (.formula r c fa f)).rows; rw [← this]; exact h
  | arrayFormula r1 c1 r2 c2 fa f d =>
    left; have := (store_ge (A := A) (E := E) true (.arrayFormula r1 c1 r2 c2 fa f d)).rows; rw [← this]; exact h
  | blank r c f => left; have := (store_ge (A := A) (E := E) true (.blank r c f)).rows; rw [← this]; exact h
  | boolean r c v f => left; have := (store_ge (A := A) (E := E) true (.boolean r c v f)).rows; rw [← this]; exact h
  | rangeFormat => exact Or.inl h
  | note => exact Or.inl h

theorem run_rows (l : List (Op Fmt)) {q : Nat} (h : ((Abs.run E l).rows.get q).isSome) :
    ∃ op ∈ l, op.settingsRow = some q := by
  rw [← mem_keys_iff] at h
  have : ∀ (l : List (Op Fmt)) (A : Abs Fmt), q ∈ (l.foldl (Abs.exec E) A).rows.map Prod.fst →
      q ∈ A.rows.map Prod.fst ∨ ∃ op ∈ l, op.settingsRow = some q := by
    intro l
    induction l with
    | nil => intro A h; exact Or.inl h
    | cons op l ih =>
      intro A h
      rcases ih _ h with h | ⟨o, ho, h⟩
      · rcases exec_rows op h with h | h
        · exact Or.inl h
        · exact Or.inr ⟨op, List.mem_cons_self, h⟩
      · exact Or.inr ⟨o, List.mem_cons_of_mem _ ho, h⟩
  rcases this l _ h with h | h
  · simp [Abs.new] at h
  · exact h

end Verif
