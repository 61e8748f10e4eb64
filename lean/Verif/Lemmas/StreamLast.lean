import Verif.Lemmas.StreamBook
/-! Constant memory worksheets: the rows written at the end. -/
set_option linter.unusedSectionVars false
set_option linter.unusedSimpArgs false
set_option linter.unusedVariables false
namespace Verif
open BMap
variable {Fmt : Type} [DecidableEq Fmt]
variable {E : Env Fmt} {A : Abs Fmt} {s : Sheet Fmt}

/-! ### The row in memory has cells -/

theorem storeBlank_has {r c : Nat} {f : Fmt} (h : inGrid r c = true) : (A.storeBlank E true r c f).has r := by
  unfold Abs.storeBlank; rw [if_pos h]; exact put_has_self _ _ _

theorem storeText_has {r c : Nat} {str : Str} {ct ct' : Content} {f : Option Fmt}
    (h : (updString r c ct' str f).isWrite = true) : (A.storeText E true r c str ct f).has r := by
  unfold updString at h
  unfold Abs.storeText
  by_cases e : str = []
  · rw [if_pos e] at h ⊢
    cases f with
    | none => cases h
    | some f =>
      cases hg : inGrid r c with
      | false => rw [hg] at h; cases h
      | true => exact storeBlank_has hg
  · rw [if_neg e] at h ⊢
    by_cases e2 : (inGrid r c && decide (str.length ≤ 32767)) = true
    · rw [if_pos (show (inGrid r c && decide (str.length ≤ MAX_STRING_LEN)) = true from e2)]
      exact put_has_self _ _ _
    · rw [if_neg e2] at h; cases h

theorem storeNumber_has {r c : Nat} {n : F64} {f : Option Fmt} {d d' : Bool}
    (h : (updNumber E.cfg r c n f d').isWrite = true) : (A.storeNumber E true r c n f d).has r := by
  unfold updNumber at h
  unfold Abs.storeNumber
  cases hg : inGrid r c with
  | false => rw [hg] at h; cases n <;> cases h
  | true =>
    rw [hg] at h
    rw [if_pos rfl]
    cases n with
    | finite t => exact put_has_self _ _ _
    | nan => exact storeText_has h
    | posInf => exact storeText_has h
    | negInf => exact storeText_has h

theorem storeArray_has {r1 c1 r2 c2 : Nat} {fa : FormulaArg} {f : Option Fmt} {d : Bool}
    (h1 : r1 ≤ r2) (h2 : c1 ≤ c2) (h3 : inGrid r2 c2 = true) : (A.storeArray E true r1 c1 r2 c2 fa f d).has r1 := by
  unfold Abs.storeArray
  rw [if_pos (by simp [h1, h2, h3, inGrid_le h3 h1 h2])]
  exact (zeroRows_ge _ _ _ _).has _ ((zeros_ge _ _ _ _).has _ (put_has_self _ _ _))

theorem lands_has {op : Op Fmt} {r : Nat} (h : op.lands E.cfg = some r) : (A.exec E op).has r := by
  have key : ∀ {u : Upd Fmt} {q : Nat}, (if u.isWrite then some q else none) = some r → u.isWrite = true ∧ q = r := by
    intro u q h
    split at h
    · rename_i e; exact ⟨e, by cases h; rfl⟩
    · cases h
  cases op with
  | number r' c n f =>
    have : (if (updNumber E.cfg r' c n f false).isWrite then some r' else none) = some r := by
      rw [← h]; simp [Op.lands, Op.effectAt]
    obtain ⟨h1, rfl⟩ := key this; exact storeNumber_has h1
  | dateTime r' c n f =>
    have : (if (updNumber E.cfg r' c n f true).isWrite then some r' else none) = some r := by
      rw [← h]; simp [Op.lands, Op.effectAt]
    obtain ⟨h1, rfl⟩ := key this; exact storeNumber_has h1
  | string r' c t f =>
    have : (if (updString r' c (.text t) t f).isWrite then some r' else none) = some r := by
      rw [← h]; simp [Op.lands, Op.effectAt]
    obtain ⟨h1, rfl⟩ := key this; exact storeText_has h1
  | rich r' c t raw f =>
    have : (if (updString r' c (.rich t raw) t f).isWrite then some r' else none) = some r := by
      rw [← h]; simp [Op.lands, Op.effectAt]
    obtain ⟨h1, rfl⟩ := key this; exact storeText_has h1
  | blank r' c f =>
    have : (if (if inGrid r' c then Upd.write .blank (some f) else .keep).isWrite then some r' else none) = some r := by
      rw [← h]; simp [Op.lands, Op.effectAt]
    obtain ⟨h1, rfl⟩ := key this
    cases hg : inGrid r' c with
    | false => rw [hg] at h1; cases h1
    | true => exact storeBlank_has hg
  | boolean r' c v f =>
    have : (if (if inGrid r' c then Upd.write (.boolean v) f else .keep).isWrite then some r' else none) = some r := by
      rw [← h]; simp [Op.lands, Op.effectAt]
    obtain ⟨h1, rfl⟩ := key this
    cases hg : inGrid r' c with
    | false => rw [hg] at h1; cases h1
    | true =>
      show (if inGrid r' c then A.put true r' c (.boolean v, A.fmtFor E r' c f) else A).has r'
      rw [if_pos hg]; exact put_has_self _ _ _
  | formula r' c fa f =>
    have : inGrid r' c = true ∧ r' = r := by
      cases hg : inGrid r' c with
      | false => simp [Op.lands, Op.effectAt, hg, Upd.isWrite] at h
      | true =>
        simp only [Op.lands, Op.effectAt, hg, and_self, if_true] at h
        have := key h
        exact ⟨rfl, this.2⟩
    obtain ⟨hg, rfl⟩ := this
    show (if fa.dynamic then A.storeArray E true r' c r' c fa none true
      else if inGrid r' c then A.put true r' c (.formula fa.text (resultOf E.cfg fa), A.fmtFor E r' c f) else A).has r'
    split
    · exact storeArray_has (Nat.le_refl _) (Nat.le_refl _) hg
    · exact put_has_self _ _ _
  | arrayFormula r1 c1 r2 c2 fa f d =>
    have : (r1 ≤ r2 ∧ c1 ≤ c2 ∧ inGrid r2 c2 = true) ∧ r1 = r := by
      by_cases e : r1 ≤ r2 ∧ c1 ≤ c2 ∧ inGrid r2 c2 = true
      · simp only [Op.lands] at h
        exact ⟨e, (key h).2⟩
      · simp only [Op.lands, Op.effectAt, Nat.le_refl, true_and] at h
        have e' : ¬ (r1 ≤ r2 ∧ c1 ≤ c2 ∧ inGrid r2 c2 = true ∧ r1 ≤ r2 ∧ c1 ≤ c2) := fun x => e ⟨x.1, x.2.1, x.2.2.1⟩
        simp [e', Upd.isWrite] at h
    obtain ⟨⟨h1, h2, h3⟩, rfl⟩ := this
    exact storeArray_has h1 h2 h3
  | _ => cases h

theorem lands_late {c : Cfg} {op : Op Fmt} {k r : Nat} (h : op.lands c = some r) (hs : op.streams k = true) :
    if op.isLate k then r ≤ k else k ≤ r := by
  have key : ∀ {u : Upd Fmt} {q : Nat}, (if u.isWrite then some q else none) = some r → q = r := by
    intro u q h
    split at h
    · cases h; rfl
    · cases h
  cases op with
  | arrayFormula r1 c1 r2 c2 fa f d =>
    have hr : r1 ≤ r2 ∧ r1 = r := by
      by_cases e : r1 ≤ r2
      · simp only [Op.lands] at h
        exact ⟨e, key h⟩
      · simp [Op.lands, Op.effectAt, e, Upd.isWrite] at h
    obtain ⟨h1, rfl⟩ := hr
    simp only [Op.streams, Bool.or_eq_true, decide_eq_true_eq] at hs
    cases e : (Op.arrayFormula r1 c1 r2 c2 fa f d).isLate k with
    | true =>
      have h2 : r1 < k ∧ r2 < k := by simpa [Op.isLate] using e
      rw [if_pos rfl]; omega
    | false =>
      have h2 : ¬ (r1 < k ∧ r2 < k) := by simpa [Op.isLate] using e
      rw [if_neg (by simp)]; omega
  | number r' => have := key h; subst this; simp only [Op.isLate, decide_eq_true_eq]; split <;> omega
  | dateTime r' => have := key h; subst this; simp only [Op.isLate, decide_eq_true_eq]; split <;> omega
  | string r' => have := key h; subst this; simp only [Op.isLate, decide_eq_true_eq]; split <;> omega
  | rich r' => have := key h; subst this; simp only [Op.isLate, decide_eq_true_eq]; split <;> omega
  | formula r' => have := key h; subst this; simp only [Op.isLate, decide_eq_true_eq]; split <;> omega
  | blank r' => have := key h; subst this; simp only [Op.isLate, decide_eq_true_eq]; split <;> omega
  | boolean r' => have := key h; subst this; simp only [Op.isLate, decide_eq_true_eq]; split <;> omega
  | _ => cases h

theorem storeBlank_stay {r c : Nat} {f : Fmt} (h : inGrid r c = false) : A.storeBlank E true r c f = A := by
  unfold Abs.storeBlank; rw [h]; rfl

theorem storeText_stay {r c : Nat} {str : Str} {ct ct' : Content} {f : Option Fmt}
    (h : (updString r c ct' str f).isWrite = false) : A.storeText E true r c str ct f = A := by
  unfold updString at h
  unfold Abs.storeText
  by_cases e : str = []
  · rw [if_pos e] at h ⊢
    cases f with
    | none => rfl
    | some f =>
      cases hg : inGrid r c with
      | true => rw [hg] at h; cases h
      | false => exact storeBlank_stay hg
  · rw [if_neg e] at h ⊢
    by_cases e2 : (inGrid r c && decide (str.length ≤ 32767)) = true
    · rw [if_pos e2] at h; cases h
    · rw [if_neg (show ¬ (inGrid r c && decide (str.length ≤ MAX_STRING_LEN)) = true from e2)]

theorem storeNumber_stay {r c : Nat} {n : F64} {f : Option Fmt} {d d' : Bool}
    (h : (updNumber E.cfg r c n f d').isWrite = false) : A.storeNumber E true r c n f d = A := by
  unfold updNumber at h
  unfold Abs.storeNumber
  cases hg : inGrid r c with
  | false => rfl
  | true =>
    rw [hg] at h
    rw [if_pos rfl]
    cases n with
    | finite t => cases h
    | nan => exact storeText_stay h
    | posInf => exact storeText_stay h
    | negInf => exact storeText_stay h

/-- A call that would write cells but does not leaves everything as it is. -/
theorem lands_none {op : Op Fmt} (hst : op.isStore = true) (h : op.lands E.cfg = none) : A.exec E op = A := by
  have key : ∀ {u : Upd Fmt} {q : Nat}, (if u.isWrite then some q else none) = none → u.isWrite = false := by
    intro u q h
    cases e : u.isWrite with
    | false => rfl
    | true => rw [e] at h; cases h
  cases op with
  | number r' c n f =>
    have : (if (updNumber E.cfg r' c n f false).isWrite then some r' else none) = none := by
      rw [← h]; simp [Op.lands, Op.effectAt]
    exact storeNumber_stay (key this)
  | dateTime r' c n f =>
    have : (if (updNumber E.cfg r' c n f true).isWrite then some r' else none) = none := by
      rw [← h]; simp [Op.lands, Op.effectAt]
    exact storeNumber_stay (key this)
  | string r' c t f =>
    have : (if (updString r' c (.text t) t f).isWrite then some r' else none) = none := by
      rw [← h]; simp [Op.lands, Op.effectAt]
    exact storeText_stay (key this)
  | rich r' c t raw f =>
    have : (if (updString r' c (.rich t raw) t f).isWrite then some r' else none) = none := by
      rw [← h]; simp [Op.lands, Op.effectAt]
    exact storeText_stay (key this)
  | blank r' c f =>
    have : (if (if inGrid r' c then Upd.write .blank (some f) else .keep).isWrite then some r' else none) = none := by
      rw [← h]; simp [Op.lands, Op.effectAt]
    have h1 := key this
    cases hg : inGrid r' c with
    | true => rw [hg] at h1; cases h1
    | false => exact storeBlank_stay hg
  | boolean r' c v f =>
    have : (if (if inGrid r' c then Upd.write (.boolean v) f else .keep).isWrite then some r' else none) = none := by
      rw [← h]; simp [Op.lands, Op.effectAt]
    have h1 := key this
    cases hg : inGrid r' c with
    | true => rw [hg] at h1; cases h1
    | false =>
      show (if inGrid r' c then A.put true r' c (.boolean v, A.fmtFor E r' c f) else A) = A
      rw [hg]; rfl
  | formula r' c fa f =>
    have hg : inGrid r' c = false := by
      cases hg : inGrid r' c with
      | false => rfl
      | true =>
        simp only [Op.lands, Op.effectAt, hg, and_self, if_true] at h
        have := key h
        split at this <;> cases this
    show (if fa.dynamic then A.storeArray E true r' c r' c fa none true
      else if inGrid r' c then A.put true r' c (.formula fa.text (resultOf E.cfg fa), A.fmtFor E r' c f) else A) = A
    unfold Abs.storeArray
    rw [hg]
    simp
  | arrayFormula r1 c1 r2 c2 fa f d =>
    have e : ¬ (r1 ≤ r2 ∧ c1 ≤ c2 ∧ inGrid r2 c2 = true) := by
      intro e
      obtain ⟨e1, e2, e3⟩ := e
      simp [Op.lands, Op.effectAt, e1, e2, e3, Upd.isWrite] at h
    show A.storeArray E true r1 c1 r2 c2 fa f d = A
    unfold Abs.storeArray
    rw [if_neg]
    intro x
    simp only [Bool.and_eq_true, decide_eq_true_eq] at x
    exact e ⟨x.1.2, x.2, x.1.1.2⟩
  | _ => cases hst

/-- As long as no call has written cells, only the first row can have cells. -/
theorem exec_first {op : Op Fmt} {q : Nat} (h : op.lands E.cfg = none) (hs : op.streams 0 = true)
    (hq : (A.exec E op).has q) : A.has q ∨ q = 0 := by
  have ins : ∀ (r : Nat) (m : BMap (Content × Option Fmt)), r ≤ 0 →
      ({ A with table := A.table.insert r m } : Abs Fmt).has q → A.has q ∨ q = 0 := by
    intro r m hr h
    rcases mem_insert_keys.mp h with rfl | h
    · exact Or.inr (by omega)
    · exact Or.inl h
  by_cases hst : op.isStore = true
  · rw [lands_none hst h] at hq; exact Or.inl hq
  cases op with
  | cellFormat r c f =>
    have hr : r ≤ 0 := by simpa [Op.streams] using hs
    simp only [Abs.exec] at hq
    split at hq
    · unfold Abs.setFormat at hq
      split at hq
      · split at hq <;> exact ins _ _ hr hq
      · split at hq
        · exact Or.inl hq
        · exact ins _ _ hr hq
    · exact Or.inl hq
  | clearCell r c =>
    have hr : r ≤ 0 := by simpa [Op.streams] using hs
    simp only [Abs.exec] at hq
    split at hq
    · unfold Abs.clearCell at hq
      split at hq
      · exact Or.inl hq
      · exact ins _ _ hr hq
    · exact Or.inl hq
  | clearFormat r c =>
    have hr : r ≤ 0 := by simpa [Op.streams] using hs
    simp only [Abs.exec] at hq
    split at hq
    · unfold Abs.clearFormat at hq
      split at hq
      · exact Or.inl hq
      · split at hq
        · exact Or.inl hq
        · exact ins _ _ hr hq
    · exact Or.inl hq
  | rowFormat r f => simp only [Abs.exec] at hq; split at hq <;> exact Or.inl hq
  | rowHeight r f => simp only [Abs.exec] at hq; split at hq <;> exact Or.inl hq
  | rowHidden r => simp only [Abs.exec] at hq; split at hq <;> exact Or.inl hq
  | columnFormat c f =>
    simp only [Abs.exec] at hq
    split at hq
    · unfold Abs.colSet at hq; split at hq <;> exact Or.inl hq
    · exact Or.inl hq
  | rangeFormat => exact Or.inl hq
  | note => exact Or.inl hq
  | _ => exact absurd rfl hst

theorem first_only (E : Env Fmt) (l : List (Op Fmt)) (hs : streamsFrom E.cfg 0 l = true)
    (hl : ∀ op ∈ l, op.lands E.cfg = none) :
    cursor E.cfg l = 0 ∧ ∀ q, (Abs.run E (inTime E.cfg l)).has q → q = 0 := by
  suffices H : ∀ (l : List (Op Fmt)) (A : Abs Fmt), streamsFrom E.cfg 0 l = true → (∀ op ∈ l, op.lands E.cfg = none) →
      cursorFrom E.cfg 0 l = 0 ∧ ∀ q, ((inTimeFrom E.cfg 0 l).foldl (Abs.exec E) A).has q → A.has q ∨ q = 0 by
    obtain ⟨h1, h2⟩ := H l Abs.new hs hl
    refine ⟨h1, fun q hq => ?_⟩
    rcases h2 q hq with h | h
    · simp [Abs.has, Abs.new] at h
    · exact h
  intro l
  induction l with
  | nil => intro A _ _; exact ⟨rfl, fun q h => Or.inl h⟩
  | cons op l ih =>
    intro A hs hl
    have hop := hl op List.mem_cons_self
    have hn : nextCur E.cfg 0 op = 0 := by unfold nextCur; rw [hop]
    have hs' : (op.streams 0 && streamsFrom E.cfg (nextCur E.cfg 0 op) l) = true := hs
    rw [Bool.and_eq_true, hn] at hs'
    obtain ⟨h1, h2⟩ := ih ((if op.isLate 0 then [] else [op]).foldl (Abs.exec E) A) hs'.2
      (fun o ho => hl o (List.mem_cons_of_mem _ ho))
    refine ⟨by rw [cursorFrom_cons, hn]; exact h1, ?_⟩
    intro q hq
    have hq' : (((if op.isLate 0 then [] else [op]) ++ inTimeFrom E.cfg (nextCur E.cfg 0 op) l).foldl (Abs.exec E) A).has q := hq
    rw [List.foldl_append, hn] at hq'
    rcases h2 q hq' with h | h
    · split at h
      · exact Or.inl h
      · exact exec_first hop hs'.1 h
    · exact Or.inr h

theorem late_zero (op : Op Fmt) : op.isLate 0 = false := by
  cases op <;> simp [Op.isLate]

/-- Once a call has written cells, the row in memory has cells. -/
theorem cursor_has (E : Env Fmt) (l : List (Op Fmt)) (hs : streamsFrom E.cfg 0 l = true)
    (hl : ∃ op ∈ l, (op.lands E.cfg).isSome) :
    (Abs.run E (inTime E.cfg l)).has (cursor E.cfg l) := by
  suffices H : ∀ (l : List (Op Fmt)) (k : Nat) (A : Abs Fmt), streamsFrom E.cfg k l = true →
      (A.has k ∨ (k = 0 ∧ ∃ op ∈ l, (op.lands E.cfg).isSome)) →
      ((inTimeFrom E.cfg k l).foldl (Abs.exec E) A).has (cursorFrom E.cfg k l) from H l 0 _ hs (Or.inr ⟨rfl, hl⟩)
  intro l
  induction l with
  | nil =>
    intro k A _ h
    rcases h with h | ⟨_, _, h, _⟩
    · exact h
    · cases h
  | cons op l ih =>
    intro k A hs h
    have hs' : (op.streams k && streamsFrom E.cfg (nextCur E.cfg k op) l) = true := hs
    rw [Bool.and_eq_true] at hs'
    show (((if op.isLate k then [] else [op]) ++ inTimeFrom E.cfg (nextCur E.cfg k op) l).foldl (Abs.exec E) A).has
      (cursorFrom E.cfg (nextCur E.cfg k op) l)
    rw [List.foldl_append]
    refine ih _ _ hs'.2 ?_
    cases hop : op.lands E.cfg with
    | none =>
      have hn : nextCur E.cfg k op = k := by unfold nextCur; rw [hop]
      rw [hn]
      rcases h with h | ⟨hk, o, ho, h⟩
      · left
        split
        · exact h
        · exact exec_has op h
      · rcases List.mem_cons.mp ho with rfl | ho
        · rw [hop] at h; cases h
        · exact Or.inr ⟨hk, o, ho, h⟩
    | some r =>
      have hn : nextCur E.cfg k op = max k r := by unfold nextCur; rw [hop]
      have hlate := lands_late hop hs'.1
      rw [hn]
      split
      · rename_i e
        rw [if_pos e] at hlate
        rw [Nat.max_eq_left hlate]
        rcases h with h | ⟨hk, o, ho, h⟩
        · exact Or.inl h
        · subst hk; rw [late_zero] at e; cases e
      · rename_i e
        rw [if_neg e] at hlate
        rw [Nat.max_eq_right hlate]
        left
        exact lands_has hop


/-! ### `flush_last_row` -/

/-- Flushing the row in memory to itself, when it has no settings, and then going on is flushing once. -/
theorem flush_twice (hr : s.changedRows.get s.currentRow = none) (hw : s.writeAhead.get s.currentRow = none)
    (n : Nat) : (s.flushDataRow s.currentRow).flushDataRow n = s.flushDataRow n := by
  unfold Sheet.flushDataRow
  dsimp only
  rw [hr, hw, remove_absent hw]
  cases s.table.get s.currentRow with
  | none => simp [BMap.get, remove_absent hw]
  | some m => simp [BMap.get, remove_absent hw]

theorem flushList_dec (l : List Nat) (s : Sheet Fmt) : (l.foldl Sheet.flushDataRow s).cfg = s.cfg ∧
    (l.foldl Sheet.flushDataRow s).gxf = s.gxf ∧ (l.foldl Sheet.flushDataRow s).xfIndices = s.xfIndices ∧
    (l.foldl Sheet.flushDataRow s).sst = s.sst := by
  induction l generalizing s with
  | nil => exact ⟨rfl, rfl, rfl, rfl⟩
  | cons a l ih => exact ih (s.flushDataRow a)

theorem decOut_congr {s s' : Sheet Fmt} (h1 : s'.cfg = s.cfg) (h2 : s'.gxf = s.gxf) (h3 : s'.xfIndices = s.xfIndices) :
    s'.decOut = s.decOut := by
  funext ro
  have : s'.fmtOf = s.fmtOf := by funext i; unfold Sheet.fmtOf; rw [h1, h2, h3]
  unfold Sheet.decOut
  rw [this]

theorem le_foldl_max (l : List Nat) (k : Nat) : k ≤ l.foldl max k ∧ ∀ q ∈ l, q ≤ l.foldl max k := by
  induction l generalizing k with
  | nil => exact ⟨Nat.le_refl _, by simp⟩
  | cons a l ih =>
    have := ih (max k a)
    simp only [List.foldl_cons]
    refine ⟨by omega, ?_⟩
    intro q hq
    rcases List.mem_cons.mp hq with rfl | hq
    · omega
    · exact this.2 q hq

theorem sorted_le_last {l : List Nat} (h : l.Pairwise (· < ·)) : ∀ q ∈ l, q ≤ l.getLastD 0 := by
  induction l with
  | nil => simp
  | cons a l ih =>
    have hp := List.pairwise_cons.mp h
    intro q hq
    cases l with
    | nil => simp at hq; simp [hq]
    | cons b l =>
      have hb : b ≤ (b :: l).getLastD 0 := ih hp.2 b List.mem_cons_self
      have e : (a :: b :: l).getLastD 0 = (b :: l).getLastD 0 := rfl
      rw [e]
      rcases List.mem_cons.mp hq with rfl | hq
      · have := hp.1 b List.mem_cons_self; omega
      · exact ih hp.2 q hq

theorem sorted_head {l : List Nat} (h : l.Pairwise (· < ·)) {k : Nat} (hk : k ∈ l) (hmin : ∀ q ∈ l, k ≤ q) :
    ∃ t, l = k :: t := by
  cases l with
  | nil => cases hk
  | cons a t =>
    have hp := List.pairwise_cons.mp h
    have h1 := hmin a List.mem_cons_self
    rcases List.mem_cons.mp hk with rfl | hk
    · exact ⟨t, rfl⟩
    · have := hp.1 k hk; omega

/-- The rows still to be written, before the row after them. -/
def Sheet.remaining (s : Sheet Fmt) : List Nat :=
  sortDedup ((if (s.changedRows.map Prod.fst).foldl max 0 > s.currentRow then
      s.writeAhead.map Prod.fst ++ (List.range' s.currentRow ((s.changedRows.map Prod.fst).foldl max 0 + 1 - s.currentRow)).filter
        (fun r => (s.changedRows.get r).isSome)
    else s.writeAhead.map Prod.fst) ++ [s.currentRow])

theorem flushLastRow_eq (s : Sheet Fmt) : s.flushLastRow =
    (if (s.table.get s.currentRow).isSome then s.remaining ++ [1 + s.remaining.getLastD 0] else s.remaining).foldl
      Sheet.flushDataRow s := rfl

theorem Sim.mem_remaining (h : Sim E A s) (hm : s.cfg.constMem = true) (q : Nat) :
    q ∈ s.remaining ↔ q = s.currentRow ∨ (s.currentRow < q ∧ ((A.table.get q).isSome ∨ (A.rows.get q).isSome)) := by
  unfold Sheet.remaining
  rw [mem_sortDedup, List.mem_append, List.mem_singleton]
  have hmax := (le_foldl_max (s.changedRows.map Prod.fst) 0).2
  have hw : q ∈ s.writeAhead.map Prod.fst ↔ s.currentRow < q ∧ (A.table.get q).isSome := by
    rw [mem_keys_iff]
    constructor
    · intro e
      have := h.aheadK q e
      exact ⟨this, by rw [← h.table_some hm this]; exact e⟩
    · intro e; rw [h.table_some hm e.1]; exact e.2
  have hr : s.currentRow ≤ q → ((s.changedRows.get q).isSome ↔ (A.rows.get q).isSome) := by
    intro e; rw [h.rows_some e]
  have hk : (s.changedRows.get q).isSome → q ≤ (s.changedRows.map Prod.fst).foldl max 0 := by
    intro e; exact hmax q (mem_keys_iff.mpr e)
  split
  · rename_i hgt
    rw [List.mem_append, hw, List.mem_filter, List.mem_range'_1]
    constructor
    · rintro ((e | ⟨e1, e2⟩) | e)
      · exact Or.inr ⟨e.1, Or.inl e.2⟩
      · by_cases e3 : q = s.currentRow
        · exact Or.inl e3
        · exact Or.inr ⟨by omega, Or.inr ((hr (by omega)).mp e2)⟩
      · exact Or.inl e
    · rintro (e | ⟨e, e1 | e1⟩)
      · exact Or.inr e
      · exact Or.inl (Or.inl ⟨e, e1⟩)
      · left; right
        have := (hr (by omega)).mpr e1
        have h3 := hk this
        exact ⟨by omega, this⟩
  · rename_i hgt
    rw [hw]
    constructor
    · rintro (e | e)
      · exact Or.inr ⟨e.1, Or.inl e.2⟩
      · exact Or.inl e
    · rintro (e | ⟨e, e1 | e1⟩)
      · exact Or.inr e
      · exact Or.inl ⟨e, e1⟩
      · have h2 := hk ((hr (by omega)).mpr e1); omega

/-- The rows in the file: one for every row that says something, in order. -/
theorem Sim.flushLast (h : Sim E A s) (hm : s.cfg.constMem = true) (hset : A.rows.get s.currentRow = none)
    (hdata : (A.table.get s.currentRow).isSome ∨ ∀ q, A.table.get q = none ∧ A.rows.get q = none) :
    ∃ N, (∀ q, N ≤ q → A.rowView E.dflt q = none) ∧
      s.flushLastRow.out.map s.decOut = (List.range N).filterMap (A.rowView E.dflt) := by
  have hr : s.changedRows.get s.currentRow = none := by
    have := h.rows_some (Nat.le_refl s.currentRow)
    rw [hset] at this
    simpa using this
  have hw : s.writeAhead.get s.currentRow = none := by
    cases e : s.writeAhead.get s.currentRow with
    | none => rfl
    | some m => have := h.aheadK s.currentRow (by rw [e]; rfl); omega
  have hsrt : s.remaining.Pairwise (· < ·) := sortDedup_sorted _
  obtain ⟨t, ht⟩ := sorted_head hsrt ((h.mem_remaining hm _).mpr (Or.inl rfl)) (by
    intro q hq
    rcases (h.mem_remaining hm q).mp hq with e | e <;> omega)
  have hp := ht ▸ hsrt
  have hp' := List.pairwise_cons.mp hp
  have ht0 := h.tbl s.currentRow (fun _ => rfl)
  rw [flushLastRow_eq]
  rcases hdata with hd | hd
  · have hs : (s.table.get s.currentRow).isSome := by
      rw [← ht0] at hd; simpa using hd
    rw [if_pos hs]
    have hlast := sorted_le_last hsrt
    generalize hN : 1 + s.remaining.getLastD 0 = N at hlast ⊢
    have hcurN : s.currentRow < N := by
      have := hlast s.currentRow (by rw [ht]; exact List.mem_cons_self)
      omega
    have hnone : ∀ q, s.currentRow < q → q ∉ t → A.table.get q = none ∧ A.rows.get q = none := by
      intro q hq hnt
      have : q ∉ s.remaining := by
        rw [ht]; intro e
        rcases List.mem_cons.mp e with e | e
        · omega
        · exact hnt e
      rw [h.mem_remaining hm q] at this
      constructor
      · cases e : A.table.get q with
        | none => rfl
        | some _ => exact absurd (Or.inr ⟨hq, Or.inl (by rw [e]; rfl)⟩) this
      · cases e : A.rows.get q with
        | none => rfl
        | some _ => exact absurd (Or.inr ⟨hq, Or.inr (by rw [e]; rfl)⟩) this
    have hfold : (s.remaining ++ [N]).foldl Sheet.flushDataRow s =
        (t.foldl Sheet.flushDataRow s).flushDataRow N := by
      rw [ht]
      cases t with
      | nil =>
        show (s.flushDataRow s.currentRow).flushDataRow N = s.flushDataRow N
        exact flush_twice hr hw N
      | cons a t =>
        show (List.foldl Sheet.flushDataRow ((s.flushDataRow s.currentRow).flushDataRow a) (t ++ [N])) = _
        rw [flush_twice hr hw a, List.foldl_append]
        rfl
    rw [hfold]
    have hS := h.flushList hm t hcurN hp'.2 (by
      intro q hq
      have := hlast q (by rw [ht]; exact List.mem_cons_of_mem _ hq)
      exact ⟨hp'.1 q hq, by omega⟩) (fun q h1 _ h3 => hnone q h1 h3)
    refine ⟨N, ?_, ?_⟩
    · intro q hq
      have := hnone q (by omega) (by
        intro e
        have := hlast q (by rw [ht]; exact List.mem_cons_of_mem _ e)
        omega)
      exact rowView_none this.1 this.2
    · have hd := flushList_dec t s
      have hc : ((List.foldl Sheet.flushDataRow s t).flushDataRow N).cfg = s.cfg := hd.1
      have := hS.out (by rw [hc]; exact hm)
      rw [decOut_congr (s := s) hc hd.2.1 hd.2.2.1] at this
      exact this
  · have hs : s.table.get s.currentRow = none := by
      have := (hd s.currentRow).1
      rw [← ht0] at this; simpa using this
    rw [hs]
    have hnil : t = [] := by
      cases t with
      | nil => rfl
      | cons a t =>
        have ha : a ∈ s.remaining := by rw [ht]; simp
        have h1 := hp'.1 a List.mem_cons_self
        rcases (h.mem_remaining hm a).mp ha with e | ⟨_, e | e⟩
        · omega
        · rw [(hd a).1] at e; cases e
        · rw [(hd a).2] at e; cases e
    rw [ht, hnil]
    refine ⟨s.currentRow, fun q _ => rowView_none (hd q).1 (hd q).2, ?_⟩
    rw [← h.out hm]
    show ((s.flushDataRow s.currentRow).out).map s.decOut = _
    rw [flushDataRow_out]
    unfold Sheet.flushed
    rw [hs, hr]
    simp

end Verif
