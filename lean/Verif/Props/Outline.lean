import Verif.Spec.Outline
/-! C26: outline levels. -/
namespace Verif
open Spec

theorem mem_inclRange {a b i : Nat} : i ∈ inclRange a b ↔ a ≤ i ∧ i ≤ b := by
  simp only [inclRange, List.mem_map, List.mem_range]
  constructor
  · rintro ⟨j, hj, rfl⟩; omega
  · intro h; exact ⟨i - a, by omega, by omega⟩

theorem inclRange_pairwise (a b : Nat) : (inclRange a b).Pairwise (· < ·) := by
  unfold inclRange
  rw [List.pairwise_map]
  exact List.pairwise_lt_range.imp (by intro x y h; omega)

theorem inclRange_nodup (a b : Nat) : (inclRange a b).Nodup :=
  (inclRange_pairwise a b).imp (by intro x y h; omega)

private theorem put_opts (s : Outline) (i j : Nat) (o : LineOpt) :
    (s.put i o).opts j = if j = i then some o else s.opts j := rfl

/-- Effect of grouping one line. -/
private theorem group1_spec (s s' : Outline) (i : Nat) (c : Bool) (h : s.group1 i c = some s') :
    (∀ j, s'.level j = s.level j + (if j = i then 1 else 0)) ∧
    (∀ j, s'.isHidden j = if j = i then (c || s.isHidden j) else s.isHidden j) ∧
    (∀ j, s'.isCollapsed j = s.isCollapsed j) ∧ s.level i < 7 ∧
    s'.maxLevel = (if (s.opts i).isSome then max (s.level i + 1) s.maxLevel else s.maxLevel) ∧
    (s.opts i = none → s'.level i = 1) := by
  unfold Outline.group1 at h
  cases e : s.opts i with
  | none =>
    rw [e] at h
    simp only [Option.some.injEq] at h
    subst h
    refine ⟨?_, ?_, ?_, ?_, ?_, ?_⟩
    · intro j; by_cases hj : j = i
      · subst hj; simp [Outline.level, put_opts, e]
      · simp [Outline.level, put_opts, hj]
    · intro j; by_cases hj : j = i
      · subst hj; simp [Outline.isHidden, put_opts, e]
      · simp [Outline.isHidden, put_opts, hj]
    · intro j; by_cases hj : j = i
      · subst hj; simp [Outline.isCollapsed, put_opts, e]
      · simp [Outline.isCollapsed, put_opts, hj]
    · simp [Outline.level, e]
    · simp [Outline.put]
    · simp [Outline.level, put_opts]
  | some o =>
    rw [e] at h
    simp only at h
    split at h
    · cases h
    · rw [Option.some.injEq] at h
      subst h
      refine ⟨?_, ?_, ?_, ?_, ?_, ?_⟩
      · intro j; by_cases hj : j = i
        · subst hj; simp [Outline.level, put_opts, e]
        · simp [Outline.level, put_opts, hj]
      · intro j; by_cases hj : j = i
        · subst hj; simp [Outline.isHidden, put_opts, e]
        · simp [Outline.isHidden, put_opts, hj]
      · intro j; by_cases hj : j = i
        · subst hj; simp [Outline.isCollapsed, put_opts, e]
        · simp [Outline.isCollapsed, put_opts, hj]
      · simp [Outline.level, e]; omega
      · simp [Outline.put, Outline.level, e]
      · intro h; cases h

private theorem group1_none (s : Outline) (i : Nat) (c : Bool) :
    s.group1 i c = none ↔ 7 ≤ s.level i := by
  unfold Outline.group1
  cases e : s.opts i with
  | none => simp [Outline.level, e]
  | some o => simp only [Outline.level, e, Option.map_some, Option.getD_some]; split <;> simp <;> omega

/-- Effect of the loop when it succeeds. -/
private theorem groupLoop_ok (c : Bool) (l : List Nat) (hl : l.Nodup) (s s' : Outline)
    (h : s.groupLoop c l = (s', none)) :
    (∀ j, s'.level j = s.level j + (if j ∈ l then 1 else 0)) ∧
    (∀ j, s'.isHidden j = if j ∈ l then (c || s.isHidden j) else s.isHidden j) ∧
    (∀ j, s'.isCollapsed j = s.isCollapsed j) ∧ (∀ j ∈ l, s.level j < 7) := by
  induction l generalizing s with
  | nil => simp [Outline.groupLoop] at h; subst h; simp
  | cons i is ih =>
    unfold Outline.groupLoop at h
    split at h
    · simp at h
    · rename_i s1 h1
      obtain ⟨g1, g2, g3, g4, -, -⟩ := group1_spec s s1 i c h1
      have hn := List.nodup_cons.mp hl
      obtain ⟨k1, k2, k3, k4⟩ := ih hn.2 s1 h
      refine ⟨?_, ?_, ?_, ?_⟩
      · intro j
        rw [k1, g1]
        by_cases hj : j = i
        · subst hj; simp [hn.1]
        · simp [hj]
      · intro j
        rw [k2, g2]
        by_cases hj : j = i
        · subst hj; simp [hn.1]
        · simp [hj]
      · intro j; rw [k3, g3]
      · intro j hj
        rcases List.mem_cons.mp hj with rfl | hj
        · exact g4
        · have := k4 j hj; rw [g1] at this; omega

private theorem groupLoop_err (c : Bool) (l : List Nat) (hl : l.Nodup) (s : Outline) :
    (s.groupLoop c l).2 = if (∃ j ∈ l, 7 ≤ s.level j) then some .maxLevel else none := by
  induction l generalizing s with
  | nil => simp [Outline.groupLoop]
  | cons i is ih =>
    have hn := List.nodup_cons.mp hl
    unfold Outline.groupLoop
    split
    · rename_i h
      have := (group1_none s i c).mp h
      rw [if_pos ⟨i, by simp, this⟩]
    · rename_i s1 h1
      obtain ⟨g1, -, -, g4, -, -⟩ := group1_spec s s1 i c h1
      rw [ih hn.2]
      have : (∃ j ∈ is, 7 ≤ s1.level j) ↔ (∃ j ∈ i :: is, 7 ≤ s.level j) := by
        constructor
        · rintro ⟨j, hj, h⟩
          rw [g1, if_neg (by rintro rfl; exact hn.1 hj)] at h
          exact ⟨j, by simp [hj], by omega⟩
        · rintro ⟨j, hj, h⟩
          rcases List.mem_cons.mp hj with rfl | hj
          · omega
          · exact ⟨j, hj, by rw [g1]; omega⟩
      by_cases h : ∃ j ∈ is, 7 ≤ s1.level j
      · rw [if_pos h, if_pos (this.mp h)]
      · rw [if_neg h, if_neg (mt this.mpr h)]

private theorem groupLines_ok (limit : Nat) (s : Outline) (a b : Nat) (c : Bool)
    (h : (s.groupLines limit a b c).2 = none) :
    (∀ j, (s.groupLines limit a b c).1.level j = s.level j + (if a ≤ j ∧ j ≤ b then 1 else 0)) ∧
    (∀ j, (s.groupLines limit a b c).1.isHidden j =
      if a ≤ j ∧ j ≤ b then (c || s.isHidden j) else s.isHidden j) ∧
    (∀ j, (s.groupLines limit a b c).1.isCollapsed j = s.isCollapsed j) := by
  unfold Outline.groupLines at h ⊢
  split at h
  · simp at h
  · rename_i h1
    rw [if_neg h1]
    split at h
    · simp at h
    · rename_i h2
      rw [if_neg h2]
      have := groupLoop_ok c _ (inclRange_nodup a b) s _ (Prod.ext rfl h)
      simp only [mem_inclRange] at this
      exact ⟨this.1, this.2.1, this.2.2.1⟩

private theorem setCollapsed_ok (limit : Nat) (s : Outline) (i : Nat)
    (h : (s.setCollapsed limit i).2 = none) :
    (∀ j, (s.setCollapsed limit i).1.level j = s.level j) ∧
    (∀ j, (s.setCollapsed limit i).1.isHidden j = s.isHidden j) ∧
    (∀ j, (s.setCollapsed limit i).1.isCollapsed j = (decide (j = i) || s.isCollapsed j)) := by
  unfold Outline.setCollapsed at h ⊢
  split at h
  · simp at h
  · rename_i h1
    rw [if_neg h1]
    cases e : s.opts i with
    | none =>
      refine ⟨?_, ?_, ?_⟩ <;> intro j <;> by_cases hj : j = i <;>
        simp [Outline.level, Outline.isHidden, Outline.isCollapsed, put_opts, hj, e]
    | some o =>
      refine ⟨?_, ?_, ?_⟩ <;> intro j <;> by_cases hj : j = i <;>
        simp [Outline.level, Outline.isHidden, Outline.isCollapsed, put_opts, hj, e]

/-- Effect of any accepted call. -/
private theorem exec_ok (limit : Nat) (s : Outline) (o : OutlineOp) (h : (s.exec limit o).2 = none)
    (j : Nat) :
    (s.exec limit o).1.level j = s.level j + (if OutlineOp.covers j o then 1 else 0) ∧
    (s.exec limit o).1.isHidden j = (OutlineOp.hides j o).getD (s.isHidden j) ∧
    (s.exec limit o).1.isCollapsed j = (OutlineOp.marks j o || s.isCollapsed j) := by
  cases o with
  | group a b =>
    obtain ⟨h1, h2, h3⟩ := groupLines_ok limit s a b false h
    simp only [Outline.exec, h1, h2, h3]
    refine ⟨?_, ?_, ?_⟩
    · simp [OutlineOp.covers]
    · simp [OutlineOp.hides]
    · simp [OutlineOp.marks]
  | groupCollapsed a b =>
    simp only [Outline.exec] at h ⊢
    rcases e : s.setCollapsed limit (b + 1) with ⟨s1, _ | er⟩
    · rw [e] at h
      simp only at h ⊢
      have hc := setCollapsed_ok limit s (b + 1) (by rw [e])
      rw [e] at hc
      obtain ⟨h1, h2, h3⟩ := groupLines_ok limit s1 a b true h
      simp only [h1, h2, h3, hc.1, hc.2.1, hc.2.2]
      refine ⟨?_, ?_, ?_⟩
      · simp [OutlineOp.covers]
      · simp only [OutlineOp.hides, Bool.true_or]; split <;> simp
      · simp [OutlineOp.marks]
    · rw [e] at h; simp at h
  | hide i =>
    simp only [Outline.exec] at h ⊢
    split at h
    · simp at h
    · rename_i h1
      rw [if_neg h1]
      have hsym : (i = j) = (j = i) := propext ⟨Eq.symm, Eq.symm⟩
      cases e : s.opts i <;> by_cases hj : j = i <;>
        simp [Outline.level, Outline.isHidden, Outline.isCollapsed, put_opts, OutlineOp.covers,
          OutlineOp.hides, OutlineOp.marks, hsym, hj, e]
  | unhide i =>
    simp only [Outline.exec] at h ⊢
    split at h
    · simp at h
    · rename_i h1
      rw [if_neg h1]
      have hsym : (i = j) = (j = i) := propext ⟨Eq.symm, Eq.symm⟩
      cases e : s.opts i <;> by_cases hj : j = i <;>
        simp [Outline.level, Outline.isHidden, Outline.isCollapsed, put_opts, OutlineOp.covers,
          OutlineOp.hides, OutlineOp.marks, hsym, hj, e]
  | touch i =>
    simp only [Outline.exec] at h ⊢
    split at h
    · simp at h
    · rename_i h1
      rw [if_neg h1]
      cases e : s.opts i <;> by_cases hj : j = i <;>
        simp [Outline.level, Outline.isHidden, Outline.isCollapsed, put_opts, OutlineOp.covers,
          OutlineOp.hides, OutlineOp.marks, hj, e]

private theorem run_snoc (limit : Nat) (s : Outline) (ops : List OutlineOp) (o : OutlineOp) :
    s.run limit (ops ++ [o]) = ((s.run limit ops).exec limit o).1 := by
  simp [Outline.run]

private theorem list_snoc_induction {α : Type} {P : List α → Prop} (h0 : P [])
    (h1 : ∀ l a, P l → P (l ++ [a])) (l : List α) : P l := by
  rw [← l.reverse_reverse]
  induction l.reverse with
  | nil => exact h0
  | cons a t ih => rw [List.reverse_cons]; exact h1 _ _ ih

private theorem allOk_snoc {limit : Nat} {ops : List OutlineOp} {o : OutlineOp}
    (h : AllOk limit (ops ++ [o])) :
    AllOk limit ops ∧ ((Outline.new.run limit ops).exec limit o).2 = none := by
  constructor
  · intro pre p post e
    exact h pre p (post ++ [o]) (by rw [e]; simp)
  · exact h ops o [] rfl

/-- C26: after any sequence of accepted calls, the outline level of every line is the number of
groups that contain it, the line is hidden exactly if the last call about its visibility hid it
(collapsed groups hide their lines), and the collapsed symbol is on exactly the lines following a
collapsed group. -/
theorem C26_levels_count_groups (limit : Nat) (ops : List OutlineOp) (h : AllOk limit ops)
    (i : Nat) :
    (Outline.new.run limit ops).level i = ops.countP (OutlineOp.covers i) ∧
    (Outline.new.run limit ops).isHidden i = lastHides i ops ∧
    (Outline.new.run limit ops).isCollapsed i = ops.any (OutlineOp.marks i) := by
  induction ops using list_snoc_induction with
  | h0 => simp [Outline.run, Outline.new, Outline.level, Outline.isHidden, Outline.isCollapsed,
      lastHides]
  | h1 l o ih =>
    obtain ⟨ha, hb⟩ := allOk_snoc h
    obtain ⟨i1, i2, i3⟩ := ih ha
    obtain ⟨e1, e2, e3⟩ := exec_ok limit _ o hb i
    rw [run_snoc, e1, e2, e3, i1, i2, i3]
    refine ⟨?_, ?_, ?_⟩
    · simp [List.countP_append, List.countP_cons]
    · simp only [lastHides, List.filterMap_append, List.filterMap_cons, List.filterMap_nil]
      cases OutlineOp.hides i o <;> simp
    · simp [Bool.or_comm]

/-- A grown-up invariant of every reachable state, failed calls included. -/
private structure OInv (s : Outline) : Prop where
  le7 : ∀ i, s.level i ≤ 7
  max7 : s.maxLevel ≤ 7
  declared : ∀ i, 2 ≤ s.level i → s.level i ≤ s.maxLevel
  used : 0 < s.maxLevel → ∃ i, s.maxLevel ≤ s.level i

private theorem OInv.group1 {s s' : Outline} {i : Nat} {c : Bool} (h : OInv s)
    (e : s.group1 i c = some s') : OInv s' := by
  obtain ⟨g1, -, -, g4, g5, g6⟩ := group1_spec s s' i c e
  refine ⟨?_, ?_, ?_, ?_⟩
  · intro j; rw [g1]; have := h.le7 j; split
    · rename_i hj; subst hj; omega
    · omega
  · rw [g5]; have := h.max7; split <;> omega
  · intro j hj
    by_cases hji : j = i
    · subst hji
      cases ho : s.opts j with
      | none => rw [g6 ho] at hj; omega
      | some o => rw [g1, g5, ho]; simp; omega
    · have := h.declared j (by rw [g1, if_neg hji] at hj; omega)
      rw [g1, if_neg hji, g5]; split <;> omega
  · intro hm
    rw [g5] at hm ⊢
    split
    · rename_i hs
      by_cases hlt : s.maxLevel ≤ s.level i + 1
      · exact ⟨i, by rw [g1]; simp; omega⟩
      · rw [if_pos hs] at hm
        obtain ⟨j, hj⟩ := h.used (by omega)
        exact ⟨j, by rw [g1]; omega⟩
    · rename_i hs
      rw [if_neg hs] at hm
      obtain ⟨j, hj⟩ := h.used hm
      exact ⟨j, by rw [g1]; omega⟩

private theorem OInv.groupLoop (c : Bool) (l : List Nat) {s : Outline} (h : OInv s) :
    OInv (s.groupLoop c l).1 := by
  induction l generalizing s with
  | nil => exact h
  | cons i is ih =>
    unfold Outline.groupLoop
    split
    · exact h
    · rename_i s1 h1; exact ih (h.group1 h1)

private theorem OInv.groupLines {limit : Nat} {s : Outline} {a b : Nat} {c : Bool} (h : OInv s) :
    OInv (s.groupLines limit a b c).1 := by
  unfold Outline.groupLines
  split
  · exact h
  · split
    · exact h
    · exact h.groupLoop c _

private theorem OInv.put_same {s : Outline} {i : Nat} {o : LineOpt} (h : OInv s)
    (e : o.level = s.level i) : OInv (s.put i o) := by
  have hl : ∀ j, (s.put i o).level j = s.level j := by
    intro j; by_cases hj : j = i
    · subst hj; simp [Outline.level, put_opts, e]
    · simp [Outline.level, put_opts, hj]
  exact ⟨fun j => by rw [hl]; exact h.le7 j, h.max7,
    fun j => by rw [hl]; exact h.declared j, fun hm => by
      obtain ⟨j, hj⟩ := h.used hm; exact ⟨j, by rw [hl]; exact hj⟩⟩

private theorem OInv.setCollapsed {limit : Nat} {s : Outline} {i : Nat} (h : OInv s) :
    OInv (s.setCollapsed limit i).1 := by
  unfold Outline.setCollapsed
  split
  · exact h
  · split
    · rename_i o e; exact h.put_same (by simp [Outline.level, e])
    · rename_i e; exact h.put_same (by simp [Outline.level, e])

private theorem OInv.exec {limit : Nat} {s : Outline} (o : OutlineOp) (h : OInv s) :
    OInv (s.exec limit o).1 := by
  cases o with
  | group a b => exact h.groupLines
  | groupCollapsed a b =>
    simp only [Outline.exec]
    have := h.setCollapsed (limit := limit) (i := b + 1)
    rcases e : s.setCollapsed limit (b + 1) with ⟨s1, _ | er⟩
    · rw [e] at this; exact this.groupLines
    · rw [e] at this; exact this
  | hide i =>
    simp only [Outline.exec]
    split
    · exact h
    · split
      · rename_i o e; exact h.put_same (by simp [Outline.level, e])
      · rename_i e; exact h.put_same (by simp [Outline.level, e])
  | unhide i =>
    simp only [Outline.exec]
    split
    · exact h
    · split
      · rename_i o e; exact h.put_same (by simp [Outline.level, e])
      · exact h
  | touch i =>
    simp only [Outline.exec]
    split
    · exact h
    · split
      · exact h
      · rename_i e; exact h.put_same (by simp [Outline.level, e])

private theorem OInv.run (limit : Nat) (ops : List OutlineOp) : OInv (Outline.new.run limit ops) := by
  induction ops using list_snoc_induction with
  | h0 => exact ⟨by simp [Outline.run, Outline.new, Outline.level], by simp [Outline.run, Outline.new],
      by simp [Outline.run, Outline.new, Outline.level], by simp [Outline.run, Outline.new]⟩
  | h1 l o ih => rw [run_snoc]; exact ih.exec o

/-- C26: whatever calls were made, failed ones included, no level exceeds Excel's seven. -/
theorem C26_level_at_most_7 (limit : Nat) (ops : List OutlineOp) (i : Nat) :
    (Outline.new.run limit ops).level i ≤ 7 := (OInv.run limit ops).le7 i

/-- C26: a group inside the grid is refused with the level error exactly when some line of it
already has level 7. -/
theorem C26_refused_iff_full (limit : Nat) (ops : List OutlineOp) (a b : Nat) (hab : a ≤ b)
    (hb : b < limit) :
    (((Outline.new.run limit ops).exec limit (.group a b)).2 = some .maxLevel ↔
      ∃ i, a ≤ i ∧ i ≤ b ∧ (Outline.new.run limit ops).level i = 7) ∧
    (((Outline.new.run limit ops).exec limit (.group a b)).2 = none ↔
      ∀ i, a ≤ i → i ≤ b → (Outline.new.run limit ops).level i < 7) := by
  simp only [Outline.exec, Outline.groupLines]
  rw [if_neg (by simp; omega), if_neg (by omega), groupLoop_err _ _ (inclRange_nodup a b)]
  have : (∃ j ∈ inclRange a b, 7 ≤ (Outline.new.run limit ops).level j) ↔
      (∃ i, a ≤ i ∧ i ≤ b ∧ (Outline.new.run limit ops).level i = 7) := by
    constructor
    · rintro ⟨j, hj, h⟩
      rw [mem_inclRange] at hj
      exact ⟨j, hj.1, hj.2, by have := C26_level_at_most_7 limit ops j; omega⟩
    · rintro ⟨j, h1, h2, h⟩; exact ⟨j, mem_inclRange.mpr ⟨h1, h2⟩, by omega⟩
  by_cases h : ∃ j ∈ inclRange a b, 7 ≤ (Outline.new.run limit ops).level j
  · rw [if_pos h]
    have h' := this.mp h
    refine ⟨⟨fun _ => h', fun _ => rfl⟩, ⟨fun x => by simp at x, fun x => ?_⟩⟩
    obtain ⟨i, h1, h2, h3⟩ := h'
    have := x i h1 h2; omega
  · rw [if_neg h]
    have h' := mt this.mpr h
    refine ⟨⟨fun x => by simp at x, fun x => absurd x h'⟩, ⟨fun _ i h1 h2 => ?_, fun _ => rfl⟩⟩
    have h3 := C26_level_at_most_7 limit ops i
    have h4 : (Outline.new.run limit ops).level i ≠ 7 := fun h5 => h' ⟨i, h1, h2, h5⟩
    omega

/-- C26, partial: the declared maximum covers every line of level two or more and is attained.
(Full claim: it is at least every line's level; false for level one, next theorem.) -/
theorem C26_declared_max_partial (limit : Nat) (ops : List OutlineOp) :
    (∀ i, 2 ≤ (Outline.new.run limit ops).level i →
      (Outline.new.run limit ops).level i ≤ (Outline.new.run limit ops).declaredMax) ∧
    (0 < (Outline.new.run limit ops).declaredMax →
      ∃ i, (Outline.new.run limit ops).declaredMax ≤ (Outline.new.run limit ops).level i) ∧
    (Outline.new.run limit ops).declaredMax ≤ 7 :=
  ⟨(OInv.run limit ops).declared, (OInv.run limit ops).used, (OInv.run limit ops).max7⟩

/-- C26 (finding F20): one plain group over fresh lines declares no outline level at all. -/
theorem C26_declared_max_counterexample :
    AllOk 1048576 [.group 2 5] ∧ (Outline.new.run 1048576 [.group 2 5]).level 3 = 1 ∧
    (Outline.new.run 1048576 [.group 2 5]).declaredMax = 0 := by
  refine ⟨?_, by decide, by decide⟩
  intro pre o post e
  cases pre with
  | nil =>
    simp only [List.nil_append, List.cons.injEq] at e
    obtain ⟨rfl, -⟩ := e
    decide
  | cons x xs => simp at e

/-- C26: a refused group is not undone: the lines before the full one keep the extra level. -/
theorem C26_refused_group_is_partial_counterexample :
    let ops := List.replicate 7 (.group 5 5)
    ((Outline.new.run 100 ops).exec 100 (.group 3 6)).2 = some .maxLevel ∧
    ((Outline.new.run 100 ops).exec 100 (.group 3 6)).1.level 3 = 1 ∧
    ((Outline.new.run 100 ops).exec 100 (.group 3 6)).1.level 6 = 0 := by decide

/-- Non-vacuity: nested groups, one collapsed. -/
example : (Outline.new.run 100 [.group 2 9, .groupCollapsed 4 6, .unhide 5]).level 5 = 2 ∧
    (Outline.new.run 100 [.group 2 9, .groupCollapsed 4 6, .unhide 5]).isHidden 4 = true ∧
    (Outline.new.run 100 [.group 2 9, .groupCollapsed 4 6, .unhide 5]).isHidden 5 = false ∧
    (Outline.new.run 100 [.group 2 9, .groupCollapsed 4 6, .unhide 5]).isCollapsed 7 = true := by decide

end Verif
