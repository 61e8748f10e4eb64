import Verif.Model.Cols
/-! C32: column records. -/
namespace Verif
variable {α : Type} [BEq α] [LawfulBEq α]

private theorem colsLoop_spec (t : List (Nat × α)) :
    ∀ (cur : ColRec α), cur.first ≤ cur.last → (∀ p ∈ t, cur.last < p.1) →
      t.Pairwise (fun a b => a.1 < b.1) →
      (∀ r ∈ colsLoop cur t, r.first ≤ r.last ∧ cur.first ≤ r.first) ∧
      (colsLoop cur t).Pairwise (fun a b => a.last < b.first ∧
        (a.last + 1 = b.first → a.opts ≠ b.opts) ) ∧
      (∀ c o, (∃ r ∈ colsLoop cur t, r.first ≤ c ∧ c ≤ r.last ∧ r.opts = o) ↔
        ((cur.first ≤ c ∧ c ≤ cur.last ∧ cur.opts = o) ∨ (c, o) ∈ t)) := by
  induction t with
  | nil =>
    intro cur h1 h2 h3
    simp [colsLoop, h1]
  | cons p t ih =>
    obtain ⟨n, o⟩ := p
    intro cur h1 h2 h3
    have h3' := List.pairwise_cons.mp h3
    have hn := h2 (n, o) (by simp)
    simp only at hn
    unfold colsLoop
    split
    · rename_i hc
      simp only [Bool.and_eq_true, beq_iff_eq] at hc
      obtain ⟨hc1, hc2⟩ := hc
      obtain ⟨i1, i2, i3⟩ := ih { cur with last := n } (by simp; omega)
        (fun p hp => h3'.1 p hp) h3'.2
      refine ⟨i1, i2, fun c o' => ?_⟩
      rw [i3]
      simp only [List.mem_cons, Prod.mk.injEq]
      constructor
      · rintro (⟨a, b, e⟩ | h)
        · by_cases hcn : c = n
          · right; left; exact ⟨hcn, by rw [← e, hc2]⟩
          · left; exact ⟨a, by omega, e⟩
        · right; right; exact h
      · rintro (⟨a, b, e⟩ | ⟨a, b⟩ | h)
        · left; exact ⟨a, by omega, e⟩
        · left; subst a; exact ⟨by omega, Nat.le_refl _, by rw [b, hc2]⟩
        · right; exact h
    · rename_i hc
      obtain ⟨i1, i2, i3⟩ := ih ⟨n, n, o⟩ (Nat.le_refl _) (fun p hp => h3'.1 p hp) h3'.2
      have hfirst : ∀ r ∈ colsLoop ⟨n, n, o⟩ t, n ≤ r.first := fun r hr => (i1 r hr).2
      refine ⟨?_, ?_, ?_⟩
      · intro r hr
        rcases List.mem_cons.mp hr with rfl | hr
        · exact ⟨h1, Nat.le_refl _⟩
        · have := i1 r hr; simp only at this; omega
      · rw [List.pairwise_cons]
        refine ⟨fun r hr => ⟨by have := hfirst r hr; omega, ?_⟩, i2⟩
        intro hadj heq
        have hrn : r.first = n := by have := hfirst r hr; omega
        have := (i3 n r.opts).mp ⟨r, hr, by omega, by have := (i1 r hr).1; omega, rfl⟩
        rcases this with ⟨_, _, e⟩ | h
        · apply hc
          simp only at e
          simp only [Bool.and_eq_true, beq_iff_eq]
          exact ⟨by omega, by rw [heq, e]⟩
        · have := h3'.1 _ h; simp at this
      · intro c o'
        simp only [List.mem_cons, exists_eq_or_imp, i3, Prod.mk.injEq]
        constructor
        · rintro (h | ⟨a, b, e⟩ | h)
          · exact .inl h
          · exact .inr (.inl ⟨by omega, e.symm⟩)
          · exact .inr (.inr h)
        · rintro (h | ⟨rfl, rfl⟩ | h)
          · exact .inl h
          · exact .inr (.inl ⟨Nat.le_refl _, Nat.le_refl _, rfl⟩)
          · exact .inr (.inr h)

/-- C32: for every set of column settings (distinct columns, any iteration order) the written
records are ordered, disjoint ranges, and a column lies in a record with given options exactly if
those are that column's own settings; neighbouring records are never mergeable. -/
theorem C32_cols_exact (entries : List (Nat × α)) (hk : (entries.map Prod.fst).Nodup) :
    (∀ r ∈ writeCols entries, r.first ≤ r.last) ∧
    (writeCols entries).Pairwise (fun a b => a.last < b.first ∧
      (a.last + 1 = b.first → a.opts ≠ b.opts)) ∧
    (∀ c o, (∃ r ∈ writeCols entries, r.first ≤ c ∧ c ≤ r.last ∧ r.opts = o) ↔ (c, o) ∈ entries) := by
  have hp := List.mergeSort_perm entries (fun a b => decide (a.1 ≤ b.1))
  have hs1 : (entries.mergeSort (fun a b => decide (a.1 ≤ b.1))).Pairwise
      (fun a b => decide (a.1 ≤ b.1) = true) :=
    List.pairwise_mergeSort (by intro a b c; simp; omega) (by intro a b; simp; omega) entries
  have hn : ((entries.mergeSort (fun a b => decide (a.1 ≤ b.1))).map Prod.fst).Nodup :=
    (hp.map Prod.fst).nodup_iff.mpr hk
  have hs : (entries.mergeSort (fun a b => decide (a.1 ≤ b.1))).Pairwise (fun a b => a.1 < b.1) := by
    have hn' := List.pairwise_map.mp hn
    refine (hs1.and hn').imp ?_
    intro a b ⟨x, y⟩
    simp at x
    omega
  have hm : ∀ p, p ∈ entries.mergeSort (fun a b => decide (a.1 ≤ b.1)) ↔ p ∈ entries :=
    fun p => hp.mem_iff
  unfold writeCols
  cases e : entries.mergeSort (fun a b => decide (a.1 ≤ b.1)) with
  | nil =>
    refine ⟨by simp, by simp, fun c o => ?_⟩
    rw [← hm, e]; simp
  | cons p t =>
    obtain ⟨n, o⟩ := p
    rw [e] at hs
    have hs' := List.pairwise_cons.mp hs
    obtain ⟨i1, i2, i3⟩ := colsLoop_spec t ⟨n, n, o⟩ (Nat.le_refl _) (fun p hp => hs'.1 p hp) hs'.2
    refine ⟨fun r hr => (i1 r hr).1, i2, fun c o' => ?_⟩
    rw [i3, ← hm, e]
    simp only [List.mem_cons, Prod.mk.injEq]
    constructor
    · rintro (⟨a, b, rfl⟩ | h)
      · left; exact ⟨by omega, rfl⟩
      · right; exact h
    · rintro (⟨rfl, rfl⟩ | h)
      · left; exact ⟨Nat.le_refl _, Nat.le_refl _, rfl⟩
      · right; exact h

example : writeCols [(4, 'b'), (2, 'a'), (3, 'a'), (7, 'b'), (5, 'b')] =
    [⟨2, 3, 'a'⟩, ⟨4, 5, 'b'⟩, ⟨7, 7, 'b'⟩] := by
  have : [(4, 'b'), (2, 'a'), (3, 'a'), (7, 'b'), (5, 'b')].mergeSort
      (fun a b => decide (a.1 ≤ b.1)) = [(2, 'a'), (3, 'a'), (4, 'b'), (5, 'b'), (7, 'b')] := by
    simp [List.mergeSort, List.MergeSort.Internal.splitInTwo, List.merge]
  simp [writeCols, this, colsLoop]

end Verif
