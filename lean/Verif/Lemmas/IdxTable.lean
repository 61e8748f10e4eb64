/-!
Index tables: the pattern "hash map from key to `len()` at insertion" used for cell formats,
shared strings, fonts, fills, borders...  A table is modelled as the list of pairs, newest
first.
-/
namespace Verif

set_option linter.unusedSectionVars false

variable {α : Type} [BEq α] [LawfulBEq α]

/-- The keys in order of first insertion (index `i` holds key number `i`). -/
def tblKeys (l : List (α × Nat)) : List α := (l.map Prod.fst).reverse

/-- The invariant of an index table: indices are `0..n-1`, keys are distinct. -/
structure TblInv (l : List (α × Nat)) : Prop where
  idx : l.map Prod.snd = (List.range l.length).reverse
  nodup : (l.map Prod.fst).Nodup

theorem tblInv_single (k : α) : TblInv [(k, 0)] := ⟨by simp [List.range_succ], by simp⟩

theorem tblInv_nil : TblInv ([] : List (α × Nat)) := ⟨by simp, by simp⟩

theorem tblKeys_cons (k : α) (i : Nat) (l : List (α × Nat)) :
    tblKeys ((k, i) :: l) = tblKeys l ++ [k] := by simp [tblKeys]

theorem tblKeys_length (l : List (α × Nat)) : (tblKeys l).length = l.length := by simp [tblKeys]

theorem mem_tblKeys {k : α} {l : List (α × Nat)} : k ∈ tblKeys l ↔ ∃ i, (k, i) ∈ l := by
  simp [tblKeys]

theorem tblInv_tail {p : α × Nat} {l : List (α × Nat)} (h : TblInv (p :: l)) :
    TblInv l ∧ p.2 = l.length := by
  have h1 := h.idx
  simp only [List.map_cons, List.length_cons, List.range_succ, List.reverse_append,
    List.reverse_cons, List.reverse_nil, List.nil_append, List.singleton_append,
    List.cons.injEq] at h1
  have h2 := h.nodup
  simp only [List.map_cons, List.nodup_cons] at h2
  exact ⟨⟨h1.2, h2.2⟩, h1.1⟩

theorem tblInv_insert {k : α} {l : List (α × Nat)} (h : TblInv l) (hk : k ∉ tblKeys l) :
    TblInv ((k, l.length) :: l) := by
  refine ⟨?_, ?_⟩
  · simp [List.range_succ, h.idx]
  · simp only [List.map_cons, List.nodup_cons]
    refine ⟨?_, h.nodup⟩
    intro hm
    apply hk
    simp only [tblKeys, List.mem_reverse]
    exact hm

theorem lookup_none_iff {k : α} {l : List (α × Nat)} : l.lookup k = none ↔ k ∉ tblKeys l := by
  induction l with
  | nil => simp [tblKeys]
  | cons p l ih =>
    obtain ⟨k', i⟩ := p
    rw [tblKeys_cons]
    by_cases e : k = k'
    · subst e; simp [List.lookup]
    · have : (k == k') = false := by simp [e]
      simp only [List.lookup, this, ih, List.mem_append, List.mem_singleton, e, or_false]

theorem lookup_some_get {k : α} {i : Nat} {l : List (α × Nat)} (h : TblInv l)
    (hl : l.lookup k = some i) : (tblKeys l)[i]? = some k := by
  induction l with
  | nil => simp at hl
  | cons p l ih =>
    obtain ⟨k', j⟩ := p
    have ht := tblInv_tail h
    simp only at ht
    rw [tblKeys_cons]
    by_cases e : k = k'
    · subst e
      have hj : j = i := by simpa [List.lookup] using hl
      subst hj
      rw [ht.2, ← tblKeys_length l, List.getElem?_append_right (Nat.le_refl _)]
      simp
    · have hb : (k == k') = false := by simp [e]
      simp only [List.lookup, hb] at hl
      have := ih ht.1 hl
      rw [List.getElem?_append_left]
      · exact this
      · exact (List.getElem?_eq_some_iff.mp this).1

theorem lookup_of_get {k : α} {i : Nat} {l : List (α × Nat)} (h : TblInv l)
    (hl : (tblKeys l)[i]? = some k) : l.lookup k = some i := by
  cases hc : l.lookup k with
  | none =>
    exact absurd (List.mem_of_getElem? hl) (lookup_none_iff.mp hc)
  | some j =>
    have hj := lookup_some_get h hc
    have hnd : (tblKeys l).Nodup := (List.reverse_perm _).nodup_iff.mpr h.nodup
    have h1 := List.getElem?_eq_some_iff.mp hl
    have h2 := List.getElem?_eq_some_iff.mp hj
    obtain ⟨l1, e1⟩ := h1
    obtain ⟨l2, e2⟩ := h2
    have := (List.getElem_inj (h₀ := l2) (h₁ := l1) hnd).mp (by rw [e1, e2])
    rw [this]

theorem inj_of_nodup_map {β γ : Type} {f : β → γ} {l : List β} (h : (l.map f).Nodup) {a b : β}
    (ha : a ∈ l) (hb : b ∈ l) (e : f a = f b) : a = b := by
  induction l with
  | nil => simp at ha
  | cons c l ih =>
    simp only [List.map_cons, List.nodup_cons, List.mem_map, not_exists, not_and] at h
    rcases List.mem_cons.mp ha with ha' | ha' <;> rcases List.mem_cons.mp hb with hb' | hb'
    · rw [ha', hb']
    · subst ha'; exact absurd e.symm (h.1 b hb')
    · subst hb'; exact absurd e (h.1 a ha')
    · exact ih h.2 ha' hb'

/-- Whatever order the hash map is iterated in, sorting its entries by index gives the keys
in index order. -/
theorem sort_by_index {l p : List (α × Nat)} (h : TblInv l) (hp : p.Perm l) :
    (p.mergeSort (fun a b => decide (a.2 ≤ b.2))).map Prod.fst = tblKeys l := by
  have hs : (p.mergeSort (fun a b => decide (a.2 ≤ b.2))).Pairwise (fun a b => a.2 ≤ b.2) := by
    have := List.pairwise_mergeSort (le := fun (a b : α × Nat) => decide (a.2 ≤ b.2))
      (by intro a b c h1 h2; simp at *; omega) (by intro a b; simp; omega) p
    simpa using this
  have hperm : (p.mergeSort (fun a b => decide (a.2 ≤ b.2))).Perm l.reverse :=
    ((List.mergeSort_perm p _).trans hp).trans (List.reverse_perm l).symm
  have hr : l.reverse.Pairwise (fun a b => a.2 < b.2) := by
    have : (l.reverse.map Prod.snd) = List.range l.length := by
      rw [List.map_reverse, h.idx, List.reverse_reverse]
    have h2 : (l.reverse.map Prod.snd).Pairwise (· < ·) := by
      rw [this]; exact List.pairwise_lt_range
    rwa [List.pairwise_map] at h2
  have key : p.mergeSort (fun a b => decide (a.2 ≤ b.2)) = l.reverse := by
    refine hperm.eq_of_pairwise (le := fun a b => a.2 ≤ b.2) ?_ hs (hr.imp Nat.le_of_lt)
    intro a b ha hb h1 h2
    have ha' : a ∈ l.reverse := hperm.mem_iff.mp ha
    have e : a.2 = b.2 := Nat.le_antisymm h1 h2
    have hnd : (l.reverse.map Prod.snd).Nodup := by
      have : (l.reverse.map Prod.snd) = List.range l.length := by
        rw [List.map_reverse, h.idx, List.reverse_reverse]
      rw [this]; exact List.nodup_range
    exact inj_of_nodup_map hnd ha' hb e
  rw [key, tblKeys, List.map_reverse]
end Verif
