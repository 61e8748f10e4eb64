/-!
Model of `std::collections::BTreeMap` with integer keys as a list of pairs kept in
increasing key order.  Only the map behaviour (last insert wins, iteration in key order) is
modelled, which is the documented contract of the Rust type.
-/
namespace Verif

abbrev BMap (β : Type) := List (Nat × β)

namespace BMap
variable {β : Type}

/-- `BTreeMap::insert`. -/
def insert (k : Nat) (v : β) : BMap β → BMap β
  | [] => [(k, v)]
  | (k', v') :: t =>
    if k < k' then (k, v) :: (k', v') :: t
    else if k = k' then (k, v) :: t
    else (k', v') :: insert k v t

/-- `BTreeMap::get`. -/
def get (k : Nat) : BMap β → Option β
  | [] => none
  | (k', v) :: t => if k = k' then some v else get k t

/-- `BTreeMap::remove`. -/
def remove (k : Nat) (m : BMap β) : BMap β := m.filter (fun p => p.1 ≠ k)

/-- Key order invariant of the representation. -/
def Sorted (m : BMap β) : Prop := m.Pairwise (fun a b => a.1 < b.1)

theorem get_insert (k : Nat) (v : β) (m : BMap β) (hm : Sorted m) (j : Nat) :
    get j (insert k v m) = if j = k then some v else get j m := by
  induction m with
  | nil => simp only [insert, get]
  | cons p t ih =>
    obtain ⟨k', v'⟩ := p
    have hs := List.pairwise_cons.mp hm
    simp only [insert]
    split
    · simp only [get]
    · split
      · rename_i h1 h2
        subst h2
        simp only [get]
        split <;> simp_all
      · rename_i h1 h2
        simp only [get]
        by_cases hj : j = k'
        · subst hj; simp; intro h; omega
        · simp only [if_neg hj]; exact ih hs.2

theorem mem_insert {k : Nat} {v : β} {m : BMap β} {p : Nat × β}
    (h : p ∈ insert k v m) : p = (k, v) ∨ p ∈ m := by
  induction m with
  | nil => simpa [insert] using h
  | cons q t ih =>
    obtain ⟨k', v'⟩ := q
    simp only [insert] at h
    split at h
    · simpa using h
    · split at h
      · simp at h ⊢; rcases h with h | h <;> simp [h]
      · simp at h ⊢
        rcases h with h | h
        · simp [h]
        · rcases ih h with h | h <;> simp [h]

theorem sorted_insert (k : Nat) (v : β) (m : BMap β) (hm : Sorted m) : Sorted (insert k v m) := by
  induction m with
  | nil => simp [insert, Sorted]
  | cons p t ih =>
    obtain ⟨k', v'⟩ := p
    have hs := List.pairwise_cons.mp hm
    simp only [insert]
    split
    · rename_i h
      refine List.pairwise_cons.mpr ⟨?_, hm⟩
      intro a ha
      rcases List.mem_cons.mp ha with rfl | ha
      · exact h
      · exact Nat.lt_trans h (hs.1 a ha)
    · split
      · rename_i h1 h2; subst h2
        exact List.pairwise_cons.mpr ⟨hs.1, hs.2⟩
      · rename_i h1 h2
        refine List.pairwise_cons.mpr ⟨?_, ih hs.2⟩
        intro a ha
        rcases mem_insert ha with rfl | ha
        · simp only; omega
        · exact hs.1 a ha

theorem mem_iff_get {m : BMap β} (hm : Sorted m) (k : Nat) (v : β) :
    (k, v) ∈ m ↔ get k m = some v := by
  induction m with
  | nil => simp [get]
  | cons p t ih =>
    obtain ⟨k', v'⟩ := p
    have hs := List.pairwise_cons.mp hm
    simp only [List.mem_cons, Prod.mk.injEq, get]
    by_cases h : k = k'
    · subst h
      simp only [true_and, if_true, Option.some.injEq]
      constructor
      · rintro (h | h)
        · exact h.symm
        · have := hs.1 _ h; simp at this
      · intro h; exact Or.inl h.symm
    · simp only [h, false_and, false_or, if_false]
      exact ih hs.2

theorem get_none_of_not_mem {m : BMap β} {k : Nat} (h : ∀ v, (k, v) ∉ m) : get k m = none := by
  induction m with
  | nil => rfl
  | cons p t ih =>
    obtain ⟨k', v'⟩ := p
    simp only [get]
    split
    · rename_i e; subst e; exact absurd (List.mem_cons_self) (h v')
    · exact ih (fun v hv => h v (List.mem_cons_of_mem _ hv))

theorem sorted_remove (k : Nat) (m : BMap β) (hm : Sorted m) : Sorted (remove k m) :=
  List.Pairwise.filter _ hm

theorem get_remove (k : Nat) (m : BMap β) (j : Nat) :
    get j (remove k m) = if j = k then none else get j m := by
  induction m with
  | nil => simp [remove, get]
  | cons p t ih =>
    obtain ⟨k', v'⟩ := p
    simp only [remove, List.filter_cons] at ih ⊢
    by_cases h : k' = k
    · subst h
      simp only [ne_eq, not_true, decide_false, Bool.false_eq_true, if_false, ih, get]
      split <;> simp_all
    · simp only [ne_eq, h, not_false_eq_true, decide_true, if_true, get, ih]
      by_cases hj : j = k'
      · subst hj; simp [h]
      · simp [hj]

theorem get_append_left {m n : BMap β} {k : Nat} {v : β} (h : get k m = some v) :
    get k (m ++ n) = some v := by
  induction m with
  | nil => simp [get] at h
  | cons p t ih =>
    obtain ⟨k', v'⟩ := p
    simp only [List.cons_append, get] at h ⊢
    split <;> simp_all

/-- Key-ordered maps with the same lookups are equal. -/
theorem ext {m n : BMap β} (hm : Sorted m) (hn : Sorted n) (h : ∀ k, get k m = get k n) :
    m = n := by
  induction m generalizing n with
  | nil =>
    cases n with
    | nil => rfl
    | cons p t => have := h p.1; simp [get] at this
  | cons p t ih =>
    obtain ⟨k, v⟩ := p
    cases n with
    | nil => have := h k; simp [get] at this
    | cons q u =>
      obtain ⟨k', v'⟩ := q
      have hs := List.pairwise_cons.mp hm
      have hs' := List.pairwise_cons.mp hn
      have hk : k = k' := by
        have h1 := h k
        have h2 := h k'
        simp only [get, if_true] at h1 h2
        rcases Nat.lt_trichotomy k k' with hlt | heq | hgt
        · rw [if_neg (by omega)] at h1
          have := (mem_iff_get hs'.2 k v).mpr h1.symm
          have := hs'.1 _ this; simp at this; omega
        · exact heq
        · rw [if_neg (by omega)] at h2
          have := (mem_iff_get hs.2 k' v').mpr h2
          have := hs.1 _ this; simp at this; omega
      subst hk
      have hv : v = v' := by have := h k; simpa [get] using this
      subst hv
      congr 1
      apply ih hs.2 hs'.2
      intro j
      by_cases hj : j = k
      · subst hj
        rw [get_none_of_not_mem, get_none_of_not_mem]
        · intro w hw; have := hs'.1 _ hw; simp at this
        · intro w hw; have := hs.1 _ hw; simp at this
      · have := h j; simpa [get, hj] using this

theorem get_map {γ} (f : Nat → β → γ) (m : BMap β) (k : Nat) :
    get k (m.map fun p => (p.1, f p.1 p.2)) = (get k m).map (f k) := by
  induction m with
  | nil => rfl
  | cons p t ih =>
    obtain ⟨k', v'⟩ := p
    simp only [List.map_cons, get]
    split
    · rename_i h; subst h; rfl
    · exact ih

theorem sorted_map {γ} (f : Nat → β → γ) (m : BMap β) (hm : Sorted m) :
    Sorted (m.map fun p => (p.1, f p.1 p.2)) := by
  unfold Sorted at *
  rw [List.pairwise_map]
  exact hm

end BMap
end Verif
