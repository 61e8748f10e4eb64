import Verif.Model.MergeRange
import Verif.Spec.Ranges
/-!
The overlap loop shared by merged ranges and tables.
-/
namespace Verif
open Spec

theorem mem_cells (d : Dims) (r c : Nat) : (r, c) ∈ d.cells ↔ covers d r c := by
  simp only [Dims.cells, covers, List.mem_flatMap, List.mem_map, List.mem_range'_1, Prod.mk.injEq]
  constructor
  · rintro ⟨r', hr, c', hc, rfl, rfl⟩; omega
  · intro h; exact ⟨r, by omega, c, by omega, rfl, rfl⟩

theorem cells_nodup (d : Dims) : d.cells.Nodup := by
  unfold Dims.cells
  rw [List.nodup_iff_pairwise_ne, List.pairwise_flatMap]
  constructor
  · intro r _
    rw [List.pairwise_map]
    exact (List.nodup_iff_pairwise_ne.mp List.nodup_range').imp fun h e => h (by cases e; rfl)
  · refine (List.nodup_iff_pairwise_ne.mp List.nodup_range').imp ?_
    intro a b hab x hx y hy e
    obtain ⟨_, _, rfl⟩ := List.mem_map.mp hx
    obtain ⟨_, _, rfl⟩ := List.mem_map.mp hy
    cases e; exact hab rfl

theorem lookup_cons_ne {m : CellIndex} {p q : Nat × Nat} {i : Nat} (h : q ≠ p) :
    List.lookup q ((p, i) :: m) = m.lookup q := by
  simp only [List.lookup]
  have : (q == p) = false := by simpa using h
  rw [this]

theorem lookup_cons_eq {m : CellIndex} {p : Nat × Nat} {i : Nat} :
    List.lookup p ((p, i) :: m) = some i := by simp [List.lookup]

/-- Entries are never changed or removed. -/
theorem claim_keeps (ranges : List Dims) (ps : List (Nat × Nat)) (m : CellIndex) (q : Nat × Nat) (i : Nat)
    (h : m.lookup q = some i) : (claimCells ranges ps m).2.lookup q = some i := by
  induction ps generalizing m with
  | nil => exact h
  | cons p ps ih =>
    simp only [claimCells]
    split
    · split <;> exact h
    · rename_i hp
      apply ih
      rw [lookup_cons_ne (by rintro rfl; rw [h] at hp; cases hp)]
      exact h

/-- The loop gets through exactly if no cell was taken. -/
theorem claim_free_iff (ranges : List Dims) (ps : List (Nat × Nat)) (hn : ps.Nodup) (m : CellIndex) :
    (claimCells ranges ps m).1 = .free ↔ ∀ p ∈ ps, m.lookup p = none := by
  induction ps generalizing m with
  | nil => simp [claimCells]
  | cons p ps ih =>
    obtain ⟨hp, hps⟩ := List.nodup_cons.mp hn
    simp only [claimCells]
    split
    · rename_i i hi
      constructor
      · intro h; split at h <;> cases h
      · intro h; have := h p List.mem_cons_self; rw [hi] at this; cases this
    · rename_i hi
      rw [ih hps]
      simp only [List.mem_cons, forall_eq_or_imp, hi, true_and]
      constructor
      · intro h q hq
        have := h q hq
        rwa [lookup_cons_ne (by rintro rfl; exact hp hq)] at this
      · intro h q hq
        rw [lookup_cons_ne (by rintro rfl; exact hp hq)]
        exact h q hq

/-- Afterwards the cells of the range are entered under the number of the new range. -/
theorem claim_free_lookup (ranges : List Dims) (ps : List (Nat × Nat)) (m : CellIndex)
    (h : (claimCells ranges ps m).1 = .free) (q : Nat × Nat) :
    (claimCells ranges ps m).2.lookup q = if q ∈ ps then some ranges.length else m.lookup q := by
  induction ps generalizing m with
  | nil => simp [claimCells]
  | cons p ps ih =>
    simp only [claimCells] at h ⊢
    split at h
    · split at h <;> cases h
    · rename_i hi
      rw [ih _ h]
      by_cases hq : q ∈ ps
      · simp [hq]
      · by_cases hqp : q = p
        · subst hqp; simp [hq, lookup_cons_eq]
        · simp [hq, hqp, lookup_cons_ne hqp]

/-- A taken cell is one of the cells of the range and was taken before. -/
theorem claim_taken (ranges : List Dims) (ps : List (Nat × Nat)) (hn : ps.Nodup) (m : CellIndex) (d : Dims)
    (h : (claimCells ranges ps m).1 = .taken d) :
    ∃ p ∈ ps, ∃ i, m.lookup p = some i ∧ ranges[i]? = some d := by
  induction ps generalizing m with
  | nil => simp [claimCells] at h
  | cons p ps ih =>
    obtain ⟨hp, hps⟩ := List.nodup_cons.mp hn
    simp only [claimCells] at h
    split at h
    · rename_i i hi
      split at h
      · rename_i e he; cases h; exact ⟨p, List.mem_cons_self, i, hi, he⟩
      · cases h
    · rename_i hi
      obtain ⟨q, hq, i, h1, h2⟩ := ih hps _ h
      rw [lookup_cons_ne (by rintro rfl; exact hp hq)] at h1
      exact ⟨q, List.mem_cons_of_mem _ hq, i, h1, h2⟩

/-- A panic needs an entry for a range that does not exist. -/
theorem claim_panic (ranges : List Dims) (ps : List (Nat × Nat)) (hn : ps.Nodup) (m : CellIndex)
    (h : (claimCells ranges ps m).1 = .panic) :
    ∃ p ∈ ps, ∃ i, m.lookup p = some i ∧ ranges[i]? = none := by
  induction ps generalizing m with
  | nil => simp [claimCells] at h
  | cons p ps ih =>
    obtain ⟨hp, hps⟩ := List.nodup_cons.mp hn
    simp only [claimCells] at h
    split at h
    · rename_i i hi
      split at h
      · cases h
      · rename_i he; exact ⟨p, List.mem_cons_self, i, hi, he⟩
    · rename_i hi
      obtain ⟨q, hq, i, h1, h2⟩ := ih hps _ h
      rw [lookup_cons_ne (by rintro rfl; exact hp hq)] at h1
      exact ⟨q, List.mem_cons_of_mem _ hq, i, h1, h2⟩

/-- What the accepted ranges and the index always satisfy. -/
structure ClaimInv (ranges : List Dims) (m : CellIndex) : Prop where
  entered : ∀ d ∈ ranges, ∀ r c, covers d r c → (m.lookup (r, c)).isSome
  disjoint : ranges.Pairwise apart

theorem ClaimInv.empty : ClaimInv [] [] := ⟨by simp, List.Pairwise.nil⟩

/-- The index holds only cells of accepted ranges. -/
def ClaimExact (ranges : List Dims) (m : CellIndex) : Prop :=
  ∀ r c i, m.lookup (r, c) = some i → ∃ d, ranges[i]? = some d ∧ covers d r c

theorem ClaimExact.empty : ClaimExact [] [] := by intro r c i h; cases h

theorem ClaimInv.taken {ranges : List Dims} {m : CellIndex} (h : ClaimInv ranges m) (d : Dims) :
    ClaimInv ranges (claimCells ranges d.cells m).2 := by
  refine ⟨fun e he r c hc => ?_, h.disjoint⟩
  obtain ⟨i, hi⟩ := Option.isSome_iff_exists.mp (h.entered e he r c hc)
  rw [claim_keeps _ _ _ _ _ hi]; rfl

theorem ClaimInv.apart_of_free {ranges : List Dims} {m : CellIndex} (h : ClaimInv ranges m) {d : Dims}
    (hf : (claimCells ranges d.cells m).1 = .free) : ∀ e ∈ ranges, apart e d := by
  rw [claim_free_iff _ _ (cells_nodup d)] at hf
  rintro e he r c ⟨h1, h2⟩
  have := h.entered e he r c h1
  rw [hf _ ((mem_cells d r c).mpr h2)] at this
  cases this

theorem ClaimInv.free {ranges : List Dims} {m : CellIndex} (h : ClaimInv ranges m) {d : Dims}
    (hf : (claimCells ranges d.cells m).1 = .free) :
    ClaimInv (ranges ++ [d]) (claimCells ranges d.cells m).2 := by
  refine ⟨fun e he r c hc => ?_, ?_⟩
  · rcases List.mem_append.mp he with he | he
    · exact (h.taken d).entered e he r c hc
    · rw [List.mem_singleton.mp he] at hc
      rw [claim_free_lookup _ _ _ hf, if_pos ((mem_cells d r c).mpr hc)]; rfl
  · rw [List.pairwise_append]
    refine ⟨h.disjoint, List.pairwise_singleton _ _, ?_⟩
    intro e he x hx
    rw [List.mem_singleton.mp hx]
    exact h.apart_of_free hf e he

theorem ClaimExact.free {ranges : List Dims} {m : CellIndex} (h : ClaimExact ranges m) {d : Dims}
    (hf : (claimCells ranges d.cells m).1 = .free) :
    ClaimExact (ranges ++ [d]) (claimCells ranges d.cells m).2 := by
  intro r c i hi
  rw [claim_free_lookup _ _ _ hf] at hi
  split at hi
  · rename_i hm
    cases hi
    exact ⟨d, by simp, (mem_cells d r c).mp hm⟩
  · obtain ⟨e, he, hc⟩ := h r c i hi
    refine ⟨e, ?_, hc⟩
    rw [List.getElem?_append_left (List.getElem?_eq_some_iff.mp he).1]
    exact he

/-- With an exact index the loop decides overlap, and it names a range that does overlap. -/
theorem ClaimExact.cases {ranges : List Dims} {m : CellIndex} (hI : ClaimInv ranges m)
    (h : ClaimExact ranges m) (d : Dims) :
    ((claimCells ranges d.cells m).1 = .free ∧ ∀ e ∈ ranges, apart e d) ∨
    (∃ p, (claimCells ranges d.cells m).1 = .taken p ∧ p ∈ ranges ∧ ¬ apart p d) := by
  cases hc : (claimCells ranges d.cells m).1 with
  | free => exact .inl ⟨rfl, hI.apart_of_free hc⟩
  | taken p =>
    refine .inr ⟨p, rfl, ?_⟩
    obtain ⟨⟨r, c⟩, hq, i, h1, h2⟩ := claim_taken _ _ (cells_nodup d) _ _ hc
    obtain ⟨e, he, hv⟩ := h r c i h1
    rw [h2] at he; cases he
    exact ⟨List.mem_of_getElem? h2, fun ha => ha r c ⟨hv, (mem_cells d r c).mp hq⟩⟩
  | panic =>
    obtain ⟨⟨r, c⟩, hq, i, h1, h2⟩ := claim_panic _ _ (cells_nodup d) _ hc
    obtain ⟨e, he, _⟩ := h r c i h1
    rw [h2] at he; cases he

end Verif
