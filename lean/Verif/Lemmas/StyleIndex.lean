import Verif.Lemmas.Style
/-!
The numbering of fonts, fills, borders and number formats.
-/
set_option linter.unusedSimpArgs false
namespace Verif
open Spec

variable {κ : Type} [DecidableEq κ]

theorem indexLoop_map {α : Type} (key : PFormat → κ) (set : Nat → Bool → PFormat → PFormat)
    (φ : PFormat → α) (hφ : ∀ i b p, φ (set i b p) = φ p) (ps : List PFormat) (table : List (κ × Nat))
    (count : Nat) : (indexLoop key set table count ps).1.map φ = ps.map φ := by
  induction ps generalizing table count with
  | nil => rfl
  | cons p ps ih =>
    cases h : table.lookup (key p) <;> simp [indexLoop, h, hφ, ih]

theorem indexLoop_spec (key : PFormat → κ) (set : Nat → Bool → PFormat → PFormat)
    (has : PFormat → Bool) (index : PFormat → Nat)
    (h1 : ∀ i b p, key (set i b p) = key p) (h2 : ∀ i b p, has (set i b p) = b)
    (h3 : ∀ i b p, index (set i b p) = i)
    (ps : List PFormat) (table : List (κ × Nat)) (count : Nat) (known : List κ)
    (hc : known.length = count) (ht : ∀ k i, table.lookup k = some i → known[i]? = some k)
    (hk : ∀ k, table.lookup k = none → k ∉ known) (hn : known.Nodup) :
    let r := indexLoop key set table count ps
    let w := known ++ (r.1.filter has).map key
    r.2 = w.length ∧ w.Nodup ∧ ∀ q ∈ r.1, w[index q]? = some (key q) := by
  induction ps generalizing table count known with
  | nil => simp [indexLoop, hc, hn]
  | cons p ps ih =>
    cases h : table.lookup (key p) with
    | some i =>
      have hi := ih table count known hc ht hk hn
      simp only [indexLoop, h, List.filter_cons, h2, Bool.false_eq_true, if_false] at hi ⊢
      refine ⟨hi.1, hi.2.1, ?_⟩
      intro q hq
      rcases List.mem_cons.mp hq with rfl | hq
      · rw [h3, h1]
        have hx := ht _ _ h
        obtain ⟨hl, _⟩ := List.getElem?_eq_some_iff.mp hx
        rw [List.getElem?_append_left hl, hx]
      · exact hi.2.2 q hq
    | none =>
      have hi := ih ((key p, count) :: table) (count + 1) (known ++ [key p]) (by simp [hc])
        (by
          intro k i hl
          by_cases hkk : k = key p
          · subst hkk
            simp [List.lookup] at hl
            subst hl; subst hc; simp
          · have hb : (k == key p) = false := by simpa using hkk
            simp only [List.lookup, hb] at hl
            have hx := ht _ _ hl
            obtain ⟨hl', _⟩ := List.getElem?_eq_some_iff.mp hx
            rw [List.getElem?_append_left hl', hx])
        (by
          intro k hl
          by_cases hkk : k = key p
          · subst hkk; simp [List.lookup] at hl
          · have hb : (k == key p) = false := by simpa using hkk
            simp only [List.lookup, hb] at hl
            simp [hk _ hl, hkk])
        (by
          rw [List.nodup_append]
          refine ⟨hn, by simp, ?_⟩
          intro a ha b hb e
          simp at hb
          subst hb; subst e
          exact hk _ h ha)
      simp only [indexLoop, h, List.filter_cons, h2, if_true, List.map_cons, h1,
        List.append_assoc, List.singleton_append] at hi ⊢
      refine ⟨hi.1, hi.2.1, ?_⟩
      intro q hq
      rcases List.mem_cons.mp hq with rfl | hq
      · rw [h3, h1, ← hc]; simp
      · exact hi.2.2 q hq

/-! ### Number formats -/

/-- The number format behind an id, given the list of user formats. -/
def numShown (nf : List Str) (id : Nat) : NumSeen :=
  if id < 164 then .builtIn id
  else match nf[id - 164]? with
    | some s => .code s
    | none => .builtIn id

theorem numFormatLoop_map {α : Type} (φ : PFormat → α) (hφ : ∀ i p, φ (p.setNumIndex i) = φ p)
    (ps : List PFormat) (table : List (Str × Nat)) (index : Nat) (nf : List Str) :
    (numFormatLoop table index nf ps).1.map φ = ps.map φ := by
  induction ps generalizing table index nf with
  | nil => rfl
  | cons p ps ih =>
    unfold numFormatLoop
    split
    · simp [ih]
    · cases h : table.lookup p.fmt.numFormat <;> simp [hφ, ih]

theorem numFormatLoop_prefix (ps : List PFormat) (table : List (Str × Nat)) (index : Nat)
    (nf : List Str) : nf <+: (numFormatLoop table index nf ps).2 := by
  induction ps generalizing table index nf with
  | nil => exact List.prefix_rfl
  | cons p ps ih =>
    unfold numFormatLoop
    split
    · exact ih ..
    · cases h : table.lookup p.fmt.numFormat
      · exact (List.prefix_append _ _).trans (ih ..)
      · exact ih ..

theorem numShown_prefix {a b : List Str} (h : a <+: b) {id : Nat} {s : Str}
    (hs : numShown a id = .code s) : numShown b id = .code s := by
  obtain ⟨c, rfl⟩ := h
  unfold numShown at hs ⊢
  split at hs
  · cases hs
  · rename_i hlt
    rw [if_neg hlt]
    cases hx : a[id - 164]? with
    | none => rw [hx] at hs; cases hs
    | some t =>
      rw [hx] at hs
      obtain ⟨hl, _⟩ := List.getElem?_eq_some_iff.mp hx
      rw [List.getElem?_append_left hl, hx]
      exact hs

theorem numFormatLoop_spec (ps : List PFormat) (hps : ∀ p ∈ ps, p.fmt.numFormatIndex < 164)
    (table : List (Str × Nat)) (index : Nat) (nf : List Str) (hi : index = 164 + nf.length)
    (ht : ∀ k i, table.lookup k = some i → numShown nf i = .code k)
    (hk : ∀ k, table.lookup k = none → k ∉ nf) (hn : nf.Nodup) :
    let r := numFormatLoop table index nf ps
    r.2.Nodup ∧ ∀ (j : Nat) (p q : PFormat), ps[j]? = some p → r.1[j]? = some q →
      numShown r.2 q.fmt.numFormatIndex = numMeant p.fmt := by
  induction ps generalizing table index nf with
  | nil => simp [numFormatLoop, hn]
  | cons p ps ih =>
    have hp := hps p List.mem_cons_self
    have hps' := fun x hx => hps x (List.mem_cons_of_mem _ hx)
    by_cases hc : p.fmt.numFormatIndex > 0 ∨ p.fmt.numFormat = []
    · have := ih hps' table index nf hi ht hk hn
      simp only [numFormatLoop, if_pos hc] at this ⊢
      refine ⟨this.1, ?_⟩
      intro j a b ha hb
      cases j with
      | zero =>
        simp at ha hb
        subst ha; subst hb
        unfold numShown numMeant
        rw [if_pos hp]
        by_cases h0 : p.fmt.numFormatIndex = 0
        · have : p.fmt.numFormat = [] := by
            rcases hc with h | h
            · omega
            · exact h
          simp [h0, this]
        · simp [h0]
      | succ j => exact this.2 j a b (by simpa using ha) (by simpa using hb)
    · have hc' : p.fmt.numFormatIndex = 0 ∧ p.fmt.numFormat ≠ [] := by
        constructor
        · have : ¬ (p.fmt.numFormatIndex > 0) := fun h => hc (Or.inl h)
          omega
        · exact fun h => hc (Or.inr h)
      have hm : numMeant p.fmt = .code p.fmt.numFormat := by
        unfold numMeant; simp [hc'.1, hc'.2]
      cases hl : table.lookup p.fmt.numFormat with
      | some i =>
        have := ih hps' table index nf hi ht hk hn
        simp only [numFormatLoop, if_neg hc, hl] at this ⊢
        refine ⟨this.1, ?_⟩
        intro j a b ha hb
        cases j with
        | zero =>
          simp at ha hb
          subst ha; subst hb
          rw [hm]
          exact numShown_prefix (numFormatLoop_prefix ..) (ht _ _ hl)
        | succ j => exact this.2 j a b (by simpa using ha) (by simpa using hb)
      | none =>
        have hs : numShown (nf ++ [p.fmt.numFormat]) index = .code p.fmt.numFormat := by
          unfold numShown
          rw [if_neg (by omega)]
          simp [hi]
        have := ih hps' ((p.fmt.numFormat, index) :: table) (index + 1) (nf ++ [p.fmt.numFormat])
          (by simp [hi]; omega)
          (by
            intro k i hk'
            by_cases hkk : k = p.fmt.numFormat
            · subst hkk
              simp [List.lookup] at hk'
              subst hk'; exact hs
            · have hb : (k == p.fmt.numFormat) = false := by simpa using hkk
              simp only [List.lookup, hb] at hk'
              exact numShown_prefix (List.prefix_append _ _) (ht _ _ hk'))
          (by
            intro k hk'
            by_cases hkk : k = p.fmt.numFormat
            · subst hkk; simp [List.lookup] at hk'
            · have hb : (k == p.fmt.numFormat) = false := by simpa using hkk
              simp only [List.lookup, hb] at hk'
              simp [hk _ hk', hkk])
          (by
            rw [List.nodup_append]
            refine ⟨hn, by simp, ?_⟩
            intro a ha b hb e
            simp at hb
            subst hb; subst e
            exact hk _ hl ha)
        simp only [numFormatLoop, if_neg hc, hl] at this ⊢
        refine ⟨this.1, ?_⟩
        intro j a b ha hb
        cases j with
        | zero =>
          simp at ha hb
          subst ha; subst hb
          rw [hm]
          exact numShown_prefix (numFormatLoop_prefix ..) hs
        | succ j => exact this.2 j a b (by simpa using ha) (by simpa using hb)

/-- The user number formats come from the formats. -/
theorem numFormats_from (ps : List PFormat) (table : List (Str × Nat)) (index : Nat) (nf : List Str) :
    ∀ s ∈ (numFormatLoop table index nf ps).2, s ∈ nf ∨ ∃ p ∈ ps, p.fmt.numFormat = s := by
  induction ps generalizing table index nf with
  | nil => intro s hs; exact Or.inl hs
  | cons p ps ih =>
    intro s hs
    unfold numFormatLoop at hs
    split at hs
    · rcases ih _ _ _ s hs with h | ⟨q, hq, e⟩
      · exact Or.inl h
      · exact Or.inr ⟨q, List.mem_cons_of_mem _ hq, e⟩
    · cases h : table.lookup p.fmt.numFormat with
      | none =>
        rw [h] at hs
        rcases ih _ _ _ s hs with h | ⟨q, hq, e⟩
        · rcases List.mem_append.mp h with h | h
          · exact Or.inl h
          · simp at h; exact Or.inr ⟨p, List.mem_cons_self, h.symm⟩
        · exact Or.inr ⟨q, List.mem_cons_of_mem _ hq, e⟩
      | some i =>
        rw [h] at hs
        rcases ih _ _ _ s hs with h | ⟨q, hq, e⟩
        · exact Or.inl h
        · exact Or.inr ⟨q, List.mem_cons_of_mem _ hq, e⟩

end Verif
