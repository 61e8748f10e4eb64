import Verif.Spec.Setup
/-! Headers and footers: the variables in the texts (C59). -/
namespace Verif
open Spec

/-! ### Equations without fuel -/

theorem afterPrefix_iff (p s t : Text) : afterPrefix p s = some t ↔ s = p ++ t := by
  induction p generalizing s with
  | nil => simp [afterPrefix]
  | cons a p ih =>
    cases s with
    | nil => simp [afterPrefix]
    | cons c s =>
      unfold afterPrefix
      by_cases h : a = c
      · subst h; rw [if_pos rfl, ih]; simp
      · rw [if_neg h]
        simp only [List.cons_append, List.cons.injEq]
        exact ⟨fun x => (by cases x), fun x => absurd x.1.symm h⟩

theorem hfVariable_len {names : List (Text × Char)} {s t : Text} {l : Char} (h : hfVariable names s = some (l, t)) :
    t.length ≤ s.length := by
  unfold hfVariable at h
  obtain ⟨n, hn, he⟩ := List.exists_of_findSome?_eq_some h
  rw [Option.map_eq_some_iff] at he
  obtain ⟨r, hr, heq⟩ := he
  cases heq
  rw [afterPrefix_iff] at hr
  rw [hr, List.length_append]
  omega

theorem hfPartsN_fuel (names : List (Text × Char)) (n m : Nat) (s : Text) (hn : s.length ≤ n) (hm : s.length ≤ m) :
    hfPartsN names n s = hfPartsN names m s := by
  induction n generalizing m s with
  | zero =>
    have : s = [] := List.length_eq_zero_iff.mp (by omega)
    subst this
    cases m <;> rfl
  | succ n ih =>
    cases s with
    | nil => cases m <;> rfl
    | cons c s =>
      cases m with
      | zero => simp at hm
      | succ m =>
        simp only [List.length_cons, Nat.add_le_add_iff_right] at hn hm
        unfold hfPartsN
        by_cases hc : c = '&'
        · rw [if_pos hc, if_pos hc]
          cases hv : hfVariable names s with
          | some p =>
            obtain ⟨l, r⟩ := p
            have := hfVariable_len hv
            dsimp only
            rw [ih m r (by omega) (by omega)]
          | none =>
            cases s with
            | nil => rfl
            | cons d s =>
              simp only [List.length_cons] at hn hm
              dsimp only
              rw [ih m s (by omega) (by omega)]
        · rw [if_neg hc, if_neg hc, ih m s hn hm]

theorem hfParts_nil (names : List (Text × Char)) : hfParts names [] = [] := rfl

theorem hfParts_char (names : List (Text × Char)) {c : Char} (h : c ≠ '&') (s : Text) :
    hfParts names (c :: s) = .char c :: hfParts names s := by
  show hfPartsN names (s.length + 1) (c :: s) = _
  unfold hfParts
  rw [hfPartsN.eq_def]
  dsimp only
  rw [if_neg h]

theorem hfParts_var {names : List (Text × Char)} {l : Char} {s r : Text} (h : hfVariable names s = some (l, r)) :
    hfParts names ('&' :: s) = .code l :: hfParts names r := by
  show hfPartsN names (s.length + 1) ('&' :: s) = _
  unfold hfParts
  rw [hfPartsN.eq_def]
  dsimp only
  rw [if_pos rfl, h]
  dsimp only
  rw [hfPartsN_fuel names s.length r.length r (hfVariable_len h) (Nat.le_refl _)]

theorem hfParts_code {names : List (Text × Char)} {d : Char} {s : Text} (h : hfVariable names (d :: s) = none) :
    hfParts names ('&' :: d :: s) = .code d :: hfParts names s := by
  unfold hfParts
  rw [List.length_cons, hfPartsN, if_pos rfl, h]
  dsimp only
  rw [hfPartsN_fuel names (d :: s).length s.length s (by simp) (Nat.le_refl _)]

theorem hfParts_end {names : List (Text × Char)} (h : hfVariable names [] = none) : hfParts names ['&'] = [.char '&'] := by
  unfold hfParts
  rw [List.length_cons, hfPartsN, if_pos rfl, h]

theorem replaceAllN_fuel (p r : Str) (hp : p ≠ []) (n m : Nat) (s : Str) (hn : s.length ≤ n) (hm : s.length ≤ m) :
    replaceAllN p r n s = replaceAllN p r m s := by
  have hl : 0 < p.length := List.length_pos_iff.mpr hp
  induction n generalizing m s with
  | zero =>
    have : s = [] := List.length_eq_zero_iff.mp (by omega)
    subst this
    cases m <;> rfl
  | succ n ih =>
    cases s with
    | nil => cases m <;> rfl
    | cons c s =>
      cases m with
      | zero => simp at hm
      | succ m =>
        simp only [List.length_cons, Nat.add_le_add_iff_right] at hn hm
        have hd : ((c :: s).drop p.length).length ≤ s.length := by rw [List.length_drop, List.length_cons]; omega
        unfold replaceAllN
        rw [ih m s hn hm, ih m _ (by omega) (by omega)]

theorem replaceAll_hit {p r : Str} (hp : p ≠ []) (t : Str) : replaceAll p r (p ++ t) = r ++ replaceAll p r t := by
  cases p with
  | nil => exact absurd rfl hp
  | cons a p =>
    unfold replaceAll
    rw [List.cons_append, List.length_cons, replaceAllN]
    have hs : startsWith (a :: p) (a :: (p ++ t)) = true := by
      unfold startsWith
      rw [List.isPrefixOf_iff_prefix]
      exact ⟨t, rfl⟩
    rw [if_pos hs]
    have hd : (a :: (p ++ t)).drop (a :: p).length = t := by
      rw [List.length_cons, List.drop_succ_cons, List.drop_left]
    rw [hd, replaceAllN_fuel (a :: p) r hp _ t.length t (by simp) (Nat.le_refl _)]

theorem replaceAll_miss {p r : Str} (hp : p ≠ []) {c : Char} {s : Str} (h : ∀ t, c :: s ≠ p ++ t) :
    replaceAll p r (c :: s) = c :: replaceAll p r s := by
  unfold replaceAll
  rw [List.length_cons, replaceAllN]
  rw [if_neg]
  intro hs
  unfold startsWith at hs
  rw [List.isPrefixOf_iff_prefix] at hs
  obtain ⟨t, ht⟩ := hs
  exact h t ht.symm

/-! ### One variable -/

/-- The pattern of a variable. -/
def hfPattern (n : Text) : Str := '&' :: '[' :: (n ++ [']'])

theorem hfPattern_ne (n : Text) : hfPattern n ≠ [] := by simp [hfPattern]

/-- A replacement does not change a text without `&`. -/
theorem replace_prefix (n : Text) (l : Char) (w : Text) (hw : '&' ∉ w) (s t : Text) :
    s = w ++ t → replaceAll (hfPattern n) ['&', l] s = w ++ replaceAll (hfPattern n) ['&', l] t := by
  intro h
  subst h
  induction w with
  | nil => rfl
  | cons c w ih =>
    rw [List.mem_cons, not_or] at hw
    rw [List.cons_append, replaceAll_miss (hfPattern_ne n), ih hw.2, List.cons_append]
    intro x hx
    unfold hfPattern at hx
    rw [List.cons_append] at hx
    exact hw.1 (List.cons.inj hx).1.symm

theorem prefix_replace (n : Text) (l : Char) (w : Text) (hw : '&' ∉ w) (s t : Text)
    (h : replaceAll (hfPattern n) ['&', l] s = w ++ t) : ∃ t', s = w ++ t' := by
  induction w generalizing s with
  | nil => exact ⟨s, rfl⟩
  | cons c w ih =>
    rw [List.mem_cons, not_or] at hw
    cases s with
    | nil => simp [replaceAll, replaceAllN] at h
    | cons d s =>
      by_cases hp : ∃ x, d :: s = hfPattern n ++ x
      · obtain ⟨x, hx⟩ := hp
        rw [hx, replaceAll_hit (hfPattern_ne n)] at h
        exact absurd (List.cons.inj h).1 hw.1
      · rw [replaceAll_miss (hfPattern_ne n) (fun x hx => hp ⟨x, hx⟩)] at h
        obtain ⟨h1, h2⟩ := List.cons.inj h
        obtain ⟨t', rfl⟩ := ih hw.2 s h2
        exact ⟨t', by rw [h1]; rfl⟩

theorem afterPrefix_replace (n : Text) (l : Char) (w : Text) (hw : '&' ∉ w) (s : Text) :
    afterPrefix w (replaceAll (hfPattern n) ['&', l] s) = (afterPrefix w s).map (replaceAll (hfPattern n) ['&', l]) := by
  cases e : afterPrefix w s with
  | some t =>
    rw [afterPrefix_iff] at e
    rw [Option.map_some, afterPrefix_iff]
    exact replace_prefix n l w hw s t e
  | none =>
    rw [Option.map_none]
    cases e' : afterPrefix w (replaceAll (hfPattern n) ['&', l] s) with
    | none => rfl
    | some t =>
      rw [afterPrefix_iff] at e'
      obtain ⟨t', ht⟩ := prefix_replace n l w hw s t e'
      rw [(afterPrefix_iff w s t').mpr ht] at e
      cases e

theorem hfVariable_replace (n : Text) (l : Char) (names : List (Text × Char)) (hn : ∀ x ∈ names, '&' ∉ x.1) (s : Text) :
    hfVariable names (replaceAll (hfPattern n) ['&', l] s) =
      (hfVariable names s).map fun p => (p.1, replaceAll (hfPattern n) ['&', l] p.2) := by
  unfold hfVariable
  induction names with
  | nil => rfl
  | cons x names ih =>
    rw [List.findSome?_cons, List.findSome?_cons, afterPrefix_replace n l _ (by
      have := hn x List.mem_cons_self
      simp only [List.cons_append, List.mem_cons, List.mem_append, not_or, List.mem_nil_iff, or_false]
      exact ⟨by decide, this, by decide⟩)]
    cases afterPrefix ('[' :: x.1 ++ [']']) s with
    | some t => rfl
    | none => exact ih fun y hy => hn y (List.mem_cons_of_mem _ hy)

/-- No `&&[` in a text. -/
def NoAmp (s : Text) : Prop := ∀ a b, s ≠ a ++ ('&' :: '&' :: '[' :: b)

theorem NoAmp.tail {c : Char} {s : Text} (h : NoAmp (c :: s)) : NoAmp s := fun a b e => h (c :: a) b (by rw [e]; rfl)

theorem NoAmp.drop {p s : Text} (h : NoAmp (p ++ s)) : NoAmp s := fun a b e => h (p ++ a) b (by rw [e, List.append_assoc])

theorem noAmp_cons {c : Char} {s : Text} (h1 : ∀ b, c :: s ≠ '&' :: '&' :: '[' :: b) (h2 : NoAmp s) : NoAmp (c :: s) := by
  intro a b e
  cases a with
  | nil => exact h1 b e
  | cons d a => exact h2 a b (List.cons.inj e).2

theorem noAmp_replace (n : Text) (l : Char) (hl : l ≠ '&') (hl' : l ≠ '[') (k : Nat) (s : Text) (hk : s.length ≤ k) (h : NoAmp s) :
    NoAmp (replaceAll (hfPattern n) ['&', l] s) := by
  induction k generalizing s with
  | zero =>
    have : s = [] := List.length_eq_zero_iff.mp (by omega)
    subst this; exact h
  | succ k ih =>
    cases s with
    | nil => exact h
    | cons c s =>
      by_cases hp : ∃ x, c :: s = hfPattern n ++ x
      · obtain ⟨x, hx⟩ := hp
        rw [hx, replaceAll_hit (hfPattern_ne n)]
        have hx' := ih x (by
          have := congrArg List.length hx
          rw [List.length_append] at this
          have h0 : 0 < (hfPattern n).length := List.length_pos_iff.mpr (hfPattern_ne n)
          simp only [List.length_cons] at this hk
          omega) (by rw [hx] at h; exact h.drop)
        refine noAmp_cons ?_ (noAmp_cons ?_ hx')
        · intro b e
          exact hl (List.cons.inj (List.cons.inj e).2).1
        · intro b e
          exact hl (List.cons.inj e).1
      · rw [replaceAll_miss (hfPattern_ne n) fun x hx => hp ⟨x, hx⟩]
        refine noAmp_cons ?_ (ih s (by simpa using hk) h.tail)
        intro b e
        obtain ⟨e1, e2⟩ := List.cons.inj e
        subst e1
        cases s with
        | nil => exact absurd e2 (by simp [replaceAll, replaceAllN])
        | cons d s =>
          by_cases hp' : ∃ x, d :: s = hfPattern n ++ x
          · obtain ⟨x, hx⟩ := hp'
            rw [hx, replaceAll_hit (hfPattern_ne n)] at e2
            exact hl' (List.cons.inj (List.cons.inj e2).2).1
          · rw [replaceAll_miss (hfPattern_ne n) fun x hx => hp' ⟨x, hx⟩] at e2
            obtain ⟨e3, e4⟩ := List.cons.inj e2
            subst e3
            obtain ⟨t, ht⟩ := prefix_replace n l ['['] (by decide) s b e4
            exact h [] t (by rw [ht]; rfl)

/-- After the replacement of a variable a reader need not know it. -/
theorem hfParts_replace (n : Text) (l : Char) (hl' : l ≠ '[') (names : List (Text × Char))
    (hn : ∀ x ∈ names, '&' ∉ x.1) (k : Nat) (s : Text) (hk : s.length ≤ k) (h : NoAmp s) :
    hfParts names (replaceAll (hfPattern n) ['&', l] s) = hfParts ((n, l) :: names) s := by
  have hempty : ∀ ns : List (Text × Char), hfVariable ns [] = none := by
    intro ns
    unfold hfVariable
    rw [List.findSome?_eq_none_iff]
    intro x _
    rfl
  induction k generalizing s with
  | zero =>
    have : s = [] := List.length_eq_zero_iff.mp (by omega)
    subst this; rfl
  | succ k ih =>
    cases s with
    | nil => rfl
    | cons c s =>
      simp only [List.length_cons, Nat.add_le_add_iff_right] at hk
      by_cases hc : c = '&'
      · subst hc
        by_cases hp : ∃ x, '&' :: s = hfPattern n ++ x
        · obtain ⟨x, hx⟩ := hp
          have hs : s = ('[' :: n ++ [']']) ++ x := by
            unfold hfPattern at hx
            exact (List.cons.inj hx).2
          rw [hx, replaceAll_hit (hfPattern_ne n)]
          have hv : hfVariable ((n, l) :: names) s = some (l, x) := by
            unfold hfVariable
            rw [List.findSome?_cons, (afterPrefix_iff _ s x).mpr hs]
            rfl
          have hnone : hfVariable names (l :: replaceAll (hfPattern n) ['&', l] x) = none := by
            unfold hfVariable
            rw [List.findSome?_eq_none_iff]
            intro y _
            show Option.map _ (afterPrefix ('[' :: (y.1 ++ [']'])) _) = none
            unfold afterPrefix
            rw [if_neg (fun e => hl' e.symm)]
            rfl
          rw [← hx, hfParts_var hv]
          show hfParts names ('&' :: l :: replaceAll (hfPattern n) ['&', l] x) = _
          rw [hfParts_code hnone, ih x (by rw [hs, List.length_append] at hk; omega) (by rw [hs] at h; exact (NoAmp.tail h).drop)]
        · rw [replaceAll_miss (hfPattern_ne n) fun x hx => hp ⟨x, hx⟩]
          have hv : hfVariable ((n, l) :: names) s = hfVariable names s := by
            unfold hfVariable
            rw [List.findSome?_cons]
            cases e : afterPrefix ('[' :: (n, l).1 ++ [']']) s with
            | none => rfl
            | some x =>
              rw [afterPrefix_iff] at e
              exact absurd ⟨x, by rw [e]; rfl⟩ hp
          have hr := hfVariable_replace n l names hn s
          cases e : hfVariable names s with
          | some q =>
            obtain ⟨m, t⟩ := q
            rw [e] at hv hr
            rw [hfParts_var hv, hfParts_var hr]
            have ht : t.length ≤ s.length := hfVariable_len e
            dsimp only
            rw [ih t (by omega) (by
              unfold hfVariable at e
              obtain ⟨y, _, hy⟩ := List.exists_of_findSome?_eq_some e
              rw [Option.map_eq_some_iff] at hy
              obtain ⟨r, hr, heq⟩ := hy
              cases heq
              rw [afterPrefix_iff] at hr
              rw [hr] at h
              exact (NoAmp.tail h).drop)]
          | none =>
            rw [e] at hv hr
            cases s with
            | nil =>
              rw [hfParts_end hv]
              exact hfParts_end (hempty names)
            | cons d s =>
              have hm : replaceAll (hfPattern n) ['&', l] (d :: s) = d :: replaceAll (hfPattern n) ['&', l] s := by
                refine replaceAll_miss (hfPattern_ne n) fun x hx => ?_
                unfold hfPattern at hx
                obtain ⟨h1, h2⟩ := List.cons.inj hx
                exact h [] ((n ++ [']']) ++ x) (by rw [h1, h2]; rfl)
              rw [hm] at hr ⊢
              rw [hfParts_code hv, hfParts_code hr, ih s (by simp only [List.length_cons] at hk; omega) h.tail.tail]
      · rw [replaceAll_miss (hfPattern_ne n) (by
          intro x hx
          unfold hfPattern at hx
          exact hc (List.cons.inj hx).1), hfParts_char _ hc, hfParts_char _ hc, ih s hk h.tail]

/-! ### All variables -/

theorem expandHeader_parts {s : Text} (h : NoAmp s) : hfParts [] (expandHeader s) = hfParts hfNames s := by
  have key : ∀ (n : Text) (l : Char) (names : List (Text × Char)) (t : Text), l ≠ '&' → l ≠ '[' → (∀ x ∈ names, '&' ∉ x.1) → NoAmp t →
      NoAmp (replaceAll (hfPattern n) ['&', l] t) ∧
      hfParts names (replaceAll (hfPattern n) ['&', l] t) = hfParts ((n, l) :: names) t := fun n l names t h1 h2 h3 h4 =>
    ⟨noAmp_replace n l h1 h2 _ t (Nat.le_refl _) h4, hfParts_replace n l h2 names h3 _ t (Nat.le_refl _) h4⟩
  have k1 := key "Tab".toList 'A' (hfNames.drop 1) s (by decide) (by decide) (by decide) h
  have k2 := key "Date".toList 'D' (hfNames.drop 2) _ (by decide) (by decide) (by decide) k1.1
  have k3 := key "File".toList 'F' (hfNames.drop 3) _ (by decide) (by decide) (by decide) k2.1
  have k4 := key "Page".toList 'P' (hfNames.drop 4) _ (by decide) (by decide) (by decide) k3.1
  have k5 := key "Path".toList 'Z' (hfNames.drop 5) _ (by decide) (by decide) (by decide) k4.1
  have k6 := key "Time".toList 'T' (hfNames.drop 6) _ (by decide) (by decide) (by decide) k5.1
  have k7 := key "Pages".toList 'N' (hfNames.drop 7) _ (by decide) (by decide) (by decide) k6.1
  have k8 := key "Picture".toList 'G' [] _ (by decide) (by decide) (by decide) k7.1
  show hfParts [] (replaceAll (hfPattern "Picture".toList) ['&', 'G'] (replaceAll (hfPattern "Pages".toList) ['&', 'N']
    (replaceAll (hfPattern "Time".toList) ['&', 'T'] (replaceAll (hfPattern "Path".toList) ['&', 'Z']
    (replaceAll (hfPattern "Page".toList) ['&', 'P'] (replaceAll (hfPattern "File".toList) ['&', 'F']
    (replaceAll (hfPattern "Date".toList) ['&', 'D'] (replaceAll (hfPattern "Tab".toList) ['&', 'A'] s)))))))) = _
  rw [k8.2]
  exact k7.2.trans (k6.2.trans (k5.2.trans (k4.2.trans (k3.2.trans (k2.2.trans k1.2)))))

theorem hfParts_length (k : Nat) (s : Text) (hk : s.length ≤ k) :
    ((hfParts [] s).map fun p => match p with | .char _ => 1 | .code _ => 2).sum = s.length := by
  induction k generalizing s with
  | zero =>
    have : s = [] := List.length_eq_zero_iff.mp (by omega)
    subst this; rfl
  | succ k ih =>
    cases s with
    | nil => rfl
    | cons c s =>
      by_cases hc : c = '&'
      · subst hc
        cases s with
        | nil => rfl
        | cons d s =>
          rw [hfParts_code rfl]
          simp only [List.map_cons, List.sum_cons, List.length_cons] at *
          rw [ih s (by omega)]; omega
      · rw [hfParts_char _ hc]
        simp only [List.map_cons, List.sum_cons, List.length_cons] at *
        rw [ih s (by omega)]; omega

theorem expandHeader_length {s : Text} (h : NoAmp s) : (expandHeader s).length = hfLength s := by
  rw [← hfParts_length _ _ (Nat.le_refl _), expandHeader_parts h]
  rfl

end Verif
