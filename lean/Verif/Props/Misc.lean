import Verif.Model.Misc
import Verif.Spec.Misc
/-!
C23 (password hash), C24 (auto-fit widths), C25 (page breaks), C39 (validation lists).
-/
namespace Verif
open Spec

/-! ### C23 -/

private theorem hashRot_rotl (x : BitVec 15) :
    hashRot (x.setWidth 16) = (x.rotateLeft 1).setWidth 16 := by
  apply BitVec.eq_of_getLsbD_eq
  intro i hi
  simp only [hashRot, BitVec.getLsbD_or, BitVec.getLsbD_and, BitVec.getLsbD_ushiftRight,
    BitVec.getLsbD_shiftLeft, BitVec.getLsbD_setWidth, BitVec.getLsbD_rotateLeft]
  have : i = 0 ∨ i = 1 ∨ i = 2 ∨ i = 3 ∨ i = 4 ∨ i = 5 ∨ i = 6 ∨ i = 7 ∨ i = 8 ∨ i = 9 ∨ i = 10 ∨
    i = 11 ∨ i = 12 ∨ i = 13 ∨ i = 14 ∨ i = 15 := by omega
  rcases this with h|h|h|h|h|h|h|h|h|h|h|h|h|h|h|h <;> subst h <;> simp

private theorem rotl_bit (x : BitVec 15) (k i : Nat) (hi : i < 15) :
    (x.rotateLeft k).getLsbD i = x.getLsbD ((i + (15 - k % 15)) % 15) := by
  have hk : k % 15 < 15 := Nat.mod_lt _ (by omega)
  rw [BitVec.getLsbD_rotateLeft]
  by_cases h : i < k % 15
  · simp only [h, decide_true, cond_true]; congr 1; omega
  · simp only [h, decide_false, cond_false, hi, decide_true, Bool.true_and]; congr 1; omega

private theorem rotl_xor (x y : BitVec 15) (k : Nat) :
    (x ^^^ y).rotateLeft k = x.rotateLeft k ^^^ y.rotateLeft k := by
  apply BitVec.eq_of_getLsbD_eq
  intro i hi
  simp only [BitVec.getLsbD_xor, rotl_bit _ _ _ hi]

private theorem rotl_rotl (x : BitVec 15) (k : Nat) :
    (x.rotateLeft k).rotateLeft 1 = x.rotateLeft (k + 1) := by
  apply BitVec.eq_of_getLsbD_eq
  intro i hi
  rw [rotl_bit _ _ _ hi, rotl_bit _ _ _ (Nat.mod_lt _ (by omega)), rotl_bit _ _ _ hi]
  congr 1; omega

private theorem rotl_rotXor (k : Nat) (bs : List (BitVec 8)) :
    (rotXor k bs).rotateLeft 1 = rotXor (k + 1) bs := by
  induction bs generalizing k with
  | nil =>
    apply BitVec.eq_of_getLsbD_eq
    intro i hi
    rw [rotl_bit _ _ _ hi]; simp [rotXor]
  | cons b bs ih => simp only [rotXor, rotl_xor, rotl_rotl, ih]

private theorem setWidth_byte (b : BitVec 8) :
    (b.setWidth 15).setWidth 16 = b.setWidth 16 := by
  apply BitVec.eq_of_toNat_eq
  have := b.isLt
  simp [BitVec.toNat_setWidth]

private theorem rotl_zero (x : BitVec 15) : x.rotateLeft 0 = x := by
  apply BitVec.eq_of_getLsbD_eq
  intro i hi
  rw [rotl_bit _ _ _ hi]; congr 1; omega

private theorem hashLoop_eq (bs : List (BitVec 8)) :
    hashLoop bs = (rotXor 0 bs).setWidth 16 := by
  unfold hashLoop
  rw [List.foldl_reverse]
  induction bs with
  | nil => rfl
  | cons b bs ih =>
    simp only [List.foldr_cons, ih, hashRot_rotl, rotl_rotXor]
    simp only [rotXor, rotl_zero, BitVec.setWidth_xor, setWidth_byte]
    rw [BitVec.xor_comm]

/-- C23: for every password (its UTF-8 bytes) the stored value is the ECMA-376 legacy verifier. -/
theorem C23_hash_is_legacy_verifier (bytes : List (BitVec 8)) (h : bytes ≠ []) :
    hashPassword bytes = legacyHash bytes := by
  unfold hashPassword legacyHash
  rw [if_neg (by simpa using h), hashLoop_eq, hashRot_rotl, rotl_rotXor]
  rw [BitVec.xor_comm ((rotXor 1 bytes).setWidth 16), BitVec.xor_assoc,
    BitVec.xor_comm ((rotXor 1 bytes).setWidth 16), ← BitVec.xor_assoc, BitVec.xor_comm (BitVec.ofNat 16 _)]

/-- C23: an empty password gives no verifier. -/
theorem C23_empty_password : hashPassword [] = 0 ∧ passwordAttr (hashPassword []) = none := by
  decide

/-- C23: a non-empty password below 32768 bytes always gives a verifier, so the attribute is
never silently dropped. -/
theorem C23_nonempty_password_protects (bytes : List (BitVec 8)) (h : bytes ≠ [])
    (hl : bytes.length < 32768) : passwordAttr (hashPassword bytes) ≠ none := by
  have hb : (hashPassword bytes).getLsbD 15 = true := by
    rw [C23_hash_is_legacy_verifier bytes h]
    simp only [legacyHash, BitVec.getLsbD_xor, BitVec.getLsbD_setWidth]
    have e1 : (BitVec.ofNat 16 bytes.length).getLsbD 15 = false := by
      rw [BitVec.getLsbD_ofNat]
      simp [Nat.testBit_lt_two_pow (show bytes.length < 2 ^ 15 by omega)]
    have e2 : (0xCE4B#16).getLsbD 15 = true := by decide
    have e3 : (rotXor 1 bytes).getLsbD 15 = false := BitVec.getLsbD_of_ge _ _ (by omega)
    rw [e1, e2, e3]; rfl
  unfold passwordAttr
  rw [if_neg]
  · simp
  · intro hz; rw [hz] at hb; simp at hb

private theorem hexVal_digit (n : Nat) (h : n < 16) : hexVal (hexDigitU n) = some n := by
  have : n = 0 ∨ n = 1 ∨ n = 2 ∨ n = 3 ∨ n = 4 ∨ n = 5 ∨ n = 6 ∨ n = 7 ∨ n = 8 ∨ n = 9 ∨ n = 10 ∨
    n = 11 ∨ n = 12 ∨ n = 13 ∨ n = 14 ∨ n = 15 := by omega
  rcases this with h|h|h|h|h|h|h|h|h|h|h|h|h|h|h|h <;> subst h <;> decide

/-- C23: the written attribute has exactly four hexadecimal digits and reads back as the hash. -/
theorem C23_attribute_reads_back (h : BitVec 16) (s : List Char) (hs : passwordAttr h = some s) :
    s.length = 4 ∧ readHex s = some h.toNat := by
  unfold passwordAttr at hs
  split at hs
  · cases hs
  · rw [Option.some.injEq] at hs
    subst hs
    have := h.isLt
    refine ⟨rfl, ?_⟩
    simp only [readHex, List.foldlM_cons, List.foldlM_nil]
    rw [hexVal_digit _ (by omega), hexVal_digit _ (by omega), hexVal_digit _ (by omega),
      hexVal_digit _ (by omega)]
    simp only [Option.map_some, Option.bind_eq_bind, Option.bind_some, pure]
    congr 1; omega

/-- The password "password" (from the ECMA example) hashes to 0x83AF. -/
example : hashPassword ("password".toUTF8.toList.map (fun b => b.toBitVec)) = 0x83AF#16 := by
  decide +kernel

/-! ### C24 -/

private theorem charPx_bounds (c : Char) : 3 ≤ charPx c ∧ charPx c ≤ 13 := by
  unfold charPx
  repeat' split
  all_goals omega

private theorem pxLoop_eq (s : List Char) (n : Nat) (h : n + 13 * s.length < 65536) :
    pxLoop s n = some (n + (s.map charPx).sum) := by
  induction s generalizing n with
  | nil => simp [pxLoop]
  | cons c cs ih =>
    have hb := charPx_bounds c
    simp only [List.length_cons] at h
    unfold pxLoop
    rw [if_pos (by omega), ih _ (by omega)]
    simp [Nat.add_assoc]

/-- C24: the width is computed without 16-bit overflow for every string, and is the smaller of
1790 and the sum of the character widths (1790 for more than 233 characters). -/
theorem C24_width_value (s : List Char) :
    pixelWidth s = some (if s.length > 233 then 1790 else min ((s.map charPx).sum) 1790) := by
  unfold pixelWidth
  split
  · rfl
  · rw [pxLoop_eq _ _ (by omega)]; simp [maxAutofitPx]

/-- C24: the auto-fit width exists (no overflow) and lies between 7 and 1797 pixels. -/
theorem C24_autofit_bounded (s : List Char) :
    ∃ w p, pixelWidth s = some p ∧ p ≤ 1790 ∧ cellAutofitWidth s = some w ∧ w = p + 7 ∧ w ≤ 1797 := by
  refine ⟨_, _, C24_width_value s, by split <;> omega, ?_, rfl, by split <;> omega⟩
  unfold cellAutofitWidth
  rw [C24_width_value]
  simp only [Option.bind_eq_bind, Option.bind_some]
  rw [if_pos (by split <;> omega)]

/-- C24: appending text never makes the width smaller, and adds at least three pixels per
character until the cap is reached. -/
theorem C24_width_monotone (s t : List Char) :
    ∃ p q, pixelWidth s = some p ∧ pixelWidth (s ++ t) = some q ∧ p ≤ q ∧
      (q < 1790 → p + 3 * t.length ≤ q) := by
  have hsum : ∀ l : List Char, 3 * l.length ≤ (l.map charPx).sum := by
    intro l
    induction l with
    | nil => simp
    | cons c cs ih => have := charPx_bounds c; simp; omega
  have ht := hsum t
  refine ⟨_, _, C24_width_value s, C24_width_value (s ++ t), ?_, ?_⟩
  · simp only [List.length_append, List.map_append, List.sum_append]
    repeat' split
    all_goals omega
  · simp only [List.length_append, List.map_append, List.sum_append]
    repeat' split
    all_goals omega

example : pixelWidth "Hello".toList = some 33 := by decide

/-! ### C25 -/

private theorem sorted_strict (u : List Nat) (h : u.Nodup) :
    List.Pairwise (· < ·) (u.mergeSort (fun a b => decide (a ≤ b))) := by
  have h1 : List.Pairwise (fun a b => decide (a ≤ b) = true) (u.mergeSort (fun a b => decide (a ≤ b))) :=
    List.pairwise_mergeSort (by intro a b c; simp; omega) (by intro a b; simp; omega) u
  have h2 : (u.mergeSort (fun a b => decide (a ≤ b))).Nodup :=
    (List.mergeSort_perm u _).nodup_iff.mpr h
  refine (List.Pairwise.and h1 h2).imp ?_
  intro a b ⟨x, y⟩
  simp at x
  omega

/-- The strictly increasing list of the non-zero requested breaks. -/
private theorem break_list (u l : List Nat) (h : IsSetOf u l) :
    ∀ b bs, u.mergeSort (fun a b => decide (a ≤ b)) = b :: bs →
      List.Pairwise (· < ·) (if b = 0 then bs else b :: bs) ∧
      ∀ x, x ∈ (if b = 0 then bs else b :: bs) ↔ x ∈ l ∧ x ≠ 0 := by
  intro b bs e
  have hs := sorted_strict u h.1
  have hm : ∀ x, x ∈ b :: bs ↔ x ∈ l := by
    intro x; rw [← e, List.mem_mergeSort, h.2]
  rw [e] at hs
  have hs' := List.pairwise_cons.mp hs
  by_cases hb : b = 0
  · subst hb
    simp only [if_true]
    refine ⟨hs'.2, fun x => ?_⟩
    rw [← hm x, List.mem_cons]
    constructor
    · intro hx; exact ⟨.inr hx, by have := hs'.1 x hx; omega⟩
    · rintro ⟨rfl | hx, h0⟩
      · exact absurd rfl h0
      · exact hx
  · simp only [if_neg hb]
    refine ⟨hs, fun x => ?_⟩
    rw [← hm x]
    constructor
    · intro hx
      refine ⟨hx, ?_⟩
      rcases List.mem_cons.mp hx with rfl | hx
      · exact hb
      · have := hs'.1 x hx; omega
    · exact fun hx => hx.1

private theorem getLast_max (l : List Nat) (h : List.Pairwise (· < ·) l) (b : Nat)
    (hb : l.getLast? = some b) : b ∈ l ∧ ∀ x ∈ l, x ≤ b := by
  obtain ⟨ys, rfl⟩ := List.getLast?_eq_some_iff.mp hb
  refine ⟨by simp, ?_⟩
  intro x hx
  rw [List.pairwise_append] at h
  rcases List.mem_append.mp hx with hx | hx
  · exact Nat.le_of_lt (h.2.2 x hx b (by simp))
  · simp at hx; omega

/-- C25: for every non-empty list of breaks with at least one non-zero element, in whatever order
the hash set iterates: there is a strictly increasing list of exactly the non-zero requested
breaks; if it has at most 1023 elements, all below the limit, the call succeeds and stores it;
otherwise it returns an error and the old breaks are kept. -/
theorem C25_page_breaks_partial (max : Nat) (old breaks uniq : List Nat) (hu : IsSetOf uniq breaks)
    (hz : ∃ b ∈ breaks, b ≠ 0) :
    ∃ l, List.Pairwise (· < ·) l ∧ (∀ x, x ∈ l ↔ x ∈ breaks ∧ x ≠ 0) ∧
      setPageBreaks max old breaks uniq =
        if l.length ≤ 1023 ∧ ∀ x ∈ l, x < max then .ok l else .err old := by
  obtain ⟨b0, hb0, hne⟩ := hz
  unfold setPageBreaks processPagebreaks
  have hemp : breaks.isEmpty = false := by
    cases breaks with
    | nil => simp at hb0
    | cons => rfl
  rw [hemp]
  simp only [Bool.false_eq_true, if_false]
  cases e : uniq.mergeSort (fun a b => decide (a ≤ b)) with
  | nil =>
    have : b0 ∈ uniq.mergeSort (fun a b => decide (a ≤ b)) := by
      rw [List.mem_mergeSort, hu.2]; exact hb0
    rw [e] at this; simp at this
  | cons b bs =>
    obtain ⟨h1, h2⟩ := break_list uniq breaks hu b bs e
    simp only
    generalize hl : (if b = 0 then bs else b :: bs) = l at *
    refine ⟨l, h1, h2, ?_⟩
    by_cases hlen : l.length > 1023
    · rw [if_pos hlen, if_neg (fun h => by omega)]
    · rw [if_neg hlen]
      simp only
      cases hg : l.getLast? with
      | none =>
        rw [List.getLast?_eq_none_iff] at hg
        have := (h2 b0).mpr ⟨hb0, hne⟩
        rw [hg] at this; simp at this
      | some m =>
        obtain ⟨hm, hmax⟩ := getLast_max l h1 m hg
        simp only
        by_cases hge : m ≥ max
        · rw [if_pos hge, if_neg]
          intro h; have := h.2 m hm; omega
        · rw [if_neg hge, if_pos]
          exact ⟨by omega, fun x hx => by have := hmax x hx; omega⟩

/-- C25: no breaks at all leaves the stored ones alone. -/
theorem C25_empty_keeps (max : Nat) (old uniq : List Nat) :
    setPageBreaks max old [] uniq = .ok old := rfl

example : setPageBreaks 1048576 [7] [20, 0, 10, 20] [0, 10, 20] = .ok [10, 20] := by
  have : [0, 10, 20].mergeSort (fun a b => decide (a ≤ b)) = [0, 10, 20] :=
    List.mergeSort_of_pairwise (by simp)
  simp [setPageBreaks, processPagebreaks, this]

/-- C25 fails for a list of zeros: the call panics instead of returning an error (finding F33). -/
theorem C25_zero_break_counterexample (max : Nat) (old : List Nat) (n : Nat) :
    ∃ uniq, IsSetOf uniq (List.replicate (n + 1) 0) ∧
      setPageBreaks max old (List.replicate (n + 1) 0) uniq = .panic := by
  refine ⟨[0], ⟨by simp, by simp⟩, ?_⟩
  simp [setPageBreaks, processPagebreaks, List.replicate_succ]

/-! ### C39 -/

private theorem readLitBody_esc (s : List Char) (t : List Char) :
    readLitBody (dvEscape s ++ t) = (readLitBody t).map (s ++ ·) := by
  induction s with
  | nil => simp [dvEscape]
  | cons c cs ih =>
    by_cases hc : c = '"'
    · subst hc
      simp only [dvEscape, List.flatMap_cons, if_true, List.cons_append, List.nil_append] at ih ⊢
      simp only [readLitBody, ih, Option.map_map]; rfl
    · have hd : dvEscape (c :: cs) = c :: dvEscape cs := by
        simp [dvEscape, hc]
      rw [hd, List.cons_append]
      have : readLitBody (c :: (dvEscape cs ++ t)) =
          (readLitBody (dvEscape cs ++ t)).map (c :: ·) := by
        rw [readLitBody.eq_def]
        split
        · rename_i h; simp at h; exact absurd h.1 hc
        · rename_i h; simp at h; exact absurd h.1 hc
        · rename_i h; simp at h; exact absurd h.1 hc
        · rename_i h; simp at h; rw [h.1, h.2]
        · rename_i h; simp at h
      rw [this, ih, Option.map_map]; rfl

private theorem readLitBody_join (items : List (List Char)) :
    readLitBody (joinComma (items.map dvEscape) ++ ['"']) = some (joinComma items) := by
  induction items with
  | nil => rfl
  | cons x xs ih =>
    cases xs with
    | nil =>
      simp only [List.map_cons, List.map_nil, joinComma, readLitBody_esc]
      simp [readLitBody]
    | cons y ys =>
      simp only [List.map_cons, joinComma, List.append_assoc, readLitBody_esc] at ih ⊢
      have : ∀ t, readLitBody (',' :: t) = (readLitBody t).map (',' :: ·) := by
        intro t; rw [readLitBody.eq_def]; split <;> simp_all
        rename_i hh; rw [← hh.1]
      rw [List.cons_append, this, ih]; rfl

private theorem splitComma_ne (s : List Char) : splitComma s ≠ [] := by
  induction s with
  | nil => simp [splitComma]
  | cons c cs ih =>
    unfold splitComma
    split
    · simp
    · split <;> simp

private theorem splitComma_plain (x : List Char) (hx : ',' ∉ x) : splitComma x = [x] := by
  induction x with
  | nil => rfl
  | cons c cs ih =>
    simp only [List.mem_cons, not_or] at hx
    simp only [splitComma, if_neg (Ne.symm hx.1), ih hx.2]

private theorem splitComma_app (x t : List Char) (hx : ',' ∉ x) :
    splitComma (x ++ ',' :: t) = x :: splitComma t := by
  induction x with
  | nil => simp [splitComma]
  | cons c cs ih =>
    simp only [List.mem_cons, not_or] at hx
    simp only [List.cons_append, splitComma, if_neg (Ne.symm hx.1), ih hx.2]

private theorem splitComma_join (items : List (List Char)) (hne : items ≠ [])
    (h : ∀ x ∈ items, ',' ∉ x) : splitComma (joinComma items) = items := by
  induction items with
  | nil => exact absurd rfl hne
  | cons x xs ih =>
    cases xs with
    | nil => exact splitComma_plain x (h x (by simp))
    | cons y ys =>
      simp only [joinComma]
      rw [splitComma_app _ _ (h x (by simp)), ih (by simp) (fun z hz => h z (by simp [hz]))]

/-- C39: for every non-empty list of items none of which contains a comma, an accepted list reads
back as exactly those items (double quotes included). -/
theorem C39_list_roundtrip (items : List (List Char)) (f : List Char) (hne : items ≠ [])
    (hc : ∀ x ∈ items, ',' ∉ x) (h : allowListStrings items = some f) :
    readList f = some items := by
  unfold allowListStrings at h
  simp only at h
  split at h
  · cases h
  · rw [Option.some.injEq] at h
    subst h
    simp only [readList, List.cons_append, readLit, readLitBody_join, Option.map_some,
      splitComma_join items hne hc]

/-- Length of an item in the stored formula: every quote counts twice. -/
def Spec.quotedLen (s : List Char) : Nat := s.length + s.count '"'

private theorem dvEscape_length (s : List Char) : (dvEscape s).length = quotedLen s := by
  induction s with
  | nil => rfl
  | cons c cs ih =>
    have e : dvEscape (c :: cs) = (if c = '"' then ['"', '"'] else [c]) ++ dvEscape cs := rfl
    rw [e, List.length_append, ih]
    simp only [quotedLen, List.length_cons, List.count_cons]
    by_cases hc : c = '"'
    · simp [hc]; omega
    · simp [hc]; omega

private theorem joinComma_length (l : List (List Char)) :
    (joinComma l).length = (l.map List.length).sum + (l.length - 1) := by
  induction l with
  | nil => rfl
  | cons x xs ih =>
    cases xs with
    | nil => simp [joinComma]
    | cons y ys => simp only [joinComma, List.length_append, List.length_cons, ih] at *; simp; omega

/-- C39: a list is refused exactly when its length, with quotes doubled and one comma between
items, is over 255; titles over 32 and messages over 255 characters are refused and the old text
is kept. -/
theorem C39_limits (items : List (List Char)) :
    allowListStrings items = none ↔ (items.map quotedLen).sum + (items.length - 1) > 255 := by
  unfold allowListStrings
  simp only [joinComma_length, List.map_map, List.length_map]
  have : (List.length ∘ dvEscape) = quotedLen := by funext s; exact dvEscape_length s
  rw [this]
  split <;> simp <;> omega

theorem C39_text_limits (old text : List Char) :
    (setLimited 32 old text = if text.length ≤ 32 then .ok text else .err old) ∧
    (setLimited 255 old text = if text.length ≤ 255 then .ok text else .err old) := by
  unfold setLimited
  constructor <;> (split <;> split <;> first | rfl | omega)

example : allowListStrings ["a\"b".toList, "c d".toList] = some "\"a\"\"b,c d\"".toList := by decide

/-- C39: the hypothesis on commas is needed: an item with a comma reads back as two (F46). -/
theorem C39_comma_counterexample :
    (allowListStrings ["a,b".toList]).bind readList = some ["a".toList, "b".toList] := by decide

end Verif
