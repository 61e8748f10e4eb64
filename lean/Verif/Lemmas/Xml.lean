import Verif.Model.Xml
import Verif.Spec.Xml
import Verif.Spec.XmlTree
import Verif.Lemmas.Ref
namespace Verif
open Spec

theorem escapeString_eq (h : Char → Option Str) (s : Str) :
    escapeString h s = s.flatMap (fun c => (h c).getD [c]) := by
  unfold escapeString
  have key : ∀ (l : Str), (∀ x ∈ l, (h x).isSome = false) →
      l.flatMap (fun c => (h c).getD [c]) = l := by
    intro l hl
    induction l with
    | nil => rfl
    | cons x xs ih =>
      have hx := hl x (by simp)
      have : h x = none := by simpa using hx
      rw [List.flatMap_cons, ih (fun y hy => hl y (by simp [hy]))]
      simp [this]
  cases hf : s.findIdx? (fun c => (h c).isSome) with
  | none =>
    simp only
    rw [List.findIdx?_eq_none_iff] at hf
    rw [key s hf]
  | some i =>
    simp only
    rw [List.findIdx?_eq_some_iff_getElem] at hf
    obtain ⟨hi, _, hlt⟩ := hf
    have e : s = s.take i ++ s.drop i := (List.take_append_drop i s).symm
    conv => rhs; rw [e, List.flatMap_append]
    congr 1
    rw [key]
    intro x hx
    rw [List.mem_take_iff_getElem] at hx
    obtain ⟨j, hj, rfl⟩ := hx
    simpa using hlt j (by omega)

theorem lookup_cases {α} [DecidableEq α] {β} (t : List (α × β)) (c : α) :
    (∃ e, t.lookup c = some e ∧ (c, e) ∈ t) ∨ (t.lookup c = none ∧ ∀ k ∈ t.map Prod.fst, c ≠ k) := by
  induction t with
  | nil => right; simp
  | cons p ps ih =>
    obtain ⟨a, b⟩ := p
    by_cases hc : c = a
    · subst hc; left; exact ⟨b, by simp [List.lookup], by simp⟩
    · have hb : (c == a) = false := by simpa using hc
      rcases ih with ⟨e, h1, h2⟩ | ⟨h1, h2⟩
      · left; refine ⟨e, by simp [List.lookup, hb, h1], by simp [h2]⟩
      · right
        refine ⟨by simp [List.lookup, hb, h1], ?_⟩
        intro p hp
        rcases List.mem_cons.mp hp with rfl | hp
        · exact hc
        · exact h2 p hp

/-! ### Decoding escaped text -/

def escA (c : Char) : Str := (matchAttributeHtmlChar c).getD [c]
def escD (c : Char) : Str := (matchXmlChar c).getD [c]

theorem escapeAttributes_eq (s : Str) : escapeAttributes s = s.flatMap escA := escapeString_eq _ _
theorem escapeXmlData_eq (s : Str) : escapeXmlData s = s.flatMap escD := escapeString_eq _ _

theorem attrTable_decode : ∀ p ∈ attributeCharTable, ∀ rest,
    decode true none (p.2 ++ rest) = (decode true none rest).map (fun t => p.1 :: t) := by
  intro p hp rest
  simp only [attributeCharTable, List.mem_cons, List.not_mem_nil, or_false] at hp
  rcases hp with h|h|h|h|h <;> subst h <;> rfl

theorem decode_escA (c : Char) (rest : Str) (hc : (xmlChar c && c ≠ '\t' && c ≠ '\r') = true) :
    decode true none (escA c ++ rest) = (decode true none rest).map (fun t => c :: t) := by
  rcases lookup_cases attributeCharTable c with ⟨e, h1, h2⟩ | ⟨h1, h2⟩
  · have : escA c = e := by simp [escA, matchAttributeHtmlChar, h1]
    rw [this]; exact attrTable_decode _ h2 rest
  · have : escA c = [c] := by simp [escA, matchAttributeHtmlChar, h1]
    rw [this]
    have n1 : c ≠ '&' := h2 '&' (by decide)
    have n2 : c ≠ '<' := h2 '<' (by decide)
    have n3 : c ≠ '\n' := h2 '\n' (by decide)
    simp only [ne_eq, decide_not, Bool.and_eq_true, Bool.not_eq_true',
      decide_eq_false_iff_not] at hc
    obtain ⟨⟨hx, ht⟩, hr⟩ := hc
    simp only [List.singleton_append]
    conv => lhs; unfold decode
    rw [if_neg n1, if_neg (by simp [n2, hx])]
    by_cases hsp : c = ' '
    · subst hsp; simp
    · have : isWs c = false := by simp [isWs, hsp, ht, n3, hr]
      simp [this]

theorem decode_escapeAttributes (s : Str) (h : attrSafe s = true) :
    decode true none (escapeAttributes s) = some s := by
  rw [escapeAttributes_eq]
  induction s with
  | nil => rfl
  | cons c cs ih =>
    simp only [attrSafe, List.all_cons, Bool.and_eq_true] at h ih
    rw [List.flatMap_cons, decode_escA c _ (by simpa using h.1), ih h.2]
    rfl

theorem escA_no_quote (c : Char) : '"' ∉ escA c := by
  rcases lookup_cases attributeCharTable c with ⟨e, h1, h2⟩ | ⟨h1, h2⟩
  · have : escA c = e := by simp [escA, matchAttributeHtmlChar, h1]
    rw [this]
    have : ∀ p ∈ attributeCharTable, '"' ∉ p.2 := by decide
    exact this _ h2
  · have : escA c = [c] := by simp [escA, matchAttributeHtmlChar, h1]
    rw [this]
    intro hm
    simp at hm
    exact h2 '"' (by decide) hm.symm

theorem escapeAttributes_no_quote (s : Str) : '"' ∉ escapeAttributes s := by
  rw [escapeAttributes_eq]
  intro h
  obtain ⟨c, _, hc⟩ := List.mem_flatMap.mp h
  exact escA_no_quote c hc

theorem escA_no_cr (c : Char) (hc : c ≠ '\r') : '\r' ∉ escA c := by
  rcases lookup_cases attributeCharTable c with ⟨e, h1, h2⟩ | ⟨h1, _⟩
  · have : escA c = e := by simp [escA, matchAttributeHtmlChar, h1]
    rw [this]
    have : ∀ p ∈ attributeCharTable, '\r' ∉ p.2 := by decide
    exact this _ h2
  · have : escA c = [c] := by simp [escA, matchAttributeHtmlChar, h1]
    rw [this]; simpa using fun h => hc h.symm

theorem escapeAttributes_no_cr (s : Str) (h : attrSafe s = true) : '\r' ∉ escapeAttributes s := by
  rw [escapeAttributes_eq]
  intro hm
  obtain ⟨c, hcs, hc⟩ := List.mem_flatMap.mp hm
  have := List.all_eq_true.mp h c hcs
  simp at this
  exact escA_no_cr c this.2 hc

/-! Data text. -/

def ctl (c : Char) : Str := if isControl c then excelEscapeOf c else [c]

theorem xmlTable_props : ∀ p ∈ xmlCharTable,
    '<' ∉ p.2 ∧ '>' ∉ p.2 ∧ '\r' ∉ p.2 ∧ p.2 ≠ [] := by decide

theorem xmlTable_ctl : ∀ p ∈ xmlCharTable,
    (p.1 = '&' ∨ p.1 = '<' ∨ p.1 = '>') ∨ (p.2 = ctl p.1 ∧ ∀ x ∈ p.2,
      x ≠ '&' ∧ x ≠ '<' ∧ xmlChar x = true) := by decide

theorem decode_plain (l rest : Str) (h : ∀ x ∈ l, x ≠ '&' ∧ x ≠ '<' ∧ xmlChar x = true) :
    decode false none (l ++ rest) = (decode false none rest).map (fun t => l ++ t) := by
  induction l with
  | nil => simp
  | cons x xs ih =>
    obtain ⟨a, b, c⟩ := h x (by simp)
    have ih := ih (fun y hy => h y (by simp [hy]))
    rw [List.cons_append]
    conv => lhs; unfold decode
    rw [if_neg a, if_neg (by simp [b, c]), ih]
    cases decode false none rest <;> simp

theorem isControl_mem_table (c : Char) (h : isControl c = true) :
    ∃ e, (c, e) ∈ xmlCharTable := by
  have hc : c.toNat < 32 := by
    simp only [isControl, Bool.and_eq_true, decide_eq_true_eq] at h; omega
  have key : ∀ n : Fin 32, isControl (Char.ofNat n) = true →
      (xmlCharTable.lookup (Char.ofNat n)).isSome = true := by decide
  have := key ⟨c.toNat, hc⟩
  simp only [Char.ofNat_toNat] at this
  have := this h
  rcases lookup_cases xmlCharTable c with ⟨e, _, h2⟩ | ⟨h1, _⟩
  · exact ⟨e, h2⟩
  · rw [h1] at this; simp at this

theorem xmlChar_of_plain (c : Char) (hc : isControl c = false) (hn : isNonChar c = false) :
    xmlChar c = true := by
  have hv := c.valid
  have : c.toNat < 0xD800 ∨ (0xDFFF < c.toNat ∧ c.toNat < 0x110000) := by
    simpa [UInt32.isValidChar, Nat.isValidChar] using hv
  simp only [isControl, isNonChar, xmlChar] at *
  by_cases h1 : c = '\t'
  · simp [h1]
  · by_cases h2 : c = '\n'
    · simp [h2]
    · simp [h1, h2] at hc hn ⊢
      omega

theorem decode_escD (c : Char) (rest : Str) (hn : isNonChar c = false) :
    decode false none (escD c ++ rest) = (decode false none rest).map (fun t => ctl c ++ t) := by
  rcases lookup_cases xmlCharTable c with ⟨e, h1, h2⟩ | ⟨h1, h2⟩
  · have he : escD c = e := by simp [escD, matchXmlChar, h1]
    rw [he]
    rcases xmlTable_ctl _ h2 with h | h
    · simp only at h
      rcases h with h|h|h <;> subst h
      · have : e = "&amp;".toList := (Option.some.inj h1).symm
        subst this; rfl
      · have : e = "&lt;".toList := (Option.some.inj h1).symm
        subst this; rfl
      · have : e = "&gt;".toList := (Option.some.inj h1).symm
        subst this; rfl
    · rw [decode_plain _ _ h.2, h.1]
  · have he : escD c = [c] := by simp [escD, matchXmlChar, h1]
    rw [he]
    have hctl : isControl c = false := by
      cases hh : isControl c with
      | false => rfl
      | true =>
        obtain ⟨e, hm⟩ := isControl_mem_table c hh
        exact absurd rfl (h2 c (List.mem_map.mpr ⟨_, hm, rfl⟩))
    have hc : ctl c = [c] := by simp [ctl, hctl]
    rw [hc]
    apply decode_plain
    intro x hx
    simp at hx; subst hx
    refine ⟨h2 '&' (by decide),
      h2 '<' (by decide), xmlChar_of_plain _ hctl hn⟩

theorem decode_escapeXmlData (s : Str) (h : s.all (fun c => !isNonChar c) = true) :
    decode false none (escapeXmlData s) = some (excelControlEscape s) := by
  rw [escapeXmlData_eq]
  induction s with
  | nil => rfl
  | cons c cs ih =>
    simp only [List.all_cons, Bool.and_eq_true, Bool.not_eq_true'] at h
    rw [List.flatMap_cons, decode_escD c _ h.1, ih h.2]
    simp [excelControlEscape, ctl]

theorem escD_props (c : Char) : '<' ∉ escD c ∧ '>' ∉ escD c ∧ '\r' ∉ escD c ∧ escD c ≠ [] := by
  rcases lookup_cases xmlCharTable c with ⟨e, h1, h2⟩ | ⟨h1, h2⟩
  · have he : escD c = e := by simp [escD, matchXmlChar, h1]
    rw [he]; exact xmlTable_props _ h2
  · have he : escD c = [c] := by simp [escD, matchXmlChar, h1]
    rw [he]
    refine ⟨?_, ?_, ?_, by simp⟩
    · intro h; simp at h; exact h2 '<' (by decide) h.symm
    · intro h; simp at h; exact h2 '>' (by decide) h.symm
    · intro h; simp at h; exact h2 '\r' (by decide) h.symm

theorem escapeXmlData_props (s : Str) :
    '<' ∉ escapeXmlData s ∧ '>' ∉ escapeXmlData s ∧ '\r' ∉ escapeXmlData s ∧
    (escapeXmlData s = [] ↔ s = []) := by
  rw [escapeXmlData_eq]
  refine ⟨?_, ?_, ?_, ?_⟩
  · intro h; obtain ⟨c, _, hc⟩ := List.mem_flatMap.mp h; exact (escD_props c).1 hc
  · intro h; obtain ⟨c, _, hc⟩ := List.mem_flatMap.mp h; exact (escD_props c).2.1 hc
  · intro h; obtain ⟨c, _, hc⟩ := List.mem_flatMap.mp h; exact (escD_props c).2.2.1 hc
  · cases s with
    | nil => simp
    | cons c cs => simp [(escD_props c).2.2.2]

theorem excelControlEscape_eq_nil (s : Str) : excelControlEscape s = [] ↔ s = [] := by
  cases s with
  | nil => simp [excelControlEscape]
  | cons c cs =>
    simp [excelControlEscape]
    intro h
    split at h <;> simp [excelEscapeOf] at h

theorem hasCdataEnd_false (s : Str) (h : '>' ∉ s) : hasCdataEnd s = false := by
  induction s with
  | nil => rfl
  | cons c cs ih =>
    unfold hasCdataEnd
    split
    · rename_i heq
      exfalso; apply h; rw [heq]; simp
    · rename_i heq
      cases heq
      exact ih (fun hm => h (by simp [hm]))
    · rfl

theorem normEol_id (s : Str) (h : '\r' ∉ s) : normEol s = s := by
  induction s with
  | nil => rfl
  | cons c cs ih =>
    have hc : c ≠ '\r' := fun e => h (by simp [e])
    have := ih (fun hm => h (by simp [hm]))
    unfold normEol
    split
    · rename_i heq; cases heq; exact absurd rfl hc
    · rename_i heq; cases heq; exact absurd rfl hc
    · rename_i heq; cases heq; rw [this]
    · rename_i heq; cases heq

/-! ### Tokens -/

theorem takeWhile_ne_append {c : Char} {a b : Str} (ha : c ∉ a) :
    (a ++ c :: b).takeWhile (· ≠ c) = a ∧ (a ++ c :: b).dropWhile (· ≠ c) = c :: b := by
  apply takeWhile_append_stop
  · rw [List.all_eq_true]; intro x hx
    simp; rintro rfl; exact ha hx
  · intro x hx; simp at hx; simp [hx]


theorem isName_all {s : Str} (h : isName s = true) : s.all nameChar = true := by
  simp only [isName, Bool.and_eq_true] at h; exact h.2

theorem isName_ne_nil {s : Str} (h : isName s = true) : s ≠ [] := by
  rintro rfl; simp [isName] at h

theorem nameStart_not_ws {c : Char} (h : nameStart c = true) :
    isWs c = false ∧ c ≠ '>' ∧ c ≠ '/' := by
  refine ⟨?_, ?_, ?_⟩
  · cases hw : isWs c with
    | false => rfl
    | true =>
      simp only [isWs, Bool.or_eq_true, decide_eq_true_eq] at hw
      rcases hw with ((h1|h1)|h1)|h1 <;> subst h1 <;> revert h <;> decide
  · rintro rfl; revert h; decide
  · rintro rfl; revert h; decide

theorem readAttrs_write (as : Attrs) (stop : Str) (f : Nat)
    (hs : stop.head? = some '>' ∨ stop.head? = some '/')
    (ha : as.all attrOk = true) (hf : as.length < f) :
    readAttrs f (writeAttributes as ++ stop) = some (as, stop) := by
  induction as generalizing f with
  | nil =>
    obtain ⟨g, rfl⟩ : ∃ g, f = g + 1 := ⟨f - 1, by simp at hf; omega⟩
    cases stop with
    | nil => simp at hs
    | cons c r =>
      simp only [List.head?_cons, Option.some.injEq] at hs
      rcases hs with rfl | rfl <;>
      simp [writeAttributes, readAttrs, isWs]
  | cons a as ih =>
    obtain ⟨g, rfl⟩ : ∃ g, f = g + 1 := ⟨f - 1, by simp at hf; omega⟩
    obtain ⟨n, v⟩ := a
    simp only [List.all_cons, Bool.and_eq_true, attrOk] at ha
    obtain ⟨⟨hn, hv⟩, has⟩ := ha
    have hrec := ih g has (by simp at hf; omega)
    have hn' := hn
    simp only [isName, Bool.and_eq_true] at hn'
    cases n with
    | nil => simp at hn'
    | cons n0 ns =>
      have hn0 : nameStart n0 = true := by simpa using hn'.1
      obtain ⟨w, g1, g2⟩ := nameStart_not_ws hn0
      have eqn : writeAttributes ((n0 :: ns, v) :: as) ++ stop =
          ' ' :: (n0 :: ns ++ '=' :: ('"' :: (escapeAttributes v ++ '"' ::
            (writeAttributes as ++ stop)))) := by
        simp [writeAttributes, writeAttribute]
      rw [eqn]
      unfold readAttrs
      have hd : (' ' :: (n0 :: ns ++ '=' :: ('"' :: (escapeAttributes v ++ '"' ::
            (writeAttributes as ++ stop))))).dropWhile isWs =
          (n0 :: ns ++ '=' :: ('"' :: (escapeAttributes v ++ '"' ::
            (writeAttributes as ++ stop)))) := by
        have : isWs ' ' = true := rfl
        simp [this, w]
      rw [hd]
      obtain ⟨t1, t2⟩ := takeWhile_append_stop (p := nameChar) (a := n0 :: ns)
        (b := '=' :: ('"' :: (escapeAttributes v ++ '"' :: (writeAttributes as ++ stop))))
        (isName_all hn) (by intro x hx; simp at hx; subst hx; decide)
      obtain ⟨q1, q2⟩ := takeWhile_ne_append (c := '"') (a := escapeAttributes v)
        (b := writeAttributes as ++ stop) (escapeAttributes_no_quote v)
      split
      · rename_i heq; simp at heq; exact absurd heq.1 g1
      · rename_i heq; simp at heq; exact absurd heq.1 g2
      · rename_i s' _ _ 
        rw [if_neg]
        · rw [t1, t2]
          simp only [q1, q2]
          rw [decode_escapeAttributes v hv, hrec]
          simp [hn]
        · simp

def callToks : Call → List Tok
  | .start t as => [.start t as]
  | .close t => [.close t]
  | .empty t as => [.empty t as]
  | .data t d as =>
    .start t as :: ((if d = [] then [] else [Tok.text (excelControlEscape d)]) ++ [.close t])

theorem writeAttributes_head (as : Attrs) (x : Char) (b : Str) (hx : nameChar x = false) :
    ∀ y, (writeAttributes as ++ x :: b).head? = some y → nameChar y = false := by
  intro y hy
  cases as with
  | nil => simp [writeAttributes] at hy; subst hy; exact hx
  | cons a as =>
    simp [writeAttributes, writeAttribute] at hy
    subst hy; decide

theorem length_writeAttributes (as : Attrs) : as.length ≤ (writeAttributes as).length := by
  induction as with
  | nil => simp
  | cons a as ih =>
    simp only [writeAttributes, List.flatMap_cons, List.length_append, List.length_cons] at *
    have : 1 ≤ (writeAttribute a).length := by simp [writeAttribute]
    omega

theorem tokens_close (t : Str) (rest : Str) (f : Nat) (ht : isName t = true) :
    tokens (f + 1) (xmlEndTag t ++ rest) = (tokens f rest).map (Tok.close t :: ·) := by
  have e : xmlEndTag t ++ rest = '<' :: '/' :: (t ++ '>' :: rest) := by simp [xmlEndTag]
  rw [e]
  obtain ⟨t1, t2⟩ := takeWhile_append_stop (p := nameChar) (a := t) (b := '>' :: rest)
    (isName_all ht) (by intro x hx; simp at hx; subst hx; decide)
  simp only [tokens]
  have : ('>' :: rest).dropWhile isWs = '>' :: rest := by simp [isWs]
  rw [t1, t2, this]
  simp [ht]

theorem isName_cons_ne_slash {n0 : Char} {ns : Str} (h : isName (n0 :: ns) = true) : n0 ≠ '/' := by
  simp [isName] at h
  exact (nameStart_not_ws h.1).2.2

theorem tokens_lt (s : Str) (f : Nat) (h : s.head? ≠ some '/') :
    tokens (f + 1) ('<' :: s) =
      (match readAttrs ((s.dropWhile nameChar).length + 1) (s.dropWhile nameChar) with
      | some (as, r) =>
        if !isName (s.takeWhile nameChar) || !decide (as.map Prod.fst).Nodup then none
        else match r with
          | '>' :: r => (tokens f r).map (Tok.start (s.takeWhile nameChar) as :: ·)
          | '/' :: '>' :: r => (tokens f r).map (Tok.empty (s.takeWhile nameChar) as :: ·)
          | _ => none
      | none => none) := by
  rw [tokens]
  · rfl
  · rintro s' rfl; simp at h

theorem tokens_open (t : Str) (as : Attrs) (stop : Str) (f : Nat)
    (ht : isName t = true) (ha : as.all attrOk = true) (hd : (as.map Prod.fst).Nodup)
    (hs : stop.head? = some '>' ∨ stop.head? = some '/') :
    tokens (f + 1) ('<' :: t ++ writeAttributes as ++ stop) =
      (match (generalizing := false) stop with
        | '>' :: r => (tokens f r).map (Tok.start t as :: ·)
        | '/' :: '>' :: r => (tokens f r).map (Tok.empty t as :: ·)
        | _ => none) := by
  have hsn : ∀ x, stop.head? = some x → nameChar x = false := by
    intro x hx
    rcases hs with h | h <;> rw [h] at hx <;> cases hx <;> decide
  cases t with
  | nil => simp [isName] at ht
  | cons n0 ns =>
    have hsl := isName_cons_ne_slash ht
    have hstop : ∃ c r, stop = c :: r := by
      cases stop with
      | nil => simp at hs
      | cons c r => exact ⟨c, r, rfl⟩
    obtain ⟨c, r, rfl⟩ := hstop
    obtain ⟨t1, t2⟩ := takeWhile_append_stop (p := nameChar) (a := n0 :: ns)
      (b := writeAttributes as ++ c :: r) (isName_all ht)
      (writeAttributes_head as c r (hsn c rfl))
    have e : '<' :: (n0 :: ns) ++ writeAttributes as ++ c :: r =
      '<' :: (n0 :: ns ++ (writeAttributes as ++ c :: r)) := by simp
    rw [e]
    have hr := readAttrs_write as (c :: r) ((writeAttributes as ++ c :: r).length + 1) hs ha (by
      have := length_writeAttributes as
      simp; omega)
    rw [tokens_lt _ f (by simpa using hsl), t1, t2, hr]
    simp only [ht, hd, decide_true, Bool.not_true, Bool.or_self, Bool.false_eq_true, if_false]
    rfl

theorem tokens_text (s rest : Str) (f : Nat) (hne : s ≠ [])
    (h : s.all (fun c => !isNonChar c) = true) :
    tokens (f + 1) (escapeXmlData s ++ '<' :: rest) =
      (tokens f ('<' :: rest)).map (Tok.text (excelControlEscape s) :: ·) := by
  obtain ⟨p1, p2, _, p4⟩ := escapeXmlData_props s
  have hne' : escapeXmlData s ≠ [] := fun h => hne (p4.mp h)
  obtain ⟨t1, t2⟩ := takeWhile_ne_append (c := '<') (b := rest) p1
  conv => lhs; unfold tokens
  split
  · rename_i heq; cases heq
  · rename_i heq; simp at heq
  · rename_i heq
    cases hh : escapeXmlData s with
    | nil => exact absurd hh hne'
    | cons x xs => rw [hh] at heq p1; simp at heq; rw [heq.1] at p1; simp at p1
  · rename_i heq
    cases hh : escapeXmlData s with
    | nil => exact absurd hh hne'
    | cons x xs => rw [hh] at heq p1; simp at heq; rw [heq.1] at p1; simp at p1
  · rename_i f' hf _ _ _
    cases hf
    simp only [t1, t2, hasCdataEnd_false _ p2, decode_escapeXmlData s h]
    cases tokens f ('<' :: rest) <;> simp

theorem tokens_call (c : Call) (rest : Str) (f : Nat) (hc : callOk c = true) :
    tokens (f + (callToks c).length) (c.write ++ rest) =
      (tokens f rest).map (callToks c ++ ·) := by
  cases c with
  | start t as =>
    simp only [callOk, Bool.and_eq_true, decide_eq_true_eq] at hc
    have := tokens_open t as ('>' :: rest) f hc.1.1 hc.1.2 hc.2 (by simp)
    simp only [Call.write, xmlStartTag, callToks, List.length_singleton, List.append_assoc,
      List.cons_append, List.nil_append] at this ⊢
    exact this
  | close t => exact tokens_close t rest f hc
  | empty t as =>
    simp only [callOk, Bool.and_eq_true, decide_eq_true_eq] at hc
    have := tokens_open t as ('/' :: '>' :: rest) f hc.1.1 hc.1.2 hc.2 (by simp)
    simp only [Call.write, xmlEmptyTag, callToks, List.length_singleton, List.append_assoc,
      List.cons_append, List.nil_append] at this ⊢
    exact this
  | data t d as =>
    simp only [callOk, Bool.and_eq_true, decide_eq_true_eq] at hc
    obtain ⟨⟨⟨h1, h2⟩, h3⟩, h4⟩ := hc
    have eqn : (Call.data t d as).write ++ rest =
        '<' :: t ++ writeAttributes as ++ '>' :: (escapeXmlData d ++ (xmlEndTag t ++ rest)) := by
      simp [Call.write, xmlDataElement, xmlEndTag]
    rw [eqn]
    by_cases hd : d = []
    · subst hd
      have : escapeXmlData [] = [] := rfl
      rw [this]
      simp only [callToks, if_true, List.nil_append, List.length_cons, List.length_nil]
      rw [show f + (0 + 1 + 1) = (f + 1) + 1 from rfl]
      have := tokens_open t as ('>' :: (xmlEndTag t ++ rest)) (f + 1) h1 h2 h3 (by simp)
      rw [this]
      simp only
      rw [tokens_close t rest f h1]
      cases tokens f rest <;> simp
    · simp only [callToks, if_neg hd, List.length_cons, List.length_append, List.length_nil]
      rw [show f + (0 + 1 + (0 + 1) + 1) = (f + 1 + 1) + 1 by omega]
      have := tokens_open t as ('>' :: (escapeXmlData d ++ (xmlEndTag t ++ rest))) (f + 1 + 1)
        h1 h2 h3 (by simp)
      rw [this]
      simp only
      have e2 : xmlEndTag t ++ rest = '<' :: ('/' :: (t ++ '>' :: rest)) := by simp [xmlEndTag]
      have := tokens_text d ('/' :: (t ++ '>' :: rest)) (f+1) hd h4
      rw [← e2, tokens_close t rest f h1] at this
      rw [this]
      cases tokens f rest <;> simp

def callsToks (cs : List Call) : List Tok := cs.flatMap callToks

theorem length_call_write (c : Call) (hc : callOk c = true) :
    (callToks c).length ≤ c.write.length := by
  cases c with
  | start t as => simp [callToks, Call.write, xmlStartTag]
  | close t => simp [callToks, Call.write, xmlEndTag]
  | empty t as => simp [callToks, Call.write, xmlEmptyTag]
  | data t d as =>
    simp only [callToks, Call.write, xmlDataElement]
    split <;> simp <;> omega

theorem tokens_calls (cs : List Call) (rest : Str) (f : Nat) (hc : cs.all callOk = true) :
    tokens (f + (callsToks cs).length) (writeCalls cs ++ rest) =
      (tokens f rest).map (callsToks cs ++ ·) := by
  induction cs generalizing f with
  | nil => simp [callsToks, writeCalls]
  | cons c cs ih =>
    simp only [List.all_cons, Bool.and_eq_true] at hc
    have e1 : callsToks (c :: cs) = callToks c ++ callsToks cs := by simp [callsToks]
    have e2 : writeCalls (c :: cs) ++ rest = c.write ++ (writeCalls cs ++ rest) := by
      simp [writeCalls]
    rw [e1, e2, List.length_append,
      show f + ((callToks c).length + (callsToks cs).length)
        = (f + (callsToks cs).length) + (callToks c).length by omega,
      tokens_call c _ _ hc.1, ih f hc.2]
    cases tokens f rest <;> simp

theorem length_writeCalls (cs : List Call) (hc : cs.all callOk = true) :
    (callsToks cs).length ≤ (writeCalls cs).length := by
  induction cs with
  | nil => simp [callsToks, writeCalls]
  | cons c cs ih =>
    simp only [List.all_cons, Bool.and_eq_true] at hc
    have := ih hc.2
    have := length_call_write c hc.1
    simp only [callsToks, writeCalls, List.flatMap_cons, List.length_append] at *
    omega

theorem tokens_writeCalls (cs : List Call) (f : Nat) (hc : cs.all callOk = true)
    (hf : (writeCalls cs).length < f) : tokens f (writeCalls cs) = some (callsToks cs) := by
  have h := length_writeCalls cs hc
  obtain ⟨g, rfl⟩ : ∃ g, f = (g + 1) + (callsToks cs).length :=
    ⟨f - (callsToks cs).length - 1, by omega⟩
  have := tokens_calls cs [] (g+1) hc
  simp only [List.append_nil] at this
  rw [this]; simp [tokens]

/-! no carriage returns -/

theorem name_no_cr {t : Str} (h : isName t = true) : '\r' ∉ t := by
  intro hm
  have := List.all_eq_true.mp (isName_all h) _ hm
  revert this; decide

theorem writeAttributes_no_cr (as : Attrs) (h : as.all attrOk = true) :
    '\r' ∉ writeAttributes as := by
  intro hm
  obtain ⟨a, ha, hx⟩ := List.mem_flatMap.mp hm
  have hok := List.all_eq_true.mp h a ha
  simp only [attrOk, Bool.and_eq_true] at hok
  simp [writeAttribute] at hx
  rcases hx with h | h
  · exact name_no_cr hok.1 h
  · exact escapeAttributes_no_cr _ hok.2 h

theorem call_no_cr (c : Call) (hc : callOk c = true) : '\r' ∉ c.write := by
  cases c with
  | start t as =>
    simp only [callOk, Bool.and_eq_true] at hc
    simp [Call.write, xmlStartTag, name_no_cr hc.1.1, writeAttributes_no_cr as hc.1.2]
  | close t =>
    simp [Call.write, xmlEndTag, name_no_cr (t := t) hc]
  | empty t as =>
    simp only [callOk, Bool.and_eq_true] at hc
    simp [Call.write, xmlEmptyTag, name_no_cr hc.1.1, writeAttributes_no_cr as hc.1.2]
  | data t d as =>
    simp only [callOk, Bool.and_eq_true] at hc
    simp [Call.write, xmlDataElement, name_no_cr hc.1.1.1, writeAttributes_no_cr as hc.1.1.2,
      (escapeXmlData_props d).2.2.1]

theorem writeCalls_no_cr (cs : List Call) (hc : cs.all callOk = true) : '\r' ∉ writeCalls cs := by
  intro hm
  obtain ⟨c, h1, h2⟩ := List.mem_flatMap.mp hm
  exact call_no_cr c (List.all_eq_true.mp hc c h1) h2

/-- Reading back a sequence of calls is matching up its tags. -/
theorem parseContent_writeCalls (cs : List Call) (hc : cs.all callOk = true) :
    parseContent (writeCalls cs) = build (callsToks cs) [] [] := by
  unfold parseContent
  simp only [normEol_id _ (writeCalls_no_cr cs hc)]
  rw [tokens_writeCalls cs _ hc (by omega)]

/-! ### Trees -/

mutual
theorem build_tree (t : Tree) (ts : List Tok) (acc : List Node)
    (st : List (Text × List (Text × Text) × List Node)) :
    build (callsToks t.calls ++ ts) acc st = build ts (t.toNode :: acc) st := by
  match t with
  | .node tag as kids =>
    have := build_trees kids (.close tag :: ts) [] ((tag, as, acc) :: st)
    simp only [Tree.calls, callsToks, List.flatMap_cons, List.flatMap_append, callToks,
      List.flatMap_nil, List.append_assoc, List.cons_append, List.nil_append] at this ⊢
    rw [build, this]
    simp [build, Tree.toNode]
  | .empty tag as => simp [Tree.calls, callsToks, callToks, build, Tree.toNode]
  | .data tag d as =>
    by_cases hd : d = []
    · simp [Tree.calls, callsToks, callToks, build, Tree.toNode, hd]
    · simp [Tree.calls, callsToks, callToks, build, Tree.toNode, hd]
theorem build_trees (ks : List Tree) (ts : List Tok) (acc : List Node)
    (st : List (Text × List (Text × Text) × List Node)) :
    build (callsToks (callsList ks) ++ ts) acc st = build ts ((toNodes ks).reverse ++ acc) st := by
  match ks with
  | [] => simp [callsList, callsToks, toNodes]
  | k :: ks =>
    have h1 := build_tree k (callsToks (callsList ks) ++ ts) acc st
    have h2 := build_trees ks ts (k.toNode :: acc) st
    have e : callsToks (callsList (k :: ks)) ++ ts =
      callsToks k.calls ++ (callsToks (callsList ks) ++ ts) := by
      simp [callsList, callsToks]
    rw [e, h1, h2]; simp [toNodes]
end

end Verif
