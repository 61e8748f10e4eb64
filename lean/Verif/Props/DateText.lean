import Verif.Model.DateText
import Verif.Spec.DateText
import Verif.Props.DateTime
import Verif.Props.DocProps
/-!
Dates as texts (C69).
-/
namespace Verif
open Spec

/-! ### Tokens -/

theorem dtSplit_ne (s : Str) : dtSplit s ≠ [] := by
  cases s with
  | nil => simp [dtSplit]
  | cons c r =>
    unfold dtSplit
    split
    · simp
    · split <;> simp

theorem dtSplit_token {t : Str} (h : ∀ c ∈ t, dtSep c = false) {c : Char} (hc : dtSep c = true) (rest : Str) :
    dtSplit (t ++ c :: rest) = t :: dtSplit rest := by
  induction t with
  | nil => show dtSplit (c :: rest) = _; rw [dtSplit, if_pos hc]
  | cons a r ih =>
    show dtSplit (a :: (r ++ c :: rest)) = _
    rw [dtSplit, if_neg (by rw [h a List.mem_cons_self]; simp), ih fun x hx => h x (List.mem_cons_of_mem _ hx)]

theorem dtSplit_last {t : Str} (h : ∀ c ∈ t, dtSep c = false) : dtSplit t = [t] := by
  induction t with
  | nil => rfl
  | cons a r ih =>
    rw [dtSplit, if_neg (by rw [h a List.mem_cons_self]; simp), ih fun x hx => h x (List.mem_cons_of_mem _ hx)]

theorem digit_nat {c : Char} (h : isDigit c = true) : 48 ≤ c.toNat ∧ c.toNat ≤ 57 := by
  unfold isDigit at h
  rw [Bool.and_eq_true] at h
  have h1 : '0' ≤ c := of_decide_eq_true h.1
  have h2 : c ≤ '9' := of_decide_eq_true h.2
  exact ⟨h1, h2⟩

theorem digit_plain {c : Char} (h : isDigit c = true ∨ c = '.') : dtSep c = false ∧ isUniSpace c = false ∧ c ≠ '-' ∧ c ≠ '+' := by
  rcases h with h | rfl
  · have hd := digit_nat h
    refine ⟨?_, ?_, ?_, ?_⟩
    · unfold dtSep
      rw [Bool.eq_false_iff]
      intro e
      simp only [Bool.or_eq_true, decide_eq_true_eq] at e
      rcases e with (((e | e) | e) | e) | e <;> rw [e] at hd <;> revert hd <;> decide
    · unfold isUniSpace
      rw [Bool.eq_false_iff]
      intro e
      simp only [Bool.or_eq_true, Bool.and_eq_true, decide_eq_true_eq] at e
      omega
    · rintro rfl; revert hd; decide
    · rintro rfl; revert hd; decide
  · decide

/-! ### Numbers -/

def digitsFrom (k : Nat) (s : List Char) : Nat := s.foldl (fun n c => 10 * n + (c.toNat - 48)) k

theorem digitsFrom_ge (k : Nat) (s : List Char) : k ≤ digitsFrom k s := by
  induction s generalizing k with
  | nil => exact Nat.le_refl _
  | cons c r ih => exact Nat.le_trans (by omega) (ih (10 * k + (c.toNat - 48)))

theorem dtDigits_eq (max k : Nat) (s : Str) (h : s.all isDigit = true) (hk : k ≤ max) :
    dtDigits max k s = if digitsFrom k s ≤ max then some (digitsFrom k s) else none := by
  induction s generalizing k with
  | nil => rw [dtDigits]; show _ = if k ≤ max then some k else none; rw [if_pos hk]
  | cons c r ih =>
    rw [List.all_cons, Bool.and_eq_true] at h
    have hd := digit_nat h.1
    have e : dtDigit c = some (c.toNat - 48) := by unfold dtDigit; rw [if_pos hd]
    have e2 : digitsFrom k (c :: r) = digitsFrom (k * 10 + (c.toNat - 48)) r := by
      rw [Nat.mul_comm k 10]; rfl
    rw [dtDigits, e]
    dsimp only
    rw [e2]
    by_cases hm : k * 10 + (c.toNat - 48) > max
    · rw [if_pos hm, if_neg]
      have := digitsFrom_ge (k * 10 + (c.toNat - 48)) r
      omega
    · rw [if_neg hm]
      exact ih _ h.2 (by omega)

theorem parseUint_number {t : Str} {n : Nat} (h : IsNumber t n) (max : Nat) :
    parseUint max t = if n ≤ max then some n else none := by
  obtain ⟨h1, h2, h3⟩ := h
  have e : parseUint max t = dtDigits max 0 t := by
    cases t with
    | nil => exact absurd rfl h1
    | cons c r =>
      rw [List.all_cons, Bool.and_eq_true] at h2
      have := (digit_plain (.inl h2.1)).2.2.2
      unfold parseUint
      split
      · rename_i e; cases e
      · rename_i e; injection e with e _; exact absurd e this
      · rename_i e; injection e with e _; exact absurd e this
      · rfl
  rw [e, dtDigits_eq max 0 t h2 (Nat.zero_le _)]
  show (if digitsValue t ≤ max then some (digitsValue t) else none) = _
  rw [h3]

theorem number_plain {t : Str} {n : Nat} (h : IsNumber t n) : ∀ c ∈ t, isDigit c = true := List.all_eq_true.mp h.2.1

/-! ### White space -/

theorem dropSpaces {pre : Str} (h : Spaces pre) (s : Str) (hs : ∀ c, s.head? = some c → isUniSpace c = false) :
    (pre ++ s).dropWhile isUniSpace = s := by
  induction pre with
  | nil =>
    cases s with
    | nil => rfl
    | cons c r => exact List.dropWhile_cons_of_neg (by rw [hs c rfl]; simp)
  | cons c r ih =>
    unfold Spaces at h
    rw [List.all_cons, Bool.and_eq_true] at h
    show (c :: (r ++ s)).dropWhile isUniSpace = s
    rw [List.dropWhile_cons_of_pos h.1]
    exact ih h.2

theorem uniTrim_spaces {pre s post : Str} (h1 : Spaces pre) (h2 : Spaces post)
    (hh : ∀ c, s.head? = some c → isUniSpace c = false) (hl : ∀ c, s.getLast? = some c → isUniSpace c = false)
    (hne : s ≠ []) : uniTrim (pre ++ s ++ post) = s := by
  unfold uniTrim
  rw [List.append_assoc, dropSpaces h1, List.reverse_append, dropSpaces, List.reverse_reverse]
  · unfold Spaces at h2 ⊢
    rw [List.all_reverse]; exact h2
  · intro c hc
    rw [List.head?_reverse] at hc
    exact hl c hc
  · intro c hc
    rw [List.head?_append] at hc
    cases s with
    | nil => exact absurd rfl hne
    | cons a r => exact hh c (by simpa using hc)

theorem spaces_plain {s : Str} (h : Spaces s) : '-' ∉ s ∧ ':' ∉ s := by
  refine ⟨fun hm => ?_, fun hm => ?_⟩
  · have := List.all_eq_true.mp h _ hm; revert this; decide
  · have := List.all_eq_true.mp h _ hm; revert this; decide

/-! ### Reading a text -/

/-- A number that is too large counts as 0. -/
def clip (max n : Nat) : Nat := if n ≤ max then n else 0

theorem tokenNat_head {t : Str} {n : Nat} (h : IsNumber t n) (max : Nat) (r : List Str) :
    tokenNat max (t :: r) 0 = clip max n := by
  show (parseUint max t).getD 0 = _
  rw [parseUint_number h]
  unfold clip
  split <;> rfl

theorem number_first {t : Str} {n : Nat} (h : IsNumber t n) (rest : Str) {c : Char} (hc : (t ++ rest).head? = some c) :
    isUniSpace c = false := by
  cases t with
  | nil => exact absurd rfl h.1
  | cons a r =>
    have : a = c := by simpa using hc
    rw [← this]
    exact (digit_plain (.inl (number_plain h a List.mem_cons_self))).2.1

theorem last_append {s t : Str} (ht : t ≠ []) : (s ++ t).getLast? = t.getLast? := by
  rw [List.getLast?_append]
  cases h : t.getLast? with
  | none => exact absurd (List.getLast?_eq_none_iff.mp h) ht
  | some c => rfl

/-- The tokens of a date. -/
theorem date_split {s : Str} {d : YMD} (h : WritesDate s d) :
    ∃ y m dd, IsNumber y d.year ∧ IsNumber m d.month ∧ IsNumber dd d.day ∧ dtSplit s = [y, m, dd] ∧
      (∀ (c : Char) (rest : Str), dtSep c = true → dtSplit (s ++ c :: rest) = y :: m :: dd :: dtSplit rest) ∧
      '-' ∈ s ∧ (∀ c, s.head? = some c → isUniSpace c = false) ∧ (∀ c, s.getLast? = some c → isUniSpace c = false) ∧
      s ≠ [] := by
  obtain ⟨y, m, dd, h1, h2, h3, rfl⟩ := h
  have p1 : ∀ c ∈ y, dtSep c = false := fun c hc => (digit_plain (.inl (number_plain h1 c hc))).1
  have p2 : ∀ c ∈ m, dtSep c = false := fun c hc => (digit_plain (.inl (number_plain h2 c hc))).1
  have p3 : ∀ c ∈ dd, dtSep c = false := fun c hc => (digit_plain (.inl (number_plain h3 c hc))).1
  refine ⟨y, m, dd, h1, h2, h3, ?_, ?_, ?_, ?_, ?_, ?_⟩
  · rw [List.append_assoc, List.cons_append, dtSplit_token p1 (by decide), dtSplit_token p2 (by decide), dtSplit_last p3]
  · intro c rest hc
    rw [List.append_assoc, List.append_assoc, List.cons_append, List.cons_append, dtSplit_token p1 (by decide),
      dtSplit_token p2 (by decide), dtSplit_token p3 hc]
  · simp
  · intro c hc
    rw [List.append_assoc] at hc
    exact number_first h1 _ hc
  · intro c hc
    rw [last_append (by simp)] at hc
    have : c ∈ dd := by
      rw [show '-' :: dd = ['-'] ++ dd from rfl, last_append h3.1] at hc
      exact List.mem_of_getLast? hc
    exact (digit_plain (.inl (number_plain h3 c this))).2.1
  · simp

/-- The tokens of a time. -/
theorem time_split {F : Type} {ops : FloatOps F} (hF : FloatSane ops) {s : Str} {h m : Nat} {x : F} (hw : WritesTime ops s h m x) :
    ∃ a b, IsNumber a h ∧ IsNumber b m ∧ '-' ∉ s ∧ ':' ∈ s ∧ (∀ c, s.head? = some c → isUniSpace c = false) ∧
      (∀ c, s.getLast? = some c → isUniSpace c = false) ∧ s ≠ [] ∧
      ∀ z, (z = [] ∨ z = ['Z']) → ∃ r, dtSplit (s ++ z) = a :: b :: r ∧ tokenSec ops r 0 = x := by
  obtain ⟨a, b, h1, h2, h3⟩ := hw
  have q1 : ∀ c ∈ a, dtSep c = false ∧ c ≠ '-' := fun c hc => by
    have := digit_plain (.inl (number_plain h1 c hc)); exact ⟨this.1, this.2.2.1⟩
  have q2 : ∀ c ∈ b, dtSep c = false ∧ c ≠ '-' := fun c hc => by
    have := digit_plain (.inl (number_plain h2 c hc)); exact ⟨this.1, this.2.2.1⟩
  have p1 : ∀ c ∈ a, dtSep c = false := fun c hc => (q1 c hc).1
  have p2 : ∀ c ∈ b, dtSep c = false := fun c hc => (q2 c hc).1
  have n1 : '-' ∉ a := fun hm => (q1 _ hm).2 rfl
  have n2 : '-' ∉ b := fun hm => (q2 _ hm).2 rfl
  refine ⟨a, b, h1, h2, ?_⟩
  rcases h3 with ⟨rfl, rfl⟩ | ⟨t, ⟨ht, htne, hp⟩, rfl⟩
  · refine ⟨?_, by simp, ?_, ?_, by simp, ?_⟩
    · simp [n1, n2]
    · intro c hc; exact number_first h1 _ hc
    · intro c hc
      rw [last_append (by simp)] at hc
      have : c ∈ b := by
        rw [show ':' :: b = [':'] ++ b from rfl, last_append h2.1] at hc
        exact List.mem_of_getLast? hc
      exact (digit_plain (.inl (number_plain h2 c this))).2.1
    · rintro z (rfl | rfl)
      · exact ⟨[], by rw [List.append_nil, dtSplit_token p1 (by decide), dtSplit_last p2], rfl⟩
      · refine ⟨[[]], ?_, ?_⟩
        · rw [List.append_assoc, List.cons_append, dtSplit_token p1 (by decide), dtSplit_token p2 (by decide)]
          rfl
        · show (ops.parse []).getD (ops.ofNat 0) = _
          rw [hF.empty]; rfl
  · have q3 : ∀ c ∈ t, isDigit c = true ∨ c = '.' := by
      intro c hc
      have := List.all_eq_true.mp ht c hc
      simpa using this
    have p3 : ∀ c ∈ t, dtSep c = false := fun c hc => (digit_plain (q3 c hc)).1
    have n3 : '-' ∉ t := fun hm => (digit_plain (q3 _ hm)).2.2.1 rfl
    refine ⟨?_, by simp, ?_, ?_, by simp, ?_⟩
    · simp [n1, n2, n3]
    · intro c hc; rw [List.append_assoc] at hc; exact number_first h1 _ hc
    · intro c hc
      rw [last_append (by simp)] at hc
      have : c ∈ t := by
        rw [show ':' :: t = [':'] ++ t from rfl, last_append htne] at hc
        exact List.mem_of_getLast? hc
      exact (digit_plain (q3 c this)).2.1
    · have hx : (ops.parse t).getD (ops.ofNat 0) = x := by rw [hp]; rfl
      rintro z (rfl | rfl)
      · refine ⟨[t], ?_, hx⟩
        rw [List.append_nil, List.append_assoc, List.cons_append, dtSplit_token p1 (by decide), dtSplit_token p2 (by decide),
          dtSplit_last p3]
      · refine ⟨[t, []], ?_, hx⟩
        rw [List.append_assoc, List.append_assoc, List.cons_append, List.cons_append, dtSplit_token p1 (by decide),
          dtSplit_token p2 (by decide), dtSplit_token p3 (by decide)]
        rfl

/-- What the code makes of a text in one of the forms. -/
theorem parse_eval {F : Type} {ops : FloatOps F} (hF : FloatSane ops) {s : Str} {d : Option YMD} {h m : Nat} {x : F}
    (hw : Writes ops s d h m x) :
    parseFromStr ops s = match d with
      | some d =>
        (match fromYmd ops ⟨clip 65535 d.year, clip 255 d.month, clip 255 d.day⟩ with
         | .error e => .error e
         | .ok t => t.andHms ops (clip 65535 h) (clip 255 m) x)
      | none => fromHms ops (clip 65535 h) (clip 255 m) x := by
  cases hw with
  | date pre s post d hp hq hd =>
    obtain ⟨y, mm, dd, h1, h2, h3, e, _, hmem, hf, hl, hne⟩ := date_split hd
    unfold parseFromStr
    dsimp only
    rw [uniTrim_spaces hp hq hf hl hne, e, if_pos (by simp [hmem])]
    have e1 : tokenNat 65535 [y, mm, dd] 0 = clip 65535 d.year := tokenNat_head h1 65535 [mm, dd]
    have e2 : tokenNat 255 [y, mm, dd] 1 = clip 255 d.month := tokenNat_head h2 255 [dd]
    have e3 : tokenNat 255 [y, mm, dd] 2 = clip 255 d.day := tokenNat_head h3 255 []
    rw [e1, e2, e3]
    rfl
  | time pre s post h m x hp hq ht =>
    obtain ⟨a, b, h1, h2, hn, hc, hf, hl, hne, hz⟩ := time_split hF ht
    obtain ⟨r, e, hr⟩ := hz [] (.inl rfl)
    rw [List.append_nil] at e
    unfold parseFromStr
    dsimp only
    rw [uniTrim_spaces hp hq hf hl hne, e, if_neg (by simp [hn, (spaces_plain hp).1, (spaces_plain hq).1]), if_pos (by simp [hc])]
    have e1 : tokenNat 65535 (a :: b :: r) 0 = clip 65535 h := tokenNat_head h1 65535 (b :: r)
    have e2 : tokenNat 255 (a :: b :: r) 1 = clip 255 m := tokenNat_head h2 255 r
    have e3 : tokenSec ops (a :: b :: r) 2 = x := hr
    rw [e1, e2, e3]
  | both pre s t z post sep d h m x hp hq hd ht hsep hz =>
    obtain ⟨y, mm, dd, g1, g2, g3, _, e, hmem, hf, _, hne⟩ := date_split hd
    obtain ⟨a, b, h1, h2, hn, hc, _, hl', hne', hz'⟩ := time_split hF ht
    obtain ⟨r, e', hr⟩ := hz' z hz
    unfold parseFromStr
    dsimp only
    have hsep' : dtSep sep = true := by rcases hsep with rfl | rfl <;> decide
    have etrim : uniTrim (pre ++ (s ++ sep :: t ++ z) ++ post) = s ++ sep :: t ++ z := by
      refine uniTrim_spaces hp hq ?_ ?_ (by simp)
      · intro c hc'
        cases s with
        | nil => exact absurd rfl hne
        | cons c' s' => exact hf c (by simpa using hc')
      · intro c hc'
        rcases hz with rfl | rfl
        · rw [List.append_nil, last_append (by simp), show sep :: t = [sep] ++ t from rfl, last_append hne'] at hc'
          exact hl' c hc'
        · rw [last_append (by simp)] at hc'
          have : 'Z' = c := by simpa using hc'
          rw [← this]; decide
    have esplit : dtSplit (s ++ sep :: t ++ z) = y :: mm :: dd :: a :: b :: r := by
      rw [List.append_assoc, List.cons_append, e _ _ hsep', e']
    rw [etrim, esplit, if_pos (by simp [hmem])]
    have e1 : tokenNat 65535 (y :: mm :: dd :: a :: b :: r) 0 = clip 65535 d.year := tokenNat_head g1 65535 (mm :: dd :: a :: b :: r)
    have e2 : tokenNat 255 (y :: mm :: dd :: a :: b :: r) 1 = clip 255 d.month := tokenNat_head g2 255 (dd :: a :: b :: r)
    have e3 : tokenNat 255 (y :: mm :: dd :: a :: b :: r) 2 = clip 255 d.day := tokenNat_head g3 255 (a :: b :: r)
    have e4 : tokenNat 65535 (y :: mm :: dd :: a :: b :: r) 3 = clip 65535 h := tokenNat_head h1 65535 (b :: r)
    have e5 : tokenNat 255 (y :: mm :: dd :: a :: b :: r) 4 = clip 255 m := tokenNat_head h2 255 r
    have e6 : tokenSec ops (y :: mm :: dd :: a :: b :: r) 5 = x := hr
    rw [e1, e2, e3, e4, e5, e6]
    rfl

theorem excelDate_iff (d : YMD) : validateYmd d = true ↔ ExcelDate d := C21_validation_exact d

theorem excelDate_clip {d : YMD} (h : validateYmd d = true) : d.year ≤ 65535 ∧ d.month ≤ 255 ∧ d.day ≤ 255 := by
  have hd : ∀ y m, daysIn y m ≤ 31 := by
    intro y m
    unfold daysIn
    repeat' split
    all_goals omega
  rcases (validate_iff d).mp h with ⟨hr, h1, h2⟩ | rfl | rfl
  · exact ⟨by omega, by have := hr.2.1; omega, by have := hr.2.2.2; have := hd d.year d.month; omega⟩
  · decide
  · decide

theorem clip_id {max n : Nat} (h : n ≤ max) : clip max n = n := if_pos h

theorem clip_valid {d : YMD} (h : validateYmd ⟨clip 65535 d.year, clip 255 d.month, clip 255 d.day⟩ = true) :
    validateYmd d = true := by
  by_cases h1 : d.year ≤ 65535
  · by_cases h2 : d.month ≤ 255
    · by_cases h3 : d.day ≤ 255
      · rw [clip_id h1, clip_id h2, clip_id h3] at h; exact h
      · rw [show clip 255 d.day = 0 from if_neg h3] at h
        unfold validateYmd at h
        dsimp only at h
        split at h
        · cases h
        · split at h
          · cases h
          · simp at h
    · rw [show clip 255 d.month = 0 from if_neg h2] at h
      unfold validateYmd at h
      dsimp only at h
      split at h
      · cases h
      · simp at h
  · rw [show clip 65535 d.year = 0 from if_neg h1] at h
    unfold validateYmd at h
    simp at h

/-- C69. A text in one of the documented forms, with a date of Excel, at most 59 minutes, and seconds up to 59.999, is
read as exactly that date and time. Missing: 65536 hours and more (finding F142). -/
theorem C69_parse_partial {F : Type} (ops : FloatOps F) (hF : FloatSane ops) (s : Str) (d : Option YMD) (h m : Nat) (x : F)
    (hw : Writes ops s d h m x) (hd : ∀ y, d = some y → ExcelDate y) (hh : h < 65536) (hm : m < 60)
    (hx : ops.above x = false) :
    ∃ t, parseFromStr ops s = .ok t ∧ t.date = d.getD ⟨0, 0, 0⟩ ∧ t.hour = h ∧ t.min = m ∧ t.sec = x := by
  rw [parse_eval hF hw, clip_id (show h ≤ 65535 by omega), clip_id (show m ≤ 255 by omega)]
  have time : ∀ t : ExcelDT F, ∃ t', t.andHms ops h m x = .ok t' ∧ t'.date = t.date ∧ t'.hour = h ∧ t'.min = m ∧ t'.sec = x := by
    intro t
    unfold ExcelDT.andHms
    rw [if_neg (by omega), hx, if_neg (by simp)]
    exact ⟨_, rfl, rfl, rfl, rfl, rfl⟩
  cases d with
  | none =>
    dsimp only
    unfold fromHms
    exact time _
  | some d =>
    dsimp only
    have hv := (excelDate_iff d).mpr (hd d rfl)
    obtain ⟨g1, g2, g3⟩ := excelDate_clip hv
    rw [clip_id g1, clip_id g2, clip_id g3]
    unfold fromYmd
    rw [hv]
    exact time _

/-- C69. A text in one of the documented forms is refused as out of range if its date is no date of Excel, its minutes
are above 60, or its seconds above 59.999. Missing: 60 minutes, and 256 minutes and more (findings F142, F143). -/
theorem C69_refuses_partial {F : Type} (ops : FloatOps F) (hF : FloatSane ops) (s : Str) (d : Option YMD) (h m : Nat) (x : F)
    (hw : Writes ops s d h m x)
    (hbad : (∃ y, d = some y ∧ ¬ ExcelDate y) ∨ (60 < m ∧ m < 256) ∨ ops.above x = true) :
    parseFromStr ops s = .error .range := by
  rw [parse_eval hF hw]
  have time : ((60 < m ∧ m < 256) ∨ ops.above x = true) → ∀ (t : ExcelDT F) (h : Nat), t.andHms ops h (clip 255 m) x = .error .range := by
    intro hb t h
    unfold ExcelDT.andHms
    rcases hb with hb | hb
    · rw [clip_id (by omega), if_pos (by omega)]
    · rw [hb]
      split
      · rfl
      · rfl
  cases d with
  | none =>
    dsimp only
    rcases hbad with ⟨y, e, _⟩ | hb
    · cases e
    · exact time hb _ _
  | some d =>
    dsimp only
    unfold fromYmd
    cases hv : validateYmd ⟨clip 65535 d.year, clip 255 d.month, clip 255 d.day⟩ with
    | false => rfl
    | true =>
      rcases hbad with ⟨y, e, hn⟩ | hb
      · cases e
        exact absurd ((excelDate_iff d).mp (clip_valid hv)) hn
      · exact time hb _ _

/-- C69. A text with neither a minus nor a colon in it is no date. -/
theorem C69_no_date {F : Type} (ops : FloatOps F) (s : Str) (h1 : '-' ∉ s) (h2 : ':' ∉ s) :
    parseFromStr ops s = .error .parse := by
  unfold parseFromStr
  dsimp only
  rw [if_neg (by simpa using h1), if_neg (by simpa using h2)]

/-! ### Writing a date -/

theorem twoDigits_eq (n : Nat) : twoDigits n = [digitChar (n / 10), digitChar (n % 10)] := rfl

theorem pad2_eq {n : Nat} (h : n < 100) : pad2 n = twoDigits n := by
  unfold pad2
  rw [twoDigits_eq]
  by_cases hn : n < 10
  · rw [if_pos hn, showNat, dif_pos hn, show n / 10 = 0 by omega, show n % 10 = n by omega]; rfl
  · rw [if_neg hn, showNat, dif_neg hn, showNat, dif_pos (by omega)]; rfl

theorem showYear {n : Nat} (h1 : 1000 ≤ n) (h2 : n ≤ 9999) : showNat n = twoDigits (n / 100) ++ twoDigits (n % 100) := by
  rw [twoDigits_eq, twoDigits_eq, showNat, dif_neg (by omega), showNat, dif_neg (by omega), showNat, dif_neg (by omega), showNat,
    dif_pos (by omega), show n / 10 / 10 = n / 100 by omega, show n / 10 % 10 = n % 100 / 10 by omega,
    show n % 10 = n % 100 % 10 by omega]
  rfl

theorem readTwo_two {n : Nat} (h : n < 100) (s : List Char) : readTwo (twoDigits n ++ s) = some (n, s) := by
  show (if isDigit (digitChar (n / 10)) ∧ isDigit (digitChar (n % 10)) then
    some (((digitChar (n / 10)).toNat - 48) * 10 + ((digitChar (n % 10)).toNat - 48), s) else none) = _
  rw [isDigit_digitChar (by omega), isDigit_digitChar (by omega), if_pos ⟨rfl, rfl⟩, toNat_digitChar (by omega),
    toNat_digitChar (by omega), show (48 + n / 10 - 48) * 10 + (48 + n % 10 - 48) = n by omega]

theorem skip_self (c : Char) (s : List Char) : skip c (c :: s) = some s := if_pos rfl

theorem real_bounds {d : YMD} (h : RealDate d) : d.month < 100 ∧ d.day < 100 := by
  obtain ⟨_, h1, _, h2⟩ := h
  refine ⟨by omega, ?_⟩
  have : daysIn d.year d.month ≤ 31 := by
    unfold daysIn
    repeat' split
    all_goals omega
  omega

theorem rfc_form {F : Type} {ops : FloatOps F} (hF : FloatSane ops) {t : ExcelDT F} (hd : RealDate t.date)
    (h1 : 1000 ≤ t.date.year) (h2 : t.date.year ≤ 9999) (hh : t.hour < 24) (hm : t.min < 60) {n : Nat} (hn : n < 60)
    (hs : t.sec = ops.ofNat n) :
    t.rfc3339 ops = twoDigits (t.date.year / 100) ++ (twoDigits (t.date.year % 100) ++ '-' :: (twoDigits t.date.month ++ '-' ::
      (twoDigits t.date.day ++ 'T' :: (twoDigits t.hour ++ ':' :: (twoDigits t.min ++ ':' :: (twoDigits n ++ ['Z'])))))) := by
  unfold ExcelDT.rfc3339
  rw [showYear h1 h2, pad2_eq (real_bounds hd).1, pad2_eq (real_bounds hd).2, pad2_eq (show t.hour < 100 by omega),
    pad2_eq (show t.min < 100 by omega), hs, hF.show2 n hn, List.append_assoc]

/-- C69. A date of the calendar from the year 1000 to the year 9999 with a time of the day in whole seconds is written as
a time stamp of RFC 3339, which reads back as that date and time. -/
theorem C69_rfc3339 {F : Type} (ops : FloatOps F) (hF : FloatSane ops) (t : ExcelDT F) (hd : RealDate t.date)
    (h1 : 1000 ≤ t.date.year) (h2 : t.date.year ≤ 9999) (hh : t.hour < 24) (hm : t.min < 60) (n : Nat) (hn : n < 60)
    (hs : t.sec = ops.ofNat n) :
    readW3C (t.rfc3339 ops) = some (t.date, t.hour, t.min, n) := by
  rw [rfc_form hF hd h1 h2 hh hm hn hs]
  obtain ⟨b1, b2⟩ := real_bounds hd
  obtain ⟨⟨y, mo, da⟩, ho, mi, se, k⟩ := t
  obtain ⟨d1, d2, d3, d4⟩ := hd
  dsimp only at *
  have ey : y / 100 * 100 + y % 100 = y := by omega
  unfold readW3C
  simp only [readTwo_two (show y / 100 < 100 by omega), readTwo_two (show y % 100 < 100 by omega), readTwo_two b1, readTwo_two b2,
    readTwo_two (show ho < 100 by omega), readTwo_two (show mi < 100 by omega), readTwo_two (show n < 100 by omega), skip_self,
    Option.bind_eq_bind, Option.bind_some, ey]
  rw [if_pos ⟨trivial, d1, d2, d3, d4, hh, hm, hn⟩]

theorem number_two {n : Nat} (h : n < 100) : IsNumber (twoDigits n) n := by
  rw [twoDigits_eq]
  refine ⟨by simp, ?_, ?_⟩
  · simp [isDigit_digitChar (show n / 10 < 10 by omega), isDigit_digitChar (show n % 10 < 10 by omega)]
  · show 10 * (10 * 0 + ((digitChar (n / 10)).toNat - 48)) + ((digitChar (n % 10)).toNat - 48) = n
    rw [toNat_digitChar (by omega), toNat_digitChar (by omega)]; omega

theorem number_show (n : Nat) : IsNumber (showNat n) n := ⟨showNat_ne_nil n, showNat_all n, digitsValue_showNat n⟩

/-- C69. The text that is written for a date of Excel with a time of the day in whole seconds is read, by the same
library, as that date and time. -/
theorem C69_roundtrip {F : Type} (ops : FloatOps F) (hF : FloatSane ops) (t : ExcelDT F) (hd : ExcelDate t.date)
    (hh : t.hour < 24) (hm : t.min < 60) (n : Nat) (hn : n < 60) (hs : t.sec = ops.ofNat n) :
    ∃ t', parseFromStr ops (t.rfc3339 ops) = .ok t' ∧ t'.date = t.date ∧ t'.hour = t.hour ∧ t'.min = t.min ∧ t'.sec = t.sec := by
  have hb : t.date.month < 100 ∧ t.date.day < 100 := by
    rcases (validate_iff t.date).mp ((excelDate_iff _).mpr hd) with ⟨hr, _, _⟩ | e | e
    · exact real_bounds hr
    · rw [e]; decide
    · rw [e]; decide
  have he : t.rfc3339 ops = [] ++ ((showNat t.date.year ++ '-' :: twoDigits t.date.month ++ '-' :: twoDigits t.date.day) ++ 'T' ::
      (twoDigits t.hour ++ ':' :: twoDigits t.min ++ ':' :: twoDigits n) ++ ['Z']) ++ [] := by
    unfold ExcelDT.rfc3339
    rw [pad2_eq hb.1, pad2_eq hb.2, pad2_eq (show t.hour < 100 by omega), pad2_eq (show t.min < 100 by omega), hs, hF.show2 n hn]
    simp only [List.append_assoc, List.cons_append, List.nil_append, List.append_nil]
  have hw : Writes ops (t.rfc3339 ops) (some t.date) t.hour t.min t.sec := by
    rw [he]
    refine .both [] _ _ ['Z'] [] 'T' _ _ _ _ rfl rfl ⟨_, _, _, number_show _, number_two hb.1, number_two hb.2, rfl⟩
      ⟨_, _, number_two (by omega), number_two (by omega), .inr ⟨twoDigits n, ⟨?_, by simp [twoDigits_eq], ?_⟩, rfl⟩⟩
      (.inl rfl) (.inr rfl)
    · have := (number_two (show n < 100 by omega)).2.1
      rw [List.all_eq_true] at this ⊢
      intro c hc
      rw [this c hc]; rfl
    · rw [hF.parse n hn, hs]
  obtain ⟨t', e, e1, e2, e3, e4⟩ := C69_parse_partial ops hF _ _ _ _ _ hw (fun y hy => by cases hy; exact hd) (by omega) hm
    (by rw [hs]; exact hF.above n hn)
  exact ⟨t', e, e1, e2, e3, e4⟩

/-- C69. The time stamp of a workbook that is made `ts` seconds after the start of 1970, until the end of 9999, reads as
the day of the calendar `ts / 86400` days after 1970-01-01 and the time left. -/
theorem C69_now {F : Type} (ops : FloatOps F) (hF : FloatSane ops) (ts : Nat) (hts : ts < 253402300800) :
    ∃ h m s, readW3C (unixRfc3339 ops ts) = some (dateFrom1970 (Int.ofNat (ts / 86400)), h, m, s) ∧ h < 24 ∧ m < 60 ∧ s < 60 ∧
      ts = 86400 * (ts / 86400) + 3600 * h + 60 * m + s := by
  obtain ⟨a, b, c⟩ := dayToYmd_spec (ts / 86400)
  obtain ⟨a', b', c'⟩ := dateFrom1970_spec (Int.ofNat (ts / 86400)) (by have : (0 : Int) ≤ Int.ofNat (ts / 86400) := Int.natCast_nonneg _; omega)
  have hd : dayToYmd (ts / 86400) = dateFrom1970 (Int.ofNat (ts / 86400)) := by
    refine ord_inj a a' (by omega) b' ?_
    have : (Int.ofNat (ts / 86400)) = ((ts / 86400 : Nat) : Int) := rfl
    omega
  have h9 : (dayToYmd (ts / 86400)).year ≤ 9999 := by
    have e99 : yearStart 10000 = 3652059 := by decide
    rcases Nat.lt_or_ge 9999 (dayToYmd (ts / 86400)).year with hl | hl
    · have := ord_year_bounds a (by omega)
      have := yearStart_mono (show 1 ≤ 10000 by omega) hl
      omega
    · exact hl
  refine ⟨(unixTimeToParts ts).2.1, (unixTimeToParts ts).2.2.1, (unixTimeToParts ts).2.2.2, ?_, ?_, ?_, ?_, ?_⟩
  · unfold unixRfc3339
    rw [← hd]
    clear hd a' b' c' c
    have hm : (unixTimeToParts ts).2.1 < 24 ∧ (unixTimeToParts ts).2.2.1 < 60 ∧ (unixTimeToParts ts).2.2.2 < 60 := by
      simp only [unixTimeToParts]; omega
    have h0 : (unixTimeToParts ts).1 = dayToYmd (ts / 86400) := by simp only [unixTimeToParts]
    revert hm h0
    generalize unixTimeToParts ts = p
    intro hm h0
    dsimp only
    rw [h0]
    revert a b h9
    generalize dayToYmd (ts / 86400) = q
    intro a b h9
    refine C69_rfc3339 ops hF ⟨q, p.2.1, p.2.2.1, ops.ofNat p.2.2.2, .default⟩ a ?_ h9 hm.1 hm.2.1 _ hm.2.2 rfl
    show 1000 ≤ q.year
    omega
  all_goals (simp only [unixTimeToParts]; omega)

theorem rfc_safe {F : Type} {ops : FloatOps F} {t : ExcelDT F} (h : textSafe (ops.show2 t.sec) = true) :
    textSafe (t.rfc3339 ops) = true := by
  have hd : ∀ n, textSafe (showNat n) = true := fun n => textSafe_of_attrSafe (showNat_attrSafe n)
  have hp : ∀ n, textSafe (pad2 n) = true := by
    intro n
    unfold pad2
    split
    · show (('0' :: showNat n).all _) = true
      rw [List.all_cons]
      have := hd n
      unfold textSafe at this
      rw [this]; rfl
    · exact hd n
  have hc : ∀ (c : Char) (s : List Char), (xmlChar c && c ≠ '\r') = true → textSafe s = true → textSafe (c :: s) = true := by
    intro c s h1 h2
    show (c :: s).all _ = true
    rw [List.all_cons, h1]; exact h2
  have ha : ∀ s s' : List Char, textSafe s = true → textSafe s' = true → textSafe (s ++ s') = true := by
    intro s s' h1 h2
    unfold textSafe at *
    rw [List.all_append, h1, h2]; rfl
  unfold ExcelDT.rfc3339
  exact ha _ _ (hd _) (hc _ _ (by decide) (ha _ _ (hp _) (hc _ _ (by decide) (ha _ _ (hp _) (hc _ _ (by decide) (ha _ _ (hp _)
    (hc _ _ (by decide) (ha _ _ (hp _) (hc _ _ (by decide) (ha _ _ h (by decide)))))))))))

theorem digits_safe {n : Nat} (h : n < 100) : textSafe (twoDigits n) = true := by
  refine textSafe_of_attrSafe ?_
  rw [twoDigits_eq]
  refine digit_attrSafe fun c hc => .inl ?_
  simp only [List.mem_cons, List.not_mem_nil, or_false] at hc
  rcases hc with rfl | rfl
  · exact isDigit_digitChar (by omega)
  · exact isDigit_digitChar (by omega)

/-- C69, with C68. In the core properties part of a workbook whose creation date was not set, the dates of creation and
of the last change are the time stamp of the moment the properties were made. -/
theorem C69_created {F : Type} (ops : FloatOps F) (hF : FloatSane ops) (ts : Nat) (hts : ts < 253402300800) (calls : List DocCall)
    (hc : calls.all docSafe = true) (hno : ∀ s, DocCall.creation s ∉ calls) :
    ∃ node seen h m s, parseDoc (writePart (coreTree (DocProps.run (unixRfc3339 ops ts) calls))) = some node ∧
      readCore node = some seen ∧ readW3C seen.created = some (dateFrom1970 (Int.ofNat (ts / 86400)), h, m, s) ∧
      seen.modified = seen.created ∧ ts = 86400 * (ts / 86400) + 3600 * h + 60 * m + s := by
  obtain ⟨h, m, s, e, _, _, hs, e2⟩ := C69_now ops hF ts hts
  have hsafe : textSafe (unixRfc3339 ops ts) = true := by
    unfold unixRfc3339
    refine rfc_safe ?_
    have hlt : (unixTimeToParts ts).2.2.2 < 60 := by simp only [unixTimeToParts]; omega
    show textSafe (ops.show2 (ops.ofNat (unixTimeToParts ts).2.2.2)) = true
    rw [hF.show2 _ hlt]
    exact digits_safe (by omega)
  obtain ⟨node, p, r⟩ := C68_core_properties (unixRfc3339 ops ts) hsafe calls hc
  have hl : (coreMeant (unixRfc3339 ops ts) calls).created = unixRfc3339 ops ts := by
    show lastSaid _ _ calls = _
    have : ∀ l : List DocCall, (∀ s, DocCall.creation s ∉ l) → ∀ now : Str,
        lastSaid (fun | .creation s => some s | _ => none) now l = now := by
      intro l
      induction l with
      | nil => intro _ _; rfl
      | cons c r ih =>
        intro hn now
        rw [lastSaid_cons, ih fun s hm => hn s (List.mem_cons_of_mem _ hm)]
        cases c <;> first | rfl | exact absurd List.mem_cons_self (hn _)
    exact this calls hno _
  exact ⟨node, _, h, m, s, p, r, by rw [hl]; exact e, rfl, e2⟩

/-! ### Examples and findings -/

/-- Seconds as thousandths, in place of `f64`: at most three digits after the point. -/
def milliParse (s : Str) : Option Nat :=
  match s.span (· ≠ '.') with
  | ([], _) => none
  | (a, []) => if a.all isDigit then some (digitsValue a * 1000) else none
  | (a, _ :: b) =>
    if a.all isDigit && b.all isDigit && b.length ≤ 3 then
      some (digitsValue a * 1000 + digitsValue (b ++ List.replicate (3 - b.length) '0')) else none

def milliShow (x : Nat) : Str :=
  if x % 1000 = 0 then pad2 (x / 1000)
  else
    showNat (x / 1000) ++ '.' ::
      ((('0' :: '0' :: showNat (x % 1000)).reverse.take 3).dropWhile (· = '0')).reverse

def milliOps : FloatOps Nat := ⟨milliParse, (1000 * ·), (59999 < ·), milliShow⟩

theorem milli_sane : FloatSane milliOps where
  parse := by decide +kernel
  show2 := by
    intro n hn
    show (if 1000 * n % 1000 = 0 then pad2 (1000 * n / 1000) else _) = _
    rw [if_pos (by omega), show 1000 * n / 1000 = n by omega, pad2_eq (by omega)]
  empty := by decide
  above := by
    intro n hn
    show decide (59999 < 1000 * n) = false
    exact decide_eq_false (by omega)

/-- The fields of a date that was read. -/
def seenDate (s : String) : Option (YMD × Nat × Nat × Nat) :=
  ((parseFromStr milliOps s.toList).toOption).map fun t => (t.date, t.hour, t.min, t.sec)

example : seenDate " 2024-02-29T23:59:58.25Z\n" = some (⟨2024, 2, 29⟩, 23, 59, 58250) := by decide +kernel
example : seenDate "2023-02-29" = none := by decide +kernel
example : seenDate "9:05" = some (⟨0, 0, 0⟩, 9, 5, 0) := by decide +kernel

/-- The text of the first example is in one of the documented forms. -/
example : Writes milliOps " 2024-02-29T23:59:58.25Z\n".toList (some ⟨2024, 2, 29⟩) 23 59 58250 :=
  .both [' '] "2024-02-29".toList "23:59:58.25".toList ['Z'] ['\n'] 'T' _ _ _ _ (by unfold Spaces; decide) (by unfold Spaces; decide)
    ⟨"2024".toList, "02".toList, "29".toList, by unfold IsNumber; decide, by unfold IsNumber; decide, by unfold IsNumber; decide, by decide⟩
    ⟨"23".toList, "59".toList, by unfold IsNumber; decide, by unfold IsNumber; decide,
      .inr ⟨"58.25".toList, ⟨by decide, by decide, by decide +kernel⟩, by decide⟩⟩ (.inl rfl) (.inr rfl)

example : ExcelDate ⟨2024, 2, 29⟩ := (excelDate_iff _).mp (by decide)

example : (unixRfc3339 milliOps 1700000000) = "2023-11-14T22:13:20Z".toList ∧
    readW3C "2023-11-14T22:13:20Z".toList = some (⟨2023, 11, 14⟩, 22, 13, 20) := by decide +kernel

/-- F142. Numbers that do not fit in the integer types are taken as 0: `12:300` is read as noon, and 65536 hours as
midnight, without an error. -/
theorem C69_overflow_is_zero : seenDate "12:300" = some (⟨0, 0, 0⟩, 12, 0, 0) ∧ seenDate "65536:01" = some (⟨0, 0, 0⟩, 0, 1, 0) := by
  decide +kernel

/-- F143. Sixty minutes are accepted. -/
theorem C69_sixty_minutes : seenDate "12:60" = some (⟨0, 0, 0⟩, 12, 60, 0) := by decide +kernel

/-- F144. A time zone, which the documentation says is ignored, takes the seconds with it. -/
theorem C69_zone_drops_seconds : seenDate "2024-01-01T10:20:45+01:00" = some (⟨2024, 1, 1⟩, 10, 20, 0) ∧
    seenDate "2024-01-01T10:20:45Z" = some (⟨2024, 1, 1⟩, 10, 20, 45000) := by decide +kernel

/-- F145. What is no number is taken as 0. -/
theorem C69_garbage_is_zero : seenDate "12:xx" = some (⟨0, 0, 0⟩, 12, 0, 0) ∧ seenDate ":" = some (⟨0, 0, 0⟩, 0, 0, 0) ∧
    seenDate "2024-01-01 at noon" = some (⟨2024, 1, 1⟩, 0, 0, 0) := by decide +kernel

/-- The text of a date. -/
def textOf (t : Except DtErr (ExcelDT Nat)) : Option Str := t.toOption.map (·.rfc3339 milliOps)

/-- F146. Seconds below 10 with a fraction are written with one digit before the point, which is no time stamp. -/
theorem C69_fraction_text : textOf (parseFromStr milliOps "2024-01-01 10:20:05.5".toList) = some "2024-01-01T10:20:5.5Z".toList ∧
    readW3C "2024-01-01T10:20:5.5Z".toList = none := by decide +kernel

/-- F147. The text of a time without a date, and of a time of 24 hours or more, is no time stamp. -/
theorem C69_no_date_text : textOf (fromHms milliOps 10 20 30000) = some "0-00-00T10:20:30Z".toList ∧
    readW3C "0-00-00T10:20:30Z".toList = none ∧
    textOf (parseFromStr milliOps "2024-01-01 30:00:00".toList) = some "2024-01-01T30:00:00Z".toList ∧
    readW3C "2024-01-01T30:00:00Z".toList = none := by decide +kernel

end Verif
