import Verif.Model.Url
import Verif.Spec.Url
import Verif.Props.Notes
import Verif.Lemmas.StyleOk
/-!
C29: URLs are escaped without loss and at most once, limits are enforced.
C48: every cell's hyperlink leads where the last accepted URL for that cell leads.
-/
namespace Verif
open Spec

/-! ### Escaping -/

def escU (c : Char) : Str := (matchUrlChar c).getD [c]

theorem escapeUrl_eq (s : Str) : escapeUrl s = s.flatMap escU := escapeString_eq _ _

theorem escU_cases (c : Char) :
    (∃ x y dx dy, escU c = ['%', x, y] ∧ ['%', x, y] ∈ escapedCodes ∧ hexDigit? x = some dx ∧
      hexDigit? y = some dy ∧ 16 * dx + dy < 128 ∧ Char.ofNat (16 * dx + dy) = c ∧
      x ∉ refused ∧ y ∉ refused ∧ x ≠ '#' ∧ y ≠ '#' ∧ attrSafe [x] ∧ attrSafe [y]) ∨
    (escU c = [c] ∧ c ≠ '%' ∧ c ∉ refused) := by
  rcases lookup_cases urlCharTable c with ⟨e, h1, h2⟩ | ⟨h1, h2⟩
  · left
    have he : escU c = e := by simp [escU, matchUrlChar, h1]
    rw [he]
    have key : ∀ p ∈ urlCharTable, p.2.head? = some '%' ∧ p.2.length = 3 ∧ p.2 ∈ escapedCodes ∧
      (∃ x ∈ p.2[1]?, ∃ y ∈ p.2[2]?, ∃ dx ∈ hexDigit? x, ∃ dy ∈ hexDigit? y,
        16 * dx + dy < 128 ∧ Char.ofNat (16 * dx + dy) = p.1 ∧ x ∉ refused ∧ y ∉ refused ∧
          x ≠ '#' ∧ y ≠ '#' ∧ attrSafe [x] ∧ attrSafe [y]) := by decide +kernel
    obtain ⟨k1, k2, k3, x, hx, y, hy, dx, hdx, dy, hdy, k4, k5, k6⟩ := key _ h2
    match e, k1, k2, k3, hx, hy with
    | [a, b, d], k1, _, k3, hx, hy =>
      simp at k1 hx hy
      subst k1; subst hx; subst hy
      exact ⟨_, _, dx, dy, rfl, k3, hdx, hdy, k4, k5, k6⟩
  · right
    refine ⟨by simp [escU, matchUrlChar, h1], h2 _ (by decide), ?_⟩
    intro hc
    have : ∀ x ∈ refused, x ∈ urlCharTable.map Prod.fst := by decide
    exact h2 c (this c hc) rfl

theorem percentDecode_other {c : Char} (h : c ≠ '%') (s : Text) :
    percentDecode (c :: s) = c :: percentDecode s := by
  match s with
  | [] => rfl
  | [b] => rfl
  | b :: d :: t =>
    rw [percentDecode]
    split
    · rw [if_neg (by simp [h])]
    · rfl

theorem percentDecode_code {x y : Char} {dx dy : Nat} (hx : hexDigit? x = some dx)
    (hy : hexDigit? y = some dy) (h : 16 * dx + dy < 128) (s : Text) :
    percentDecode ('%' :: x :: y :: s) = Char.ofNat (16 * dx + dy) :: percentDecode s := by
  rw [percentDecode, hx, hy]
  simp [h]

theorem percentDecode_escapeUrl (s : Str) : percentDecode (escapeUrl s) = s := by
  rw [escapeUrl_eq]
  induction s with
  | nil => rfl
  | cons c s ih =>
    rw [List.flatMap_cons]
    rcases escU_cases c with ⟨x, y, dx, dy, h, _, hx, hy, hl, hc, _⟩ | ⟨h, hc, _⟩
    · rw [h]
      show percentDecode ('%' :: x :: y :: s.flatMap escU) = _
      rw [percentDecode_code hx hy hl, ih, hc]
    · rw [h]
      show percentDecode (c :: s.flatMap escU) = _
      rw [percentDecode_other hc, ih]

theorem escapeUrl_refused (s : Str) : ∀ c ∈ escapeUrl s, c ∉ refused := by
  rw [escapeUrl_eq]
  intro c hc
  obtain ⟨d, _, hd⟩ := List.mem_flatMap.mp hc
  rcases escU_cases d with ⟨x, y, dx, dy, h, _, hx, hy, hl, hc', h1, h2, _⟩ | ⟨h, hc', h1⟩
  · rw [h] at hd
    simp at hd
    rcases hd with rfl | rfl | rfl
    · decide
    · exact h1
    · exact h2
  · rw [h] at hd; simp at hd; subst hd; exact h1

theorem escapedCodes_eq : escapedCodes =
    ["%25", "%22", "%20", "%3c", "%3e", "%5b", "%5d", "%5e", "%60", "%7b", "%7d"].map String.toList := by
  decide

theorem codes_length {e : Str} (h : e ∈ escapedCodes) : ∃ a b, e = ['%', a, b] := by
  have : ∀ e ∈ escapedCodes, e.head? = some '%' ∧ e.length = 3 := by decide
  obtain ⟨h1, h2⟩ := this e h
  match e, h1, h2 with
  | [a, b, c], h1, _ => simp at h1; subst h1; exact ⟨b, c, rfl⟩

theorem hasEscapedCode_iff (s : Str) : hasEscapedCode s = true ↔ ∃ e ∈ escapedCodes, e <:+: s := by
  induction s with
  | nil =>
    simp only [hasEscapedCode, Bool.false_eq_true, false_iff]
    rintro ⟨e, he, hi⟩
    obtain ⟨a, b, rfl⟩ := codes_length he
    have := hi.length_le; simp at this
  | cons a s ih =>
    match s, ih with
    | [], _ =>
      simp only [hasEscapedCode, Bool.false_eq_true, false_iff]
      rintro ⟨e, he, hi⟩
      obtain ⟨a, b, rfl⟩ := codes_length he
      have := hi.length_le; simp at this
    | [b], _ =>
      simp only [hasEscapedCode, Bool.false_eq_true, false_iff]
      rintro ⟨e, he, hi⟩
      obtain ⟨a, b, rfl⟩ := codes_length he
      have := hi.length_le; simp at this
    | b :: c :: t, ih =>
      simp only [hasEscapedCode, Bool.or_eq_true, List.contains_iff_mem]
      rw [ih]
      constructor
      · rintro (h | ⟨e, he, hi⟩)
        · exact ⟨_, h, List.IsPrefix.isInfix ⟨t, rfl⟩⟩
        · exact ⟨e, he, hi.trans (List.suffix_cons _ _).isInfix⟩
      · rintro ⟨e, he, hi⟩
        rcases List.infix_cons_iff.mp hi with hp | hi
        · left
          obtain ⟨x, y, rfl⟩ := codes_length he
          obtain ⟨u, hu⟩ := hp
          simp at hu
          obtain ⟨rfl, rfl, rfl, _⟩ := hu
          exact he
        · exact Or.inr ⟨e, he, hi⟩

theorem isEscaped_iff (s : Str) : isEscaped s = true ↔ escapedAlready s := by
  have h1 : escapedAlready s ↔ ∃ e ∈ escapedCodes, e <:+: s := by
    rw [escapedCodes_eq]; simp [escapedAlready]
  rw [h1, ← hasEscapedCode_iff]
  unfold isEscaped
  by_cases h : s.contains '%' = true
  · rw [h]; simp
  · have hn : hasEscapedCode s = false := by
      cases hh : hasEscapedCode s with
      | false => rfl
      | true =>
        obtain ⟨e, he, hi⟩ := (hasEscapedCode_iff s).mp hh
        obtain ⟨a, b, rfl⟩ := codes_length he
        exact absurd (by rw [List.contains_iff_mem]; exact hi.subset (by simp)) h
    simp [hn]

theorem leadsTo_escapeOnce (s : Str) : leadsTo (escapeOnce s) s := by
  unfold leadsTo escapeOnce
  rw [← isEscaped_iff]
  cases h : isEscaped s
  · simp only [Bool.false_eq_true, false_implies, not_false_eq_true, true_implies, Bool.not_false,
      if_true, true_and]
    exact ⟨percentDecode_escapeUrl s, escapeUrl_refused s⟩
  · simp

/-- An unescaped text stays as it is or gets one of the codes. -/
theorem escapeUrl_same_or_code (s : Str) :
    escapeUrl s = s ∨ ∃ e ∈ escapedCodes, e <:+: escapeUrl s := by
  rw [escapeUrl_eq]
  induction s with
  | nil => left; rfl
  | cons c s ih =>
    rw [List.flatMap_cons]
    rcases escU_cases c with ⟨x, y, dx, dy, h, hm, _⟩ | ⟨h, hc, _⟩
    · right
      rw [h]
      exact ⟨_, hm, List.IsPrefix.isInfix ⟨_, rfl⟩⟩
    · rw [h]
      rcases ih with ih | ⟨e, he, hi⟩
      · left; rw [ih]; rfl
      · right; exact ⟨e, he, hi.trans (List.suffix_append _ _).isInfix⟩

/-- C29: escaping happens at most once: what has been escaped is left alone when it is passed again,
for every text. -/
theorem C29_escaped_once (s : Str) : escapeOnce (escapeOnce s) = escapeOnce s := by
  cases h : isEscaped s
  · have e : escapeOnce s = escapeUrl s := by simp [escapeOnce, h]
    rw [e]
    rcases escapeUrl_same_or_code s with h1 | h1
    · rw [h1, e, h1]
    · have : isEscaped (escapeUrl s) = true := by
        rw [isEscaped_iff]
        rw [escapedCodes_eq] at h1
        simpa [escapedAlready] using h1
      simp [escapeOnce, this]
  · have e : escapeOnce s = s := by simp [escapeOnce, h]
    rw [e, e]

/-! ### Parsing -/

theorem splitHash_eq (s : Str) : splitHash s =
    (s.takeWhile (· ≠ '#'), if '#' ∈ s then some ((s.dropWhile (· ≠ '#')).drop 1) else none) := by
  induction s with
  | nil => rfl
  | cons c s ih =>
    rw [splitHash]
    by_cases h : c = '#'
    · subst h; simp
    · rw [if_neg h, ih]
      simp [List.takeWhile_cons, List.dropWhile_cons, h, Ne.symm h]

theorem dropWhile_hash_nil {s : Str} (h : '#' ∉ s) :
    s.takeWhile (· ≠ '#') = s ∧ s.dropWhile (· ≠ '#') = [] := by
  induction s with
  | nil => simp
  | cons c s ih =>
    simp at h
    have := ih h.2
    simp_all [List.takeWhile_cons, List.dropWhile_cons, Ne.symm h.1]

theorem splitAnchor_eq (u : Url) (h : u.anchor = []) : u.splitAnchor =
    { u with link := u.link.takeWhile (· ≠ '#')
             anchor := (u.link.dropWhile (· ≠ '#')).drop 1 } := by
  unfold Url.splitAnchor
  rw [splitHash_eq]
  by_cases hm : '#' ∈ u.link
  · rw [if_pos hm]
  · rw [if_neg hm, (dropWhile_hash_nil hm).1, (dropWhile_hash_nil hm).2]
    cases u; simp at h; subst h; rfl

theorem splitAnchor_fields (u : Url) : u.splitAnchor.linkType = u.linkType ∧
    u.splitAnchor.originalUrl = u.originalUrl ∧ u.splitAnchor.text = u.text ∧
    u.splitAnchor.toolTip = u.toolTip ∧ u.splitAnchor.isObjectLink = u.isObjectLink := by
  unfold Url.splitAnchor
  split <;> exact ⟨rfl, rfl, rfl, rfl, rfl⟩

theorem splitAnchor_link (u : Url) : u.splitAnchor.link = u.link.takeWhile (· ≠ '#') := by
  unfold Url.splitAnchor
  rw [splitHash_eq]
  by_cases hm : '#' ∈ u.link
  · rw [if_pos hm]
  · rw [if_neg hm]; exact (dropWhile_hash_nil hm).1.symm

theorem splitAnchor_anchor (u : Url) (h : u.anchor = []) :
    u.splitAnchor.anchor = (u.link.dropWhile (· ≠ '#')).drop 1 := by
  rw [splitAnchor_eq u h]

theorem parseWeb_fields (u : Url) (h : u.anchor = []) (ho : u.isObjectLink = false) :
    u.parseWeb.linkType = .url ∧ u.parseWeb.link = u.link.takeWhile (· ≠ '#') ∧
    u.parseWeb.relationshipLink = u.link.takeWhile (· ≠ '#') ∧
    u.parseWeb.anchor = (u.link.dropWhile (· ≠ '#')).drop 1 ∧ u.parseWeb.toolTip = u.toolTip ∧
    u.parseWeb.isObjectLink = false ∧ u.parseWeb.text = if u.text = [] then u.link else u.text := by
  obtain ⟨f1, f2, f3, f4, f5⟩ := splitAnchor_fields ({ u with linkType := .url }.defaultText u.link)
  have f6 := splitAnchor_link ({ u with linkType := .url }.defaultText u.link)
  have f7 := splitAnchor_anchor ({ u with linkType := .url }.defaultText u.link) h
  refine ⟨f1, f6, ?_, f7, f4, f5.trans ho, f3⟩
  let w := { u with linkType := .url }.defaultText u.link
  show (if w.splitAnchor.isObjectLink then _ else w.splitAnchor.link) = _
  rw [if_neg (by rw [f5, show w.isObjectLink = u.isObjectLink from rfl, ho]; simp)]
  exact f6

theorem parseFile_fields (u : Url) (h : u.anchor = []) (ho : u.isObjectLink = false) :
    let l := if relativePath (filePath u.link) then filePath u.link else u.link
    u.parseFile.linkType = .file ∧ u.parseFile.link = l.takeWhile (· ≠ '#') ∧
    u.parseFile.relationshipLink = l.takeWhile (· ≠ '#') ∧
    u.parseFile.anchor = (l.dropWhile (· ≠ '#')).drop 1 ∧ u.parseFile.toolTip = u.toolTip ∧
    u.parseFile.isObjectLink = false ∧
    u.parseFile.text = if u.text = [] then filePath u.link else u.text := by
  intro l
  let w := { u with linkType := .file, link := l }.defaultText (filePath u.link)
  obtain ⟨f1, f2, f3, f4, f5⟩ := splitAnchor_fields w
  have f6 := splitAnchor_link w
  have f7 := splitAnchor_anchor w h
  refine ⟨f1, f6, ?_, f7, f4, f5.trans ho, f3⟩
  show (if w.splitAnchor.isObjectLink then _ else w.splitAnchor.link) = _
  rw [if_neg (by rw [f5, show w.isObjectLink = u.isObjectLink from rfl, ho]; simp)]
  exact f6

theorem replaceFirst_front {p s : Str} (r : Str) (hp : p ≠ []) (h : p <+: s) :
    replaceFirst p r s = r ++ s.drop p.length := by
  cases s with
  | nil => exact absurd (List.prefix_nil.mp h) hp
  | cons c s =>
    rw [replaceFirst, if_pos (by simpa [startsWith, List.isPrefixOf_iff_prefix] using h)]

theorem replaceFirst_none {p s : Str} (r : Str) (h : ¬ p <:+: s) : replaceFirst p r s = s := by
  induction s with
  | nil => rfl
  | cons c s ih =>
    rw [replaceFirst, if_neg, ih]
    · exact fun hi => h (hi.trans (List.suffix_cons _ _).isInfix)
    · intro hs
      exact h (List.isPrefixOf_iff_prefix.mp hs).isInfix

theorem filePath_eq {s : Str} (h : "file://".toList <+: s) (h1 : filePrefixOnce s) :
    filePath s = pathOf s := by
  unfold filePath pathOf filePrefixOnce at *
  have hsub : "file://".toList <+: "file:///".toList := ⟨['/'], by decide⟩
  by_cases h3 : "file:///".toList <+: s
  · rw [if_pos h3, replaceFirst_front _ (by decide) h3]
    rw [replaceFirst_none]
    · rfl
    · intro hi
      apply h1
      have : ([] ++ s.drop "file:///".toList.length) = (s.drop 1).drop 7 := by
        rw [List.drop_drop]; rfl
      rw [this] at hi
      exact hi.trans (List.drop_suffix _ _).isInfix
  · rw [if_neg h3]
    have : replaceFirst "file:///".toList [] s = s := by
      apply replaceFirst_none
      intro hi
      cases s with
      | nil => exact absurd (List.infix_nil.mp hi) (by decide)
      | cons c s =>
        rcases List.infix_cons_iff.mp hi with hi | hi
        · exact h3 hi
        · exact h1 (hsub.isInfix.trans hi)
    rw [this, replaceFirst_front _ (by decide) h]
    rfl

theorem relativePath_eq (s : Str) : relativePath s = !absolutePath s := by
  match s with
  | [] => rfl
  | [a] => simp [relativePath, absolutePath, startsWith]
  | a :: b :: t =>
    by_cases h1 : a = '\\' ∧ b = '\\'
    · obtain ⟨rfl, rfl⟩ := h1
      simp [relativePath, absolutePath, startsWith]
    · have h2 : ¬ (a = '\\' ∧ b = '\\') := h1
      have h3 : startsWith ['\\', '\\'] (a :: b :: t) = false := by
        cases hh : startsWith ['\\', '\\'] (a :: b :: t) with
        | false => rfl
        | true => simp [startsWith] at hh; exact absurd ⟨hh.1.symm, hh.2.symm⟩ h2
      unfold relativePath
      rw [h3]
      by_cases hb : b = ':'
      · subst hb
        simp [absolutePath]
      · simp only [Bool.false_eq_true, if_false]
        have : absolutePath (a :: b :: t) = false := by
          simp [absolutePath, hb]
          intro h; simp at h1; exact h1 h
        rw [this]
        split
        · rename_i heq; simp at heq; exact absurd heq.2.1 hb
        · rfl

theorem web_iff (s : Str) : webPrefixes.any (fun p => startsWith p s) = true ↔
    ∃ p ∈ ["http://", "https://", "ftp://", "ftps://"], p.toList <+: s := by
  have : webPrefixes = ["http://", "https://", "ftp://", "ftps://"].map String.toList := by decide
  rw [this]
  simp [startsWith, List.isPrefixOf_iff_prefix]

theorem hash_not_mem_takeWhile (s : Str) : '#' ∉ s.takeWhile (· ≠ '#') := by
  induction s with
  | nil => simp
  | cons c s ih =>
    rw [List.takeWhile_cons]
    by_cases h : c = '#'
    · subst h; simp
    · simp [h, Ne.symm h]
      simpa using ih

theorem escapeOnce_hash {s : Str} (h : '#' ∉ s) : '#' ∉ escapeOnce s := by
  unfold escapeOnce
  split
  · rw [escapeUrl_eq]
    intro hm
    obtain ⟨d, hd, he⟩ := List.mem_flatMap.mp hm
    rcases escU_cases d with ⟨x, y, dx, dy, e, _, _, _, _, _, _, _, h1, h2, _⟩ | ⟨e, hc', h1⟩
    · rw [e] at he
      simp at he
      rcases he with rfl | rfl
      · exact h1 rfl
      · exact h2 rfl
    · rw [e] at he; simp at he; subst he; exact h hd
  · exact h

theorem replaceHash_none {s : Str} (h : '#' ∉ s) : replaceHash s = s := by
  unfold replaceHash
  induction s with
  | nil => rfl
  | cons c s ih =>
    simp at h
    rw [List.flatMap_cons, if_neg (Ne.symm h.1), ih h.2]
    rfl

/-- The user's `Url` of a call. -/
def callUrl (link text tip : Str) : Url := ((Url.new link).setText text).setTip tip

/-- What is known about an accepted link. -/
structure LinkGood (link text tip : Str) (d : LinkDest) (u : Url) : Prop where
  anchor : u.anchor = d.place
  tip : u.toolTip = tip
  object : u.isObjectLink = false
  textLength : u.text.length ≤ max text.length link.length
  userText : text ≠ [] → u.text = text
  kind : match d.resource with
    | none => u.linkType = .internal
    | some r => (u.linkType = .url ∨ u.linkType = .file) ∧ leadsTo u.relationshipLink r
  chars : ∀ c, (c ∈ u.anchor ∨ c ∈ u.text) → c ∈ link ∨ c ∈ text
  linkChars : ∃ l, u.link = escapeOnce l ∧ ∀ c ∈ l, c ∈ link

theorem defaultText_facts {text t link : Str} (ht : ∀ c ∈ t, c ∈ link) (hl : t.length ≤ link.length) :
    (if text = [] then t else text).length ≤ max text.length link.length ∧
    (∀ c ∈ (if text = [] then t else text), c ∈ link ∨ c ∈ text) ∧
    (text ≠ [] → (if text = [] then t else text) = text) := by
  split
  · rename_i h
    exact ⟨by omega, fun c hc => Or.inl (ht c hc), fun hn => absurd h hn⟩
  · exact ⟨by omega, fun c hc => Or.inr hc, fun _ => rfl⟩

/-- The end of `initialize` for a link that leads out of the workbook. -/
theorem finish_external {link text tip r p : Str} {u v : Url} (hp : u.parseUrl = some v)
    (hk : v.linkType = .url ∨ v.linkType = .file ∧ '#' ∉ r) (hl : v.link = r) (hr : v.relationshipLink = r)
    (ha : v.anchor = p) (ht : v.toolTip = tip) (ho : v.isObjectLink = false)
    (hx : v.text.length ≤ max text.length link.length ∧ (∀ c ∈ v.text, c ∈ link ∨ c ∈ text) ∧
      (text ≠ [] → v.text = text))
    (hrc : ∀ c ∈ r, c ∈ link) (hpc : ∀ c ∈ p, c ∈ link) :
    (withinLimits link { resource := some r, place := p } tip →
      ∃ w, u.initialize = some w ∧ LinkGood link text tip { resource := some r, place := p } w) ∧
    (¬ withinLimits link { resource := some r, place := p } tip → u.initialize = none) := by
  unfold withinLimits Url.initialize
  simp only [hp, hl, ha, ht, Option.getD_some]
  constructor
  · rintro ⟨h1, h2, h3⟩
    refine ⟨v.escapeStrings, ?_, ?_⟩
    · rw [if_neg (by omega), if_neg (by omega)]
    · have hrel : v.escapeStrings.relationshipLink = escapeOnce r := by
        unfold Url.escapeStrings
        rcases hk with hk | ⟨hk, hh⟩
        · simp [hk, hr]
        · simp [hk, hr, replaceHash_none (escapeOnce_hash hh)]
      refine ⟨ha, ht, ho, hx.1, hx.2.2, ⟨?_, ?_⟩, ?_, ⟨r, ?_, hrc⟩⟩
      · rcases hk with hk | hk
        · exact Or.inl hk
        · exact Or.inr hk.1
      · rw [hrel]; exact leadsTo_escapeOnce r
      · rintro c (hc | hc)
        · exact Or.inl (hpc c (by rw [← ha]; exact hc))
        · exact hx.2.1 c hc
      · simp [Url.escapeStrings, hl]
  · intro hn
    by_cases h1 : List.length r > 2080 ∨ List.length p > 2080
    · rw [if_pos h1]
    · rw [if_neg h1, if_pos (by omega)]

theorem mem_takeWhile_sub {s : Str} {c : Char} (f : Char → Bool) (h : c ∈ s.takeWhile f) : c ∈ s :=
  (List.takeWhile_prefix f).subset h

theorem mem_dropPlace_sub {s : Str} {c : Char} (f : Char → Bool) (h : c ∈ (s.dropWhile f).drop 1) :
    c ∈ s := (List.dropWhile_suffix f).subset (List.mem_of_mem_drop h)

theorem startsWith_iff (p s : Str) : startsWith p s = true ↔ p <+: s := by
  simp [startsWith, List.isPrefixOf_iff_prefix]

theorem initialize_callUrl (link text tip : Str)
    (h : "file://".toList <+: link → filePrefixOnce link) :
    (destOf link = none → (callUrl link text tip).initialize = none) ∧
    ∀ d, destOf link = some d → (withinLimits link d tip →
        ∃ u, (callUrl link text tip).initialize = some u ∧ LinkGood link text tip d u) ∧
      (¬ withinLimits link d tip → (callUrl link text tip).initialize = none) := by
  have hlink : (callUrl link text tip).link = link := rfl
  by_cases hw : ∃ p ∈ ["http://", "https://", "ftp://", "ftps://"], p.toList <+: link
  · have hd : destOf link = some (splitPlace link) := by unfold destOf; rw [if_pos hw]
    rw [hd]
    refine ⟨nofun, ?_⟩
    rintro _ ⟨⟩
    have hp : (callUrl link text tip).parseUrl = some (callUrl link text tip).parseWeb := by
      unfold Url.parseUrl; rw [hlink, if_pos ((web_iff link).mpr hw)]
    obtain ⟨f1, f2, f3, f4, f5, f6, f7⟩ := parseWeb_fields (callUrl link text tip) rfl rfl
    refine finish_external hp (Or.inl f1) f2 f3 f4 f5 f6 ?_ (fun c => mem_takeWhile_sub _)
        (fun c => mem_dropPlace_sub _)
    rw [f7]
    exact defaultText_facts (fun c hc => hc) (Nat.le_refl _)
  · by_cases hm : "mailto:".toList <+: link
    · have hd : destOf link = some { resource := some link, place := [] } := by
        unfold destOf; rw [if_neg hw, if_pos hm]
      rw [hd]
      refine ⟨nofun, ?_⟩
      rintro _ ⟨⟩
      have hp : (callUrl link text tip).parseUrl = some (callUrl link text tip).parseMail := by
        unfold Url.parseUrl
        rw [hlink, if_neg (fun hh => hw ((web_iff link).mp hh)), if_pos ((startsWith_iff _ _).mpr hm)]
      refine finish_external hp (Or.inl rfl) rfl rfl rfl rfl rfl ?_ (fun c hc => hc) (by simp)
      rw [show (callUrl link text tip).parseMail.text =
        if text = [] then replaceFirst "mailto:".toList [] link else text from rfl,
        replaceFirst_front _ (by decide) hm]
      exact defaultText_facts (fun c hc => List.mem_of_mem_drop (by simpa using hc)) (by simp)
    · by_cases hi : "internal:".toList <+: link
      · have hd : destOf link = some { resource := none, place := link.drop 9 } := by
          unfold destOf; rw [if_neg hw, if_neg hm, if_pos hi]
        rw [hd]
        refine ⟨nofun, ?_⟩
        rintro _ ⟨⟩
        have hp : (callUrl link text tip).parseUrl = some (callUrl link text tip).parseInternal := by
          unfold Url.parseUrl
          rw [hlink, if_neg (fun hh => hw ((web_iff link).mp hh)),
            if_neg (fun hh => hm ((startsWith_iff _ _).mp hh)), if_pos ((startsWith_iff _ _).mpr hi)]
        have ha : (callUrl link text tip).parseInternal.anchor = link.drop 9 := by
          show replaceFirst "internal:".toList [] link = _
          rw [replaceFirst_front _ (by decide) hi]; rfl
        have ht : (callUrl link text tip).parseInternal.text = if text = [] then link.drop 9 else text := by
          rw [← ha]; rfl
        have hl : (callUrl link text tip).parseInternal.link = link := rfl
        have htip : (callUrl link text tip).parseInternal.toolTip = tip := rfl
        have hf : _ ∧ _ := defaultText_facts (text := text) (t := link.drop 9) (link := link)
          (fun c hc => List.mem_of_mem_drop hc) (by simp)
        unfold withinLimits Url.initialize
        simp only [hp, hl, ha, htip, Option.getD_none]
        have hlen : (link.drop 9).length ≤ link.length := by simp
        constructor
        · rintro ⟨h1, h2, h3⟩
          refine ⟨(callUrl link text tip).parseInternal.escapeStrings, ?_, ?_⟩
          · rw [if_neg (by omega), if_neg (by omega)]
          · refine ⟨ha, htip, rfl, ?_, ?_, rfl, ?_, ⟨link, rfl, fun c hc => hc⟩⟩
            · show (callUrl link text tip).parseInternal.text.length ≤ _
              rw [ht]; exact hf.1
            · show _ → (callUrl link text tip).parseInternal.text = _
              rw [ht]; exact hf.2.2
            · rintro c (hc | hc)
              · left
                exact List.mem_of_mem_drop (by rw [← ha]; exact hc)
              · apply hf.2.1 c
                rw [← ht]; exact hc
        · intro hn
          by_cases h1 : link.length > 2080 ∨ (link.drop 9).length > 2080
          · rw [if_pos h1]
          · rw [if_neg h1, if_pos (by omega)]
      · by_cases hf : "file://".toList <+: link
        · have hd : destOf link =
              some (splitPlace (if absolutePath (pathOf link) then link else pathOf link)) := by
            unfold destOf; rw [if_neg hw, if_neg hm, if_neg hi, if_pos hf]
          rw [hd]
          refine ⟨nofun, ?_⟩
          rintro _ ⟨⟩
          have hp : (callUrl link text tip).parseUrl = some (callUrl link text tip).parseFile := by
            unfold Url.parseUrl
            rw [hlink, if_neg (fun hh => hw ((web_iff link).mp hh)),
              if_neg (fun hh => hm ((startsWith_iff _ _).mp hh)),
              if_neg (fun hh => hi ((startsWith_iff _ _).mp hh)), if_pos ((startsWith_iff _ _).mpr hf)]
          have hpath := filePath_eq hf (h hf)
          have hpc : ∀ c ∈ pathOf link, c ∈ link := by
            unfold pathOf; split <;> exact fun c hc => List.mem_of_mem_drop hc
          have hpl : (pathOf link).length ≤ link.length := by unfold pathOf; split <;> simp
          have hrel : (if relativePath (pathOf link) then pathOf link else link) =
              if absolutePath (pathOf link) then link else pathOf link := by
            rw [relativePath_eq]; cases absolutePath (pathOf link) <;> rfl
          have hsub : ∀ c ∈ (if absolutePath (pathOf link) then link else pathOf link), c ∈ link := by
            intro c hc; split at hc
            · exact hc
            · exact hpc c hc
          obtain ⟨f1, f2, f3, f4, f5, f6, f7⟩ := parseFile_fields (callUrl link text tip) rfl rfl
          rw [hlink, hpath, hrel] at f2 f3 f4
          rw [hlink, hpath] at f7
          refine finish_external hp (Or.inr ⟨f1, hash_not_mem_takeWhile _⟩) f2 f3 f4 f5 f6 ?_
              (fun c hc => hsub c (mem_takeWhile_sub _ hc))
              (fun c hc => hsub c (mem_dropPlace_sub _ hc))
          rw [f7]
          exact defaultText_facts hpc hpl
        · refine ⟨fun _ => ?_, ?_⟩
          · have hp : (callUrl link text tip).parseUrl = none := by
              unfold Url.parseUrl
              rw [hlink, if_neg (fun hh => hw ((web_iff link).mp hh)),
                if_neg (fun hh => hm ((startsWith_iff _ _).mp hh)),
                if_neg (fun hh => hi ((startsWith_iff _ _).mp hh)),
                if_neg (fun hh => hf ((startsWith_iff _ _).mp hh))]
            unfold Url.initialize; rw [hp]
          · intro d hd
            unfold destOf at hd
            rw [if_neg hw, if_neg hm, if_neg hi, if_neg hf] at hd
            cases hd


theorem splitPlace_length (s : Str) : s.length ≤
    (s.takeWhile (· ≠ '#')).length + ((s.dropWhile (· ≠ '#')).drop 1).length + 1 := by
  have h := congrArg List.length (List.takeWhile_append_dropWhile (p := (· ≠ '#')) (l := s))
  rw [List.length_append] at h
  rw [List.length_drop]
  omega

theorem link_length {link tip : Str} {d : LinkDest} (hd : destOf link = some d)
    (hl : withinLimits link d tip) : link.length ≤ 4200 := by
  unfold destOf at hd
  unfold withinLimits at hl
  split at hd
  · cases hd
    have := splitPlace_length link
    simp only [splitPlace, Option.getD_some] at hl
    omega
  · split at hd
    · cases hd; simp only [Option.getD_some] at hl; omega
    · split at hd
      · cases hd; simp only [Option.getD_none] at hl; omega
      · split at hd
        · cases hd
          have hp : link.length ≤ (pathOf link).length + 8 := by
            unfold pathOf; split <;> rw [List.length_drop] <;> omega
          have hs := splitPlace_length (if absolutePath (pathOf link) then link else pathOf link)
          simp only [splitPlace, Option.getD_some] at hl
          split at hl <;> split at hs <;> simp_all <;> omega
        · cases hd

/-- C29: the limits. Every link string of a known kind within the limits of Excel is accepted in every
cell of the sheet, and everything else is refused. (Partial: `file:` links in which the prefix `file://`
occurs again are excluded, see `C29_file_prefix_counterexample`.) -/
theorem C29_accepted_partial (m : LinkMap) (x : UrlCall)
    (h : "file://".toList <+: x.link → filePrefixOnce x.link) :
    (storeUrl m x.row x.col (callUrl x.link x.text x.tip)).isSome = true ↔ x.Accepted := by
  obtain ⟨h1, h2⟩ := initialize_callUrl x.link x.text x.tip h
  unfold storeUrl UrlCall.Accepted
  cases hd : destOf x.link with
  | none => rw [h1 hd]; simp
  | some d =>
    obtain ⟨h3, h4⟩ := h2 d hd
    by_cases hw : withinLimits x.link d x.tip
    · obtain ⟨u, hu, hg⟩ := h3 hw
      have hlen := link_length hd hw
      have ht := hg.textLength
      rw [hu]
      have e1 : ROW_MAX = 1048576 := rfl
      have e2 : COL_MAX = 16384 := rfl
      have e3 : MAX_STRING_LEN = 32767 := rfl
      simp only [Option.some.injEq, exists_eq_left', hw, and_true]
      by_cases h5 : x.row ≥ ROW_MAX ∨ x.col ≥ COL_MAX
      · rw [if_pos h5]; simp; omega
      · rw [if_neg h5]
        by_cases h6 : u.text.length > MAX_STRING_LEN
        · rw [if_pos h6]; simp; omega
        · rw [if_neg h6]
          simp
          by_cases h7 : x.text = []
          · rw [h7]; simp; omega
          · have : u.text = x.text := by
              have := hg.userText h7; exact this
            rw [this] at h6
            omega
    · rw [h4 hw]; simp [hw]


/-! ### The links of a sheet -/

/-- The `write_url` calls on a sheet. -/
def urlCalls (calls : List UrlCall) : LinkMap :=
  storeUrls (calls.map fun x => (x.row, x.col, callUrl x.link x.text x.tip))

theorem urlCalls_snoc (calls : List UrlCall) (x : UrlCall) : urlCalls (calls ++ [x]) =
    (storeUrl (urlCalls calls) x.row x.col (callUrl x.link x.text x.tip)).getD (urlCalls calls) := by
  simp [urlCalls, storeUrls]

open Classical in
theorem linkAt_snoc (calls : List UrlCall) (x : UrlCall) (r c : Nat) : linkAt (calls ++ [x]) r c =
    if x.Accepted ∧ x.row = r ∧ x.col = c then some x else linkAt calls r c := by
  simp [linkAt]

/-- What is stored for a cell. -/
def Stored (calls : List UrlCall) (m : LinkMap) (r c : Nat) : Prop :=
  match linkAt calls r c with
  | none => BMap.get (linkKey r c) m = none
  | some x => x ∈ calls ∧ x.row = r ∧ x.col = c ∧ ∃ d u, destOf x.link = some d ∧
      BMap.get (linkKey r c) m = some u ∧ LinkGood x.link x.text x.tip d u

theorem linkKey_inj {r c r' c' : Nat} (h : c < 16384) (h' : c' < 16384)
    (e : linkKey r c = linkKey r' c') : r = r' ∧ c = c' := by
  unfold linkKey at e; omega

theorem linkKey_div {r c : Nat} (h : c < 16384) : linkKey r c / 16384 = r ∧ linkKey r c % 16384 = c := by
  unfold linkKey; omega

theorem snoc_ind {α : Type} {P : List α → Prop} (h0 : P []) (h1 : ∀ l x, P l → P (l ++ [x]))
    (l : List α) : P l := by
  have : ∀ l : List α, P l.reverse := by
    intro l
    induction l with
    | nil => exact h0
    | cons x l ih => rw [List.reverse_cons]; exact h1 _ _ ih
  rw [← List.reverse_reverse l]; exact this _

theorem urlCalls_spec (calls : List UrlCall)
    (hf : ∀ x ∈ calls, "file://".toList <+: x.link → filePrefixOnce x.link) :
    BMap.Sorted (urlCalls calls) ∧ (∀ k u, (k, u) ∈ urlCalls calls → k / 16384 < 1048576) ∧
    ∀ r c, c < 16384 → Stored calls (urlCalls calls) r c := by
  induction calls using snoc_ind with
  | h0 =>
    refine ⟨by simp [urlCalls, storeUrls, BMap.Sorted], by simp [urlCalls, storeUrls], ?_⟩
    intro r c _
    simp [Stored, linkAt, urlCalls, storeUrls, BMap.get]
  | h1 calls x ih =>
    obtain ⟨i1, i2, i3⟩ := ih (fun y hy => hf y (by simp [hy]))
    have hx := hf x (by simp)
    have hacc := C29_accepted_partial (urlCalls calls) x hx
    rw [urlCalls_snoc]
    by_cases ha : x.Accepted
    · have hs := hacc.mpr ha
      obtain ⟨hr, hc, ht, d, hd, hw⟩ := ha
      obtain ⟨u, hu, hg⟩ := ((initialize_callUrl x.link x.text x.tip hx).2 d hd).1 hw
      have hst : storeUrl (urlCalls calls) x.row x.col (callUrl x.link x.text x.tip) =
          some (BMap.insert (linkKey x.row x.col) u (urlCalls calls)) := by
        unfold storeUrl at hs ⊢
        rw [hu] at hs ⊢
        simp only at hs ⊢
        split at hs
        · cases hs
        · rename_i h5
          rw [if_neg h5]
          split at hs
          · cases hs
          · rename_i h6; rw [if_neg h6]
      rw [hst]
      refine ⟨BMap.sorted_insert _ _ _ i1, ?_, ?_⟩
      · intro k v hk
        rcases BMap.mem_insert hk with e | hk
        · cases e; rw [(linkKey_div hc).1]; exact hr
        · exact i2 k v hk
      · intro r c hc'
        unfold Stored
        simp only [Option.getD_some, BMap.get_insert _ _ _ i1, linkAt_snoc]
        by_cases e : x.row = r ∧ x.col = c
        · obtain ⟨rfl, rfl⟩ := e
          rw [if_pos ⟨⟨hr, hc, ht, d, hd, hw⟩, rfl, rfl⟩]
          exact ⟨by simp, rfl, rfl, d, u, hd, by simp, hg⟩
        · rw [if_neg (fun h => e h.2)]
          have hne : linkKey r c ≠ linkKey x.row x.col := by
            intro h
            have := linkKey_inj hc' hc h
            exact e ⟨this.1.symm, this.2.symm⟩
          rw [if_neg hne]
          have := i3 r c hc'
          unfold Stored at this
          split
          · rename_i h; rw [h] at this; exact this
          · rename_i y h
            rw [h] at this
            exact ⟨by simp [this.1], this.2⟩
    · have hs : storeUrl (urlCalls calls) x.row x.col (callUrl x.link x.text x.tip) = none := by
        cases h : storeUrl (urlCalls calls) x.row x.col (callUrl x.link x.text x.tip) with
        | none => rfl
        | some m => exact absurd (hacc.mp (by rw [h]; rfl)) ha
      rw [hs]
      refine ⟨i1, i2, ?_⟩
      intro r c hc
      have := i3 r c hc
      unfold Stored at this ⊢
      rw [linkAt_snoc, if_neg (fun h => ha h.1)]
      simp only [Option.getD_none]
      split
      · rename_i h; rw [h] at this; exact this
      · rename_i y h
        rw [h] at this
        exact ⟨by simp [this.1], this.2⟩

/-- What a reader sees of a stored link. -/
def seenOf (p : Nat × Url) : LinkSeen :=
  { cell := (p.1 / 16384, p.1 % 16384)
    target := if p.2.linkType = .internal then none else some p.2.relationshipLink
    place := p.2.anchor, tip := p.2.toolTip }

theorem relTarget_nth {rels : List LinkRel} {n : Nat} {t : Text}
    (h : rels[n]? = some ("hyperlink".toList, t, "External".toList)) :
    relTarget rels ("rId".toList ++ showNat (n + 1)) = some t := by
  unfold relTarget
  have e1 : ("rId".toList ++ showNat (n + 1)).take 3 = "rId".toList := by simp
  have e2 : ("rId".toList ++ showNat (n + 1)).drop 3 = showNat (n + 1) := by simp
  rw [if_pos e1, e2, readNat_showNat]
  show (rels[n]?).bind _ = _
  rw [h]
  rfl

theorem linkAttrs_lookup {v w a l t : Str} {b : Bool} :
    let as : Attrs := ("ref".toList, v) :: ("r:id".toList, w) ::
      ((if a ≠ [] then [("location".toList, a)] else []) ++
      (if b then [("display".toList, l)] else []) ++
      (if t ≠ [] then [("tooltip".toList, t)] else []))
    as.lookup "ref".toList = some v ∧ as.lookup "r:id".toList = some w ∧
    (as.lookup "location".toList).getD [] = a ∧ (as.lookup "tooltip".toList).getD [] = t := by
  refine ⟨by simp [List.lookup], by simp [List.lookup], ?_, ?_⟩
  · by_cases h1 : a = [] <;> by_cases h2 : t = [] <;> cases b <;> simp [List.lookup, h1, h2]
  · by_cases h1 : a = [] <;> by_cases h2 : t = [] <;> cases b <;> simp [List.lookup, h1, h2]

theorem readLink_external {rels : List LinkRel} {u : Url} (other : Bool) (r c n : Nat)
    (hk : u.linkType = .url ∨ u.linkType = .file) (hn : u.relId = n + 1)
    (h : rels[n]? = some ("hyperlink".toList, u.relationshipLink, "External".toList)) :
    readLink rels (.elem "hyperlink".toList (hyperlinkAttrs other r c u) []) =
      some { cell := (r, c), target := some u.relationshipLink, place := u.anchor, tip := u.toolTip } := by
  have ht := relTarget_nth h
  have e : hyperlinkAttrs other r c u = ("ref".toList, rowColToCell r c) ::
      ("r:id".toList, "rId".toList ++ showNat (n + 1)) ::
      ((if u.anchor ≠ [] then [("location".toList, u.anchor)] else []) ++
      (if u.isObjectLink || other then [("display".toList, u.link)] else []) ++
      (if u.toolTip ≠ [] then [("tooltip".toList, u.toolTip)] else [])) := by
    unfold hyperlinkAttrs
    rcases hk with hk | hk <;> rw [hk, hn]
  rw [e]
  generalize "rId".toList ++ showNat (n + 1) = w at ht
  generalize hv : rowColToCell r c = v
  have hv' : readA1 v = some (r, c) := by rw [← hv]; exact readA1_cell r c
  unfold readLink
  simp only [if_true]
  rw [linkAttrs_lookup.1, linkAttrs_lookup.2.1, linkAttrs_lookup.2.2.1, linkAttrs_lookup.2.2.2]
  simp only [Option.bind_some, hv', linkTarget, ht, Option.map_some]

theorem readLink_internal {rels : List LinkRel} {u : Url} (other : Bool) (r c : Nat)
    (hk : u.linkType = .internal) :
    readLink rels (.elem "hyperlink".toList (hyperlinkAttrs other r c u) []) =
      some { cell := (r, c), target := none, place := u.anchor, tip := u.toolTip } := by
  have e : hyperlinkAttrs other r c u = ("ref".toList, rowColToCell r c) ::
      ("location".toList, u.anchor) ::
      ((if u.toolTip ≠ [] then [("tooltip".toList, u.toolTip)] else []) ++
      [("display".toList, u.text)]) := by
    unfold hyperlinkAttrs; rw [hk]
  rw [e]
  unfold readLink
  simp only [if_true]
  by_cases h2 : u.toolTip = [] <;> simp [List.lookup, h2, readA1_cell, linkTarget]

theorem read_hyperlinkTrees (other : Nat → Nat → Bool) (m : LinkMap) (pre : List LinkRel)
    (h : ∀ k u, (k, u) ∈ m → u.linkType ≠ .unknown) :
    ((toNodes (hyperlinkTrees other (pre.length + 1) m).1).mapM
      (readLink (pre ++ (hyperlinkTrees other (pre.length + 1) m).2))) = some (m.map seenOf) := by
  induction m generalizing pre with
  | nil => rfl
  | cons p m ih =>
    obtain ⟨k, u⟩ := p
    have hu := h k u (by simp)
    have hm : ∀ k u, (k, u) ∈ m → u.linkType ≠ .unknown := fun k u hk => h k u (by simp [hk])
    by_cases hi : u.linkType = .internal
    · have e : hyperlinkTrees other (pre.length + 1) ((k, u) :: m) =
          (.empty "hyperlink".toList (hyperlinkAttrs (other (k / 16384) (k % 16384)) (k / 16384) (k % 16384) u) ::
            (hyperlinkTrees other (pre.length + 1) m).1, (hyperlinkTrees other (pre.length + 1) m).2) := by
        simp [hyperlinkTrees, Url.incrementRelId, hi, hyperlinkRel]
      rw [e]
      simp only [toNodes, Tree.toNode, List.mapM_cons, readLink_internal _ _ _ hi, ih pre hm, seenOf, hi,
        List.map_cons]
      rfl
    · have hk : u.linkType = .url ∨ u.linkType = .file := by
        cases hh : u.linkType <;> simp_all
      let v : Url := { u with relId := pre.length + 1 }
      have e : hyperlinkTrees other (pre.length + 1) ((k, u) :: m) =
          (.empty "hyperlink".toList (hyperlinkAttrs (other (k / 16384) (k % 16384)) (k / 16384) (k % 16384) v) ::
            (hyperlinkTrees other (pre.length + 2) m).1,
           ("hyperlink".toList, u.relationshipLink, "External".toList) ::
             (hyperlinkTrees other (pre.length + 2) m).2) := by
        rcases hk with hk | hk <;>
          simp [hyperlinkTrees, Url.incrementRelId, hk, hyperlinkRel, Url.targetMode, v]
      rw [e]
      have hrel : (pre ++ ("hyperlink".toList, u.relationshipLink, "External".toList) ::
          (hyperlinkTrees other (pre.length + 2) m).2)[pre.length]? =
          some ("hyperlink".toList, v.relationshipLink, "External".toList) := by
        rw [List.getElem?_append_right (Nat.le_refl _)]; simp [v]
      have hrd := readLink_external (u := v) (other (k / 16384) (k % 16384)) (k / 16384) (k % 16384)
        pre.length hk rfl hrel
      have ih' := ih (pre ++ [("hyperlink".toList, u.relationshipLink, "External".toList)]) hm
      rw [List.length_append, List.length_singleton, List.append_assoc] at ih'
      simp only [List.singleton_append] at ih'
      simp only [toNodes, Tree.toNode, List.mapM_cons, hrd, ih', seenOf, hi, List.map_cons]
      rfl

theorem attrSafe_mem {s : Str} : attrSafe s = true ↔ ∀ c ∈ s, attrSafe [c] = true := by
  simp [attrSafe]

theorem escapeOnce_safe {s : Str} (h : attrSafe s = true) : attrSafe (escapeOnce s) = true := by
  unfold escapeOnce
  split
  · rw [attrSafe_mem] at h ⊢
    rw [escapeUrl_eq]
    intro c hc
    obtain ⟨d, hd, he⟩ := List.mem_flatMap.mp hc
    rcases escU_cases d with ⟨x, y, dx, dy, e, _, _, _, _, _, _, _, _, _, h1, h2⟩ | ⟨e, _, _⟩
    · rw [e] at he
      simp at he
      rcases he with rfl | rfl | rfl
      · decide
      · exact h1
      · exact h2
    · rw [e] at he; simp at he; subst he; exact h _ hd
  · exact h

theorem hyperlinkAttrs_ok (other : Bool) (r c : Nat) {u : Url} (h1 : attrSafe u.anchor = true)
    (h2 : attrSafe u.toolTip = true) (h3 : attrSafe u.link = true) (h4 : attrSafe u.text = true) :
    attrsGood (hyperlinkAttrs other r c u) := by
  have hid : attrSafe ("rId".toList ++ showNat u.relId) = true := by
    have := showNat_attrSafe u.relId
    unfold attrSafe at this ⊢
    rw [List.all_append, this]; decide
  have hc := cell_attrSafe r c
  have n1 : isName "ref".toList = true := by decide
  have n2 : isName "location".toList = true := by decide
  have n3 : isName "tooltip".toList = true := by decide
  have n4 : isName "display".toList = true := by decide
  have n5 : isName "r:id".toList = true := by decide
  unfold hyperlinkAttrs attrsGood
  by_cases a1 : u.anchor = [] <;> by_cases a2 : u.toolTip = [] <;>
    by_cases a3 : (u.isObjectLink || other) = true <;> cases hk : u.linkType <;>
    simp only [a1, a2, a3, ne_eq, not_true_eq_false, not_false_eq_true, if_true, if_false, List.append_nil,
      List.nil_append, List.cons_append, List.mem_cons, List.not_mem_nil, or_false, forall_eq_or_imp, forall_eq,
      attrOk, Bool.and_eq_true, Bool.false_eq_true] <;>
    (refine ⟨?_, ?_⟩
     · simp only [n1, n2, n3, n4, n5, hid, hc, h1, h2, h3, h4, and_self]
       try (rw [a1] at h1; simp [h1])
     · simp only [List.map_cons, List.map_nil]; decide)


theorem keys_cellLt {a b : Nat} (h : a < b) : cellLt (a / 16384, a % 16384) (b / 16384, b % 16384) := by
  unfold cellLt; simp only; omega

theorem hyperlinkTrees_ok (other : Nat → Nat → Bool) (m : LinkMap) (n : Nat)
    (h : ∀ k u, (k, u) ∈ m → attrSafe u.anchor = true ∧ attrSafe u.toolTip = true ∧
      attrSafe u.link = true ∧ attrSafe u.text = true) :
    treesOk (hyperlinkTrees other n m).1 = true := by
  induction m generalizing n with
  | nil => rfl
  | cons p m ih =>
    obtain ⟨k, u⟩ := p
    obtain ⟨h1, h2, h3, h4⟩ := h k u (by simp)
    have hr : ∀ n, treesOk (hyperlinkTrees other n m).1 = true :=
      fun n => ih n fun k u hk => h k u (by simp [hk])
    have hf : (u.incrementRelId n).1.anchor = u.anchor ∧ (u.incrementRelId n).1.toolTip = u.toolTip ∧
        (u.incrementRelId n).1.link = u.link ∧ (u.incrementRelId n).1.text = u.text := by
      unfold Url.incrementRelId
      split <;> exact ⟨rfl, rfl, rfl, rfl⟩
    show (treeOk (.empty "hyperlink".toList (hyperlinkAttrs _ _ _ (u.incrementRelId n).1)) &&
      treesOk (hyperlinkTrees other (u.incrementRelId n).2 m).1) = true
    rw [hr, Bool.and_true]
    apply treeOk_empty (by decide)
    apply hyperlinkAttrs_ok
    · rw [hf.1]; exact h1
    · rw [hf.2.1]; exact h2
    · rw [hf.2.2.1]; exact h3
    · rw [hf.2.2.2]; exact h4

/-- C48 (and C29 for a whole sheet; partial: `file:` links in which the prefix `file://` occurs again are
excluded, and so are characters that an XML attribute cannot carry): for every sequence of `write_url`
calls, whatever else the cells hold, the `hyperlinks` element is well-formed, and a reader who resolves
its relationship ids finds exactly one link for every cell with an accepted call and no others, in
row by row order; it leads where the last accepted link string of the cell leads and has its tip. -/
theorem C48_links_read_back_partial (calls : List UrlCall)
    (hf : ∀ x ∈ calls, "file://".toList <+: x.link → filePrefixOnce x.link)
    (hs : ∀ x ∈ calls, attrSafe x.link = true ∧ attrSafe x.text = true ∧ attrSafe x.tip = true)
    (other : Nat → Nat → Bool) :
    ∃ kids seen,
      parseDoc (writePart (hyperlinksTree other (urlCalls calls))) =
        some (.elem "hyperlinks".toList [] kids) ∧
      kids.mapM (readLink (hyperlinkTrees other 1 (urlCalls calls)).2) = some seen ∧
      (seen.map LinkSeen.cell).Pairwise cellLt ∧
      (∀ l ∈ seen, ∃ x, linkAt calls l.cell.1 l.cell.2 = some x ∧ Shows x l) ∧
      ∀ r c x, c < 16384 → linkAt calls r c = some x → ∃ l ∈ seen, l.cell = (r, c) := by
  obtain ⟨i1, i2, i3⟩ := urlCalls_spec calls hf
  -- every stored link comes from a call
  have hfrom : ∀ k u, (k, u) ∈ urlCalls calls → ∃ x ∈ calls, x.row = k / 16384 ∧ x.col = k % 16384 ∧
      linkAt calls (k / 16384) (k % 16384) = some x ∧
      ∃ d, destOf x.link = some d ∧ LinkGood x.link x.text x.tip d u := by
    intro k u hk
    have hk' := (BMap.mem_iff_get i1 k u).mp hk
    have hst := i3 (k / 16384) (k % 16384) (Nat.mod_lt _ (by decide))
    have e : linkKey (k / 16384) (k % 16384) = k := by unfold linkKey; omega
    unfold Stored at hst
    rw [e, hk'] at hst
    split at hst
    · cases hst
    · rename_i x hx
      obtain ⟨h1, h2, h3, d, u', h4, h5, h6⟩ := hst
      cases h5
      exact ⟨x, h1, h2, h3, hx, d, h4, h6⟩
  have hkind : ∀ k u, (k, u) ∈ urlCalls calls → u.linkType ≠ .unknown := by
    intro k u hk
    obtain ⟨x, _, _, _, _, d, _, hg⟩ := hfrom k u hk
    have := hg.kind
    split at this
    · rw [this]; decide
    · rcases this.1 with h | h <;> rw [h] <;> decide
  have hsafe : ∀ k u, (k, u) ∈ urlCalls calls → attrSafe u.anchor = true ∧ attrSafe u.toolTip = true ∧
      attrSafe u.link = true ∧ attrSafe u.text = true := by
    intro k u hk
    obtain ⟨x, hx, _, _, _, d, _, hg⟩ := hfrom k u hk
    obtain ⟨s1, s2, s3⟩ := hs x hx
    have hch : ∀ c, c ∈ x.link ∨ c ∈ x.text → attrSafe [c] = true := by
      rintro c (hc | hc)
      · exact attrSafe_mem.mp s1 c hc
      · exact attrSafe_mem.mp s2 c hc
    refine ⟨attrSafe_mem.mpr fun c hc => hch c (hg.chars c (Or.inl hc)), by rw [hg.tip]; exact s3, ?_,
      attrSafe_mem.mpr fun c hc => hch c (hg.chars c (Or.inr hc))⟩
    obtain ⟨l, hl, hlc⟩ := hg.linkChars
    rw [hl]
    exact escapeOnce_safe (attrSafe_mem.mpr fun c hc => hch c (Or.inl (hlc c hc)))
  refine ⟨toNodes (hyperlinkTrees other 1 (urlCalls calls)).1, (urlCalls calls).map seenOf, ?_, ?_, ?_, ?_, ?_⟩
  · rw [C07_part_roundtrip]
    · rfl
    · show treeOk (.node _ _ _) = true
      simp only [treeOk, hyperlinkTrees_ok other _ 1 hsafe]
      decide
  · exact read_hyperlinkTrees other (urlCalls calls) [] hkind
  · rw [List.map_map, List.pairwise_map]
    exact i1.imp fun h => keys_cellLt h
  · intro l hl
    obtain ⟨⟨k, u⟩, hk, rfl⟩ := List.mem_map.mp hl
    obtain ⟨x, hx, hr, hc, hat, d, hd, hg⟩ := hfrom k u hk
    refine ⟨x, hat, ?_, hg.tip, d, hd, hg.anchor, ?_⟩
    · show (k / 16384, k % 16384) = _
      rw [hr, hc]
    · have hkd := hg.kind
      cases hres : d.resource with
      | none =>
        rw [hres] at hkd
        simp only at hkd
        simp [seenOf, hkd]
      | some r =>
        rw [hres] at hkd
        simp only at hkd
        have : u.linkType ≠ .internal := by rcases hkd.1 with h | h <;> rw [h] <;> decide
        simp only [seenOf, this, if_false]
        exact hkd.2
  · intro r c x hc hx
    have hst := i3 r c hc
    unfold Stored at hst
    rw [hx] at hst
    obtain ⟨_, _, _, d, u, _, hu, _⟩ := hst
    refine ⟨seenOf (linkKey r c, u), List.mem_map_of_mem ((BMap.mem_iff_get i1 _ _).mpr hu), ?_⟩
    show (linkKey r c / 16384, linkKey r c % 16384) = (r, c)
    rw [(linkKey_div hc).1, (linkKey_div hc).2]

/-- A web link with a place, a file in a Windows folder and a link inside the workbook. -/
def linkWitness : List UrlCall :=
  [{ row := 0, col := 0, link := "https://a.b/c d?e={1}#f g".toList, tip := "t".toList },
   { row := 5, col := 2, link := "file:///C:\\x y\\z.xlsx#S!A1".toList },
   { row := 5, col := 2, link := "internal:'S 1'!A1".toList, text := "go".toList }]

example : ∀ x ∈ linkWitness, filePrefixOnce x.link ∧ attrSafe x.link = true ∧
    attrSafe x.text = true ∧ attrSafe x.tip = true := by
  unfold filePrefixOnce
  decide +kernel

example : ∀ x ∈ linkWitness, x.Accepted := by
  intro x hx
  simp only [linkWitness, List.mem_cons, List.not_mem_nil, or_false] at hx
  rcases hx with rfl | rfl | rfl
  · refine ⟨by decide, by decide, by decide, _, rfl, ?_⟩; unfold withinLimits; decide +kernel
  · refine ⟨by decide, by decide, by decide, _, rfl, ?_⟩; unfold withinLimits; decide +kernel
  · refine ⟨by decide, by decide, by decide, _, rfl, ?_⟩; unfold withinLimits; decide +kernel

/-- C29 is false for the other forms of percent-escapes: a URL that the user has escaped with upper case
digits, or with escapes that are not in the library's list, is escaped again and leads elsewhere
(finding F75, /repo/src/url.rs:530-551). -/
theorem C29_escaped_twice_counterexample :
    (((Url.new "http://a/%5B".toList).initialize).map Url.relationshipLink) = some "http://a/%255B".toList ∧
    (((Url.new "http://a/%C3%A9".toList).initialize).map Url.relationshipLink) =
      some "http://a/%25C3%25A9".toList := by decide +kernel

/-- C29: a URL with one escape of the list and other characters that need one keeps these characters
(finding F75b, /repo/src/url.rs:470-478). -/
theorem C29_half_escaped_counterexample :
    (((Url.new "http://a/%20 <b>".toList).initialize).map Url.relationshipLink) =
      some "http://a/%20 <b>".toList := by decide +kernel

/-- C29 without the condition on the prefix: an inner `file://` is removed from the path (finding F76,
/repo/src/url.rs:429-430). -/
theorem C29_file_prefix_counterexample :
    (((Url.new "file:///a/file://b".toList).initialize).map Url.relationshipLink) =
      some "a/b".toList := by decide +kernel

/-! ### Links of images and shapes -/

/-- C29, images: the target of a web link on an image is the whole link with its place. -/
theorem C29_image_web (link text tip : Str)
    (hw : ∃ p ∈ ["http://", "https://", "ftp://", "ftps://"], p.toList <+: link)
    (u : Url) (hu : (callUrl link text tip).forImage = some u) : leadsTo u.relationshipLink link := by
  unfold Url.forImage at hu
  let v : Url := { callUrl link text tip with isObjectLink := true }
  have hp : v.parseUrl = some v.parseWeb := by
    unfold Url.parseUrl
    rw [show v.link = link from rfl, if_pos ((web_iff link).mpr hw)]
  let w := { v with linkType := .url }.defaultText v.link
  have f := splitAnchor_fields w
  have hrel : v.parseWeb.relationshipLink = link := by
    show (if w.splitAnchor.isObjectLink then w.splitAnchor.originalUrl else w.splitAnchor.link) = _
    rw [f.2.2.2.2, if_pos (show w.isObjectLink = true from rfl), f.2.1]; rfl
  have hk : v.parseWeb.linkType = .url := f.1
  change v.initialize = some u at hu
  unfold Url.initialize at hu
  rw [hp] at hu
  simp only at hu
  split at hu
  · cases hu
  · split at hu
    · cases hu
    · cases hu
      show leadsTo (if v.parseWeb.linkType = .file then _ else _) link
      rw [hk]
      simp only [reduceCtorEq, if_false, ne_eq, not_false_eq_true, if_true, hrel]
      exact leadsTo_escapeOnce link

example : ((callUrl "https://a/b c#d".toList [] []).forImage).map Url.relationshipLink =
    some "https://a/b%20c#d".toList := by decide +kernel

/-- A link of an image to a place in a file with a relative path loses the place (finding F77,
/repo/src/url.rs:451-453), and a link of a shape always does, because `Shape::set_url` does not mark the
link as one of an object (finding F78, /repo/src/shape.rs:561-568). -/
theorem C29_object_place_counterexample :
    ((Url.new "file:///a.xlsx#S!A1".toList).forImage).map Url.relationshipLink = some "a.xlsx".toList ∧
    ((Url.new "https://a/#b".toList).initialize).map Url.relationshipLink = some "https://a/".toList := by
  decide +kernel


theorem takeWhile_hash_self {s : Str} (h : '#' ∉ s) : s.takeWhile (· ≠ '#') = s := by
  induction s with
  | nil => rfl
  | cons c s ih =>
    have hc : c ≠ '#' := fun e => h (e ▸ List.mem_cons_self)
    rw [List.takeWhile_cons, if_pos (by simpa using hc), ih fun hx => h (List.mem_cons_of_mem _ hx)]

/-- The forward-slash form of a path. -/
def slashed (s : Str) : Str := s.map fun c => if c = '\\' then '/' else c

theorem object_finish {v w u : Url} (hp : v.parseUrl = some w) (hu : v.initialize = some u) :
    u = w.escapeStrings := by
  unfold Url.initialize at hu
  rw [hp] at hu
  simp only at hu
  split at hu
  · cases hu
  · split at hu
    · cases hu
    · cases hu; rfl

/-- C29, images: the target of a `file:` link on an image. A relative path is written without the prefix and
with forward slashes, an absolute one is the whole link. Missing: the place (F77). -/
theorem C29_image_file_partial (link text tip : Str) (hw : "file://".toList <+: link) (h1 : filePrefixOnce link)
    (u : Url) (hu : (callUrl link text tip).forImage = some u) :
    (absolutePath (pathOf link) = false → '#' ∉ pathOf link →
      leadsTo u.relationshipLink (slashed (pathOf link))) ∧
    (absolutePath (pathOf link) = true → '#' ∉ link → leadsTo u.relationshipLink link) := by
  let v : Url := { callUrl link text tip with isObjectLink := true }
  have hno : ¬ webPrefixes.any (fun p => startsWith p link) = true := by
    intro h
    obtain ⟨p, hp, h⟩ := (web_iff link).mp h
    obtain ⟨t, rfl⟩ := hw
    obtain ⟨t', h⟩ := h
    simp only [List.mem_cons, List.not_mem_nil, or_false] at hp
    rcases hp with rfl | rfl | rfl | rfl <;> · have := congrArg (List.take 2) h; revert this; simp
  have hm : ¬ startsWith "mailto:".toList link = true := by
    rw [startsWith_iff]
    rintro ⟨t', h⟩
    obtain ⟨t, rfl⟩ := hw
    have := congrArg (List.take 1) h; revert this; simp
  have hi : ¬ startsWith "internal:".toList link = true := by
    rw [startsWith_iff]
    rintro ⟨t', h⟩
    obtain ⟨t, rfl⟩ := hw
    have := congrArg (List.take 1) h; revert this; simp
  have hp : v.parseUrl = some v.parseFile := by
    unfold Url.parseUrl
    rw [show v.link = link from rfl, if_neg hno, if_neg hm, if_neg hi, if_pos ((startsWith_iff _ _).mpr hw)]
  have hfin := object_finish hp (show v.initialize = some u from hu)
  have hpath : filePath v.link = pathOf link := filePath_eq hw h1
  have hrelp : relativePath (filePath v.link) = !absolutePath (pathOf link) := by rw [hpath, relativePath_eq]
  let w : Url := ({ v with linkType := LinkType.file, link := if relativePath (filePath v.link) then filePath v.link else v.link } : Url).defaultText (filePath v.link)
  have f := splitAnchor_fields w
  have hl := splitAnchor_link w
  have hty : v.parseFile.linkType = .file := f.1
  have hrl : v.parseFile.relationshipLink =
      if absolutePath (pathOf link) = true then link else slashed ((pathOf link).takeWhile (· ≠ '#')) := by
    show (if w.splitAnchor.isObjectLink then
      (if relativePath (filePath v.link) then replaceBackslash w.splitAnchor.link else w.splitAnchor.originalUrl)
      else w.splitAnchor.link) = _
    rw [f.2.2.2.2, if_pos (show w.isObjectLink = true from rfl), f.2.1, hl, hrelp]
    cases ha : absolutePath (pathOf link) with
    | true => rfl
    | false =>
      have : w.link = pathOf link := by
        show (if relativePath (filePath v.link) then filePath v.link else v.link) = _
        rw [hrelp, ha, hpath]; rfl
      rw [this]; rfl
  have hout : u.relationshipLink = replaceHash (escapeOnce v.parseFile.relationshipLink) := by
    rw [hfin]
    show (if v.parseFile.linkType = .file then _ else _) = _
    rw [hty]
    simp only [reduceCtorEq, if_true, ne_eq, not_false_eq_true]
  constructor
  · intro ha hh
    rw [hout, hrl, ha, if_neg (by simp)]
    have ht : (pathOf link).takeWhile (· ≠ '#') = pathOf link := takeWhile_hash_self hh
    rw [ht]
    have hs : '#' ∉ slashed (pathOf link) := by
      unfold slashed
      rw [List.mem_map]
      rintro ⟨c, hc, he⟩
      split at he
      · exact absurd he (by decide)
      · subst he; exact hh hc
    rw [replaceHash_none (escapeOnce_hash hs)]
    exact leadsTo_escapeOnce _
  · intro ha hh
    rw [hout, hrl, if_pos ha, replaceHash_none (escapeOnce_hash hh)]
    exact leadsTo_escapeOnce _

example : ((callUrl "file:///a\\b c.xlsx".toList [] []).forImage).map Url.relationshipLink =
      some "a/b%20c.xlsx".toList ∧
    ((callUrl "file:///c:\\b c.xlsx".toList [] []).forImage).map Url.relationshipLink =
      some "file:///c:\\b%20c.xlsx".toList := by decide +kernel

end Verif
