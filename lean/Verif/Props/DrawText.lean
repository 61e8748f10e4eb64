import Verif.Props.DrawFill
/-!
C72, second part: the text of shapes in a drawing part.
-/
namespace Verif
open Spec

/-! ### Attributes that are written under a condition -/

theorem pIf_ne {k n : Str} {b : Prop} [Decidable b] (h : k ≠ n) (v : Str) (r : Attrs) :
    ((if b then [(n, v)] else []) ++ r).lookup k = r.lookup k := by
  split
  · exact look_ne h v r
  · rfl

theorem pIf_eq {b : Prop} [Decidable b] (n v : Str) (r : Attrs) :
    ((if b then [(n, v)] else []) ++ r).lookup n = if b then some v else r.lookup n := by
  split
  · exact look_eq n v r
  · rfl

theorem pIf_ne' {k n : Str} {b : Prop} [Decidable b] (h : k ≠ n) (v : Str) :
    ((if b then [(n, v)] else []) : Attrs).lookup k = none := by
  split
  · exact look_ne h v []
  · rfl

theorem pIf_eq' {b : Prop} [Decidable b] (n v : Str) :
    ((if b then [(n, v)] else []) : Attrs).lookup n = if b then some v else none := by
  split
  · exact look_eq n v []
  · rfl

theorem pIf_good {b : Prop} [Decidable b] {n v : Str} {r : Attrs} (hn : isName n = true) (hv : attrSafe v = true)
    (hk : n ∉ r.map Prod.fst) (h : attrsGood r) : attrsGood ((if b then [(n, v)] else []) ++ r) := by
  split
  · exact attrsGood_cons (attrOk_of hn hv) h hk
  · exact h

theorem pIf_good' {b : Prop} [Decidable b] {n v : Str} (hn : isName n = true) (hv : attrSafe v = true) :
    attrsGood (if b then [(n, v)] else []) := by
  split
  · exact attrsGood_one hn hv
  · exact attrsGood_nil

theorem pIf_names {b : Prop} [Decidable b] {k n v : Str} {r : Attrs} (hk : k ≠ n) (h : k ∉ r.map Prod.fst) :
    k ∉ ((if b then [(n, v)] else []) ++ r).map Prod.fst := by
  split
  · simp only [List.singleton_append, List.map_cons, List.mem_cons, not_or]
    exact ⟨hk, h⟩
  · exact h

theorem pIf_names' {b : Prop} [Decidable b] {k n v : Str} (hk : k ≠ n) :
    k ∉ ((if b then [(n, v)] else []) : Attrs).map Prod.fst := by
  split
  · simpa using hk
  · simp

/-! ### Fonts -/

theorem fontAttrs_good (f : ShapeFont) : attrsGood f.attrs := by
  unfold ShapeFont.attrs
  refine attrsGood_cons (attrOk_of (by decide +kernel) (by decide +kernel)) ?_ ?_
  · refine pIf_good (by decide +kernel) (showNat_attrSafe _) ?_ (pIf_good (by decide +kernel) (by decide +kernel) ?_
      (pIf_good (by decide +kernel) (by decide +kernel) ?_ (pIf_good' (by decide +kernel) (by decide +kernel))))
    · exact pIf_names (by decide) (pIf_names (by decide) (pIf_names' (by decide)))
    · exact pIf_names (by decide) (pIf_names' (by decide))
    · exact pIf_names' (by decide)
  · exact pIf_names (by decide) (pIf_names (by decide) (pIf_names (by decide) (pIf_names' (by decide))))

theorem latinAttrs_good {f : ShapeFont} (h : attrSafe f.name = true) : attrsGood f.latinAttrs := by
  unfold ShapeFont.latinAttrs
  refine pIf_good (by decide +kernel) h ?_ (pIf_good (by decide +kernel) (showNat_attrSafe _) ?_
    (pIf_good' (by decide +kernel) (showNat_attrSafe _)))
  · exact pIf_names (by decide) (pIf_names' (by decide))
  · exact pIf_names' (by decide)

/-- What is written in a font element. -/
def ShapeFont.kids (f : ShapeFont) : List Tree :=
  (if f.color.isAutoOrDefault then [] else [solidTree f.color 0]) ++
    (if f.isLatin then [.empty "a:latin".toList f.latinAttrs, .empty "a:cs".toList f.latinAttrs] else [])

theorem font_parts (f : ShapeFont) (t : Str) : treeParts (f.tree t) = (f.attrs, toNodes f.kids) := by
  unfold ShapeFont.tree ShapeFont.kids
  by_cases h : (f.isLatin || !f.color.isAutoOrDefault) = true
  · rw [if_pos h]; rfl
  · rw [if_neg h]
    have h1 : f.isLatin = false := by cases e : f.isLatin <;> simp_all
    have h2 : f.color.isAutoOrDefault = true := by cases e : f.color.isAutoOrDefault <;> simp_all
    rw [h1, h2]; rfl

theorem font_tag (f : ShapeFont) (t : Str) : treeTag (f.tree t) = t := by
  unfold ShapeFont.tree
  split <;> rfl

theorem textFont_ok {f : ShapeFont} {t : Str} (ht : isName t = true) (hc : f.color.isValid = true)
    (hn : attrSafe f.name = true) : treeOk (f.tree t) = true := by
  unfold ShapeFont.tree
  split
  · refine treeOk_node ht (fontAttrs_good f) (ok_append ?_ ?_)
    · split
      · exact ok_nil
      · exact ok_single (solidTree_ok hc 0)
    · split
      · exact ok_cons (treeOk_empty (by decide +kernel) (latinAttrs_good hn))
          (ok_single (treeOk_empty (by decide +kernel) (latinAttrs_good hn)))
      · exact ok_nil
  · exact treeOk_empty ht (fontAttrs_good f)

theorem font_solid (f : ShapeFont) (hc : f.color.isValid = true) :
    readColourChild "a:solidFill".toList (toNodes f.kids) =
      some (if f.color = .default ∨ f.color = .automatic then none else some (drawColour f.color 0)) := by
  unfold readColourChild ShapeFont.kids
  by_cases h : f.color.isAutoOrDefault = true
  · have h' : f.color = .default ∨ f.color = .automatic := by
      simp only [Color.isAutoOrDefault, Bool.or_eq_true, decide_eq_true_eq] at h
      exact h.symm
    rw [if_pos h, if_pos h', List.nil_append]
    cases f.isLatin <;> rfl
  · have h' : ¬ (f.color = .default ∨ f.color = .automatic) := by
      simp only [Color.isAutoOrDefault, Bool.or_eq_true, decide_eq_true_eq] at h
      exact fun e => h e.symm
    rw [if_neg h, if_neg h', List.singleton_append, child_head (t := "a:solidFill".toList) _ _ rfl]
    show (readDrawColour (toNodes (colorTrees f.color 0))).map some = _
    rw [read_colour hc]; rfl

theorem font_latin (f : ShapeFont) : attrsOf "a:latin".toList (toNodes f.kids) = if f.isLatin then f.latinAttrs else [] := by
  have e : ∀ b : Bool, attrsOf "a:latin".toList (toNodes (if b then [.empty "a:latin".toList f.latinAttrs, .empty "a:cs".toList f.latinAttrs]
      else [])) = if b then f.latinAttrs else [] := by
    intro b
    cases b
    · rfl
    · unfold attrsOf
      rw [if_pos rfl, child_head (t := "a:latin".toList) _ _ rfl]; rfl
  unfold ShapeFont.kids
  by_cases h : f.color.isAutoOrDefault = true
  · rw [if_pos h, List.nil_append]; exact e _
  · rw [if_neg h, List.singleton_append]
    rw [← e f.isLatin]
    unfold attrsOf
    rw [child_skip (solidTree f.color 0) _ (by show "a:solidFill".toList ≠ _; decide)]

theorem latin_face (f : ShapeFont) : ((if f.isLatin then f.latinAttrs else []).lookup "typeface".toList).getD [] = f.name := by
  cases h : f.isLatin with
  | true =>
    rw [if_pos rfl]
    unfold ShapeFont.latinAttrs
    rw [pIf_eq]
    split
    · rfl
    · rename_i hn
      rw [pIf_ne (by decide), pIf_ne' (by decide)]
      have : f.name = [] := Classical.byContradiction hn
      rw [this]; rfl
  | false =>
    simp only [ShapeFont.isLatin, Bool.or_eq_false_iff, decide_eq_false_iff_not] at h
    have : f.name = [] := by
      have := h.1.1
      simpa using this
    rw [this]; rfl

theorem latin_pitch (f : ShapeFont) : attrNatD "pitchFamily".toList 0 (if f.isLatin then f.latinAttrs else []) =
    some f.pitchFamily := by
  unfold attrNatD
  cases h : f.isLatin with
  | true =>
    rw [if_pos rfl]
    unfold ShapeFont.latinAttrs
    rw [pIf_ne (by decide), pIf_eq]
    by_cases hp : f.pitchFamily > 0
    · rw [if_pos hp]
      dsimp only
      rw [readNat_showNat]
    · rw [if_neg hp, pIf_ne' (by decide)]
      have : f.pitchFamily = 0 := by omega
      rw [this]
  | false =>
    simp only [ShapeFont.isLatin, Bool.or_eq_false_iff, decide_eq_false_iff_not] at h
    have : f.pitchFamily = 0 := by omega
    rw [this]; rfl

theorem latin_charset (f : ShapeFont) : attrNatD "charset".toList 0 (if f.isLatin then f.latinAttrs else []) =
    some f.characterSet := by
  unfold attrNatD
  cases h : f.isLatin with
  | true =>
    rw [if_pos rfl]
    unfold ShapeFont.latinAttrs
    rw [pIf_ne (by decide), pIf_ne (by decide), pIf_eq']
    by_cases hp : f.characterSet > 0 ∨ f.pitchFamily > 0
    · rw [if_pos hp]
      dsimp only
      rw [readNat_showNat]
    · rw [if_neg hp]
      have : f.characterSet = 0 := by omega
      rw [this]
  | false =>
    simp only [ShapeFont.isLatin, Bool.or_eq_false_iff, decide_eq_false_iff_not] at h
    have : f.characterSet = 0 := by omega
    rw [this]; rfl

theorem font_attr_b (f : ShapeFont) : f.attrs.lookup "b".toList = if f.bold then some "1".toList else none := by
  unfold ShapeFont.attrs
  rw [List.singleton_append, look_ne (by decide), pIf_ne (by decide), pIf_eq, pIf_ne (by decide), pIf_ne' (by decide)]

theorem font_attr_i (f : ShapeFont) : f.attrs.lookup "i".toList = if f.italic then some "1".toList else none := by
  unfold ShapeFont.attrs
  rw [List.singleton_append, look_ne (by decide), pIf_ne (by decide), pIf_ne (by decide), pIf_eq, pIf_ne' (by decide)]

theorem font_attr_u (f : ShapeFont) : f.attrs.lookup "u".toList = if f.underline then some "sng".toList else none := by
  unfold ShapeFont.attrs
  rw [List.singleton_append, look_ne (by decide), pIf_ne (by decide), pIf_ne (by decide), pIf_ne (by decide), pIf_eq']

theorem font_attr_sz (f : ShapeFont) : f.attrs.lookup "sz".toList = if f.size > 0 then some (showNat f.size) else none := by
  unfold ShapeFont.attrs
  rw [List.singleton_append, look_ne (by decide), pIf_eq, pIf_ne (by decide), pIf_ne (by decide), pIf_ne' (by decide)]

theorem font_attr_strike (f : ShapeFont) : f.attrs.lookup "strike".toList = none := by
  unfold ShapeFont.attrs
  rw [List.singleton_append, look_ne (by decide), pIf_ne (by decide), pIf_ne (by decide), pIf_ne (by decide), pIf_ne' (by decide)]

theorem flag_beq (b : Bool) (v : Text) : ((if b then some v else none) == some v) = b := by
  cases b
  · rfl
  · simp

/-- A font reads back, apart from strikethrough. -/
theorem read_textFont {f : ShapeFont} (t : Str) (hc : f.color.isValid = true) :
    readTextFont (treeParts (f.tree t)) = some { runFontMeant f with strike := false } := by
  have hsz : attrNat? "sz".toList f.attrs = some (if f.size = 0 then none else some f.size) := by
    unfold attrNat?
    rw [font_attr_sz]
    by_cases h : f.size > 0
    · rw [if_pos h, if_neg (by omega)]
      dsimp only
      rw [readNat_showNat]; rfl
    · rw [if_neg h, if_pos (by omega)]
  rw [font_parts]
  unfold readTextFont
  dsimp only
  rw [hsz, font_solid f hc, font_latin, latin_pitch, latin_charset, font_attr_b, font_attr_i, font_attr_u,
    font_attr_strike, latin_face]
  dsimp only
  rw [flag_beq, flag_beq, flag_beq]
  rfl

/-! ### Lines of a text -/

theorem dropCr_id {l : Str} (h : '\r' ∉ l) : dropCr l = l := by
  unfold dropCr
  rw [if_neg]
  intro e
  exact h (List.mem_of_getLast? e)

theorem lines_eq (s : Str) : ∀ acc : Str, '\r' ∉ acc → '\r' ∉ s → (s = [] → acc ≠ []) → s.getLast? ≠ some '\n' →
    rustLinesFrom acc s = textLinesFrom acc s := by
  induction s with
  | nil =>
    intro acc _ _ h _
    unfold rustLinesFrom textLinesFrom
    rw [if_neg (h rfl)]
  | cons c s ih =>
    intro acc h1 h2 h3 h4
    have h2' := h2
    rw [List.mem_cons, not_or] at h2'
    unfold rustLinesFrom textLinesFrom
    by_cases hc : c = '\n'
    · rw [if_pos hc, if_pos hc, dropCr_id h1]
      have hs : s ≠ [] := by
        intro e; subst e hc; exact h4 rfl
      congr 1
      refine ih [] (by simp) h2'.2 (fun e => absurd e hs) ?_
      cases s with
      | nil => exact absurd rfl hs
      | cons d s => simpa [List.getLast?_cons_cons] using h4
    · rw [if_neg hc, if_neg hc]
      refine ih (acc ++ [c]) ?_ h2'.2 (fun _ => by simp) ?_
      · simp only [List.mem_append, List.mem_singleton, not_or]
        exact ⟨h1, h2'.1⟩
      · cases s with
        | nil => simp
        | cons d s => simpa [List.getLast?_cons_cons] using h4

theorem no_cr {s : Str} (h : textSafe s = true) : '\r' ∉ s := by
  intro e
  have := List.all_eq_true.mp h _ e
  revert this; decide

/-- The lines that are written are those of the text. -/
theorem shape_lines {s : Shape} (h : textSafe s.text = true) (hn : s.text.getLast? ≠ some '\n') :
    s.lines = textLines s.text := by
  unfold Shape.lines rustLines textLines
  by_cases e : s.text = []
  · rw [if_pos e, e]; decide
  · rw [if_neg e]
    exact lines_eq _ [] (by simp) (no_cr h) (fun h' => absurd h' e) hn

theorem textLinesFrom_chars (s : Str) : ∀ (acc : Str) (l : Str), l ∈ textLinesFrom acc s → ∀ c ∈ l, c ∈ acc ∨ c ∈ s := by
  induction s with
  | nil =>
    intro acc l hl c hc
    unfold textLinesFrom at hl
    rw [List.mem_singleton.mp hl] at hc
    exact Or.inl hc
  | cons d s ih =>
    intro acc l hl c hc
    unfold textLinesFrom at hl
    split at hl
    · rcases List.mem_cons.mp hl with e | hl
      · rw [e] at hc; exact Or.inl hc
      · rcases ih [] l hl c hc with h | h
        · cases h
        · exact Or.inr (List.mem_cons_of_mem _ h)
    · rcases ih _ l hl c hc with h | h
      · rcases List.mem_append.mp h with h | h
        · exact Or.inl h
        · rw [List.mem_singleton.mp h]; exact Or.inr List.mem_cons_self
      · exact Or.inr (List.mem_cons_of_mem _ h)

theorem lines_safe {s : Str} (h : textSafe s = true) : ∀ l ∈ textLines s, textSafe l = true := by
  intro l hl
  refine List.all_eq_true.mpr fun c hc => ?_
  rcases textLinesFrom_chars s [] l hl c hc with h' | h'
  · cases h'
  · exact List.all_eq_true.mp h c h'

/-! ### Paragraphs -/

theorem halign_ok (a : HAlign) : ∀ k ∈ a.trees, treeOk k = true := by
  cases a
  · exact ok_nil
  all_goals exact ok_single (by decide +kernel)

theorem fldAttrs_good : attrsGood Shape.runs.fldAttrs := ⟨by decide +kernel, by decide +kernel⟩

theorem paragraph_ok {s : Shape} {l : Str} (hl : textSafe l = true) (hc : s.font.color.isValid = true)
    (hn : attrSafe s.font.name = true) : treeOk (s.paragraph l) = true := by
  have hf : ∀ t, isName t = true → treeOk (s.font.tree t) = true := fun t ht => textFont_ok ht hc hn
  have ht : ∀ d : Str, textSafe d = true → treeOk (.data "a:t".toList d []) = true :=
    fun d hd => textSafe_data (by decide +kernel) attrsGood_nil hd
  unfold Shape.paragraph
  refine treeOk_node (by decide +kernel) attrsGood_nil (ok_append (halign_ok _) ?_)
  unfold Shape.runs
  split
  · split
    · refine ok_cons (treeOk_node (by decide +kernel) fldAttrs_good ?_) (ok_single (hf _ (by decide +kernel)))
      exact ok_cons (hf _ (by decide +kernel)) (ok_single (ht _ (by decide +kernel)))
    · refine ok_cons (treeOk_node (by decide +kernel) fldAttrs_good ?_) (ok_single (hf _ (by decide +kernel)))
      exact ok_cons (hf _ (by decide +kernel)) (ok_cons (by decide +kernel) (ok_single (ht _ hl)))
  · split
    · exact ok_single (hf _ (by decide +kernel))
    · refine ok_single (treeOk_node (by decide +kernel) attrsGood_nil ?_)
      exact ok_cons (hf _ (by decide +kernel)) (ok_single (ht _ hl))

/-- A run. -/
theorem read_run {s : Shape} (hc : s.font.color.isValid = true) {d : Str} (hd : textSafe d = true) (r : List Tree)
    (hr : child "a:t".toList (toNodes r) = some (treeParts (.data "a:t".toList d []))) :
    readTextRun (toNodes (s.font.tree "a:rPr".toList :: r)) = some (d, { runFontMeant s.font with strike := false }) := by
  unfold readTextRun
  rw [child_head (t := "a:rPr".toList) _ _ (font_tag _ _), child_skip _ _ (by rw [font_tag]; decide), hr,
    Option.bind_some, Option.bind_some, read_textFont _ hc, data_reads hd]

/-- The alignment of a paragraph. -/
theorem halign_attrs (a : HAlign) (r : List Tree) (hr : child "a:pPr".toList (toNodes r) = none) :
    (attrsOf "a:pPr".toList (toNodes (a.trees ++ r))).lookup "algn".toList = hAlignName a ∧
    (attrsOf "a:pPr".toList (toNodes (a.trees ++ r))).lookup "rtl".toList = none := by
  have e : attrsOf "a:pPr".toList (toNodes r) = [] := by unfold attrsOf; rw [hr]; rfl
  cases a with
  | default => show (attrsOf _ (toNodes r)).lookup _ = _ ∧ (attrsOf _ (toNodes r)).lookup _ = _; rw [e]; exact ⟨rfl, rfl⟩
  | _ =>
    unfold attrsOf HAlign.trees
    rw [List.singleton_append, child_head (t := "a:pPr".toList) _ _ rfl]
    exact ⟨rfl, rfl⟩

theorem halign_skip (a : HAlign) (r : List Tree) {t : Text} (h : "a:pPr".toList ≠ t) :
    child t (toNodes (a.trees ++ r)) = child t (toNodes r) := by
  cases a with
  | default => rfl
  | _ => exact child_skip _ _ h

/-- The paragraph of a line. -/
def paraOf (s : Shape) (l : Str) : ParaSeen :=
  { align := hAlignName s.halign, rightToLeft := false
    text := if s.link.isSome ∧ l = [] then " ".toList else l, linked := s.link.isSome
    font := { runFontMeant s.font with strike := false } }

theorem runs_noPPr (s : Shape) (l : Str) : child "a:pPr".toList (toNodes (s.runs l)) = none := by
  apply child_absent
  unfold Shape.runs
  have hf : ∀ t : Str, t ≠ "a:pPr".toList → treeTag (s.font.tree t) ≠ "a:pPr".toList := fun t h => by rw [font_tag]; exact h
  split
  · split
    · intro x hx
      rcases List.mem_cons.mp hx with e | hx
      · rw [e]; show "a:fld".toList ≠ _; decide
      · rw [List.mem_singleton.mp hx]; exact hf _ (by decide)
    · intro x hx
      rcases List.mem_cons.mp hx with e | hx
      · rw [e]; show "a:fld".toList ≠ _; decide
      · rw [List.mem_singleton.mp hx]; exact hf _ (by decide)
  · split
    · intro x hx; rw [List.mem_singleton.mp hx]; exact hf _ (by decide)
    · intro x hx; rw [List.mem_singleton.mp hx]; show "a:r".toList ≠ _; decide

theorem read_para {s : Shape} {l : Str} (hl : textSafe l = true) (hc : s.font.color.isValid = true) :
    readPara (treeParts (s.paragraph l)) = some (paraOf s l) := by
  obtain ⟨ha, hr⟩ := halign_attrs s.halign (s.runs l) (runs_noPPr s l)
  have hb : ∀ d : Str, textSafe d = true → child "a:t".toList (toNodes [.data "a:t".toList d []]) =
      some (treeParts (.data "a:t".toList d [])) := fun d _ => child_head (t := "a:t".toList) _ _ rfl
  unfold readPara Shape.paragraph
  simp only [treeParts]
  rw [ha, hr, halign_skip _ _ (by decide), halign_skip _ _ (by decide), halign_skip _ _ (by decide)]
  unfold Shape.runs paraOf
  cases s.link with
  | some f =>
    dsimp only
    by_cases e : l = []
    · rw [if_pos e, if_pos ⟨rfl, e⟩, child_skip (.node "a:fld".toList _ _) _ (by decide : "a:fld".toList ≠ _),
        child_skip (s.font.tree _) _ (by rw [font_tag]; decide), child_nil]
      dsimp only
      rw [child_head (t := "a:fld".toList) _ _ rfl]
      simp only [treeParts]
      rw [read_run hc (d := " ".toList) (by decide +kernel) _ (hb _ (by decide +kernel))]
      rfl
    · rw [if_neg e, if_neg (fun h => e h.2), child_skip (.node "a:fld".toList _ _) _ (by decide : "a:fld".toList ≠ _),
        child_skip (s.font.tree _) _ (by rw [font_tag]; decide), child_nil]
      dsimp only
      rw [child_head (t := "a:fld".toList) _ _ rfl]
      simp only [treeParts]
      rw [read_run hc hl _ (by
        rw [child_skip (.empty "a:pPr".toList []) _ (by decide : "a:pPr".toList ≠ _)]
        exact hb _ hl)]
      rfl
  | none =>
    dsimp only
    by_cases e : l = []
    · rw [if_pos e, if_neg (by simp), child_skip (s.font.tree _) _ (by rw [font_tag]; decide), child_nil]
      dsimp only
      rw [child_skip (s.font.tree _) _ (by rw [font_tag]; decide), child_nil]
      dsimp only
      rw [child_head (t := "a:endParaRPr".toList) _ _ (font_tag _ _), Option.bind_some, read_textFont _ hc, e]
      rfl
    · rw [if_neg e, if_neg (by simp), child_head (t := "a:r".toList) _ _ rfl]
      simp only [treeParts]
      rw [read_run hc hl _ (hb _ hl)]
      rfl

/-! ### Text boxes -/

/-- The parts of `shapeOk`. -/
structure ShapeGood (s : Shape) : Prop where
  text : textSafe s.text = true
  last : s.text.getLast? ≠ some '\n'
  link : attrSafe (s.link.getD []) = true
  format : formatOk s.format = true
  color : s.font.color.isValid = true
  name : attrSafe s.font.name = true
  strike : s.font.strikethrough = false
  rtl : s.font.rightToLeft ≠ some true

theorem shapeGood_of {s : Shape} (h : shapeOk s = true) : ShapeGood s := by
  unfold shapeOk at h
  simp only [Bool.and_eq_true, decide_eq_true_eq, Bool.not_eq_true'] at h
  obtain ⟨⟨⟨⟨⟨⟨⟨h1, h2⟩, h3⟩, h4⟩, h5⟩, h6⟩, h7⟩, h8⟩ := h
  exact ⟨h1, h2, h3, h4, h5, h6, h7, h8⟩

theorem paraOf_meant {s : Shape} (h : ShapeGood s) : (textLines s.text).map (paraOf s) = parasMeant s := by
  unfold parasMeant
  apply List.map_congr_left
  intro l _
  unfold paraOf
  have : (s.font.rightToLeft == some true) = false := by
    cases e : s.font.rightToLeft == some true with
    | false => rfl
    | true => exact absurd (by simpa using e) h.rtl
  have hs : { runFontMeant s.font with strike := false } = runFontMeant s.font := by
    have := h.strike
    unfold runFontMeant
    rw [this]
  rw [this, hs]

theorem body_attrs (s : Shape) : attrsGood s.bodyAttrs ∧
    (s.bodyAttrs.lookup "vert".toList).getD "horz".toList = directionName s.direction ∧
    ((s.bodyAttrs.lookup "anchor".toList).getD "t".toList, s.bodyAttrs.lookup "anchorCtr".toList == some "1".toList) =
      vAlignName s.valign := by
  unfold Shape.bodyAttrs
  cases s.direction <;> cases s.valign <;> exact ⟨⟨by decide +kernel, by decide +kernel⟩, by decide +kernel, by decide +kernel⟩

theorem body_ok {s : Shape} (h : ShapeGood s) : treeOk s.bodyTree = true := by
  unfold Shape.bodyTree
  refine treeOk_node (by decide +kernel) attrsGood_nil (ok_cons (treeOk_empty (by decide +kernel) (body_attrs s).1)
    (ok_cons (by decide +kernel) fun k hk => ?_))
  obtain ⟨l, hl, e⟩ := List.mem_map.mp hk
  rw [shape_lines h.text h.last] at hl
  rw [← e]
  exact paragraph_ok (lines_safe h.text l hl) h.color h.name

theorem body_paras {s : Shape} (h : ShapeGood s) :
    (elems "a:p".toList (treeParts s.bodyTree).2).mapM readPara = some (parasMeant s) := by
  unfold Shape.bodyTree
  simp only [treeParts]
  rw [elems_cons_ne _ (by show "a:bodyPr".toList ≠ _; decide), elems_cons_ne _ (by decide), elems_trees,
    List.filter_eq_self.mpr (fun x hx => by
      obtain ⟨l, _, e⟩ := List.mem_map.mp hx
      rw [← e]; rfl), List.map_map, mapM_map, shape_lines h.text h.last, ← paraOf_meant h]
  exact mapM_some_of_forall fun l hl => read_para (lines_safe h.text l hl) h.color

theorem xfrm_tag (d : DrawInfo) : treeTag d.xfrmTree = "a:xfrm".toList := rfl

/-- The format of a shape, behind its position and geometry. -/
theorem format_read {f : ShapeFormat} (h : formatOk f = true) (d : DrawInfo) :
    readFill2 (toNodes [d.xfrmTree, prstGeomTree, shapeFillTree f, outlineTree f]) = some (shapeFillMeant f) ∧
    ∃ o, readOutline (toNodes [d.xfrmTree, prstGeomTree, shapeFillTree f, outlineTree f]) = some o ∧ OutlineMeant f o := by
  have hs : ∀ (t : Text) (r : List Tree), "a:xfrm".toList ≠ t → "a:prstGeom".toList ≠ t →
      child t (toNodes (d.xfrmTree :: prstGeomTree :: r)) = child t (toNodes r) := by
    intro t r h1 h2
    rw [child_skip d.xfrmTree _ h1, child_skip prstGeomTree _ h2]
  have ho : ∀ t : Text, "a:ln".toList ≠ t → child t (toNodes [outlineTree f]) = none := by
    intro t ht
    rw [child_skip _ _ (by rw [outline_tag]; exact ht)]; rfl
  constructor
  · rw [← read_shapeFill h [outlineTree f] (ho _ (by decide)) (ho _ (by decide)) (ho _ (by decide))]
    unfold readFill2
    rw [hs _ _ (by decide) (by decide), hs _ _ (by decide) (by decide), hs _ _ (by decide) (by decide),
      hs _ _ (by decide) (by decide)]
  · obtain ⟨o, e, hm⟩ := read_shapeLine h []
    refine ⟨o, ?_, hm⟩
    rw [← e]
    unfold readOutline
    rw [hs _ _ (by decide) (by decide), child_skip _ _ (fill_tag f _ (by decide))]

/-- A text box reads back. -/
theorem read_box {s : Shape} (h : ShapeGood s) (d : DrawInfo) (i : Nat) :
    ∃ b, readBox (treeParts (d.spTree s i)) = some b ∧ BoxMeant s b := by
  obtain ⟨hf, o, ho, hm⟩ := format_read h.format d
  obtain ⟨_, hd, hv⟩ := body_attrs s
  have e1 : child "xdr:spPr".toList (treeParts (d.spTree s i)).2 =
      some (treeParts (.node "xdr:spPr".toList [] [d.xfrmTree, prstGeomTree, shapeFillTree s.format, outlineTree s.format])) := by
    unfold DrawInfo.spTree
    simp only [treeParts]
    rw [child_skip (.node "xdr:nvSpPr".toList [] _) _ (by decide : "xdr:nvSpPr".toList ≠ _),
      child_head (t := "xdr:spPr".toList) _ _ rfl]
    rfl
  have e2 : child "xdr:txBody".toList (treeParts (d.spTree s i)).2 = some (treeParts s.bodyTree) := by
    unfold DrawInfo.spTree
    simp only [treeParts]
    rw [child_skip (.node "xdr:nvSpPr".toList [] _) _ (by decide : "xdr:nvSpPr".toList ≠ _),
      child_skip (.node "xdr:spPr".toList [] _) _ (by decide : "xdr:spPr".toList ≠ _),
      child_skip shapeStyleTree _ (by decide : "xdr:style".toList ≠ _),
      child_head (t := "xdr:txBody".toList) _ _ rfl]
    rfl
  have e3 : child "a:bodyPr".toList (treeParts s.bodyTree).2 = some (s.bodyAttrs, []) := by
    unfold Shape.bodyTree
    simp only [treeParts]
    rw [child_head (t := "a:bodyPr".toList) _ _ rfl]
    rfl
  have e4 : ((treeParts (d.spTree s i)).1.lookup "textlink".toList).getD [] = s.link.getD [] := by
    unfold DrawInfo.spTree
    simp only [treeParts]
    rw [look_ne (by decide), look_eq]; rfl
  unfold readBox
  rw [e1, e2]
  dsimp only
  rw [body_paras h, e3, e4, show (treeParts (.node "xdr:spPr".toList []
    [d.xfrmTree, prstGeomTree, shapeFillTree s.format, outlineTree s.format])).2 = toNodes _ from rfl, hf, ho]
  exact ⟨_, rfl, rfl, hd, hv, rfl, rfl, hm⟩

theorem spTree_ok {s : Shape} (h : ShapeGood s) {d : DrawInfo} {i : Nat} (hn : treeOk (d.nvTree i) = true)
    (hx : treeOk d.xfrmTree = true) : treeOk (d.spTree s i) = true := by
  unfold DrawInfo.spTree
  refine treeOk_node (by decide +kernel) ?_ (ok_cons ?_ (ok_cons ?_ (ok_cons (by decide +kernel) (ok_single (body_ok h)))))
  · exact two_good (by decide +kernel) (by decide +kernel) (by decide +kernel) h.link (by decide +kernel)
  · exact treeOk_node (by decide +kernel) attrsGood_nil (ok_cons hn (ok_single (by decide +kernel)))
  · exact treeOk_node (by decide +kernel) attrsGood_nil
      (ok_cons hx (ok_cons (by decide +kernel) (ok_cons (shapeFill_ok h.format) (ok_single (outline_ok h.format)))))

end Verif
