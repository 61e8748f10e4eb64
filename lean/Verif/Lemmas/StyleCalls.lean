import Verif.Spec.Style
/-!
The state built by the setters is what the calls ask for.
-/
set_option linter.unusedSimpArgs false
namespace Verif
open Spec

theorem snoc_induction {α : Type} {P : List α → Prop} (h0 : P []) (h1 : ∀ l a, P l → P (l ++ [a])) :
    ∀ l, P l := by
  intro l
  have : ∀ r : List α, P r.reverse := by
    intro r
    induction r with
    | nil => exact h0
    | cons a r ih => rw [List.reverse_cons]; exact h1 _ _ ih
  simpa using this l.reverse

theorem build_nil : Format.build [] = {} := rfl

theorem build_snoc (cs : List FormatCall) (c : FormatCall) :
    Format.build (cs ++ [c]) = (Format.build cs).apply c := by simp [Format.build]

theorem lastOf_nil {α : Type} (g : FormatCall → Option α) (d : α) : lastOf g d [] = d := rfl

theorem lastOf_snoc {α : Type} (g : FormatCall → Option α) (d : α) (cs : List FormatCall)
    (c : FormatCall) : lastOf g d (cs ++ [c]) = (g c).getD (lastOf g d cs) := by
  unfold lastOf
  rw [List.filterMap_append]
  cases h : g c with
  | none => simp [h]
  | some x => simp [h]

theorem proj_lastOf {α : Type} (ok : FormatCall → Prop) (proj : Format → α) (says : FormatCall → Option α)
    (d : α) (h0 : proj {} = d) (h : ∀ f c, ok c → proj (f.apply c) = (says c).getD (proj f))
    (cs : List FormatCall) (hok : ∀ c ∈ cs, ok c) : proj (Format.build cs) = lastOf says d cs := by
  induction cs using snoc_induction with
  | h0 => rw [build_nil, lastOf_nil, h0]
  | h1 cs c ih =>
    rw [build_snoc, lastOf_snoc, h _ _ (hok c (by simp)), ih fun x hx => hok x (by simp [hx])]

/-- One setter and one property. -/
macro "setter_step" : tactic => `(tactic|
  (intro f c hc
   cases c <;> first
     | rfl
     | exact absurd rfl hc
     | (simp only [Format.apply, validColor, Option.getD_none, Option.getD_some]
        first
          | (repeat' split) <;> first
              | rfl
              | (exfalso; omega)
              | simp_all [Format.onFont, Format.onFill, Format.onBorder, Format.onAlign])))

/-- One setter and one property of the alignment. -/
macro "align_step" : tactic => `(tactic|
  (intro f c hc
   cases c
   case setAlign a => cases a <;> rfl
   all_goals first
     | rfl
     | (simp only [Format.apply, Option.getD_none, Option.getD_some]
        first
          | (repeat' split) <;> first
              | rfl
              | (exfalso; omega)
              | simp_all [Format.onFont, Format.onFill, Format.onBorder, Format.onAlign])))

attribute [ext] Fill Border Font Alignment

theorem build_fill (cs : List FormatCall) :
    (Format.build cs).fill = fillAsked cs := by
  apply Fill.ext
  · exact proj_lastOf (fun _ => True) (fun f => f.fill.foregroundColor) _ _ rfl (by setter_step) cs (by simp)
  · exact proj_lastOf (fun _ => True) (fun f => f.fill.backgroundColor) _ _ rfl (by setter_step) cs (by simp)
  · exact proj_lastOf (fun _ => True) (fun f => f.fill.pattern) _ _ rfl (by setter_step) cs (by simp)

theorem build_borders (cs : List FormatCall) :
    (Format.build cs).borders = borderAsked cs := by
  apply Border.ext
  · exact proj_lastOf (fun _ => True) (fun f => f.borders.bottomStyle) _ _ rfl (by setter_step) cs (by simp)
  · exact proj_lastOf (fun _ => True) (fun f => f.borders.topStyle) _ _ rfl (by setter_step) cs (by simp)
  · exact proj_lastOf (fun _ => True) (fun f => f.borders.leftStyle) _ _ rfl (by setter_step) cs (by simp)
  · exact proj_lastOf (fun _ => True) (fun f => f.borders.rightStyle) _ _ rfl (by setter_step) cs (by simp)
  · exact proj_lastOf (fun _ => True) (fun f => f.borders.bottomColor) _ _ rfl (by setter_step) cs (by simp)
  · exact proj_lastOf (fun _ => True) (fun f => f.borders.topColor) _ _ rfl (by setter_step) cs (by simp)
  · exact proj_lastOf (fun _ => True) (fun f => f.borders.leftColor) _ _ rfl (by setter_step) cs (by simp)
  · exact proj_lastOf (fun _ => True) (fun f => f.borders.rightColor) _ _ rfl (by setter_step) cs (by simp)
  · exact proj_lastOf (fun _ => True) (fun f => f.borders.diagonalStyle) _ _ rfl (by setter_step) cs (by simp)
  · exact proj_lastOf (fun _ => True) (fun f => f.borders.diagonalColor) _ _ rfl (by setter_step) cs (by simp)
  · exact proj_lastOf (fun _ => True) (fun f => f.borders.diagonalType) _ _ rfl (by setter_step) cs (by simp)

theorem build_font (cs : List FormatCall) (h : .unsetHyperlinkStyle ∉ cs) :
    (Format.build cs).font = fontAsked cs := by
  have hok : ∀ c ∈ cs, c ≠ .unsetHyperlinkStyle := fun c hc e => h (e ▸ hc)
  apply Font.ext
  · exact proj_lastOf (· ≠ .unsetHyperlinkStyle) (fun f => f.font.bold) _ _ rfl (by setter_step) cs hok
  · exact proj_lastOf (· ≠ .unsetHyperlinkStyle) (fun f => f.font.italic) _ _ rfl (by setter_step) cs hok
  · exact proj_lastOf (· ≠ .unsetHyperlinkStyle) (fun f => f.font.underline) _ _ rfl (by setter_step) cs hok
  · exact proj_lastOf (· ≠ .unsetHyperlinkStyle) (fun f => f.font.name) _ _ rfl (by setter_step) cs hok
  · exact proj_lastOf (· ≠ .unsetHyperlinkStyle) (fun f => f.font.size) _ _ rfl (by setter_step) cs hok
  · exact proj_lastOf (· ≠ .unsetHyperlinkStyle) (fun f => f.font.color) _ _ rfl (by setter_step) cs hok
  · exact proj_lastOf (· ≠ .unsetHyperlinkStyle) (fun f => f.font.strikethrough) _ _ rfl (by setter_step) cs hok
  · exact proj_lastOf (· ≠ .unsetHyperlinkStyle) (fun f => f.font.script) _ _ rfl (by setter_step) cs hok
  · exact proj_lastOf (· ≠ .unsetHyperlinkStyle) (fun f => f.font.family) _ _ rfl (by setter_step) cs hok
  · exact proj_lastOf (· ≠ .unsetHyperlinkStyle) (fun f => f.font.charset) _ _ rfl (by setter_step) cs hok
  · exact proj_lastOf (· ≠ .unsetHyperlinkStyle) (fun f => f.font.scheme) _ _ rfl (by setter_step) cs hok
  · exact proj_lastOf (· ≠ .unsetHyperlinkStyle) (fun f => f.font.isHyperlink) _ _ rfl (by setter_step) cs hok

theorem build_align (cs : List FormatCall) :
    { (Format.build cs).alignment with rotation := 0 } = alignAsked cs := by
  apply Alignment.ext
  · exact proj_lastOf (fun _ => True) (fun f => f.alignment.horizontal) _ _ rfl (by align_step) cs (by simp)
  · exact proj_lastOf (fun _ => True) (fun f => f.alignment.vertical) _ _ rfl (by align_step) cs (by simp)
  · exact proj_lastOf (fun _ => True) (fun f => f.alignment.textWrap) _ _ rfl (by align_step) cs (by simp)
  · rfl
  · exact proj_lastOf (fun _ => True) (fun f => f.alignment.indent) _ _ rfl (by align_step) cs (by simp)
  · exact proj_lastOf (fun _ => True) (fun f => f.alignment.shrink) _ _ rfl (by align_step) cs (by simp)
  · exact proj_lastOf (fun _ => True) (fun f => f.alignment.readingDirection) _ _ rfl (by align_step) cs (by simp)

theorem build_rotation (cs : List FormatCall) :
    rotationOf (Format.build cs).alignment.rotation = rotationAsked cs := by
  induction cs using snoc_induction with
  | h0 => decide
  | h1 cs c ih =>
    rw [build_snoc]
    have hs : rotationAsked (cs ++ [c]) = (match c with
      | .setRotation r =>
        if r = 270 then .stacked else if -90 ≤ r ∧ r ≤ 90 then .degrees r else rotationAsked cs
      | _ => rotationAsked cs) := by
      unfold rotationAsked
      rw [List.foldl_append]; rfl
    rw [hs]
    cases c <;> simp only [Format.apply, Format.onFont, Format.onAlign, Format.onBorder, Format.onFill] <;>
      (try exact ih) <;> (try (split <;> exact ih))
    case setRotation r =>
      by_cases h1 : r = 270
      · simp only [h1, if_true]; rfl
      · simp only [h1, if_false]
        by_cases h2 : -90 ≤ r ∧ r ≤ -1
        · rw [if_pos h2, if_pos (by omega)]
          simp only [rotationOf]
          rw [if_neg (by omega), if_neg (by omega)]
          congr 1; omega
        · rw [if_neg h2]
          by_cases h3 : 0 ≤ r ∧ r ≤ 90
          · rw [if_pos h3, if_pos (by omega)]
            simp only [rotationOf]
            rw [if_neg (by omega), if_pos (by omega)]
            congr 1; omega
          · rw [if_neg h3, if_neg (by omega)]
            exact ih

theorem build_flags (cs : List FormatCall) :
    (Format.build cs).locked =
      lastOf (fun | .setLocked => some true | .setUnlocked => some false | _ => none) true cs ∧
    (Format.build cs).hidden =
      lastOf (fun | .setHidden => some true | .unsetHidden => some false | _ => none) false cs ∧
    (Format.build cs).quotePrefix = lastOf
      (fun | .setQuotePrefix => some true | .unsetQuotePrefix => some false | _ => none) false cs ∧
    (Format.build cs).checkbox =
      lastOf (fun | .setCheckbox => some true | .unsetCheckbox => some false | _ => none) false cs :=
  ⟨proj_lastOf (fun _ => True) (fun f => f.locked) _ _ rfl (by setter_step) cs (by simp),
   proj_lastOf (fun _ => True) (fun f => f.hidden) _ _ rfl (by setter_step) cs (by simp),
   proj_lastOf (fun _ => True) (fun f => f.quotePrefix) _ _ rfl (by setter_step) cs (by simp),
   proj_lastOf (fun _ => True) (fun f => f.checkbox) _ _ rfl (by setter_step) cs (by simp)⟩

theorem num_loop (cs : List FormatCall) (f : Format) (cur : NumSeen) (seen : Bool)
    (h1 : numMeant f = cur) (h2 : seen = false → f.numFormatIndex = 0)
    (h : numOrderOk seen cs = true) :
    numMeant (cs.foldl Format.apply f) =
      cs.foldl (fun cur c => match c with
    | .setNumFormat s => if s = [] then .builtIn 0 else .code s
    | .setNumFormatIndex n => .builtIn n
    | _ => cur) cur := by
  induction cs generalizing f cur seen with
  | nil => exact h1
  | cons c r ih =>
    have keep : ∀ g : Format, g.numFormat = f.numFormat → g.numFormatIndex = f.numFormatIndex →
        numMeant g = cur ∧ (seen = false → g.numFormatIndex = 0) := by
      intro g e1 e2
      refine ⟨?_, fun hs => by rw [e2]; exact h2 hs⟩
      rw [← h1]; unfold numMeant; rw [e1, e2]
    simp only [List.foldl_cons]
    cases c with
    | setNumFormat s =>
      simp only [numOrderOk, Bool.and_eq_true, Bool.not_eq_true'] at h
      have h0 : f.numFormatIndex = 0 := h2 h.1
      refine ih _ _ seen ?_ (fun _ => h0) h.2
      simp [Format.apply, numMeant, h0]
    | setNumFormatIndex n =>
      simp only [numOrderOk, Bool.and_eq_true, bne_iff_ne, ne_eq] at h
      refine ih _ _ true ?_ (fun hs => by cases hs) h.2
      simp [Format.apply, numMeant, h.1]
    | setFontColor _ | setRotation _ | setReadingDirection _ | setBackgroundColor _
    | setForegroundColor _ | setBorderColor _ | setBorderTopColor _ | setBorderBottomColor _
    | setBorderLeftColor _ | setBorderRightColor _ | setBorderDiagonalColor _ =>
      simp only [numOrderOk] at h
      refine ih _ _ seen (keep _ ?_ ?_).1 (keep _ ?_ ?_).2 h <;>
      · simp only [Format.apply, Format.onFont, Format.onAlign, Format.onBorder, Format.onFill]
        repeat' split
        all_goals rfl
    | _ =>
      simp only [numOrderOk] at h
      exact ih _ _ seen (keep _ rfl rfl).1 (keep _ rfl rfl).2 h

theorem build_num (cs : List FormatCall) (h : numOrderOk false cs = true) :
    numMeant (Format.build cs) = numAsked cs :=
  num_loop cs {} (.builtIn 0) false (by decide) (fun _ => rfl) h

theorem formatMeant_build (cs : List FormatCall) (h : numOrderOk false cs = true)
    (hu : .unsetHyperlinkStyle ∉ cs) : formatMeant (Format.build cs) = lookAsked cs := by
  obtain ⟨f1, f2, f3, f4⟩ := build_flags cs
  have ha : alignMeant (Format.build cs).alignment =
      { alignMeant (alignAsked cs) with rotation := rotationAsked cs } := by
    rw [← build_align, ← build_rotation]; rfl
  unfold formatMeant lookAsked
  rw [build_num cs h, build_font cs hu, build_fill, build_borders, ha, f1, f2, f3, f4]
  rfl

end Verif
