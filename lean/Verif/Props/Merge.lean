import Verif.Lemmas.StyleCalls
import Verif.Props.Style
import Verif.Props.Sheet
/-!
C47: merging formats; C14: from a cell to its look.
-/
set_option linter.unusedSimpArgs false
namespace Verif
open Spec

attribute [ext] Format

theorem takeIf_assoc {α : Type} [DecidableEq α] (d a b c : α) :
    takeIf d (takeIf d a b) c = takeIf d a (takeIf d b c) := by
  unfold takeIf; repeat' split
  all_goals simp_all

theorem takeIf_self {α : Type} [DecidableEq α] (d a : α) : takeIf d a a = a := by
  unfold takeIf; split <;> rfl

theorem takeIf_left {α : Type} [DecidableEq α] (d a : α) : takeIf d d a = a := by simp [takeIf]

theorem takeIf_right {α : Type} [DecidableEq α] (d a : α) : takeIf d a d = a := by
  unfold takeIf; split <;> simp_all

/-- The border merge without its shortcut. -/
theorem border_merge_eq (a b : Border) : a.merge b =
    { bottomStyle := takeIf .none a.bottomStyle b.bottomStyle
      topStyle := takeIf .none a.topStyle b.topStyle
      leftStyle := takeIf .none a.leftStyle b.leftStyle
      rightStyle := takeIf .none a.rightStyle b.rightStyle
      diagonalStyle := takeIf .none a.diagonalStyle b.diagonalStyle
      bottomColor := takeIf .default a.bottomColor b.bottomColor
      topColor := takeIf .default a.topColor b.topColor
      leftColor := takeIf .default a.leftColor b.leftColor
      rightColor := takeIf .default a.rightColor b.rightColor
      diagonalColor := takeIf .default a.diagonalColor b.diagonalColor
      diagonalType := takeIf .none a.diagonalType b.diagonalType } := by
  unfold Border.merge
  split
  · rename_i h; subst h; simp [takeIf_right]
  · rfl

/-- C47: merging is associative: `a.merge(b).merge(c)` equals `a.merge(b.merge(c))`. -/
theorem C47_merge_assoc (a b c : Format) : (a.merge b).merge c = a.merge (b.merge c) := by
  simp [Format.merge, Fill.merge, Font.merge, border_merge_eq, Alignment.merge, takeIf_assoc,
    Bool.or_assoc, Bool.and_assoc]

/-- C47: merging a format with itself changes nothing. -/
theorem C47_merge_self (a : Format) : a.merge a = a := by
  simp [Format.merge, Fill.merge, Font.merge, border_merge_eq, Alignment.merge, takeIf_self]

/-- C47: merging a new format into a format changes nothing, and merging a format into a new format
gives that format, except that the new format is not a hyperlink format. -/
theorem C47_merge_new (a : Format) : a.merge {} = a ∧
    (a.font.isHyperlink = false → Format.merge {} a = a) := by
  constructor
  · simp [Format.merge, Fill.merge, Font.merge, border_merge_eq, Alignment.merge, takeIf_right]
  · intro h
    have hf : a.font = { a.font with isHyperlink := false } := by rw [← h]
    apply Format.ext
    case font => rw [hf]; simp [Format.merge, Font.merge, takeIf_left]
    all_goals simp [Format.merge, Fill.merge, border_merge_eq, Alignment.merge, takeIf_left]

/-- C47 is false for hyperlink formats: merging one into a new format keeps the colour but loses the
"Hyperlink" cell style. -/
theorem C47_merge_loses_hyperlink :
    (formatMeant (Format.build [.setHyperlink])).style = "Hyperlink".toList ∧
    (formatMeant (Format.merge {} (Format.build [.setHyperlink]))).style = "Normal".toList := by
  decide +kernel

theorem lastOf_append {α : Type} (g : FormatCall → Option α) (d : α) (bs as : List FormatCall) :
    lastOf g d (bs ++ as) = lastOf g (lastOf g d bs) as := by
  induction as using snoc_induction with
  | h0 => simp [lastOf_nil]
  | h1 as c ih => rw [← List.append_assoc, lastOf_snoc, lastOf_snoc, ih]

theorem lastOf_positive {α : Type} [DecidableEq α] (g : FormatCall → Option α) (d e : α)
    (as : List FormatCall) (h : ∀ c ∈ as, g c ≠ some d) :
    lastOf g e as = takeIf d (lastOf g d as) e := by
  induction as using snoc_induction with
  | h0 => simp [lastOf_nil, takeIf]
  | h1 as c ih =>
    have ih := ih fun x hx => h x (by simp [hx])
    rw [lastOf_snoc, lastOf_snoc]
    have hc := h c (by simp)
    cases hg : g c with
    | none => simpa using ih
    | some x =>
      have : x ≠ d := fun e => hc (by rw [hg, e])
      simp [takeIf, this]

/-- A property that is merged by `takeIf`. -/
theorem merge_field {α : Type} [DecidableEq α] (proj : Format → α) (says : FormatCall → Option α) (d : α)
    (h0 : proj {} = d) (h : ∀ f c, c ≠ .unsetHyperlinkStyle → proj (f.apply c) = (says c).getD (proj f))
    (as bs : List FormatCall) (ha : .unsetHyperlinkStyle ∉ as) (hb : .unsetHyperlinkStyle ∉ bs)
    (hp : ∀ c ∈ as, says c ≠ some d) :
    takeIf d (proj (Format.build as)) (proj (Format.build bs)) = proj (Format.build (bs ++ as)) := by
  rw [proj_lastOf (· ≠ .unsetHyperlinkStyle) proj says d h0 h as (fun c hc e => ha (e ▸ hc)),
    proj_lastOf (· ≠ .unsetHyperlinkStyle) proj says d h0 h bs (fun c hc e => hb (e ▸ hc)),
    proj_lastOf (· ≠ .unsetHyperlinkStyle) proj says d h0 h (bs ++ as) (fun c hc e => by
      rcases List.mem_append.mp hc with h | h
      · exact hb (e ▸ h)
      · exact ha (e ▸ h)), lastOf_append,
    ← lastOf_positive says d _ as hp]


theorem or_takeIf (a b : Bool) : (a || b) = takeIf false a b := by cases a <;> cases b <;> rfl
theorem and_takeIf (a b : Bool) : (a && b) = takeIf true a b := by cases a <;> cases b <;> rfl

theorem lastOf_none {α : Type} (g : FormatCall → Option α) (d : α) (cs : List FormatCall)
    (h : ∀ c ∈ cs, g c = none ) : lastOf g d cs = d := by
  have : cs.filterMap g = [] := by
    rw [List.filterMap_eq_nil_iff]; exact h
  simp [lastOf, this]

theorem builtIn_nonempty : ∀ e ∈ builtInNumFormats, e.2 ≠ [] := by decide +kernel

/-- One property of a positive call. -/
macro "positive_step" h:term : tactic => `(tactic|
  (intro c hc e
   have hd := $h c hc
   cases c <;> first
     | (cases e; done)
     | (cases hd; done)
     | (exact of_decide_eq_false hd (Option.some.inj e))
     | (simp only [setsDefault, decide_eq_false_iff_not, Bool.true_eq_false] at hd
        first
          | exact hd (Option.some.inj e)
          | (dsimp only at e
             unfold validColor at e
             split at e
             · exact hd (Option.some.inj e)
             · cases e)
          | (dsimp only at e
             split at e
             · first | (cases e; done) | exact hd (Option.some.inj e)
             · first | (cases e; done) | exact hd (Option.some.inj e))
          | (dsimp only at e
             repeat' split at e
             all_goals simp only [Option.some.injEq, reduceCtorEq] at e
             all_goals omega))))

theorem merge_fill (as bs : List FormatCall) (hpos : ∀ c ∈ as, setsDefault c = false)
    (ha : .unsetHyperlinkStyle ∉ as) (hb : .unsetHyperlinkStyle ∉ bs) :
    (Format.build as).fill.merge (Format.build bs).fill = (Format.build (bs ++ as)).fill := by
  apply Fill.ext
  · exact merge_field (fun f => f.fill.foregroundColor)
      (fun
      | .setForegroundColor c => validColor c
      | _ => none)
      .default rfl (by setter_step) as bs ha hb (by positive_step hpos)
  · exact merge_field (fun f => f.fill.backgroundColor)
      (fun
      | .setBackgroundColor c => validColor c
      | _ => none)
      .default rfl (by setter_step) as bs ha hb (by positive_step hpos)
  · exact merge_field (fun f => f.fill.pattern)
      (fun
      | .setPattern p => some p
      | _ => none)
      .none rfl (by setter_step) as bs ha hb (by positive_step hpos)

theorem merge_borders (as bs : List FormatCall) (hpos : ∀ c ∈ as, setsDefault c = false)
    (ha : .unsetHyperlinkStyle ∉ as) (hb : .unsetHyperlinkStyle ∉ bs) :
    (Format.build as).borders.merge (Format.build bs).borders = (Format.build (bs ++ as)).borders := by
  rw [border_merge_eq]
  apply Border.ext
  · exact merge_field (fun f => f.borders.bottomStyle)
      (fun
      | .setBorder b
      | .setBorderBottom b => some b
      | _ => none)
      .none rfl (by setter_step) as bs ha hb (by positive_step hpos)
  · exact merge_field (fun f => f.borders.topStyle)
      (fun
      | .setBorder b
      | .setBorderTop b => some b
      | _ => none)
      .none rfl (by setter_step) as bs ha hb (by positive_step hpos)
  · exact merge_field (fun f => f.borders.leftStyle)
      (fun
      | .setBorder b
      | .setBorderLeft b => some b
      | _ => none)
      .none rfl (by setter_step) as bs ha hb (by positive_step hpos)
  · exact merge_field (fun f => f.borders.rightStyle)
      (fun
      | .setBorder b
      | .setBorderRight b => some b
      | _ => none)
      .none rfl (by setter_step) as bs ha hb (by positive_step hpos)
  · exact merge_field (fun f => f.borders.bottomColor)
      (fun
      | .setBorderColor c
      | .setBorderBottomColor c => validColor c
      | _ => none)
      .default rfl (by setter_step) as bs ha hb (by positive_step hpos)
  · exact merge_field (fun f => f.borders.topColor)
      (fun
      | .setBorderColor c
      | .setBorderTopColor c => validColor c
      | _ => none)
      .default rfl (by setter_step) as bs ha hb (by positive_step hpos)
  · exact merge_field (fun f => f.borders.leftColor)
      (fun
      | .setBorderColor c
      | .setBorderLeftColor c => validColor c
      | _ => none)
      .default rfl (by setter_step) as bs ha hb (by positive_step hpos)
  · exact merge_field (fun f => f.borders.rightColor)
      (fun
      | .setBorderColor c
      | .setBorderRightColor c => validColor c
      | _ => none)
      .default rfl (by setter_step) as bs ha hb (by positive_step hpos)
  · exact merge_field (fun f => f.borders.diagonalStyle)
      (fun
      | .setBorderDiagonal b => some b
      | _ => none)
      .none rfl (by setter_step) as bs ha hb (by positive_step hpos)
  · exact merge_field (fun f => f.borders.diagonalColor)
      (fun
      | .setBorderDiagonalColor c => validColor c
      | _ => none)
      .default rfl (by setter_step) as bs ha hb (by positive_step hpos)
  · exact merge_field (fun f => f.borders.diagonalType)
      (fun
      | .setBorderDiagonalType d => some d
      | _ => none)
      .none rfl (by setter_step) as bs ha hb (by positive_step hpos)

theorem merge_font (as bs : List FormatCall) (hpos : ∀ c ∈ as, setsDefault c = false)
    (ha : .unsetHyperlinkStyle ∉ as) (hb : .unsetHyperlinkStyle ∉ bs) (hl : .setHyperlink ∉ bs) :
    (Format.build as).font.merge (Format.build bs).font = (Format.build (bs ++ as)).font := by
  apply Font.ext
  · have h1 := merge_field (fun f => f.font.bold)
      (fun
      | .setBold => some true
      | .unsetBold => some false
      | _ => none)
      false rfl (by setter_step) as bs ha hb (by positive_step hpos)
    rw [← h1]
    exact or_takeIf _ _
  · have h1 := merge_field (fun f => f.font.italic)
      (fun
      | .setItalic => some true
      | .unsetItalic => some false
      | _ => none)
      false rfl (by setter_step) as bs ha hb (by positive_step hpos)
    rw [← h1]
    exact or_takeIf _ _
  · exact merge_field (fun f => f.font.underline)
      (fun
      | .setUnderline u => some u
      | .setHyperlink => some .single
      | _ => none)
      .none rfl (by setter_step) as bs ha hb (by positive_step hpos)
  · exact merge_field (fun f => f.font.name)
      (fun
      | .setFontName s => some s
      | _ => none)
      "Calibri".toList rfl (by setter_step) as bs ha hb (by positive_step hpos)
  · exact merge_field (fun f => f.font.size)
      (fun
      | .setFontSize s => some s
      | _ => none)
      "11".toList rfl (by setter_step) as bs ha hb (by positive_step hpos)
  · exact merge_field (fun f => f.font.color)
      (fun
      | .setFontColor c => validColor c
      | .setHyperlink => some (.theme 10 0)
      | _ => none)
      .default rfl (by setter_step) as bs ha hb (by positive_step hpos)
  · have h1 := merge_field (fun f => f.font.strikethrough)
      (fun
      | .setFontStrikethrough => some true
      | .unsetFontStrikethrough => some false
      | _ => none)
      false rfl (by setter_step) as bs ha hb (by positive_step hpos)
    rw [← h1]
    exact or_takeIf _ _
  · exact merge_field (fun f => f.font.script)
      (fun
      | .setFontScript s => some s
      | _ => none)
      .none rfl (by setter_step) as bs ha hb (by positive_step hpos)
  · exact merge_field (fun f => f.font.family)
      (fun
      | .setFontFamily n => some n
      | _ => none)
      2 rfl (by setter_step) as bs ha hb (by positive_step hpos)
  · exact merge_field (fun f => f.font.charset)
      (fun
      | .setFontCharset n => some n
      | _ => none)
      0 rfl (by setter_step) as bs ha hb (by positive_step hpos)
  · exact merge_field (fun f => f.font.scheme)
      (fun
      | .setFontScheme s => some s
      | .setFontName s => if s = "Calibri".toList then none else some []
      | .setHyperlink => some []
      | _ => none)
      "minor".toList rfl (by setter_step) as bs ha hb (by positive_step hpos)
  · have h0 : (Format.build bs).font.isHyperlink = false := by
      rw [build_font bs hb]
      exact lastOf_none _ _ _ (by
        intro c hc
        cases c <;> first | rfl | exact absurd hc hl | exact absurd hc hb)
    have h1 := merge_field (fun f => f.font.isHyperlink)
      (fun
      | .setHyperlink => some true
      | .unsetHyperlinkStyle => some false
      | _ => none)
      false rfl (by setter_step) as bs ha hb (by positive_step hpos)
    rw [h0, takeIf_right] at h1
    exact h1

theorem merge_align (as bs : List FormatCall) (hpos : ∀ c ∈ as, setsDefault c = false)
    (ha : .unsetHyperlinkStyle ∉ as) (hb : .unsetHyperlinkStyle ∉ bs) :
    (Format.build as).alignment.merge (Format.build bs).alignment = (Format.build (bs ++ as)).alignment := by
  apply Alignment.ext
  · exact merge_field (fun f => f.alignment.horizontal)
      (fun
      | .setAlign a => if a = .general || isHorizontal a then some a else none
      | _ => none)
      .general rfl (by align_step) as bs ha hb (by positive_step hpos)
  · exact merge_field (fun f => f.alignment.vertical)
      (fun
      | .setAlign a => if a = .general || !isHorizontal a then some a else none
      | _ => none)
      .general rfl (by align_step) as bs ha hb (by positive_step hpos)
  · have h1 := merge_field (fun f => f.alignment.textWrap)
      (fun
      | .setTextWrap => some true
      | .unsetTextWrap => some false
      | _ => none)
      false rfl (by align_step) as bs ha hb (by positive_step hpos)
    rw [← h1]
    exact or_takeIf _ _
  · exact merge_field (fun f => f.alignment.rotation)
      (fun
      | .setRotation r =>
        if r = 270 then some 255
        else if -90 ≤ r ∧ r ≤ -1 then some (-r + 90).toNat
        else if 0 ≤ r ∧ r ≤ 90 then some r.toNat
        else none
      | _ => none)
      0 rfl (by align_step) as bs ha hb (by positive_step hpos)
  · exact merge_field (fun f => f.alignment.indent)
      (fun
      | .setIndent n => some n
      | _ => none)
      0 rfl (by align_step) as bs ha hb (by positive_step hpos)
  · have h1 := merge_field (fun f => f.alignment.shrink)
      (fun
      | .setShrink => some true
      | .unsetShrink => some false
      | _ => none)
      false rfl (by align_step) as bs ha hb (by positive_step hpos)
    rw [← h1]
    exact or_takeIf _ _
  · exact merge_field (fun f => f.alignment.readingDirection)
      (fun
      | .setReadingDirection n => if n ≤ 2 then some n else none
      | _ => none)
      0 rfl (by align_step) as bs ha hb (by positive_step hpos)

/-- C47: merging `b` into `a` gives the format built by the calls of `b` followed by the calls of `a`,
i.e. every property set in `a` wins and the others come from `b`. Not covered, because false: calls of `a`
that set a property back to its default, and a hyperlink format as `b`
(`C47_merge_loses_hyperlink`). -/
theorem C47_merge_overlays_partial (as bs : List FormatCall) (hpos : ∀ c ∈ as, setsDefault c = false)
    (hl : .setHyperlink ∉ bs) (hb : .unsetHyperlinkStyle ∉ bs) :
    (Format.build as).merge (Format.build bs) = Format.build (bs ++ as) := by
  have ha : .unsetHyperlinkStyle ∉ as := fun h => by
    have := hpos _ h
    simp [setsDefault] at this
  apply Format.ext
  · exact merge_field (fun f => f.numFormat)
      (fun
      | .setNumFormat s => some s
      | .setNumFormatIndex n => builtInNumFormats.lookup n
      | _ => none) [] rfl (by setter_step) as bs ha hb (by
        intro c hc e
        have hd := hpos c hc
        cases c <;> first
          | (cases e; done)
          | exact of_decide_eq_false hd (Option.some.inj e)
          | exact builtIn_nonempty _ (lookup_mem e) rfl)
  · exact merge_field (fun f => f.numFormatIndex)
      (fun
      | .setNumFormatIndex n => some n
      | _ => none) 0 rfl (by setter_step) as bs ha hb (by positive_step hpos)
  · exact merge_font as bs hpos ha hb hl
  · exact merge_align as bs hpos ha hb
  · exact merge_borders as bs hpos ha hb
  · exact merge_fill as bs hpos ha hb
  · have h1 := merge_field (fun f => f.hidden)
      (fun | .setHidden => some true | .unsetHidden => some false | _ => none)
      false rfl (by setter_step) as bs ha hb (by positive_step hpos)
    rw [← h1]
    exact or_takeIf _ _
  · have h1 := merge_field (fun f => f.locked)
      (fun | .setLocked => some true | .setUnlocked => some false | _ => none)
      true rfl (by setter_step) as bs ha hb (by positive_step hpos)
    rw [← h1]
    exact and_takeIf _ _
  · have h1 := merge_field (fun f => f.checkbox)
      (fun | .setCheckbox => some true | .unsetCheckbox => some false | _ => none)
      false rfl (by setter_step) as bs ha hb (by positive_step hpos)
    rw [← h1]
    exact or_takeIf _ _
  · have h1 := merge_field (fun f => f.quotePrefix)
      (fun | .setQuotePrefix => some true | .unsetQuotePrefix => some false | _ => none)
      false rfl (by setter_step) as bs ha hb (by positive_step hpos)
    rw [← h1]
    exact or_takeIf _ _

/-- The hypotheses are met: a red bold format merged with a green bordered one. -/
example : (∀ c ∈ [FormatCall.setBold, .setFontColor .red], setsDefault c = false) ∧
    ((Format.build [.setBold, .setFontColor .red]).merge
      (Format.build [.setFontColor .green, .setBorder .thin])).font.color = .red ∧
    ((Format.build [.setBold, .setFontColor .red]).merge
      (Format.build [.setFontColor .green, .setBorder .thin])).borders.topStyle = .thin := by
  decide +kernel

/-! ### From a cell to its look -/

theorem takeIf_pred {α : Type} [DecidableEq α] (P : α → Prop) (d a b : α) (ha : P a) (hb : P b) :
    P (takeIf d a b) := by
  unfold takeIf; split <;> assumption

theorem Format.Good.merge {a b : Format} (ha : a.Good) (hb : b.Good) : (a.merge b).Good := by
  have fa := ha.font
  have fb := hb.font
  simp only [Font.safe, Bool.and_eq_true] at fa fb
  have ba := ha.borders
  have bb := hb.borders
  simp only [Border.colorsOk, Bool.and_eq_true] at ba bb
  have aa := ha.align
  have ab := hb.align
  simp only [Alignment.ok, Bool.and_eq_true] at aa ab
  refine ⟨?_, ?_, ?_, ?_, ?_, ?_, ?_, ?_⟩
  · exact takeIf_pred (fun c : Color => c.ok = true) _ _ _ ha.fontColor hb.fontColor
  · exact takeIf_pred (fun c : Color => c.ok = true) _ _ _ ha.fg hb.fg
  · exact takeIf_pred (fun c : Color => c.ok = true) _ _ _ ha.bg hb.bg
  · simp only [Format.merge, border_merge_eq, Border.colorsOk, Bool.and_eq_true]
    exact ⟨⟨⟨⟨takeIf_pred (fun c : Color => c.ok = true) _ _ _ ba.1.1.1.1 bb.1.1.1.1,
      takeIf_pred (fun c : Color => c.ok = true) _ _ _ ba.1.1.1.2 bb.1.1.1.2⟩,
      takeIf_pred (fun c : Color => c.ok = true) _ _ _ ba.1.1.2 bb.1.1.2⟩,
      takeIf_pred (fun c : Color => c.ok = true) _ _ _ ba.1.2 bb.1.2⟩,
      takeIf_pred (fun c : Color => c.ok = true) _ _ _ ba.2 bb.2⟩
  · simp only [Format.merge, Alignment.merge, Alignment.ok, Bool.and_eq_true]
    refine ⟨⟨?_, ?_⟩, ?_⟩
    · exact takeIf_pred (fun x => decide (x ∈ [FormatAlign.general, .center, .centerAcross,
        .distributed, .fill, .justify, .left, .right]) = true) _ _ _ aa.1.1 ab.1.1
    · exact takeIf_pred (fun x => decide (x ∈ [FormatAlign.general, .bottom, .top, .verticalCenter,
        .verticalDistributed, .verticalJustify]) = true) _ _ _ aa.1.2 ab.1.2
    · exact takeIf_pred (fun x => decide (x ≤ 2) = true) _ _ _ aa.2 ab.2
  · exact takeIf_pred (· < 164) _ _ _ ha.num hb.num
  · exact takeIf_pred (fun s => attrSafe s = true) _ _ _ ha.numSafe hb.numSafe
  · simp only [Format.merge, Font.merge, Font.safe, Bool.and_eq_true]
    exact ⟨⟨takeIf_pred (fun s => attrSafe s = true) _ _ _ fa.1.1 fb.1.1,
      takeIf_pred (fun s => attrSafe s = true) _ _ _ fa.1.2 fb.1.2⟩,
      takeIf_pred (fun s => attrSafe s = true) _ _ _ fa.2 fb.2⟩

/-- The formats a program can hold: built by the setters, or merged from such formats. -/
abbrev UserFormat := { f : Format // f.Good }

/-- `Format::merge` on them. -/
def UserFormat.merge (a b : UserFormat) : UserFormat := ⟨a.1.merge b.1, a.2.merge b.2⟩

/-- A format built by setters. -/
def UserFormat.build (cs : List FormatCall) (h : ∀ c ∈ cs, callSafe c = true) : UserFormat :=
  ⟨Format.build cs, Format.Good.build cs h⟩

/-- C14, from the call to the look: after any calls on the worksheets, a cell last given the format `f`
refers to a style of the styles part in which a reader sees exactly what `f` means. (Restrictions as in
`C13_explicit_format_written_partial` and `C14_formats_read_back_partial`.) -/
theorem C14_cell_look_partial (cfgs : List Cfg) (ops : List (Nat × Op UserFormat)) (extra : List UserFormat)
    (hasHyperlink hasComments : Bool) (dxfs : Tree) (hd : treeOk dxfs = true)
    (hdt : treeTag dxfs = "dxfs".toList) (xfOrder : List (UserFormat × Nat))
    (hxf : xfOrder.Perm
      (savedBook cfgs UserFormat.merge ⟨{}, Format.Good.new⟩ ops extra).gxf)
    (hmix : ∀ g ∈ xfList xfOrder, mixedAutomatic g.1.fill = false)
    (hh : ∀ g ∈ xfList xfOrder, g.1.font.isHyperlink = true → hasHyperlink = true)
    (i : Nat) (cfg : Cfg) (hc : cfgs[i]? = some cfg) (hstd : cfg.isStandard) (r c : Nat) (f : UserFormat)
    (hf : specFmt cfg (opsFor i ops) r c = some f) (hne : f.1 ≠ {})
    (hdyn : ∀ op ∈ opsFor i ops, op.isDynamicWithFormat = false)
    (hrange : (∀ op ∈ opsFor i ops, op.isRangeFormat = false) ∨
      specContent cfg (opsFor i ops) r c ≠ .blank) :
    ∃ s x root,
      (savedBook cfgs UserFormat.merge ⟨{}, Format.Good.new⟩ ops extra).sheets[i]? = some s ∧
      readStyle s.rows r c = some x ∧
      parseDoc (stylesPart (prepareStyles ((xfList xfOrder).map (·.1)) hasHyperlink hasComments) dxfs) =
        some root ∧
      readXf root x = some (formatMeant f.1) := by
  obtain ⟨s, x, h1, h2, h3⟩ := C13_explicit_format_written_partial cfgs UserFormat.merge
    ⟨{}, Format.Good.new⟩ ops extra xfOrder hxf i cfg hc hstd r c f hf
    (fun e => hne (congrArg Subtype.val e)) hdyn hrange
  obtain ⟨root, h4, h5⟩ := styles_read_back ((xfList xfOrder).map (·.1)) hasHyperlink hasComments dxfs hd
    hdt (by
      intro g hg
      obtain ⟨g', _, rfl⟩ := List.mem_map.mp hg
      exact g'.2) (by
      intro g hg
      obtain ⟨g', h, rfl⟩ := List.mem_map.mp hg
      exact hmix g' h) (by
      intro g hg
      obtain ⟨g', h, rfl⟩ := List.mem_map.mp hg
      exact hh g' h)
  refine ⟨s, x, root, h1, h2, h4, ?_⟩
  rw [h5, List.getElem?_map, h3]
  rfl

/-- The hypotheses are met: a bold number in one cell of a standard worksheet (`xfList` only sorts the
formats checked here). -/
example :
    let bold := UserFormat.build [.setBold] (by decide +kernel)
    let ops : List (Nat × Op UserFormat) := [(0, .number 3 4 (.finite "1".toList) (some bold))]
    specFmt {} (opsFor 0 ops) 3 4 = some bold ∧ bold.1 ≠ {} ∧
    (∀ op ∈ opsFor 0 ops, op.isDynamicWithFormat = false) ∧
    (∀ op ∈ opsFor 0 ops, op.isRangeFormat = false) ∧
    (∀ g ∈ (savedBook [{}] UserFormat.merge ⟨{}, Format.Good.new⟩ ops []).gxf,
      mixedAutomatic g.1.1.fill = false ∧ g.1.1.font.isHyperlink = false) := by
  decide +kernel

end Verif
