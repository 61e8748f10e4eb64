import Verif.Props.ChartAxis
import Verif.Props.ViewSetup
/-!
C73: axes show what was asked for.
-/
set_option linter.unusedSectionVars false
namespace Verif
open Spec BMap
variable {Fmt : Type} [DecidableEq Fmt] {cfg : Cfg} {dflt : Fmt}
variable {U : Unicode} {parses : Str → Bool} {shown : Text → Nat → Nat → Content}

/-! ### The fields of an axis after a sequence of calls -/

theorem axis_field {α : Type} (f : AxisOpts → α) (said : AxisCall → Option α) (calls : List AxisCall)
    (h : ∀ a, ∀ c ∈ calls, f (a.exec c) = (said c).getD (f a)) (a : AxisOpts) : f (a.run calls) = lastSaid said (f a) calls := by
  induction calls generalizing a with
  | nil => rfl
  | cons c calls ih =>
    rw [lastSaid_cons, ← h a c List.mem_cons_self]
    exact ih (fun a c hc => h a c (List.mem_cons_of_mem _ hc)) _

/-- A property kept by all calls of a sequence. -/
theorem axis_keeps (P : AxisOpts → Prop) (calls : List AxisCall) (h : ∀ a, ∀ c ∈ calls, P a → P (a.exec c)) (a : AxisOpts) (ha : P a) :
    P (a.run calls) := by
  induction calls generalizing a with
  | nil => exact ha
  | cons c calls ih => exact ih (fun a c hc => h a c (List.mem_cons_of_mem _ hc)) _ (h a c List.mem_cons_self ha)

/-- Cases on a call: the two setters that ignore some values are split. -/
macro "axis_cases" : tactic => `(tactic| (intro a c _; cases c <;> first | rfl | (simp only [AxisOpts.exec]; split <;> rfl)))

/-- The font as an axis keeps it. -/
def saysAxisFont : AxisCall → Option (Option CFont)
  | .font f => some (some f.forAxis)
  | _ => none

section Fields
variable (a : AxisOpts) (calls : List AxisCall)

theorem run_hidden : (a.run calls).hidden = lastSaid saysHidden a.hidden calls :=
  axis_field (·.hidden) _ calls (by axis_cases) a

theorem run_majorGrid : (a.run calls).majorGrid = lastSaid saysMajorGrid a.majorGrid calls :=
  axis_field (·.majorGrid) _ calls (by axis_cases) a

theorem run_minorGrid : (a.run calls).minorGrid = lastSaid saysMinorGrid a.minorGrid calls :=
  axis_field (·.minorGrid) _ calls (by axis_cases) a

theorem run_majorLine : (a.run calls).majorGridLine = lastSaid saysMajorLine a.majorGridLine calls :=
  axis_field (·.majorGridLine) _ calls (by axis_cases) a

theorem run_minorLine : (a.run calls).minorGridLine = lastSaid saysMinorLine a.minorGridLine calls :=
  axis_field (·.minorGridLine) _ calls (by axis_cases) a

theorem run_labelPlace : (a.run calls).labelPlace =
    lastSaid saysLabelPlace a.labelPlace calls :=
  axis_field (·.labelPlace) _ calls (by axis_cases) a

theorem run_majorTick : (a.run calls).majorTick =
    lastSaid saysMajorTick a.majorTick calls :=
  axis_field (·.majorTick) _ calls (by axis_cases) a

theorem run_minorTick : (a.run calls).minorTick =
    lastSaid saysMinorTick a.minorTick calls :=
  axis_field (·.minorTick) _ calls (by axis_cases) a

theorem run_numFormat : (a.run calls).numFormat =
    lastSaid saysNumFormat a.numFormat calls :=
  axis_field (·.numFormat) _ calls (by axis_cases) a

theorem run_linked : (a.run calls).linked = a.linked :=
  axis_keeps (fun b => b.linked = a.linked) calls (by
    intro b c _ h; cases c <;> first | exact h | (simp only [AxisOpts.exec]; split <;> exact h)) a rfl

theorem run_format : (a.run calls).format = lastSaid saysFormat a.format calls :=
  axis_field (·.format) _ calls (by axis_cases) a

theorem run_font : (a.run calls).font = lastSaid saysAxisFont a.font calls :=
  axis_field (·.font) _ calls (by axis_cases) a

theorem run_crossing : (a.run calls).crossing = lastSaid saysCrossing a.crossing calls :=
  axis_field (·.crossing) _ calls (by axis_cases) a

theorem run_between : (a.run calls).between = lastSaid saysBetween a.between calls :=
  axis_field (·.between) _ calls (by axis_cases) a

theorem run_axisType : (a.run calls).axisType =
    lastSaid saysKind a.axisType calls :=
  axis_field (·.axisType) _ calls (by axis_cases) a

theorem run_labelAlign : (a.run calls).labelAlign =
    lastSaid saysLabelAlign a.labelAlign calls :=
  axis_field (·.labelAlign) _ calls (by axis_cases) a

theorem run_labelInterval : (a.run calls).labelInterval =
    lastSaid saysLabelInterval a.labelInterval calls :=
  axis_field (·.labelInterval) _ calls (by axis_cases) a

theorem run_tickInterval : (a.run calls).tickInterval =
    lastSaid saysTickInterval a.tickInterval calls :=
  axis_field (·.tickInterval) _ calls (by axis_cases) a

theorem run_majorDate : (a.run calls).majorDateUnit =
    lastSaid saysMajorTime a.majorDateUnit calls :=
  axis_field (·.majorDateUnit) _ calls (by axis_cases) a

theorem run_minorDate : (a.run calls).minorDateUnit =
    lastSaid saysMinorTime a.minorDateUnit calls :=
  axis_field (·.minorDateUnit) _ calls (by axis_cases) a

theorem run_displayUnit : (a.run calls).displayUnit =
    lastSaid saysUnit a.displayUnit calls :=
  axis_field (·.displayUnit) _ calls (by axis_cases) a

theorem run_unitShown : (a.run calls).displayUnitShown = lastSaid saysUnitShown a.displayUnitShown calls :=
  axis_field (·.displayUnitShown) _ calls (by axis_cases) a

theorem run_titleFont : (a.run calls).title.font =
    lastSaid (fun c => match c with | .nameFont f => some f.forTitle | _ => none) a.title.font calls :=
  axis_field (·.title.font) _ calls (by axis_cases) a

theorem run_titleLayout : (a.run calls).title.layout =
    lastSaid saysNameLayout a.title.layout calls :=
  axis_field (·.title.layout) _ calls (by axis_cases) a

theorem run_titleRange : (a.run calls).title.ref.range =
    lastSaid (fun c => match c with | .name _ r => some r | _ => none) a.title.ref.range calls :=
  axis_field (·.title.ref.range) _ calls (by axis_cases) a

/-- What no call changes. -/
theorem run_fixed : (a.run calls).side = a.side ∧ (a.run calls).title.horizontal = a.title.horizontal ∧
    (a.run calls).title.overlay = a.title.overlay ∧ (a.run calls).title.format = a.title.format ∧
    (a.run calls).title.ignorePara = a.title.ignorePara :=
  axis_keeps (fun b => b.side = a.side ∧ b.title.horizontal = a.title.horizontal ∧ b.title.overlay = a.title.overlay ∧
    b.title.format = a.title.format ∧ b.title.ignorePara = a.title.ignorePara) calls (by
    intro b c _ h; cases c <;> first | exact h | (simp only [AxisOpts.exec]; split <;> exact h)) a ⟨rfl, rfl, rfl, rfl, rfl⟩

theorem run_reverse : (a.run calls).reverse = (a.reverse || decide (AxisCall.reverse ∈ calls)) := by
  have e : (a.run calls).reverse = lastSaid (fun c => match c with | .reverse => some true | _ => none) a.reverse calls :=
    axis_field (·.reverse) _ calls (by axis_cases) a
  rw [e]
  generalize a.reverse = x
  clear e
  induction calls generalizing x with
  | nil => simp [lastSaid]
  | cons c calls ih =>
    rw [lastSaid_cons, ih]
    cases c <;> simp

theorem run_auto (h : ∀ b, AxisCall.dateAxis b ∉ calls ∧ AxisCall.automaticAxis b ∉ calls) : (a.run calls).automatic =
    lastSaid saysText a.automatic calls := by
  refine axis_field (·.automatic) _ calls ?_ a
  intro a c hc
  cases c with
  | dateAxis b => exact absurd hc (h b).1
  | automaticAxis b => exact absurd hc (h b).2
  | _ => first | rfl | (simp only [AxisOpts.exec]; split <;> rfl)

end Fields

theorem numberText_parts {v : Text} (h : numberText v = true) : attrSafe v = true ∧ v ≠ [] := by
  unfold numberText at h
  simpa [Bool.and_eq_true, bne_iff_ne] using h

/-- A text that is empty if nothing was set. -/
def asNumber (s : Str) : Option Text := if s ≠ [] then some s else none

theorem asNumber_some {s : Str} (h : s ≠ []) : asNumber s = some s := if_pos h

section Numbers
variable (a : AxisOpts) (calls : List AxisCall) (h : ∀ c ∈ calls, axisCallOk c = true)
include h

theorem run_max : asNumber (a.run calls).max = lastSaid saysMax (asNumber a.max) calls := by
  refine axis_field (fun a => asNumber a.max) _ calls ?_ a
  intro a c hc
  cases c with
  | max v => exact asNumber_some (numberText_parts (h _ hc)).2
  | _ => first | rfl | (simp only [AxisOpts.exec]; split <;> rfl)

theorem run_min : asNumber (a.run calls).min = lastSaid saysMin (asNumber a.min) calls := by
  refine axis_field (fun a => asNumber a.min) _ calls ?_ a
  intro a c hc
  cases c with
  | min v => exact asNumber_some (numberText_parts (h _ hc)).2
  | _ => first | rfl | (simp only [AxisOpts.exec]; split <;> rfl)

theorem run_majorUnit : asNumber (a.run calls).majorUnit = lastSaid saysMajorUnit (asNumber a.majorUnit) calls := by
  refine axis_field (fun a => asNumber a.majorUnit) _ calls ?_ a
  intro a c hc
  cases c with
  | majorUnit neg v =>
    cases neg with
    | true => rfl
    | false => exact asNumber_some (numberText_parts (h _ hc)).2
  | _ => first | rfl | (simp only [AxisOpts.exec]; split <;> rfl)

theorem run_minorUnit : asNumber (a.run calls).minorUnit = lastSaid saysMinorUnit (asNumber a.minorUnit) calls := by
  refine axis_field (fun a => asNumber a.minorUnit) _ calls ?_ a
  intro a c hc
  cases c with
  | minorUnit neg v =>
    cases neg with
    | true => rfl
    | false => exact asNumber_some (numberText_parts (h _ hc)).2
  | _ => first | rfl | (simp only [AxisOpts.exec]; split <;> rfl)

end Numbers

/-- The base of the logarithms, `none` if there is none. -/
def asBase (n : Nat) : Option Nat := if n ≥ 2 then some n else none

theorem run_logBase (a : AxisOpts) (calls : List AxisCall) : asBase (a.run calls).logBase = lastSaid saysLogBase (asBase a.logBase) calls := by
  refine axis_field (fun a => asBase a.logBase) _ calls ?_ a
  intro a c _
  cases c with
  | logBase n =>
    show asBase (a.exec (.logBase n)).logBase = (if 2 ≤ n then some (some n) else none : Option (Option Nat)).getD (asBase a.logBase)
    unfold AxisOpts.exec
    dsimp only
    by_cases hn : n ≥ 2
    · rw [if_pos hn, if_pos hn]; exact if_pos hn
    · rw [if_neg hn, if_neg hn]; rfl
  | _ => first | rfl | (simp only [AxisOpts.exec]; split <;> rfl)

/-! ### Safe calls make safe axes -/

theorem cFontOk_title {f : CFont} (h : cFontOk f = true) : cFontOk f.forTitle = true := h

theorem cFontOk_axis {f : CFont} (h : cFontOk f = true) : cFontOk f.forAxis = true := h

theorem cLineOk_color {l : CLine} (h : cLineOk l = true) : l.color.isValid = true := by
  unfold cLineOk at h
  rw [Bool.and_eq_true] at h
  exact h.1

theorem axisOk_exec {a : AxisOpts} (h : a.Ok) {c : AxisCall} (hc : axisCallOk c = true) : (a.exec c).Ok := by
  cases c with
  | name t r =>
    refine { h with title := { h.title with name := ?_ } }
    show plain (if r.hasData then a.title.name else t) = true
    split
    · exact h.title.name
    · exact hc
  | nameFont f => exact { h with title := { h.title with font := cFontOk_title hc } }
  | format f => exact { h with format := hc }
  | font f => exact { h with font := fun g e => by cases e; exact cFontOk_axis hc }
  | numFormat s => exact { h with numFormat := hc }
  | crossing x =>
    refine { h with crossing := fun v e => ?_ }
    have e : x = .value v := e
    subst e
    exact hc
  | max v => exact { h with max := (numberText_parts hc).1 }
  | min v => exact { h with min := (numberText_parts hc).1 }
  | majorUnit neg v =>
    cases neg with
    | true => exact h
    | false => exact { h with majorUnit := (numberText_parts hc).1 }
  | minorUnit neg v =>
    cases neg with
    | true => exact h
    | false => exact { h with minorUnit := (numberText_parts hc).1 }
  | majorGridLine l => exact { h with majorLine := fun g e => by cases e; exact cLineOk_color hc }
  | minorGridLine l => exact { h with minorLine := fun g e => by cases e; exact cLineOk_color hc }
  | labelLayout l => exact { h with title := { h.title with layout := hc } }
  | logBase n =>
    unfold AxisOpts.exec
    dsimp only
    split
    · exact { h with }
    · exact h
  | _ => exact { h with }

theorem axisOk_run {a : AxisOpts} (h : a.Ok) {calls : List AxisCall} (hc : ∀ c ∈ calls, axisCallOk c = true) : (a.run calls).Ok :=
  axis_keeps AxisOpts.Ok calls (fun _ c hm ha => axisOk_exec ha (hc c hm)) a h

/-- An axis of a new chart. -/
structure NewAxis (a : AxisOpts) : Prop where
  title : a.title = { horizontal := a.title.horizontal }
  format : a.format = {}
  font : a.font = none
  numFormat : a.numFormat = []
  linked : a.linked = false
  reverse : a.reverse = false
  max : a.max = []
  min : a.min = []
  majorUnit : a.majorUnit = []
  minorUnit : a.minorUnit = []
  minorGrid : a.minorGrid = false
  majorLine : a.majorGridLine = none
  minorLine : a.minorGridLine = none
  logBase : a.logBase = 0
  labelInterval : a.labelInterval = 0
  tickInterval : a.tickInterval = 0
  minorTick : a.minorTick = none
  majorDate : a.majorDateUnit = none
  minorDate : a.minorDateUnit = none
  displayUnit : a.displayUnit = .none
  unitShown : a.displayUnitShown = false
  labelAlign : a.labelAlign = .center
  crossing : ∀ v, a.crossing ≠ .value v
  auto : a.axisType ≠ .date → a.automatic = false

theorem newAxis (g : ChartGroup) (n : AxisName) : NewAxis (axisOf (newAxes g) n) := by
  cases g <;> cases n <;> exact ⟨rfl, rfl, rfl, rfl, rfl, rfl, rfl, rfl, rfl, rfl, rfl, rfl, rfl, rfl, rfl, rfl, rfl, rfl, rfl, rfl, rfl, rfl, nofun, by decide⟩

theorem NewAxis.ok {a : AxisOpts} (h : NewAxis a) : a.Ok := by
  refine ⟨?_, by rw [h.title], by rw [h.format]; decide +kernel, by rw [h.font]; exact nofun, by rw [h.majorLine]; exact nofun,
    by rw [h.minorLine]; exact nofun, by rw [h.numFormat]; rfl, by rw [h.max]; rfl, by rw [h.min]; rfl, by rw [h.majorUnit]; rfl,
    by rw [h.minorUnit]; rfl, fun v e => absurd e (h.crossing v)⟩
  rw [h.title]
  exact ⟨rfl, by show cFormatOk {} = true; decide +kernel, by show cFontOk {} = true; decide +kernel, by show cLayoutOk {} = true; decide +kernel⟩

/-! ### From the elements to the meaning -/

theorem side_text (s : AxisSide) : s.text = sideName s := by cases s <;> rfl

theorem side_opposite (s : AxisSide) : s.reverse = opposite s := by cases s <;> rfl

/-- All names are texts. -/
theorem names_text {a : AxisOpts} {calls : List AxisCall} (ha : a.title.name = []) (hr : a.title.ref.range.sheet = [])
    (h : ∀ t r, AxisCall.name t r ∈ calls → r.sheet = []) :
    (a.run calls).title.ref.range.sheet = [] ∧
    match lastSaid saysName none calls with
    | none => (a.run calls).title.name = []
    | some (t, r) => (a.run calls).title.name = t ∧ r.sheet = [] := by
  have e : (fun b : AxisOpts => b.title.name) (a.run calls) = lastSaid (fun c => match c with | .name t _ => some t | _ => none) a.title.name calls := by
    refine axis_field (·.title.name) _ calls ?_ a
    intro a c hc
    cases c with
    | name t r =>
      show (if r.hasData then a.title.name else t) = t
      rw [if_neg]
      rw [hasData_iff]
      exact fun x => x (h t r hc)
    | _ => first | rfl | (simp only [AxisOpts.exec]; split <;> rfl)
  have e : (a.run calls).title.name = _ := e
  have e2 := lastSaid_map (fun o : Option (Text × ChartRange) => (o.map (·.1)).getD []) saysName none calls
  have e3 := lastSaid_map (fun o : Option (Text × ChartRange) => ((o.map (fun p : Text × ChartRange => p.2)).getD ({} : ChartRange)).sheet) saysName none calls
  have e4 : (a.run calls).title.name = ((lastSaid saysName none calls).map (·.1)).getD [] := by
    rw [e, ha, ← e2]
    refine congrArg (fun f => lastSaid f [] calls) (funext fun c => ?_)
    cases c <;> rfl
  have e5 := lastSaid_map (fun r : ChartRange => r.sheet) (fun c => match c with | .name _ r => some r | _ => none) a.title.ref.range calls
  have e6 : (a.run calls).title.ref.range.sheet = ((((lastSaid saysName none calls).map (·.2)).getD {} : ChartRange)).sheet := by
    rw [run_titleRange, ← e5, ← e3, hr]
    refine congrArg (fun f => lastSaid f ([] : Str) calls) (funext fun c => ?_)
    cases c <;> rfl
  have hs : (a.run calls).title.ref.range.sheet = [] :=
    axis_keeps (fun b => b.title.ref.range.sheet = []) calls (by
      intro b c hc hb
      cases c with
      | name t r => exact h t r hc
      | _ => first | exact hb | (simp only [AxisOpts.exec]; split <;> exact hb)) a hr
  refine ⟨hs, ?_⟩
  cases e7 : lastSaid saysName none calls with
  | none => rw [e7] at e4; exact e4
  | some p =>
    rw [e7] at e4 e6
    exact ⟨e4, by rw [← hs]; exact e6.symm⟩

/-- All names are ranges. -/
theorem names_range {a : AxisOpts} {calls : List AxisCall} (ha : a.title.name = []) (hr : a.title.ref.range.sheet = [])
    (h : ∀ t r, AxisCall.name t r ∈ calls → r.sheet ≠ []) :
    (a.run calls).title.name = [] ∧
    match lastSaid saysName none calls with
    | none => (a.run calls).title.ref.range.sheet = []
    | some (_, r) => (a.run calls).title.ref.range.sheet ≠ [] ∧ r.sheet ≠ [] := by
  have hn : (a.run calls).title.name = [] :=
    axis_keeps (fun b => b.title.name = []) calls (by
      intro b c hc hb
      cases c with
      | name t r =>
        show (if r.hasData then b.title.name else t) = []
        rw [if_pos ((hasData_iff r).mpr (h t r hc))]
        exact hb
      | _ => first | exact hb | (simp only [AxisOpts.exec]; split <;> exact hb)) a ha
  refine ⟨hn, ?_⟩
  have e3 := lastSaid_map (fun o : Option (Text × ChartRange) => ((o.map (fun p : Text × ChartRange => p.2)).getD ({} : ChartRange)).sheet) saysName none calls
  have e5 := lastSaid_map (fun r : ChartRange => r.sheet) (fun c => match c with | .name _ r => some r | _ => none) a.title.ref.range calls
  have e6 : (a.run calls).title.ref.range.sheet = ((((lastSaid saysName none calls).map (·.2)).getD {} : ChartRange)).sheet := by
    rw [run_titleRange, ← e5, ← e3, hr]
    refine congrArg (fun f => lastSaid f ([] : Str) calls) (funext fun c => ?_)
    cases c <;> rfl
  have hm : ∀ q, lastSaid saysName none calls = some q → q.2.sheet ≠ [] := by
    intro q hq
    unfold lastSaid at hq
    cases e : calls.reverse.findSome? saysName with
    | none => rw [e] at hq; cases hq
    | some y =>
      rw [e] at hq
      have hq : y = some q := hq
      subst hq
      obtain ⟨c, hc, hy⟩ := List.exists_of_findSome?_eq_some e
      cases c with
      | name t r =>
        injection hy with hy
        injection hy with hy
        subst hy
        exact h t r (List.mem_reverse.mp hc)
      | _ => cases hy
  cases e7 : lastSaid saysName none calls with
  | none => rw [e7] at e6; exact e6
  | some p =>
    rw [e7] at e6
    have := hm p e7
    exact ⟨by rw [e6]; exact this, this⟩

theorem lastSaid_all {κ α : Type} (f : κ → Option α) (x : α) (calls : List κ) (P : α → Prop) (hx : P x)
    (hf : ∀ c ∈ calls, ∀ a, f c = some a → P a) : P (lastSaid f x calls) := by
  unfold lastSaid
  cases e : calls.reverse.findSome? f with
  | none => exact hx
  | some a =>
    obtain ⟨c, hc, ha⟩ := List.exists_of_findSome?_eq_some e
    exact hf c (List.mem_reverse.mp hc) a ha

theorem layout_unset {l : CLayout} (h : ¬ l.isSet = true) : none = l.x ∧ none = l.y := by
  unfold CLayout.isSet at h
  cases hx : l.x <;> cases hy : l.y <;> simp_all

theorem hasFormatting_default : (CFormat.hasFormatting {}) = false := by decide +kernel

/-- What a title shows is what was asked for. -/
theorem title_meant {new : AxisOpts} (hnew : NewAxis new) {calls : List AxisCall} (hc : ∀ c ∈ calls, axisCallOk c = true)
    {s : Option TitleLook}
    (h : (s = none ∧ (new.run calls).title.name = [] ∧ (new.run calls).title.ref.range.hasData = false ∧
        (new.run calls).title.format.hasFormatting = false) ∨
      ∃ q, s = some q ∧ TitleShown (new.run calls).title q ∧
        ((new.run calls).title.name ≠ [] ∨ (new.run calls).title.ref.range.hasData = true ∨
          (new.run calls).title.format.hasFormatting = true))
    (ha : namesAlike calls) : AxisTitleMeant new.title.horizontal calls s := by
  obtain ⟨_, x1, x2, x3, _⟩ := run_fixed new calls
  have hn0 : new.title.name = [] := by rw [hnew.title]
  have hr0 : new.title.ref.range.sheet = [] := by rw [hnew.title]
  have hfmt : (new.run calls).title.format.hasFormatting = false := by
    rw [x3, hnew.title]; exact hasFormatting_default
  have hlook : ∀ q, TitleShown (new.run calls).title q → ((new.run calls).title.name ≠ [] ∨ (new.run calls).title.ref.range.hasData = true) →
      (∃ x, q.look = some x ∧ TextMeant new.title.horizontal true
        (lastSaid saysNameFont {} calls) x) ∧ q.overlay = false ∧
      (q.layout.bind fun l => l.x) = (lastSaid saysNameLayout {} calls).x ∧
      (q.layout.bind fun l => l.y) = (lastSaid saysNameLayout {} calls).y := by
    intro q hq ho
    refine ⟨⟨_, hq.look (ho.imp id fun h => ⟨h, hfmt⟩), ?_⟩, by rw [hq.overlay, x2, hnew.title], ?_⟩
    · rw [x1, run_titleFont]
      have e := lastSaid_map (fun f : CFont => textSeen new.title.horizontal f)
        (fun c => match c with | AxisCall.nameFont f => some f.forTitle | _ => none) new.title.font calls
      have e' := lastSaid_map (fun f : CFont => textSeen new.title.horizontal f)
        saysNameFont new.title.font calls
      have e1 : textSeen new.title.horizontal (lastSaid (fun c => match c with | AxisCall.nameFont f => some f.forTitle | _ => none) new.title.font calls) =
          textSeen new.title.horizontal (lastSaid saysNameFont new.title.font calls) := by
        rw [← e, ← e']
        refine congrArg (fun f => lastSaid f (textSeen new.title.horizontal new.title.font) calls) (funext fun c => ?_)
        cases c <;> rfl
      rw [e1, show new.title.font = {} by rw [hnew.title]]
      refine text_title _ _ ?_
      refine lastSaid_all _ {} calls (fun f : CFont => f.strikethrough = false) rfl ?_
      intro c hm f hf
      cases c with
      | nameFont f' =>
        injection hf with hf
        subst hf
        exact (cFontOk_parts (hc _ hm)).2.2.1
      | _ => cases hf
    · rw [hq.layout, run_titleLayout, show new.title.layout = {} by rw [hnew.title]]
      generalize lastSaid _ ({} : CLayout) calls = l
      unfold layoutSeen
      by_cases hs : l.isSet = true
      · rw [if_pos hs]; exact ⟨rfl, rfl⟩
      · rw [if_neg hs]
        exact layout_unset hs
  unfold AxisTitleMeant
  dsimp only
  rcases ha with ha | ha
  · have key := names_text hn0 hr0 ha
    have hd : (new.run calls).title.ref.range.hasData = false := by
      cases e : (new.run calls).title.ref.range.hasData with
      | false => rfl
      | true => exact absurd key.1 ((hasData_iff _).mp e)
    have key := key.2
    cases e : lastSaid saysName none calls with
    | none =>
      rw [e] at key
      rcases h with ⟨h, _⟩ | ⟨q, _, _, h | h | h⟩
      · exact h
      · exact absurd key h
      · rw [hd] at h; cases h
      · rw [hfmt] at h; cases h
    | some p =>
      rw [e] at key
      obtain ⟨k1, k2⟩ := key
      dsimp only
      rw [if_neg (fun x => x k2)]
      by_cases ht : p.1 = []
      · rw [if_pos ht]
        rw [ht] at k1
        rcases h with ⟨h, _⟩ | ⟨q, _, _, h | h | h⟩
        · exact h
        · exact absurd k1 h
        · rw [hd] at h; cases h
        · rw [hfmt] at h; cases h
      · rw [if_neg ht]
        have hne : (new.run calls).title.name ≠ [] := by rw [k1]; exact ht
        rcases h with ⟨_, h, _⟩ | ⟨q, hs, hq, _⟩
        · exact absurd h hne
        · refine ⟨q, hs, ?_, hlook q hq (Or.inl hne)⟩
          rw [hq.text, if_neg hne, k1]
  · have key := names_range hn0 hr0 ha
    obtain ⟨hn, key⟩ := key
    cases e : lastSaid saysName none calls with
    | none =>
      rw [e] at key
      rcases h with ⟨h, _⟩ | ⟨q, _, _, h | h | h⟩
      · exact h
      · exact absurd hn h
      · exact absurd key ((hasData_iff _).mp h)
      · rw [hfmt] at h; cases h
    | some p =>
      rw [e] at key
      obtain ⟨k1, k2⟩ := key
      dsimp only
      rw [if_pos k2]
      have hd := (hasData_iff _).mpr k1
      rcases h with ⟨_, _, h, _⟩ | ⟨q, hs, hq, _⟩
      · rw [h] at hd; cases hd
      · refine ⟨q, hs, ?_, hlook q hq (Or.inr hd)⟩
        rw [hq.text, if_pos hn]

theorem common_meant {new newO : AxisOpts} (hnew : NewAxis new) (hnewO : NewAxis newO) {calls other : List AxisCall}
    (hc : ∀ c ∈ calls, axisCallOk c = true) {kind : Text} {ks : List Node} {s : AxisLook}
    (h : AxisShown (new.run calls) (newO.run other) kind ks s) : AxisMeant new newO calls other s := by
  obtain ⟨x0, _⟩ := run_fixed new calls
  refine { side := ?_, title := title_meant hnew hc h.title, reversed := ?_, hidden := ?_, majorGrid := ?_, minorGrid := ?_, labels := ?_, majorTick := ?_, minorTick := ?_, code := ?_, format := ?_, font := ?_ }
  · intro _
    rw [h.side, side_text, run_reverse, run_crossing, hnewO.reverse, Bool.false_or, x0, side_opposite]
    simp only [decide_eq_true_eq]
  · rw [h.reversed, run_reverse, hnew.reverse, Bool.false_or]
  · rw [h.hidden, run_hidden]
  · have := h.majorGrid
    rwa [run_majorGrid, run_majorLine, hnew.majorLine] at this
  · have := h.minorGrid
    rwa [run_minorGrid, run_minorLine, hnew.minorGrid, hnew.minorLine] at this
  · rw [h.labels, run_labelPlace]
  · rw [h.majorTick, run_majorTick]
  · rw [h.minorTick, run_minorTick, hnew.minorTick]
  · intro v hv hne
    rw [← hnew.numFormat, ← run_numFormat] at hv
    rw [h.code (by rw [hv]; exact hne), hv, run_linked, hnew.linked]
  · have := h.format
    rwa [run_format, hnew.format] at this
  · rw [h.font, run_font, hnew.font]
    have e := lastSaid_map (fun o : Option CFont => o.map (·.forAxis)) saysFont none calls
    have e' : lastSaid saysAxisFont none calls = (lastSaid saysFont none calls).map (·.forAxis) := by
      rw [← e]
      refine congrArg (fun f => lastSaid f (none : Option CFont) calls) (funext fun c => ?_)
      cases c <;> rfl
    rw [e']
    have hall : ∀ f, lastSaid saysFont none calls = some f → f.strikethrough = false := by
      intro f hf
      have := lastSaid_all saysFont none calls
        (fun o : Option CFont => ∀ f, o = some f → f.strikethrough = false) nofun (by
          intro c hm o ho f hf
          cases c with
          | font f' =>
            injection ho with ho
            subst ho
            injection hf with hf
            subst hf
            exact (cFontOk_parts (hc _ hm)).2.2.1
          | _ => cases ho)
      exact this f hf
    split
    · rename_i e1
      simp only [e1]; rfl
    · rename_i f e1
      simp only [e1]
      exact ⟨_, rfl, text_axis f (hall f e1)⟩

theorem asNumber_if {P : Prop} [Decidable P] (hp : P) (s : Str) : (if P ∧ s ≠ [] then some s else none) = asNumber s := by
  unfold asNumber
  simp [hp]

theorem value_meant {new newO : AxisOpts} (hnew : NewAxis new) {calls other : List AxisCall}
    (hc : ∀ c ∈ calls, axisCallOk c = true) {ks : List Node} {s : AxisLook} {ctx : AxisCtx}
    (h : AxisShown (new.run calls) (newO.run other) "c:valAx".toList ks s) (hf : FormShown (new.run calls) (newO.run other) ctx s .val)
    (ht : (new.run calls).axisType ≠ .category) : ValueMeant newO calls other s := by
  obtain ⟨f1, f2, f3, f4⟩ := hf
  obtain ⟨f5, f6⟩ := f3 ht
  refine { kind := h.kind, max := ?_, min := ?_, logBase := ?_, majorUnit := ?_, minorUnit := ?_, cross := ?_, between := ?_, units := ?_ }
  · rw [h.max, asNumber_if ht, run_max _ _ hc, hnew.max]; rfl
  · rw [h.min, asNumber_if ht, run_min _ _ hc, hnew.min]; rfl
  · have e := run_logBase new calls
    rw [hnew.logBase] at e
    have e2 : s.logBase = (asBase (new.run calls).logBase).map showNat := by
      rw [h.logBase]
      unfold asBase
      by_cases hb : (new.run calls).logBase ≥ 2
      · rw [if_pos ⟨ht, hb⟩, if_pos hb]; rfl
      · rw [if_neg (fun x => hb x.2), if_neg hb]; rfl
    rw [e2, e]; rfl
  · rw [f5]
    show asNumber _ = _
    rw [run_majorUnit _ _ hc, hnew.majorUnit]; rfl
  · rw [f6]
    show asNumber _ = _
    rw [run_minorUnit _ _ hc, hnew.minorUnit]; rfl
  · rw [f1, run_crossing]
  · rw [f2, run_between]
  · rw [f4, run_displayUnit, run_unitShown, hnew.displayUnit, hnew.unitShown]
    generalize lastSaid saysUnit DisplayUnit.none calls = u
    cases u <;> rfl

theorem cross_meant {g : ChartGroup} {a newO : AxisOpts} {other : List AxisCall} {s : AxisLook} {ctx : AxisCtx} (hx : ctx.hasCrosses = g.hasCrosses)
    (hh : s.hidden = a.hidden) (h : s.cross = catCrossSeen a (newO.run other) ctx) : CategoryCross g newO other s := by
  intro h1 h2
  rw [h]
  unfold catCrossSeen
  have : (ctx.hasCrosses || !a.hidden) = true := by
    rcases h1 with h1 | h1
    · rw [← hh, h1]; simp
    · rw [hx]
      unfold ChartGroup.hasCrosses
      cases g <;> simp_all
  rw [if_pos this, run_crossing]
  revert h2
  generalize lastSaid saysCrossing newO.crossing other = c
  intro h2
  cases c with
  | category n => exact absurd rfl (h2 n)
  | _ => rfl

theorem skip_meant (n : Nat) (h : n ≠ 1) : (if n > 1 then some (showNat n) else none) = if n = 0 then none else some (showNat n) := by
  by_cases h0 : n = 0
  · subst h0; rfl
  · rw [if_pos (by omega), if_neg h0]

theorem category_meant {g : ChartGroup} {new newO : AxisOpts} (hnew : NewAxis new) {calls other : List AxisCall}
    {ks : List Node} {s : AxisLook} {ctx : AxisCtx} (hx : ctx.hasCrosses = g.hasCrosses)
    (h : AxisShown (new.run calls) (newO.run other) "c:catAx".toList ks s) (hf : FormShown (new.run calls) (newO.run other) ctx s .cat)
    (ht : (new.run calls).axisType ≠ .date) : CategoryMeant g newO calls other s := by
  obtain ⟨f1, f2, f3, f4, f5⟩ := hf
  refine { kind := h.kind, cross := cross_meant hx h.hidden f1, auto := ?_, labelAlign := ?_, labelSkip := ?_, tickSkip := ?_ }
  · intro hn
    have hcat : new.axisType ≠ .date := by
      have e : (new.run calls).axisType = new.axisType :=
        axis_keeps (fun b => b.axisType = new.axisType) calls (by
          intro b c hc hb
          cases c with
          | dateAxis x => exact absurd hc (hn x).1
          | _ => first | exact hb | (simp only [AxisOpts.exec]; split <;> exact hb)) new rfl
      rw [← e]; exact ht
    rw [f2, run_auto _ _ hn, hnew.auto hcat]
  · rw [f3, run_labelAlign, hnew.labelAlign]
  · intro n hn h1
    rw [← hnew.labelInterval, ← run_labelInterval] at hn
    rw [f4, hn]
    exact skip_meant n h1
  · intro n hn h1
    rw [← hnew.tickInterval, ← run_tickInterval] at hn
    rw [f5, hn]
    exact skip_meant n h1

theorem date_meant {g : ChartGroup} {new newO : AxisOpts} (hnew : NewAxis new) {calls other : List AxisCall}
    (hc : ∀ c ∈ calls, axisCallOk c = true) {ks : List Node} {s : AxisLook} {ctx : AxisCtx} (hx : ctx.hasCrosses = g.hasCrosses)
    (h : AxisShown (new.run calls) (newO.run other) "c:dateAx".toList ks s) (hf : FormShown (new.run calls) (newO.run other) ctx s .date)
    (ht : (new.run calls).axisType = .date) : DateMeant g newO calls other s := by
  obtain ⟨f1, f2, f3, f4, f5⟩ := hf
  have ht' : (new.run calls).axisType ≠ .category := by rw [ht]; exact nofun
  refine { kind := h.kind, cross := cross_meant hx h.hidden f1, max := ?_, min := ?_, majorUnit := ?_, minorUnit := ?_, majorTime := ?_, minorTime := ?_ }
  · rw [h.max, asNumber_if ht', run_max _ _ hc, hnew.max]; rfl
  · rw [h.min, asNumber_if ht', run_min _ _ hc, hnew.min]; rfl
  · rw [f2]
    show asNumber _ = _
    rw [run_majorUnit _ _ hc, hnew.majorUnit]; rfl
  · rw [f3]
    show asNumber _ = _
    rw [run_minorUnit _ _ hc, hnew.minorUnit]; rfl
  · rw [f4, run_majorDate, hnew.majorDate]
  · rw [f5, run_minorDate, hnew.minorDate]

/-! ### The axes of a chart -/

theorem axes_run (a : AxesOpts) (calls : List (AxisName × AxisCall)) (n : AxisName) :
    axisOf (calls.foldl AxesOpts.exec a) n = (axisOf a n).run (axisCalls n calls) := by
  induction calls generalizing a with
  | nil => rfl
  | cons c calls ih =>
    obtain ⟨m, c⟩ := c
    rw [List.foldl_cons, ih]
    cases m <;> cases n <;> rfl

/-- An axis of the skeleton with the elements of an axis; the cache of the title may be filled. -/
structure IsAxis (a other : AxisOpts) (ctx : AxisCtx) (form : AxisForm) (x : ChartAxis) : Prop where
  title : IsTitle a.title x.title
  isDate : x.isDate = decide (a.axisType = .date)
  pre : x.pre = secTrees (a.preSecs other)
  mid : x.mid = secTrees (a.midSecs (a.numFmtOf ctx form))
  post : x.post = secTrees (a.postOf other ctx form)

theorem isAxis (a other : AxisOpts) (ctx : AxisCtx) (form : AxisForm) : IsAxis a other ctx form (a.toAxis other ctx form) :=
  ⟨⟨rfl, rfl, rfl, rfl, rfl⟩, rfl, rfl, rfl, rfl⟩

theorem IsAxis.update {a other : AxisOpts} {ctx : AxisCtx} {form : AxisForm} {x : ChartAxis} (h : IsAxis a other ctx form x) (m : CacheMap) :
    IsAxis a other ctx form (x.update m) :=
  ⟨⟨h.title.name, (update_range _ _).trans h.title.range, h.title.rich, h.title.rest, h.title.only⟩, h.isDate, h.pre, h.mid, h.post⟩

theorem axis_kids {U : Unicode} {a other : AxisOpts} {ctx : AxisCtx} {form : AxisForm} {x : ChartAxis} (h : IsAxis a other ctx form x)
    (tag : Str) (id cross : Nat) : (treeParts (axisTree U tag id cross x)).2 =
      toNodes (secTrees (axisSecs U id cross x.title a other (a.numFmtOf ctx form) (a.postOf other ctx form))) := by
  show toNodes _ = toNodes _
  rw [h.pre, h.mid, h.post]
  unfold axisSecs secTrees
  simp only [List.flatMap_cons, List.flatMap_append, List.append_assoc]
  rfl

theorem form_read {U : Unicode} {a other : AxisOpts} {ctx : AxisCtx} {form : AxisForm} {x : ChartAxis} (h : IsAxis a other ctx form x)
    (ha : a.Ok) (ho : other.Ok) (hx : attrSafe ctx.numFormat = true) (ht : ∀ k ∈ chartTitleTrees U x.title, treeOk k = true)
    (tag : Str) (id cross : Nat) :
    ∃ ks s, readAxisLook tag (treeParts (axisTree U tag id cross x)).2 = some s ∧ AxisShown a other tag ks s ∧ FormShown a other ctx s form := by
  obtain ⟨s, h1, h2, h3⟩ := axis_read (U := U) ctx form id cross tag ha ho h.title ht hx
  exact ⟨_, s, by rw [axis_kids h]; exact h1, h2, h3⟩

/-- The form of the axis of the categories. -/
def formOf (drawn : ChartGroup) (date : Bool) : AxisForm := if drawn = .scatter then .val else if date then .date else .cat

theorem pair_meant {U : Unicode} {g drawn : ChartGroup} {calls : List (AxisName × AxisCall)} (hc : ∀ c ∈ calls, axisCallOk c.2 = true)
    {cat val : AxisName} {date : Bool} {ctx : AxisCtx} (hx : attrSafe ctx.numFormat = true) (hcross : ctx.hasCrosses = g.hasCrosses)
    {c v : ChartAxis}
    (hcat : IsAxis (axisOf (calls.foldl AxesOpts.exec (newAxes g)) cat) (axisOf (calls.foldl AxesOpts.exec (newAxes g)) val) ctx (formOf drawn date) c)
    (hval : IsAxis (axisOf (calls.foldl AxesOpts.exec (newAxes g)) val) (axisOf (calls.foldl AxesOpts.exec (newAxes g)) cat) ctx .val v)
    (htc : ∀ k ∈ chartTitleTrees U c.title, treeOk k = true) (htv : ∀ k ∈ chartTitleTrees U v.title, treeOk k = true)
    (hd : drawn ≠ .scatter → (kindAsked g calls cat = .date ↔ date = true)) (ids : Nat × Nat) :
    ∃ sc sv, readAxisLook (catAxisTag drawn date) (treeParts (axisTree U (catAxisTag drawn date) ids.1 ids.2 c)).2 = some sc ∧
      readAxisLook "c:valAx".toList (treeParts (axisTree U "c:valAx".toList ids.2 ids.1 v)).2 = some sv ∧
      PairMeant g drawn calls cat val sc sv := by
  have hon : ∀ n, ∀ c ∈ axisCalls n calls, axisCallOk c = true := by
    intro n c hm
    unfold axisCalls at hm
    obtain ⟨p, hp, e⟩ := List.mem_filterMap.mp hm
    split at e
    · cases e; exact hc p hp
    · cases e
  rw [axes_run, axes_run] at hcat hval
  have nc := newAxis g cat
  have nv := newAxis g val
  have oc := axisOk_run nc.ok (hon cat)
  have ov := axisOk_run nv.ok (hon val)
  obtain ⟨_, sc, r1, s1, f1⟩ := form_read hcat oc ov hx htc (catAxisTag drawn date) ids.1 ids.2
  obtain ⟨_, sv, r2, s2, f2⟩ := form_read hval ov oc hx htv "c:valAx".toList ids.2 ids.1
  have kc : ((axisOf (newAxes g) cat).run (axisCalls cat calls)).axisType = kindAsked g calls cat := run_axisType _ _
  have kv : ((axisOf (newAxes g) val).run (axisCalls val calls)).axisType = kindAsked g calls val := run_axisType _ _
  refine ⟨sc, sv, r1, r2, common_meant nc nv (hon cat) s1, common_meant nv nc (hon val) s2,
    fun h => value_meant nv (hon val) s2 f2 (by rw [kv]; exact h), ?_, ?_, ?_⟩
  · intro hs h
    subst hs
    exact value_meant nc (hon cat) s1 f1 (by rw [kc]; exact h)
  · intro hs h
    have hdf : date = false := by
      cases e : date with
      | false => rfl
      | true => exact absurd ((hd hs).mpr e) h
    subst hdf
    have e1 : catAxisTag drawn false = "c:catAx".toList := by unfold catAxisTag; rw [if_neg hs]; rfl
    have e2 : formOf drawn false = .cat := by unfold formOf; rw [if_neg hs]; rfl
    rw [e1] at s1
    rw [e2] at f1
    exact category_meant nc hcross s1 f1 (by rw [kc]; exact h)
  · intro hs h
    have hdt := (hd hs).mp h
    subst hdt
    have e1 : catAxisTag drawn true = "c:dateAx".toList := by unfold catAxisTag; rw [if_neg hs]; rfl
    have e2 : formOf drawn true = .date := by unfold formOf; rw [if_neg hs]; rfl
    rw [e1] at s1
    rw [e2] at f1
    exact date_meant nc (hon cat) hcross s1 f1 (by rw [kc]; exact h)

theorem free_secs {tags : List Text} {secs : List (Str × List Tree)} (h : SecsOk secs) (hn : ∀ n ∈ secs.map Prod.fst, n ∉ tags) :
    Free tags (secTrees secs) := by
  intro t ht
  obtain ⟨p, hp, hm⟩ := List.mem_flatMap.mp ht
  have := h p hp t hm
  exact ⟨this.1, by rw [this.2]; exact hn _ (List.mem_map.mpr ⟨p, hp, rfl⟩)⟩

theorem axisGood_of {a other : AxisOpts} (ha : a.Ok) (ho : other.Ok) {ctx : AxisCtx} (hx : attrSafe ctx.numFormat = true) (form : AxisForm)
    (hr : a.title.ref.range.sheet ≠ [] → RefGood U parses shown .name a.title.ref.range) :
    AxisGood U parses shown (a.toAxis other ctx form) := by
  have hrest : Free ["c:tx".toList] (secTrees a.title.restSecs) := free_secs (rest_secs ha.title) (by rw [rest_names]; decide +kernel)
  refine ⟨⟨fun _ h => hr h, rich_ok ha.title, hrest, ?_⟩, free_secs (pre_secs ha) ?_, free_secs (mid_secs ha (code_trees ha hx form).ok) ?_,
    free_secs (post_secs ha ho ctx form) ?_⟩
  · intro ts hts
    have hts : (if a.title.format.hasFormatting = true then some (secTrees a.title.restSecs) else none) = some ts := hts
    split at hts
    · cases hts; exact hrest
    · cases hts
  · show ∀ n ∈ ["c:scaling".toList, "c:delete".toList, "c:axPos".toList, "c:majorGridlines".toList, "c:minorGridlines".toList], _
    decide +kernel
  · show ∀ n ∈ ["c:numFmt".toList, "c:majorTickMark".toList, "c:minorTickMark".toList, "c:tickLblPos".toList, "c:spPr".toList, "c:txPr".toList], _
    decide +kernel
  · cases form with
    | cat =>
      show ∀ n ∈ ["c:crosses".toList, "c:crossesAt".toList, "c:auto".toList, "c:lblAlgn".toList,
       "c:lblOffset".toList, "c:tickLblSkip".toList, "c:tickMarkSkip".toList], _
      decide +kernel
    | date =>
      show ∀ n ∈ ["c:crosses".toList, "c:crossesAt".toList, "c:auto".toList,
       "c:lblOffset".toList, "c:tickLblSkip".toList, "c:tickMarkSkip".toList, "c:majorUnit".toList, "c:majorTimeUnit".toList,
       "c:minorUnit".toList, "c:minorTimeUnit".toList], _
      decide +kernel
    | val =>
      show ∀ n ∈ ["c:crosses".toList, "c:crossesAt".toList, "c:crossBetween".toList,
       "c:majorUnit".toList, "c:minorUnit".toList, "c:dispUnits".toList], _
      decide +kernel

/-- The range of the title of an axis is one that was given. -/
theorem title_range {g : ChartGroup} (n : AxisName) {calls : List (AxisName × AxisCall)} {P : ChartRange → Prop}
    (h : ∀ t r, (n, AxisCall.name t r) ∈ calls → r.sheet ≠ [] → P r) :
    (axisOf (calls.foldl AxesOpts.exec (newAxes g)) n).title.ref.range.sheet ≠ [] →
      P (axisOf (calls.foldl AxesOpts.exec (newAxes g)) n).title.ref.range := by
  rw [axes_run, run_titleRange]
  refine lastSaid_all _ _ _ (fun r : ChartRange => r.sheet ≠ [] → P r) ?_ ?_
  · intro h0
    rw [(newAxis g n).title] at h0
    exact absurd rfl h0
  · intro c hc r hr
    unfold axisCalls at hc
    obtain ⟨p, hp, e⟩ := List.mem_filterMap.mp hc
    split at e
    · rename_i hn
      obtain ⟨m, c'⟩ := p
      have hn : m = n := hn
      subst hn
      injection e with e
      have e : c' = c := e
      subst e
      cases c' with
      | name t r' =>
        injection hr with hr
        subst hr
        exact h t r' hp
      | _ => cases hr
    · cases e

theorem axesOk {g : ChartGroup} {calls : List (AxisName × AxisCall)} (hc : ∀ c ∈ calls, axisCallOk c.2 = true) (n : AxisName) :
    (axisOf (calls.foldl AxesOpts.exec (newAxes g)) n).Ok := by
  rw [axes_run]
  refine axisOk_run (newAxis g n).ok fun c hm => ?_
  unfold axisCalls at hm
  obtain ⟨p, hp, e⟩ := List.mem_filterMap.mp hm
  split at e
  · cases e; exact hc p hp
  · cases e

/-- A chart with axes meets the conditions of C34 if the chart without them does. -/
theorem withAxes_good {c : Chart} (hg : ChartGood U parses shown c) {calls : List (AxisName × AxisCall)} (hc : ∀ c ∈ calls, axisCallOk c.2 = true)
    {ctx : AxisCtx} (hx : attrSafe ctx.numFormat = true)
    (hr : ∀ n t r, (n, AxisCall.name t r) ∈ calls → r.sheet ≠ [] → (n = .x ∨ n = .y) ∧ RefGood U parses shown .name r) :
    ChartGood U parses shown (c.withAxes calls ctx) := by
  have ok := axesOk (g := c.body.group) hc
  have tr := fun n => title_range (g := c.body.group) n (calls := calls) (P := RefGood U parses shown .name) (fun t r h h' => (hr n t r h h').2)
  have no : ∀ n, n = .x2 ∨ n = .y2 → (axisOf (calls.foldl AxesOpts.exec (newAxes c.body.group)) n).title.ref.range.sheet = [] := by
    intro n hn
    refine Classical.byContradiction fun h => ?_
    have := title_range (g := c.body.group) n (calls := calls) (P := fun _ => False) (fun t r h h' => by
      rcases (hr n t r h h').1 with e | e <;> subst e <;> simp at hn)
    exact this h
  exact ⟨⟨hg.body.head, hg.body.tail, hg.body.tail2, hg.body.series⟩, hg.combined, hg.title, axisGood_of (ok .x) (ok .y) hx _ (tr .x), axisGood_of (ok .y) (ok .x) hx _ (tr .y),
    axisGood_of (ok .x2) (ok .y2) hx _ (tr .x2), axisGood_of (ok .y2) (ok .x2) hx _ (tr .y2), Or.inr (no .x2 (Or.inl rfl)),
    Or.inr (no .y2 (Or.inr rfl)), hg.spacePre, hg.spacePost, hg.layout, hg.areaTail, hg.chartTail⟩

/-- The name and the parts of a tree. -/
def look2 (x : Tree) : Str × (List (Str × Str) × List Node) := (treeTag x, treeParts x)

/-- The axes in the plot area. -/
theorem plotArea_looks {c : Chart} (h : ChartGood U parses shown c) :
    readAxisLooks (chartSpaceTree U parses c).toNode = ((primaryAxes U c.body c.axisIds ++ secondaryAxes U c).map fun x => (treeTag x, treeParts x)).mapM
      fun e => readAxisLook e.1 e.2.2 := by
  have hmap : ∀ l : List Tree, (l.map fun x => (treeTag x, treeParts x)) = l.map (fun x => look2 x) := fun _ => rfl
  rw [hmap]
  rw [toNode_parts]
  unfold readAxisLooks plotAreaOf
  dsimp only
  rw [if_pos (show treeTag (chartSpaceTree U parses c) = "c:chartSpace".toList from rfl)]
  unfold chartSpaceTree
  simp only [treeParts]
  rw [(h.spacePre.noTag (by decide)).child, child_head (t := "c:chart".toList) _ _ (by rfl)]
  unfold chartTree
  simp only [treeParts]
  have e1 : ∀ r, child "c:plotArea".toList (toNodes ((if c.body.titleHidden = true then
      [.empty "c:autoTitleDeleted".toList [("val".toList, "1".toList)]] else chartTitleTrees U c.body.title) ++
      plotAreaTree U parses c :: r)) = some (treeParts (plotAreaTree U parses c)) := by
    intro r
    rw [NoTag.child, child_head _ _ (by rfl)]
    split
    · exact NoTag.cons (by tagne) (NoTag.nil _)
    · exact NoTag.all (chartTitleTrees_tag _) (by decide)
  show (Option.map _ (child "c:plotArea".toList _)).bind _ = _
  rw [e1]
  show (elemsIn axisTags (treeParts (plotAreaTree U parses c)).2).mapM _ = _
  unfold plotAreaTree
  simp only [treeParts]
  rw [elemsIn_trees]
  change ((List.filter _ (c.layout ++ chartTypeTrees U parses c.axisIds c.axis2Ids c.body 0 ++ combinedTrees U parses c ++
    primaryAxes U c.body c.axisIds ++ secondaryAxes U c ++ c.areaTail)).map _).mapM _ = _
  have ha := axes_tag (U := U) c
  simp only [List.filter_append]
  rw [h.layout.filterIn (by simp +contextual), h.areaTail.filterIn (by simp +contextual),
    filterIn_none (tags' := groupTags) (chartType_tag _ _ _ _) (by decide),
    filterIn_none (tags' := groupTags) (combined_tag c) (by decide),
    filterIn_all (fun x hx => ha x (List.mem_append_left _ hx)),
    filterIn_all (fun x hx => ha x (List.mem_append_right _ hx))]
  simp only [List.nil_append, List.append_nil, List.map_append]
  rfl

/-- The axis of the categories. -/
def catName (g : ChartGroup) (first : Bool) : AxisName := if first then (if g = .bar then .y else .x) else (if g = .bar then .y2 else .x2)

/-- The calls leave the kinds of the axes as the code expects: whether the axis of the categories is a date axis is decided by the x axis
of the chart, for bar charts and secondary axes too. -/
structure KindsFit (g drawn2 : ChartGroup) (second : Bool) (calls : List (AxisName × AxisCall)) : Prop where
  first : g ≠ .scatter → (kindAsked g calls (catName g true) = .date ↔ kindAsked g calls .x = .date)
  second : second = true → drawn2 ≠ .scatter → (kindAsked g calls (catName drawn2 false) = .date ↔ kindAsked g calls .x = .date)

theorem axes_read {c : Chart} (hg : ChartGood U parses shown c) {calls : List (AxisName × AxisCall)} (hc : ∀ c ∈ calls, axisCallOk c.2 = true)
    {ctx : AxisCtx} (hx : attrSafe ctx.numFormat = true) (hcross : ctx.hasCrosses = c.body.group.hasCrosses)
    (hr : ∀ n t r, (n, AxisCall.name t r) ∈ calls → r.sheet ≠ [] → (n = .x ∨ n = .y) ∧ RefGood U parses shown .name r)
    (hk : KindsFit c.body.group (secondGroup c) (secondUsed c) calls) (m : CacheMap)
    (hf : ChartFilled shown ((c.withAxes calls ctx).update m)) :
    ∃ looks, readAxisLooks (chartSpaceTree U parses ((c.withAxes calls ctx).update m)).toNode = some looks ∧
      AxesMeant c.body.group (secondGroup c) (secondUsed c) calls looks := by
  have good := withAxes_good hg hc hx hr
  have gm := good.update m
  have hk1 : ∀ n, (axisOf (calls.foldl AxesOpts.exec (newAxes c.body.group)) n).axisType = kindAsked c.body.group calls n := by
    intro n; rw [axes_run]; exact run_axisType _ _
  rw [plotArea_looks gm, List.map_append]
  have eg : secondGroup ((c.withAxes calls ctx).update m) = secondGroup c := by
    unfold secondGroup Chart.update Chart.withAxes
    cases c.combined <;> rfl
  have eg' : (c.combined.map (·.group)).getD c.body.group = secondGroup c := by
    unfold secondGroup
    cases c.combined <;> rfl
  have eu : secondUsed ((c.withAxes calls ctx).update m) = secondUsed c := by
    unfold secondUsed Chart.update Chart.withAxes
    have h1 : ∀ ss : List ChartSeries, (ss.map (·.update m)).any (fun s => s.secondary) = ss.any (fun s => s.secondary) := by
      intro ss; rw [List.any_map]; rfl
    have h2 : ∀ b : ChartBody, (b.update m).series = b.series.map (·.update m) := fun _ => rfl
    dsimp only
    rw [h2, h1]
    congr 1
    cases c.combined with
    | none => rfl
    | some b => show List.any _ _ = _; rw [h2, h1]; rfl
  have en : ((c.withAxes calls ctx).update m).combined.isNone = c.combined.isNone := by
    show (c.combined.map _).isNone = _
    cases c.combined <;> rfl
  have form : ∀ gg, formOf gg (decide ((calls.foldl AxesOpts.exec (newAxes c.body.group)).x.axisType = .date)) =
      (calls.foldl AxesOpts.exec (newAxes c.body.group)).catForm gg := by
    intro gg
    unfold formOf AxesOpts.catForm
    simp only [decide_eq_true_eq]
  have dx : (calls.foldl AxesOpts.exec (newAxes c.body.group)).x.axisType = kindAsked c.body.group calls .x := hk1 .x
  have ebx : ((c.withAxes calls ctx).update m).body.xAxis.isDate = decide ((calls.foldl AxesOpts.exec (newAxes c.body.group)).x.axisType = .date) := rfl
  -- the primary axes
  obtain ⟨p, hp, hpm⟩ : ∃ p, (((primaryAxes U ((c.withAxes calls ctx).update m).body ((c.withAxes calls ctx).update m).axisIds).map
      fun x => (treeTag x, treeParts x)).mapM fun e => readAxisLook e.1 e.2.2) = some p ∧
      (if c.body.group = .pie ∨ c.body.group = .doughnut then p = []
       else ∃ sc sv, p = [sc, sv] ∧ (if c.body.group = .bar then PairMeant c.body.group c.body.group calls .y .x sc sv
         else PairMeant c.body.group c.body.group calls .x .y sc sv)) := by
    rw [primaryAxes_eq]
    rw [show ((c.withAxes calls ctx).update m).body.group = c.body.group from rfl]
    by_cases hpie : c.body.group = .pie ∨ c.body.group = .doughnut
    · rw [if_pos hpie]; exact ⟨[], rfl, by rw [if_pos hpie]⟩
    · rw [if_neg hpie]
      by_cases hb : c.body.group = .bar
      · have hd := hk.first (by rw [hb]; exact nofun)
        rw [show catName c.body.group true = .y by unfold catName; rw [if_pos rfl, if_pos hb]] at hd
        obtain ⟨sc, sv, r1, r2, pm⟩ := pair_meant (U := U) (drawn := c.body.group) (cat := .y) (val := .x)
          (date := decide ((calls.foldl AxesOpts.exec (newAxes c.body.group)).x.axisType = .date)) hc hx hcross
          (c := ((c.withAxes calls ctx).update m).body.yAxis) (v := ((c.withAxes calls ctx).update m).body.xAxis)
          (by
            rw [form]
            have : ((c.withAxes calls ctx).update m).body.yAxis = ((calls.foldl AxesOpts.exec (newAxes c.body.group)).y.toAxis
              (calls.foldl AxesOpts.exec (newAxes c.body.group)).x ctx ((calls.foldl AxesOpts.exec (newAxes c.body.group)).catForm c.body.group)).update m := by
              show (AxisOpts.toAxis _ _ _ _).update m = _
              rw [if_pos hb]
            rw [this]
            exact (isAxis _ _ _ _).update m)
          (by
            have : ((c.withAxes calls ctx).update m).body.xAxis = ((calls.foldl AxesOpts.exec (newAxes c.body.group)).x.toAxis
              (calls.foldl AxesOpts.exec (newAxes c.body.group)).y ctx .val).update m := by
              show (AxisOpts.toAxis _ _ _ _).update m = _
              rw [if_pos hb]
            rw [this]
            exact (isAxis _ _ _ _).update m)
          (chartTitleTrees_ok gm.yAxis.title hf.yAxis) (chartTitleTrees_ok gm.xAxis.title hf.xAxis)
          (fun _ => by rw [hd, decide_eq_true_eq, dx]) ((c.withAxes calls ctx).update m).axisIds
        refine ⟨[sc, sv], ?_, ?_⟩
        · unfold axisPair
          rw [if_pos hb, if_pos hb, ebx]
          exact mapM_two r1 r2
        · rw [if_neg hpie]
          exact ⟨sc, sv, rfl, by rw [if_pos hb]; exact pm⟩
      · obtain ⟨sc, sv, r1, r2, pm⟩ := pair_meant (U := U) (drawn := c.body.group) (cat := .x) (val := .y)
          (date := decide ((calls.foldl AxesOpts.exec (newAxes c.body.group)).x.axisType = .date)) hc hx hcross
          (c := ((c.withAxes calls ctx).update m).body.xAxis) (v := ((c.withAxes calls ctx).update m).body.yAxis)
          (by
            rw [form]
            have : ((c.withAxes calls ctx).update m).body.xAxis = ((calls.foldl AxesOpts.exec (newAxes c.body.group)).x.toAxis
              (calls.foldl AxesOpts.exec (newAxes c.body.group)).y ctx ((calls.foldl AxesOpts.exec (newAxes c.body.group)).catForm c.body.group)).update m := by
              show (AxisOpts.toAxis _ _ _ _).update m = _
              rw [if_neg hb]
            rw [this]
            exact (isAxis _ _ _ _).update m)
          (by
            have : ((c.withAxes calls ctx).update m).body.yAxis = ((calls.foldl AxesOpts.exec (newAxes c.body.group)).y.toAxis
              (calls.foldl AxesOpts.exec (newAxes c.body.group)).x ctx .val).update m := by
              show (AxisOpts.toAxis _ _ _ _).update m = _
              rw [if_neg hb]
            rw [this]
            exact (isAxis _ _ _ _).update m)
          (chartTitleTrees_ok gm.xAxis.title hf.xAxis) (chartTitleTrees_ok gm.yAxis.title hf.yAxis)
          (fun _ => by rw [decide_eq_true_eq, dx]) ((c.withAxes calls ctx).update m).axisIds
        refine ⟨[sc, sv], ?_, ?_⟩
        · unfold axisPair
          rw [if_neg hb, if_neg hb, ebx]
          exact mapM_two r1 r2
        · rw [if_neg hpie]
          exact ⟨sc, sv, rfl, by rw [if_neg hb]; exact pm⟩
  -- the secondary axes
  obtain ⟨q, hq, hqm⟩ : ∃ q, (((secondaryAxes U ((c.withAxes calls ctx).update m)).map
      fun x => (treeTag x, treeParts x)).mapM fun e => readAxisLook e.1 e.2.2) = some q ∧
      (if secondUsed c = false ∨ secondGroup c = .pie ∨ secondGroup c = .doughnut then q = []
       else ∃ sc sv, (q = [sc, sv] ∨ q = [sv, sc]) ∧ (if secondGroup c = .bar then PairMeant c.body.group (secondGroup c) calls .y2 .x2 sc sv
         else PairMeant c.body.group (secondGroup c) calls .x2 .y2 sc sv)) := by
    rw [secondaryAxes_eq]
    dsimp only
    rw [eg, eu, en]
    by_cases hu : secondUsed c = true
    · rw [if_pos hu]
      by_cases hpie : secondGroup c = .pie ∨ secondGroup c = .doughnut
      · rw [if_pos hpie]; exact ⟨[], rfl, by rw [if_pos (Or.inr hpie)]⟩
      · rw [if_neg hpie]
        have hnn : ¬ (secondUsed c = false ∨ secondGroup c = .pie ∨ secondGroup c = .doughnut) := by grind
        have two := gm.second
        have key : ∃ sc sv, readAxisLook (treeTag (axisPair U (secondGroup c) ((c.withAxes calls ctx).update m).body.xAxis.isDate
              ((c.withAxes calls ctx).update m).axis2Ids ((c.withAxes calls ctx).update m).body.x2Axis ((c.withAxes calls ctx).update m).body.y2Axis).1)
              (treeParts (axisPair U (secondGroup c) ((c.withAxes calls ctx).update m).body.xAxis.isDate
              ((c.withAxes calls ctx).update m).axis2Ids ((c.withAxes calls ctx).update m).body.x2Axis ((c.withAxes calls ctx).update m).body.y2Axis).1).2 = some sc ∧
            readAxisLook (treeTag (axisPair U (secondGroup c) ((c.withAxes calls ctx).update m).body.xAxis.isDate
              ((c.withAxes calls ctx).update m).axis2Ids ((c.withAxes calls ctx).update m).body.x2Axis ((c.withAxes calls ctx).update m).body.y2Axis).2)
              (treeParts (axisPair U (secondGroup c) ((c.withAxes calls ctx).update m).body.xAxis.isDate
              ((c.withAxes calls ctx).update m).axis2Ids ((c.withAxes calls ctx).update m).body.x2Axis ((c.withAxes calls ctx).update m).body.y2Axis).2).2 = some sv ∧
            (if secondGroup c = .bar then PairMeant c.body.group (secondGroup c) calls .y2 .x2 sc sv
              else PairMeant c.body.group (secondGroup c) calls .x2 .y2 sc sv) := by
          have hd := hk.second hu
          by_cases hb : secondGroup c = .bar
          · have hd := hd (by rw [hb]; exact nofun)
            rw [show catName (secondGroup c) false = .y2 by unfold catName; rw [if_neg nofun, if_pos hb]] at hd
            obtain ⟨sc, sv, r1, r2, pm⟩ := pair_meant (U := U) (drawn := secondGroup c) (cat := .y2) (val := .x2)
              (date := decide ((calls.foldl AxesOpts.exec (newAxes c.body.group)).x.axisType = .date)) hc hx hcross
              (c := ((c.withAxes calls ctx).update m).body.y2Axis) (v := ((c.withAxes calls ctx).update m).body.x2Axis)
              (by
                rw [form]
                have : ((c.withAxes calls ctx).update m).body.y2Axis = (calls.foldl AxesOpts.exec (newAxes c.body.group)).y2.toAxis
                  (calls.foldl AxesOpts.exec (newAxes c.body.group)).x2 ctx ((calls.foldl AxesOpts.exec (newAxes c.body.group)).catForm (secondGroup c)) := by
                  show AxisOpts.toAxis _ _ _ _ = _
                  rw [eg', if_pos hb]
                rw [this]
                exact isAxis _ _ _ _)
              (by
                have : ((c.withAxes calls ctx).update m).body.x2Axis = (calls.foldl AxesOpts.exec (newAxes c.body.group)).x2.toAxis
                  (calls.foldl AxesOpts.exec (newAxes c.body.group)).y2 ctx .val := by
                  show AxisOpts.toAxis _ _ _ _ = _
                  rw [eg', if_pos hb]
                rw [this]
                exact isAxis _ _ _ _)
              (chartTitleTrees_ok two.2.1.title two.2.2) (chartTitleTrees_ok two.1.1.title two.1.2)
              (fun _ => by rw [hd, decide_eq_true_eq, dx]) ((c.withAxes calls ctx).update m).axis2Ids
            refine ⟨sc, sv, ?_, ?_, by rw [if_pos hb]; exact pm⟩
            · unfold axisPair
              rw [if_pos hb, if_pos hb, ebx]
              exact r1
            · unfold axisPair
              rw [if_pos hb, if_pos hb]
              exact r2
          · obtain ⟨sc, sv, r1, r2, pm⟩ := pair_meant (U := U) (drawn := secondGroup c) (cat := .x2) (val := .y2)
              (date := decide ((calls.foldl AxesOpts.exec (newAxes c.body.group)).x.axisType = .date)) hc hx hcross
              (c := ((c.withAxes calls ctx).update m).body.x2Axis) (v := ((c.withAxes calls ctx).update m).body.y2Axis)
              (by
                rw [form]
                have : ((c.withAxes calls ctx).update m).body.x2Axis = (calls.foldl AxesOpts.exec (newAxes c.body.group)).x2.toAxis
                  (calls.foldl AxesOpts.exec (newAxes c.body.group)).y2 ctx ((calls.foldl AxesOpts.exec (newAxes c.body.group)).catForm (secondGroup c)) := by
                  show AxisOpts.toAxis _ _ _ _ = _
                  rw [eg', if_neg hb]
                rw [this]
                exact isAxis _ _ _ _)
              (by
                have : ((c.withAxes calls ctx).update m).body.y2Axis = (calls.foldl AxesOpts.exec (newAxes c.body.group)).y2.toAxis
                  (calls.foldl AxesOpts.exec (newAxes c.body.group)).x2 ctx .val := by
                  show AxisOpts.toAxis _ _ _ _ = _
                  rw [eg', if_neg hb]
                rw [this]
                exact isAxis _ _ _ _)
              (chartTitleTrees_ok two.1.1.title two.1.2) (chartTitleTrees_ok two.2.1.title two.2.2)
              (fun hs => by
                have hd := hd hs
                rw [show catName (secondGroup c) false = .x2 by unfold catName; rw [if_neg nofun, if_neg hb]] at hd
                rw [hd, decide_eq_true_eq, dx]) ((c.withAxes calls ctx).update m).axis2Ids
            refine ⟨sc, sv, ?_, ?_, by rw [if_neg hb]; exact pm⟩
            · unfold axisPair
              rw [if_neg hb, if_neg hb, ebx]
              exact r1
            · unfold axisPair
              rw [if_neg hb, if_neg hb]
              exact r2
        obtain ⟨sc, sv, r1, r2, pm⟩ := key
        split
        · exact ⟨[sc, sv], mapM_two r1 r2, sc, sv, Or.inl rfl, pm⟩
        · exact ⟨[sv, sc], mapM_two r2 r1, sc, sv, Or.inr rfl, pm⟩
    · rw [if_neg hu]
      exact ⟨[], rfl, by rw [if_pos (Or.inl (Bool.not_eq_true _ |>.mp hu))]⟩
  exact ⟨p ++ q, mapM_append hp hq, p, q, rfl, hpm, hqm⟩

/-- C73: when charts are saved, a reader of the chart part finds for each axis the title with its text, direction, font and place, the
side, the direction, the grid lines, the labels, the tick marks, the number format, the format, the font, and (by the kind of the axis)
the scale, the units, the crossing and the intervals that the calls on the axis asked for; what was not asked for is as in a new chart.
Missing for the full property: see the counterexamples and the conditions in the specification (a range after a text as the name, lines
through letters, the number of a category on a value axis, hidden axes in area, bar and stock charts, an interval of one, date axes in
bar charts and on the secondary axes, names of secondary axes from cells). -/
theorem C73_axes_partial (U : Unicode) (parses : Str → Bool) (lower : Str → Str) (cfg : Cfg)
    (hstd : cfg.isStandard) (merge : Fmt → Fmt → Fmt) (dflt : Fmt) (sheets : List (Str × Sheet Fmt))
    (hm : Made lower cfg merge dflt sheets) (charts out : List Chart) (h : prepareCaches sheets charts = some out)
    (sst : SST) (i : Nat) (c : Chart) (calls : List (AxisName × AxisCall)) (ctx : AxisCtx)
    (hi : charts[i]? = some (c.withAxes calls ctx)) (hg : ChartGood U parses (shownOn sheets sst) c)
    (hc : ∀ c ∈ calls, axisCallOk c.2 = true) (hx : attrSafe ctx.numFormat = true) (hcross : ctx.hasCrosses = c.body.group.hasCrosses)
    (hr : ∀ n t r, (n, AxisCall.name t r) ∈ calls → r.sheet ≠ [] → (n = .x ∨ n = .y) ∧ RefGood U parses (shownOn sheets sst) .name r)
    (hk : KindsFit c.body.group (secondGroup c) (secondUsed c) calls) :
    ∃ c' node looks, out[i]? = some c' ∧ parseDoc (writePart (chartSpaceTree U parses c')) = some node ∧
      readAxisLooks node = some looks ∧ AxesMeant c.body.group (secondGroup c) (secondUsed c) calls looks := by
  obtain ⟨m, rfl, hcm⟩ := prepareCaches_some h
  have good := withAxes_good hg hc hx hr
  have hf : ChartFilled (shownOn sheets sst) ((c.withAxes calls ctx).update m) := by
    refine chart_filled (hm.shows hstd sst) hcm (fun r hr => ?_) good
    exact List.mem_flatMap.mpr ⟨_, List.mem_of_getElem? hi, hr⟩
  obtain ⟨looks, h1, h2⟩ := axes_read hg hc hx hcross hr hk m hf
  exact ⟨(c.withAxes calls ctx).update m, _, looks, by rw [List.getElem?_map, hi]; rfl,
    C07_part_roundtrip _ (chartSpaceTree_ok (good.update m) hf), h1, h2⟩

end Verif
