import Verif.Props.ChartSeriesElem
/-!
C74: what calls on markers, labels, trendlines, error bars and series say.
-/
namespace Verif
open Spec

/-! ### Sequences of calls -/

theorem fold_field {σ κ α : Type} {exec : σ → κ → σ} (f : σ → α) (said : κ → Option α)
    (h : ∀ s c, f (exec s c) = (said c).getD (f s)) (s : σ) (calls : List κ) : f (calls.foldl exec s) = lastSaid said (f s) calls := by
  induction calls generalizing s with
  | nil => rfl
  | cons c calls ih =>
    rw [List.foldl_cons, ih, lastSaid_cons, h]

theorem fold_any {σ κ : Type} {exec : σ → κ → σ} (f : σ → Bool) (p : κ → Bool) (h : ∀ s c, f (exec s c) = (f s || p c)) (s : σ)
    (calls : List κ) : f (calls.foldl exec s) = (f s || calls.any p) := by
  induction calls generalizing s with
  | nil => simp
  | cons c calls ih => rw [List.foldl_cons, ih, h, List.any_cons, Bool.or_assoc]

theorem any_mem {κ : Type} [DecidableEq κ] (x : κ) (calls : List κ) : calls.any (fun c => decide (c = x)) = decide (x ∈ calls) := by
  induction calls with
  | nil => rfl
  | cons c calls ih =>
    rw [List.any_cons, ih]
    simp only [List.mem_cons, Bool.decide_or]
    congr 1
    simp only [decide_eq_decide]
    exact eq_comm

/-- Something that stays on once it is on. -/
theorem fold_mem {σ κ : Type} [DecidableEq κ] {exec : σ → κ → σ} (f : σ → Bool) (x : κ) (h : ∀ s c, f (exec s c) = (f s || decide (c = x)))
    (s : σ) (calls : List κ) (hs : f s = false) : f (calls.foldl exec s) = decide (x ∈ calls) := by
  rw [fold_any f _ h, any_mem, hs, Bool.false_or]

theorem said_or {κ α : Type} (f : κ → Option (Option α)) (hf : ∀ c, f c ≠ some none) (d : Option α) (calls : List κ) :
    lastSaid f d calls = match lastSaid f none calls with | some x => some x | none => d := by
  unfold lastSaid
  cases e : calls.reverse.findSome? f with
  | none => rfl
  | some x =>
    obtain ⟨c, _, hc⟩ := List.exists_of_findSome?_eq_some e
    cases x with
    | none => exact absurd hc (hf c)
    | some y => rfl

/-! ### Markers -/

section
variable (calls : List MarkerCall)

theorem marker_shape : (newMarker calls).shape = lastSaid saysShape none calls :=
  fold_field (exec := CMarker.exec) CMarker.shape saysShape (fun s c => by
    cases c <;> first | rfl | (simp only [CMarker.exec]; split <;> rfl)) {} calls

theorem marker_auto : (newMarker calls).automatic = lastSaid saysAutomatic false calls :=
  fold_field (exec := CMarker.exec) CMarker.automatic saysAutomatic (fun s c => by
    cases c <;> first | rfl | (simp only [CMarker.exec, saysAutomatic]; split <;> rfl)) {} calls

theorem marker_format : (newMarker calls).format = lastSaid saysMarkerFormat {} calls :=
  fold_field (exec := CMarker.exec) CMarker.format saysMarkerFormat (fun s c => by
    cases c <;> first | rfl | (simp only [CMarker.exec]; split <;> rfl)) {} calls

theorem marker_none : (newMarker calls).none = decide (MarkerCall.none ∈ calls) :=
  fold_mem (exec := CMarker.exec) CMarker.none MarkerCall.none (fun s c => by
    cases c <;> first | (simp [CMarker.exec]; done) | (simp only [CMarker.exec]; split <;> simp)) {} calls rfl

/-- The size, none if it is zero. -/
def sizeSet (m : CMarker) : Option Nat := if m.size ≠ 0 then some m.size else none

theorem marker_size : sizeSet (newMarker calls) = lastSaid saysSize none calls :=
  fold_field (exec := CMarker.exec) sizeSet saysSize (fun s c => by
    cases c with
    | size n =>
      simp only [CMarker.exec, saysSize]
      split
      · rename_i h
        unfold sizeSet
        dsimp only
        rw [if_pos (by omega)]; rfl
      · rfl
    | _ => rfl) {} calls

end

theorem marker_meant {mc : List MarkerCall} (hc : markerClear mc) {s : Option MarkerLook}
    (h : if (newMarker mc).automatic = true then s = none else ∃ x v, s = some x ∧ (newMarker mc).symbolAttrs.lookup "val".toList = some v ∧
        x.symbol = some v ∧ x.size = (if (newMarker mc).size ≠ 0 then some (showNat (newMarker mc).size) else none) ∧
        FormatMeant (newMarker mc).format x.format) : MarkerMeant mc s := by
  unfold MarkerMeant
  rw [marker_auto] at h
  by_cases ha : lastSaid saysAutomatic false mc = true
  · rw [if_pos ha] at h ⊢; exact h
  · rw [if_neg ha] at h ⊢
    obtain ⟨x, v, h1, h2, h3, h4, h5⟩ := h
    refine ⟨x, h1, ?_, ?_, by rw [← marker_format]; exact h5⟩
    · rw [h3, ← h2]
      unfold CMarker.symbolAttrs
      rw [marker_shape, marker_none]
      unfold markerClear at hc
      by_cases hn : MarkerCall.none ∈ mc
      · rw [if_pos hn] at hc ⊢
        rw [hc.1, decide_eq_true hn]; rfl
      · rw [if_neg hn] at hc ⊢
        have := hc.resolve_left ha
        cases e : lastSaid saysShape none mc with
        | none => exact absurd e this
        | some t => rw [Option.map_some, ← shape_text]; rfl
    · rw [h4, ← marker_size]
      unfold sizeSet
      split <;> rfl

/-! ### Labels -/

section
variable (calls : List LabelCall)

macro "label_cases" : tactic => `(tactic| (intro s c; cases c <;> first | rfl | (simp only [CLabel.exec]; split <;> rfl)))

theorem label_code : (newLabel calls).numFormat = lastSaid saysLabelCode [] calls :=
  fold_field (exec := CLabel.exec) CLabel.numFormat saysLabelCode (by label_cases) {} calls

theorem label_format : (newLabel calls).format = lastSaid saysLabelFormat {} calls :=
  fold_field (exec := CLabel.exec) CLabel.format saysLabelFormat (by label_cases) {} calls

theorem label_spot : (newLabel calls).spot = lastSaid saysSpot .default calls :=
  fold_field (exec := CLabel.exec) CLabel.spot saysSpot (by label_cases) {} calls

theorem label_text' : (newLabel calls).text = lastSaid saysLabelText [] calls :=
  fold_field (exec := CLabel.exec) CLabel.text saysLabelText (by label_cases) {} calls

theorem label_sep : (newLabel calls).separator = lastSaid saysSeparator ',' calls :=
  fold_field (exec := CLabel.exec) CLabel.separator saysSeparator (fun s c => by
    cases c <;> first | rfl | (simp only [CLabel.exec, saysSeparator]; split <;> rfl)) {} calls

/-- The font of a label, as it was given or with another baseline. -/
def fontSaid : LabelCall → Option (Option CFont)
  | .font f => some (some { f with hasBaseline := f.hasBaseline || f.italic })
  | _ => none

theorem label_font : (newLabel calls).font = lastSaid fontSaid none calls :=
  fold_field (exec := CLabel.exec) CLabel.font fontSaid (by label_cases) {} calls

/-- Two fonts that differ in the baseline only. -/
def BaseOnly : Option CFont → Option CFont → Prop
  | none, none => True
  | some f, some g => ∃ b, g = { f with hasBaseline := b }
  | _, _ => False

theorem label_font_said : BaseOnly (lastSaid saysLabelFont none calls) (newLabel calls).font := by
  rw [label_font]
  have : ∀ a b, BaseOnly a b → BaseOnly (lastSaid saysLabelFont a calls) (lastSaid fontSaid b calls) := by
    induction calls with
    | nil => exact fun a b h => h
    | cons c calls ih =>
      intro a b h
      rw [lastSaid_cons, lastSaid_cons]
      refine ih _ _ ?_
      cases c <;> first | exact h | exact ⟨_, rfl⟩
  exact this none none trivial

macro "label_on" : tactic => `(tactic| (intro s c; cases c <;> first | (simp [CLabel.exec]; done) | (simp only [CLabel.exec]; split <;> simp)))

theorem label_category : (newLabel calls).category = decide (LabelCall.category ∈ calls) :=
  fold_mem (exec := CLabel.exec) CLabel.category LabelCall.category (by label_on) {} calls rfl

theorem label_series : (newLabel calls).series = decide (LabelCall.series ∈ calls) :=
  fold_mem (exec := CLabel.exec) CLabel.series LabelCall.series (by label_on) {} calls rfl

theorem label_leader : (newLabel calls).leader = decide (LabelCall.leader ∈ calls) :=
  fold_mem (exec := CLabel.exec) CLabel.leader LabelCall.leader (by label_on) {} calls rfl

theorem label_key : (newLabel calls).key = decide (LabelCall.key ∈ calls) :=
  fold_mem (exec := CLabel.exec) CLabel.key LabelCall.key (by label_on) {} calls rfl

theorem label_percent : (newLabel calls).percent = decide (LabelCall.percent ∈ calls) :=
  fold_mem (exec := CLabel.exec) CLabel.percent LabelCall.percent (by label_on) {} calls rfl

theorem label_hidden : (newLabel calls).hidden = decide (LabelCall.hidden ∈ calls) :=
  fold_mem (exec := CLabel.exec) CLabel.hidden LabelCall.hidden (by label_on) {} calls rfl

theorem any_or {κ : Type} (p q : κ → Bool) (l : List κ) : l.any (fun c => p c || q c) = (l.any p || l.any q) := by
  induction l with
  | nil => rfl
  | cons a l ih =>
    simp only [List.any_cons, ih]
    cases p a <;> cases q a <;> simp

theorem label_value : (newLabel calls).value = (decide (LabelCall.value ∈ calls) || calls.any isText) := by
  rw [← any_mem, ← any_or]
  exact fold_any (exec := CLabel.exec) CLabel.value (fun c => decide (c = LabelCall.value) || isText c) (by
    intro s c
    cases c <;> first | (simp [CLabel.exec, isText]; done) | (simp only [CLabel.exec]; split <;> simp [isText])) {} calls

end

theorem label_common {g : ChartGroup} {custom : Bool} {lc : List LabelCall} {l : CLabel} {s : LabelLook} (h : LabelShown g custom l s)
    (h1 : l.numFormat = (newLabel lc).numFormat) (h2 : l.format = (newLabel lc).format) (h3 : l.spot = (newLabel lc).spot)
    (h4 : l.key = (newLabel lc).key) (h5 : l.category = (newLabel lc).category) (h6 : l.series = (newLabel lc).series)
    (h7 : l.percent = (newLabel lc).percent) (h8 : l.leader = (newLabel lc).leader) (h9 : l.separator = (newLabel lc).separator) :
    LabelMeant g lc s := by
  refine ⟨?_, ?_, ?_, ?_, ?_, ?_, ?_, ?_, ?_⟩
  · rw [h.code, h1, label_code]
    by_cases e : lastSaid saysLabelCode [] lc = []
    · rw [if_neg (fun h => h e), if_pos e]
    · rw [if_pos e, if_neg e]
  · rw [← label_format, ← h2]; exact h.format
  · rw [h.place, h3, label_spot]
    by_cases e : lastSaid saysSpot .default lc = .default
    · rw [if_neg (fun h => h.1 e), if_pos e]; rfl
    · rw [if_neg e]
      by_cases e' : lastSaid saysSpot .default lc = usualSpot g
      · rw [if_neg (fun h => h.2 e'), e']; rfl
      · rw [if_pos ⟨e, e'⟩]; rfl
  · rw [h.key, h4, label_key]
  · rw [h.category, h5, label_category]
  · rw [h.series, h6, label_series]
  · rw [h.percent, h7, label_percent]
  · rw [h.leader, h8, label_leader]
  · intro c hc _ _
    rw [h.separator, h9, label_sep, hc]
    by_cases e : c = ','
    · rw [if_neg (fun h => h e), if_pos e]
    · rw [if_pos e, if_neg e]

theorem label_font_meant {lc : List LabelCall} {s : LabelLook} (hok : ∀ f, (newLabel lc).font = some f → cFontOk f = true)
    (f : Option CFont) (hf : BaseOnly (newLabel lc).font f) (h : s.font = f.map (textSeen false)) : LabelFontMeant lc s := by
  have hs := label_font_said lc
  unfold LabelFontMeant
  cases e : lastSaid saysLabelFont none lc with
  | none =>
    rw [e] at hs
    cases e' : (newLabel lc).font with
    | some x => rw [e'] at hs; exact hs.elim
    | none =>
      rw [e'] at hf
      cases f with
      | none => exact h
      | some y => exact hf.elim
  | some x =>
    rw [e] at hs
    cases e' : (newLabel lc).font with
    | none => rw [e'] at hs; exact hs.elim
    | some y =>
      have hy := hok y e'
      rw [e'] at hs hf
      cases f with
      | none => exact hf.elim
      | some z =>
        obtain ⟨b, rfl⟩ := hs
        obtain ⟨b', rfl⟩ := hf
        refine ⟨_, h, ?_⟩
        have hx : x.strikethrough = false := (cFontOk_parts hy).2.2.1
        exact text_same false false x b' hx

theorem baseOnly_refl (f : Option CFont) : BaseOnly f f := by
  cases f with
  | none => exact trivial
  | some f => exact ⟨f.hasBaseline, rfl⟩

theorem seriesLabel_meant {g : ChartGroup} {lc : List LabelCall} {s : LabelLook} (hok : labelOk (newLabel lc) = true)
    (h : LabelShown g false (newLabel lc) s) : SeriesLabelMeant g lc s := by
  refine ⟨label_common h rfl rfl rfl rfl rfl rfl rfl rfl rfl, label_font_meant (labelOk_parts hok).2.1 _ (baseOnly_refl _) h.font, ?_⟩
  intro ht hs
  rw [h.value, label_value, label_category, label_percent, ht]
  by_cases a : LabelCall.value ∈ lc <;> by_cases b : LabelCall.category ∈ lc <;> by_cases c : LabelCall.percent ∈ lc <;>
    by_cases d : LabelCall.series ∈ lc <;> simp_all

theorem pointLabel_meant {g : ChartGroup} {lc : List LabelCall} {i : Nat} {s : PointLabelLook} (hok : labelOk (newLabel lc) = true)
    (h : PointLabelShown g (newLabel lc) i s) : PointLabelMeant g lc i s := by
  have hh : LabelCall.hidden ∉ lc → (newLabel lc).hidden = false := fun e => by rw [label_hidden]; exact decide_eq_false e
  refine ⟨h.idx, by rw [h.deleted, label_hidden], fun e => ?_, fun e => ?_, fun e ht => ?_, fun e => ?_⟩
  · rw [h.text (hh e), label_text']
    by_cases e : lastSaid saysLabelText [] lc = []
    · rw [if_neg (fun h => h e), if_pos e]
    · rw [if_pos e, if_neg e]
  · exact label_common (h.label (hh e)) rfl rfl rfl rfl rfl rfl rfl rfl rfl
  · refine label_font_meant (labelOk_parts hok).2.1 (newLabel lc).leftFont ?_ (h.label (hh e)).font
    unfold CLabel.leftFont
    rw [label_text', ht, if_neg (fun h => h rfl)]
    cases (newLabel lc).font with
    | none => exact trivial
    | some f => exact ⟨false, rfl⟩
  · rw [(h.label (hh e)).value]
    show ((newLabel lc).value || false) = _
    rw [Bool.or_false, label_value]

theorem pairs_imp {α β : Type} {R S : α → β → Prop} {l : List α} {bs : List β} (h : Pairs R l bs) (hrs : ∀ a ∈ l, ∀ b, R a b → S a b) :
    Pairs S l bs := by
  induction l generalizing bs with
  | nil => cases bs <;> exact h
  | cons a l ih =>
    cases bs with
    | nil => exact h
    | cons b bs => exact ⟨hrs a List.mem_cons_self b h.1, ih h.2 fun a ha => hrs a (List.mem_cons_of_mem _ ha)⟩

theorem pairs_map {α β γ : Type} {R : β → γ → Prop} (f : α → β) {l : List α} {cs : List γ} (h : Pairs R (l.map f) cs) :
    Pairs (fun a c => R (f a) c) l cs := by
  induction l generalizing cs with
  | nil => cases cs <;> exact h
  | cons a l ih =>
    cases cs with
    | nil => exact h
    | cons c cs => exact ⟨h.1, ih h.2⟩

theorem upTo_map {α β : Type} (f : α → β) (n : Nat) (keep : β → Bool) (l : List α) :
    upTo n keep (l.map f) = (upTo n (fun a => keep (f a)) l).map fun p => (f p.1, p.2) := by
  unfold upTo
  rw [List.zipIdx_map, List.filter_map]
  rfl

theorem labels_meant {g : ChartGroup} {n : Nat} {lc : List LabelCall} {ls : List (List LabelCall)} {q : LabelsLook}
    (hok : labelOk (newLabel lc) = true) (hls : ∀ c ∈ ls, labelOk (newLabel c) = true) (h1 : LabelShown g false (newLabel lc) q.all)
    (h2 : Pairs (fun (p : CLabel × Nat) s => PointLabelShown g p.1 p.2 s) (upTo n (fun c => decide (c ≠ {})) (ls.map newLabel)) q.points) :
    LabelsMeant g n lc ls q := by
  refine ⟨seriesLabel_meant hok h1, ?_⟩
  rw [upTo_map] at h2
  exact pairs_imp (pairs_map _ h2) fun a ha b hb => pointLabel_meant (hls _ (mem_upTo ha)) hb

/-! ### Trendlines -/

section
variable (calls : List TrendCall)

macro "trend_cases" : tactic => `(tactic| (intro s c; cases c <;> first | rfl | (rename_i p v; cases p <;> rfl)))

theorem trend_kind : (newTrend calls).kind = lastSaid saysTrendKind .none calls :=
  fold_field (exec := CTrend.exec) CTrend.kind saysTrendKind (by trend_cases) {} calls

theorem trend_name : (newTrend calls).name = lastSaid saysTrendName [] calls :=
  fold_field (exec := CTrend.exec) CTrend.name saysTrendName (by trend_cases) {} calls

theorem trend_format : (newTrend calls).format = lastSaid saysTrendFormat {} calls :=
  fold_field (exec := CTrend.exec) CTrend.format saysTrendFormat (by trend_cases) {} calls

theorem trend_labelFormat : (newTrend calls).labelFormat = lastSaid saysTrendLabelFormat {} calls :=
  fold_field (exec := CTrend.exec) CTrend.labelFormat saysTrendLabelFormat (by trend_cases) {} calls

theorem trend_forward : (newTrend calls).forward = lastSaid saysForward none calls :=
  fold_field (exec := CTrend.exec) CTrend.forward saysForward (by trend_cases) {} calls

theorem trend_backward : (newTrend calls).backward = lastSaid saysBackward none calls :=
  fold_field (exec := CTrend.exec) CTrend.backward saysBackward (by trend_cases) {} calls

theorem trend_equation : (newTrend calls).equation = lastSaid saysEquation false calls :=
  fold_field (exec := CTrend.exec) CTrend.equation saysEquation (by trend_cases) {} calls

theorem trend_rSquared : (newTrend calls).rSquared = lastSaid saysRSquared false calls :=
  fold_field (exec := CTrend.exec) CTrend.rSquared saysRSquared (by trend_cases) {} calls

theorem trend_intercept : (newTrend calls).intercept = lastSaid saysIntercept none calls :=
  fold_field (exec := CTrend.exec) CTrend.intercept saysIntercept (by trend_cases) {} calls

/-- The font of the label of a trendline as it is kept. -/
def trendFontSaid : TrendCall → Option (Option CFont)
  | .labelFont f => some (some { f with hasBaseline := true })
  | _ => none

theorem trend_font : (newTrend calls).labelFont = lastSaid trendFontSaid none calls :=
  fold_field (exec := CTrend.exec) CTrend.labelFont trendFontSaid (by trend_cases) {} calls

theorem trend_font_said : BaseOnly (lastSaid saysTrendLabelFont none calls) (newTrend calls).labelFont := by
  rw [trend_font]
  have : ∀ a b, BaseOnly a b → BaseOnly (lastSaid saysTrendLabelFont a calls) (lastSaid trendFontSaid b calls) := by
    induction calls with
    | nil => exact fun a b h => h
    | cons c calls ih =>
      intro a b h
      rw [lastSaid_cons, lastSaid_cons]
      refine ih _ _ ?_
      cases c <;> first | exact h | exact ⟨_, rfl⟩
  exact this none none trivial

end

theorem trend_meant {tc : List TrendCall} {s : TrendLook} (hok : trendOk (newTrend tc) = true)
    (hk : lastSaid saysTrendKind .none tc ≠ .none) (h : TrendShown (newTrend tc) s) : TrendMeant tc s := by
  refine ⟨?_, ?_, ?_, ?_, ?_, ?_, ?_, ?_, ?_, ?_, ?_⟩
  · rw [h.kind, trend_text, trend_kind, if_neg hk]
  · rw [h.order, trend_kind]; cases lastSaid saysTrendKind TrendKind.none tc <;> rfl
  · rw [h.period, trend_kind]; cases lastSaid saysTrendKind TrendKind.none tc <;> rfl
  · rw [h.name, trend_name]
    by_cases e : lastSaid saysTrendName [] tc = []
    · rw [if_neg (fun h => h e), if_pos e]
    · rw [if_pos e, if_neg e]
  · rw [← trend_format]; exact h.format
  · rw [h.forward, trend_forward]
  · rw [h.backward, trend_backward]
  · rw [h.intercept, trend_intercept]
  · rw [h.rSquared, trend_rSquared]
  · rw [h.equation, trend_equation]
  · intro he
    obtain ⟨f, h1, h2⟩ := h.label (by rw [trend_equation]; exact he)
    refine ⟨f, _, h1, by rw [← trend_labelFormat]; exact h2, ?_⟩
    have hs := trend_font_said tc
    cases e : lastSaid saysTrendLabelFont none tc with
    | none =>
      rw [e] at hs
      cases e' : (newTrend tc).labelFont with
      | none => rfl
      | some x => rw [e'] at hs; exact hs.elim
    | some x =>
      rw [e] at hs
      cases e' : (newTrend tc).labelFont with
      | none => rw [e'] at hs; exact hs.elim
      | some y =>
        have hy := (trendOk_parts hok).2.2.1 y e'
        rw [e'] at hs
        obtain ⟨b, rfl⟩ := hs
        exact ⟨_, rfl, text_same false false x b (cFontOk_parts hy).2.2.1⟩

/-! ### Error bars -/

section
variable (calls : List ErrCall)

macro "err_cases" : tactic => `(tactic| (
  intro s c
  cases c with
  | type r k =>
    cases k <;> first | rfl | (cases r <;> rfl)
  | _ => rfl))

theorem bars_kind : (newErrBars calls).kind = lastSaid saysBarsKind .standardError calls :=
  fold_field (exec := CErrBars.exec) CErrBars.kind saysBarsKind (by err_cases) {} calls

theorem bars_side : (newErrBars calls).direction = lastSaid saysBarsSide .both calls :=
  fold_field (exec := CErrBars.exec) CErrBars.direction saysBarsSide (by err_cases) {} calls

theorem bars_cap : (newErrBars calls).endCap = lastSaid saysCap true calls :=
  fold_field (exec := CErrBars.exec) CErrBars.endCap saysCap (by err_cases) {} calls

theorem bars_format : (newErrBars calls).format = lastSaid saysBarsFormat {} calls :=
  fold_field (exec := CErrBars.exec) CErrBars.format saysBarsFormat (by err_cases) {} calls

end

theorem bars_meant {ec : List ErrCall} {axis : Str} {s : BarsLook} (h : BarsShown (newErrBars ec) axis s) :
    BarsMeant (if axis ≠ [] then some axis else none) ec s :=
  ⟨h.axis, by rw [h.side, bars_side, side_name], by rw [h.kind, bars_kind, err_text], by rw [h.value, bars_kind],
    by rw [h.noCap, bars_cap], by rw [← bars_format]; exact h.format⟩

end Verif
