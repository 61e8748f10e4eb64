import Verif.Props.ChartSeriesCalls
import Verif.Props.ChartAxes
/-!
C74: series show what the calls on them asked for.
-/
namespace Verif
open Spec

variable {U : Unicode} {parses : Str → Bool} {shown : Text → Nat → Nat → Content}

/-! ### The fields of a series after calls -/

section
variable (k : ChartKind) (calls : List SeriesCall)

macro "series_cases" : tactic => `(tactic| (intro s c; cases c <;> first | rfl | (simp only [SeriesOpts.exec]; split <;> rfl)))

theorem prepare_format : (SeriesOpts.prepare k {}).format = newFormat k := by
  cases k <;> rfl

theorem prepare_marker : (SeriesOpts.prepare k {}).marker = if noMarkers k then some (newMarker [.none]) else none := by
  cases k <;> rfl

theorem ser_format : (addedSeries k calls).format = lastSaid saysSeriesFormat (newFormat k) calls := by
  rw [← prepare_format]
  exact fold_field (exec := SeriesOpts.exec) SeriesOpts.format saysSeriesFormat (by series_cases) _ calls

theorem ser_marker : (addedSeries k calls).marker =
    lastSaid saysMarker (if noMarkers k then some (newMarker [.none]) else none) calls := by
  rw [← prepare_marker]
  exact fold_field (exec := SeriesOpts.exec) SeriesOpts.marker saysMarker (by series_cases) _ calls

theorem ser_points : (addedSeries k calls).points = lastSaid saysPoints [] calls := by
  have h := fold_field (exec := SeriesOpts.exec) SeriesOpts.points saysPoints (by series_cases) (SeriesOpts.prepare k {}) calls
  rw [show (SeriesOpts.prepare k {}).points = [] by cases k <;> rfl] at h
  exact h

theorem ser_smooth : (addedSeries k calls).smooth = lastSaid saysSmooth none calls := by
  have h := fold_field (exec := SeriesOpts.exec) SeriesOpts.smooth saysSmooth (by series_cases) (SeriesOpts.prepare k {}) calls
  rw [show (SeriesOpts.prepare k {}).smooth = none by cases k <;> rfl] at h
  exact h

theorem ser_xErr : (addedSeries k calls).xErr = lastSaid saysXBars none calls := by
  have h := fold_field (exec := SeriesOpts.exec) SeriesOpts.xErr saysXBars (by series_cases) (SeriesOpts.prepare k {}) calls
  rw [show (SeriesOpts.prepare k {}).xErr = none by cases k <;> rfl] at h
  exact h

theorem ser_yErr : (addedSeries k calls).yErr = lastSaid saysYBars none calls := by
  have h := fold_field (exec := SeriesOpts.exec) SeriesOpts.yErr saysYBars (by series_cases) (SeriesOpts.prepare k {}) calls
  rw [show (SeriesOpts.prepare k {}).yErr = none by cases k <;> rfl] at h
  exact h

theorem ser_invert : (addedSeries k calls).invert = lastSaid saysInvert false calls := by
  have h := fold_field (exec := SeriesOpts.exec) SeriesOpts.invert saysInvert (by
    intro s c; cases c <;> first | rfl | (simp only [SeriesOpts.exec, saysInvert]; split <;> rfl)) (SeriesOpts.prepare k {}) calls
  rw [show (SeriesOpts.prepare k {}).invert = false by cases k <;> rfl] at h
  exact h

theorem ser_inverted : (addedSeries k calls).invertColor = (lastSaid saysInvertColor none calls).getD .default := by
  have h := fold_field (exec := SeriesOpts.exec) SeriesOpts.invertColor (fun c => (saysInvertColor c).map (·.getD .default)) (by
    intro s c; cases c <;> first | rfl | (simp only [SeriesOpts.exec, saysInvertColor]; split <;> rfl)) (SeriesOpts.prepare k {}) calls
  rw [show (SeriesOpts.prepare k {}).invertColor = (none : Option Color).getD .default by cases k <;> rfl,
    lastSaid_map (fun o : Option Color => o.getD .default) saysInvertColor none] at h
  exact h

theorem ser_custom : (addedSeries k calls).customLabels = (lastSaid saysCustom none calls).getD [] := by
  have h := fold_field (exec := SeriesOpts.exec) SeriesOpts.customLabels (fun c => (saysCustom c).map (·.getD [])) (by series_cases)
    (SeriesOpts.prepare k {}) calls
  rw [show (SeriesOpts.prepare k {}).customLabels = (none : Option (List CLabel)).getD [] by cases k <;> rfl,
    lastSaid_map (fun o : Option (List CLabel) => o.getD []) saysCustom none] at h
  exact h

theorem ser_trend : (addedSeries k calls).trend = (lastSaid saysTrend none calls).getD {} := by
  have h := fold_field (exec := SeriesOpts.exec) SeriesOpts.trend (fun c => (saysTrend c).map (·.getD {})) (by series_cases)
    (SeriesOpts.prepare k {}) calls
  rw [show (SeriesOpts.prepare k {}).trend = (none : Option CTrend).getD {} by cases k <;> rfl,
    lastSaid_map (fun o : Option CTrend => o.getD {}) saysTrend none] at h
  exact h

/-- The labels of a series. -/
def labelKept (l : Option CLabel) (custom : Option (List CLabel)) : Option CLabel :=
  match l with
  | some l => some l
  | none => if custom.isSome then some {} else none

theorem labelKept_run (a : Option CLabel) (b : Option (List CLabel)) (s : SeriesOpts) (h : s.label = labelKept a b) :
    (calls.foldl SeriesOpts.exec s).label = labelKept (lastSaid saysLabel a calls) (lastSaid saysCustom b calls) := by
  induction calls generalizing a b s with
  | nil => exact h
  | cons c calls ih =>
    rw [List.foldl_cons, lastSaid_cons, lastSaid_cons]
    refine ih _ _ _ ?_
    cases c with
    | label l => rfl
    | customLabels ls =>
      show some (s.label.getD {}) = labelKept a (some ls)
      rw [h]
      cases a with
      | some l => rfl
      | none => cases b <;> rfl
    | _ => first | exact h | (simp only [SeriesOpts.exec]; split <;> exact h)

theorem ser_label : (addedSeries k calls).label = labelKept (lastSaid saysLabel none calls) (lastSaid saysCustom none calls) :=
  labelKept_run calls none none _ (by cases k <;> rfl)

end

/-! ### Calls that can be written -/

theorem prepare_ok (k : ChartKind) : (SeriesOpts.prepare k {}).Ok := by
  have e : ∃ f m, SeriesOpts.prepare k {} = { format := f, marker := m } ∧ cFormatOk f = true ∧ (∀ x, m = some x → markerOk x = true) := by
    refine ⟨_, _, ?_, (?_ : cFormatOk (newFormat k) = true), (?_ : ∀ x, (if noMarkers k then some (newMarker [.none]) else none) = some x → _)⟩
    · cases k <;> rfl
    · unfold newFormat
      split <;> decide +kernel
    · intro x hx
      split at hx
      · injection hx with hx; subst hx; decide +kernel
      · cases hx
  obtain ⟨f, m, e, h1, h2⟩ := e
  rw [e]
  refine ⟨h1, h2, fun l h => ?_, fun l h => ?_, fun l h => ?_, (show Color.default.isValid = true by decide +kernel),
    (show trendOk {} = true by decide +kernel), fun l h => ?_, fun l h => ?_⟩
  · cases (show (none : Option CLabel) = some l from h)
  · cases (show l ∈ ([] : List CLabel) from h)
  · cases (show l ∈ ([] : List CFormat) from h)
  · cases (show (none : Option CErrBars) = some l from h)
  · cases (show (none : Option CErrBars) = some l from h)

theorem exec_ok {o : SeriesOpts} (h : o.Ok) {c : SeriesCall} (hc : seriesCallOk c = true) : (o.exec c).Ok := by
  cases c with
  | format f => exact ⟨hc, h.marker, h.label, h.custom, h.points, h.inverted, h.trend, h.xErr, h.yErr⟩
  | marker m =>
    exact ⟨h.format, fun m' e => by injection e with e; subst e; exact hc, h.label, h.custom, h.points, h.inverted, h.trend, h.xErr, h.yErr⟩
  | label l =>
    exact ⟨h.format, h.marker, fun m' e => by injection e with e; subst e; exact hc, h.custom, h.points, h.inverted, h.trend, h.xErr, h.yErr⟩
  | customLabels ls =>
    refine ⟨h.format, h.marker, fun m' e => ?_, fun l hl => List.all_eq_true.mp hc l hl, h.points, h.inverted, h.trend, h.xErr, h.yErr⟩
    injection e with e; subst e
    cases e' : o.label with
    | none => decide +kernel
    | some l => exact h.label l e'
  | points fs => exact ⟨h.format, h.marker, h.label, h.custom, fun f hf => List.all_eq_true.mp hc f hf, h.inverted, h.trend, h.xErr, h.yErr⟩
  | pointColors cs =>
    refine ⟨h.format, h.marker, h.label, h.custom, fun f hf => ?_, h.inverted, h.trend, h.xErr, h.yErr⟩
    obtain ⟨c, hc', rfl⟩ := List.mem_map.mp hf
    have := List.all_eq_true.mp hc c hc'
    unfold cFormatOk formatOk
    simpa using this
  | trend t => exact ⟨h.format, h.marker, h.label, h.custom, h.points, h.inverted, hc, h.xErr, h.yErr⟩
  | yErr e =>
    exact ⟨h.format, h.marker, h.label, h.custom, h.points, h.inverted, h.trend, h.xErr, fun m' e => by injection e with e; subst e; exact hc⟩
  | xErr e =>
    exact ⟨h.format, h.marker, h.label, h.custom, h.points, h.inverted, h.trend, fun m' e => by injection e with e; subst e; exact hc, h.yErr⟩
  | invertColor c =>
    simp only [SeriesOpts.exec]
    split
    · rename_i hv
      exact ⟨h.format, h.marker, h.label, h.custom, h.points, hv, h.trend, h.xErr, h.yErr⟩
    · exact h
  | _ =>
    first
    | exact ⟨h.format, h.marker, h.label, h.custom, h.points, h.inverted, h.trend, h.xErr, h.yErr⟩
    | (simp only [SeriesOpts.exec]
       split
       · exact ⟨h.format, h.marker, h.label, h.custom, h.points, h.inverted, h.trend, h.xErr, h.yErr⟩
       · exact h)

theorem added_ok (k : ChartKind) {calls : List SeriesCall} (hc : ∀ c ∈ calls, seriesCallOk c = true) : (addedSeries k calls).Ok := by
  have : ∀ o : SeriesOpts, o.Ok → (calls.foldl SeriesOpts.exec o).Ok := by
    induction calls with
    | nil => exact fun o h => h
    | cons c calls ih =>
      intro o h
      exact ih (fun x hx => hc x (List.mem_cons_of_mem _ hx)) _ (exec_ok h (hc c List.mem_cons_self))
  exact this _ (prepare_ok k)

/-! ### A series -/

theorem pairs_map_to {α β γ : Type} {R : β → γ → Prop} (f : α → β) {l : List α} {cs : List γ} (h : Pairs (fun a c => R (f a) c) l cs) :
    Pairs R (l.map f) cs := by
  induction l generalizing cs with
  | nil => cases cs <;> exact h
  | cons a l ih =>
    cases cs with
    | nil => exact h
    | cons c cs => exact ⟨h.1, ih h.2⟩

theorem barsAsked_eq (k : ChartKind) (calls : List SeriesCall) :
    barsAsked k.group calls = (errList k.group (addedSeries k calls)).map fun p => (p.1, if p.2 ≠ [] then some p.2 else none) := by
  unfold barsAsked errList
  rw [ser_xErr, ser_yErr, List.map_append]
  generalize lastSaid saysXBars none calls = xs
  generalize lastSaid saysYBars none calls = ys
  generalize k.group = g
  congr 1
  · split
    · rw [List.map_map]
      refine List.map_congr_left fun e _ => ?_
      dsimp only [Function.comp]
      rename_i h _
      rcases h with rfl | rfl <;> rfl
    · rfl
  · split
    · rfl
    · rw [List.map_map]
      refine List.map_congr_left fun e _ => ?_
      dsimp only [Function.comp]
      rename_i h _
      cases g <;> first | rfl | exact absurd rfl h

theorem series_meant {k : ChartKind} {n : Nat} {calls : List SeriesCall} (hc : ∀ c ∈ calls, seriesCallOk c = true) {s : SeriesLook}
    (h : SeriesShown k n (addedSeries k calls) s) : SeriesLookMeant k n calls s := by
  have ok := added_ok k hc
  refine ⟨?_, ?_, ?_, ?_, ?_, ?_, ?_, ?_, ?_, ?_⟩
  · intro hl
    have hf := h.format
    rw [← ser_format k calls] at hl ⊢
    split at hf
    · unfold SeriesOpts.scatterFormat at hf
      split at hf
      · rename_i _ hk
        have hl := (hl hk.1).resolve_left (fun e => e hk.2)
        refine ⟨hf.1, ?_⟩
        have h2 := hf.2
        rw [if_pos (show (_ : Bool) = true from hl)] at h2 ⊢
        exact h2
      · exact hf
    · exact hf
  · have hm := h.marker
    rw [ser_marker, said_or _ (by intro c; cases c <;> nofun)] at hm
    cases e : lastSaid saysMarker none calls with
    | some m =>
      rw [e] at hm
      dsimp only at hm ⊢
      intro mc hmc hcl
      subst hmc
      exact marker_meant hcl hm
    | none =>
      rw [e] at hm
      dsimp only at hm ⊢
      by_cases hn : noMarkers k = true
      · rw [if_pos hn] at hm ⊢
        dsimp only at hm
        rw [if_neg (by decide)] at hm
        obtain ⟨x, v, h1, h2, h3, h4, _⟩ := hm
        exact ⟨x, h1, h3.trans (h2.symm.trans (by decide)), h4⟩
      · rw [if_neg hn] at hm ⊢
        exact hm
  · intro hk; rw [h.invert hk, ser_invert]
  · intro hk c e
    rw [h.inverted hk, ser_inverted, e]
    cases c with
    | none => rfl
    | some c => simp
  · rw [← ser_points k calls]; exact h.points
  · intro h1 h2
    have hl := h.labels
    rw [ser_label, h1, h2] at hl
    exact hl
  · intro l ls h1 h2
    have hl := h.labels
    have hcu : ∀ c ∈ ls, labelOk (newLabel c) = true := by
      intro c hc'
      refine ok.custom _ ?_
      rw [ser_custom, h2]
      exact List.mem_map.mpr ⟨c, hc', rfl⟩
    have hlab : (addedSeries k calls).label = some (newLabel l) := by
      rw [ser_label]
      rcases h1 with e | ⟨e, rfl, e'⟩
      · rw [e]; rfl
      · rw [e]
        cases e2 : lastSaid saysCustom none calls with
        | none => exact absurd e2 e'
        | some x => rfl
    rw [hlab] at hl
    obtain ⟨x, hx, ha, hp⟩ := hl
    rw [ser_custom, h2] at hp
    exact ⟨x, hx, labels_meant (ok.label _ hlab) hcu ha hp⟩
  · intro t ht
    have htr := h.trend
    have hto := ok.trend
    rw [ser_trend, ht] at htr hto
    rw [trend_kind] at htr
    by_cases e : lastSaid saysTrendKind .none t = .none
    · rw [if_pos e] at htr ⊢; exact htr
    · rw [if_neg e] at htr ⊢
      obtain ⟨x, h1, h2⟩ := htr
      exact ⟨x, h1, trend_meant hto e h2⟩
  · rw [barsAsked_eq]
    refine pairs_map_to _ (pairs_imp h.bars fun p _ b hb ec he => ?_)
    dsimp only at he ⊢
    rw [he] at hb
    exact bars_meant hb
  · rw [h.smooth, ← ser_smooth k calls]
    unfold SeriesOpts.smoothOn usuallySmooth
    simp only [Bool.decide_or]

/-! ### The series of a chart -/

theorem given_opts {k : ChartKind} {g : GivenSeries} (h : givenOk k g) : g.opts k = addedSeries k g.calls := by
  unfold GivenSeries.opts
  split
  · rename_i hp
    obtain ⟨h1, h2⟩ := h.1 hp
    have e : ∀ o : SeriesOpts, o.prepare k = o := by
      intro o
      unfold SeriesOpts.prepare
      unfold noMarkers at h2
      rw [if_neg h1]
      dsimp only
      rw [if_neg (of_decide_eq_false h2)]
    unfold pushedSeries addedSeries
    rw [e, e]
  · rfl

/-- The cells of custom error bars can be kept. -/
def BarsGood (U : Unicode) (parses : Str → Bool) (shown : Text → Nat → Nat → Content) (g : GivenSeries) : Prop :=
  ∀ e, (.xErr e ∈ g.calls ∨ .yErr e ∈ g.calls) → (∃ p m, e.kind = .custom p m) →
    RefGood U parses shown .numbers e.plus ∧ RefGood U parses shown .numbers e.minus

theorem said_mem {κ α : Type} {f : κ → Option (Option α)} {calls : List κ} {a : α} (h : lastSaid f none calls = some a) :
    ∃ c ∈ calls, f c = some (some a) := by
  unfold lastSaid at h
  cases e : calls.reverse.findSome? f with
  | none => rw [e] at h; cases h
  | some x =>
    rw [e] at h
    obtain ⟨c, hc, hx⟩ := List.exists_of_findSome?_eq_some e
    exact ⟨c, List.mem_reverse.mp hc, by rw [hx]; exact congrArg some h⟩

theorem withOpts_good {k : ChartKind} {g : GivenSeries} (h : givenOk k g) (hb : BarsGood U parses shown g)
    (hg : SeriesGood U parses shown k.group g.data) : SeriesGood U parses shown k.group (g.data.withOpts k (g.opts k)) := by
  rw [given_opts h]
  have ok := added_ok k h.2
  refine ⟨hg.title, hg.values, hg.cats, hg.scatter, ?_, ?_, pre_free ok k _, post_free ok k⟩
  · intro e he
    obtain ⟨x, hx, rfl⟩ := Option.map_eq_some_iff.mp he
    refine err_free (ok.yErr x hx) (errAxis_cases _ _) (hb x (Or.inr ?_))
    rw [ser_yErr] at hx
    obtain ⟨c, hc, hs⟩ := said_mem hx
    cases c <;> first | (cases hs; done) | (cases hs; assumption)
  · intro e he
    obtain ⟨x, hx, rfl⟩ := Option.map_eq_some_iff.mp he
    refine err_free (ok.xErr x hx) (errAxis_cases _ _) (hb x (Or.inl ?_))
    rw [ser_xErr] at hx
    obtain ⟨c, hc, hs⟩ := said_mem hx
    cases c <;> first | (cases hs; done) | (cases hs; assumption)

/-- The data of the series are those of the chart. -/
structure BodyFits (b : ChartBody) (k : ChartKind) (ss : List GivenSeries) : Prop where
  group : b.group = k.group
  series : b.series = ss.map (·.data)

theorem body_good {b : ChartBody} {k : ChartKind} {ss : List GivenSeries} (hf : BodyFits b k ss) (h : ∀ g ∈ ss, givenOk k g)
    (hb : ∀ g ∈ ss, BarsGood U parses shown g) (hg : GroupGood U parses shown b) : GroupGood U parses shown (b.withSeries k ss) := by
  refine ⟨hg.head, hg.tail, hg.tail2, fun s hs => ?_⟩
  obtain ⟨g, hm, rfl⟩ := List.mem_map.mp hs
  show SeriesGood U parses shown b.group _
  have := hg.series g.data (by rw [hf.series]; exact List.mem_map.mpr ⟨g, hm, rfl⟩)
  rw [hf.group] at this ⊢
  exact withOpts_good (h g hm) (hb g hm) this

/-- The series of the combined chart fit. -/
def SecondFits (c : Chart) (second : Option (ChartKind × List GivenSeries)) : Prop :=
  match c.combined, second with
  | none, none => True
  | some b, some p => BodyFits b p.1 p.2
  | _, _ => False

theorem withSeries_good {c : Chart} {k : ChartKind} {ss : List GivenSeries} {second : Option (ChartKind × List GivenSeries)}
    (hf : BodyFits c.body k ss) (hf2 : SecondFits c second) (h : ∀ p ∈ allSeries k ss second, givenOk p.1 p.2)
    (hb : ∀ p ∈ allSeries k ss second, BarsGood U parses shown p.2) (hg : ChartGood U parses shown c) :
    ChartGood U parses shown (c.withSeries k ss second) := by
  have hm : ∀ k ss, ∀ g ∈ ss, (k, g) ∈ inGroups k ss := by
    intro k ss g hg
    refine List.mem_map.mpr ⟨g, List.mem_append.mpr ?_, rfl⟩
    cases e : g.data.secondary
    · exact Or.inl (List.mem_filter.mpr ⟨hg, by rw [e]; rfl⟩)
    · exact Or.inr (List.mem_filter.mpr ⟨hg, by rw [e]⟩)
  have h1 : ∀ g ∈ ss, (k, g) ∈ allSeries k ss second := fun g hg => List.mem_append_left _ (hm k ss g hg)
  refine ⟨body_good hf (fun g hg => h _ (h1 g hg)) (fun g hg => hb _ (h1 g hg)) hg.body, ?_, hg.title, hg.xAxis, hg.yAxis, hg.x2Axis, hg.y2Axis,
    hg.x2Title, hg.y2Title, hg.spacePre, hg.spacePost, hg.layout, hg.areaTail, hg.chartTail⟩
  intro b hb'
  unfold SecondFits at hf2
  have hb2 : withSecond c.combined second = some b := hb'
  cases e : c.combined with
  | none => rw [e] at hb2; cases second <;> cases hb2
  | some b0 =>
    rw [e] at hf2 hb2
    cases second with
    | none => exact hf2.elim
    | some p =>
      injection hb2 with hb2
      subst hb2
      have h2 : ∀ g ∈ p.2, (p.1, g) ∈ allSeries k ss (some p) := fun g hg => List.mem_append_right _ (hm p.1 p.2 g hg)
      exact body_good hf2 (fun g hg => h _ (h2 g hg)) (fun g hg => hb _ (h2 g hg)) (hg.combined b0 e)

/-- What is seen of a series of a chart. -/
def GivenMeant (p : ChartKind × GivenSeries) (q : SeriesLook) : Prop := SeriesLookMeant p.1 p.2.data.values.range.points p.2.calls q

/-- A series of a chart, with its caches. -/
def GivenSeries.filled (g : GivenSeries) (k : ChartKind) (m : CacheMap) : ChartSeries := (g.data.withOpts k (g.opts k)).update m

theorem group_looks {k : ChartKind} {m : CacheMap} {ss : List GivenSeries} (h : ∀ g ∈ ss, givenOk k g)
    (hg : ∀ g ∈ ss, SeriesGood U parses shown k.group (g.filled k m) ∧ SeriesFilled shown (g.filled k m)) (i : Nat) :
    ∃ qs, ((seriesTrees U parses k.group i (ss.map fun g => g.filled k m)).map treeParts).mapM readSeriesLook = some qs ∧
      Pairs GivenMeant (ss.map fun g => (k, g)) qs := by
  induction ss generalizing i with
  | nil => exact ⟨[], rfl, trivial⟩
  | cons g ss ih =>
    obtain ⟨qs, h1, h2⟩ := ih (fun x hx => h x (List.mem_cons_of_mem _ hx)) (fun x hx => hg x (List.mem_cons_of_mem _ hx)) (i + 1)
    have ok := h g List.mem_cons_self
    obtain ⟨g1, g2⟩ := hg g List.mem_cons_self
    have hi : IsSeries k (g.opts k) (g.filled k m) := (isSeries g.data k (g.opts k)).update m
    have hok : (g.opts k).Ok := by rw [given_opts ok]; exact added_ok k ok.2
    obtain ⟨q, h3, h4⟩ := series_read hi hok g1 g2 i
    refine ⟨q :: qs, ?_, ?_, h2⟩
    · rw [List.map_cons, seriesTrees, List.map_cons, List.mapM_cons, h3, h1]; rfl
    · rw [given_opts ok] at h4
      rw [show (g.filled k m).values.range.points = g.data.values.range.points from congrArg ChartRange.points (update_range _ _)] at h4
      exact series_meant ok.2 h4

/-- The series in some elements of the plot area. -/
def serIn (ts : List Tree) : List (NodeAttrs × List Node) := ts.flatMap fun x => elems "c:ser".toList (treeParts x).2

theorem groupTrees_ser {b : ChartBody} (hb : GroupGood U parses shown b) (ids : Nat × Nat) (i : Nat) (ss : List ChartSeries) :
    serIn (groupTrees U parses ids b i ss) = (seriesTrees U parses b.group i ss).map treeParts := by
  unfold groupTrees
  by_cases he : ss = []
  · rw [he, if_pos List.isEmpty_nil]; rfl
  · have he' : ¬ ss.isEmpty = true := by simpa using he
    rw [if_neg he']
    show elems "c:ser".toList _ ++ [] = _
    rw [List.append_nil]
    simp only [treeParts]
    rw [elems_trees]
    simp only [List.filter_append]
    have ht : NoTag "c:ser".toList (if b.group.axisFree = true then [] else [axIdTree ids.1, axIdTree ids.2]) := by
      split
      · exact NoTag.nil _
      · exact NoTag.cons (show "c:axId".toList ≠ _ by decide) (NoTag.cons (show "c:axId".toList ≠ _ by decide) (NoTag.nil _))
    rw [(hb.head.noTag (k := "c:ser".toList) (by decide)).filter, (hb.tail.noTag (k := "c:ser".toList) (by decide)).filter,
      filter_tag (seriesTrees_tag _ _ _), ht.filter]
    simp only [List.nil_append, List.append_nil]

theorem serIn_append (a b : List Tree) : serIn (a ++ b) = serIn a ++ serIn b := List.flatMap_append

theorem filled_series {b : ChartBody} {k : ChartKind} {ss : List GivenSeries} {m : CacheMap} (primary : Bool) :
    getSeries ((b.withSeries k ss).update m) primary = (ss.filter fun g => g.data.secondary != primary).map fun g => g.filled k m := by
  show ((ss.map _).map _).filter _ = _
  rw [List.map_map, List.filter_map]
  rfl

theorem pairs_two {α β γ : Type} {R : α → β → Prop} {a a' : List α} {f : γ → Option β} {x y : List γ}
    (h : ∃ q, x.mapM f = some q ∧ Pairs R a q) (h' : ∃ q, y.mapM f = some q ∧ Pairs R a' q) :
    ∃ q, (x ++ y).mapM f = some q ∧ Pairs R (a ++ a') q := by
  obtain ⟨q, h1, h2⟩ := h
  obtain ⟨q', h3, h4⟩ := h'
  exact ⟨q ++ q', mapM_append h1 h3, pairs_append h2 h4⟩

theorem body_looks {b : ChartBody} {k : ChartKind} {ss : List GivenSeries} {m : CacheMap} (hf : BodyFits b k ss) (h : ∀ g ∈ ss, givenOk k g)
    (hg : GroupGood U parses shown ((b.withSeries k ss).update m)) (hs : ∀ s ∈ ((b.withSeries k ss).update m).series, SeriesFilled shown s)
    (ids ids2 : Nat × Nat) (i : Nat) :
    ∃ qs, (serIn (chartTypeTrees U parses ids ids2 ((b.withSeries k ss).update m) i)).mapM readSeriesLook = some qs ∧
      Pairs GivenMeant (inGroups k ss) qs := by
  have hmem : ∀ g ∈ ss, g.filled k m ∈ ((b.withSeries k ss).update m).series := by
    intro g hg
    show _ ∈ (ss.map _).map _
    rw [List.map_map]
    exact List.mem_map.mpr ⟨g, hg, rfl⟩
  have hk : ((b.withSeries k ss).update m).group = k.group := hf.group
  have key : ∀ (p : GivenSeries → Bool) (j : Nat),
      ∃ qs, ((seriesTrees U parses k.group j ((ss.filter p).map fun g => g.filled k m)).map treeParts).mapM readSeriesLook = some qs ∧
      Pairs GivenMeant ((ss.filter p).map fun g => (k, g)) qs := by
    intro p j
    refine group_looks (shown := shown) (fun g hg => h g (List.mem_filter.mp hg).1) (fun g hg' => ?_) j
    have hg' := hmem g (List.mem_filter.mp hg').1
    have := hg.series _ hg'
    rw [hk] at this
    exact ⟨this, hs _ hg'⟩
  unfold chartTypeTrees inGroups
  rw [serIn_append, groupTrees_ser hg, groupTrees_ser hg.second, filled_series, filled_series, hk, show ((b.withSeries k ss).update m).second.group = k.group from hf.group, List.map_append]
  have e1 : (fun g : GivenSeries => g.data.secondary != true) = fun g => !g.data.secondary := by
    funext g; cases g.data.secondary <;> rfl
  have e2 : (fun g : GivenSeries => g.data.secondary != false) = fun g => g.data.secondary := by
    funext g; cases g.data.secondary <;> rfl
  rw [e1, e2]
  exact pairs_two (key _ _) (key _ _)

theorem plotArea_series {c : Chart} (h : ChartGood U parses shown c) :
    readSeriesLooks (chartSpaceTree U parses c).toNode =
      (serIn (chartTypeTrees U parses c.axisIds c.axis2Ids c.body 0 ++ combinedTrees U parses c)).mapM readSeriesLook := by
  rw [toNode_parts]
  unfold readSeriesLooks plotAreaOf
  dsimp only
  rw [if_pos (show treeTag (chartSpaceTree U parses c) = "c:chartSpace".toList from rfl)]
  unfold chartSpaceTree
  simp only [treeParts]
  rw [(h.spacePre.noTag (by decide)).child, child_head (t := "c:chart".toList) _ _ (by rfl)]
  unfold chartTree
  simp only [treeParts]
  have e1 : ∀ r, child "c:plotArea".toList (toNodes ((if c.body.titleHidden = true then
      [.empty "c:autoTitleDeleted".toList [("val".toList, "1".toList)]] else chartTitleTrees U c.body.title) ++
      plotAreaTree U parses c :: r)) = some (treeParts (plotAreaTree U parses c)) := by
    intro r
    rw [NoTag.child, child_head _ _ (by rfl)]
    split
    · exact NoTag.cons (by tagne) (NoTag.nil _)
    · exact NoTag.all (chartTitleTrees_tag _) (by decide)
  show (Option.map _ (child "c:plotArea".toList _)).bind _ = _
  rw [e1]
  show ((elemsIn groupTags (treeParts (plotAreaTree U parses c)).2).flatMap _).mapM _ = _
  unfold plotAreaTree
  simp only [treeParts]
  rw [elemsIn_trees]
  change (((List.filter _ (c.layout ++ chartTypeTrees U parses c.axisIds c.axis2Ids c.body 0 ++ combinedTrees U parses c ++
    primaryAxes U c.body c.axisIds ++ secondaryAxes U c ++ c.areaTail)).map _).flatMap _).mapM _ = _
  have ha := axes_tag (U := U) c
  simp only [List.filter_append]
  rw [h.layout.filterIn (by simp +contextual), h.areaTail.filterIn (by simp +contextual),
    filterIn_all (chartType_tag _ _ _ _), filterIn_all (combined_tag c),
    filterIn_none (tags' := axisTags) (fun x hx => ha x (List.mem_append_left _ hx)) (by decide),
    filterIn_none (tags' := axisTags) (fun x hx => ha x (List.mem_append_right _ hx)) (by decide)]
  simp only [List.nil_append, List.append_nil]
  congr 1
  rw [List.flatMap_map]
  rfl

theorem series_looks {c : Chart} {k : ChartKind} {ss : List GivenSeries} {second : Option (ChartKind × List GivenSeries)} {m : CacheMap}
    (hf : BodyFits c.body k ss) (hf2 : SecondFits c second) (h : ∀ p ∈ allSeries k ss second, givenOk p.1 p.2)
    (hb : ∀ p ∈ allSeries k ss second, BarsGood U parses shown p.2) (hg : ChartGood U parses shown c)
    (hs : ChartFilled shown ((c.withSeries k ss second).update m)) :
    ∃ looks, readSeriesLooks (chartSpaceTree U parses ((c.withSeries k ss second).update m)).toNode = some looks ∧
      Pairs GivenMeant (allSeries k ss second) looks := by
  have gm := (withSeries_good hf hf2 h hb hg).update m
  have hin : ∀ k (ss : List GivenSeries) g, g ∈ ss → (k, g) ∈ inGroups k ss := by
    intro k ss g hg
    refine List.mem_map.mpr ⟨g, List.mem_append.mpr ?_, rfl⟩
    cases e : g.data.secondary
    · exact Or.inl (List.mem_filter.mpr ⟨hg, by rw [e]; rfl⟩)
    · exact Or.inr (List.mem_filter.mpr ⟨hg, by rw [e]⟩)
  rw [plotArea_series gm, serIn_append]
  unfold allSeries
  refine pairs_two ?_ ?_
  · exact body_looks hf (fun g hg => h (k, g) (List.mem_append_left _ (hin k ss g hg))) gm.body hs.series _ _ _
  · unfold SecondFits at hf2
    unfold combinedTrees
    cases e : c.combined with
    | none =>
      rw [e] at hf2
      cases second with
      | some p => exact hf2.elim
      | none =>
        have ec : ((c.withSeries k ss none).update m).combined = none := by
          show Option.map _ (withSecond c.combined none) = none
          rw [e]; rfl
        rw [ec]
        exact ⟨[], rfl, trivial⟩
    | some b =>
      rw [e] at hf2
      cases second with
      | none => exact hf2.elim
      | some p =>
        have ec : ((c.withSeries k ss (some p)).update m).combined = some ((b.withSeries p.1 p.2).update m) := by
          show Option.map _ (withSecond c.combined (some p)) = _
          rw [e]; rfl
        rw [ec]
        exact body_looks hf2 (fun g hg => h (p.1, g) (List.mem_append_right _ (hin p.1 p.2 g hg))) (gm.combined _ ec) (hs.combined _ ec) _ _ _

/-- C74: when charts are saved, a reader of the chart part finds for each series, in the order of the chart groups, the format, the
marker, the formats of its points, its labels and those of its points, its trendline, its error bars, the fill of negative values and
whether its line is smooth, as the calls on the series asked for; what was not asked for is as in a new series of that type of chart.
Missing for the full property: see the counterexamples and the conditions in the specification. -/
theorem C74_series_partial {Fmt : Type} [DecidableEq Fmt] (U : Unicode) (parses : Str → Bool) (lower : Str → Str) (cfg : Cfg)
    (hstd : cfg.isStandard) (merge : Fmt → Fmt → Fmt) (dflt : Fmt) (sheets : List (Str × Sheet Fmt))
    (hm : Made lower cfg merge dflt sheets) (charts out : List Chart) (hp : prepareCaches sheets charts = some out)
    (sst : SST) (i : Nat) (c : Chart) (k : ChartKind) (ss : List GivenSeries) (second : Option (ChartKind × List GivenSeries))
    (hi : charts[i]? = some (c.withSeries k ss second)) (hg : ChartGood U parses (shownOn sheets sst) c)
    (hf : BodyFits c.body k ss) (hf2 : SecondFits c second)
    (h : ∀ p ∈ allSeries k ss second, givenOk p.1 p.2) (hb : ∀ p ∈ allSeries k ss second, BarsGood U parses (shownOn sheets sst) p.2) :
    ∃ c' node looks, out[i]? = some c' ∧ parseDoc (writePart (chartSpaceTree U parses c')) = some node ∧
      readSeriesLooks node = some looks ∧
      Pairs (fun p q => SeriesLookMeant p.1 p.2.data.values.range.points p.2.calls q) (allSeries k ss second) looks := by
  obtain ⟨m, rfl, hcm⟩ := prepareCaches_some hp
  have good := withSeries_good hf hf2 h hb hg
  have hfl : ChartFilled (shownOn sheets sst) ((c.withSeries k ss second).update m) := by
    refine chart_filled (hm.shows hstd sst) hcm (fun r hr => ?_) good
    exact List.mem_flatMap.mpr ⟨_, List.mem_of_getElem? hi, hr⟩
  obtain ⟨looks, h1, h2⟩ := series_looks hf hf2 h hb hg hfl
  exact ⟨(c.withSeries k ss second).update m, _, looks, by rw [List.getElem?_map, hi]; rfl,
    C07_part_roundtrip _ (chartSpaceTree_ok (good.update m) hfl), h1, h2⟩

end Verif
