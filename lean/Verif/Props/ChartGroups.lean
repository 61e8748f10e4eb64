import Verif.Props.ChartSeries
import Verif.Spec.ChartGroups
/-!
C75: the chart groups show what the calls on the chart and its series asked for.
-/
namespace Verif
open Spec

variable {U : Unicode} {parses : Str → Bool} {shown : Text → Nat → Nat → Content}

/-! ### The fields of a chart after calls -/

section
variable (calls : List ChartCall)

macro "chart_cases" : tactic => `(tactic| (intro s c; cases c <;> first | rfl | (simp only [ChartOpts.exec]; split <;> rfl)))

theorem opts_style : (chartOpts calls).style = lastSaid saysStyle 2 calls :=
  fold_field (exec := ChartOpts.exec) ChartOpts.style saysStyle (fun s c => by
    cases c <;> first | rfl | (simp only [ChartOpts.exec, saysStyle]; split <;> rfl)) {} calls

theorem opts_rotation : (chartOpts calls).rotation = lastSaid saysRotation 0 calls :=
  fold_field (exec := ChartOpts.exec) ChartOpts.rotation saysRotation (fun s c => by
    cases c <;> first | rfl | (simp only [ChartOpts.exec, saysRotation]; split <;> rfl)) {} calls

theorem opts_hole : (chartOpts calls).holeSize = lastSaid saysHole 50 calls :=
  fold_field (exec := ChartOpts.exec) ChartOpts.holeSize saysHole (fun s c => by
    cases c <;> first | rfl | (simp only [ChartOpts.exec, saysHole]; split <;> rfl)) {} calls

theorem opts_upDown : (chartOpts calls).upDown = lastSaid saysUpDown false calls :=
  fold_field (exec := ChartOpts.exec) ChartOpts.upDown saysUpDown (by chart_cases) {} calls

theorem opts_up : (chartOpts calls).upFormat = lastSaid saysUpFormat {} calls :=
  fold_field (exec := ChartOpts.exec) ChartOpts.upFormat saysUpFormat (by chart_cases) {} calls

theorem opts_down : (chartOpts calls).downFormat = lastSaid saysDownFormat {} calls :=
  fold_field (exec := ChartOpts.exec) ChartOpts.downFormat saysDownFormat (by chart_cases) {} calls

theorem opts_highLow : (chartOpts calls).highLow = lastSaid saysHighLow false calls :=
  fold_field (exec := ChartOpts.exec) ChartOpts.highLow saysHighLow (by chart_cases) {} calls

theorem opts_high : (chartOpts calls).highLowFormat = lastSaid saysHighLowFormat {} calls :=
  fold_field (exec := ChartOpts.exec) ChartOpts.highLowFormat saysHighLowFormat (by chart_cases) {} calls

theorem opts_dropLines : (chartOpts calls).dropLines = lastSaid saysDrop false calls :=
  fold_field (exec := ChartOpts.exec) ChartOpts.dropLines saysDrop (by chart_cases) {} calls

theorem opts_drop : (chartOpts calls).dropFormat = lastSaid saysDropFormat {} calls :=
  fold_field (exec := ChartOpts.exec) ChartOpts.dropFormat saysDropFormat (by chart_cases) {} calls

end

/-- A format that was said can be written. -/
theorem said_ok {κ : Type} {ok : κ → Bool} {f : κ → Option CFormat} {calls : List κ} (h : ∀ c ∈ calls, ok c = true)
    (hf : ∀ c a, f c = some a → ok c = true → cFormatOk a = true) : cFormatOk (lastSaid f {} calls) = true :=
  lastSaid_all f {} calls (fun a => cFormatOk a = true) (by decide +kernel) fun c hc a ha => hf c a ha (h c hc)

/-! ### Gap and overlap -/

theorem lastSaid_append {κ α : Type} (f : κ → Option α) (d : α) (a b : List κ) :
    lastSaid f d (a ++ b) = lastSaid f (lastSaid f d a) b := by
  unfold lastSaid
  rw [List.reverse_append, List.findSome?_append]
  cases b.reverse.findSome? f <;> rfl

theorem given_gap (g : GivenSeries) (k : ChartKind) : (g.opts k).gap = lastSaid saysGap 150 g.calls := by
  have hf : ∀ (s : SeriesOpts) c, (s.exec c).gap = (saysGap c).getD s.gap := by
    intro s c
    cases c <;> first | rfl | (simp only [SeriesOpts.exec, saysGap]; split <;> rfl)
  have hp : ∀ s : SeriesOpts, (s.prepare k).gap = s.gap := by
    intro s
    unfold SeriesOpts.prepare
    dsimp only
    split <;> split <;> rfl
  unfold GivenSeries.opts
  split
  · unfold pushedSeries
    rw [hp]
    exact fold_field (exec := SeriesOpts.exec) SeriesOpts.gap saysGap hf {} g.calls
  · unfold addedSeries
    rw [fold_field (exec := SeriesOpts.exec) SeriesOpts.gap saysGap hf, hp]

theorem given_overlap (g : GivenSeries) (k : ChartKind) : (g.opts k).overlap = lastSaid saysOverlap none g.calls := by
  have hf : ∀ (s : SeriesOpts) c, (s.exec c).overlap = (saysOverlap c).getD s.overlap := by
    intro s c
    cases c <;> first | rfl | (simp only [SeriesOpts.exec, saysOverlap]; split <;> rfl)
  have hp : ∀ s : SeriesOpts, (s.prepare k).overlap = s.overlap := by
    intro s
    unfold SeriesOpts.prepare
    dsimp only
    split <;> split <;> rfl
  unfold GivenSeries.opts
  split
  · unfold pushedSeries
    rw [hp]
    exact fold_field (exec := SeriesOpts.exec) SeriesOpts.overlap saysOverlap hf {} g.calls
  · unfold addedSeries
    rw [fold_field (exec := SeriesOpts.exec) SeriesOpts.overlap saysOverlap hf, hp]

theorem overlap_some (c : SeriesCall) : saysOverlap c ≠ some none := by
  cases c with
  | overlap n =>
    simp only [saysOverlap]
    split <;> simp
  | _ => nofun

theorem spacing_said (k : ChartKind) (s : Nat × Option Int) (ss : List GivenSeries)
    (h : ∀ g ∈ ss, g.calls.reverse.findSome? saysGap ≠ some 150) :
    spacingOf k s ss = (lastSaid saysGap s.1 (callsOfSeries ss), lastSaid saysOverlap s.2 (callsOfSeries ss)) := by
  induction ss generalizing s with
  | nil => rfl
  | cons g ss ih =>
    have hg := h g List.mem_cons_self
    show spacingOf k (spacingAfter s (g.opts k)) ss = _
    rw [ih _ fun x hx => h x (List.mem_cons_of_mem _ hx)]
    show _ = (lastSaid saysGap s.1 (g.calls ++ callsOfSeries ss), lastSaid saysOverlap s.2 (g.calls ++ callsOfSeries ss))
    rw [lastSaid_append, lastSaid_append]
    have e1 : (spacingAfter s (g.opts k)).1 = lastSaid saysGap s.1 g.calls := by
      show (if (g.opts k).gap ≠ 150 then (g.opts k).gap else s.1) = _
      rw [given_gap]
      unfold lastSaid
      cases e : g.calls.reverse.findSome? saysGap with
      | none => rfl
      | some n =>
        rw [e] at hg
        show (if n ≠ 150 then n else s.1) = n
        rw [if_pos (fun h => hg (congrArg some h))]
    have e2 : (spacingAfter s (g.opts k)).2 = lastSaid saysOverlap s.2 g.calls := by
      show (if (g.opts k).overlap.isSome = true then (g.opts k).overlap else s.2) = _
      rw [given_overlap]
      unfold lastSaid
      cases e : g.calls.reverse.findSome? saysOverlap with
      | none => rfl
      | some n =>
        obtain ⟨c, _, hc⟩ := List.exists_of_findSome?_eq_some e
        cases n with
        | none => exact absurd hc (overlap_some c)
        | some n => rfl
    rw [e1, e2]

theorem said_any {κ α : Type} {f : κ → Option α} {calls : List κ} (h : ∃ c ∈ calls, f c ≠ none) (d d' : α) :
    lastSaid f d calls = lastSaid f d' calls := by
  unfold lastSaid
  cases e : calls.reverse.findSome? f with
  | none =>
    obtain ⟨c, hc, hf⟩ := h
    rw [List.findSome?_eq_none_iff] at e
    exact absurd (e c (List.mem_reverse.mpr hc)) hf
  | some a => rfl

/-! ### Elements of a chart group -/

theorem drawn_ok {t : Str} (ht : isName t = true) {f : CFormat} (h : cFormatOk f = true) : treeOk (drawnTree t f) = true := by
  unfold drawnTree
  split
  · exact treeOk_node ht attrsGood_nil fun x hx => (cFormat_ok h x hx).1
  · exact treeOk_empty ht attrsGood_nil

theorem drawn_tag (t : Str) (f : CFormat) : treeTag (drawnTree t f) = t := by
  unfold drawnTree
  split <;> rfl

theorem drawn_read {t : Str} {f : CFormat} (h : cFormatOk f = true) :
    ∃ q, readFormatIn (treeParts (drawnTree t f)).2 = some q ∧ FormatMeant f q := by
  have e : treeParts (drawnTree t f) = ([], toNodes f.trees) := by
    unfold drawnTree
    by_cases hf : f.hasFormatting = true
    · rw [if_pos hf]; rfl
    · rw [if_neg hf]
      unfold CFormat.trees
      rw [if_neg hf]; rfl
  rw [e]
  exact format_trees h

/-- The sections of an element with the lines of a chart group. -/
theorem drawn_look {secs : List (Str × List Tree)} (hs : SecsOk secs) (hn : (secs.map Prod.fst).Nodup) {t : Str} {f : CFormat}
    (h : cFormatOk f = true) {p : Prop} [Decidable p] (hl : secs.lookup t = some (if p then [drawnTree t f] else [])) :
    ∃ s, optChild (fun c => readFormatIn c.2) t (toNodes (secTrees secs)) = some s ∧ DrawnMeant (decide p) f s := by
  unfold DrawnMeant
  by_cases hp : p
  · rw [if_pos hp] at hl
    obtain ⟨q, h1, h2⟩ := drawn_read (t := t) h
    refine ⟨some q, sec_opt_one hs hn hl h1, ?_⟩
    rw [if_pos (decide_eq_true hp)]
    exact ⟨q, rfl, h2⟩
  · rw [if_neg hp] at hl
    refine ⟨none, sec_opt_none hs hn (by rw [hl]; rfl), ?_⟩
    rw [if_neg (by rw [decide_eq_false hp]; decide)]

/-- The formats of the fields can be written. -/
structure OptsFine (o : ChartOpts) : Prop where
  up : cFormatOk o.upFormat = true
  down : cFormatOk o.downFormat = true
  high : cFormatOk o.highLowFormat = true
  drop : cFormatOk o.dropFormat = true

theorem opts_fine {calls : List ChartCall} (h : ∀ c ∈ calls, chartCallOk c = true) : OptsFine (chartOpts calls) := by
  refine ⟨?_, ?_, ?_, ?_⟩
  · rw [opts_up]
    exact said_ok h fun c a e hc => by cases c <;> first | (cases e; done) | (cases e; exact hc)
  · rw [opts_down]
    exact said_ok h fun c a e hc => by cases c <;> first | (cases e; done) | (cases e; exact hc)
  · rw [opts_high]
    exact said_ok h fun c a e hc => by cases c <;> first | (cases e; done) | (cases e; exact hc)
  · rw [opts_drop]
    exact said_ok h fun c a e hc => by cases c <;> first | (cases e; done) | (cases e; exact hc)

/-- The sections of the bars between lines. -/
def upDownSecs (o : ChartOpts) : List (Str × List Tree) :=
  [("c:gapWidth".toList, [valText "c:gapWidth".toList (showNat 150)]), ("c:upBars".toList, [drawnTree "c:upBars".toList o.upFormat]),
   ("c:downBars".toList, [drawnTree "c:downBars".toList o.downFormat])]

theorem upDown_secs (o : ChartOpts) (h : OptsFine o) :
    SecsOk (upDownSecs o) :=
  secsOk_cons (one_ok (valText_ok (by decide +kernel) (showNat_attrSafe _)) rfl)
    (secsOk_cons (one_ok (drawn_ok (by decide +kernel) h.up) (drawn_tag _ _))
      (secsOk_cons (one_ok (drawn_ok (by decide +kernel) h.down) (drawn_tag _ _)) secsOk_nil))

theorem upDown_ok {o : ChartOpts} (h : OptsFine o) : treeOk (upDownTree o) = true :=
  treeOk_node (by decide +kernel) attrsGood_nil (ok_of_secs (upDown_secs o h))

theorem upDown_read {o : ChartOpts} (h : OptsFine o) :
    ∃ f g, readUpDown (treeParts (upDownTree o)) = some ⟨some "150".toList, some f, some g⟩ ∧ FormatMeant o.upFormat f ∧
      FormatMeant o.downFormat g := by
  have hs := upDown_secs o h
  have hn : ((upDownSecs o).map Prod.fst).Nodup := by
    show (["c:gapWidth".toList, "c:upBars".toList, "c:downBars".toList] : List Str).Nodup
    decide
  obtain ⟨f, f1, f2⟩ := drawn_read (t := "c:upBars".toList) h.up
  obtain ⟨g, g1, g2⟩ := drawn_read (t := "c:downBars".toList) h.down
  have e1 := sec_opt_one (read := fun c => readFormatIn c.2) (t := "c:upBars".toList) hs hn (by unfold upDownSecs; sec_look) f1
  have e2 := sec_opt_one (read := fun c => readFormatIn c.2) (t := "c:downBars".toList) hs hn (by unfold upDownSecs; sec_look) g1
  have e3 := sec_one (t := "c:gapWidth".toList) (v := showNat 150) hs hn (by unfold upDownSecs; sec_look)
  refine ⟨f, g, ?_, f2, g2⟩
  show readUpDown ([], toNodes (secTrees (upDownSecs o))) = _
  unfold readUpDown
  dsimp only
  rw [e1, e2, e3]
  dsimp only
  rw [show showNat 150 = "150".toList by decide +kernel]

/-- The sections of a chart group. -/
def groupSecs (k : ChartKind) (o : ChartOpts) (primary : Bool) (s : Nat × Option Int) (sers ids : List Tree) : List (Str × List Tree) :=
  k.headSecs ++ ("c:ser".toList, sers) :: (o.tailSecs k primary s ++ [("c:axId".toList, ids)])

theorem dir_safe (g : ChartGroup) : attrSafe (dirText g) = true := by
  cases g <;> decide +kernel

theorem head_secs (k : ChartKind) : SecsOk k.headSecs := by
  unfold ChartKind.headSecs
  exact secsOk_cons (textVal_ok (by decide +kernel) (dir_safe _)) (secsOk_cons (if_ok (valText_ok (by decide +kernel) (by cases k <;> decide +kernel)) rfl)
    (secsOk_cons (if_ok (valText_ok (by decide +kernel) (by split <;> decide +kernel)) rfl)
    (secsOk_cons (if_ok (valText_ok (by decide +kernel) (by split <;> decide +kernel)) rfl) (secsOk_cons (oneIf_ok (by decide +kernel) _) secsOk_nil))))

theorem tail_secs {o : ChartOpts} (h : OptsFine o) (k : ChartKind) (primary : Bool) (s : Nat × Option Int) : SecsOk (o.tailSecs k primary s) := by
  unfold ChartOpts.tailSecs
  refine secsOk_cons (if_ok (valText_ok (by decide +kernel) (showNat_attrSafe _)) rfl)
    (secsOk_cons (if_ok (valText_ok (by decide +kernel) (showNat_attrSafe _)) rfl)
    (secsOk_cons (if_ok (valText_ok (by decide +kernel) (showNat_attrSafe _)) rfl)
    (secsOk_cons (ifs_ok (optVal_ok (by decide +kernel) ?_))
    (secsOk_cons (if_ok (drawn_ok (by decide +kernel) h.drop) (drawn_tag _ _))
    (secsOk_cons (if_ok (drawn_ok (by decide +kernel) h.high) (drawn_tag _ _))
    (secsOk_cons (if_ok (upDown_ok h) rfl) (secsOk_cons (oneIf_ok (by decide +kernel) _) secsOk_nil)))))))
  intro v hv
  cases e : s.2 with
  | none => rw [e] at hv; cases hv
  | some n => rw [e] at hv; injection hv with hv; subst hv; exact showInt_safe _

theorem group_nodup (k : ChartKind) (o : ChartOpts) (primary : Bool) (s : Nat × Option Int) (sers ids : List Tree) :
    ((groupSecs k o primary s sers ids).map Prod.fst).Nodup := by
  show (["c:barDir".toList, "c:grouping".toList, "c:radarStyle".toList, "c:scatterStyle".toList, "c:varyColors".toList, "c:ser".toList,
    "c:firstSliceAng".toList, "c:holeSize".toList, "c:gapWidth".toList, "c:overlap".toList, "c:dropLines".toList, "c:hiLowLines".toList,
    "c:upDownBars".toList, "c:marker".toList, "c:axId".toList] : List Str).Nodup
  decide

theorem group_text (k : ChartKind) : (if k.group = .area ∨ k.group = .bar ∨ k.group = .column ∨ k.group = .line then some k.grouping else none) =
    groupingMeant k := by
  cases k <;> decide

theorem radar_text (k : ChartKind) : (if k.group = .radar then some (if k = .radarFilled then "filled".toList else "marker".toList) else none) =
    radarMeant k := by
  cases k <;> decide

theorem scatter_text (k : ChartKind) : (if k.group = .scatter then
    some (if k = .scatterSmooth ∨ k = .scatterSmoothMarkers then "smoothMarker".toList else "lineMarker".toList) else none) = scatterMeant k := by
  cases k <;> decide

theorem dir_text (g : ChartGroup) : (if dirText g ≠ [] then some (dirText g) else none) = dirMeant g := by
  cases g <;> decide

theorem groupLook_some {kind : Text} {ks : List Node} {drop high bars}
    (h1 : optChild (fun c => readFormatIn c.2) "c:dropLines".toList ks = some drop)
    (h2 : optChild (fun c => readFormatIn c.2) "c:hiLowLines".toList ks = some high)
    (h3 : optChild readUpDown "c:upDownBars".toList ks = some bars) :
    readGroupLook kind ks = some ⟨kind, cVal "c:barDir".toList ks, cVal "c:grouping".toList ks, cVal "c:radarStyle".toList ks,
      cVal "c:scatterStyle".toList ks, cOn "c:varyColors".toList ks, cVal "c:firstSliceAng".toList ks, cVal "c:holeSize".toList ks,
      cVal "c:gapWidth".toList ks, cVal "c:overlap".toList ks, drop, high, bars, cOn "c:marker".toList ks⟩ := by
  unfold readGroupLook
  rw [h1, h2, h3]

theorem group_look {k : ChartKind} {calls : List ChartCall} {primary : Bool} {ss : List GivenSeries} {s : Nat × Option Int}
    {sers ids : List Tree} (hc : ∀ c ∈ calls, chartCallOk c = true) (hsers : ∀ x ∈ sers, treeOk x = true ∧ treeTag x = "c:ser".toList)
    (hids : ∀ x ∈ ids, treeOk x = true ∧ treeTag x = "c:axId".toList)
    (hsp : k.group = .bar ∨ k.group = .column → s.1 = lastSaid saysGap 150 (callsOfSeries ss) ∧
      s.2 = lastSaid saysOverlap (usualOverlap k) (callsOfSeries ss)) :
    ∃ q, readGroupLook (groupElement k.group) (toNodes (secTrees (groupSecs k (chartOpts calls) primary s sers ids))) = some q ∧
      GroupLookMeant k calls primary ss q := by
  have fine := opts_fine hc
  have hs : SecsOk (groupSecs k (chartOpts calls) primary s sers ids) :=
    secsOk_append (head_secs k) (secsOk_cons hsers (secsOk_append (tail_secs fine k primary s) (secsOk_cons hids secsOk_nil)))
  have hn := group_nodup k (chartOpts calls) primary s sers ids
  have e : groupSecs k (chartOpts calls) primary s sers ids = groupSecs k (chartOpts calls) primary s sers ids := rfl
  conv at e => rhs; simp only [groupSecs, ChartKind.headSecs, ChartOpts.tailSecs, List.cons_append, List.nil_append]
  obtain ⟨drop, d1, d2⟩ := drawn_look hs hn (t := "c:dropLines".toList) fine.drop (by rw [e]; sec_look; rfl)
  obtain ⟨high, h1, h2⟩ := drawn_look hs hn (t := "c:hiLowLines".toList) fine.high (by rw [e]; sec_look; rfl)
  have v1 : cVal "c:barDir".toList (toNodes (secTrees (groupSecs k (chartOpts calls) primary s sers ids))) = dirMeant k.group := by
    rw [cVal_secs hs hn, e, ← dir_text, ← textVal_val "c:barDir".toList]
    sec_look
  have v2 : cVal "c:grouping".toList (toNodes (secTrees (groupSecs k (chartOpts calls) primary s sers ids))) = groupingMeant k :=
    (sec_if hs hn (by rw [e]; sec_look)).trans (group_text k)
  have v3 : cVal "c:radarStyle".toList (toNodes (secTrees (groupSecs k (chartOpts calls) primary s sers ids))) = radarMeant k :=
    (sec_if hs hn (by rw [e]; sec_look)).trans (radar_text k)
  have v4 : cVal "c:scatterStyle".toList (toNodes (secTrees (groupSecs k (chartOpts calls) primary s sers ids))) = scatterMeant k :=
    (sec_if hs hn (by rw [e]; sec_look)).trans (scatter_text k)
  have v5 : cOn "c:varyColors".toList (toNodes (secTrees (groupSecs k (chartOpts calls) primary s sers ids))) =
      (k.group = .pie || k.group = .doughnut) := sec_on hs hn (by rw [e]; sec_look)
  have v6 : cVal "c:firstSliceAng".toList (toNodes (secTrees (groupSecs k (chartOpts calls) primary s sers ids))) = _ :=
    sec_if hs hn (by rw [e]; sec_look; rfl)
  have v7 : cVal "c:holeSize".toList (toNodes (secTrees (groupSecs k (chartOpts calls) primary s sers ids))) = _ :=
    sec_if hs hn (by rw [e]; sec_look; rfl)
  have v8 : cVal "c:gapWidth".toList (toNodes (secTrees (groupSecs k (chartOpts calls) primary s sers ids))) = _ :=
    sec_if hs hn (by rw [e]; sec_look; rfl)
  have v9 : cVal "c:overlap".toList (toNodes (secTrees (groupSecs k (chartOpts calls) primary s sers ids))) =
      if k.group = .bar ∨ k.group = .column then s.2.map showInt else none := by
    rw [cVal_secs hs hn, e]
    sec_look
    split
    · exact optVal_val _ _
    · rfl
  have v10 : cOn "c:marker".toList (toNodes (secTrees (groupSecs k (chartOpts calls) primary s sers ids))) =
      decide (k.group = .line) := sec_on hs hn (by rw [e]; sec_look)
  have up : ∃ x, optChild readUpDown "c:upDownBars".toList (toNodes (secTrees (groupSecs k (chartOpts calls) primary s sers ids))) = some x ∧
      (if (k.group = .line ∨ k.group = .stock) ∧ lastSaid saysUpDown false calls = true then
        ∃ f g, x = some ⟨some "150".toList, some f, some g⟩ ∧ FormatMeant (lastSaid saysUpFormat {} calls) f ∧
          FormatMeant (lastSaid saysDownFormat {} calls) g
      else x = none) := by
    rw [← opts_upDown, ← opts_up, ← opts_down]
    have hl : (groupSecs k (chartOpts calls) primary s sers ids).lookup "c:upDownBars".toList =
        some (if (k.group = .line ∨ k.group = .stock) ∧ (chartOpts calls).upDown = true then [upDownTree (chartOpts calls)] else []) := by
      rw [e]; sec_look
    by_cases hp : (k.group = .line ∨ k.group = .stock) ∧ (chartOpts calls).upDown = true
    · rw [if_pos hp] at hl
      obtain ⟨f, g, r1, r2, r3⟩ := upDown_read fine
      refine ⟨_, sec_opt_one hs hn hl r1, ?_⟩
      rw [if_pos hp]
      exact ⟨f, g, rfl, r2, r3⟩
    · rw [if_neg hp] at hl
      refine ⟨none, sec_opt_none hs hn (by rw [hl]; rfl), ?_⟩
      rw [if_neg hp]
  obtain ⟨bars, u1, u2⟩ := up
  refine ⟨_, groupLook_some d1 h1 u1, ?_⟩
  · refine ⟨rfl, v1, v2, v3, v4, ?_, ?_, ?_, ?_, ?_, ?_, ?_, u2, v10⟩
    · exact v5.trans (by simp)
    · exact v6.trans (by rw [opts_rotation])
    · exact v7.trans (by rw [opts_hole])
    · show if _ then (cVal _ _).getD _ = _ else cVal _ _ = none
      rw [v8]
      by_cases hk : k.group = .bar ∨ k.group = .column
      · rw [if_pos hk, ← (hsp hk).1]
        by_cases h150 : s.1 = 150
        · rw [if_neg (fun h => h.2 h150), h150]; decide +kernel
        · rw [if_pos ⟨hk, h150⟩]; rfl
      · rw [if_neg hk, if_neg (fun h => hk h.1)]
    · show cVal _ _ = _
      rw [v9]
      by_cases hk : k.group = .bar ∨ k.group = .column
      · rw [if_pos hk, if_pos hk, (hsp hk).2]
      · rw [if_neg hk, if_neg hk]
    · rw [← opts_dropLines, ← opts_drop]
      simpa only [Bool.decide_and, Bool.decide_eq_true] using d2
    · rw [← opts_highLow, ← opts_high]
      simpa only [Bool.decide_and, Bool.decide_eq_true] using h2

/-! ### The chart groups of a chart -/

theorem elemsIn_groups {c : Chart} (h : ChartGood U parses shown c) :
    readGroupLooks (chartSpaceTree U parses c).toNode =
      (chartTypeTrees U parses c.axisIds c.axis2Ids c.body 0 ++ combinedTrees U parses c).mapM
        fun x => readGroupLook (treeTag x) (treeParts x).2 := by
  rw [toNode_parts]
  unfold readGroupLooks plotAreaOf
  dsimp only
  rw [if_pos (show treeTag (chartSpaceTree U parses c) = "c:chartSpace".toList from rfl)]
  unfold chartSpaceTree
  simp only [treeParts]
  rw [(h.spacePre.noTag (by decide)).child, child_head (t := "c:chart".toList) _ _ (by rfl)]
  unfold chartTree
  simp only [treeParts]
  have e1 : ∀ r, child "c:plotArea".toList (toNodes ((if c.body.titleHidden = true then
      [.empty "c:autoTitleDeleted".toList [("val".toList, "1".toList)]] else chartTitleTrees U c.body.title) ++
      plotAreaTree U parses c :: r)) = some (treeParts (plotAreaTree U parses c)) := by
    intro r
    rw [NoTag.child, child_head _ _ (by rfl)]
    split
    · exact NoTag.cons (by tagne) (NoTag.nil _)
    · exact NoTag.all (chartTitleTrees_tag _) (by decide)
  show (Option.map _ (child "c:plotArea".toList _)).bind _ = _
  rw [e1]
  show (elemsIn groupTags (treeParts (plotAreaTree U parses c)).2).mapM _ = _
  unfold plotAreaTree
  simp only [treeParts]
  rw [elemsIn_trees]
  change ((List.filter _ (c.layout ++ chartTypeTrees U parses c.axisIds c.axis2Ids c.body 0 ++ combinedTrees U parses c ++
    primaryAxes U c.body c.axisIds ++ secondaryAxes U c ++ c.areaTail)).map _).mapM _ = _
  have ha := axes_tag (U := U) c
  simp only [List.filter_append]
  rw [h.layout.filterIn (by simp +contextual), h.areaTail.filterIn (by simp +contextual),
    filterIn_all (chartType_tag _ _ _ _), filterIn_all (combined_tag c),
    filterIn_none (tags' := axisTags) (fun x hx => ha x (List.mem_append_left _ hx)) (by decide),
    filterIn_none (tags' := axisTags) (fun x hx => ha x (List.mem_append_right _ hx)) (by decide)]
  simp only [List.nil_append, List.append_nil]
  rw [mapM_map]
  rfl

/-- The type and the axes of the series are those of the chart. -/
structure BodyAgrees (b : ChartBody) (k : ChartKind) (ss : List GivenSeries) : Prop where
  group : b.group = k.group
  axes : b.series.map (·.secondary) = ss.map (·.data.secondary)

/-- The same for the combined chart. -/
def SecondAgrees : Option ChartBody → Option SecondChart → Prop
  | none, none => True
  | some b, some p => BodyAgrees b p.kind p.series
  | _, _ => False

theorem secTrees_append (a b : List (Str × List Tree)) : secTrees (a ++ b) = secTrees a ++ secTrees b := List.flatMap_append

theorem secTrees_cons (p : Str × List Tree) (b : List (Str × List Tree)) : secTrees (p :: b) = p.2 ++ secTrees b := List.flatMap_cons

theorem secTrees_group (k : ChartKind) (o : ChartOpts) (primary : Bool) (s : Nat × Option Int) (sers ids : List Tree) :
    secTrees (groupSecs k o primary s sers ids) = secTrees k.headSecs ++ sers ++ secTrees (o.tailSecs k primary s) ++ ids := by
  unfold groupSecs
  rw [secTrees_append, secTrees_cons, secTrees_append, secTrees_cons]
  show _ ++ (sers ++ (_ ++ (ids ++ []))) = _
  rw [List.append_nil, List.append_assoc, List.append_assoc]

theorem groups_good {b : ChartBody} (k : ChartKind) (calls : List ChartCall) (ss : List GivenSeries) (start : Nat × Option Int)
    (hc : ∀ c ∈ calls, chartCallOk c = true) (hg : GroupGood U parses shown b) :
    GroupGood U parses shown (b.withGroups k (chartOpts calls) ss start) := by
  have fine := opts_fine hc
  have ht : ∀ primary s, ∀ n ∈ ((chartOpts calls).tailSecs k primary s).map Prod.fst, n ∉ ["c:ser".toList, "c:axId".toList] := by
    intro primary s
    show ∀ n ∈ (["c:firstSliceAng".toList, "c:holeSize".toList, "c:gapWidth".toList, "c:overlap".toList, "c:dropLines".toList,
      "c:hiLowLines".toList, "c:upDownBars".toList, "c:marker".toList] : List Str), n ∉ ["c:ser".toList, "c:axId".toList]
    decide
  refine ⟨free_secs (head_secs k) ?_, free_secs (tail_secs fine _ _ _) (ht _ _), free_secs (tail_secs fine _ _ _) (ht _ _), hg.series⟩
  show ∀ n ∈ (["c:barDir".toList, "c:grouping".toList, "c:radarStyle".toList, "c:scatterStyle".toList, "c:varyColors".toList] : List Str),
    n ∉ ["c:ser".toList, "c:axId".toList]
  decide

theorem flags_filter {l : List ChartSeries} {ss : List GivenSeries} (h : l.map (·.secondary) = ss.map (·.data.secondary)) (primary : Bool) :
    l.filter (fun s => s.secondary != primary) = [] ↔ ss.filter (fun g => g.data.secondary != primary) = [] := by
  have : ∀ p : Bool → Bool, l.filter (fun s => p s.secondary) = [] ↔ (l.map (·.secondary)).filter p = [] := by
    intro p
    rw [List.filter_map, List.map_eq_nil_iff]; rfl
  have h2 : ∀ p : Bool → Bool, ss.filter (fun g => p g.data.secondary) = [] ↔ (ss.map (·.data.secondary)).filter p = [] := by
    intro p
    rw [List.filter_map, List.map_eq_nil_iff]; rfl
  rw [this (fun b => b != primary), h2 (fun b => b != primary), h]

/-- What is seen of a chart group. -/
def AskedMeant (p : ChartKind × List ChartCall × Bool × List GivenSeries) (q : ChartGroupLook) : Prop :=
  GroupLookMeant p.1 p.2.1 p.2.2.1 p.2.2.2 q

theorem ids_ok (g : ChartGroup) (ids : Nat × Nat) : ∀ x ∈ (if g.axisFree = true then [] else [axIdTree ids.1, axIdTree ids.2]),
    treeOk x = true ∧ treeTag x = "c:axId".toList := by
  intro x hx
  split at hx
  · cases hx
  · simp only [List.mem_cons, List.not_mem_nil, or_false] at hx
    rcases hx with rfl | rfl
    · exact ⟨valText_ok (by decide +kernel) (showNat_attrSafe _), rfl⟩
    · exact ⟨valText_ok (by decide +kernel) (showNat_attrSafe _), rfl⟩

theorem sers_ok {g : ChartGroup} {ss : List ChartSeries} (h : ∀ s ∈ ss, SeriesGood U parses shown g s ∧ SeriesFilled shown s) (i : Nat) :
    ∀ x ∈ seriesTrees U parses g i ss, treeOk x = true ∧ treeTag x = "c:ser".toList := by
  intro x hx
  refine ⟨?_, seriesTrees_tag _ _ _ x hx⟩
  rw [seriesTrees_eq] at hx
  obtain ⟨p, hp, rfl⟩ := List.mem_map.mp hx
  have := h _ (List.fst_mem_of_mem_zipIdx hp)
  exact seriesTree_ok this.1 this.2 _

theorem one_group {k : ChartKind} {calls : List ChartCall} {primary : Bool} {gs : List GivenSeries} {s : Nat × Option Int} {b : ChartBody}
    (hk : b.group = k.group) (hh : b.head = secTrees k.headSecs) (ht : b.tail = secTrees ((chartOpts calls).tailSecs k primary s))
    (hc : ∀ c ∈ calls, chartCallOk c = true) {series : List ChartSeries} (he : series = [] ↔ gs = [])
    (hgood : ∀ s ∈ series, SeriesGood U parses shown b.group s ∧ SeriesFilled shown s)
    (hsp : gs ≠ [] → k.group = .bar ∨ k.group = .column → s.1 = lastSaid saysGap 150 (callsOfSeries gs) ∧
      s.2 = lastSaid saysOverlap (usualOverlap k) (callsOfSeries gs)) (ids : Nat × Nat) (i : Nat) :
    ∃ q, (groupTrees U parses ids b i series).mapM (fun x => readGroupLook (treeTag x) (treeParts x).2) = some q ∧
      Pairs AskedMeant (if gs ≠ [] then [(k, calls, primary, gs)] else []) q := by
  unfold groupTrees
  by_cases hs : series = []
  · rw [hs, if_pos List.isEmpty_nil, if_neg (fun h => h (he.mp hs))]
    exact ⟨[], rfl, trivial⟩
  · have hs' : ¬ series.isEmpty = true := by simpa using hs
    have hgs : gs ≠ [] := fun h => hs (he.mpr h)
    rw [if_neg hs', if_pos hgs]
    obtain ⟨q, h1, h2⟩ := group_look (k := k) (calls := calls) (primary := primary) (ss := gs) (s := s)
      (sers := seriesTrees U parses b.group i series) (ids := if b.group.axisFree = true then [] else [axIdTree ids.1, axIdTree ids.2]) hc
      (sers_ok hgood i) (ids_ok _ _) (hsp hgs)
    rw [secTrees_group] at h1
    refine ⟨[q], ?_, h2, trivial⟩
    rw [List.mapM_cons, List.mapM_nil, hh, ht]
    show (readGroupLook b.group.tag (toNodes (secTrees k.headSecs ++ seriesTrees U parses b.group i series ++
      secTrees ((chartOpts calls).tailSecs k primary s) ++ (if b.group.axisFree = true then [] else [axIdTree ids.1, axIdTree ids.2])))).bind _ = _
    rw [tag_eq, hk] at *
    rw [h1]; rfl

theorem usual_spacing (k : ChartKind) : k.spacing = (150, usualOverlap k) := by
  cases k <;> rfl

theorem body_groups {b : ChartBody} {k : ChartKind} {calls : List ChartCall} {ss : List GivenSeries} {m : CacheMap}
    (hf : BodyAgrees b k ss) (hc : ∀ c ∈ calls, chartCallOk c = true) (hsp : SpacingClear k ss)
    (hg : GroupGood U parses shown ((b.withGroups k (chartOpts calls) ss k.spacing).update m))
    (hs : ∀ s ∈ ((b.withGroups k (chartOpts calls) ss k.spacing).update m).series, SeriesFilled shown s) (ids ids2 : Nat × Nat) (i : Nat) :
    ∃ q, (chartTypeTrees U parses ids ids2 ((b.withGroups k (chartOpts calls) ss k.spacing).update m) i).mapM
        (fun x => readGroupLook (treeTag x) (treeParts x).2) = some q ∧ Pairs AskedMeant (groupsAsked k calls ss) q := by
  have e1 : (fun g : GivenSeries => g.data.secondary != true) = fun g => !g.data.secondary := by
    funext g; cases g.data.secondary <;> rfl
  have e2 : (fun g : GivenSeries => g.data.secondary != false) = fun g => g.data.secondary := by
    funext g; cases g.data.secondary <;> rfl
  have hflags : ((b.withGroups k (chartOpts calls) ss k.spacing).update m).series.map (·.secondary) = ss.map (·.data.secondary) := by
    show (b.series.map _).map _ = _
    rw [List.map_map, ← hf.axes]
    rfl
  have hkg : ((b.withGroups k (chartOpts calls) ss k.spacing).update m).group = k.group := hf.group
  have hmem : ∀ primary, ∀ s ∈ getSeries ((b.withGroups k (chartOpts calls) ss k.spacing).update m) primary,
      SeriesGood U parses shown ((b.withGroups k (chartOpts calls) ss k.spacing).update m).group s ∧ SeriesFilled shown s := by
    intro primary s hm
    have := (List.mem_filter.mp hm).1
    exact ⟨hg.series s this, hs s this⟩
  have f1 := flags_filter hflags true
  have f2 := flags_filter hflags false
  rw [e1] at f1
  rw [e2] at f2
  have husual : k.group = .bar ∨ k.group = .column → ∀ p : GivenSeries → Bool, ∀ g ∈ ss.filter p, g.calls.reverse.findSome? saysGap ≠ some 150 :=
    fun hk p g hg => hsp.usual hk g (List.mem_filter.mp hg).1
  have sp1 : k.group = .bar ∨ k.group = .column → spacingOf k k.spacing (ss.filter fun g => !g.data.secondary) =
      (lastSaid saysGap 150 (callsOfSeries (ss.filter fun g => !g.data.secondary)),
       lastSaid saysOverlap (usualOverlap k) (callsOfSeries (ss.filter fun g => !g.data.secondary))) := by
    intro hk
    rw [spacing_said _ _ _ (husual hk _), usual_spacing]
  unfold chartTypeTrees groupsAsked
  refine pairs_two ?_ ?_
  · refine one_group hkg rfl rfl hc f1 (hmem true) (fun _ hk => ?_) ids i
    rw [sp1 hk]
    exact ⟨rfl, rfl⟩
  · refine one_group (b := ((b.withGroups k (chartOpts calls) ss k.spacing).update m).second) (primary := false) hkg rfl rfl hc f2
      (hmem false) (fun hne hk => ?_) ids2 _
    rw [sp1 hk, spacing_said _ _ _ (husual hk _)]
    have hsec : ∃ g ∈ ss, g.data.secondary = true := by
      obtain ⟨g, hg⟩ := List.exists_mem_of_ne_nil _ hne
      obtain ⟨h1, h2⟩ := List.mem_filter.mp hg
      exact ⟨g, h1, h2⟩
    have hcalls : ∀ {α : Type} (f : SeriesCall → Option α), (∃ g ∈ ss, g.data.secondary = true ∧ ∃ c ∈ g.calls, f c ≠ none) →
        ∃ c ∈ callsOfSeries (ss.filter fun g => g.data.secondary), f c ≠ none := by
      intro α f h
      obtain ⟨g, h1, h2, c, h3, h4⟩ := h
      exact ⟨c, List.mem_flatMap.mpr ⟨g, List.mem_filter.mpr ⟨h1, h2⟩, h3⟩, h4⟩
    refine ⟨?_, ?_⟩
    · rcases hsp.gap hk hsec with h | h
      · rw [h]
      · exact said_any (hcalls saysGap h) _ _
    · rcases hsp.overlap hk hsec with h | h
      · rw [h]
      · exact said_any (hcalls saysOverlap h) _ _

theorem chart_groups {c : Chart} {k : ChartKind} {calls : List ChartCall} {ss : List GivenSeries} {second : Option SecondChart} {sheet locked : Bool}
    {m : CacheMap} (hf : BodyAgrees c.body k ss) (hf2 : SecondAgrees c.combined second) (hc : ∀ c ∈ calls, chartCallOk c = true)
    (hc2 : ∀ p ∈ second, ∀ c ∈ p.calls, chartCallOk c = true) (hsp : SpacingClear k ss) (hsp2 : ∀ p ∈ second, SpacingClear p.kind p.series)
    (gm : ChartGood U parses shown ((c.withOpts k calls ss second k.spacing sheet locked).update m))
    (hs : ChartFilled shown ((c.withOpts k calls ss second k.spacing sheet locked).update m)) :
    ∃ looks, readGroupLooks (chartSpaceTree U parses ((c.withOpts k calls ss second k.spacing sheet locked).update m)).toNode = some looks ∧
      Pairs AskedMeant (allGroups k calls ss second) looks := by
  rw [elemsIn_groups gm]
  unfold allGroups
  refine pairs_two (body_groups hf hc hsp gm.body hs.series _ _ _) ?_
  unfold combinedTrees
  cases e : c.combined with
  | none =>
    rw [e] at hf2
    cases second with
    | some p => exact hf2.elim
    | none =>
      have ec : ((c.withOpts k calls ss none k.spacing sheet locked).update m).combined = none := by
        show Option.map _ (secondGroups c.combined none) = none
        rw [e]; rfl
      rw [ec]
      exact ⟨[], rfl, trivial⟩
  | some b =>
    rw [e] at hf2
    cases second with
    | none => exact hf2.elim
    | some p =>
      have ec : ((c.withOpts k calls ss (some p) k.spacing sheet locked).update m).combined =
          some ((b.withGroups p.kind (chartOpts p.calls) p.series p.kind.spacing).update m) := by
        show Option.map _ (secondGroups c.combined (some p)) = _
        rw [e]; rfl
      rw [ec]
      exact body_groups hf2 (hc2 p rfl) (hsp2 p rfl) (gm.combined _ ec) (hs.combined _ ec) _ _ _

end Verif
