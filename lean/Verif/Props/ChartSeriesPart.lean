import Verif.Props.ChartAxis
import Verif.Spec.ChartSeries
/-!
C74: the formatting elements of a series read back.
-/
namespace Verif
open Spec

/-! ### Sections -/

section Secs
variable {secs : List (Str × List Tree)}

theorem sec_opt_none {α : Type} {read : NodeAttrs × List Node → Option α} {t : Text} (hs : SecsOk secs) (hn : (secs.map Prod.fst).Nodup)
    (hl : (secs.lookup t).getD [] = []) : optChild read t (toNodes (secTrees secs)) = some none := by
  unfold optChild secTrees
  rw [secs_child hs hn]
  cases e : secs.lookup t with
  | none => rfl
  | some l =>
    rw [e] at hl
    have hl : l = [] := hl
    subst hl; rfl

theorem sec_opt_one {α : Type} {read : NodeAttrs × List Node → Option α} {t : Text} {x : Tree} {v : α} (hs : SecsOk secs)
    (hn : (secs.map Prod.fst).Nodup) (hl : secs.lookup t = some [x]) (hr : read (treeParts x) = some v) :
    optChild read t (toNodes (secTrees secs)) = some (some v) := by
  unfold optChild secTrees
  rw [secs_child hs hn, hl]
  show (read (treeParts x)).map some = _
  rw [hr]; rfl

theorem sec_on {t : Text} {b : Bool} (hs : SecsOk secs) (hn : (secs.map Prod.fst).Nodup) (hl : secs.lookup t = some (oneIf t b)) :
    cOn t (toNodes (secTrees secs)) = b := by
  unfold cOn
  rw [cVal_secs hs hn, hl]
  cases b
  · rfl
  · show (List.lookup "val".toList [("val".toList, "1".toList)] == some "1".toList) = true
    decide

theorem sec_opt {t : Text} {o : Option Str} (hs : SecsOk secs) (hn : (secs.map Prod.fst).Nodup) (hl : secs.lookup t = some (optVal t o)) :
    cVal t (toNodes (secTrees secs)) = o := by
  rw [cVal_secs hs hn, hl]
  exact optVal_val t o

theorem sec_one {t v : Text} (hs : SecsOk secs) (hn : (secs.map Prod.fst).Nodup) (hl : secs.lookup t = some [valText t v]) :
    cVal t (toNodes (secTrees secs)) = some v := by
  rw [cVal_secs hs hn, hl]
  exact oneVal_val t v

theorem sec_if {t v : Text} {p : Prop} [Decidable p] (hs : SecsOk secs) (hn : (secs.map Prod.fst).Nodup)
    (hl : secs.lookup t = some (if p then [valText t v] else [])) :
    cVal t (toNodes (secTrees secs)) = if p then some v else none := by
  rw [cVal_secs hs hn, hl]
  exact ifVal_val p t v

theorem sec_elems (hs : SecsOk secs) (hn : (secs.map Prod.fst).Nodup) {t : Text} {l : List Tree} (hl : (secs.lookup t).getD [] = l) :
    elems t (toNodes (secTrees secs)) = l.map treeParts := by
  rw [elems_trees]
  congr 1
  induction secs with
  | nil => cases hl; rfl
  | cons p secs ih =>
    obtain ⟨n, ts⟩ := p
    rw [List.map_cons, List.nodup_cons] at hn
    have htag : ∀ x ∈ ts, treeTag x = n := fun x hx => (hs (n, ts) List.mem_cons_self x hx).2
    have hs' : SecsOk secs := fun q hq => hs q (List.mem_cons_of_mem _ hq)
    show List.filter _ (ts ++ secTrees secs) = l
    rw [List.filter_append]
    by_cases e : t = n
    · subst e
      rw [assoc_eq] at hl
      have hl : ts = l := hl
      rw [filter_tag htag]
      have : (secTrees secs).filter (fun x => decide (treeTag x = t)) = [] := by
        rw [List.filter_eq_nil_iff]
        intro x hx he
        obtain ⟨q, hq, hm⟩ := List.mem_flatMap.mp hx
        have h1 := (hs' q hq x hm).2
        have h2 := of_decide_eq_true he
        exact hn.1 (List.mem_map.mpr ⟨q, hq, by rw [← h1, h2]⟩)
      rw [this, List.append_nil, hl]
    · rw [assoc_ne e] at hl
      rw [ih hs' hn.2 hl]
      have : ts.filter (fun x => decide (treeTag x = t)) = [] := by
        rw [List.filter_eq_nil_iff]
        intro x hx he
        exact e ((of_decide_eq_true he).symm.trans (htag x hx))
      rw [this]; rfl

end Secs

theorem oneIf_ok {t : Str} (ht : isName t = true) (b : Bool) : ∀ x ∈ oneIf t b, treeOk x = true ∧ treeTag x = t := by
  unfold oneIf
  exact if_ok (valText_ok ht (by decide)) rfl

theorem text_same (v d : Bool) (f : CFont) (b : Bool) (h : f.strikethrough = false) :
    TextMeant v d f (textSeen v { f with hasBaseline := b }) :=
  ⟨rfl, ⟨rfl, rfl, rfl, rfl, h.symm, rfl, rfl, rfl, rfl⟩, rfl⟩

/-! ### Markers -/

theorem shape_text (s : MarkerShape) : s.text = shapeName s := by cases s <;> rfl

theorem symbol_good {m : CMarker} : attrsGood m.symbolAttrs := by
  unfold CMarker.symbolAttrs
  cases m.shape with
  | some s => exact attrsGood_one (by decide +kernel) (by cases s <;> decide)
  | none =>
    dsimp only
    split
    · exact attrsGood_one (by decide +kernel) (by decide)
    · exact attrsGood_nil

theorem marker_secs {m : CMarker} (h : cFormatOk m.format = true) : SecsOk m.secs := by
  unfold CMarker.secs
  exact secsOk_cons (one_ok (treeOk_empty (by decide +kernel) symbol_good) rfl) (secsOk_cons
    (if_ok (valText_ok (by decide +kernel) (showNat_attrSafe _)) rfl) (secsOk_cons (cFormat_ok h) secsOk_nil))

theorem marker_nodup (m : CMarker) : (m.secs.map Prod.fst).Nodup := by
  show (["c:symbol".toList, "c:size".toList, "c:spPr".toList] : List Str).Nodup
  decide

theorem marker_read {m : CMarker} (h : cFormatOk m.format = true) {v : Text} (hv : m.symbolAttrs.lookup "val".toList = some v) :
    ∃ q, readMarkerLook (treeParts (.node "c:marker".toList [] (secTrees m.secs))) = some q ∧
      q.symbol = some v ∧ q.size = (if m.size ≠ 0 then some (showNat m.size) else none) ∧ FormatMeant m.format q.format := by
  have hs := marker_secs h
  have hn := marker_nodup m
  obtain ⟨k, hk, hm⟩ := cFormat_in hs hn (f := m.format) (by unfold CMarker.secs; sec_look) h
  have e1 : optChild readSymbol "c:symbol".toList (toNodes (secTrees m.secs)) = some (some v) :=
    sec_opt_one hs hn (x := .empty "c:symbol".toList m.symbolAttrs) (by unfold CMarker.secs; sec_look) hv
  have e2 : cVal "c:size".toList (toNodes (secTrees m.secs)) = if m.size ≠ 0 then some (showNat m.size) else none :=
    sec_if hs hn (by unfold CMarker.secs; sec_look)
  refine ⟨⟨some v, cVal "c:size".toList (toNodes (secTrees m.secs)), k⟩, ?_, rfl, e2, hm⟩
  show readMarkerLook ([], toNodes (secTrees m.secs)) = _
  unfold readMarkerLook
  dsimp only
  rw [e1, hk]

/-! ### Points -/

theorem idx_read (i : Nat) (r : List Tree) : readIdx (toNodes (valText "c:idx".toList (showNat i) :: r)) = some i := by
  unfold readIdx
  rw [child_head (t := "c:idx".toList) _ _ rfl, Option.bind_some]
  exact attrNat_one i _ _

theorem format_trees {f : CFormat} (h : cFormatOk f = true) : ∃ k, readFormatIn (toNodes f.trees) = some k ∧ FormatMeant f k := by
  have hs : SecsOk [("c:spPr".toList, f.trees)] := secsOk_cons (cFormat_ok h) secsOk_nil
  obtain ⟨k, hk, hm⟩ := cFormat_in hs (show (["c:spPr".toList] : List Str).Nodup by decide) (f := f) (by sec_look) h
  have e : secTrees [("c:spPr".toList, f.trees)] = f.trees := by unfold secTrees; simp
  rw [e] at hk
  exact ⟨k, hk, hm⟩

theorem point_read (g : ChartGroup) (i : Nat) {f : CFormat} (h : cFormatOk f = true) :
    ∃ q, readPointLook (treeParts (pointTree g i f)) = some q ∧ q.1 = i ∧ FormatMeant f q.2 := by
  obtain ⟨k, hk, hm⟩ := format_trees h
  refine ⟨(i, k), ?_, rfl, hm⟩
  show readPointLook ([], toNodes (valText "c:idx".toList (showNat i) ::
    (if g = .scatter ∨ g = .line then [.node "c:marker".toList [] f.trees] else f.trees))) = _
  unfold readPointLook
  dsimp only
  rw [idx_read]
  have : readFormatIn (pointKids (toNodes (valText "c:idx".toList (showNat i) ::
      (if g = .scatter ∨ g = .line then [.node "c:marker".toList [] f.trees] else f.trees)))) = some k := by
    unfold pointKids
    rw [child_skip (valText "c:idx".toList (showNat i)) _ (by show "c:idx".toList ≠ _; decide)]
    split
    · rename_i m hm'
      by_cases hg : g = .scatter ∨ g = .line
      · rw [if_pos hg, child_head (t := "c:marker".toList) _ _ rfl] at hm'
        injection hm' with hm'
        subst hm'
        exact hk
      · rw [if_neg hg, (NoTag.all (k := "c:marker".toList) (fun t ht => (cFormat_ok h t ht).2) (by decide)).child_none] at hm'
        cases hm'
    · rename_i hm'
      by_cases hg : g = .scatter ∨ g = .line
      · rw [if_pos hg, child_head (t := "c:marker".toList) _ _ rfl] at hm'
        cases hm'
      · rw [if_neg hg]
        unfold readFormatIn optChild at hk ⊢
        rw [child_skip (valText "c:idx".toList (showNat i)) _ (by show "c:idx".toList ≠ _; decide)]
        exact hk
  rw [this]

theorem point_ok (g : ChartGroup) (i : Nat) {f : CFormat} (h : cFormatOk f = true) :
    treeOk (pointTree g i f) = true := by
  have hf := fun t ht => (cFormat_ok h t ht).1
  unfold pointTree
  refine treeOk_node (by decide +kernel) attrsGood_nil (ok_cons (valText_ok (by decide +kernel) (showNat_attrSafe _)) ?_)
  split
  · exact ok_single (treeOk_node (by decide +kernel) attrsGood_nil hf)
  · exact hf

/-- Reading a list of elements one by one. -/
theorem pairs_mapM {α β : Type} {tree : α → Tree} {read : NodeAttrs × List Node → Option β} {R : α → β → Prop} (l : List α)
    (h : ∀ a ∈ l, ∃ b, read (treeParts (tree a)) = some b ∧ R a b) :
    ∃ bs, ((l.map tree).map treeParts).mapM read = some bs ∧ Pairs R l bs := by
  induction l with
  | nil => exact ⟨[], rfl, trivial⟩
  | cons a l ih =>
    obtain ⟨b, hb, hr⟩ := h a List.mem_cons_self
    obtain ⟨bs, hbs, hrs⟩ := ih fun a ha => h a (List.mem_cons_of_mem _ ha)
    refine ⟨b :: bs, ?_, hr, hrs⟩
    rw [List.map_cons, List.map_cons, List.mapM_cons, hb, hbs]; rfl

/-! ### Labels -/

theorem spot_text {p : LabelSpot} : p.text = spotName p := by cases p <;> rfl

theorem spot_usual (g : ChartGroup) : g.labelSpot = usualSpot g := by cases g <;> rfl

theorem labelOk_parts {l : CLabel} (h : labelOk l = true) : cFormatOk l.format = true ∧ (∀ f, l.font = some f → cFontOk f = true) ∧
    attrSafe l.numFormat = true ∧ plain l.text = true := by
  unfold labelOk at h
  simp only [Bool.and_eq_true] at h
  refine ⟨h.1.1.1.2, fun f hf => ?_, h.1.2, h.2⟩
  have := h.1.1.2
  rw [hf] at this
  exact this

/-- The font of a label can be written. -/
theorem labelFont_ok {l : CLabel} (h : ∀ f, l.font = some f → cFontOk f = true) :
    ∀ x ∈ (l.font.map (·.txPrTree false)).toList, treeOk x = true ∧ treeTag x = "c:txPr".toList := by
  cases e : l.font with
  | none => intro x hx; cases hx
  | some f =>
    intro x hx
    have hx : x = f.txPrTree false := by
      rw [Option.map_some, Option.toList_some, List.mem_singleton] at hx
      exact hx
    subst hx
    exact ⟨txPr_ok (h f e) false, rfl⟩

/-- The separators that a label can have. -/
def sepOk (c : Char) : Prop := c = ',' ∨ c = ';' ∨ c = '.' ∨ c = ' ' ∨ c = '\n'

theorem labelOk_sep {l : CLabel} (h : labelOk l = true) : sepOk l.separator := by
  unfold labelOk at h
  simp only [Bool.and_eq_true] at h
  have := of_decide_eq_true h.1.1.1.1
  simp only [List.mem_cons, List.not_mem_nil, or_false] at this
  exact this

theorem sep_plain {c : Char} (h : sepOk c) : plain [c, ' '] = true := by
  rcases h with rfl | rfl | rfl | rfl | rfl <;> decide +kernel

theorem label_secs {l : CLabel} (h1 : cFormatOk l.format = true) (h2 : ∀ f, l.font = some f → cFontOk f = true)
    (h3 : attrSafe l.numFormat = true) (h4 : sepOk l.separator) (g : ChartGroup) (custom : Bool) : SecsOk (l.secs g custom) := by
  unfold CLabel.secs
  exact secsOk_cons (if_ok (code_ok h3 _) rfl) (secsOk_cons (cFormat_ok h1) (secsOk_cons (labelFont_ok h2) (secsOk_cons
    (if_ok (valText_ok (by decide +kernel) (by cases l.spot <;> decide)) rfl) (secsOk_cons (oneIf_ok (by decide +kernel) _) (secsOk_cons
    (oneIf_ok (by decide +kernel) _) (secsOk_cons (oneIf_ok (by decide +kernel) _) (secsOk_cons (oneIf_ok (by decide +kernel) _) (secsOk_cons
    (oneIf_ok (by decide +kernel) _) (secsOk_cons (if_ok (dataTree_ok (by decide +kernel) (sep_plain h4)) rfl) (secsOk_cons
    (if_ok (valText_ok (by decide +kernel) (by decide)) rfl) (secsOk_cons (if_ok (by decide +kernel) rfl) secsOk_nil)))))))))))

theorem label_names (l : CLabel) (g : ChartGroup) (custom : Bool) : (l.secs g custom).map Prod.fst =
    ["c:numFmt".toList, "c:spPr".toList, "c:txPr".toList, "c:dLblPos".toList, "c:showLegendKey".toList, "c:showVal".toList,
     "c:showCatName".toList, "c:showSerName".toList, "c:showPercent".toList, "c:separator".toList, "c:showLeaderLines".toList,
     "c:extLst".toList] := rfl

theorem label_nodup (l : CLabel) (g : ChartGroup) (custom : Bool) : ((l.secs g custom).map Prod.fst).Nodup := by
  rw [label_names]; decide

/-- What is seen of a label. -/
structure LabelShown (g : ChartGroup) (custom : Bool) (l : CLabel) (s : LabelLook) : Prop where
  code : s.code = if l.numFormat ≠ [] then some (l.numFormat, false) else none
  format : FormatMeant l.format s.format
  font : s.font = l.font.map (textSeen false)
  place : s.place = if l.spot ≠ .default ∧ l.spot ≠ usualSpot g then some (spotName l.spot) else none
  key : s.key = l.key
  value : s.value = (l.value || (!custom && !l.category && !l.percent))
  category : s.category = l.category
  series : s.series = l.series
  percent : s.percent = l.percent
  separator : s.separator = if l.separator ≠ ',' then some [l.separator, ' '] else none
  leader : s.leader = l.leader

theorem leaderExt_read : (match (some (treeParts leaderExt)).bind (fun x => child "c:ext".toList x.2) with
     | some e => cOn "c15:showLeaderLines".toList e.2
     | none => false) = true := by decide +kernel

set_option maxHeartbeats 1000000 in
theorem label_read {l : CLabel} (h1 : cFormatOk l.format = true) (h2 : ∀ f, l.font = some f → cFontOk f = true)
    (h3 : attrSafe l.numFormat = true) (h4 : sepOk l.separator) (g : ChartGroup) (custom : Bool) :
    ∃ q, readLabelLook (toNodes (secTrees (l.secs g custom))) = some q ∧ LabelShown g custom l q := by
  have hs := label_secs h1 h2 h3 h4 g custom
  have hn := label_nodup l g custom
  obtain ⟨k, hk, hm⟩ := cFormat_in hs hn (f := l.format) (by unfold CLabel.secs; sec_look) h1
  have e1 : optChild readCode "c:numFmt".toList (toNodes (secTrees (l.secs g custom))) =
      some (if l.numFormat ≠ [] then some (l.numFormat, false) else none) := by
    have hl : (l.secs g custom).lookup "c:numFmt".toList = some (if l.numFormat ≠ [] then [codeTree l.numFormat false] else []) := by
      unfold CLabel.secs; sec_look
    by_cases e : l.numFormat ≠ []
    · rw [if_pos e] at hl ⊢
      exact sec_opt_one hs hn hl (code_read _ _)
    · rw [if_neg e] at hl ⊢
      exact sec_opt_none hs hn (by rw [hl]; rfl)
  have e2 : optChild readTextLook "c:txPr".toList (toNodes (secTrees (l.secs g custom))) = some (l.font.map (textSeen false)) := by
    have hl : (l.secs g custom).lookup "c:txPr".toList = some ((l.font.map (·.txPrTree false)).toList) := by
      unfold CLabel.secs; sec_look
    cases e : l.font with
    | none => rw [e] at hl; exact sec_opt_none hs hn (by rw [hl]; rfl)
    | some f => rw [e] at hl; exact sec_opt_one hs hn hl (txPr_read (h2 f e) false)
  have e3 : readTextIn "c:separator".toList (toNodes (secTrees (l.secs g custom))) =
      some (if l.separator ≠ ',' then some [l.separator, ' '] else none) := by
    have hl : (l.secs g custom).lookup "c:separator".toList =
        some (if l.separator ≠ ',' then [.data "c:separator".toList [l.separator, ' '] []] else []) := by
      unfold CLabel.secs; sec_look
    unfold readTextIn
    by_cases e : l.separator ≠ ','
    · rw [if_pos e] at hl ⊢
      refine sec_opt_one hs hn hl ?_
      show textOnly (treeParts (.data "c:separator".toList [l.separator, ' '] [])).2 = _
      rw [show treeParts (.data "c:separator".toList [l.separator, ' '] []) = ([], [.text [l.separator, ' ']]) from by
        rcases h4 with e' | e' | e' | e' | e' <;> rw [e'] <;> rfl]
      rcases h4 with e' | e' | e' | e' | e' <;> rw [e'] <;> rfl
    · rw [if_neg e] at hl ⊢
      exact sec_opt_none hs hn (by rw [hl]; rfl)
  have e4 : readLeader (toNodes (secTrees (l.secs g custom))) = l.leader := by
    unfold readLeader
    have hl : (l.secs g custom).lookup "c:extLst".toList = some (if l.leader = true ∧ ¬ (g = .pie ∨ g = .doughnut) then [leaderExt] else []) := by
      unfold CLabel.secs; sec_look
    have hl' : (l.secs g custom).lookup "c:showLeaderLines".toList = some (oneIf "c:showLeaderLines".toList (l.leader && decide (g = .pie ∨ g = .doughnut))) := by
      unfold CLabel.secs
      simp (discharger := decide) only [assoc_ne, assoc_eq]
      unfold oneIf
      congr 1
      simp only [Bool.and_eq_true, decide_eq_true_eq]
    have hc : child "c:extLst".toList (toNodes (secTrees (l.secs g custom))) = _ := secs_child hs hn "c:extLst".toList
    rw [sec_on hs hn hl', hc, hl]
    cases hL : l.leader with
    | false => simp
    | true =>
      by_cases hg : g = .pie ∨ g = .doughnut
      · rw [if_neg (fun e => e.2 hg), decide_eq_true hg]; rfl
      · rw [if_pos ⟨rfl, hg⟩, decide_eq_false hg]
        exact leaderExt_read
  have on : ∀ t b, (l.secs g custom).lookup t = some (oneIf t b) → cOn t (toNodes (secTrees (l.secs g custom))) = b := fun t b hl => sec_on hs hn hl
  unfold readLabelLook
  rw [e1, e2, e3, hk]
  dsimp only
  refine ⟨_, rfl, rfl, hm, rfl, ?_, on _ _ ?_, on _ _ ?_, on _ _ ?_, on _ _ ?_, on _ _ ?_, rfl, e4⟩
  · dsimp only
    rw [sec_if hs hn (p := l.spot ≠ .default ∧ l.spot ≠ g.labelSpot) (v := l.spot.text) (by unfold CLabel.secs; sec_look), spot_usual,
      spot_text]
  all_goals (unfold CLabel.secs; sec_look)

/-! ### Labels of points -/

/-- The elements that a label is read from, without its format. -/
def labelTags : List Text :=
  ["c:numFmt".toList, "c:txPr".toList, "c:dLblPos".toList, "c:showLegendKey".toList, "c:showVal".toList, "c:showCatName".toList,
   "c:showSerName".toList, "c:showPercent".toList, "c:separator".toList, "c:showLeaderLines".toList, "c:extLst".toList]

theorem label_congr {ks ks' : List Node} (h : ∀ t ∈ labelTags, child t ks = child t ks') (hf : readFormatIn ks = readFormatIn ks') :
    readLabelLook ks = readLabelLook ks' := by
  have g : ∀ t, labelTags.contains t = true → child t ks = child t ks' := fun t ht => h t (List.contains_iff_mem.mp ht)
  unfold readLabelLook readTextIn readLeader cOn cVal optChild
  rw [hf, g "c:numFmt".toList (by decide), g "c:txPr".toList (by decide), g "c:dLblPos".toList (by decide),
    g "c:showLegendKey".toList (by decide), g "c:showVal".toList (by decide), g "c:showCatName".toList (by decide),
    g "c:showSerName".toList (by decide), g "c:showPercent".toList (by decide), g "c:separator".toList (by decide),
    g "c:showLeaderLines".toList (by decide), g "c:extLst".toList (by decide)]

theorem emptyFormat_ok (l : CLabel) : ∀ x ∈ l.emptyFormat, treeOk x = true ∧ treeTag x = "c:spPr".toList := by
  unfold CLabel.emptyFormat
  cases l.font with
  | none => intro x hx; cases hx
  | some f => exact if_ok (by decide +kernel) rfl

theorem emptyFormat_read {l : CLabel} {r : List Tree} {k : FormatLook} (hr : readFormatIn (toNodes r) = some k)
    (hn : l.format.hasFormatting = false → NoTag "c:spPr".toList r) :
    readFormatIn (toNodes (l.emptyFormat ++ r)) = some k := by
  unfold CLabel.emptyFormat
  cases l.font with
  | none => exact hr
  | some f =>
    dsimp only
    by_cases e : l.format.hasFormatting = false ∧ f.color.isAutoOrDefault = true
    · rw [if_pos e]
      show readFormatIn (toNodes (.empty "c:spPr".toList [] :: r)) = _
      unfold readFormatIn optChild at hr ⊢
      rw [(hn e.1).child_none] at hr
      rw [child_head (t := "c:spPr".toList) _ _ rfl, ← hr]
      decide
    · rw [if_neg e]; exact hr

theorem titleFont_ok {l : CLabel} (h : ∀ f, l.font = some f → cFontOk f = true) : cFontOk l.titleFont = true := by
  unfold CLabel.titleFont
  cases e : l.font with
  | none => decide
  | some f => exact h f e

theorem leftFont_ok {l : CLabel} (h : ∀ f, l.font = some f → cFontOk f = true) : ∀ f, l.leftFont = some f → cFontOk f = true := by
  unfold CLabel.leftFont
  intro f hf
  split at hf
  · cases hf
  · cases e : l.font with
    | none => rw [e] at hf; cases hf
    | some f' =>
      rw [e] at hf
      injection hf with hf
      subst hf
      exact h f' e

theorem tx_title_ok {l : CLabel} (h2 : ∀ f, l.font = some f → cFontOk f = true) (h5 : plain l.text = true) :
    CTitle.Ok { name := l.text, font := l.titleFont, ignorePara := l.plainText } :=
  ⟨h5, by dsimp only; decide, titleFont_ok h2, by dsimp only; decide⟩

theorem tx_ok {l : CLabel} (h2 : ∀ f, l.font = some f → cFontOk f = true) (h5 : plain l.text = true) : treeOk l.txTree = true :=
  treeOk_node (by decide +kernel) attrsGood_nil (ok_single (treeOk_node (by decide +kernel) attrsGood_nil (rich_ok (tx_title_ok h2 h5))))

/-- The elements before those of any label. -/
def CLabel.textSecs (l : CLabel) : List (Str × List Tree) :=
  [("c:layout".toList, if l.font.isNone ∨ l.text ≠ [] then [CLayout.tree {}] else []),
   ("c:tx".toList, if l.text ≠ [] then [l.txTree] else [])]

theorem text_secs {l : CLabel} (h2 : ∀ f, l.font = some f → cFontOk f = true) (h5 : plain l.text = true) : SecsOk l.textSecs := by
  unfold CLabel.textSecs
  exact secsOk_cons (if_ok (by decide +kernel) rfl) (secsOk_cons (if_ok (tx_ok h2 h5) rfl) secsOk_nil)

theorem noTag_secs {secs : List (Str × List Tree)} (h : SecsOk secs) {t : Text} (ht : t ∉ secs.map Prod.fst) : NoTag t (secTrees secs) := by
  intro x hx e
  obtain ⟨p, hp, hm⟩ := List.mem_flatMap.mp hx
  exact ht (List.mem_map.mpr ⟨p, hp, by rw [← (h p hp x hm).2, e]⟩)

theorem custom_kids (l : CLabel) (g : ChartGroup) : secTrees (l.customSecs g) =
    secTrees l.textSecs ++ secTrees (({ l with font := l.leftFont } : CLabel).secs g true) := by
  unfold CLabel.customSecs secTrees
  rw [List.flatMap_append]; rfl

theorem custom_ok {l : CLabel} (h : labelOk l = true) (h4 : sepOk l.separator) (g : ChartGroup) (i : Nat) : treeOk (l.customTree g i) = true := by
  obtain ⟨h1, h2, h3, h5⟩ := labelOk_parts h
  unfold CLabel.customTree
  refine treeOk_node (by decide +kernel) attrsGood_nil (ok_cons (valText_ok (by decide +kernel) (showNat_attrSafe _)) ?_)
  split
  · exact ok_single (by decide +kernel)
  · rw [custom_kids]
    exact ok_append (fun x hx => (emptyFormat_ok l x hx).1) (ok_append (ok_of_secs (text_secs h2 h5))
      (ok_of_secs (label_secs (l := { l with font := l.leftFont }) h1 (leftFont_ok h2) h3 h4 g true)))

theorem plainRun_read {t : CTitle} (h : t.Ok) :
    (match (child "a:p".toList (toNodes t.richTrees)).bind fun p => (child "a:r".toList p.2).bind fun r =>
        (child "a:t".toList r.2).bind fun x => textOnly x.2 with
     | some s => some (some (unescapeX s))
     | none => none) = some (some t.name) := by
  unfold CTitle.richTrees
  rw [child_skip (t.font.bodyTree t.horizontal) _ (by show "a:bodyPr".toList ≠ _; decide),
    child_skip (.empty "a:lstStyle".toList []) _ (by show "a:lstStyle".toList ≠ _; decide), child_head (t := "a:p".toList) _ _ rfl,
    Option.bind_some]
  have e3 : child "a:r".toList (treeParts (.node "a:p".toList [] ((if t.ignorePara then [] else [t.font.paraTree]) ++
      [.node "a:r".toList [] [t.font.tree true, .data "a:t".toList t.name []]]))).2 =
      some ([], toNodes [t.font.tree true, .data "a:t".toList t.name []]) := by
    show child "a:r".toList (toNodes ((if t.ignorePara then [] else [t.font.paraTree]) ++
      [.node "a:r".toList [] [t.font.tree true, .data "a:t".toList t.name []]])) = _
    rw [NoTag.child (k := "a:r".toList) (by
      split
      · exact NoTag.nil _
      · exact NoTag.cons (by show "a:pPr".toList ≠ _; decide) (NoTag.nil _)), child_head (t := "a:r".toList) _ _ rfl]
    rfl
  rw [e3, Option.bind_some]
  dsimp only
  rw [child_skip (t.font.tree true) _ (by rw [cFont_tag]; decide), child_head (t := "a:t".toList) _ _ rfl, Option.bind_some]
  simp only [treeParts, textOnly_data, unescapeX_plain h.name]

/-- What is seen of the label of a point. -/
structure PointLabelShown (g : ChartGroup) (l : CLabel) (i : Nat) (s : PointLabelLook) : Prop where
  idx : s.idx = i
  deleted : s.deleted = l.hidden
  text : l.hidden = false → s.text = if l.text ≠ [] then some l.text else none
  label : l.hidden = false → LabelShown g true { l with font := l.leftFont } s.label

theorem labelNone_read : ∃ q, ∀ i, readLabelLook (toNodes [valText "c:idx".toList (showNat i), valOne "c:delete".toList]) = some q := by
  refine ⟨⟨none, {}, none, none, false, false, false, false, false, none, false⟩, fun i => ?_⟩
  have : readLabelLook (toNodes [valText "c:idx".toList (showNat i), valOne "c:delete".toList]) =
      readLabelLook (toNodes [valOne "c:delete".toList]) := by
    refine label_congr (fun t ht => child_skip _ _ ?_) ?_
    · intro e
      have e : "c:idx".toList = t := e
      subst e
      revert ht; decide
    · unfold readFormatIn optChild
      rw [child_skip (valText "c:idx".toList (showNat i)) _ (by show "c:idx".toList ≠ _; decide)]
  rw [this]
  decide +kernel

set_option maxHeartbeats 1000000 in
theorem custom_read {l : CLabel} (h : labelOk l = true) (h4 : sepOk l.separator) (g : ChartGroup) (i : Nat) :
    ∃ q, readPointLabel (treeParts (l.customTree g i)) = some q ∧ PointLabelShown g l i q := by
  obtain ⟨h1, h2, h3, h5⟩ := labelOk_parts h
  show ∃ q, readPointLabel ([], toNodes (valText "c:idx".toList (showNat i) ::
    (if l.hidden then [valOne "c:delete".toList] else l.emptyFormat ++ secTrees (l.customSecs g)))) = some q ∧ _
  unfold readPointLabel
  dsimp only
  rw [idx_read]
  cases hh : l.hidden with
  | true =>
    rw [if_pos (show true = true from rfl)]
    obtain ⟨q, hq⟩ := labelNone_read
    have ht : readLabelText (toNodes [valText "c:idx".toList (showNat i), valOne "c:delete".toList]) = some none := by
      unfold readLabelText
      rw [child_skip (valText "c:idx".toList (showNat i)) _ (by show "c:idx".toList ≠ _; decide)]
      rfl
    rw [ht, hq i]
    refine ⟨_, rfl, rfl, ?_, (fun e => by rw [hh] at e; cases e), (fun e => by rw [hh] at e; cases e)⟩
    show cOn "c:delete".toList (toNodes [valText "c:idx".toList (showNat i), valOne "c:delete".toList]) = _
    unfold cOn cVal
    rw [child_skip (valText "c:idx".toList (showNat i)) _ (by show "c:idx".toList ≠ _; decide), hh]
    decide
  | false =>
    rw [if_neg (show ¬ (false = true) by decide)]
    have hS := label_secs (l := { l with font := l.leftFont }) h1 (leftFont_ok h2) h3 h4 g true
    have hT := text_secs h2 h5
    have hTn : ∀ t, t ≠ "c:layout".toList → t ≠ "c:tx".toList → NoTag t (secTrees l.textSecs) := fun t a b =>
      noTag_secs hT (by
        show t ∉ ["c:layout".toList, "c:tx".toList]
        simp only [List.mem_cons, not_or, List.not_mem_nil, not_false_eq_true, and_true]
        exact ⟨a, b⟩)
    have hEn : ∀ t, t ≠ "c:spPr".toList → NoTag t l.emptyFormat := fun t ht =>
      NoTag.all (fun x hx => (emptyFormat_ok l x hx).2) (fun e => ht e.symm)
    have hSn := label_names ({ l with font := l.leftFont }) g true
    obtain ⟨q, hq, hs⟩ := label_read (l := { l with font := l.leftFont }) h1 (leftFont_ok h2) h3 h4 g true
    have hform : ∃ k, readFormatIn (toNodes (secTrees (({ l with font := l.leftFont } : CLabel).secs g true))) = some k :=
      (cFormat_in hS (label_nodup _ _ _) (f := l.format) (by unfold CLabel.secs; sec_look) h1).imp fun _ h => h.1
    obtain ⟨k, hk⟩ := hform
    have hl : readLabelLook (toNodes (valText "c:idx".toList (showNat i) :: (l.emptyFormat ++ secTrees (l.customSecs g)))) = some q := by
      rw [← hq, custom_kids]
      refine label_congr (fun t ht => ?_) ?_
      · have hne : t ≠ "c:idx".toList ∧ t ≠ "c:spPr".toList ∧ t ≠ "c:layout".toList ∧ t ≠ "c:tx".toList := by
          refine ⟨?_, ?_, ?_, ?_⟩ <;> (intro e; subst e; revert ht; decide)
        rw [child_skip _ _ (by show "c:idx".toList ≠ t; exact fun e => hne.1 e.symm), (hEn t hne.2.1).child, (hTn t hne.2.2.1 hne.2.2.2).child]
      · rw [hk]
        have e0 : readFormatIn (toNodes (secTrees l.textSecs ++ secTrees (({ l with font := l.leftFont } : CLabel).secs g true))) = some k := by
          rw [← hk]
          unfold readFormatIn optChild
          rw [(hTn "c:spPr".toList (by decide) (by decide)).child]
        have e1 := emptyFormat_read (l := l) e0 (fun e => NoTag.append (hTn _ (by decide) (by decide)) (by
          intro x hx ex
          obtain ⟨p, hp, hm⟩ := List.mem_flatMap.mp hx
          have hpe := (hS p hp x hm).2
          have hl : (({ l with font := l.leftFont } : CLabel).secs g true).lookup "c:spPr".toList = some l.format.trees := by
            unfold CLabel.secs; sec_look
          have : p.2 = l.format.trees := by
            have hn := label_nodup ({ l with font := l.leftFont }) g true
            have hp1 : p.1 = "c:spPr".toList := by rw [← hpe, ex]
            unfold CLabel.secs at hp
            simp only [List.mem_cons, List.not_mem_nil, or_false] at hp
            rcases hp with rfl | rfl | rfl | rfl | rfl | rfl | rfl | rfl | rfl | rfl | rfl | rfl <;> first | rfl | (exfalso; dsimp only at hp1; revert hp1; decide)
          rw [this] at hm
          unfold CFormat.trees at hm
          rw [e] at hm
          cases hm))
        rw [← e1]
        unfold readFormatIn optChild
        rw [child_skip (valText "c:idx".toList (showNat i)) _ (by show "c:idx".toList ≠ _; decide)]
    have ht : readLabelText (toNodes (valText "c:idx".toList (showNat i) :: (l.emptyFormat ++ secTrees (l.customSecs g)))) =
        some (if l.text ≠ [] then some l.text else none) := by
      unfold readLabelText
      rw [child_skip (valText "c:idx".toList (showNat i)) _ (by show "c:idx".toList ≠ _; decide), (hEn "c:tx".toList (by decide)).child,
        custom_kids]
      have hc : child "c:tx".toList (toNodes (secTrees l.textSecs ++ secTrees (({ l with font := l.leftFont } : CLabel).secs g true))) =
          if l.text ≠ [] then some (treeParts l.txTree) else none := by
        unfold CLabel.textSecs secTrees
        simp only [List.flatMap_cons, List.flatMap_nil, List.append_nil, List.append_assoc]
        rw [NoTag.child (k := "c:tx".toList) (by
          split
          · exact NoTag.cons (by show "c:layout".toList ≠ _; decide) (NoTag.nil _)
          · exact NoTag.nil _)]
        by_cases e : l.text ≠ []
        · rw [if_pos e, if_pos e]
          exact child_head (t := "c:tx".toList) _ _ rfl
        · rw [if_neg e, if_neg e]
          exact (noTag_secs hS (by rw [hSn]; decide)).child_none
      rw [hc]
      by_cases e : l.text ≠ []
      · rw [if_pos e, if_pos e, Option.bind_some]
        have : child "c:rich".toList (treeParts l.txTree).2 =
            some ([], toNodes (CTitle.richTrees { name := l.text, font := l.titleFont, ignorePara := l.plainText })) := by
          unfold CLabel.txTree
          show child "c:rich".toList (toNodes [.node "c:rich".toList [] _]) = _
          rw [child_head (t := "c:rich".toList) _ _ rfl]; rfl
        rw [this]
        exact plainRun_read (tx_title_ok h2 h5)
      · rw [if_neg e, if_neg e]; rfl
    rw [ht, hl]
    refine ⟨_, rfl, rfl, ?_, fun _ => rfl, fun _ => hs⟩
    show cOn "c:delete".toList _ = _
    unfold cOn cVal
    rw [child_skip (valText "c:idx".toList (showNat i)) _ (by show "c:idx".toList ≠ _; decide), (hEn "c:delete".toList (by decide)).child,
      custom_kids, (hTn "c:delete".toList (by decide) (by decide)).child, (noTag_secs hS (by rw [hSn]; decide)).child_none, hh]
    rfl

/-- The labels that are written. -/
theorem customTrees_eq (g : ChartGroup) (n : Nat) (ls : List CLabel) :
    customTrees g n ls = (upTo n (fun c => decide (c ≠ {})) ls).map fun p => p.1.customTree g p.2 := rfl

theorem mem_upTo {α : Type} {n : Nat} {keep : α → Bool} {l : List α} {p : α × Nat} (h : p ∈ upTo n keep l) : p.1 ∈ l := by
  have h := (List.mem_filter.mp h).1
  obtain ⟨_, h⟩ := List.mem_zipIdx h
  exact h.2 ▸ List.getElem_mem _

theorem labels_ok {g : ChartGroup} {n : Nat} {l : Option CLabel} {ls : List CLabel} (h : ∀ x, l = some x → labelOk x = true ∧ sepOk x.separator)
    (hs : ∀ x ∈ ls, labelOk x = true ∧ sepOk x.separator) : ∀ x ∈ labelTrees g n l ls, treeOk x = true ∧ treeTag x = "c:dLbls".toList := by
  cases l with
  | none => intro x hx; cases hx
  | some l =>
    obtain ⟨h1, h4⟩ := h l rfl
    obtain ⟨a, b, c, _⟩ := labelOk_parts h1
    refine one_ok (treeOk_node (by decide +kernel) attrsGood_nil (ok_append ?_ (ok_of_secs (label_secs a b c h4 g false)))) rfl
    rw [customTrees_eq]
    intro x hx
    obtain ⟨p, hp, rfl⟩ := List.mem_map.mp hx
    obtain ⟨hp1, hp2⟩ := hs _ (mem_upTo hp)
    exact custom_ok hp1 hp2 g p.2

theorem labels_read {g : ChartGroup} {n : Nat} {l : CLabel} {ls : List CLabel} (h : labelOk l = true ∧ sepOk l.separator)
    (hs : ∀ x ∈ ls, labelOk x = true ∧ sepOk x.separator) :
    ∃ q, readLabels (treeParts (.node "c:dLbls".toList [] (customTrees g n ls ++ secTrees (l.secs g false)))) = some q ∧
      LabelShown g false l q.all ∧
      Pairs (fun (p : CLabel × Nat) s => PointLabelShown g p.1 p.2 s) (upTo n (fun c => decide (c ≠ {})) ls) q.points := by
  obtain ⟨h1, h4⟩ := h
  obtain ⟨a, b, c, _⟩ := labelOk_parts h1
  have hS := label_secs a b c h4 g false
  have htag : ∀ x ∈ customTrees g n ls, treeTag x = "c:dLbl".toList := by
    intro x hx
    rw [customTrees_eq] at hx
    obtain ⟨p, _, rfl⟩ := List.mem_map.mp hx
    rfl
  obtain ⟨q, hq, hm⟩ := label_read a b c h4 g false
  obtain ⟨ps, hps, hR⟩ := pairs_mapM (tree := fun p : CLabel × Nat => p.1.customTree g p.2) (read := readPointLabel)
    (R := fun (p : CLabel × Nat) s => PointLabelShown g p.1 p.2 s) (upTo n (fun c => decide (c ≠ {})) ls) (fun p hp => by
      obtain ⟨hp1, hp2⟩ := hs _ (mem_upTo hp)
      exact custom_read hp1 hp2 g p.2)
  refine ⟨⟨q, ps⟩, ?_, hm, hR⟩
  show readLabels ([], toNodes (customTrees g n ls ++ secTrees (l.secs g false))) = _
  unfold readLabels
  dsimp only
  have e1 : readLabelLook (toNodes (customTrees g n ls ++ secTrees (l.secs g false))) = some q := by
    rw [← hq]
    refine label_congr (fun t ht => (NoTag.all htag ?_).child _) ?_
    · intro e; subst e; revert ht; decide
    · unfold readFormatIn optChild
      rw [(NoTag.all htag (by decide)).child]
  have e2 : elems "c:dLbl".toList (toNodes (customTrees g n ls ++ secTrees (l.secs g false))) = (customTrees g n ls).map treeParts := by
    rw [elems_trees, List.filter_append, filter_tag htag, (noTag_secs hS (by rw [label_names]; decide)).filter, List.append_nil]
  rw [e1, e2, customTrees_eq, hps]

end Verif
