import Verif.Props.ChartSeriesPart
import Verif.Props.ChartAxes
/-!
C74: trendlines, error bars and whole series read back.
-/
namespace Verif
open Spec

variable {U : Unicode} {parses : Str → Bool} {shown : Text → Nat → Nat → Content}

theorem ifs_ok' {p : Prop} [Decidable p] {ts : List Tree} {t : Str} (h : p → ∀ y ∈ ts, treeOk y = true ∧ treeTag y = t) :
    ∀ y ∈ (if p then ts else []), treeOk y = true ∧ treeTag y = t := by
  by_cases e : p
  · rw [if_pos e]; exact h e
  · rw [if_neg e]; intro y hy; cases hy

/-! ### Trendlines -/

theorem trend_text {k : TrendKind} : k.text = if k = .none then "none".toList else trendName k := by cases k <;> rfl

theorem trendOk_parts {t : CTrend} (h : trendOk t = true) : cFormatOk t.format = true ∧ cFormatOk t.labelFormat = true ∧
    (∀ f, t.labelFont = some f → cFontOk f = true) ∧ plain t.name = true ∧ (∀ v, t.forward = some v → attrSafe v = true) ∧
    (∀ v, t.backward = some v → attrSafe v = true) ∧ (∀ v, t.intercept = some v → attrSafe v = true) := by
  unfold trendOk at h
  simp only [Bool.and_eq_true, List.all_cons, List.all_nil, and_true] at h
  obtain ⟨⟨⟨⟨h1, h2⟩, h3⟩, h4⟩, h5, h6, h7⟩ := h
  refine ⟨h1, h2, fun f hf => ?_, h4, fun v hv => ?_, fun v hv => ?_, fun v hv => ?_⟩
  · rw [hf] at h3; exact h3
  · rw [hv] at h5; exact h5
  · rw [hv] at h6; exact h6
  · rw [hv] at h7; exact h7

theorem trendFont_ok {t : CTrend} (h : ∀ f, t.labelFont = some f → cFontOk f = true) :
    ∀ x ∈ (t.labelFont.map (·.txPrTree false)).toList, treeOk x = true ∧ treeTag x = "c:txPr".toList := by
  cases e : t.labelFont with
  | none => intro x hx; cases hx
  | some f =>
    rw [Option.map_some, Option.toList_some]
    exact one_ok (txPr_ok (h f e) false) rfl

theorem trendLabel_secs {t : CTrend} (h : trendOk t = true) : SecsOk t.labelSecs := by
  obtain ⟨h1, h2, h3, _⟩ := trendOk_parts h
  unfold CTrend.labelSecs
  exact secsOk_cons (one_ok (by decide +kernel) rfl) (secsOk_cons (one_ok (by decide +kernel) rfl) (secsOk_cons (cFormat_ok h2)
    (secsOk_cons (trendFont_ok h3) secsOk_nil)))

theorem trend_secs {t : CTrend} (h : trendOk t = true) : SecsOk t.secs := by
  obtain ⟨h1, h2, h3, h4, h5, h6, h7⟩ := trendOk_parts h
  unfold CTrend.secs
  refine secsOk_cons (if_ok (dataTree_ok (by decide +kernel) h4) rfl) (secsOk_cons (cFormat_ok h1) (secsOk_cons
    (one_ok (valText_ok (by decide +kernel) ?_) rfl) (secsOk_cons ?_ (secsOk_cons ?_ (secsOk_cons (optVal_ok (by decide +kernel) h5)
    (secsOk_cons (optVal_ok (by decide +kernel) h6) (secsOk_cons (optVal_ok (by decide +kernel) h7) (secsOk_cons
    (oneIf_ok (by decide +kernel) _) (secsOk_cons (oneIf_ok (by decide +kernel) _) (secsOk_cons
    (if_ok (treeOk_node (by decide +kernel) attrsGood_nil (ok_of_secs (trendLabel_secs h))) rfl) secsOk_nil))))))))))
  · cases t.kind <;> dsimp only [TrendKind.text] <;> decide
  · split
    · exact one_ok (valText_ok (by decide +kernel) (showNat_attrSafe _)) rfl
    · intro x hx; cases hx
  · split
    · exact one_ok (valText_ok (by decide +kernel) (showNat_attrSafe _)) rfl
    · intro x hx; cases hx

theorem trend_nodup (t : CTrend) : (t.secs.map Prod.fst).Nodup := by
  show (["c:name".toList, "c:spPr".toList, "c:trendlineType".toList, "c:order".toList, "c:period".toList, "c:forward".toList,
    "c:backward".toList, "c:intercept".toList, "c:dispRSqr".toList, "c:dispEq".toList, "c:trendlineLbl".toList] : List Str).Nodup
  decide

theorem trendLabel_nodup (t : CTrend) : (t.labelSecs.map Prod.fst).Nodup := by
  show (["c:layout".toList, "c:numFmt".toList, "c:spPr".toList, "c:txPr".toList] : List Str).Nodup
  decide

/-- What is seen of a trendline. -/
structure TrendShown (t : CTrend) (s : TrendLook) : Prop where
  name : s.name = if t.name ≠ [] then some t.name else none
  format : FormatMeant t.format s.format
  kind : s.kind = some t.kind.text
  order : s.order = match t.kind with | .polynomial n => some (showNat n) | _ => none
  period : s.period = match t.kind with | .movingAverage n => some (showNat n) | _ => none
  forward : s.forward = t.forward
  backward : s.backward = t.backward
  intercept : s.intercept = t.intercept
  rSquared : s.rSquared = t.rSquared
  equation : s.equation = t.equation
  label : t.equation = true → ∃ f, s.label = some (f, t.labelFont.map (textSeen false)) ∧ FormatMeant t.labelFormat f

set_option maxHeartbeats 1000000 in
theorem trend_read {t : CTrend} (h : trendOk t = true) :
    ∃ q, readTrend (treeParts (.node "c:trendline".toList [] (secTrees t.secs))) = some q ∧ TrendShown t q := by
  obtain ⟨h1, h2, h3, h4, _⟩ := trendOk_parts h
  have hs := trend_secs h
  have hn := trend_nodup t
  obtain ⟨k, hk, hm⟩ := cFormat_in hs hn (f := t.format) (by unfold CTrend.secs; sec_look) h1
  have e1 : ∃ n, readTextIn "c:name".toList (toNodes (secTrees t.secs)) = some n ∧ n.map unescapeX = if t.name ≠ [] then some t.name else none := by
    have hl : t.secs.lookup "c:name".toList = some (if t.name ≠ [] then [.data "c:name".toList t.name []] else []) := by
      unfold CTrend.secs; sec_look
    by_cases e : t.name ≠ []
    · rw [if_pos e] at hl ⊢
      refine ⟨some (excelControlEscape t.name), sec_opt_one hs hn hl ?_, ?_⟩
      · simp only [treeParts, textOnly_data]
      · rw [Option.map_some, unescapeX_plain h4]
    · rw [if_neg e] at hl ⊢
      exact ⟨none, sec_opt_none hs hn (by rw [hl]; rfl), rfl⟩
  have e2 : ∃ n, optChild readTrendLabel "c:trendlineLbl".toList (toNodes (secTrees t.secs)) = some n ∧
      (t.equation = true → ∃ f, n = some (f, t.labelFont.map (textSeen false)) ∧ FormatMeant t.labelFormat f) := by
    have hl : t.secs.lookup "c:trendlineLbl".toList =
        some (if t.equation = true then [.node "c:trendlineLbl".toList [] (secTrees t.labelSecs)] else []) := by
      unfold CTrend.secs; sec_look
    by_cases e : t.equation = true
    · rw [if_pos e] at hl
      have hs' := trendLabel_secs h
      have hn' := trendLabel_nodup t
      obtain ⟨f, hf, hfm⟩ := cFormat_in hs' hn' (f := t.labelFormat) (by unfold CTrend.labelSecs; sec_look) h2
      have hx : optChild readTextLook "c:txPr".toList (toNodes (secTrees t.labelSecs)) = some (t.labelFont.map (textSeen false)) := by
        have hl : t.labelSecs.lookup "c:txPr".toList = some ((t.labelFont.map (·.txPrTree false)).toList) := by
          unfold CTrend.labelSecs; sec_look
        cases e : t.labelFont with
        | none => rw [e] at hl; exact sec_opt_none hs' hn' (by rw [hl]; rfl)
        | some f => rw [e] at hl; exact sec_opt_one hs' hn' hl (txPr_read (h3 f e) false)
      refine ⟨some (f, t.labelFont.map (textSeen false)), sec_opt_one hs hn hl ?_, fun _ => ⟨f, rfl, hfm⟩⟩
      show readTrendLabel ([], toNodes (secTrees t.labelSecs)) = _
      unfold readTrendLabel
      dsimp only
      rw [hf, hx]
    · rw [if_neg e] at hl
      exact ⟨none, sec_opt_none hs hn (by rw [hl]; rfl), fun e' => absurd e' e⟩
  obtain ⟨n, hn1, hn2⟩ := e1
  obtain ⟨b, hb1, hb2⟩ := e2
  have on : ∀ x v, t.secs.lookup x = some (oneIf x v) → cOn x (toNodes (secTrees t.secs)) = v := fun x v hl => sec_on hs hn hl
  have opt : ∀ x v, t.secs.lookup x = some (optVal x v) → cVal x (toNodes (secTrees t.secs)) = v := fun x v hl => sec_opt hs hn hl
  show ∃ q, readTrend ([], toNodes (secTrees t.secs)) = some q ∧ _
  unfold readTrend
  dsimp only
  rw [hn1, hk, hb1]
  dsimp only
  refine ⟨_, rfl, hn2, hm, ?_, ?_, ?_, opt _ _ ?_, opt _ _ ?_, opt _ _ ?_, on _ _ ?_, on _ _ ?_, hb2⟩
  · exact sec_one hs hn (by unfold CTrend.secs; sec_look)
  · dsimp only
    have hl : t.secs.lookup "c:order".toList = some (optVal "c:order".toList (match t.kind with | .polynomial n => some (showNat n) | _ => none)) := by
      unfold CTrend.secs
      simp (discharger := decide) only [assoc_ne, assoc_eq]
      cases t.kind <;> rfl
    exact sec_opt hs hn hl
  · dsimp only
    have hl : t.secs.lookup "c:period".toList = some (optVal "c:period".toList (match t.kind with | .movingAverage n => some (showNat n) | _ => none)) := by
      unfold CTrend.secs
      simp (discharger := decide) only [assoc_ne, assoc_eq]
      cases t.kind <;> rfl
    exact sec_opt hs hn hl
  all_goals (unfold CTrend.secs; sec_look)

/-! ### Error bars -/

theorem err_text (k : ErrKind) : k.text = barsName k := by cases k <;> rfl

theorem side_name (d : ErrDirection) : d.text = barsSide d := by cases d <;> rfl

/-- Error bars of the skeleton made from ones with formatting: the caches of the cells may be any. -/
structure IsErr (e : CErrBars) (axis : Str) (x : ErrorBars) : Prop where
  custom : x.custom = (e.toErr axis).custom
  head : x.head = (e.toErr axis).head
  plain : x.plain = (e.toErr axis).plain
  tail : x.tail = (e.toErr axis).tail
  plus : x.plus.range = e.plus
  minus : x.minus.range = e.minus

theorem isErr (e : CErrBars) (axis : Str) : IsErr e axis (e.toErr axis) := ⟨rfl, rfl, rfl, rfl, rfl, rfl⟩

theorem IsErr.update {e : CErrBars} {axis : Str} {x : ErrorBars} (h : IsErr e axis x) (m : CacheMap) : IsErr e axis (x.update m) :=
  ⟨h.custom, h.head, h.plain, h.tail, (update_range _ _).trans h.plus, (update_range _ _).trans h.minus⟩

/-- The elements of error bars. -/
def errSecs (U : Unicode) (parses : Str → Bool) (e : CErrBars) (axis : Str) (x : ErrorBars) : List (Str × List Tree) :=
  [("c:errDir".toList, textVal "c:errDir".toList axis), ("c:errBarType".toList, [valText "c:errBarType".toList e.direction.text]),
   ("c:errValType".toList, [valText "c:errValType".toList e.kind.text]), ("c:noEndCap".toList, oneIf "c:noEndCap".toList (!e.endCap)),
   ("c:plus".toList, if x.custom = true then [.node "c:plus".toList [] [cacheRefTree U parses true x.plus]] else []),
   ("c:minus".toList, if x.custom = true then [.node "c:minus".toList [] [cacheRefTree U parses true x.minus]] else []),
   ("c:val".toList, optVal "c:val".toList (barsValue e.kind)), ("c:spPr".toList, e.format.trees)]

theorem err_kids {e : CErrBars} {axis : Str} {x : ErrorBars} (h : IsErr e axis x) :
    errBarsTree U parses x = .node "c:errBars".toList [] (secTrees (errSecs U parses e axis x)) := by
  unfold errBarsTree
  rw [h.head, h.plain, h.tail]
  have hc := h.custom
  unfold CErrBars.toErr errSecs secTrees at *
  simp only [List.flatMap_cons, List.flatMap_nil, List.append_nil, List.append_assoc] at *
  congr 1
  cases hk : e.kind <;> rw [hk] at hc <;> simp only [hc] <;> simp [barsValue, optVal]

theorem barsOk_parts {e : CErrBars} (h : barsOk e = true) : cFormatOk e.format = true ∧ ∀ v, barsValue e.kind = some v → attrSafe v = true := by
  unfold barsOk at h
  rw [Bool.and_eq_true] at h
  refine ⟨h.1, fun v hv => ?_⟩
  have := h.2
  cases hk : e.kind <;> rw [hk] at this hv <;> simp [barsValue] at hv <;> (subst hv; exact this)

theorem axis_safe {axis : Str} (h : axis = [] ∨ axis = "x".toList ∨ axis = "y".toList) : attrSafe axis = true := by
  rcases h with rfl | rfl | rfl <;> decide

theorem err_free {e : CErrBars} (h : barsOk e = true) {axis : Str} (ha : axis = [] ∨ axis = "x".toList ∨ axis = "y".toList)
    (hr : (∃ p m, e.kind = .custom p m) → RefGood U parses shown .numbers e.plus ∧ RefGood U parses shown .numbers e.minus) :
    ErrGood U parses shown (e.toErr axis) := by
  obtain ⟨h1, h2⟩ := barsOk_parts h
  have hc : (e.toErr axis).custom = true → ∃ p m, e.kind = .custom p m := by
    unfold CErrBars.toErr
    cases hk : e.kind with
    | custom p m => intro _; exact ⟨p, m, rfl⟩
    | _ => intro h; simp at h
  refine ⟨fun h => (hr (hc h)).1, fun h => (hr (hc h)).2, ?_, ?_, ?_⟩
  · have : SecsOk [("c:errDir".toList, textVal "c:errDir".toList axis), ("c:errBarType".toList, [valText "c:errBarType".toList e.direction.text]),
        ("c:errValType".toList, [valText "c:errValType".toList e.kind.text]), ("c:noEndCap".toList, oneIf "c:noEndCap".toList (!e.endCap))] :=
      secsOk_cons (textVal_ok (by decide +kernel) (axis_safe ha)) (secsOk_cons (one_ok (valText_ok (by decide +kernel)
        (by cases e.direction <;> decide)) rfl) (secsOk_cons (one_ok (valText_ok (by decide +kernel)
        (by cases e.kind <;> dsimp only [ErrKind.text] <;> decide)) rfl) (secsOk_cons (oneIf_ok (by decide +kernel) _) secsOk_nil)))
    have := free_secs (tags := ["c:plus".toList, "c:minus".toList]) this (by
      intro n hn
      revert hn; revert n
      show ∀ n, n ∈ ["c:errDir".toList, "c:errBarType".toList, "c:errValType".toList, "c:noEndCap".toList] → _
      decide)
    have e0 : (e.toErr axis).head = secTrees [("c:errDir".toList, textVal "c:errDir".toList axis), ("c:errBarType".toList, [valText "c:errBarType".toList e.direction.text]),
        ("c:errValType".toList, [valText "c:errValType".toList e.kind.text]), ("c:noEndCap".toList, oneIf "c:noEndCap".toList (!e.endCap))] := by
      unfold CErrBars.toErr secTrees
      simp only [List.flatMap_cons, List.flatMap_nil, List.append_nil, List.append_assoc]
      rfl
    rw [e0]; exact this
  · intro t ht
    have e0 : (e.toErr axis).plain = optVal "c:val".toList (barsValue e.kind) := by
      unfold CErrBars.toErr
      cases e.kind <;> rfl
    rw [e0] at ht
    have := optVal_ok (t := "c:val".toList) (by decide +kernel) h2 t ht
    exact ⟨this.1, by rw [this.2]; decide⟩
  · intro t ht
    have := cFormat_ok h1 t ht
    exact ⟨this.1, by rw [this.2]; decide⟩

theorem err_nodup (U : Unicode) (parses : Str → Bool) (e : CErrBars) (axis : Str) (x : ErrorBars) :
    ((errSecs U parses e axis x).map Prod.fst).Nodup := by
  show (["c:errDir".toList, "c:errBarType".toList, "c:errValType".toList, "c:noEndCap".toList, "c:plus".toList, "c:minus".toList,
    "c:val".toList, "c:spPr".toList] : List Str).Nodup
  decide

theorem err_secs {e : CErrBars} {axis : Str} {x : ErrorBars} (h : barsOk e = true) (ha : axis = [] ∨ axis = "x".toList ∨ axis = "y".toList)
    (hg : ErrGood U parses shown x) (hf : x.custom = true → Filled shown x.plus ∧ Filled shown x.minus) :
    SecsOk (errSecs U parses e axis x) := by
  obtain ⟨h1, h2⟩ := barsOk_parts h
  unfold errSecs
  refine secsOk_cons (textVal_ok (by decide +kernel) (axis_safe ha)) (secsOk_cons (one_ok (valText_ok (by decide +kernel)
    (by cases e.direction <;> decide)) rfl) (secsOk_cons (one_ok (valText_ok (by decide +kernel)
    (by cases e.kind <;> dsimp only [ErrKind.text] <;> decide)) rfl) (secsOk_cons (oneIf_ok (by decide +kernel) _) (secsOk_cons ?_ (secsOk_cons ?_
    (secsOk_cons (optVal_ok (by decide +kernel) h2) (secsOk_cons (cFormat_ok h1) secsOk_nil)))))))
  · refine ifs_ok' fun hc => one_ok (treeOk_node (by decide) attrsGood_nil (ok_single (cacheRefTree_ok U parses _ ((hg.plus hc).safe (hf hc).1)))) rfl
  · refine ifs_ok' fun hc => one_ok (treeOk_node (by decide) attrsGood_nil (ok_single (cacheRefTree_ok U parses _ ((hg.minus hc).safe (hf hc).2)))) rfl

/-- What is seen of error bars. -/
structure BarsShown (e : CErrBars) (axis : Str) (s : BarsLook) : Prop where
  axis : s.axis = if axis ≠ [] then some axis else none
  side : s.side = some e.direction.text
  kind : s.kind = some e.kind.text
  noCap : s.noCap = !e.endCap
  value : s.value = barsValue e.kind
  format : FormatMeant e.format s.format

theorem bars_read {e : CErrBars} {axis : Str} {x : ErrorBars} (hx : IsErr e axis x) (h : barsOk e = true)
    (ha : axis = [] ∨ axis = "x".toList ∨ axis = "y".toList)
    (hg : ErrGood U parses shown x) (hf : x.custom = true → Filled shown x.plus ∧ Filled shown x.minus) :
    ∃ q, readBars (treeParts (errBarsTree U parses x)) = some q ∧ BarsShown e axis q := by
  rw [err_kids hx]
  have hs := err_secs h ha hg hf
  have hn := err_nodup U parses e axis x
  obtain ⟨k, hk, hm⟩ := cFormat_in hs hn (f := e.format) (by unfold errSecs; sec_look) (barsOk_parts h).1
  show ∃ q, readBars ([], toNodes (secTrees (errSecs U parses e axis x))) = some q ∧ _
  unfold readBars
  dsimp only
  rw [hk]
  refine ⟨_, rfl, ?_, ?_, ?_, ?_, ?_, hm⟩
  · show cVal "c:errDir".toList _ = _
    rw [cVal_secs hs hn, show (errSecs U parses e axis x).lookup "c:errDir".toList = some (textVal "c:errDir".toList axis) from by
      unfold errSecs; sec_look]
    exact textVal_val _ _
  · exact sec_one hs hn (by unfold errSecs; sec_look)
  · exact sec_one hs hn (by unfold errSecs; sec_look)
  · exact sec_on hs hn (by unfold errSecs; sec_look)
  · exact sec_opt hs hn (by unfold errSecs; sec_look)

end Verif
