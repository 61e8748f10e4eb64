import Verif.Spec.Cond
import Verif.Props.Sparkline
/-!
C38: reading back one rule of a conditional format.
-/
namespace Verif
open Spec

/-! ### Attributes -/

theorem look_append {k : Str} {as bs : Attrs} (h : k ∉ as.map Prod.fst) : (as ++ bs).lookup k = bs.lookup k := by
  induction as with
  | nil => rfl
  | cons a as ih =>
    obtain ⟨x, y⟩ := a
    rw [List.map_cons, List.mem_cons, not_or] at h
    rw [List.cons_append, look_ne h.1, ih h.2]

theorem ruleAttrs_keys (type : Str) (dxf : Option Nat) (p : Nat) (stop : Bool) :
    ∀ k ∈ (ruleAttrs type dxf p stop).map Prod.fst,
      k ∈ ["type".toList, "dxfId".toList, "priority".toList, "stopIfTrue".toList] := by
  unfold ruleAttrs
  cases dxf <;> cases stop <;> simp

theorem ruleAttrs_other {k : Str} (h : k ∉ ["type".toList, "dxfId".toList, "priority".toList, "stopIfTrue".toList])
    (type : Str) (dxf : Option Nat) (p : Nat) (stop : Bool) (extra : Attrs) :
    (ruleAttrs type dxf p stop ++ extra).lookup k = extra.lookup k :=
  look_append fun hk => h (ruleAttrs_keys type dxf p stop k hk)

theorem ruleAttrs_type (type : Str) (dxf : Option Nat) (p : Nat) (stop : Bool) (extra : Attrs) :
    (ruleAttrs type dxf p stop ++ extra).lookup "type".toList = some type := by
  unfold ruleAttrs; rw [List.cons_append, look_eq]

/-- The other attributes do not repeat the common ones. -/
def Extra (extra : Attrs) : Prop :=
  ∀ k ∈ ["type".toList, "dxfId".toList, "priority".toList, "stopIfTrue".toList], k ∉ extra.map Prod.fst

theorem ruleAttrs_dxf {type : Str} {dxf : Option Nat} {p : Nat} {stop : Bool} {extra : Attrs} (h : Extra extra) :
    (ruleAttrs type dxf p stop ++ extra).lookup "dxfId".toList = dxf.map showNat := by
  have he : extra.lookup "dxfId".toList = none := lookup_none_of (h _ (by simp))
  unfold ruleAttrs
  rw [List.cons_append, look_ne (by decide)]
  cases dxf with
  | some i => simp only [List.cons_append, List.nil_append]; rw [look_eq]; rfl
  | none =>
    simp only [List.cons_append, List.nil_append]
    rw [look_ne (by decide)]
    cases stop
    · exact he
    · simp only [if_true, List.cons_append, List.nil_append]; rw [look_ne (by decide)]; exact he

theorem ruleAttrs_priority (type : Str) (dxf : Option Nat) (p : Nat) (stop : Bool) (extra : Attrs) :
    attrNat "priority".toList (ruleAttrs type dxf p stop ++ extra) = some p := by
  unfold ruleAttrs attrNat
  rw [List.cons_append, look_ne (by decide)]
  cases dxf with
  | some i =>
    simp only [List.cons_append, List.nil_append]
    rw [look_ne (by decide), look_eq, Option.bind_some, readNat_showNat]
  | none =>
    simp only [List.cons_append, List.nil_append]
    rw [look_eq, Option.bind_some, readNat_showNat]

theorem ruleAttrs_stop {type : Str} {dxf : Option Nat} {p : Nat} {stop : Bool} {extra : Attrs} (h : Extra extra) :
    attrFlag "stopIfTrue".toList false (ruleAttrs type dxf p stop ++ extra) = some stop := by
  have he : extra.lookup "stopIfTrue".toList = none := lookup_none_of (h _ (by simp))
  have e : (ruleAttrs type dxf p stop ++ extra).lookup "stopIfTrue".toList = if stop then some "1".toList else none := by
    unfold ruleAttrs
    rw [List.cons_append, look_ne (by decide), List.append_assoc]
    have hs : ((if stop = true then [("stopIfTrue".toList, "1".toList)] else []) ++ extra).lookup "stopIfTrue".toList =
        if stop then some "1".toList else none := by
      cases stop
      · exact he
      · simp only [if_true, List.cons_append, List.nil_append]; rw [look_eq]
    cases dxf with
    | some i =>
      simp only [List.cons_append, List.nil_append]
      rw [look_ne (by decide), look_ne (by decide), hs]
    | none =>
      simp only [List.cons_append, List.nil_append]
      rw [look_ne (by decide), hs]
  unfold attrFlag
  rw [e]
  cases stop <;> rfl

/-- The format with an index. -/
def formatOf (formats : Nat → Option DxfSeen) : Option Nat → Option (Option DxfSeen)
  | none => some none
  | some i => (formats i).map some

theorem readCond_of {formats : Nat → Option DxfSeen} {type : Str} {dxf : Option Nat} {p : Nat} {stop : Bool} {extra : Attrs}
    {ks : List Node} {r : RuleSeen} {f : Option DxfSeen} (he : Extra extra)
    (hr : readRuleKind type (ruleAttrs type dxf p stop ++ extra, ks) = some r)
    (hf : formatOf formats dxf = some f) :
    readCond formats (ruleAttrs type dxf p stop ++ extra, ks) = some ⟨r, f, p, stop⟩ := by
  unfold readCond
  have h2 : readRuleFormat formats (ruleAttrs type dxf p stop ++ extra) = some f := by
    unfold readRuleFormat
    rw [ruleAttrs_dxf he]
    cases dxf with
    | none => exact hf
    | some i =>
      simp only [Option.map_some, readNat_showNat, Option.bind_some]
      exact hf
  dsimp only
  rw [ruleAttrs_type, Option.bind_some, hr, h2, ruleAttrs_priority, ruleAttrs_stop he]

/-! ### Texts and colours -/

theorem formula_text {f : Str} (h : attrSafe f = true) : textOnly (treeParts (formulaTree f)).2 = some f := by
  unfold formulaTree
  simp only [treeParts, textOnly_data]
  rw [escape_attrSafe h]

theorem readFormulas_trees {fs : List Str} (h : ∀ f ∈ fs, attrSafe f = true) :
    readFormulas (toNodes (fs.map formulaTree)) = some fs := by
  unfold readFormulas
  rw [elems_trees, List.filter_eq_self.mpr (by
    intro x hx
    obtain ⟨f, _, rfl⟩ := List.mem_map.mp hx
    rfl), List.map_map]
  induction fs with
  | nil => rfl
  | cons f fs ih =>
    rw [List.map_cons, List.mapM_cons, ih fun g hg => h g (List.mem_cons_of_mem _ hg)]
    simp only [Function.comp]
    rw [formula_text (h f List.mem_cons_self)]
    rfl

theorem oneFormula_tree {f : Str} (h : attrSafe f = true) : oneFormula (toNodes [formulaTree f]) = some f := by
  unfold oneFormula
  rw [show [formulaTree f] = [f].map formulaTree from rfl, readFormulas_trees (by simpa using h)]

theorem plainColor_read {c : Color} (h : plainColor c = true) : readColor [("rgb".toList, c.argbHexValue)] = some (colorMeant c) := by
  have h1 : c.attributes = [("rgb".toList, c.argbHexValue)] := by
    cases c <;> first | rfl | simp [plainColor] at h
  rw [← h1]
  refine readColor_attributes ?_ ?_ ?_
  · cases c <;> first | rfl | simp [plainColor] at h
    rename_i n
    simpa [Color.ok, Color.isValid] using h
  · rintro rfl; simp [plainColor] at h
  · rintro rfl; simp [plainColor] at h

theorem colors_read {cs : List Color} (tag : Str) (h : ∀ c ∈ cs, plainColor c = true) :
    ((cs.map (condColorTree tag)).map treeParts).mapM (fun e => readColor e.1) = some (cs.map colorMeant) := by
  induction cs with
  | nil => rfl
  | cons c cs ih =>
    rw [List.map_cons, List.map_cons, List.mapM_cons, ih fun d hd => h d (List.mem_cons_of_mem _ hd)]
    simp only [condColorTree, treeParts]
    rw [plainColor_read (h c List.mem_cons_self)]
    rfl

theorem scalePoint_read {p : CondPoint} (h : p.type ≠ .automatic) :
    readCfvo (treeParts (scalePointTree p)) = some (scalePoint p) := by
  obtain ⟨t, v⟩ := p
  cases t <;> first | rfl | exact absurd rfl h

theorem scalePoints_read {ps : List CondPoint} (h : ∀ p ∈ ps, p.type ≠ .automatic) :
    ((ps.map scalePointTree).map treeParts).mapM readCfvo = some (ps.map scalePoint) := by
  induction ps with
  | nil => rfl
  | cons p ps ih =>
    rw [List.map_cons, List.map_cons, List.mapM_cons, ih fun d hd => h d (List.mem_cons_of_mem _ hd),
      scalePoint_read (h p List.mem_cons_self)]
    rfl

theorem barPoint_read (p : CondPoint) (x14 isMax : Bool) :
    readCfvo (treeParts (barPointTree p x14 isMax)) = some (barPoint isMax x14 p) := by
  obtain ⟨t, v⟩ := p
  cases t <;> cases x14 <;> cases isMax <;> rfl

theorem iconPoint_read (i : CondIcon) : readIconCfvo (treeParts (iconPointTree i)) = some (iconPoint i) := by
  obtain ⟨_, _, g, ⟨t, v⟩⟩ := i
  cases t <;> cases g <;> rfl

theorem iconPoints_read (is : List CondIcon) :
    ((is.map iconPointTree).map treeParts).mapM readIconCfvo = some (is.map iconPoint) := by
  induction is with
  | nil => rfl
  | cons p ps ih =>
    rw [List.map_cons, List.map_cons, List.mapM_cons, ih, iconPoint_read]
    rfl

theorem rangeToAnchor_eq (range : Str) : rangeToAnchor range = firstCell range := by
  unfold rangeToAnchor firstCell
  induction range with
  | nil => rfl
  | cons c r ih =>
    by_cases h1 : c = ' '
    · subst h1; rfl
    · by_cases h2 : c = ':'
      · subst h2; rfl
      · rw [List.takeWhile_cons, List.takeWhile_cons]
        simp only [ne_eq, h1, h2, not_false_eq_true, decide_true, if_true, Bool.and_self, List.takeWhile_cons, ih]

theorem firstCell_safe {range : Str} (h : attrSafe range = true) : attrSafe (firstCell range) = true := by
  rw [attrSafe_mem] at h ⊢
  intro c hc
  exact h c (List.takeWhile_sublist _ |>.mem hc)

theorem attrSafe_append {a b : Str} (ha : attrSafe a = true) (hb : attrSafe b = true) : attrSafe (a ++ b) = true := by
  rw [attrSafe_mem] at *
  intro c hc
  rcases List.mem_append.mp hc with h | h
  · exact ha c h
  · exact hb c h

theorem condText_safe {r : CondText} {a : Str} (ha : attrSafe a = true) (ht : attrSafe r.text = true) :
    attrSafe (r.formula a) = true := by
  have hn := showNat_attrSafe (byteLen r.text)
  cases r with
  | contains t =>
    exact attrSafe_append (attrSafe_append (attrSafe_append (attrSafe_append (by decide) ht) (by decide)) ha) (by decide)
  | doesNotContain t =>
    exact attrSafe_append (attrSafe_append (attrSafe_append (attrSafe_append (by decide) ht) (by decide)) ha) (by decide)
  | beginsWith t =>
    exact attrSafe_append (attrSafe_append (attrSafe_append (attrSafe_append (attrSafe_append (attrSafe_append
      (by decide) ha) (by decide)) hn) (by decide)) ht) (by decide)
  | endsWith t =>
    exact attrSafe_append (attrSafe_append (attrSafe_append (attrSafe_append (attrSafe_append (attrSafe_append
      (by decide) ha) (by decide)) hn) (by decide)) ht) (by decide)

macro "safes" : tactic => `(tactic| (repeat' (first
    | assumption
    | (refine attrSafe_append ?_ ?_)
    | decide +kernel)))

theorem condDate_safe {a : Str} (ha : attrSafe a = true) (r : CondDate) : attrSafe (r.formula a) = true := by
  cases r <;> unfold CondDate.formula <;> dsimp only <;> safes

theorem blankFormula_safe {a : Str} (ha : attrSafe a = true) (b : Bool) : attrSafe (blankFormula b a) = true := by
  cases b <;> exact attrSafe_append (attrSafe_append (by decide) ha) (by decide)

theorem errorFormula_safe {a : Str} (ha : attrSafe a = true) (b : Bool) : attrSafe (errorFormula b a) = true := by
  cases b <;> exact attrSafe_append (attrSafe_append (by decide) ha) (by decide)

/-! ### The rules -/

theorem extra_nil : Extra [] := by intro k _; simp

macro "extras" : tactic => `(tactic| (intro k hk; revert k; decide))

/-- The format a rule gets. -/
def ruleDxf (k : CondKind) (dxf : Option Nat) : Option Nat := if hasFormat k then dxf else none

theorem readOp_name (r : CondCellRule) : readOp r.name = some (opMeant r) := by
  rcases r with ⟨op, _⟩ | _ | _
  · cases op <;> rfl
  · rfl
  · rfl

theorem readPeriod_name (r : CondDate) : readPeriod r.name = some (periodMeant r) := by cases r <;> rfl

/-- One rule, read back. -/
theorem readCond_rule {formats : Nat → Option DxfSeen} {k : CondKind} {dxf : Option Nat} {p : Nat} {stop : Bool}
    {range guid : Str} {f : Option DxfSeen} {t : Tree} {r : RuleSeen} (ht : ∀ t ∈ kindTexts k, attrSafe t = true)
    (hc : ∀ x ∈ kindColors k, plainColor x = true) (hsc : scaleOk k = true) (hrange : attrSafe range = true)
    (hf : formatOf formats (ruleDxf k dxf) = some f)
    (htree : k.rule dxf p stop range guid = some t) (hm : ruleMeant k range = some r) :
    readCond formats (treeParts t) = some ⟨r, f, p, stop⟩ := by
  have ha := firstCell_safe hrange
  cases k with
  | cell o =>
    cases o with
    | none => cases htree
    | some c =>
      injection htree with htree; subst htree
      injection hm with hm; subst hm
      simp only [treeParts]
      refine readCond_of ?_ ?_ hf
      · intro k hk; revert k; simp
      · rw [show ∀ e, readRuleKind "cellIs".toList e = (match (e.1.lookup "operator".toList).bind readOp, readFormulas e.2 with
          | some op, some fs => some (.cellIs op fs)
          | _, _ => none) from fun _ => rfl]
        dsimp only
        rw [ruleAttrs_other (by decide), look_eq, Option.bind_some, readOp_name]
        rw [readFormulas_trees (fs := c.formulas)]
        · cases c <;> rfl
        · cases c <;> exact ht
  | blank inv =>
    injection htree with htree; subst htree
    injection hm with hm; subst hm
    have hfs := blankFormula_safe ha inv
    simp only [treeParts]
    rw [← List.append_nil (ruleAttrs _ _ _ _)]
    refine readCond_of extra_nil ?_ hf
    rw [rangeToAnchor_eq]
    cases inv
    · simp only [Bool.false_eq_true, if_false]
      rw [show ∀ e, readRuleKind "containsBlanks".toList e = (oneFormula e.2).map (.blanks false) from fun _ => rfl]
      dsimp only
      rw [oneFormula_tree hfs]; rfl
    · simp only [if_true]
      rw [show ∀ e, readRuleKind "notContainsBlanks".toList e = (oneFormula e.2).map (.blanks true) from fun _ => rfl]
      dsimp only
      rw [oneFormula_tree hfs]; rfl
  | error inv =>
    injection htree with htree; subst htree
    injection hm with hm; subst hm
    have hfs := errorFormula_safe ha inv
    simp only [treeParts]
    rw [← List.append_nil (ruleAttrs _ _ _ _)]
    refine readCond_of extra_nil ?_ hf
    rw [rangeToAnchor_eq]
    cases inv
    · simp only [Bool.false_eq_true, if_false]
      rw [show ∀ e, readRuleKind "containsErrors".toList e = (oneFormula e.2).map (.errors false) from fun _ => rfl]
      dsimp only
      rw [oneFormula_tree hfs]; rfl
    · simp only [if_true]
      rw [show ∀ e, readRuleKind "notContainsErrors".toList e = (oneFormula e.2).map (.errors true) from fun _ => rfl]
      dsimp only
      rw [oneFormula_tree hfs]; rfl
  | duplicate inv =>
    injection htree with htree; subst htree
    injection hm with hm; subst hm
    simp only [treeParts]
    rw [← List.append_nil (ruleAttrs _ _ _ _)]
    refine readCond_of extra_nil ?_ hf
    cases inv <;> rfl
  | formula fo =>
    injection htree with htree; subst htree
    injection hm with hm; subst hm
    simp only [treeParts]
    rw [← List.append_nil (ruleAttrs _ _ _ _)]
    refine readCond_of extra_nil ?_ hf
    show (oneFormula _).map _ = _
    rw [oneFormula_tree (ht fo (by simp [kindTexts]))]; rfl
  | average a =>
    injection htree with htree; subst htree
    injection hm with hm; subst hm
    simp only [treeParts]
    refine readCond_of ?_ ?_ hf
    · cases a <;> (intro k hk; revert k; decide)
    · rw [show ∀ e, readRuleKind "aboveAverage".toList e = (match attrFlag "aboveAverage".toList true e.1,
          attrFlag "equalAverage".toList false e.1, attrNatD "stdDev".toList 0 e.1 with
        | some a, some q, some n => some (.average a q n)
        | _, _, _ => none) from fun _ => rfl]
      dsimp only
      unfold attrFlag attrNatD
      rw [ruleAttrs_other (by decide), ruleAttrs_other (by decide), ruleAttrs_other (by decide)]
      cases a <;> rfl
  | top a =>
    injection htree with htree; subst htree
    injection hm with hm; subst hm
    simp only [treeParts]
    refine readCond_of ?_ ?_ hf
    · cases a <;> (intro k hk; revert k; simp [CondTop.attrs])
    · rw [show ∀ e, readRuleKind "top10".toList e = (match attrFlag "percent".toList false e.1,
          attrFlag "bottom".toList false e.1, attrNat "rank".toList e.1 with
        | some p, some b, some n => some (.top p b n)
        | _, _, _ => none) from fun _ => rfl]
      dsimp only
      unfold attrFlag attrNat
      rw [ruleAttrs_other (by decide), ruleAttrs_other (by decide), ruleAttrs_other (by decide)]
      cases a with
      | top n =>
        show (match some false, some false, (some (showNat n)).bind readNat with
          | some p, some b, some n => some (RuleSeen.top p b n)
          | _, _, _ => none) = _
        rw [Option.bind_some, readNat_showNat]; rfl
      | bottom n =>
        show (match some false, some true, (some (showNat n)).bind readNat with
          | some p, some b, some n => some (RuleSeen.top p b n)
          | _, _, _ => none) = _
        rw [Option.bind_some, readNat_showNat]; rfl
      | topPercent n =>
        show (match some true, some false, (some (showNat n)).bind readNat with
          | some p, some b, some n => some (RuleSeen.top p b n)
          | _, _, _ => none) = _
        rw [Option.bind_some, readNat_showNat]; rfl
      | bottomPercent n =>
        show (match some true, some true, (some (showNat n)).bind readNat with
          | some p, some b, some n => some (RuleSeen.top p b n)
          | _, _, _ => none) = _
        rw [Option.bind_some, readNat_showNat]; rfl
  | text o =>
    cases o with
    | none => cases htree
    | some c =>
      injection htree with htree; subst htree
      injection hm with hm; subst hm
      have htx : attrSafe c.text = true := ht _ (by simp [kindTexts])
      have hfs := condText_safe ha htx
      simp only [treeParts]
      refine readCond_of ?_ ?_ hf
      · intro k hk; revert k; simp
      · rw [rangeToAnchor_eq]
        have key : ∀ (type op : Str) (o : TextOpSeen), type ≠ [] → op = c.name →
            readTextRule type op o (ruleAttrs type dxf p stop ++ [("operator".toList, c.name), ("text".toList, c.text)],
              toNodes [formulaTree (c.formula (firstCell range))]) = some (.text o c.text (c.formula (firstCell range))) := by
          intro type op o hne hop
          unfold readTextRule
          dsimp only
          rw [ruleAttrs_other (by decide), ruleAttrs_other (by decide), look_eq, if_pos ⟨by rw [hop], hne⟩,
            look_ne (by decide), look_eq, oneFormula_tree hfs]
        cases c with
        | contains t => exact key "containsText".toList "containsText".toList .contains (by decide) rfl
        | doesNotContain t => exact key "notContainsText".toList "notContains".toList .notContains (by decide) rfl
        | beginsWith t => exact key "beginsWith".toList "beginsWith".toList .beginsWith (by decide) rfl
        | endsWith t => exact key "endsWith".toList "endsWith".toList .endsWith (by decide) rfl
  | date a =>
    injection htree with htree; subst htree
    injection hm with hm; subst hm
    have hfs := condDate_safe ha a
    simp only [treeParts]
    refine readCond_of ?_ ?_ hf
    · intro k hk; revert k; simp
    · rw [rangeToAnchor_eq, show ∀ e, readRuleKind "timePeriod".toList e =
          (match (e.1.lookup "timePeriod".toList).bind readPeriod, oneFormula e.2 with
        | some p, some f => some (.period p f)
        | _, _ => none) from fun _ => rfl]
      dsimp only
      rw [ruleAttrs_other (by decide), look_eq, Option.bind_some, readPeriod_name, oneFormula_tree hfs]
  | scale ps cs =>
    injection htree with htree; subst htree
    injection hm with hm; subst hm
    simp only [scaleOk, Bool.and_eq_true, decide_eq_true_eq, List.all_eq_true] at hsc
    simp only [treeParts]
    rw [← List.append_nil (ruleAttrs _ _ _ _)]
    refine readCond_of (dxf := none) extra_nil ?_ hf
    rw [show ∀ e, readRuleKind "colorScale".toList e = readScale e.2 from fun _ => rfl]
    unfold readScale
    dsimp only
    rw [child_head _ _ (by rfl), Option.bind_some]
    simp only [treeParts]
    have h1 : (ps.map scalePointTree ++ cs.map (condColorTree "color".toList)).filter
        (fun x => decide (treeTag x = "cfvo".toList)) = ps.map scalePointTree := by
      rw [List.filter_append, List.filter_eq_self.mpr (by
        intro x hx; obtain ⟨q, _, rfl⟩ := List.mem_map.mp hx; rfl), List.filter_eq_nil_iff.mpr (by
        intro x hx; obtain ⟨q, _, rfl⟩ := List.mem_map.mp hx; simp [condColorTree, treeTag]), List.append_nil]
    have h2 : (ps.map scalePointTree ++ cs.map (condColorTree "color".toList)).filter
        (fun x => decide (treeTag x = "color".toList)) = cs.map (condColorTree "color".toList) := by
      rw [List.filter_append, List.filter_eq_nil_iff.mpr (by
        intro x hx; obtain ⟨q, _, rfl⟩ := List.mem_map.mp hx; simp [scalePointTree, treeTag]), List.filter_eq_self.mpr (by
        intro x hx; obtain ⟨q, _, rfl⟩ := List.mem_map.mp hx; rfl), List.nil_append]
    rw [elems_trees, elems_trees, h1, h2, scalePoints_read (fun q hq => hsc.2 q hq), colors_read (cs := cs) _ hc]
    dsimp only
    rw [if_pos (by rw [List.length_map, List.length_map]; exact hsc.1)]
  | bar b =>
    injection htree with htree; subst htree
    injection hm with hm; subst hm
    simp only [treeParts]
    rw [← List.append_nil (ruleAttrs _ _ _ _)]
    refine readCond_of (dxf := none) extra_nil ?_ hf
    rw [show ∀ e, readRuleKind "dataBar".toList e = readBar e.2 from fun _ => rfl]
    unfold readBar
    dsimp only
    rw [child_head _ _ (by rfl), Option.bind_some]
    simp only [treeParts]
    rw [elems_trees]
    rw [show ([barPointTree b.min b.x14 false, barPointTree b.max b.x14 true, condColorTree "color".toList b.fill].filter
      fun x => decide (treeTag x = "cfvo".toList)) = [barPointTree b.min b.x14 false, barPointTree b.max b.x14 true] from rfl]
    rw [child_skip _ _ (by simp [barPointTree, treeTag]), child_skip _ _ (by simp [barPointTree, treeTag]), child_head _ _ (by rfl)]
    simp only [List.map_cons, List.map_nil, List.mapM_cons, barPoint_read, List.mapM_nil, Option.bind_some]
    simp only [condColorTree, treeParts]
    rw [plainColor_read (hc b.fill (by simp [kindColors]))]
    cases b.barOnly <;> rfl
  | icons s =>
    injection htree with htree; subst htree
    injection hm with hm; subst hm
    simp only [treeParts]
    rw [← List.append_nil (ruleAttrs _ _ _ _)]
    refine readCond_of (dxf := none) extra_nil ?_ hf
    rw [show ∀ e, readRuleKind "iconSet".toList e = readIcons e.2 from fun _ => rfl]
    unfold readIcons
    dsimp only
    rw [child_head _ _ (by rfl), Option.bind_some]
    simp only [treeParts]
    rw [elems_trees, List.filter_eq_self.mpr (by
        intro x hx; obtain ⟨q, _, rfl⟩ := List.mem_map.mp hx; rfl), iconPoints_read]
    generalize s.icons.map iconPoint = pts
    obtain ⟨ty, rev, only, cus, ics, x⟩ := s
    cases rev <;> cases only <;> cases ty <;> rfl

end Verif
