import Verif.Props.CondExt
/-!
C38: priorities, a demonstration, and where it is false.
-/
namespace Verif
open Spec

/-! ### Priorities -/

theorem numbered_from {α : Type} (blocks : List (Text × List α)) (n : Nat) :
    ((numbered n blocks).flatMap fun b => b.2.map Prod.fst) = List.range' n ((blocks.map fun b => b.2.length).sum) := by
  induction blocks generalizing n with
  | nil => rfl
  | cons b blocks ih =>
    obtain ⟨k, l⟩ := b
    rw [numbered, List.flatMap_cons, ih, List.map_cons, List.sum_cons]
    have e : (((List.range' n l.length).zip l).map Prod.fst) = List.range' n l.length := by
      rw [List.map_fst_zip (by simp)]
    dsimp only
    rw [e]
    have := List.range'_append (s := n) (m := l.length) (n := (blocks.map fun b => b.2.length).sum) (step := 1)
    rw [Nat.one_mul] at this
    exact this

theorem priorities_sublist (blocks : List (Text × List (Nat × FmtCall))) :
    (((blocks.filterMap blockMeant).flatMap fun b => b.2).map fun c => c.priority).Sublist
      (blocks.flatMap fun b => b.2.map Prod.fst) := by
  induction blocks with
  | nil => exact List.Sublist.slnil
  | cons b blocks ih =>
    obtain ⟨k, l⟩ := b
    have key : ((l.filter fun p => !p.2.2.kind.onlyX14).filterMap (condSeenOf k)).map (fun c => c.priority) |>.Sublist
        (l.map Prod.fst) := by
      induction l with
      | nil => exact List.Sublist.slnil
      | cons p l ihl =>
        rw [List.filter_cons, List.map_cons]
        split
        · rw [List.filterMap_cons]
          cases hs : condSeenOf k p with
          | none => exact ihl.cons _
          | some c =>
            have : c.priority = p.1 := by
              unfold condSeenOf at hs
              cases hr : ruleMeant p.2.2.kind k with
              | none => rw [hr] at hs; cases hs
              | some r => rw [hr] at hs; injection hs with hs; rw [← hs]
            rw [List.map_cons, this]
            exact ihl.cons₂ _
        · exact ihl.cons _
    rw [List.filterMap_cons, List.flatMap_cons]
    dsimp only
    unfold blockMeant at *
    dsimp only
    cases hf : l.filter fun p => !p.2.2.kind.onlyX14 with
    | nil => exact ih.trans (List.sublist_append_right _ _)
    | cons x xs =>
      dsimp only
      rw [List.flatMap_cons, List.map_append]
      rw [hf] at key
      exact key.append ih

/-- C38. The priorities of the rules are increasing from 1, so that no two rules of a worksheet have the same. -/
theorem C38_priorities (ops : List RuleOp) :
    (((condsMeant ops).flatMap fun b => b.2).map fun c => c.priority).Pairwise (· < ·) ∧
    ∀ b ∈ condsMeant ops, ∀ c ∈ b.2, 1 ≤ c.priority ∧ c.priority ≤ (legalCalls ops).length := by
  have hsub := priorities_sublist (numbered 1 (byRange (legalCalls ops)))
  rw [numbered_from] at hsub
  have hlen : ((byRange (legalCalls ops)).map fun b => b.2.length).sum ≤ (legalCalls ops).length := by
    unfold byRange
    rw [List.map_map]
    have key : ∀ (ks : List Text), ks.Nodup → ∀ (l : List FmtCall),
        (ks.map fun k => (l.filter fun p => callRange p = k).length).sum ≤ l.length := by
      intro ks
      induction ks with
      | nil => intro _ l; simp
      | cons k ks ih =>
        intro hn l
        rw [List.nodup_cons] at hn
        rw [List.map_cons, List.sum_cons]
        have h1 := ih hn.2 (l.filter fun p => ¬ callRange p = k)
        have h2 : (ks.map fun j => ((l.filter fun p => ¬ callRange p = k).filter fun p => callRange p = j).length) =
            ks.map fun j => (l.filter fun p => callRange p = j).length := by
          apply List.map_congr_left
          intro j hj
          rw [List.filter_filter]
          congr 1
          apply List.filter_congr
          intro p _
          by_cases h : callRange p = j
          · have : j ≠ k := fun e => hn.1 (e ▸ hj)
            simp [h, this]
          · simp [h]
        rw [h2] at h1
        have h3 : l.length = (l.filter fun p => callRange p = k).length + (l.filter fun p => ¬ callRange p = k).length := by
          clear h1 h2
          induction l with
          | nil => rfl
          | cons a l ihl =>
            rw [List.filter_cons, List.filter_cons]
            by_cases h : callRange a = k
            · simp only [h, decide_true, if_true, not_true_eq_false, decide_false, Bool.false_eq_true, if_false, List.length_cons]
              omega
            · simp only [h, decide_true, if_true, not_false_eq_true, decide_false, Bool.false_eq_true, if_false, List.length_cons]
              omega
        omega
    exact key _ (firsts_nodup _) _
  refine ⟨List.Pairwise.sublist hsub List.pairwise_lt_range', ?_⟩
  intro b hb c hc
  have hm : c.priority ∈ ((condsMeant ops).flatMap fun b => b.2).map fun c => c.priority :=
    List.mem_map_of_mem (f := fun c : CondSeen => c.priority) (List.mem_flatMap.mpr ⟨b, hb, hc⟩)
  have := List.mem_range'_1.mp (hsub.subset hm)
  omega

/-! ### A demonstration -/

/-- Numbers above 50 in a format. -/
def demoCell (f : Format) : CondFmt := { kind := .cell (some (.set (.cmp .greaterThan ⟨"50".toList, false⟩))), format := some f }

/-- The lowest values, stopping there. -/
def demoBottom : CondFmt := { kind := .top (.bottomPercent 10), stop := true }

/-- A data bar. -/
def demoBar : CondFmt := { kind := .bar {} }

/-- An icon set of Excel 2010. -/
def demoStars : CondFmt :=
  { kind := .icons { type := .threeStars, x14 := true,
                     icons := [{ point := ⟨.percent, "0".toList⟩ }, { point := ⟨.percent, "33".toList⟩ },
                       { point := ⟨.percent, "67".toList⟩ }] } }

/-- A sequence of calls: two rules on one range around a rule on another, a refused one, and a data bar. -/
def demoRules : List RuleOp :=
  [.cond ⟨0, 0, 9, 0⟩ (demoCell (Format.build [.setBold])), .cond ⟨0, 1, 9, 1⟩ demoBottom,
   .tableFormat (Format.build [.setItalic]), .cond ⟨5, 0, 2, 0⟩ demoBottom,
   .cond ⟨0, 0, 9, 0⟩ (demoCell (Format.build [.setItalic])), .cond ⟨0, 2, 9, 2⟩ demoBar]

/-- The calls meet the hypotheses of `C38_rules_partial` and `C38_extension_partial`. -/
example : (∀ f ∈ opFormats demoRules, Built f ∧ loneForeground f.fill = false) ∧
    (∀ p ∈ legalCalls demoRules, CondOk p.2 ∧ extOk p.2.kind = true) ∧
    ((extCalls demoRules).map Prod.fst).Pairwise (· ≤ ·) ∧ (extCalls demoRules).length = 1 := by
  have e1 : opFormats demoRules = [Format.build [.setBold], Format.build [.setItalic], Format.build [.setItalic]] := by
    decide +kernel
  have e2 : legalCalls demoRules = [(⟨0, 0, 9, 0⟩, demoCell (Format.build [.setBold])), (⟨0, 1, 9, 1⟩, demoBottom),
      (⟨0, 0, 9, 0⟩, demoCell (Format.build [.setItalic])), (⟨0, 2, 9, 2⟩, demoBar)] := by
    unfold legalCalls
    rw [show condCalls demoRules = [(⟨0, 0, 9, 0⟩, demoCell (Format.build [.setBold])), (⟨0, 1, 9, 1⟩, demoBottom),
      (⟨5, 0, 2, 0⟩, demoBottom), (⟨0, 0, 9, 0⟩, demoCell (Format.build [.setItalic])), (⟨0, 2, 9, 2⟩, demoBar)] from rfl]
    rw [List.filter_cons_of_pos (by decide +kernel), List.filter_cons_of_pos (by decide +kernel),
      List.filter_cons_of_neg (by decide +kernel), List.filter_cons_of_pos (by decide +kernel),
      List.filter_cons_of_pos (by decide +kernel), List.filter_nil]
  refine ⟨?_, ?_, by decide +kernel, by decide +kernel⟩
  · rw [e1]
    intro f hf
    simp only [List.mem_cons, List.not_mem_nil, or_false] at hf
    rcases hf with rfl | rfl | rfl
    · exact ⟨⟨[.setBold], by decide, rfl⟩, by decide +kernel⟩
    · exact ⟨⟨[.setItalic], by decide, rfl⟩, by decide +kernel⟩
    · exact ⟨⟨[.setItalic], by decide, rfl⟩, by decide +kernel⟩
  · rw [e2]
    intro p hp
    simp only [List.mem_cons, List.not_mem_nil, or_false] at hp
    rcases hp with rfl | rfl | rfl | rfl
    · exact ⟨⟨by decide +kernel, by decide +kernel, by decide +kernel, by decide +kernel⟩, by decide +kernel⟩
    · exact ⟨⟨by decide +kernel, by decide +kernel, by decide +kernel, by decide +kernel⟩, by decide +kernel⟩
    · exact ⟨⟨by decide +kernel, by decide +kernel, by decide +kernel, by decide +kernel⟩, by decide +kernel⟩
    · exact ⟨⟨by decide +kernel, by decide +kernel, by decide +kernel, by decide +kernel⟩, by decide +kernel⟩

/-- What the calls mean: the two rules on A1:A10 come first, with the priorities 1 and 2. -/
example : (condsMeant demoRules).map (fun b => (b.1, b.2.map fun c => (c.rule, c.priority, c.stop))) =
    [("A1:A10".toList, [(.cellIs .greaterThan ["50".toList], 1, false), (.cellIs .greaterThan ["50".toList], 2, false)]),
     ("B1:B10".toList, [(.top true true 10, 3, true)]),
     ("C1:C10".toList, [(.bar true ⟨"min".toList, none⟩ ⟨"max".toList, none⟩ (.rgb 0x638EC6), 4, false)])] := by
  decide +kernel

/-! ### Where it is false -/

/-- C38 is false of ranges used in another than increasing text order (F34): the data bar of B1:B10 comes first; its
rule names the id of the extended rule of A1:A10, and conversely. -/
theorem C38_link_counterexample :
    let ops : List RuleOp := [.cond ⟨0, 1, 9, 1⟩ { kind := .bar { solid := true } }, .cond ⟨0, 0, 9, 0⟩ demoBar]
    readIds (Tree.node "worksheet".toList [] (condTrees (condRun ops) [] 0)).toNode =
      [("B1:B10".toList, condGuid 0 1), ("A1:A10".toList, condGuid 0 2)] ∧
    ((readX14 (x14CondTree (condRun ops) 0).toNode).map fun l => l.map fun r => (r.1, r.2.1)) =
      some [("A1:A10".toList, condGuid 0 1), ("B1:B10".toList, condGuid 0 2)] := by
  refine ⟨by decide +kernel, by decide +kernel⟩

/-- C38 is false of the priorities in the extension list (F97): they are counted without the ranges that have no
extended rules, so that the icon set, which is the second rule, has the priority of the first one. -/
theorem C38_priority_counterexample :
    let ops : List RuleOp := [.cond ⟨0, 0, 9, 0⟩ demoBottom, .cond ⟨0, 1, 9, 1⟩ demoStars]
    ((readConds (fun _ => none) (Tree.node "worksheet".toList [] (condTrees (condRun ops) [] 0)).toNode).map fun l =>
      l.flatMap fun b => b.2.map fun c => c.priority) = some [1] ∧
    readX14Priorities (x14CondTree (condRun ops) 0).toNode = [1] := by
  refine ⟨by decide +kernel, by decide +kernel⟩

/-- An icon set with settings. -/
def demoSet (b : Bool) : CondFmt :=
  { kind := .icons { type := .threeStars, x14 := true, reversed := b, iconOnly := b,
                     icons := [{ point := ⟨.percent, "0".toList⟩ }, { point := ⟨.percent, "33".toList⟩, greaterThan := b },
                       { point := ⟨.percent, "67".toList⟩, greaterThan := b }] } }

/-- An icon set with the lowest value as a limit. -/
def demoLowest : CondFmt :=
  { kind := .icons { type := .threeStars, x14 := true,
                     icons := [{ point := ⟨.lowest, "0".toList⟩ }, { point := ⟨.percent, "33".toList⟩ },
                       { point := ⟨.percent, "67".toList⟩ }] } }

/-- C38 is false of icon sets of Excel 2010 with other settings (F103): shown in reverse, without the value, and with
limits that do not count themselves, they are written as without all that. -/
theorem C38_icons_counterexample :
    x14Meant (demoSet true).kind ≠ x14Meant (demoSet false).kind ∧
    (x14CondTree (condRun [.cond ⟨0, 0, 9, 0⟩ (demoSet true)]) 0).toNode =
      (x14CondTree (condRun [.cond ⟨0, 0, 9, 0⟩ (demoSet false)]) 0).toNode := by
  refine ⟨by decide +kernel, by rfl⟩

/-- C38 is false of icon sets of Excel 2010 with a limit that is the lowest value (F104): the limit is not written, and
two limits are left for three icons. -/
theorem C38_point_counterexample :
    CondLegal (⟨0, 0, 9, 0⟩, demoLowest) ∧
    (readX14 (x14CondTree (condRun [.cond ⟨0, 0, 9, 0⟩ demoLowest]) 0).toNode) =
      some [("A1:A10".toList, condGuid 0 1, .icons "3Stars".toList true false
        [(⟨"percent".toList, some "33".toList⟩, true), (⟨"percent".toList, some "67".toList⟩, true)] none)] := by
  refine ⟨by decide +kernel, by decide +kernel⟩

/-- C38 is false of data bars whose border for negative values has the colour of the fill, but not of the border for
positive values (F105): the border for negative values gets the colour of the other border. -/
theorem C38_border_counterexample :
    let bar : CondBar := { fill := .rgb 0xFF0000, border := .rgb 0x0000FF, negBorder := .rgb 0xFF0000 }
    (lookMeant bar).border = some (.rgb 0x0000FF, .rgb 0xFF0000) ∧
    ((readLook (treeParts (.node "x14:dataBar".toList (x14BarAttrs bar) (x14BarChildren bar)))).map fun l => l.border) =
      some (some (.rgb 0x0000FF, .rgb 0x0000FF)) := by
  refine ⟨by decide +kernel, by decide +kernel⟩

/-- C38 is false of theme colours in colour scales (F106): they are written as black. -/
theorem C38_theme_counterexample :
    let scale : CondFmt := { kind := .scale [⟨.lowest, "0".toList⟩, ⟨.highest, "0".toList⟩] [.theme 4 0, .rgb 0xFF0000] }
    ((readConds (fun _ => none) (Tree.node "worksheet".toList [] (condTrees (condRun [.cond ⟨0, 0, 9, 0⟩ scale]) [] 0)).toNode).map
      fun l => l.flatMap fun b => b.2.map fun c => c.rule) =
      some [.scale [⟨"min".toList, some "0".toList⟩, ⟨"max".toList, some "0".toList⟩] [.rgb 0, .rgb 0xFF0000]] ∧
    colorMeant (.theme 4 0) ≠ .rgb 0 := by
  refine ⟨by decide +kernel, by decide +kernel⟩

end Verif
