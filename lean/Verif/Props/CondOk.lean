import Verif.Props.CondPart
import Verif.Props.MergeRange
/-!
C38: the elements for conditional formats can be written.
-/
namespace Verif
open Spec

theorem ruleAttrs_good {type : Str} {dxf : Option Nat} {p : Nat} {stop : Bool} {extra : Attrs} (ht : attrSafe type = true)
    (hx : Extra extra) (hg : attrsGood extra) : attrsGood (ruleAttrs type dxf p stop ++ extra) := by
  have h1 : attrOk ("type".toList, type) = true := attrOk_of (by decide) ht
  have h2 : ∀ i, attrOk ("dxfId".toList, showNat i) = true := fun i => attrOk_of (by decide) (showNat_attrSafe i)
  have h3 : attrOk ("priority".toList, showNat p) = true := attrOk_of (by decide) (showNat_attrSafe p)
  have h4 : attrOk ("stopIfTrue".toList, "1".toList) = true := by decide
  have n1 := hx "type".toList (by simp)
  have n2 := hx "dxfId".toList (by simp)
  have n3 := hx "priority".toList (by simp)
  have n4 := hx "stopIfTrue".toList (by simp)
  have gs : attrsGood ((if stop = true then [("stopIfTrue".toList, "1".toList)] else []) ++ extra) ∧
      ∀ k ∈ ["type".toList, "dxfId".toList, "priority".toList],
        k ∉ ((if stop = true then [("stopIfTrue".toList, "1".toList)] else []) ++ extra).map Prod.fst := by
    cases stop
    · exact ⟨hg, fun k hk => hx k (by simp only [List.mem_cons] at hk ⊢; grind)⟩
    · refine ⟨attrsGood_cons h4 hg n4, fun k hk => ?_⟩
      simp only [if_true, List.cons_append, List.nil_append, List.map_cons, List.mem_cons, not_or]
      refine ⟨?_, hx k (by simp only [List.mem_cons] at hk ⊢; grind)⟩
      revert k; decide
  obtain ⟨gs, gn⟩ := gs
  unfold ruleAttrs
  rw [List.cons_append, List.append_assoc]
  generalize (if stop = true then [("stopIfTrue".toList, "1".toList)] else []) ++ extra = e at gs gn
  have gp : attrsGood (("priority".toList, showNat p) :: e) := attrsGood_cons h3 gs (gn _ (by simp))
  cases dxf with
  | none =>
    simp only [List.cons_append, List.nil_append]
    refine attrsGood_cons h1 gp ?_
    simp only [List.map_cons, List.mem_cons, not_or]
    exact ⟨by decide, gn _ (by simp)⟩
  | some i =>
    simp only [List.cons_append, List.nil_append]
    refine attrsGood_cons h1 (attrsGood_cons (h2 i) gp ?_) ?_
    · simp only [List.map_cons, List.mem_cons, not_or]
      exact ⟨by decide, gn _ (by simp)⟩
    · simp only [List.map_cons, List.mem_cons, not_or]
      exact ⟨by decide, by decide, gn _ (by simp)⟩

theorem ruleAttrs_good' {type : Str} {dxf : Option Nat} {p : Nat} {stop : Bool} (ht : attrSafe type = true) :
    attrsGood (ruleAttrs type dxf p stop) := by
  rw [← List.append_nil (ruleAttrs type dxf p stop)]
  exact ruleAttrs_good ht extra_nil attrsGood_nil

theorem formulaTree_ok {f : Str} (h : attrSafe f = true) : treeOk (formulaTree f) = true := attrSafe_data (by decide) h

theorem two_good {a b x y : Str} (ha : isName a = true) (hb : isName b = true) (hx : attrSafe x = true) (hy : attrSafe y = true)
    (hne : a ≠ b) : attrsGood [(a, x), (b, y)] :=
  attrsGood_cons (attrOk_of ha hx) (attrsGood_one hb hy) (by simpa using hne)

theorem scalePointTree_ok {p : CondPoint} (h : attrSafe p.value = true) : treeOk (scalePointTree p) = true := by
  unfold scalePointTree
  refine treeOk_empty (by decide) ?_
  obtain ⟨t, v⟩ := p
  cases t <;> first
    | exact attrsGood_one (by decide) h
    | exact two_good (by decide) (by decide) (by decide) h (by decide)

theorem barPointTree_ok {p : CondPoint} (h : attrSafe p.value = true) (x m : Bool) : treeOk (barPointTree p x m) = true := by
  unfold barPointTree
  refine treeOk_empty (by decide) ?_
  obtain ⟨t, v⟩ := p
  cases t <;> cases x <;> cases m <;> first
    | exact two_good (by decide) (by decide) (by decide) h (by decide)
    | exact attrsGood_one (by decide) (by decide)

theorem iconPointTree_ok {i : CondIcon} (h : attrSafe i.point.value = true) : treeOk (iconPointTree i) = true := by
  unfold iconPointTree
  refine treeOk_empty (by decide) ?_
  obtain ⟨_, _, g, ⟨t, v⟩⟩ := i
  have hv : attrOk ("val".toList, v) = true := attrOk_of (by decide) h
  have key : ∀ ty : Str, attrSafe ty = true → attrsGood ([("type".toList, ty)] ++ [("val".toList, v)] ++
      if g then [("gte".toList, "0".toList)] else []) := by
    intro ty hty
    cases g
    · exact two_good (by decide) (by decide) hty h (by decide)
    · refine attrsGood_cons (attrOk_of (by decide) hty) (attrsGood_cons hv (attrsGood_one (by decide) (by decide)) ?_) ?_ <;> simp
  cases t <;> exact key _ (by decide)

theorem condColorTree_ok {t : Str} (ht : isName t = true) (c : Color) : treeOk (condColorTree t c) = true :=
  treeOk_empty ht (attrsGood_one (by decide) (argb_safe c))

theorem cellName_safe (r : CondCellRule) : attrSafe r.name = true := by
  rcases r with ⟨op, _⟩ | _ | _
  · cases op <;> rfl
  · rfl
  · rfl

theorem iconName_safe (i : CondIcons) : attrSafe i.name = true := by cases i <;> decide

theorem iconAttrs_good (ty : CondIcons) (only rev : Bool) : attrsGood
    ((if ty = .threeTrafficLights then [] else [("iconSet".toList, ty.name)]) ++
      (if only then [("showValue".toList, "0".toList)] else []) ++
      (if rev then [("reverse".toList, "1".toList)] else [])) := by
  cases rev <;> cases only <;> cases ty <;> exact ⟨by decide, by decide⟩

theorem barExtTree_ok {guid : Str} (h : attrSafe guid = true) : treeOk (barExtTree guid) = true := by
  refine treeOk_node (by decide) attrsGood_nil (ok_single (treeOk_node (by decide) ⟨by decide, by decide⟩
    (ok_single (attrSafe_data (by decide) h))))

/-- A rule can be written. -/
theorem rule_ok {k : CondKind} {dxf : Option Nat} {p : Nat} {stop : Bool} {range guid : Str} {t : Tree}
    (ht : ∀ t ∈ kindTexts k, attrSafe t = true) (hrange : attrSafe range = true) (hg : attrSafe guid = true)
    (htree : k.rule dxf p stop range guid = some t) : treeOk t = true := by
  have ha : attrSafe (rangeToAnchor range) = true := by rw [rangeToAnchor_eq]; exact firstCell_safe hrange
  cases k with
  | cell o =>
    cases o with
    | none => cases htree
    | some c =>
      injection htree with htree; subst htree
      refine treeOk_node (by decide) (ruleAttrs_good (by decide) (by intro k hk; revert k; simp)
        (attrsGood_one (by decide) (cellName_safe c))) fun x hx => ?_
      obtain ⟨f, hf, rfl⟩ := List.mem_map.mp hx
      refine formulaTree_ok (ht f ?_)
      cases c <;> exact hf
  | blank inv =>
    injection htree with htree; subst htree
    exact treeOk_node (by decide) (ruleAttrs_good' (by cases inv <;> decide)) (ok_single (formulaTree_ok (blankFormula_safe ha inv)))
  | error inv =>
    injection htree with htree; subst htree
    exact treeOk_node (by decide) (ruleAttrs_good' (by cases inv <;> decide)) (ok_single (formulaTree_ok (errorFormula_safe ha inv)))
  | duplicate inv =>
    injection htree with htree; subst htree
    exact treeOk_empty (by decide) (ruleAttrs_good' (by cases inv <;> decide))
  | formula fo =>
    injection htree with htree; subst htree
    exact treeOk_node (by decide) (ruleAttrs_good' (by decide)) (ok_single (formulaTree_ok (ht fo (by simp [kindTexts]))))
  | average a =>
    injection htree with htree; subst htree
    refine treeOk_empty (by decide) (ruleAttrs_good (by decide) ?_ ?_)
    · cases a <;> (intro k hk; revert k; decide)
    · cases a <;> exact ⟨by decide, by decide⟩
  | top a =>
    injection htree with htree; subst htree
    refine treeOk_empty (by decide) (ruleAttrs_good (by decide) ?_ ?_)
    · cases a <;> (intro k hk; revert k; simp [CondTop.attrs])
    · cases a with
      | top n => exact attrsGood_one (by decide) (showNat_attrSafe n)
      | bottom n => exact two_good (by decide) (by decide) (by decide) (showNat_attrSafe n) (by decide)
      | topPercent n => exact two_good (by decide) (by decide) (by decide) (showNat_attrSafe n) (by decide)
      | bottomPercent n =>
        refine attrsGood_cons (by decide) (two_good (by decide) (by decide) (by decide) (showNat_attrSafe n) (by decide)) ?_
        simp
  | text o =>
    cases o with
    | none => cases htree
    | some c =>
      injection htree with htree; subst htree
      have htx : attrSafe c.text = true := ht _ (by simp [kindTexts])
      refine treeOk_node (by decide) (ruleAttrs_good (by cases c <;> rfl) (by intro k hk; revert k; simp)
        (two_good (by decide) (by decide) (by cases c <;> rfl) htx (by decide)))
        (ok_single (formulaTree_ok (condText_safe ha htx)))
  | date a =>
    injection htree with htree; subst htree
    exact treeOk_node (by decide) (ruleAttrs_good (by decide) (by intro k hk; revert k; simp)
      (attrsGood_one (by decide) (by cases a <;> decide))) (ok_single (formulaTree_ok (condDate_safe ha a)))
  | scale ps cs =>
    injection htree with htree; subst htree
    refine treeOk_node (by decide) (ruleAttrs_good' (by decide)) (ok_single (treeOk_node (by decide) attrsGood_nil
      (ok_append ?_ ?_)))
    · intro x hx
      obtain ⟨q, hq, rfl⟩ := List.mem_map.mp hx
      exact scalePointTree_ok (ht _ (List.mem_map_of_mem hq))
    · intro x hx
      obtain ⟨q, hq, rfl⟩ := List.mem_map.mp hx
      exact condColorTree_ok (by decide) q
  | bar b =>
    injection htree with htree; subst htree
    refine treeOk_node (by decide) (ruleAttrs_good' (by decide)) (ok_cons (treeOk_node (by decide)
      (by cases b.barOnly <;> exact ⟨by decide, by decide⟩)
      (ok_cons (barPointTree_ok (ht _ (by simp [kindTexts])) _ _) (ok_cons (barPointTree_ok (ht _ (by simp [kindTexts])) _ _)
        (ok_single (condColorTree_ok (by decide) _))))) (ok_ite (fun _ => ok_single (barExtTree_ok hg)) (fun _ => ok_nil)))
  | icons s =>
    injection htree with htree; subst htree
    refine treeOk_node (by decide) (ruleAttrs_good' (by decide)) (ok_single (treeOk_node (by decide) ?_ ?_))
    · exact iconAttrs_good s.type s.iconOnly s.reversed
    · intro x hx
      obtain ⟨q, hq, rfl⟩ := List.mem_map.mp hx
      exact iconPointTree_ok (ht _ (List.mem_map_of_mem (f := fun i : CondIcon => i.point.value) hq))

theorem hexUpper_safe (n : Nat) : attrSafe (hexUpper n) = true := by
  unfold hexUpper
  split
  · rename_i h; exact hexDigitUpper_safe n h
  · exact attrSafe_append (hexUpper_safe (n / 16)) (hexDigitUpper_safe _ (Nat.mod_lt _ (by decide)))
termination_by n

theorem hexPad_safe (w n : Nat) : attrSafe (hexPad w n) = true := by
  refine attrSafe_append ?_ (hexUpper_safe n)
  rw [attrSafe_mem]
  intro c hc
  rw [(List.mem_replicate.mp hc).2]; decide

theorem condGuid_safe (si n : Nat) : attrSafe (condGuid si n) = true :=
  attrSafe_append (attrSafe_append (attrSafe_append (attrSafe_append (by decide) (hexPad_safe _ _)) (by decide)) (hexPad_safe _ _))
    (by decide)

theorem condRules_ok {global : List Nat} {t : DxfTable} (si : Nat) {range : Str} (hrange : attrSafe range = true) :
    ∀ (cs : List CondStored) (st : Nat × Nat), (∀ c ∈ cs, StoredOk t c) →
      ∀ x ∈ (condRules global si range st cs).1, treeOk x = true
  | [], _, _ => by intro x hx; simp [condRules] at hx
  | c :: cs, (g, p), hok => by
    have ih := condRules_ok (global := global) si hrange cs (if c.cond.kind.hasX14 then g + 1 else g, p + 1)
      fun x hx => hok x (List.mem_cons_of_mem _ hx)
    simp only [condRules]
    refine ok_append (ok_ite (fun _ => ok_nil) fun _ => ?_) ih
    intro x hx
    have hx := Option.mem_toList.mp hx
    refine rule_ok (hok c List.mem_cons_self).ok.texts hrange ?_ hx
    split
    · exact condGuid_safe _ _
    · decide

theorem condLoop_ok {global : List Nat} {s : CondSheet} {acc : List FmtCall} (si : Nat) :
    ∀ (ks : List Str) (st : Nat × Nat), Blocks s acc ks → ∀ x ∈ condLoop s global si st ks, treeOk x = true
  | [], _, _ => by intro x hx; simp [condLoop] at hx
  | k :: ks, st, hb => by
    obtain ⟨b1, _, b3⟩ := hb k List.mem_cons_self
    simp only [condLoop]
    exact ok_append (ok_ite (fun _ => ok_nil) fun _ => ok_single (treeOk_node (by decide) (attrsGood_one (by decide) b1)
      (condRules_ok si b1 _ _ b3))) (condLoop_ok (acc := acc) si ks _ fun j hj => hb j (List.mem_cons_of_mem _ hj))

end Verif
