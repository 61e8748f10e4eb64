import Verif.Props.Cond
/-!
C38: the extension list for conditional formats.
-/
namespace Verif
open Spec

/-! ### Ids -/

/-- The number of a hexadecimal text. -/
def hexVal (s : Str) : Nat := s.foldl (fun a c => 16 * a + (if c.toNat < 58 then c.toNat - 48 else c.toNat - 55)) 0

theorem hexVal_snoc (s : Str) (c : Char) :
    hexVal (s ++ [c]) = 16 * hexVal s + (if c.toNat < 58 then c.toNat - 48 else c.toNat - 55) := by
  unfold hexVal; rw [List.foldl_append]; rfl

theorem hexDigit_val : ∀ d < 16, (if (hexDigitUpper d).toNat < 58 then (hexDigitUpper d).toNat - 48 else (hexDigitUpper d).toNat - 55) = d := by
  decide +kernel

theorem hexUpper_val (n : Nat) : hexVal (hexUpper n) = n := by
  unfold hexUpper
  split
  · rename_i h
    show hexVal ([] ++ [hexDigitUpper n]) = n
    rw [hexVal_snoc, hexDigit_val n h]; simp [hexVal]
  · rw [hexVal_snoc, hexUpper_val (n / 16), hexDigit_val _ (Nat.mod_lt _ (by decide))]
    omega
termination_by n

theorem hexPad_val (w n : Nat) : hexVal (hexPad w n) = n := by
  unfold hexPad
  have : ∀ m, hexVal (List.replicate m '0' ++ hexUpper n) = hexVal (hexUpper n) := by
    intro m
    induction m with
    | zero => rfl
    | succ m ih => rw [← ih]; rfl
  rw [this, hexUpper_val]

theorem hexUpper_chars (n : Nat) : '-' ∉ hexUpper n := by
  have key : ∀ d < 16, hexDigitUpper d ≠ '-' := by decide +kernel
  unfold hexUpper
  split
  · rename_i h; simpa using (key n h).symm
  · rw [List.mem_append, not_or]
    exact ⟨hexUpper_chars (n / 16), by simpa using (key _ (Nat.mod_lt _ (by decide))).symm⟩
termination_by n

theorem hexPad_chars (w n : Nat) : '-' ∉ hexPad w n := by
  unfold hexPad
  rw [List.mem_append, not_or]
  refine ⟨?_, hexUpper_chars n⟩
  intro h
  exact absurd (List.mem_replicate.mp h).2 (by decide)

/-- C38. The ids of extended rules are distinct, within a worksheet and between worksheets. -/
theorem C38_ids_distinct {si n sj m : Nat} (h : condGuid si n = condGuid sj m) : si = sj ∧ n = m := by
  unfold condGuid at h
  simp only [List.append_assoc] at h
  have h := List.append_cancel_left h
  have split : ∀ (a b : Str) (x y : Str), '-' ∉ a → '-' ∉ b → a ++ '-' :: x = b ++ '-' :: y → a = b ∧ x = y := by
    intro a
    induction a with
    | nil =>
      intro b x y _ hb e
      cases b with
      | nil => injection e with e1 e2; exact ⟨rfl, e2⟩
      | cons c b =>
        injection e with e1 e2
        exact absurd (by rw [← e1]; exact List.mem_cons_self) hb
    | cons c a ih =>
      intro b x y ha hb e
      cases b with
      | nil =>
        injection e with e1 e2
        exact absurd (by rw [e1]; exact List.mem_cons_self) ha
      | cons d b =>
        injection e with e1 e2
        have := ih b x y (fun h => ha (List.mem_cons_of_mem _ h)) (fun h => hb (List.mem_cons_of_mem _ h)) e2
        exact ⟨by rw [e1, this.1], this.2⟩
  obtain ⟨h1, h2⟩ := split _ _ _ _ (hexPad_chars _ _) (hexPad_chars _ _) h
  have h2 : hexPad 12 n ++ "}".toList = hexPad 12 m ++ "}".toList := h2
  have h2 := List.append_cancel_right h2
  have e1 := congrArg hexVal h1
  have e2 := congrArg hexVal h2
  rw [hexPad_val, hexPad_val] at e1 e2
  omega

/-! ### Data bars -/

/-- The attributes by the choices. -/
def barAttrs (off solid : Bool) (dir : Option Bool) (same nb : Bool) (axis : Option Bool) : Attrs :=
  [("minLength".toList, "0".toList), ("maxLength".toList, "100".toList)] ++
    (if off then [] else [("border".toList, "1".toList)]) ++
    (if solid then [("gradient".toList, "0".toList)] else []) ++
    (match dir with
      | some true => [("direction".toList, "leftToRight".toList)]
      | some false => [("direction".toList, "rightToLeft".toList)]
      | none => []) ++
    (if same then [("negativeBarColorSameAsPositive".toList, "1".toList)] else []) ++
    (if nb then [("negativeBarBorderColorSameAsPositive".toList, "0".toList)] else []) ++
    (match axis with
      | some true => [("axisPosition".toList, "middle".toList)]
      | some false => [("axisPosition".toList, "none".toList)]
      | none => [])

theorem x14BarAttrs_eq (b : CondBar) : x14BarAttrs b = barAttrs b.borderOff b.solid b.direction (decide (b.fill = b.negFill))
    (!b.borderOff && decide (b.fill ≠ b.negBorder)) b.axisPosition := by
  unfold x14BarAttrs barAttrs
  simp only [decide_eq_true_eq]
  rfl

/-- What a reader sees in the attributes. -/
theorem barAttrs_read (off solid : Bool) (dir : Option Bool) (same nb : Bool) (axis : Option Bool) :
    attrFlag "border".toList false (barAttrs off solid dir same nb axis) = some (!off) ∧
    attrFlag "negativeBarBorderColorSameAsPositive".toList true (barAttrs off solid dir same nb axis) = some (!nb) ∧
    attrFlag "negativeBarColorSameAsPositive".toList false (barAttrs off solid dir same nb axis) = some same ∧
    attrFlag "gradient".toList true (barAttrs off solid dir same nb axis) = some (!solid) ∧
    readDirection (barAttrs off solid dir same nb axis) = some dir ∧
    readBarAxis (barAttrs off solid dir same nb axis) = some axis ∧
    attrsGood (barAttrs off solid dir same nb axis) := by
  rcases dir with _ | _ | _ <;> rcases axis with _ | _ | _ <;> cases off <;> cases solid <;> cases same <;> cases nb <;>
    exact ⟨rfl, rfl, rfl, rfl, rfl, rfl, by decide, by decide⟩

theorem x14BarPoint_read {p : CondPoint} (m : Bool) (h : attrSafe p.value = true) :
    readX14Cfvo (treeParts (x14BarPointTree p m)) = some (lookPoint m p) ∧ treeTag (x14BarPointTree p m) = "x14:cfvo".toList ∧
    treeOk (x14BarPointTree p m) = true := by
  obtain ⟨t, v⟩ := p
  have key : ∀ ty : Str, attrSafe ty = true → readX14Cfvo (treeParts (.node "x14:cfvo".toList [("type".toList, ty)] [.data "xm:f".toList v []])) =
      some ⟨ty, some v⟩ ∧ treeTag (.node "x14:cfvo".toList [("type".toList, ty)] [.data "xm:f".toList v []]) = "x14:cfvo".toList ∧
      treeOk (.node "x14:cfvo".toList [("type".toList, ty)] [.data "xm:f".toList v []]) = true := by
    intro ty hty
    refine ⟨?_, rfl, treeOk_node (by decide) (attrsGood_one (by decide) hty) (ok_single (attrSafe_data (by decide) h))⟩
    unfold readX14Cfvo
    simp only [treeParts]
    rw [look_eq, child_head _ _ (by rfl)]
    simp only [Option.bind_some, treeParts, Option.map_some]
    rw [textOnly_data, escape_attrSafe h]
  cases t with
  | automatic => cases m <;> exact ⟨rfl, rfl, rfl⟩
  | lowest => exact ⟨rfl, rfl, rfl⟩
  | highest => exact ⟨rfl, rfl, rfl⟩
  | number => exact key "num".toList (by decide)
  | percent => exact key "percent".toList (by decide)
  | formula => exact key "formula".toList (by decide)
  | percentile => exact key "percentile".toList (by decide)

/-- The children by the choices. -/
def barChildren (p q : Tree) (off same nb axis : Bool) (cb cn cnb ca : Color) : List Tree :=
  [p, q] ++
    (if off then [] else [condColorTree "x14:borderColor".toList cb]) ++
    (if same then [] else [condColorTree "x14:negativeFillColor".toList cn]) ++
    (if nb then [condColorTree "x14:negativeBorderColor".toList cnb] else []) ++
    (if axis then [condColorTree "x14:axisColor".toList ca] else [])

theorem x14BarChildren_eq (b : CondBar) : x14BarChildren b = barChildren (x14BarPointTree b.min false) (x14BarPointTree b.max true)
    b.borderOff (decide (b.fill = b.negFill)) (!b.borderOff && decide (b.fill ≠ b.negBorder)) (decide (b.axisPosition ≠ some false))
    b.border b.negFill b.negBorder b.axis := by
  unfold x14BarChildren barChildren
  simp only [decide_eq_true_eq, ne_eq, ite_not]

theorem childColor_free {t : Text} {x : Tree} {ts : List Tree} (h : treeTag x ≠ t) :
    childColor t (toNodes (x :: ts)) = childColor t (toNodes ts) := by
  unfold childColor; rw [child_skip _ _ h]

theorem childColor_head {t : Text} {c : Color} {ts : List Tree} (h : plainColor c = true) :
    childColor t (toNodes (condColorTree t c :: ts)) = some (colorMeant c) := by
  unfold childColor
  rw [child_head _ _ (by rfl), Option.bind_some]
  exact plainColor_read h

theorem barChildren_read {p q : Tree} (hp : treeTag p = "x14:cfvo".toList) (hq : treeTag q = "x14:cfvo".toList)
    (off same nb axis : Bool) {cb cn cnb ca : Color} (h1 : plainColor cb = true) (h2 : plainColor cn = true)
    (h3 : plainColor cnb = true) (h4 : plainColor ca = true) :
    elems "x14:cfvo".toList (toNodes (barChildren p q off same nb axis cb cn cnb ca)) = [treeParts p, treeParts q] ∧
    childColor "x14:borderColor".toList (toNodes (barChildren p q off same nb axis cb cn cnb ca)) =
      (if off then none else some (colorMeant cb)) ∧
    childColor "x14:negativeFillColor".toList (toNodes (barChildren p q off same nb axis cb cn cnb ca)) =
      (if same then none else some (colorMeant cn)) ∧
    childColor "x14:negativeBorderColor".toList (toNodes (barChildren p q off same nb axis cb cn cnb ca)) =
      (if nb then some (colorMeant cnb) else none) ∧
    childColor "x14:axisColor".toList (toNodes (barChildren p q off same nb axis cb cn cnb ca)) =
      (if axis then some (colorMeant ca) else none) := by
  have tc : ∀ (t : Text) (c : Color), treeTag (condColorTree t c) = t := fun _ _ => rfl
  refine ⟨?_, ?_, ?_, ?_, ?_⟩
  · rw [elems_trees]
    unfold barChildren
    cases off <;> cases same <;> cases nb <;> cases axis <;>
      (simp only [List.cons_append, List.nil_append, Bool.false_eq_true, if_false, if_true, List.filter_cons, hp, hq, tc]; simp)
  all_goals
    unfold barChildren
    rw [List.append_assoc, List.append_assoc, List.append_assoc, List.cons_append, List.cons_append, List.nil_append,
      childColor_free (by rw [hp]; decide), childColor_free (by rw [hq]; decide)]
    cases off <;> cases same <;> cases nb <;> cases axis <;>
      (simp only [List.cons_append, List.nil_append, Bool.false_eq_true, if_false, if_true]
       repeat rw [childColor_free (by rw [tc]; decide)]
       first | rfl | (rw [childColor_head (by assumption)]))

/-- A data bar, read back. -/
theorem readLook_bar {b : CondBar} (ht : ∀ t ∈ kindTexts (.bar b), attrSafe t = true)
    (hc : ∀ x ∈ kindColors (.bar b), plainColor x = true) (hx : extOk (.bar b) = true) :
    readLook (x14BarAttrs b, toNodes (x14BarChildren b)) = some (lookMeant b) ∧
    attrsGood (x14BarAttrs b) ∧ ∀ x ∈ x14BarChildren b, treeOk x = true := by
  obtain ⟨p1, p2, p3⟩ := x14BarPoint_read (p := b.min) false (ht _ (by simp [kindTexts]))
  obtain ⟨q1, q2, q3⟩ := x14BarPoint_read (p := b.max) true (ht _ (by simp [kindTexts]))
  have hx' : (b.borderOff || decide (b.fill ≠ b.negBorder) || decide (b.border = b.negBorder)) = true := hx
  have c1 : plainColor b.border = true := hc _ (by simp [kindColors])
  have c2 : plainColor b.negFill = true := hc _ (by simp [kindColors])
  have c3 : plainColor b.negBorder = true := hc _ (by simp [kindColors])
  have c4 : plainColor b.axis = true := hc _ (by simp [kindColors])
  rw [x14BarAttrs_eq, x14BarChildren_eq]
  obtain ⟨a1, a2, a3, a4, a5, a6, a7⟩ := barAttrs_read b.borderOff b.solid b.direction (decide (b.fill = b.negFill))
    (!b.borderOff && decide (b.fill ≠ b.negBorder)) b.axisPosition
  obtain ⟨k1, k2, k3, k4, k5⟩ := barChildren_read p2 q2 b.borderOff (decide (b.fill = b.negFill))
    (!b.borderOff && decide (b.fill ≠ b.negBorder)) (decide (b.axisPosition ≠ some false)) c1 c2 c3 c4
  refine ⟨?_, a7, ?_⟩
  · unfold readLook readBarBorder readNegFill
    dsimp only
    rw [a1, a2, a3, a4, a5, a6, k1, k2, k3, k4, k5]
    simp only [List.mapM_cons, List.mapM_nil, p1, q1, Option.bind_eq_bind, Option.bind_some, Option.pure_def]
    unfold lookMeant
    cases ho : b.borderOff with
    | true =>
      by_cases hs : b.fill = b.negFill <;> by_cases ha : b.axisPosition = some false <;> simp [hs, ha]
    | false =>
      rw [ho] at hx'
      by_cases hn : b.fill = b.negBorder
      · have hb : b.border = b.negBorder := by simpa [hn] using hx'
        by_cases hs : b.fill = b.negFill <;> by_cases ha : b.axisPosition = some false <;> simp_all
      · by_cases hs : b.fill = b.negFill <;> by_cases ha : b.axisPosition = some false <;> simp_all
  · unfold barChildren
    exact ok_append (ok_append (ok_append (ok_append (ok_cons p3 (ok_single q3)) (ok_ite (fun _ => ok_nil)
      fun _ => ok_single (condColorTree_ok (by decide) _))) (ok_ite (fun _ => ok_nil)
      fun _ => ok_single (condColorTree_ok (by decide) _))) (ok_ite (fun _ => ok_single (condColorTree_ok (by decide) _))
      fun _ => ok_nil)) (ok_ite (fun _ => ok_single (condColorTree_ok (by decide) _)) fun _ => ok_nil)

/-! ### Icon sets -/

theorem iconAttrs14 (ty : CondIcons) (cus : Bool) :
    attrFlag "showValue".toList true ((if ty = .threeTrafficLights then [] else [("iconSet".toList, ty.name)]) ++
      (if cus then [("custom".toList, "1".toList)] else [])) = some true ∧
    attrFlag "reverse".toList false ((if ty = .threeTrafficLights then [] else [("iconSet".toList, ty.name)]) ++
      (if cus then [("custom".toList, "1".toList)] else [])) = some false ∧
    attrFlag "custom".toList false ((if ty = .threeTrafficLights then [] else [("iconSet".toList, ty.name)]) ++
      (if cus then [("custom".toList, "1".toList)] else [])) = some cus ∧
    (List.lookup "iconSet".toList ((if ty = .threeTrafficLights then [] else [("iconSet".toList, ty.name)]) ++
      (if cus then [("custom".toList, "1".toList)] else []))).getD "3TrafficLights1".toList = iconSetName ty ∧
    attrsGood ((if ty = .threeTrafficLights then [] else [("iconSet".toList, ty.name)]) ++
      (if cus then [("custom".toList, "1".toList)] else [])) := by
  cases cus <;> cases ty <;> exact ⟨rfl, rfl, rfl, rfl, by decide, by decide⟩

theorem x14IconPoint_read {i : CondIcon} (hv : attrSafe i.point.value = true) (hg : i.greaterThan = false)
    (ht : i.point.type ∈ [CondType.number, .percent, .formula, .percentile]) :
    ∃ t, x14IconPointTree i = [t] ∧ treeTag t = "x14:cfvo".toList ∧ treeOk t = true ∧
      readX14IconCfvo (treeParts t) = some (iconPoint i) := by
  obtain ⟨ic, no, g, ⟨t, v⟩⟩ := i
  dsimp only at hg hv ht
  subst hg
  have key : ∀ ty : Str, attrSafe ty = true →
      treeTag (.node "x14:cfvo".toList [("type".toList, ty)] [.data "xm:f".toList v []]) = "x14:cfvo".toList ∧
      treeOk (.node "x14:cfvo".toList [("type".toList, ty)] [.data "xm:f".toList v []]) = true ∧
      readX14IconCfvo (treeParts (.node "x14:cfvo".toList [("type".toList, ty)] [.data "xm:f".toList v []])) =
      some (⟨ty, some v⟩, true) := by
    intro ty hty
    refine ⟨rfl, treeOk_node (by decide) (attrsGood_one (by decide) hty) (ok_single (attrSafe_data (by decide) hv)), ?_⟩
    unfold readX14IconCfvo readX14Cfvo
    simp only [treeParts]
    rw [look_eq, child_head _ _ (by rfl)]
    simp only [Option.bind_some, treeParts, Option.map_some]
    rw [textOnly_data, escape_attrSafe hv]
    rfl
  cases t with
  | number => exact ⟨_, rfl, key "num".toList (by decide)⟩
  | percent => exact ⟨_, rfl, key "percent".toList (by decide)⟩
  | formula => exact ⟨_, rfl, key "formula".toList (by decide)⟩
  | percentile => exact ⟨_, rfl, key "percentile".toList (by decide)⟩
  | _ => simp at ht

theorem x14IconPoints_read {is : List CondIcon} (hv : ∀ i ∈ is, attrSafe i.point.value = true)
    (hx : (is.all fun i => !i.greaterThan && decide (i.point.type ∈ [CondType.number, .percent, .formula, .percentile])) = true) :
    (∀ t ∈ is.flatMap x14IconPointTree, treeTag t = "x14:cfvo".toList ∧ treeOk t = true) ∧
    ((is.flatMap x14IconPointTree).map treeParts).mapM readX14IconCfvo = some (is.map iconPoint) := by
  induction is with
  | nil => exact ⟨by simp, rfl⟩
  | cons i is ih =>
    rw [List.all_cons, Bool.and_eq_true, Bool.and_eq_true] at hx
    obtain ⟨t, h1, h2, h3, h4⟩ := x14IconPoint_read (hv i List.mem_cons_self) (by simpa using hx.1.1) (of_decide_eq_true hx.1.2)
    obtain ⟨i1, i2⟩ := ih (fun j hj => hv j (List.mem_cons_of_mem _ hj)) hx.2
    rw [List.flatMap_cons, h1, List.singleton_append]
    refine ⟨?_, ?_⟩
    · intro x hx
      rcases List.mem_cons.mp hx with rfl | hx
      · exact ⟨h2, h3⟩
      · exact i1 x hx
    · rw [List.map_cons, List.mapM_cons, h4, i2]; rfl

theorem customIcons_read (ty : CondIcons) (is : List CondIcon) (n : Nat) :
    (∀ t ∈ x14CustomIcons ty n is, treeTag t = "x14:cfIcon".toList ∧ treeOk t = true) ∧
    ((x14CustomIcons ty n is).map treeParts).mapM readCfIcon = some ((is.zipIdx n).map fun p => customIcon ty p.2 p.1) := by
  induction is generalizing n with
  | nil => exact ⟨by simp [x14CustomIcons], rfl⟩
  | cons i is ih =>
    obtain ⟨i1, i2⟩ := ih (n + 1)
    have key : ∀ (nm : Str) (m : Nat), attrSafe nm = true →
        treeOk (.empty "x14:cfIcon".toList [("iconSet".toList, nm), ("iconId".toList, showNat m)]) = true ∧
        readCfIcon ([("iconSet".toList, nm), ("iconId".toList, showNat m)], []) = some (nm, m) := by
      intro nm m h
      refine ⟨treeOk_empty (by decide) (two_good (by decide) (by decide) h (showNat_attrSafe m) (by decide)), ?_⟩
      unfold readCfIcon attrNat
      dsimp only
      rw [look_eq, look_ne (by decide), look_eq, Option.bind_some, readNat_showNat]
    have hd : ∃ as, x14CustomIcons ty n (i :: is) = .empty "x14:cfIcon".toList as :: x14CustomIcons ty (n + 1) is ∧
        treeOk (.empty "x14:cfIcon".toList as) = true ∧ readCfIcon (as, []) = some (customIcon ty n i) := by
      refine ⟨_, rfl, ?_⟩
      unfold customIcon
      cases i.noIcon with
      | true =>
        simp only [if_true]
        have := key "NoIcons".toList 0 (by decide)
        rwa [show showNat 0 = "0".toList from by decide +kernel] at this
      | false =>
        simp only [Bool.false_eq_true, if_false]
        cases i.icon with
        | none => rw [← iconSetName_eq]; exact key ty.name n (iconName_safe ty)
        | some q =>
          show _ ∧ _ = some (iconSetName q.1, q.2)
          rw [← iconSetName_eq]; exact key q.1.name q.2 (iconName_safe q.1)
    obtain ⟨as, e, o, r⟩ := hd
    rw [e]
    refine ⟨?_, ?_⟩
    · intro x hx
      rcases List.mem_cons.mp hx with rfl | hx
      · exact ⟨rfl, o⟩
      · exact i1 x hx
    · rw [List.map_cons, List.mapM_cons, i2]
      simp only [treeParts]
      rw [r]; rfl

theorem readIcons14 {s : CondIconSet} (ht : ∀ t ∈ kindTexts (.icons s), attrSafe t = true) (hx : extOk (.icons s) = true) :
    readX14Icons ((if s.type = .threeTrafficLights then [] else [("iconSet".toList, s.type.name)]) ++
          (if s.custom then [("custom".toList, "1".toList)] else []),
        toNodes (s.icons.flatMap x14IconPointTree ++ if s.custom then x14CustomIcons s.type 0 s.icons else [])) =
      x14Meant (.icons s) ∧
    ∀ t ∈ s.icons.flatMap x14IconPointTree ++ (if s.custom then x14CustomIcons s.type 0 s.icons else []), treeOk t = true := by
  simp only [extOk, Bool.and_eq_true, Bool.not_eq_true'] at hx
  obtain ⟨⟨x1, x2⟩, x3⟩ := hx
  obtain ⟨p1, p2⟩ := x14IconPoints_read (is := s.icons)
    (fun i hi => ht _ (List.mem_map_of_mem (f := fun i : CondIcon => i.point.value) hi)) (by simpa using x3)
  obtain ⟨q1, q2⟩ := customIcons_read s.type s.icons 0
  obtain ⟨a1, a2, a3, a4, _⟩ := iconAttrs14 s.type s.custom
  have hq : ∀ t ∈ (if s.custom then x14CustomIcons s.type 0 s.icons else []), treeTag t = "x14:cfIcon".toList ∧ treeOk t = true := by
    cases s.custom
    · simp
    · exact q1
  refine ⟨?_, ok_append (fun t h => (p1 t h).2) (fun t h => (hq t h).2)⟩
  have f1 : (s.icons.flatMap x14IconPointTree ++ (if s.custom then x14CustomIcons s.type 0 s.icons else [])).filter
      (fun x => decide (treeTag x = "x14:cfvo".toList)) = s.icons.flatMap x14IconPointTree := by
    rw [List.filter_append, List.filter_eq_self.mpr (fun t h => by rw [(p1 t h).1]; rfl),
      List.filter_eq_nil_iff.mpr (fun t h => by rw [(hq t h).1]; decide), List.append_nil]
  have f2 : (s.icons.flatMap x14IconPointTree ++ (if s.custom then x14CustomIcons s.type 0 s.icons else [])).filter
      (fun x => decide (treeTag x = "x14:cfIcon".toList)) = (if s.custom then x14CustomIcons s.type 0 s.icons else []) := by
    rw [List.filter_append, List.filter_eq_nil_iff.mpr (fun t h => by rw [(p1 t h).1]; decide), List.nil_append,
      List.filter_eq_self.mpr (fun t h => by rw [(hq t h).1]; rfl)]
  unfold readX14Icons readCustom
  dsimp only
  rw [a1, a2, a3, a4, elems_trees, elems_trees, f1, f2, p2]
  unfold x14Meant
  dsimp only
  rw [x1, x2]
  cases s.custom with
  | false => rfl
  | true =>
    simp only [if_true]
    rw [q2]
    rfl

/-! ### Extended rules -/

theorem x14Rule_read {k : CondKind} (hx14 : k.hasX14 = true) (ht : ∀ t ∈ kindTexts k, attrSafe t = true)
    (hc : ∀ x ∈ kindColors k, plainColor x = true) (hx : extOk k = true) (p : Nat) {guid : Str} (hg : attrSafe guid = true) :
    ∃ t m, k.x14Rule p guid = [t] ∧ x14Meant k = some m ∧ treeTag t = "x14:cfRule".toList ∧ treeOk t = true ∧
      readX14Rule (treeParts t) = some (guid, m) := by
  cases k with
  | bar b =>
    obtain ⟨h1, h2, h3⟩ := readLook_bar ht hc hx
    refine ⟨_, .bar (lookMeant b), rfl, rfl, rfl, treeOk_node (by decide)
      (two_good (by decide) (by decide) (by decide) hg (by decide)) (ok_single (treeOk_node (by decide) h2 h3)), ?_⟩
    unfold readX14Rule
    simp only [treeParts]
    rw [look_ne (by decide), look_eq, look_eq, Option.bind_some,
      show ∀ ks, readX14Kind "dataBar".toList ks = (child "x14:dataBar".toList ks).bind fun e => (readLook e).map .bar from
        fun _ => rfl, child_head _ _ (by rfl), Option.bind_some]
    simp only [treeParts]
    rw [h1]; rfl
  | icons s =>
    obtain ⟨h1, h2⟩ := readIcons14 ht hx
    have hg3 : attrsGood [("type".toList, "iconSet".toList), ("priority".toList, showNat p), ("id".toList, guid)] :=
      attrsGood_cons (by decide) (two_good (by decide) (by decide) (showNat_attrSafe p) hg (by decide)) (by simp)
    refine ⟨_, _, rfl, rfl, rfl, treeOk_node (by decide) hg3
      (ok_single (treeOk_node (by decide) (iconAttrs14 s.type s.custom).2.2.2.2 h2)), ?_⟩
    unfold readX14Rule
    simp only [treeParts]
    rw [look_ne (by decide), look_ne (by decide), look_eq, look_eq, Option.bind_some,
      show ∀ ks, readX14Kind "iconSet".toList ks = (child "x14:iconSet".toList ks).bind readX14Icons from
        fun _ => rfl, child_head _ _ (by rfl), Option.bind_some]
    simp only [treeParts]
    rw [h1]; rfl
  | _ => cases hx14

/-- The ids that follow a number. -/
def idsFrom (si g n : Nat) : List Text := (List.range' g n).map (condGuid si)

/-- The calls of a range with extended rules, with the range. -/
def rangeExt (k : Text) (l : List FmtCall) : List (Text × FmtCall) :=
  (l.filter fun p => p.2.kind.hasX14).map fun p => (k, p)

theorem idsFrom_succ (si g n : Nat) : idsFrom si g (n + 1) = condGuid si g :: idsFrom si (g + 1) n := by
  unfold idsFrom; rw [List.range'_succ]; rfl

theorem idsFrom_add (si g m n : Nat) : idsFrom si g (m + n) = idsFrom si g m ++ idsFrom si (g + m) n := by
  unfold idsFrom
  rw [← List.map_append]
  congr 1
  have := List.range'_append (s := g) (m := m) (n := n) (step := 1)
  rw [Nat.one_mul] at this
  exact this.symm

theorem idsFrom_length (si g n : Nat) : (idsFrom si g n).length = n := by simp [idsFrom]

theorem x14Rules_read {t : DxfTable} (si : Nat) (k : Str) :
    ∀ (cs : List CondStored) (l : List FmtCall) (g p : Nat), cs.map (·.cond) = l.map (·.2) → (∀ c ∈ cs, StoredOk t c) →
      (∀ c ∈ cs, extOk c.cond.kind = true) →
      (∀ x ∈ (x14Rules si (g, p) cs).1, treeTag x = "x14:cfRule".toList ∧ treeOk x = true) ∧
      (∃ rs, ((x14Rules si (g, p) cs).1.map treeParts).mapM readX14Rule = some rs ∧
        ((rangeExt k l).zip (idsFrom si g (rangeExt k l).length)).mapM extSeen = some (rs.map fun r => (k, r))) ∧
      (x14Rules si (g, p) cs).2.1 = g + (rangeExt k l).length
  | [], l, g, p, h, _, _ => by
    have : l = [] := by cases l with
      | nil => rfl
      | cons a l => cases h
    subst this
    exact ⟨by simp [x14Rules], ⟨[], rfl, rfl⟩, rfl⟩
  | c :: cs, [], g, p, h, _, _ => by cases h
  | c :: cs, a :: l, g, p, h, hok, hx => by
    simp only [List.map_cons, List.cons.injEq] at h
    have ih := x14Rules_read si k cs l (if c.cond.kind.hasX14 then g + 1 else g) (p + 1) h.2
      (fun x hx => hok x (List.mem_cons_of_mem _ hx)) (fun x hx' => hx x (List.mem_cons_of_mem _ hx'))
    obtain ⟨i1, ⟨rs, i2, i3⟩, i4⟩ := ih
    have hc := hok c List.mem_cons_self
    simp only [x14Rules]
    unfold rangeExt
    rw [List.filter_cons, ← h.1]
    cases hh : c.cond.kind.hasX14 with
    | false =>
      rw [hh] at i1 i2 i3 i4
      simp only [Bool.false_eq_true, if_false, List.nil_append] at i1 i2 i3 i4 ⊢
      exact ⟨i1, ⟨rs, i2, i3⟩, i4⟩
    | true =>
      rw [hh] at i1 i2 i3 i4
      simp only [if_true] at i1 i2 i3 i4 ⊢
      obtain ⟨x, m, h1, h2, h3, h4, h5⟩ := x14Rule_read hh hc.ok.texts hc.ok.colors (hx c List.mem_cons_self) p (condGuid_safe si g)
      rw [h1, List.singleton_append]
      refine ⟨?_, ⟨(condGuid si g, m) :: rs, ?_, ?_⟩, ?_⟩
      · intro y hy
        rcases List.mem_cons.mp hy with rfl | hy
        · exact ⟨h3, h4⟩
        · exact i1 y hy
      · rw [List.map_cons, List.mapM_cons, h5, i2]; rfl
      · rw [List.map_cons, List.length_cons, idsFrom_succ, List.zip_cons_cons, List.mapM_cons]
        unfold rangeExt at i3
        rw [i3]
        unfold extSeen
        dsimp only
        rw [← h.1, h2]
        rfl
      · rw [i4, List.map_cons, List.length_cons]
        unfold rangeExt
        omega

theorem mapM_zip_append {α β γ : Type} (f : α × β → Option γ) {a a' : List α} {b b' : List β} (h : a.length = b.length) :
    ((a ++ a').zip (b ++ b')).mapM f = (do let x ← (a.zip b).mapM f; let y ← (a'.zip b').mapM f; pure (x ++ y)) := by
  rw [List.zip_append h, List.mapM_append]

theorem x14Loop_read {s : CondSheet} {acc : List FmtCall} (si : Nat) :
    ∀ (fm : List (Str × List CondStored)) (g p : Nat),
      (∀ e ∈ fm, attrSafe e.1 = true ∧ e.2.map (·.cond) = (acc.filter fun c => callRange c = e.1).map (·.2) ∧
        (∀ c ∈ e.2, StoredOk s.dxf c) ∧ ∀ c ∈ e.2, extOk c.cond.kind = true) →
      (∀ x ∈ x14Loop si (g, p) fm, treeTag x = "x14:conditionalFormatting".toList ∧ treeOk x = true) ∧
      ∃ bs, ((x14Loop si (g, p) fm).map treeParts).mapM readX14Block = some bs ∧
        (((fm.map Prod.fst).flatMap fun k => rangeExt k (acc.filter fun c => callRange c = k)).zip
          (idsFrom si g ((fm.map Prod.fst).flatMap fun k => rangeExt k (acc.filter fun c => callRange c = k)).length)).mapM extSeen =
          some bs.flatten
  | [], g, p, _ => ⟨by simp [x14Loop], [], rfl, rfl⟩
  | (k, cs) :: fm, g, p, hb => by
    obtain ⟨b1, b2, b3, b4⟩ := hb (k, cs) List.mem_cons_self
    dsimp only at b1 b2 b3 b4
    obtain ⟨r1, ⟨rs, r2, r3⟩, r4⟩ := x14Rules_read si k cs _ g p b2 b3 b4
    have hany : (cs.any fun c => c.cond.kind.hasX14) = (acc.filter fun c => callRange c = k).any fun c => c.2.kind.hasX14 := by
      have e3 : ∀ (l : List CondStored), (l.any fun c => c.cond.kind.hasX14) = (l.map (·.cond)).any fun c => c.kind.hasX14 := by
        intro l; rw [List.any_map]; rfl
      rw [e3, b2, List.any_map]; rfl
    simp only [x14Loop]
    rw [List.map_cons, List.flatMap_cons]
    cases ha : (cs.any fun c => c.cond.kind.hasX14) with
    | false =>
      obtain ⟨i1, i2⟩ := x14Loop_read (acc := acc) si fm g p fun e he => hb e (List.mem_cons_of_mem _ he)
      simp only [Bool.false_eq_true, if_false]
      have hnil : rangeExt k (acc.filter fun c => callRange c = k) = [] := by
        unfold rangeExt
        rw [List.filter_eq_nil_iff.mpr, List.map_nil]
        rw [hany] at ha
        exact fun p hp => List.any_eq_false.mp ha p hp
      rw [hnil, List.nil_append]
      exact ⟨i1, i2⟩
    | true =>
      simp only [if_true]
      have e2 : (x14Rules si (g, p) cs).2 = (g + (rangeExt k (acc.filter fun c => callRange c = k)).length, (x14Rules si (g, p) cs).2.2) := by
        rw [← r4]
      rw [e2]
      obtain ⟨i1, bs, i2, i3⟩ := x14Loop_read (acc := acc) si fm (g + (rangeExt k (acc.filter fun c => callRange c = k)).length)
        (x14Rules si (g, p) cs).2.2 fun e he => hb e (List.mem_cons_of_mem _ he)
      generalize rangeExt k (acc.filter fun c => callRange c = k) = xs at *
      refine ⟨?_, (rs.map fun r => (k, r)) :: bs, ?_, ?_⟩
      · intro y hy
        rcases List.mem_cons.mp hy with rfl | hy
        · exact ⟨rfl, treeOk_node (by decide) ⟨by decide, by decide⟩ (ok_append (fun x hx => (r1 x hx).2)
            (ok_single (attrSafe_data (by decide) b1)))⟩
        · exact i1 y hy
      · have hblk : readX14Block (treeParts (.node "x14:conditionalFormatting".toList
            [("xmlns:xm".toList, "http://schemas.microsoft.com/office/excel/2006/main".toList)]
            ((x14Rules si (g, p) cs).1 ++ [.data "xm:sqref".toList k []]))) = some (rs.map fun r => (k, r)) := by
          unfold readX14Block
          simp only [treeParts]
          have f1 : ((x14Rules si (g, p) cs).1 ++ [Tree.data "xm:sqref".toList k []]).filter
              (fun x => decide (treeTag x = "x14:cfRule".toList)) = (x14Rules si (g, p) cs).1 := by
            rw [List.filter_append, List.filter_eq_self.mpr (fun t h => by rw [(r1 t h).1]; rfl)]
            simp [treeTag]
          rw [elems_trees, f1, r2, child_trees, List.find?_append, List.find?_eq_none.mpr (fun t h => by rw [(r1 t h).1]; decide)]
          simp only [Option.none_or]
          rw [List.find?_cons_of_pos (by rfl)]
          simp only [Option.map_some, Option.bind_some, treeParts]
          rw [textOnly_data, escape_attrSafe b1]
        rw [List.map_cons, List.mapM_cons, hblk, i2]
        rfl
      · rw [List.length_append, idsFrom_add, mapM_zip_append _ (idsFrom_length _ _ _).symm, r3, i3]
        rfl

/-! ### The ids in the rules -/

theorem child_find_none {t : Text} {ts : List Tree} (h : ∀ x ∈ ts, treeTag x ≠ t) : child t (toNodes ts) = none := by
  rw [child_trees, List.find?_eq_none.mpr (fun x hx => by simpa using h x hx)]; rfl

theorem rule_extId {k : CondKind} {dxf : Option Nat} {p : Nat} {stop : Bool} {range guid : Str} {t : Tree}
    (ho : k.onlyX14 = false) (hg : attrSafe guid = true) (htree : k.rule dxf p stop range guid = some t) :
    readExtId (treeParts t).2 = if k.hasX14 then some guid else none := by
  have none1 : ∀ x : Tree, treeTag x ≠ "extLst".toList → readExtId (toNodes [x]) = none := by
    intro x hx
    unfold readExtId
    rw [child_find_none (by simpa using hx)]; rfl
  cases k with
  | cell o =>
    cases o with
    | none => cases htree
    | some c =>
      injection htree with htree; subst htree
      simp only [treeParts]
      unfold readExtId
      rw [child_find_none]
      · rfl
      · intro x hx
        obtain ⟨f, _, rfl⟩ := List.mem_map.mp hx
        simp [formulaTree, treeTag]
  | text o =>
    cases o with
    | none => cases htree
    | some c => injection htree with htree; subst htree; exact none1 _ (by simp [formulaTree, treeTag])
  | blank i => injection htree with htree; subst htree; exact none1 _ (by simp [formulaTree, treeTag])
  | error i => injection htree with htree; subst htree; exact none1 _ (by simp [formulaTree, treeTag])
  | duplicate i => injection htree with htree; subst htree; rfl
  | formula f => injection htree with htree; subst htree; exact none1 _ (by simp [formulaTree, treeTag])
  | average a => injection htree with htree; subst htree; rfl
  | top a => injection htree with htree; subst htree; rfl
  | date a => injection htree with htree; subst htree; exact none1 _ (by simp [formulaTree, treeTag])
  | scale ps cs => injection htree with htree; subst htree; exact none1 _ (by simp [treeTag])
  | icons s =>
    injection htree with htree; subst htree
    rw [show (CondKind.icons s).hasX14 = false from ho]
    exact none1 _ (by simp [treeTag])
  | bar b =>
    injection htree with htree; subst htree
    simp only [treeParts]
    rw [show (CondKind.bar b).hasX14 = b.x14 from rfl]
    cases b.x14 with
    | false =>
      simp only [Bool.false_eq_true, if_false]
      exact none1 _ (by simp [treeTag])
    | true =>
      simp only [if_true]
      unfold readExtId barExtTree
      rw [child_skip _ _ (by simp [treeTag]), child_head _ _ (by rfl)]
      simp only [Option.bind_some, treeParts]
      rw [child_head _ _ (by rfl)]
      simp only [Option.bind_some, treeParts]
      rw [child_head _ _ (by rfl)]
      simp only [Option.bind_some, treeParts]
      rw [textOnly_data, escape_attrSafe hg]

/-- The rules that are not only in the extension list, with the ids. -/
def linked (l : List ((Text × FmtCall) × Text)) : List (Text × Text) :=
  (l.filter fun q => !q.1.2.2.kind.onlyX14).map fun q => (q.1.1, q.2)

theorem condRules_ids {global : List Nat} {t : DxfTable} (si : Nat) {range : Str} :
    ∀ (cs : List CondStored) (l : List FmtCall) (g p : Nat), cs.map (·.cond) = l.map (·.2) → (∀ c ∈ cs, StoredOk t c) →
      (((condRules global si range (g, p) cs).1.map treeParts).filterMap (fun r => readExtId r.2)).map (fun i => (range, i)) =
        linked ((rangeExt range l).zip (idsFrom si g (rangeExt range l).length)) ∧
      (condRules global si range (g, p) cs).2.1 = g + (rangeExt range l).length
  | [], l, g, p, h, _ => by
    have : l = [] := by cases l with
      | nil => rfl
      | cons a l => cases h
    subst this
    exact ⟨rfl, rfl⟩
  | c :: cs, [], g, p, h, _ => by cases h
  | c :: cs, a :: l, g, p, h, hok => by
    simp only [List.map_cons, List.cons.injEq] at h
    obtain ⟨i1, i2⟩ := condRules_ids (global := global) (range := range) si cs l (if c.cond.kind.hasX14 then g + 1 else g) (p + 1) h.2
      fun x hx => hok x (List.mem_cons_of_mem _ hx)
    have hc := hok c List.mem_cons_self
    simp only [condRules]
    rw [List.map_append, List.filterMap_append, List.map_append, i1, i2]
    unfold rangeExt
    rw [List.filter_cons, ← h.1]
    have hsub : c.cond.kind.onlyX14 = true → c.cond.kind.hasX14 = true := by
      cases c.cond.kind <;> intro h <;> first | cases h | exact h
    cases ho : c.cond.kind.onlyX14 with
    | true =>
      rw [hsub ho]
      simp only [if_true, List.map_nil, List.filterMap_nil, List.nil_append, List.map_cons, List.length_cons]
      rw [idsFrom_succ, List.zip_cons_cons]
      refine ⟨?_, by omega⟩
      conv => rhs; unfold linked
      rw [List.filter_cons_of_neg (by dsimp only; rw [← h.1, ho]; decide)]
      rfl
    | false =>
      simp only [Bool.false_eq_true, if_false]
      obtain ⟨x, r, h1, _, _⟩ := rule_some hc.valid (c.dxf.bind fun i => global[i]?) p c.cond.stop range
        (if c.cond.kind.hasX14 then condGuid si g else [])
      have hx := rule_extId ho (by split; exact condGuid_safe _ _; decide) h1
      rw [h1]
      simp only [Option.toList_some, List.map_cons, List.map_nil, List.filterMap_cons, List.filterMap_nil]
      rw [hx]
      cases hh : c.cond.kind.hasX14 with
      | false =>
        simp only [Bool.false_eq_true, if_false, List.map_nil, List.nil_append]
        exact ⟨trivial, trivial⟩
      | true =>
        simp only [if_true, List.map_cons, List.map_nil, List.length_cons]
        rw [idsFrom_succ, List.zip_cons_cons]
        refine ⟨?_, by omega⟩
        conv => rhs; unfold linked
        rw [List.filter_cons_of_pos (by dsimp only; rw [← h.1, ho]; decide)]
        rfl

theorem linked_append (a b : List ((Text × FmtCall) × Text)) : linked (a ++ b) = linked a ++ linked b := by
  simp [linked]

theorem condLoop_ids {global : List Nat} {s : CondSheet} {acc : List FmtCall} (si : Nat) :
    ∀ (ks : List Str) (g p : Nat), Blocks s acc ks →
      ((condLoop s global si (g, p) ks).map treeParts).flatMap blockIds =
        linked ((ks.flatMap fun k => rangeExt k (acc.filter fun c => callRange c = k)).zip
          (idsFrom si g (ks.flatMap fun k => rangeExt k (acc.filter fun c => callRange c = k)).length))
  | [], g, p, _ => rfl
  | k :: ks, g, p, hb => by
    obtain ⟨b1, b2, b3⟩ := hb k List.mem_cons_self
    obtain ⟨r1, r2⟩ := condRules_ids (global := global) (range := k) si _ _ g p b2 b3
    have e2 : (condRules global si k (g, p) ((s.formats.lookup k).getD [])).2 =
        (g + (rangeExt k (acc.filter fun c => callRange c = k)).length,
          (condRules global si k (g, p) ((s.formats.lookup k).getD [])).2.2) := by rw [← r2]
    have ih := condLoop_ids (global := global) (acc := acc) si ks (g + (rangeExt k (acc.filter fun c => callRange c = k)).length)
      (condRules global si k (g, p) ((s.formats.lookup k).getD [])).2.2 fun j hj => hb j (List.mem_cons_of_mem _ hj)
    simp only [condLoop]
    rw [e2, List.map_append, List.flatMap_append, ih, List.flatMap_cons, List.length_append, idsFrom_add,
      List.zip_append (idsFrom_length _ _ _).symm, linked_append, ← r1]
    congr 1
    have hok : ((condRules global si k (g, p) ((s.formats.lookup k).getD [])).1.filter
        (fun x => decide (treeTag x = "cfRule".toList))) = (condRules global si k (g, p) ((s.formats.lookup k).getD [])).1 := by
      have hl : Leads (fun _ => none) global {} := by intro i f h; simp at h
      rw [List.filter_eq_self]
      intro x hx
      have : ∀ (cs : List CondStored) (st : Nat × Nat), (∀ c ∈ cs, StoredOk s.dxf c) →
          ∀ x ∈ (condRules global si k st cs).1, treeTag x = "cfRule".toList := by
        intro cs
        induction cs with
        | nil => intro st _ x hx; simp [condRules] at hx
        | cons c cs ihc =>
          rintro ⟨g, p⟩ hcs x hx
          simp only [condRules] at hx
          rcases List.mem_append.mp hx with hx | hx
          · split at hx
            · simp at hx
            · obtain ⟨y, r, h1, h2, _⟩ := rule_some (hcs c List.mem_cons_self).valid (c.dxf.bind fun i => global[i]?) p c.cond.stop k
                (if c.cond.kind.hasX14 then condGuid si g else [])
              rw [h1] at hx
              have : x = y := by simpa using hx
              rw [this]; exact h2
          · exact ihc _ (fun c hc => hcs c (List.mem_cons_of_mem _ hc)) x hx
      rw [this _ _ b3 x hx]; rfl
    by_cases ha : (((s.formats.lookup k).getD []).all fun c => c.cond.kind.onlyX14) = true
    · rw [if_pos ha]
      have hempty : ∀ (cs : List CondStored) (st : Nat × Nat), (cs.all fun c => c.cond.kind.onlyX14) = true →
          (condRules global si k st cs).1 = [] := by
        intro cs
        induction cs with
        | nil => intro st _; rfl
        | cons c cs ihc =>
          rintro ⟨g, p⟩ hcs
          rw [List.all_cons, Bool.and_eq_true] at hcs
          simp only [condRules]
          rw [if_pos hcs.1, ihc _ hcs.2]; rfl
      rw [hempty _ _ ha]; rfl
    · rw [if_neg ha, List.map_cons, List.map_nil, List.flatMap_cons, List.flatMap_nil, List.append_nil]
      unfold blockIds
      simp only [treeParts]
      rw [look_eq, elems_trees, hok]

/-! ### The theorem -/

theorem firsts_nodup (l : List Text) : (firsts l).Nodup := by
  have key : ∀ (l acc : List Text), acc.Nodup → (l.foldl (fun acc x => if x ∈ acc then acc else acc ++ [x]) acc).Nodup := by
    intro l
    induction l with
    | nil => intro acc h; exact h
    | cons y l ih =>
      intro acc h
      rw [List.foldl_cons]
      apply ih
      split
      · exact h
      · rename_i hy
        rw [List.nodup_append]
        exact ⟨h, by simp, fun a ha b hb e => by rw [List.mem_singleton.mp hb] at e; exact hy (e ▸ ha)⟩
  exact key l [] (by simp)

theorem flatMap_filter_ne {α β : Type} (f : α → List β) (l : List α) :
    l.flatMap f = (l.filter fun a => !(f a).isEmpty).flatMap f := by
  induction l with
  | nil => rfl
  | cons a l ih =>
    rw [List.flatMap_cons, List.filter_cons]
    cases h : (f a).isEmpty with
    | true =>
      simp only [Bool.not_true, Bool.false_eq_true, if_false]
      rw [List.isEmpty_iff.mp h, List.nil_append, ih]
    | false =>
      simp only [Bool.not_false, if_true, List.flatMap_cons]
      rw [← ih]

theorem condExtTree_calls (U : Unicode) (t : Tree) : extensionCalls U (some t) [] =
    (Tree.node "extLst".toList [] [.node "ext".toList (extAttrs "{78C0D931-6437-407d-A8EE-F0AAD7539E65}".toList) [t]]).calls := by
  unfold extensionCalls
  simp [Tree.calls, callsList]

/-- C38. For any sequence of calls that leaves extended rules (data bars and icon sets of Excel 2010), the extension
list has exactly these rules, each for its range and with what was set, with ids that are all distinct; and each of the
rules that old readers also see names the id of its own extended rule. Missing: ranges with extended rules first used in
another than increasing text order (`C38_link_counterexample`), the settings `extOk` excludes
(`C38_icons_counterexample`, `C38_point_counterexample`, `C38_border_counterexample`), theme colours, texts XML
attributes cannot carry, and worksheets that also have sparklines (`C55_extensions_counterexample`). -/
theorem C38_extension_partial (U : Unicode) (ops : List RuleOp) (global : List Nat) (si : Nat)
    (hok : ∀ p ∈ legalCalls ops, CondOk p.2 ∧ extOk p.2.kind = true)
    (hord : ((extCalls ops).map Prod.fst).Pairwise (· ≤ ·)) :
    ∃ ids : List Text, ids.Nodup ∧ ids.length = (extCalls ops).length ∧
      (∃ l, (parseDoc (xmlDeclaration ++ writeCalls (extensionCalls U (some (x14CondTree (condRun ops) si)) []))).bind readExtConds =
          some l ∧ ((extCalls ops).zip ids).mapM extSeen = some l) ∧
      ∀ (as : Attrs) (pre post : List Tree), attrsGood as → Free ["conditionalFormatting".toList] pre →
        Free ["conditionalFormatting".toList] post →
        ∃ root, parseDoc (writePart (.node "worksheet".toList as (pre ++ condTrees (condRun ops) global si ++ post))) =
            some root ∧
          readIds root = (((extCalls ops).zip ids).filter fun q => !q.1.2.2.kind.onlyX14).map fun q => (q.1.1, q.2) := by
  have hinv := condRun_inv ops
  have hb := blocks_of fun p hp => (hok p hp).1
  have hext : extCalls ops = (condRun ops).order.flatMap fun k => rangeExt k ((legalCalls ops).filter fun c => callRange c = k) := by
    unfold extCalls byRange
    rw [hinv.order, List.flatMap_map]
    rfl
  have hkeys : ∀ k, k ∈ (condRun ops).formats.map Prod.fst ↔ k ∈ (condRun ops).order := by
    intro k
    rw [hinv.order, mem_firsts, ← hinv.keys]
    constructor
    · intro h
      cases hl : (condRun ops).formats.lookup k with
      | some v => rfl
      | none =>
        exfalso
        revert hl h
        generalize (condRun ops).formats = m
        intro h hl
        induction m with
        | nil => simp at h
        | cons e m ih =>
          obtain ⟨a, b⟩ := e
          by_cases hk : k = a
          · subst hk; rw [assoc_eq] at hl; cases hl
          · rw [assoc_ne hk] at hl
            rcases List.mem_cons.mp h with h | h
            · exact hk h
            · exact ih h hl
    · intro h
      by_cases hm : k ∈ (condRun ops).formats.map Prod.fst
      · exact hm
      · rw [assoc_none hm] at h; cases h
  -- both orders agree
  have horder : (condRun ops).order.flatMap (fun k => rangeExt k ((legalCalls ops).filter fun c => callRange c = k)) =
      ((condRun ops).formats.map Prod.fst).flatMap (fun k => rangeExt k ((legalCalls ops).filter fun c => callRange c = k)) := by
    rw [flatMap_filter_ne, flatMap_filter_ne (l := (condRun ops).formats.map Prod.fst)]
    congr 1
    have hs1 : ((((condRun ops).formats.map Prod.fst).filter fun a =>
        !(rangeExt a ((legalCalls ops).filter fun c => callRange c = a)).isEmpty)).Pairwise strLt := hinv.sorted.filter _
    have hn2 : (((condRun ops).order.filter fun a =>
        !(rangeExt a ((legalCalls ops).filter fun c => callRange c = a)).isEmpty)).Nodup := by
      rw [hinv.order]; exact (firsts_nodup _).filter _
    have hs2 : (((condRun ops).order.filter fun a =>
        !(rangeExt a ((legalCalls ops).filter fun c => callRange c = a)).isEmpty)).Pairwise (· ≤ ·) := by
      rw [hext] at hord
      revert hord
      generalize (condRun ops).order = ks
      intro hord
      induction ks with
      | nil => simp
      | cons k ks ih =>
        rw [List.flatMap_cons, List.map_append, List.pairwise_append] at hord
        rw [List.filter_cons]
        split
        · rename_i hne
          rw [List.pairwise_cons]
          refine ⟨?_, ih hord.2.1⟩
          intro j hj
          obtain ⟨hj1, hj2⟩ := List.mem_filter.mp hj
          have fst_mem : ∀ {a : Text}, (!(rangeExt a ((legalCalls ops).filter fun c => callRange c = a)).isEmpty) = true →
              a ∈ (rangeExt a ((legalCalls ops).filter fun c => callRange c = a)).map Prod.fst := by
            intro a ha
            cases hr : rangeExt a ((legalCalls ops).filter fun c => callRange c = a) with
            | nil => rw [hr] at ha; cases ha
            | cons x xs =>
              have hx : x ∈ rangeExt a ((legalCalls ops).filter fun c => callRange c = a) := by rw [hr]; exact List.mem_cons_self
              obtain ⟨q, _, rfl⟩ := List.mem_map.mp hx
              exact List.mem_cons_self
          refine hord.2.2 k (fst_mem hne) j ?_
          rw [List.map_flatMap, List.mem_flatMap]
          exact ⟨j, hj1, fst_mem hj2⟩
        · exact ih hord.2.1
    have hn1 := hs1.imp (fun {a b} (h : strLt a b) => h.2)
    have hperm : (((condRun ops).order.filter fun a =>
        !(rangeExt a ((legalCalls ops).filter fun c => callRange c = a)).isEmpty)).Perm
        (((condRun ops).formats.map Prod.fst).filter fun a =>
        !(rangeExt a ((legalCalls ops).filter fun c => callRange c = a)).isEmpty) := by
      refine (List.perm_ext_iff_of_nodup hn2 hn1).mpr fun a => ?_
      rw [List.mem_filter, List.mem_filter, hkeys]
    refine hperm.eq_of_pairwise (le := fun a b => strLe a b = true) (fun a b _ _ h1 h2 => strLe_antisymm h1 h2) ?_ (hs1.imp fun h => h.1)
    exact hs2.imp fun {a b} h => (strLe_iff a b).mpr h
  refine ⟨idsFrom si 1 (extCalls ops).length, ?_, idsFrom_length _ _ _, ?_, ?_⟩
  · unfold idsFrom
    rw [List.Nodup, List.pairwise_map]
    exact (List.nodup_range' (s := 1) (n := (extCalls ops).length) (step := 1)).imp fun h e => h (C38_ids_distinct e).2
  · obtain ⟨h1, bs, h2, h3⟩ := x14Loop_read (s := condRun ops) (acc := legalCalls ops) si (condRun ops).formats 1 1 (by
      rintro ⟨k, cs⟩ he
      have hk : k ∈ (condRun ops).order := (hkeys k).mp (List.mem_map_of_mem (f := Prod.fst) he)
      have hl : (condRun ops).formats.lookup k = some cs := by
        have hs := hinv.sorted
        revert he hs
        generalize (condRun ops).formats = m
        intro he hs
        induction m with
        | nil => simp at he
        | cons e m ih =>
          obtain ⟨a, b⟩ := e
          rw [List.map_cons, List.pairwise_cons] at hs
          rcases List.mem_cons.mp he with he | he
          · injection he with h1 h2; subst h1; subst h2; exact assoc_eq _ _ _
          · rw [assoc_ne (fun e => (hs.1 k (List.mem_map_of_mem (f := Prod.fst) he)).2 e.symm)]
            exact ih he hs.2
      obtain ⟨b1, b2, b3⟩ := hb k hk
      rw [hl, Option.getD_some] at b2 b3
      refine ⟨b1, b2, b3, fun c hc => ?_⟩
      have hm : c.cond ∈ ((legalCalls ops).filter fun q => callRange q = k).map (·.2) := by
        rw [← b2]; exact List.mem_map_of_mem hc
      obtain ⟨q, hq, e⟩ := List.mem_map.mp hm
      rw [← e]; exact (hok q (List.mem_filter.mp hq).1).2)
    refine ⟨bs.flatten, ?_, by rw [hext, horder]; exact h3⟩
    rw [condExtTree_calls]
    have hokt : treeOk (Tree.node "extLst".toList [] [.node "ext".toList (extAttrs "{78C0D931-6437-407d-A8EE-F0AAD7539E65}".toList)
        [x14CondTree (condRun ops) si]]) = true :=
      treeOk_node (by decide) attrsGood_nil (ok_single (treeOk_node (by decide) ⟨by decide, by decide⟩
        (ok_single (treeOk_node (by decide) attrsGood_nil fun x hx => (h1 x hx).2))))
    rw [show xmlDeclaration ++ writeCalls (Tree.node "extLst".toList [] [.node "ext".toList
        (extAttrs "{78C0D931-6437-407d-A8EE-F0AAD7539E65}".toList) [x14CondTree (condRun ops) si]]).calls =
      writePart (Tree.node "extLst".toList [] [.node "ext".toList
        (extAttrs "{78C0D931-6437-407d-A8EE-F0AAD7539E65}".toList) [x14CondTree (condRun ops) si]]) from rfl,
      C07_part_roundtrip _ hokt, Option.bind_some]
    unfold x14CondTree
    simp only [Tree.toNode, toNodes]
    unfold readExtConds
    have hfind : ∀ n : Node, (elems "ext".toList [Node.elem "ext".toList (extAttrs "{78C0D931-6437-407d-A8EE-F0AAD7539E65}".toList) [n]]).find?
        (fun e => e.1.lookup "uri".toList == some "{78C0D931-6437-407d-A8EE-F0AAD7539E65}".toList) =
        some (extAttrs "{78C0D931-6437-407d-A8EE-F0AAD7539E65}".toList, [n]) := by
      intro n; rfl
    dsimp only
    rw [hfind]
    dsimp only
    unfold readX14
    dsimp only
    rw [elems_trees, List.filter_eq_self.mpr (fun t h => by rw [(h1 t h).1]; rfl), h2]
    rfl
  · intro as pre post has hpre hpost
    have htr : (∀ x ∈ condTrees (condRun ops) global si, treeOk x = true ∧ treeTag x = "conditionalFormatting".toList) ∧
        ((condTrees (condRun ops) global si).map treeParts).flatMap blockIds =
          linked ((extCalls ops).zip (idsFrom si 1 (extCalls ops).length)) := by
      unfold condTrees
      cases hc : (condRun ops).hasClassic with
      | true =>
        simp only [if_true]
        refine ⟨fun x hx => ⟨condLoop_ok si _ _ hb x hx, ?_⟩, by rw [condLoop_ids si _ 1 1 hb, ← hext]⟩
        have tags : ∀ (ks : List Str) (st : Nat × Nat), ∀ x ∈ condLoop (condRun ops) global si st ks,
            treeTag x = "conditionalFormatting".toList := by
          intro ks
          induction ks with
          | nil => intro st x hx; simp [condLoop] at hx
          | cons k ks ih =>
            intro st x hx
            simp only [condLoop] at hx
            rcases List.mem_append.mp hx with hx | hx
            · split at hx
              · simp at hx
              · rw [List.mem_singleton.mp hx]; rfl
            · exact ih _ x hx
        exact tags _ _ x hx
      | false =>
        simp only [Bool.false_eq_true, if_false]
        refine ⟨by simp, ?_⟩
        have : ∀ (l : List ((Text × FmtCall) × Text)), (∀ q ∈ l, q.1.2.2.kind.onlyX14 = true) → linked l = [] := by
          intro l hl
          unfold linked
          rw [List.filter_eq_nil_iff.mpr (fun q hq => by simp [hl q hq])]; rfl
        rw [this]
        · rfl
        · rintro ⟨⟨k, p⟩, i⟩ hq
          have hq := (List.of_mem_zip hq).1
          have h2 := hinv.classic
          rw [hc] at h2
          rw [hext, List.mem_flatMap] at hq
          obtain ⟨k', _, hk'⟩ := hq
          obtain ⟨p', hp', e⟩ := List.mem_map.mp hk'
          injection e with e1 e2
          subst e2
          have h3 := List.any_eq_false.mp h2.symm p' (List.mem_filter.mp (List.mem_filter.mp hp').1).1
          simpa using h3
    refine ⟨_, C07_part_roundtrip _ (treeOk_node (by decide) has (ok_append (ok_append hpre.ok fun x hx => (htr.1 x hx).1) hpost.ok)), ?_⟩
    simp only [Tree.toNode]
    unfold readIds
    dsimp only
    rw [elems_trees, List.filter_append, List.filter_append, hpre.filter (by simp), hpost.filter (by simp), List.nil_append,
      List.append_nil, List.filter_eq_self.mpr (fun t h => by rw [(htr.1 t h).2]; rfl), htr.2]
    rfl

end Verif
