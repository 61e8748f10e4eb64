import Verif.Props.DataValid
import Verif.Props.CondOk
/-! The `dataValidations` element (C57). -/
namespace Verif
open Spec

/-! ### Attributes -/

theorem attrIf_ne {k n : Str} (h : k ≠ n) (b : Bool) (v : Str) (r : Attrs) : (attrIf b n v ++ r).lookup k = r.lookup k := by
  cases b
  · rfl
  · exact look_ne h v r

theorem attrIf_eq (b : Bool) (n v : Str) (r : Attrs) : (attrIf b n v ++ r).lookup n = if b then some v else r.lookup n := by
  cases b
  · rfl
  · exact look_eq n v r

theorem look_nil (k : Str) : List.lookup k ([] : Attrs) = none := rfl

/-- The names of the common attributes. -/
theorem common_lookup (d : DataValidation) (range : Str) :
    (d.commonAttrs range).lookup "allowBlank".toList = (if d.ignoreBlank then some "1".toList else none) ∧
    (d.commonAttrs range).lookup "showDropDown".toList = (if !d.showDropdown then some "1".toList else none) ∧
    (d.commonAttrs range).lookup "showInputMessage".toList = (if d.showInput then some "1".toList else none) ∧
    (d.commonAttrs range).lookup "showErrorMessage".toList = (if d.showError then some "1".toList else none) ∧
    (d.commonAttrs range).lookup "errorTitle".toList = (if !d.errorTitle.isEmpty then some d.errorTitle else none) ∧
    (d.commonAttrs range).lookup "error".toList = (if !d.errorMessage.isEmpty then some d.errorMessage else none) ∧
    (d.commonAttrs range).lookup "promptTitle".toList = (if !d.inputTitle.isEmpty then some d.inputTitle else none) ∧
    (d.commonAttrs range).lookup "prompt".toList = (if !d.inputMessage.isEmpty then some d.inputMessage else none) ∧
    (d.commonAttrs range).lookup "sqref".toList = some range ∧
    (d.commonAttrs range).lookup "type".toList = none ∧
    (d.commonAttrs range).lookup "errorStyle".toList = none ∧
    (d.commonAttrs range).lookup "operator".toList = none := by
  unfold DataValidation.commonAttrs
  refine ⟨?_, ?_, ?_, ?_, ?_, ?_, ?_, ?_, ?_, ?_, ?_, ?_⟩ <;>
    simp (discharger := decide) only [attrIf_ne, attrIf_eq, look_ne, look_eq, look_nil]

theorem attrIf_good {b : Bool} {n v : Str} {r : Attrs} (hn : isName n = true) (hv : b = true → attrSafe v = true)
    (hk : n ∉ r.map Prod.fst) (h : attrsGood r) : attrsGood (attrIf b n v ++ r) := by
  cases b
  · exact h
  · exact attrsGood_cons (attrOk_of hn (hv rfl)) h hk

theorem attrIf_names {k n : Str} {b : Bool} {v : Str} {r : Attrs} (hn : k ≠ n) (h : k ∉ r.map Prod.fst) :
    k ∉ (attrIf b n v ++ r).map Prod.fst := by
  cases b
  · exact h
  · show k ∉ n :: r.map Prod.fst
    rw [List.mem_cons, not_or]
    exact ⟨hn, h⟩

/-- The texts of a validation are such that XML attributes can have them. -/
structure DvSafe (d : DataValidation) : Prop where
  errorTitle : attrSafe d.errorTitle = true
  errorMessage : attrSafe d.errorMessage = true
  inputTitle : attrSafe d.inputTitle = true
  inputMessage : attrSafe d.inputMessage = true

theorem common_good {d : DataValidation} (h : DvSafe d) {range : Str} (hr : attrSafe range = true) :
    attrsGood (d.commonAttrs range) ∧ "type".toList ∉ (d.commonAttrs range).map Prod.fst ∧
    "errorStyle".toList ∉ (d.commonAttrs range).map Prod.fst ∧ "operator".toList ∉ (d.commonAttrs range).map Prod.fst := by
  unfold DataValidation.commonAttrs
  have nm : ∀ {k n : Str} {b : Bool} {v : Str} {r : Attrs}, k ≠ n → k ∉ r.map Prod.fst → k ∉ (attrIf b n v ++ r).map Prod.fst :=
    attrIf_names
  have one : ∀ {k : Str}, k ≠ "sqref".toList → k ∉ ([("sqref".toList, range)] : Attrs).map Prod.fst := by
    intro k hk
    show k ∉ ["sqref".toList]
    rw [List.mem_singleton]
    exact hk
  have s1 : attrSafe "1".toList = true := by decide
  refine ⟨?_, ?_, ?_, ?_⟩
  · refine attrIf_good (by decide) (fun _ => s1) ?_ (attrIf_good (by decide) (fun _ => s1) ?_ (attrIf_good (by decide) (fun _ => s1) ?_
      (attrIf_good (by decide) (fun _ => s1) ?_ (attrIf_good (by decide) (fun _ => h.errorTitle) ?_
      (attrIf_good (by decide) (fun _ => h.errorMessage) ?_ (attrIf_good (by decide) (fun _ => h.inputTitle) ?_
      (attrIf_good (by decide) (fun _ => h.inputMessage) ?_ (attrsGood_one (by decide) hr)))))))) 
    · exact nm (by decide) (nm (by decide) (nm (by decide) (nm (by decide) (nm (by decide) (nm (by decide) (nm (by decide) (one (by decide))))))))
    · exact nm (by decide) (nm (by decide) (nm (by decide) (nm (by decide) (nm (by decide) (nm (by decide) (one (by decide)))))))
    · exact nm (by decide) (nm (by decide) (nm (by decide) (nm (by decide) (nm (by decide) (one (by decide))))))
    · exact nm (by decide) (nm (by decide) (nm (by decide) (nm (by decide) (one (by decide)))))
    · exact nm (by decide) (nm (by decide) (nm (by decide) (one (by decide))))
    · exact nm (by decide) (nm (by decide) (one (by decide)))
    · exact nm (by decide) (one (by decide))
    · exact one (by decide)
  all_goals
    exact nm (by decide) (nm (by decide) (nm (by decide) (nm (by decide) (nm (by decide) (nm (by decide) (nm (by decide)
      (nm (by decide) (one (by decide)))))))))

/-! ### Formulas -/

/-- The formulas of a rule. -/
def DvRule.values : DvRule → List Str
  | .equalTo v | .notEqualTo v | .lessThan v | .lessThanOrEqualTo v | .greaterThan v | .greaterThanOrEqualTo v
  | .listSource v | .customFormula v => [v]
  | .between a b | .notBetween a b => [a, b]

theorem data_text {t f : Str} (h : attrSafe f = true) : textOnly (treeParts (.data t f [])).2 = some f := by
  simp only [treeParts, textOnly_data]
  rw [escape_attrSafe h]

theorem dvFormulas_trees {r : DvRule} (h : ∀ f ∈ r.values, attrSafe f = true) :
    dvFormulas (toNodes r.formulaTrees) = some r.values := by
  have one : ∀ v : Str, attrSafe v = true → dvFormulas (toNodes [.data "formula1".toList v []]) = some [v] := by
    intro v hv
    unfold dvFormulas
    rw [elems_trees, elems_trees]
    rw [show ([Tree.data "formula1".toList v []].filter fun x => decide (treeTag x = "formula1".toList)) =
        [.data "formula1".toList v []] from rfl,
      show ([Tree.data "formula1".toList v []].filter fun x => decide (treeTag x = "formula2".toList)) = [] from rfl]
    rw [List.map_singleton, List.mapM_cons, List.mapM_nil, data_text hv]
    rfl
  have two : ∀ v w : Str, attrSafe v = true → attrSafe w = true →
      dvFormulas (toNodes [.data "formula1".toList v [], .data "formula2".toList w []]) = some [v, w] := by
    intro v w hv hw
    unfold dvFormulas
    rw [elems_trees, elems_trees]
    rw [show ([Tree.data "formula1".toList v [], Tree.data "formula2".toList w []].filter
        fun x => decide (treeTag x = "formula1".toList)) = [.data "formula1".toList v []] from rfl,
      show ([Tree.data "formula1".toList v [], Tree.data "formula2".toList w []].filter
        fun x => decide (treeTag x = "formula2".toList)) = [.data "formula2".toList w []] from rfl]
    rw [List.map_singleton, List.map_singleton, List.mapM_cons, List.mapM_nil, List.mapM_cons, List.mapM_nil, data_text hv,
      data_text hw]
    rfl
  cases r with
  | between a b => exact two a b (h a (by simp [DvRule.values])) (h b (by simp [DvRule.values]))
  | notBetween a b => exact two a b (h a (by simp [DvRule.values])) (h b (by simp [DvRule.values]))
  | _ v => exact one v (h v (by simp [DvRule.values]))

theorem formulaTrees_ok {r : DvRule} (h : ∀ f ∈ r.values, attrSafe f = true) : ∀ k ∈ r.formulaTrees, treeOk k = true := by
  have one : ∀ t v : Str, isName t = true → attrSafe v = true → treeOk (.data t v []) = true := fun t v ht hv =>
    attrSafe_data ht hv
  cases r with
  | between a b =>
    exact ok_cons (one _ _ (by decide) (h a (by simp [DvRule.values]))) (ok_single (one _ _ (by decide) (h b (by simp [DvRule.values]))))
  | notBetween a b =>
    exact ok_cons (one _ _ (by decide) (h a (by simp [DvRule.values]))) (ok_single (one _ _ (by decide) (h b (by simp [DvRule.values]))))
  | _ v => exact ok_single (one _ _ (by decide) (h v (by simp [DvRule.values])))

/-! ### One validation -/

theorem flag_if (n : Text) (b : Bool) {as : Attrs} (h : as.lookup n = if b then some "1".toList else none) :
    attrFlag n false as = some b := by
  unfold attrFlag
  rw [h]
  cases b
  · rfl
  · rfl

theorem text_if (n v : Text) {as : Attrs} (h : as.lookup n = if !v.isEmpty then some v else none) :
    (as.lookup n).getD [] = v := by
  rw [h]
  cases v with
  | nil => rfl
  | cons c v => rfl

theorem readCompare_rule (mk : OpSeen → List Text → Allowed) {as : Attrs} {r : DvRule} {p : OpSeen × List Text}
    (hr : compareOf r = some p) (h : as.lookup "operator".toList = r.operatorAttrs.lookup "operator".toList) :
    readCompare mk as r.values = some (mk p.1 p.2) := by
  unfold readCompare
  rw [h]
  cases r <;> cases hr <;> rfl

theorem readAllowed_rule {as : Attrs} {t : DvType} {r : DvRule} {al : Allowed} (ha : allowedOf t r = some al) (ht : t ≠ .any)
    (h1 : as.lookup "type".toList = some t.name) (h2 : as.lookup "operator".toList = r.operatorAttrs.lookup "operator".toList) :
    readAllowed as r.values = some al := by
  have cmp : ∀ mk : OpSeen → List Text → Allowed, (compareOf r).map (fun p => mk p.1 p.2) = some al →
      readCompare mk as r.values = some al := by
    intro mk hm
    cases e : compareOf r with
    | none => rw [e] at hm; cases hm
    | some p => rw [e] at hm; cases hm; exact readCompare_rule mk e h2
  unfold readAllowed operatorOk
  rw [h1, h2]
  cases t with
  | any => exact absurd rfl ht
  | whole => exact cmp _ ha
  | decimal => exact cmp _ ha
  | date => exact cmp _ ha
  | time => exact cmp _ ha
  | textLength => exact cmp _ ha
  | list => cases r <;> cases ha; rfl
  | custom => cases r <;> cases ha; rfl

theorem operator_lookup (r : DvRule) (as : Attrs) (h : as.lookup "operator".toList = none) :
    (r.operatorAttrs ++ as).lookup "operator".toList = r.operatorAttrs.lookup "operator".toList := by
  cases r <;> first | exact h | rfl

theorem operator_other (r : DvRule) (as : Attrs) {k : Str} (hk : k ≠ "operator".toList) :
    (r.operatorAttrs ++ as).lookup k = as.lookup k := by
  cases r <;> first | rfl | exact look_ne hk _ _

theorem readAlertStyle_of {as : Attrs} {s : DvStyle}
    (h : as.lookup "errorStyle".toList = if decide (s ≠ .stop) then some s.name else none) : readAlertStyle as = some s := by
  unfold readAlertStyle
  rw [h]
  cases s <;> rfl

theorem dvMeant_eq {d : DataValidation} {calls : List DvCall} (h : DvRel d calls) :
    dvMeant calls = ⟨allowedBy calls, if allowedBy calls = .any then .stop else d.style, d.ignoreBlank, d.showDropdown, d.showInput,
      d.showError, d.errorTitle, d.errorMessage, d.inputTitle, d.inputMessage⟩ := by
  rw [h.style, h.blank, h.dropdown, h.input, h.error, h.errorTitle, h.errorMessage, h.inputTitle, h.inputMessage]
  rfl

theorem allowedOf_any {t : DvType} {r : DvRule} (h : allowedOf t r = some .any) : t = .any := by
  cases t <;> first | rfl | (cases r <;> cases h)

/-- An element is read as what the calls mean. -/
theorem readValidation_tree {d : DataValidation} {calls : List DvCall} (h : DvRel d calls) {range : Str}
    (hv : d.type ≠ .any → ∀ f ∈ d.rule.values, attrSafe f = true) :
    readValidation (treeParts (d.tree range)) = some (range, dvMeant calls) := by
  obtain ⟨c1, c2, c3, c4, c5, c6, c7, c8, c9, c10, c11, c12⟩ := common_lookup d range
  rw [dvMeant_eq h]
  by_cases ht : d.type = .any
  · have ha := h.allowed
    rw [ht] at ha
    have hal : allowedBy calls = .any := (Option.some.inj ha).symm
    unfold DataValidation.tree
    rw [if_pos ht]
    unfold readValidation
    simp only [treeParts]
    rw [c9, flag_if _ _ c1, flag_if _ _ c2, flag_if _ _ c3, flag_if _ _ c4, text_if _ _ c5, text_if _ _ c6, text_if _ _ c7,
      text_if _ _ c8, hal]
    rw [show (dvFormulas []).bind (readAllowed (d.commonAttrs range)) = some .any by
      show readAllowed (d.commonAttrs range) [] = _
      unfold readAllowed
      rw [c10]; rfl]
    rw [show readAlertStyle (d.commonAttrs range) = some .stop by unfold readAlertStyle; rw [c11]]
    simp
  · have hal : allowedBy calls ≠ .any := fun e => ht (allowedOf_any (h.allowed.trans (congrArg some e)))
    rw [if_neg hal]
    unfold DataValidation.tree
    rw [if_neg ht]
    unfold readValidation
    simp only [treeParts]
    have pass : ∀ {k : Str}, k ≠ "type".toList → k ≠ "errorStyle".toList → k ≠ "operator".toList →
        List.lookup k (("type".toList, d.type.name) :: (attrIf (d.style ≠ .stop) "errorStyle".toList d.style.name ++
          (d.rule.operatorAttrs ++ d.commonAttrs range))) = (d.commonAttrs range).lookup k := by
      intro k k1 k2 k3
      rw [look_ne k1, attrIf_ne k2, operator_other _ _ k3]
    have htype : List.lookup "type".toList (("type".toList, d.type.name) ::
        (attrIf (d.style ≠ .stop) "errorStyle".toList d.style.name ++ (d.rule.operatorAttrs ++ d.commonAttrs range))) =
        some d.type.name := look_eq _ _ _
    have hop : List.lookup "operator".toList (("type".toList, d.type.name) ::
        (attrIf (d.style ≠ .stop) "errorStyle".toList d.style.name ++ (d.rule.operatorAttrs ++ d.commonAttrs range))) =
        d.rule.operatorAttrs.lookup "operator".toList := by
      rw [look_ne (by decide), attrIf_ne (by decide), operator_lookup _ _ c12]
    have hst : List.lookup "errorStyle".toList (("type".toList, d.type.name) ::
        (attrIf (d.style ≠ .stop) "errorStyle".toList d.style.name ++ (d.rule.operatorAttrs ++ d.commonAttrs range))) =
        if decide (d.style ≠ .stop) then some d.style.name else none := by
      rw [look_ne (by decide), attrIf_eq, operator_other _ _ (by decide), c11]
    rw [dvFormulas_trees (hv ht), Option.bind_some, readAllowed_rule h.allowed ht htype hop, readAlertStyle_of hst,
      flag_if _ _ ((pass (by decide) (by decide) (by decide)).trans c1),
      flag_if _ _ ((pass (by decide) (by decide) (by decide)).trans c2),
      flag_if _ _ ((pass (by decide) (by decide) (by decide)).trans c3),
      flag_if _ _ ((pass (by decide) (by decide) (by decide)).trans c4),
      text_if _ _ ((pass (by decide) (by decide) (by decide)).trans c5),
      text_if _ _ ((pass (by decide) (by decide) (by decide)).trans c6),
      text_if _ _ ((pass (by decide) (by decide) (by decide)).trans c7),
      text_if _ _ ((pass (by decide) (by decide) (by decide)).trans c8), pass (by decide) (by decide) (by decide), c9]
    simp

theorem operator_good {r : DvRule} {as : Attrs} (h : attrsGood as) (hk : "operator".toList ∉ as.map Prod.fst) :
    attrsGood (r.operatorAttrs ++ as) := by
  cases r <;> first | exact h | exact attrsGood_cons (attrOk_of (by decide) (by rfl)) h hk

theorem operator_names {r : DvRule} {as : Attrs} {k : Str} (hk : k ≠ "operator".toList) (h : k ∉ as.map Prod.fst) :
    k ∉ (r.operatorAttrs ++ as).map Prod.fst := by
  cases r <;> first
    | exact h
    | (show k ∉ "operator".toList :: as.map Prod.fst
       rw [List.mem_cons, not_or]
       exact ⟨hk, h⟩)

theorem validationTree_ok {d : DataValidation} (h : DvSafe d) {range : Str} (hr : attrSafe range = true)
    (hv : d.type ≠ .any → ∀ f ∈ d.rule.values, attrSafe f = true) : treeOk (d.tree range) = true := by
  obtain ⟨g1, g2, g3, g4⟩ := common_good h hr
  unfold DataValidation.tree
  by_cases ht : d.type = .any
  · rw [if_pos ht]
    exact treeOk_empty (by decide) g1
  · rw [if_neg ht]
    refine treeOk_node (by decide) (attrsGood_cons (attrOk_of (by decide) ?_) (attrIf_good (by decide) (fun _ => ?_)
      (operator_names (by decide) g3) (operator_good g1 g4)) (attrIf_names (by decide) (operator_names (by decide) g2)))
      (formulaTrees_ok (hv ht))
    · cases d.type <;> decide
    · cases d.style <;> decide

theorem validationTree_tag (d : DataValidation) (range : Str) : treeTag (d.tree range) = "dataValidation".toList := by
  unfold DataValidation.tree
  split <;> rfl

/-! ### All validations -/

/-- A map whose texts are safe. -/
def MapSafe (m : DvMap) : Prop :=
  ∀ p ∈ m, DvSafe p.2 ∧ attrSafe p.1 = true ∧ (p.2.type ≠ .any → ∀ f ∈ p.2.rule.values, attrSafe f = true)

theorem readValidations_map {m : DvMap} {g : Str × DataValidation → DvSeen} (h : MapSafe m)
    (hg : ∀ p ∈ m, readValidation (treeParts (p.2.tree p.1)) = some (p.1, g p)) :
    (parseDoc (writePart (dataValidationsTree m))).bind readValidations = some (m.map fun p => (p.1, g p)) := by
  have hok : treeOk (dataValidationsTree m) = true := by
    refine treeOk_node (by decide) (attrsGood_one (by decide) (showNat_attrSafe _)) fun k hk => ?_
    obtain ⟨p, hp, rfl⟩ := List.mem_map.mp hk
    obtain ⟨h1, h2, h3⟩ := h p hp
    exact validationTree_ok h1 h2 h3
  rw [C07_part_roundtrip _ hok, Option.bind_some]
  unfold dataValidationsTree
  simp only [Tree.toNode]
  unfold readValidations
  have he : elems "dataValidation".toList (toNodes (m.map fun p => p.2.tree p.1)) =
      m.map fun p => treeParts (p.2.tree p.1) := by
    rw [elems_trees, List.filter_eq_self.mpr (by
      intro x hx
      obtain ⟨p, hp, rfl⟩ := List.mem_map.mp hx
      exact decide_eq_true (validationTree_tag _ _)), List.map_map]
    rfl
  dsimp only
  rw [he, List.length_map]
  rw [if_pos ⟨rfl, attrNat_one _ _ _⟩, mapM_map]
  clear he hok h
  induction m with
  | nil => rfl
  | cons p m ih =>
    rw [List.mapM_cons, hg p List.mem_cons_self, ih fun q hq => hg q (List.mem_cons_of_mem _ hq)]
    rfl

end Verif
