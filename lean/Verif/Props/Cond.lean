import Verif.Props.CondOk
/-!
C38: conditional formats, read back with their formats from the styles part.
-/
namespace Verif
open Spec

/-! ### The numbers of the formats -/

theorem dxf_store (s : CondSheet) (d : Dims) (c : CondFmt) :
    (s.store d c).dxf = (s.dxf.addAll c.format.toList).2 := by
  unfold CondSheet.store
  cases c.format <;> rfl

theorem DxfTable.addAll_append (t : DxfTable) (a b : List Format) :
    (t.addAll (a ++ b)).2 = ((t.addAll a).2.addAll b).2 := by
  induction a generalizing t with
  | nil => rfl
  | cons f a ih => exact ih _

theorem condRun_dxf (ops : List RuleOp) : (condRun ops).dxf = (DxfTable.addAll {} (opFormats ops)).2 := by
  have key : ∀ (ops : List RuleOp) (s : CondSheet),
      (ops.foldl CondSheet.step s).dxf = (s.dxf.addAll (opFormats ops)).2 := by
    intro ops
    induction ops with
    | nil => intro s; rfl
    | cons o ops ih =>
      intro s
      rw [List.foldl_cons, ih, show opFormats (o :: ops) = opFormats [o] ++ opFormats ops from by
        simp [opFormats], DxfTable.addAll_append]
      congr 2
      cases o with
      | cond d c =>
        unfold CondSheet.step
        dsimp only
        by_cases h : CondLegal (d, c)
        · rw [add_legal h, dxf_store, show opFormats [.cond d c] = c.format.toList from by simp [opFormats, h]]
        · rw [add_illegal h, show opFormats [.cond d c] = [] from by simp [opFormats, h]]; rfl
      | tableFormat f => rfl
  exact key ops {}

/-- A format made by calls whose texts can be written. -/
def Built (f : Format) : Prop := ∃ cs : List FormatCall, (∀ c ∈ cs, callSafe c = true) ∧ f = Format.build cs

theorem built_list {l : List Format} (h : ∀ f ∈ l, Built f) :
    ∃ cl : List (List FormatCall), (∀ cs ∈ cl, ∀ c ∈ cs, callSafe c = true) ∧ cl.map Format.build = l := by
  induction l with
  | nil => exact ⟨[], by simp, rfl⟩
  | cons f l ih =>
    obtain ⟨cs, h1, h2⟩ := h f List.mem_cons_self
    obtain ⟨cl, h3, h4⟩ := ih fun g hg => h g (List.mem_cons_of_mem _ hg)
    refine ⟨cs :: cl, ?_, by rw [List.map_cons, ← h2, h4]⟩
    intro x hx
    rcases List.mem_cons.mp hx with rfl | hx
    · exact h1
    · exact h3 x hx

theorem built_lists {ls : List (List Format)} (h : ∀ l ∈ ls, ∀ f ∈ l, Built f) :
    ∃ cls : List (List (List FormatCall)), (∀ cl ∈ cls, ∀ cs ∈ cl, ∀ c ∈ cs, callSafe c = true) ∧
      cls.map (·.map Format.build) = ls := by
  induction ls with
  | nil => exact ⟨[], by simp, rfl⟩
  | cons l ls ih =>
    obtain ⟨cl, h1, h2⟩ := built_list (h l List.mem_cons_self)
    obtain ⟨cls, h3, h4⟩ := ih fun g hg => h g (List.mem_cons_of_mem _ hg)
    refine ⟨cl :: cls, ?_, by rw [List.map_cons, h2, h4]⟩
    intro x hx
    rcases List.mem_cons.mp hx with rfl | hx
    · exact h1
    · exact h3 x hx

theorem callRange_safe {p : FmtCall} (h : CondOk p.2) : attrSafe (callRange p) = true := by
  unfold callRange
  split
  · exact cellRange_attrSafe _ _ _ _
  · exact h.multi

theorem blocks_of {ops : List RuleOp} (hok : ∀ p ∈ legalCalls ops, CondOk p.2) :
    Blocks (condRun ops) (legalCalls ops) (condRun ops).order := by
  have hinv := condRun_inv ops
  intro k hk
  rw [hinv.order, mem_firsts] at hk
  obtain ⟨p, hp, rfl⟩ := List.mem_map.mp hk
  refine ⟨callRange_safe (hok p hp), hinv.look _, fun c hc => ?_⟩
  have hm : c.cond ∈ ((legalCalls ops).filter fun q => callRange q = callRange p).map (·.2) := by
    rw [← hinv.look]; exact List.mem_map_of_mem hc
  obtain ⟨q, hq, e⟩ := List.mem_map.mp hm
  have hq' := (List.mem_filter.mp hq).1
  have hl : CondLegal q := of_decide_eq_true (List.mem_filter.mp hq').2
  exact ⟨by rw [← e]; exact ((legal_iff q.1 q.2).mp hl).2, by rw [← e]; exact hok q hq', hinv.resolved _ c hc⟩

theorem numbered_none {blocks : List (Text × List FmtCall)} (h : ∀ b ∈ blocks, ∀ p ∈ b.2, p.2.kind.onlyX14 = true) (n : Nat) :
    (numbered n blocks).filterMap blockMeant = [] := by
  induction blocks generalizing n with
  | nil => rfl
  | cons b blocks ih =>
    obtain ⟨k, l⟩ := b
    rw [numbered, List.filterMap_cons, ih (fun b hb => h b (List.mem_cons_of_mem _ hb))]
    have : ((List.range' n l.length).zip l).filter (fun q => !q.2.2.kind.onlyX14) = [] := by
      rw [List.filter_eq_nil_iff]
      rintro ⟨i, c⟩ hc
      simp [h _ List.mem_cons_self c (List.of_mem_zip hc).2]
    unfold blockMeant
    dsimp only
    rw [this]

/-- The elements for conditional formats, read back. -/
theorem condTrees_read {formats : Nat → Option DxfSeen} {global : List Nat} {ops : List RuleOp}
    (hl : Leads formats global (condRun ops).dxf) (si : Nat) (hok : ∀ p ∈ legalCalls ops, CondOk p.2) :
    ((condTrees (condRun ops) global si).filter (fun x => decide (treeTag x = "conditionalFormatting".toList))) =
      condTrees (condRun ops) global si ∧
    ((condTrees (condRun ops) global si).map treeParts).mapM (readCondBlock formats) = some (condsMeant ops) ∧
    ∀ x ∈ condTrees (condRun ops) global si, treeOk x = true := by
  have hinv := condRun_inv ops
  have hb := blocks_of hok
  unfold condTrees
  cases hc : (condRun ops).hasClassic with
  | true =>
    simp only [if_true]
    obtain ⟨h1, h2⟩ := condLoop_read hl si _ 1 1 hb
    refine ⟨h1, ?_, condLoop_ok si _ _ hb⟩
    rw [h2, hinv.order]; rfl
  | false =>
    simp only [Bool.false_eq_true, if_false]
    refine ⟨rfl, ?_, by simp⟩
    unfold condsMeant
    rw [numbered_none]
    · rfl
    · intro b hb p hp
      obtain ⟨k, _, rfl⟩ := List.mem_map.mp hb
      have := hinv.classic
      rw [hc] at this
      have h3 := List.any_eq_false.mp this.symm p (List.mem_filter.mp hp).1
      simpa using h3

/-- C38. For any workbook whose worksheets got any sequences of `add_conditional_format` calls (and of tables with
formats), with any formats, a reader of the worksheet part and the styles part finds exactly the accepted conditional
formats: the ranges in the order of first use, in each range the rules in the order of the calls, each with its kind,
its values, formulas, points and colours, its stop flag and what its format changes, and with the priorities 1, 2, 3,
... in that order. Missing: formats with only a foreground colour (`C51_lone_foreground_counterexample`), theme colours
in scales and bars (`C38_theme_counterexample`), texts XML attributes cannot carry; the extension list is in
`C38_extension_partial`. -/
theorem C38_rules_partial (cells : List (List FormatCall)) (sheets : List (List RuleOp)) (hasHyperlink hasComments : Bool)
    (hs : ∀ cs ∈ cells, ∀ c ∈ cs, callSafe c = true)
    (hm : ∀ cs ∈ cells, mixedAutomatic (Format.build cs).fill = false)
    (hh : ∀ cs ∈ cells, (Format.build cs).font.isHyperlink = true → hasHyperlink = true)
    (hf : ∀ ops ∈ sheets, ∀ f ∈ opFormats ops, Built f ∧ loneForeground f.fill = false)
    (hok : ∀ ops ∈ sheets, ∀ p ∈ legalCalls ops, CondOk p.2) :
    let fs := cells.map Format.build
    let saved := DxfTable.save {} fs (sheets.map fun ops => (condRun ops).dxf.formats)
    ∃ styles, parseDoc (stylesPart (prepareStyles fs hasHyperlink hasComments) (dxfsTree saved.2.formats)) = some styles ∧
      ∀ (i : Nat) (ops : List RuleOp), sheets[i]? = some ops → ∃ global, saved.1[i]? = some global ∧
        ∀ (as : Attrs) (pre post : List Tree), attrsGood as → Free ["conditionalFormatting".toList] pre →
          Free ["conditionalFormatting".toList] post →
          ∃ root, parseDoc (writePart (.node "worksheet".toList as (pre ++ condTrees (condRun ops) global i ++ post))) =
              some root ∧
            readConds (readDxf styles) root = some (condsMeant ops) := by
  intro fs saved
  obtain ⟨cls, hcl, hmap⟩ := built_lists (ls := sheets.map opFormats) (by
    intro l hl f hfl
    obtain ⟨ops, ho, rfl⟩ := List.mem_map.mp hl
    exact (hf ops ho f hfl).1)
  have hsaved : saved.2.formats = (savedDxfs fs (cls.map (·.map Format.build))).2 ∧
      saved.1 = (savedDxfs fs (cls.map (·.map Format.build))).1 := by
    have e : (sheets.map fun ops => (condRun ops).dxf.formats) =
        (cls.map (·.map Format.build)).map fun c => (localDxfs c).2 := by
      rw [hmap, List.map_map]
      apply List.map_congr_left
      intro ops _
      rw [condRun_dxf]; rfl
    simp only [saved, savedDxfs]
    rw [e]
    exact ⟨rfl, rfl⟩
  obtain ⟨styles, h1, _, _, h4⟩ := C51_dxfs_read_back_partial cells cls hasHyperlink hasComments hs hm hh hcl
  refine ⟨styles, by rw [hsaved.1]; exact h1, ?_⟩
  intro i ops hi
  have hops : ops ∈ sheets := List.mem_of_getElem? hi
  -- the formats of this worksheet
  have hcli : ∃ cl, cls[i]? = some cl ∧ cl.map Format.build = opFormats ops := by
    have : (cls.map (·.map Format.build))[i]? = some (opFormats ops) := by
      rw [hmap, List.getElem?_map, hi]; rfl
    rw [List.getElem?_map] at this
    cases hc : cls[i]? with
    | none => rw [hc] at this; cases this
    | some cl => rw [hc] at this; exact ⟨cl, rfl, by simpa using this⟩
  obtain ⟨cl, hcl1, hcl2⟩ := hcli
  -- the numbers
  obtain ⟨hinv, _, hget, _⟩ := DxfTable.addSheets_spec (sheets.map fun ops => (condRun ops).dxf.formats) DxfTable.inv_empty
  obtain ⟨global, hg1, _⟩ := hget i (condRun ops).dxf.formats (by rw [List.getElem?_map, hi]; rfl)
  have hg1' : saved.1[i]? = some global := hg1
  refine ⟨global, hg1', ?_⟩
  have hleads : Leads (readDxf styles) global (condRun ops).dxf := by
    intro j f hj
    have hjf : f ∈ opFormats ops := by
      have hmem := List.mem_of_getElem? hj
      rw [condRun_dxf] at hmem
      rcases (DxfTable.addAll_spec (opFormats ops) DxfTable.inv_empty).2.2.2 f hmem with h | h
      · simp at h
      · exact h
    obtain ⟨k, hk⟩ := List.getElem?_of_mem hjf
    have hk' : (cl.map Format.build)[k]? = some f := by rw [hcl2]; exact hk
    rw [List.getElem?_map] at hk'
    cases hck : cl[k]? with
    | none => rw [hck] at hk'; cases hk'
    | some cs =>
      rw [hck] at hk'
      have hfb : Format.build cs = f := by simpa using hk'
      obtain ⟨loc, gs, g, a1, a2, a3, a4⟩ := h4 i cl hcl1 k cs hck
      rw [← hsaved.2, hg1'] at a2
      have : global = gs := by simpa using a2
      subst this
      rw [hfb] at a4
      have hlone := (hf ops hops f hjf).2
      -- the number is the one of the table
      obtain ⟨l', b1, b2⟩ := (DxfTable.addAll_spec (opFormats ops) DxfTable.inv_empty).2.2.1 k f hk
      rw [hcl2] at a1
      have hll : l' = loc := by
        have : some l' = some loc := b1.symm.trans a1
        simpa using this
      subst hll
      have hjl : j = l' := by
        have hti := (condRun_inv ops).dxf
        have b2' : (condRun ops).dxf.formats[l']? = some f := by rw [condRun_dxf]; exact b2
        rw [← hti.keys] at hj b2'
        exact Option.some.inj ((lookup_of_get hti.tbl hj).symm.trans (lookup_of_get hti.tbl b2'))
      subst hjl
      exact ⟨g, a3, a4 hlone⟩
  intro as pre post has hpre hpost
  obtain ⟨r1, r2, r3⟩ := condTrees_read hleads i (hok ops hops)
  refine ⟨_, C07_part_roundtrip _ (treeOk_node (by decide) has (ok_append (ok_append hpre.ok r3) hpost.ok)), ?_⟩
  simp only [Tree.toNode]
  unfold readConds
  dsimp only
  rw [elems_trees, List.filter_append, List.filter_append, hpre.filter (by simp), hpost.filter (by simp), List.nil_append,
    List.append_nil, r1, r2]

end Verif
