import Verif.Lemmas.PackageImages
/-!
Where the parts of a sheet are in the package.
-/
namespace Verif
open Spec

theorem prepared_at {b : PBook} {P Q : List (PSheet × Prep)} {x : PSheet × Prep}
    (h : b.prepared = P ++ x :: Q) :
    b.allSheets = P.map Prod.fst ++ x.1 :: Q.map Prod.fst ∧ x.2 = b.prepAt (P.map Prod.fst) x.1 := by
  have h1 : b.allSheets = P.map Prod.fst ++ x.1 :: Q.map Prod.fst := by
    rw [← prepared_fst, h]; simp
  refine ⟨h1, ?_⟩
  obtain ⟨P', Q', h2, hp, _⟩ := prepared_split b _ _ _ h1
  rw [h] at h2
  have hl : P.length = P'.length := by
    have := congrArg List.length hp
    simpa using this.symm
  have := List.append_inj h2 hl
  have h3 := this.2
  simp only [List.cons.injEq] at h3
  rw [h3.1]

theorem prepared_objs {b : PBook} {x : PSheet × Prep} (h : x ∈ b.prepared) :
    (!x.2.objs.isEmpty) = x.1.hasDrawing := by
  obtain ⟨P, Q, h⟩ := List.append_of_mem h
  rw [(prepared_at h).2]
  exact objs_isEmpty _ _

theorem filter_fst_length (P : List (PSheet × Prep)) (f : PSheet → Bool) :
    (P.filter fun x => f x.1).length = ((P.map Prod.fst).filter f).length := by
  rw [List.filter_map, List.length_map]; rfl

theorem filter_zip_length {α β : Type} (P : List α) (V : List β) (h : P.length = V.length) (f : α → Bool) :
    ((P.zip V).filter fun x => f x.1).length = (P.filter f).length := by
  have e : P = (P.zip V).map Prod.fst := (List.map_fst_zip (by omega)).symm
  rw [show (P.filter f).length = (((P.zip V).map Prod.fst).filter f).length by rw [← e],
    List.filter_map, List.length_map]
  rfl

/-- The vm numbers of a sheet that follows the sheets `pre`. -/
def PBook.vmAt (b : PBook) (pre : List PSheet) (s : PSheet) : List Nat :=
  (prepEmbedded (embSt [] [] pre).1 (embSt [] [] pre).2 s.embedded).2.2

/-- The number of a worksheet after `pre`. -/
def wsIdx (pre : List PSheet) : Nat := 1 + (pre.filter fun s => !s.chartsheet).length
/-- The number of a chartsheet after `pre`. -/
def csIdx (pre : List PSheet) : Nat := 1 + (pre.filter fun s => s.chartsheet).length
/-- The number of a drawing after `pre`. -/
def drIdx (pre : List PSheet) : Nat := 1 + (pre.filter PSheet.hasDrawing).length

theorem zip_split {b : PBook} {pre post : List PSheet} {s : PSheet} (h : b.allSheets = pre ++ s :: post) :
    ∃ Z Y, b.prepared.zip b.embeddeds.2 = Z ++ ((s, b.prepAt pre s), b.vmAt pre s) :: Y ∧
      (Z.filter fun x => !x.1.1.chartsheet).length = (pre.filter fun s => !s.chartsheet).length := by
  obtain ⟨P, Q, hp, hp1, _⟩ := prepared_split b pre s post h
  have he := (prepEmbeddeds_append [] [] pre (s :: post)).2
  obtain ⟨V, hV, he⟩ := he
  have he2 : b.embeddeds.2 = V ++ b.vmAt pre s ::
      (prepEmbeddeds (prepEmbedded (embSt [] [] pre).1 (embSt [] [] pre).2 s.embedded).1
        (prepEmbedded (embSt [] [] pre).1 (embSt [] [] pre).2 s.embedded).2.1 post).2 := by
    rw [PBook.embeddeds, h, he]; rfl
  have hl : P.length = V.length := by rw [hV, ← hp1, List.length_map]
  refine ⟨P.zip V, Q.zip (prepEmbeddeds (prepEmbedded (embSt [] [] pre).1 (embSt [] [] pre).2 s.embedded).1
        (prepEmbedded (embSt [] [] pre).1 (embSt [] [] pre).2 s.embedded).2.1 post).2, ?_, ?_⟩
  · rw [hp, he2, List.zip_append hl, List.zip_cons_cons]
  · rw [filter_zip_length P V hl (fun x => !x.1.chartsheet), filter_fst_length P (fun s => !s.chartsheet), hp1]

/-! ### Members of the groups -/

theorem mem_group_at {b : PBook} {e : Entry} (i : Nat) {g : List Entry} {S : List Str}
    (h : b.groups[i]? = some (g, S)) (he : e ∈ g) : e ∈ b.entries :=
  mem_entries_group (List.mem_of_getElem? h) he

theorem numbered_at {α : Type} {f : Nat → α → List Entry} {n j : Nat} {l : List α} {a : α} {e : Entry}
    (h : l[j]? = some a) (he : e ∈ f (n + j) a) : e ∈ numbered (fun _ => true) f n l := by
  rw [mem_numbered]
  refine ⟨l.take j, a, l.drop (j + 1), ?_, rfl, ?_⟩
  · have := List.getElem?_eq_some_iff.1 h
    obtain ⟨hj, ha⟩ := this
    rw [← ha, List.getElem_cons_drop, List.take_append_drop]
  · have hj := (List.getElem?_eq_some_iff.1 h).1
    rw [List.filter_eq_self.2 (by simp), List.length_take, Nat.min_eq_left (by omega)]
    exact he

section
variable {b : PBook} {pre post : List PSheet} {s : PSheet}

/-- The relationships of a worksheet. -/
def PBook.wsRels (b : PBook) (pre : List PSheet) (s : PSheet) : List PRel :=
  s.linkRels ++ (b.prepAt pre s).drawingObject ++ (b.prepAt pre s).background ++ (b.prepAt pre s).table ++
    (b.prepAt pre s).comment

theorem mem_ws (h : b.allSheets = pre ++ s :: post) (hc : s.chartsheet = false) {e : Entry}
    (he : e ∈ worksheetEntries (wsIdx pre) ((s, b.prepAt pre s), b.vmAt pre s)) : e ∈ b.entries := by
  obtain ⟨Z, Y, hz, hl⟩ := zip_split h
  refine mem_group_at (b := b) 1 rfl ?_
  rw [mem_numbered]
  refine ⟨Z, _, Y, hz, by simp [hc], ?_⟩
  rw [hl]; exact he

theorem mem_cs (h : b.allSheets = pre ++ s :: post) (hc : s.chartsheet = true) {e : Entry}
    (he : e ∈ chartsheetEntries (csIdx pre) (s, b.prepAt pre s)) : e ∈ b.entries := by
  obtain ⟨P, Q, hp, hp1, _⟩ := prepared_split b pre s post h
  refine mem_group_at (b := b) 2 rfl ?_
  rw [mem_numbered]
  refine ⟨P, _, Q, hp, by simp [hc], ?_⟩
  rw [filter_fst_length P (fun s => s.chartsheet), hp1]; exact he

theorem filter_objs_length {P Q : List (PSheet × Prep)} {x : PSheet × Prep}
    (hp : b.prepared = P ++ x :: Q) :
    (P.filter fun x => !x.2.objs.isEmpty).length = ((P.map Prod.fst).filter PSheet.hasDrawing).length := by
  rw [← filter_fst_length P PSheet.hasDrawing]
  congr 1
  apply List.filter_congr
  intro x hx
  exact prepared_objs (b := b) (by rw [hp]; simp [hx])

theorem objs_prepAt (b : PBook) (pre : List PSheet) (s : PSheet) :
    (!(b.prepAt pre s).objs.isEmpty) = s.hasDrawing := objs_isEmpty _ _

theorem mem_dr (h : b.allSheets = pre ++ s :: post) (hd : s.hasDrawing = true) {e : Entry}
    (he : e ∈ drawingEntries (drIdx pre) (s, b.prepAt pre s)) : e ∈ b.entries := by
  obtain ⟨P, Q, hp, hp1, _⟩ := prepared_split b pre s post h
  refine mem_group_at (b := b) 6 rfl ?_
  rw [mem_numbered]
  refine ⟨P, _, Q, hp, by rw [objs_prepAt]; exact hd, ?_⟩
  rw [filter_objs_length hp, hp1]; exact he

theorem mem_drr (h : b.allSheets = pre ++ s :: post) (hd : s.hasDrawing = true) {e : Entry}
    (he : e ∈ drawingRelEntries (drIdx pre) (s, b.prepAt pre s)) : e ∈ b.entries := by
  obtain ⟨P, Q, hp, hp1, _⟩ := prepared_split b pre s post h
  refine mem_group_at (b := b) 13 rfl ?_
  rw [mem_numbered]
  refine ⟨P, _, Q, hp, by rw [objs_prepAt]; exact hd, ?_⟩
  rw [filter_objs_length hp, hp1]; exact he

theorem vmlItems_length (x : PSheet × Prep) : (vmlItems x).length = nVml x.1 := by
  rw [vmlItems, nVml, List.length_append]
  congr 1
  · split <;> rfl
  · split <;> rfl

theorem vmlItems_total (P : List (PSheet × Prep)) :
    (P.flatMap vmlItems).length = vmlCount (P.map Prod.fst) := by
  induction P with
  | nil => rfl
  | cons x t ih =>
    rw [List.flatMap_cons, List.length_append, ih, vmlItems_length, List.map_cons]
    simp only [vmlCount, List.map_cons, List.sum_cons]

theorem mem_vm (h : b.allSheets = pre ++ s :: post) {j : Nat} {it : VmlItem}
    (hi : (vmlItems (s, b.prepAt pre s))[j]? = some it) {e : Entry}
    (he : e ∈ vmlEntries (1 + vmlCount pre + j) it) : e ∈ b.entries := by
  obtain ⟨P, Q, hp, hp1, _⟩ := prepared_split b pre s post h
  refine mem_group_at (b := b) 7 rfl ?_
  refine numbered_at (j := vmlCount pre + j) (a := it) ?_ ?_
  · rw [hp, List.flatMap_append, List.flatMap_cons]
    rw [List.getElem?_append_right (by rw [vmlItems_total, hp1]; omega), vmlItems_total, hp1,
      Nat.add_sub_cancel_left, List.getElem?_append_left]
    · exact hi
    · exact (List.getElem?_eq_some_iff.1 hi).1
  · rw [← Nat.add_assoc]; exact he

theorem mem_co (h : b.allSheets = pre ++ s :: post) {n : Nat} (hn : s.notes = some n) :
    (coName (1 + noteCount pre), Part.comments n) ∈ b.entries := by
  refine mem_group_at (b := b) 8 rfl ?_
  rw [mem_numbered]
  refine ⟨pre, s, post, h, by rw [hn]; rfl, ?_⟩
  rw [commentEntries, hn]
  exact List.mem_singleton.2 rfl

theorem mem_me {j : Nat} {im : PImage}
    (h : (b.embeddeds.1 ++ sheetMedia [] [] [] b.allSheets)[j]? = some im) :
    (imName (j + 1) im.kind, Part.media im.data) ∈ b.entries := by
  refine mem_group_at (b := b) 9 rfl ?_
  refine numbered_at (j := j) (a := im) h ?_
  rw [Nat.add_comm]
  exact List.mem_singleton.2 rfl

theorem flatMap_at {α β : Type} {f : α → List β} {pre post : List α} {s : α} {j : Nat} {x : β}
    (h : (f s)[j]? = some x) :
    ((pre ++ s :: post).flatMap f)[(pre.map fun a => (f a).length).sum + j]? = some x := by
  rw [List.flatMap_append, List.flatMap_cons, List.getElem?_append_right (by rw [List.length_flatMap]; omega),
    List.length_flatMap, Nat.add_sub_cancel_left, List.getElem?_append_left]
  · exact h
  · exact (List.getElem?_eq_some_iff.1 h).1

theorem mem_ch (h : b.allSheets = pre ++ s :: post) {j c : Nat} (hc : s.charts[j]? = some c) :
    (chName (1 + (pre.map fun s => s.charts.length).sum + j), Part.chart c) ∈ b.entries := by
  refine mem_group_at (b := b) 10 rfl ?_
  refine numbered_at (j := (pre.map fun s => s.charts.length).sum + j) (a := c) ?_ ?_
  · rw [h]; exact flatMap_at hc
  · rw [← Nat.add_assoc]; exact List.mem_singleton.2 rfl

theorem mem_tb (h : b.allSheets = pre ++ s :: post) {j t : Nat} (ht : s.tables[j]? = some t) :
    (tbName (1 + tableCount pre + j), Part.table t) ∈ b.entries := by
  refine mem_group_at (b := b) 11 rfl ?_
  refine numbered_at (j := tableCount pre + j) (a := t) ?_ ?_
  · rw [h]; exact flatMap_at ht
  · rw [← Nat.add_assoc]; exact List.mem_singleton.2 rfl

/-! ### Relationship files -/

theorem relsOf_of_mem {part : Str} {l : List PRel} (h : (relsName part, relsPart l) ∈ b.entries) :
    relsOf b.entries part = numberedRels l := by
  rw [relsOf, lookup_entries h]; rfl

theorem relsOf_ws (h : b.allSheets = pre ++ s :: post) (hc : s.chartsheet = false)
    (hr : hasRelationships s (b.prepAt pre s) = true) :
    relsOf b.entries (wsName (wsIdx pre)) = numberedRels (b.wsRels pre s) := by
  apply relsOf_of_mem
  refine mem_ws h hc ?_
  rw [worksheetEntries, if_pos hr, relsName_ws]
  exact List.mem_append_right _ (List.mem_singleton.2 rfl)

theorem relsOf_cs (h : b.allSheets = pre ++ s :: post) (hc : s.chartsheet = true)
    (hr : hasRelationships s (b.prepAt pre s) = true) :
    relsOf b.entries (csName (csIdx pre)) = numberedRels (b.prepAt pre s).drawingObject := by
  apply relsOf_of_mem
  refine mem_cs h hc ?_
  rw [chartsheetEntries, if_pos hr, relsName_cs]
  exact List.mem_append_right _ (List.mem_singleton.2 rfl)

theorem relsOf_dr (h : b.allSheets = pre ++ s :: post) (hd : s.hasDrawing = true)
    (hr : (b.prepAt pre s).drawing ≠ []) :
    relsOf b.entries (drName (drIdx pre)) = numberedRels (b.prepAt pre s).drawing := by
  apply relsOf_of_mem
  refine mem_drr h hd ?_
  rw [drawingRelEntries, if_neg (by simpa using hr), relsName_dr]
  exact List.mem_singleton.2 rfl

theorem lookup_ws (h : b.allSheets = pre ++ s :: post) (hc : s.chartsheet = false) :
    b.entries.lookup (wsName (wsIdx pre)) = some (.worksheet (s.refs (b.vmAt pre s))) := by
  refine lookup_entries (mem_ws h hc ?_)
  rw [worksheetEntries]
  exact List.mem_append_left _ (List.mem_singleton.2 rfl)

theorem lookup_cs (h : b.allSheets = pre ++ s :: post) (hc : s.chartsheet = true) :
    b.entries.lookup (csName (csIdx pre)) = some (.chartsheet s.chartsheetRefs) := by
  refine lookup_entries (mem_cs h hc ?_)
  rw [chartsheetEntries]
  exact List.mem_append_left _ (List.mem_singleton.2 rfl)

theorem lookup_dr (h : b.allSheets = pre ++ s :: post) (hd : s.hasDrawing = true) :
    b.entries.lookup (drName (drIdx pre)) = some (.drawing (b.prepAt pre s).objs) :=
  lookup_entries (mem_dr h hd (List.mem_singleton.2 rfl))

theorem destination_part {z : Zip} {src : Str} {r : PRel} {name : Str} {p : Part} (hm : r.mode = [])
    (hh : r.target.head? ≠ some '#') (hr : resolve src r.target = name) (hl : z.lookup name = some p) :
    destination z src r = some (.part name p) := by
  rw [destination, if_neg (by rw [hm]; decide)]
  split
  · rename_i q hq; rw [hq] at hh; exact absurd rfl hh
  · rw [hr, hl]; rfl

/-! ### The way from the workbook to a sheet -/

theorem sheetRelList_at (w c : Nat) (pre : List PSheet) (s : PSheet) (post : List PSheet) :
    (sheetRelList w c (pre ++ s :: post))[pre.length]? = some
      (if s.chartsheet then
        { type := "chartsheet".toList
          target := "chartsheets/sheet".toList ++
            showNat (c + (pre.filter fun s => s.chartsheet).length) ++ ".xml".toList }
      else { type := "worksheet".toList
             target := "worksheets/sheet".toList ++
               showNat (w + (pre.filter fun s => !s.chartsheet).length) ++ ".xml".toList }) := by
  induction pre generalizing w c with
  | nil =>
    rw [List.nil_append, sheetRelList]
    split <;> rfl
  | cons x t ih =>
    rw [List.cons_append, sheetRelList]
    by_cases hx : x.chartsheet = true
    · rw [if_pos hx, List.length_cons, List.getElem?_cons_succ, ih, List.filter_cons, List.filter_cons]
      simp only [hx, if_true, Bool.not_true, List.length_cons]
      rw [show c + 1 + (t.filter fun s => s.chartsheet).length =
        c + ((t.filter fun s => s.chartsheet).length + 1) by omega]
      rfl
    · rw [if_neg hx, List.length_cons, List.getElem?_cons_succ, ih, List.filter_cons, List.filter_cons]
      have hx' : x.chartsheet = false := by simpa using hx
      simp only [hx', Bool.not_false, if_true, List.length_cons]
      rw [show w + 1 + (t.filter fun s => !s.chartsheet).length =
        w + ((t.filter fun s => !s.chartsheet).length + 1) by omega]
      rfl

theorem sheetRelList_length (w c : Nat) (l : List PSheet) : (sheetRelList w c l).length = l.length := by
  induction l generalizing w c with
  | nil => rfl
  | cons x t ih =>
    rw [sheetRelList]
    split <;> rw [List.length_cons, ih, List.length_cons]

theorem workbookRels_length (b : PBook) : b.workbookRels.length ≤ b.allSheets.length + 10 := by
  simp only [PBook.workbookRels, List.length_append, sheetRelList_length]
  have : ∀ (c : Bool) (l : List PRel), (if c then l else []).length ≤ l.length := by
    intro c l; cases c <;> simp
  have h1 := this b.sst [{ type := "sharedStrings".toList, target := "sharedStrings.xml".toList }]
  have h2 := this b.hasMetadata [{ type := "sheetMetadata".toList, target := "metadata.xml".toList }]
  have h3 := this b.vba.isSome [{ type := "vbaProject".toList, target := "vbaProject.bin".toList }]
  have h4 := this b.hasEmbedded [{ type := "richValueRel".toList, target := "richData/richValueRel.xml".toList },
     { type := "rdRichValue".toList, target := "richData/rdrichvalue.xml".toList },
     { type := "rdRichValueStructure".toList, target := "richData/rdrichvaluestructure.xml".toList },
     { type := "rdRichValueTypes".toList, target := "richData/rdRichValueTypes.xml".toList }]
  have h5 := this b.bags [{ type := "FeaturePropertyBag".toList
                            target := "featurePropertyBag/featurePropertyBag.xml".toList }]
  simp only [List.length_cons, List.length_nil] at h1 h2 h3 h4 h5 ⊢
  omega

/-- The name of the sheet after `pre`. -/
def sheetPath (pre : List PSheet) (s : PSheet) : Str :=
  if s.chartsheet then csName (csIdx pre) else wsName (wsIdx pre)

theorem sheetName_at (h : b.allSheets = pre ++ s :: post) (hn : b.allSheets.length + 10 < 65536) :
    sheetName b.entries pre.length = some (sheetPath pre s) := by
  have hw : b.entries.lookup "xl/workbook.xml".toList = some (.workbook b.sheetIds) := by
    refine lookup_entries (mem_group_at (b := b) 0 rfl ?_)
    simp only [List.mem_cons, true_or, or_true]
  have hr : relsOf b.entries "xl/workbook.xml".toList = numberedRels b.workbookRels := by
    have hm : ("xl/_rels/workbook.xml.rels".toList, relsPart b.workbookRels) ∈ b.entries := by
      refine mem_group_at (b := b) 0 rfl ?_
      simp only [List.mem_cons, true_or, or_true]
    have e : relsName "xl/workbook.xml".toList = "xl/_rels/workbook.xml.rels".toList := by decide +kernel
    apply relsOf_of_mem
    rw [e]; exact hm
  have hlen := workbookRels_length b
  have hp : pre.length < b.allSheets.length := by rw [h]; simp
  have hid : b.sheetIds[pre.length]? = some (relStr (pre.length + 1)) := by
    rw [PBook.sheetIds, List.getElem?_map, List.getElem?_range hp]
    simp only [Option.map_some]
    rw [Nat.mod_eq_of_lt (by omega)]
  have hrel : b.workbookRels[pre.length]? = (sheetRelList 1 1 b.allSheets)[pre.length]? := by
    rw [PBook.workbookRels]
    simp only [List.append_assoc]
    rw [List.getElem?_append_left (by rw [sheetRelList_length]; exact hp)]
  have hl : (relsOf b.entries "xl/workbook.xml".toList).lookup (relStr (pre.length + 1)) =
      (sheetRelList 1 1 (pre ++ s :: post))[pre.length]? := by
    rw [hr, lookup_numberedRels (by omega), hrel, h]
  rw [sheetRelList_at] at hl
  rw [sheetName, hw]
  dsimp only
  rw [hid, Option.bind_some, follow, hl]
  by_cases hc : s.chartsheet = true
  · simp only [hc, if_true, Option.bind_some, sheetPath]
    have hd : destination b.entries "xl/workbook.xml".toList
        { type := "chartsheet".toList
          target := "chartsheets/sheet".toList ++
            showNat (1 + (pre.filter fun s => s.chartsheet).length) ++ ".xml".toList } =
        some (.part (csName (csIdx pre)) (.chartsheet s.chartsheetRefs)) := by
      exact destination_part rfl (by simp) (resolve_cs _) (lookup_cs h hc)
    rw [hd]; rfl
  · have hc' : s.chartsheet = false := by simpa using hc
    simp only [hc', Option.bind_some, sheetPath]
    have hd : destination b.entries "xl/workbook.xml".toList
        { type := "worksheet".toList
          target := "worksheets/sheet".toList ++
            showNat (1 + (pre.filter fun s => !s.chartsheet).length) ++ ".xml".toList } =
        some (.part (wsName (wsIdx pre)) (.worksheet (s.refs (b.vmAt pre s)))) := by
      exact destination_part rfl (by simp) (resolve_ws _) (lookup_ws h hc')
    simp only [Bool.false_eq_true, if_false]
    rw [hd]; rfl

end

end Verif
