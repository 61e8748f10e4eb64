import Verif.Lemmas.PackageObjs
/-!
The content types of a package: the defaults, the overrides, and the type each name gets.
-/
namespace Verif
open Spec

/-! ### The extension of a name -/

theorem extensionFrom_noDot (cur : Str) (e : Str) (h : '.' ∉ e) : extensionFrom cur e = cur := by
  induction e generalizing cur with
  | nil => rfl
  | cons c t ih =>
    rw [extensionFrom, if_neg (by intro hc; exact h (by simp [hc])), ih _ (by intro hc; exact h (by simp [hc]))]

theorem extensionFrom_dot (cur x e : Str) (h : '.' ∉ e) : extensionFrom cur (x ++ '.' :: e) = e := by
  induction x generalizing cur with
  | nil => rw [List.nil_append, extensionFrom, if_pos rfl, extensionFrom_noDot _ _ h]
  | cons c t ih =>
    rw [List.cons_append, extensionFrom]
    split
    · exact ih _
    · exact ih _

theorem extension_dot (x e : Str) (h : '.' ∉ e) : extension (x ++ '.' :: e) = e := extensionFrom_dot _ _ _ h

/-! ### Overrides -/

/-- The default types. -/
def PBook.defaults (b : PBook) : List (Str × Str) :=
  [("rels".toList, "application/vnd.openxmlformats-package.relationships+xml".toList),
      ("xml".toList, "application/xml".toList)] ++
     (if b.allSheets.any (fun s => s.hasVml || !s.hf.isEmpty) then
       [("vml".toList, "application/vnd.openxmlformats-officedocument.vmlDrawing".toList)] else []) ++
     (if b.usesType .png then [("png".toList, "image/png".toList)] else []) ++
     (if b.usesType .jpeg then [("jpeg".toList, "image/jpeg".toList)] else []) ++
     (if b.usesType .gif then [("gif".toList, "image/gif".toList)] else []) ++
     (if b.usesType .bmp then [("bmp".toList, "image/bmp".toList)] else []) ++
     (if b.vba.isSome then [("bin".toList, "application/vnd.ms-office.vbaProject".toList)] else [])

theorem defaults_nodup (b : PBook) : (b.defaults.map Prod.fst).Nodup := by
  have key : ∀ v1 v2 v3 v4 v5 v6 : Bool, ((["rels".toList, "xml".toList] ++ (if v1 then ["vml".toList] else []) ++
      (if v2 then ["png".toList] else []) ++ (if v3 then ["jpeg".toList] else []) ++
      (if v4 then ["gif".toList] else []) ++ (if v5 then ["bmp".toList] else []) ++
      (if v6 then ["bin".toList] else []) : List Str)).Nodup := by decide +kernel
  have := key (b.allSheets.any (fun s => s.hasVml || !s.hf.isEmpty)) (b.usesType .png) (b.usesType .jpeg)
    (b.usesType .gif) (b.usesType .bmp) b.vba.isSome
  have e : b.defaults.map Prod.fst = (["rels".toList, "xml".toList] ++
      (if b.allSheets.any (fun s => s.hasVml || !s.hf.isEmpty) then ["vml".toList] else []) ++
      (if b.usesType .png then ["png".toList] else []) ++ (if b.usesType .jpeg then ["jpeg".toList] else []) ++
      (if b.usesType .gif then ["gif".toList] else []) ++ (if b.usesType .bmp then ["bmp".toList] else []) ++
      (if b.vba.isSome then ["bin".toList] else [])) := by
    rw [PBook.defaults]
    simp only [List.map_append, apply_ite (List.map Prod.fst), List.map_cons, List.map_nil]
  rw [e]
  exact this

/-- The overrides in groups, with the names without their digits. -/
def PBook.overrideGroups (b : PBook) : List (List (Str × Str) × List Str) :=
  let sheets := b.allSheets
  [([("/docProps/app.xml".toList,
       "application/vnd.openxmlformats-officedocument.extended-properties+xml".toList),
      ("/docProps/core.xml".toList, "application/vnd.openxmlformats-package.core-properties+xml".toList),
      ("/xl/styles.xml".toList,
       "application/vnd.openxmlformats-officedocument.spreadsheetml.styles+xml".toList),
      ("/xl/theme/theme1.xml".toList, "application/vnd.openxmlformats-officedocument.theme+xml".toList)],
    ["/docProps/app.xml".toList, "/docProps/core.xml".toList, "/xl/styles.xml".toList,
     "/xl/theme/theme.xml".toList]),
   (if b.vba.isSome then
       [("/xl/workbook.xml".toList, "application/vnd.ms-excel.sheet.macroEnabled.main+xml".toList)] ++
         (if b.signature.isSome then
           [("/xl/vbaProjectSignature.bin".toList,
             "application/vnd.ms-office.vbaProjectSignature".toList)] else [])
      else
       [("/xl/workbook.xml".toList,
         "application/vnd.openxmlformats-officedocument.spreadsheetml.sheet.main+xml".toList)],
    ["/xl/workbook.xml".toList, "/xl/vbaProjectSignature.bin".toList]),
   (overrides (sheets.filter fun s => !s.chartsheet).length "/xl/worksheets/sheet".toList ".xml".toList
       "application/vnd.openxmlformats-officedocument.spreadsheetml.worksheet+xml".toList,
    ["/xl/worksheets/sheet.xml".toList]),
   (overrides (sheets.filter fun s => s.chartsheet).length "/xl/chartsheets/sheet".toList ".xml".toList
       "application/vnd.openxmlformats-officedocument.spreadsheetml.chartsheet+xml".toList,
    ["/xl/chartsheets/sheet.xml".toList]),
   (overrides (sheets.filter PSheet.hasDrawing).length "/xl/drawings/drawing".toList ".xml".toList
       "application/vnd.openxmlformats-officedocument.drawing+xml".toList,
    ["/xl/drawings/drawing.xml".toList]),
   (overrides (sheets.map fun s => s.charts.length).sum "/xl/charts/chart".toList ".xml".toList
       "application/vnd.openxmlformats-officedocument.drawingml.chart+xml".toList,
    ["/xl/charts/chart.xml".toList]),
   (overrides (sheets.map fun s => s.tables.length).sum "/xl/tables/table".toList ".xml".toList
       "application/vnd.openxmlformats-officedocument.spreadsheetml.table+xml".toList,
    ["/xl/tables/table.xml".toList]),
   (overrides (sheets.filter fun s => s.notes.isSome).length "/xl/comments".toList ".xml".toList
       "application/vnd.openxmlformats-officedocument.spreadsheetml.comments+xml".toList,
    ["/xl/comments.xml".toList]),
   (if b.sst then [("/xl/sharedStrings.xml".toList,
       "application/vnd.openxmlformats-officedocument.spreadsheetml.sharedStrings+xml".toList)] else [],
    ["/xl/sharedStrings.xml".toList]),
   (if b.hasMetadata then [("/xl/metadata.xml".toList,
       "application/vnd.openxmlformats-officedocument.spreadsheetml.sheetMetadata+xml".toList)] else [],
    ["/xl/metadata.xml".toList]),
   (if b.hasEmbedded then
       [("/xl/richData/rdRichValueTypes.xml".toList, "application/vnd.ms-excel.rdrichvaluetypes+xml".toList),
        ("/xl/richData/rdrichvalue.xml".toList, "application/vnd.ms-excel.rdrichvalue+xml".toList),
        ("/xl/richData/rdrichvaluestructure.xml".toList,
         "application/vnd.ms-excel.rdrichvaluestructure+xml".toList),
        ("/xl/richData/richValueRel.xml".toList, "application/vnd.ms-excel.richvaluerel+xml".toList)]
      else [],
    ["/xl/richData/rdRichValueTypes.xml".toList, "/xl/richData/rdrichvalue.xml".toList,
     "/xl/richData/rdrichvaluestructure.xml".toList, "/xl/richData/richValueRel.xml".toList]),
   (if b.bags then [("/xl/featurePropertyBag/featurePropertyBag.xml".toList,
       "application/vnd.ms-excel.featurepropertybag+xml".toList)] else [],
    ["/xl/featurePropertyBag/featurePropertyBag.xml".toList]),
   (if b.custom then [("/docProps/custom.xml".toList,
       "application/vnd.openxmlformats-officedocument.custom-properties+xml".toList)] else [],
    ["/docProps/custom.xml".toList])]

/-- All overrides. -/
def PBook.allOverrides (b : PBook) : List (Str × Str) := (b.overrideGroups.map Prod.fst).flatten

theorem contentTypes_eq (b : PBook) : b.contentTypes = .types b.defaults b.allOverrides := by
  simp only [PBook.contentTypes, PBook.allOverrides, PBook.overrideGroups, List.map_cons, List.map_nil,
    List.flatten_cons, List.flatten_nil, List.append_nil, List.append_assoc, PBook.defaults]

theorem mem_overrides {n : Nat} {a c t : Str} {x : Str × Str} :
    x ∈ overrides n a c t ↔ ∃ i, i < n ∧ x = (a ++ showNat (i + 1) ++ c, t) := by
  rw [overrides, List.mem_map]
  constructor
  · rintro ⟨i, hi, rfl⟩; exact ⟨i, List.mem_range.1 hi, rfl⟩
  · rintro ⟨i, hi, rfl⟩; exact ⟨i, List.mem_range.2 hi, rfl⟩

theorem overrides_ok {n : Nat} {a c t k : Str} (ha : a.filter isDigit = []) (hc : c.filter isDigit = [])
    (hk : skel a ++ skel c = k) :
    ((overrides n a c t).map Prod.fst).Nodup ∧ ∀ x ∈ (overrides n a c t).map Prod.fst, skel x ∈ [k] := by
  constructor
  · rw [overrides, List.map_map]
    refine List.Pairwise.map _ ?_ List.nodup_range
    intro i j hij e
    have h1 := idx_num (i + 1) ha hc
    have h2 := idx_num (j + 1) ha hc
    simp only [Function.comp] at e
    rw [e] at h1
    omega
  · intro x hx
    obtain ⟨y, hy, rfl⟩ := List.mem_map.1 hx
    obtain ⟨i, _, rfl⟩ := mem_overrides.1 hy
    rw [skel_num, hk]; simp

/-- A fixed list with a condition. -/
theorem fixed_group' {c : Bool} {l : List (Str × Str)} {S : List Str} (h1 : (l.map Prod.fst).Nodup)
    (h2 : ∀ x ∈ l.map Prod.fst, skel x ∈ S) :
    (((if c then l else []).map Prod.fst).Nodup) ∧ ∀ x ∈ (if c then l else []).map Prod.fst, skel x ∈ S := by
  cases c with
  | true => exact ⟨h1, h2⟩
  | false => simp

theorem overrideGroups_ok (b : PBook) : ∀ g ∈ b.overrideGroups, (g.1.map Prod.fst).Nodup ∧
    ∀ x ∈ g.1.map Prod.fst, skel x ∈ g.2 := by
  intro g hg
  simp only [PBook.overrideGroups, List.mem_cons, List.not_mem_nil, or_false] at hg
  rcases hg with rfl | rfl | rfl | rfl | rfl | rfl | rfl | rfl | rfl | rfl | rfl | rfl | rfl
  · exact ⟨by simp only [List.map_cons, List.map_nil]; decide, by simp only [List.map_cons, List.map_nil]; decide⟩
  · dsimp only
    cases b.vba.isSome with
    | false =>
      simp only [Bool.false_eq_true, if_false, List.map_cons, List.map_nil]
      exact ⟨by decide, by decide⟩
    | true =>
      cases b.signature.isSome with
      | false =>
        simp only [Bool.false_eq_true, if_false, if_true, List.append_nil, List.map_cons, List.map_nil]
        exact ⟨by decide, by decide⟩
      | true =>
        simp only [if_true, List.cons_append, List.nil_append, List.map_cons, List.map_nil]
        exact ⟨by decide, by decide⟩
  · exact overrides_ok (by decide) (by decide) (by decide)
  · exact overrides_ok (by decide) (by decide) (by decide)
  · exact overrides_ok (by decide) (by decide) (by decide)
  · exact overrides_ok (by decide) (by decide) (by decide)
  · exact overrides_ok (by decide) (by decide) (by decide)
  · exact overrides_ok (by decide) (by decide) (by decide)
  · exact fixed_group' (by simp only [List.map_cons, List.map_nil]; decide)
      (by simp only [List.map_cons, List.map_nil]; decide)
  · exact fixed_group' (by simp only [List.map_cons, List.map_nil]; decide)
      (by simp only [List.map_cons, List.map_nil]; decide)
  · exact fixed_group' (by simp only [List.map_cons, List.map_nil]; decide)
      (by simp only [List.map_cons, List.map_nil]; decide)
  · exact fixed_group' (by simp only [List.map_cons, List.map_nil]; decide)
      (by simp only [List.map_cons, List.map_nil]; decide)
  · exact fixed_group' (by simp only [List.map_cons, List.map_nil]; decide)
      (by simp only [List.map_cons, List.map_nil]; decide)

theorem overrides_nodup (b : PBook) : (b.allOverrides.map Prod.fst).Nodup := by
  have h : b.allOverrides.map Prod.fst =
      ((b.overrideGroups.map fun g => (g.1.map Prod.fst, g.2)).map Prod.fst).flatten := by
    rw [PBook.allOverrides, List.map_flatten, List.map_map, List.map_map]
    rfl
  rw [h]
  refine nodup_flatten_groups _ ?_ ?_ ?_
  · intro g hg
    obtain ⟨g', hg', rfl⟩ := List.mem_map.1 hg
    exact (overrideGroups_ok b g' hg').1
  · intro g hg
    obtain ⟨g', hg', rfl⟩ := List.mem_map.1 hg
    exact (overrideGroups_ok b g' hg').2
  · have hp : ((b.overrideGroups.map fun g => (g.1.map Prod.fst, g.2)).map Prod.snd).Pairwise
        fun S S' => ∀ k ∈ S, k ∉ S' := by
      simp only [PBook.overrideGroups, List.map_cons, List.map_nil]
      decide +kernel
    rw [List.pairwise_map] at hp
    exact hp

/-- The names of the overrides without digits. -/
def overrideSkels : List Str :=
  ["/docProps/app.xml".toList, "/docProps/core.xml".toList, "/xl/styles.xml".toList,
   "/xl/theme/theme.xml".toList, "/xl/workbook.xml".toList, "/xl/vbaProjectSignature.bin".toList,
   "/xl/worksheets/sheet.xml".toList, "/xl/chartsheets/sheet.xml".toList, "/xl/drawings/drawing.xml".toList,
   "/xl/charts/chart.xml".toList, "/xl/tables/table.xml".toList, "/xl/comments.xml".toList,
   "/xl/sharedStrings.xml".toList, "/xl/metadata.xml".toList, "/xl/richData/rdRichValueTypes.xml".toList,
   "/xl/richData/rdrichvalue.xml".toList, "/xl/richData/rdrichvaluestructure.xml".toList,
   "/xl/richData/richValueRel.xml".toList, "/xl/featurePropertyBag/featurePropertyBag.xml".toList,
   "/docProps/custom.xml".toList]

theorem overrides_skel {b : PBook} {x : Str × Str} (h : x ∈ b.allOverrides) : skel x.1 ∈ overrideSkels := by
  rw [PBook.allOverrides, List.mem_flatten] at h
  obtain ⟨l, hl, hx⟩ := h
  obtain ⟨g, hg, rfl⟩ := List.mem_map.1 hl
  have h1 := (overrideGroups_ok b g hg).2 _ (List.mem_map.2 ⟨x, hx, rfl⟩)
  have h2 : ∀ S ∈ b.overrideGroups.map Prod.snd, ∀ k ∈ S, k ∈ overrideSkels := by
    simp only [PBook.overrideGroups, List.map_cons, List.map_nil]
    decide +kernel
  exact h2 _ (List.mem_map.2 ⟨g, hg, rfl⟩) _ h1

theorem lookup_types (b : PBook) : b.entries.lookup "[Content_Types].xml".toList =
    some (.types b.defaults b.allOverrides) := by
  rw [← contentTypes_eq]
  exact lookup_entries (mem_group_at (b := b) 0 rfl List.mem_cons_self)

theorem type_of_override {b : PBook} {name t : Str} (h : ('/' :: name, t) ∈ b.allOverrides) :
    contentTypeOf b.entries name = some t := by
  rw [contentTypeOf, lookup_types]
  dsimp only
  rw [lookup_of_mem_nodup (overrides_nodup b) h]

theorem type_of_default {b : PBook} {name t : Str} (h : skel ('/' :: name) ∉ overrideSkels)
    (hd : (extension name, t) ∈ b.defaults) : contentTypeOf b.entries name = some t := by
  rw [contentTypeOf, lookup_types]
  dsimp only
  cases hl : b.allOverrides.lookup ('/' :: name) with
  | some x => exact absurd (overrides_skel (mem_of_lookup hl)) h
  | none => exact lookup_of_mem_nodup (defaults_nodup b) hd

theorem override_at {b : PBook} {x : Str × Str} (i : Nat) {g : List (Str × Str)} {S : List Str}
    (h : b.overrideGroups[i]? = some (g, S)) (hx : x ∈ g) : x ∈ b.allOverrides := by
  rw [PBook.allOverrides, List.mem_flatten]
  exact ⟨g, List.mem_map.2 ⟨(g, S), List.mem_of_getElem? h, rfl⟩, hx⟩

end Verif
