import Verif.Lemmas.Package
/-!
The names of the parts of a package are pairwise different.
-/
namespace Verif
open Spec

/-- A name without its digits. -/
def skel (s : Str) : Str := s.filter fun c => !isDigit c
/-- The number in a name. -/
def idx (s : Str) : Nat := digitsValue (s.filter isDigit)

theorem skel_num (a b : Str) (n : Nat) : skel (a ++ showNat n ++ b) = skel a ++ skel b := by
  have : (showNat n).filter (fun c => !isDigit c) = [] := by
    rw [List.filter_eq_nil_iff]
    intro c hc
    simp [showNat_isDigit hc]
  rw [skel, List.filter_append, List.filter_append, this]
  simp [skel]

theorem idx_num {a b : Str} (n : Nat) (ha : a.filter isDigit = []) (hb : b.filter isDigit = []) :
    idx (a ++ showNat n ++ b) = n := by
  have : (showNat n).filter isDigit = showNat n := by
    rw [List.filter_eq_self]
    intro c hc
    exact showNat_isDigit hc
  rw [idx, List.filter_append, List.filter_append, this, ha, hb]
  simp [digitsValue_showNat]

theorem nodup_flatten_groups (gs : List (List Str × List Str))
    (h1 : ∀ g ∈ gs, g.1.Nodup) (h2 : ∀ g ∈ gs, ∀ x ∈ g.1, skel x ∈ g.2)
    (h3 : gs.Pairwise fun g g' => ∀ k ∈ g.2, k ∉ g'.2) : (gs.map Prod.fst).flatten.Nodup := by
  induction gs with
  | nil => simp
  | cons g t ih =>
    rw [List.pairwise_cons] at h3
    rw [List.map_cons, List.flatten_cons, List.nodup_append]
    refine ⟨h1 g (by simp), ih (fun x hx => h1 x (by simp [hx])) (fun x hx => h2 x (by simp [hx])) h3.2, ?_⟩
    intro x hx y hy e
    subst e
    rw [List.mem_flatten] at hy
    obtain ⟨l, hl, hxl⟩ := hy
    obtain ⟨g', hg', rfl⟩ := List.mem_map.1 hl
    exact h3.1 g' hg' _ (h2 g (by simp) x hx) (h2 g' (by simp [hg']) x hxl)

theorem numbered_idx {α : Type} {used : α → Bool} {f : Nat → α → List Entry}
    (hf : ∀ m a, ∀ e ∈ f m a, idx e.1 = m) {n : Nat} {l : List α} {e : Entry}
    (h : e ∈ numbered used f n l) : n ≤ idx e.1 := by
  obtain ⟨pre, a, _, _, _, he⟩ := (mem_numbered used f n l e).1 h
  rw [hf _ _ _ he]; omega

theorem nodup_numbered {α : Type} (used : α → Bool) (f : Nat → α → List Entry)
    (hf : ∀ m a, ∀ e ∈ f m a, idx e.1 = m) (hn : ∀ m a, ((f m a).map Prod.fst).Nodup)
    (n : Nat) (l : List α) : ((numbered used f n l).map Prod.fst).Nodup := by
  induction l generalizing n with
  | nil => simp [numbered]
  | cons a t ih =>
    rw [numbered]
    split
    · rw [List.map_append, List.nodup_append]
      refine ⟨hn n a, ih (n + 1), ?_⟩
      intro x hx y hy e
      subst e
      obtain ⟨e1, he1, rfl⟩ := List.mem_map.1 hx
      obtain ⟨e2, he2, heq⟩ := List.mem_map.1 hy
      have h1 := hf n a e1 he1
      have h2 := numbered_idx hf he2
      rw [heq] at h2
      omega
    · exact ih n

theorem skel_numbered {α : Type} (used : α → Bool) (f : Nat → α → List Entry) (S : List Str)
    (hf : ∀ m a, ∀ e ∈ f m a, skel e.1 ∈ S) (n : Nat) (l : List α) :
    ∀ x ∈ (numbered used f n l).map Prod.fst, skel x ∈ S := by
  intro x hx
  obtain ⟨e, he, rfl⟩ := List.mem_map.1 hx
  obtain ⟨_, a, _, _, _, he⟩ := (mem_numbered used f n l e).1 he
  exact hf _ _ _ he

theorem two_nodup {x y : Str} (h : skel x ≠ skel y) : [x, y].Nodup := by
  rw [List.nodup_cons]
  refine ⟨?_, by simp⟩
  intro hm
  rw [List.mem_singleton] at hm
  exact h (by rw [hm])

theorem ws_idx : ∀ (m : Nat) (a : (PSheet × Prep) × List Nat), ∀ e ∈ worksheetEntries m a, idx e.1 = m := by
  intro m a e he
  rw [worksheetEntries] at he
  rcases List.mem_append.1 he with h | h
  · rw [List.mem_singleton] at h; subst h; exact idx_num m (by decide) (by decide)
  · split at h
    · rw [List.mem_singleton] at h; subst h; exact idx_num m (by decide) (by decide)
    · simp at h
theorem ws_skel : ∀ (m : Nat) (a : (PSheet × Prep) × List Nat), ∀ e ∈ worksheetEntries m a,
    skel e.1 ∈ ["xl/worksheets/sheet.xml".toList, "xl/worksheets/_rels/sheet.xml.rels".toList] := by
  intro m a e he
  rw [worksheetEntries] at he
  rcases List.mem_append.1 he with h | h
  · rw [List.mem_singleton] at h; subst h; rw [skel_num]; decide
  · split at h
    · rw [List.mem_singleton] at h; subst h; rw [skel_num]; decide
    · simp at h
theorem ws_nodup : ∀ (m : Nat) (a : (PSheet × Prep) × List Nat),
    ((worksheetEntries m a).map Prod.fst).Nodup := by
  intro m a
  rw [worksheetEntries]
  split
  · exact two_nodup (by rw [skel_num, skel_num]; decide)
  · simp

theorem cs_idx : ∀ (m : Nat) (a : PSheet × Prep), ∀ e ∈ chartsheetEntries m a, idx e.1 = m := by
  intro m a e he
  rw [chartsheetEntries] at he
  rcases List.mem_append.1 he with h | h
  · rw [List.mem_singleton] at h; subst h; exact idx_num m (by decide) (by decide)
  · split at h
    · rw [List.mem_singleton] at h; subst h; exact idx_num m (by decide) (by decide)
    · simp at h
theorem cs_skel : ∀ (m : Nat) (a : PSheet × Prep), ∀ e ∈ chartsheetEntries m a,
    skel e.1 ∈ ["xl/chartsheets/sheet.xml".toList, "xl/chartsheets/_rels/sheet.xml.rels".toList] := by
  intro m a e he
  rw [chartsheetEntries] at he
  rcases List.mem_append.1 he with h | h
  · rw [List.mem_singleton] at h; subst h; rw [skel_num]; decide
  · split at h
    · rw [List.mem_singleton] at h; subst h; rw [skel_num]; decide
    · simp at h
theorem cs_nodup : ∀ (m : Nat) (a : PSheet × Prep),
    ((chartsheetEntries m a).map Prod.fst).Nodup := by
  intro m a
  rw [chartsheetEntries]
  split
  · exact two_nodup (by rw [skel_num, skel_num]; decide)
  · simp

theorem vm_idx : ∀ (m : Nat) (a : VmlItem), ∀ e ∈ vmlEntries m a, idx e.1 = m := by
  intro m a e he
  cases a with
  | objects =>
    rw [vmlEntries, List.mem_singleton] at he; subst he; exact idx_num m (by decide) (by decide)
  | images =>
    rw [vmlEntries, List.mem_cons, List.mem_singleton] at he
    rcases he with rfl | rfl
    · exact idx_num m (by decide) (by decide)
    · exact idx_num m (by decide) (by decide)
theorem vm_skel : ∀ (m : Nat) (a : VmlItem), ∀ e ∈ vmlEntries m a,
    skel e.1 ∈ ["xl/drawings/vmlDrawing.vml".toList, "xl/drawings/_rels/vmlDrawing.vml.rels".toList] := by
  intro m a e he
  cases a with
  | objects =>
    rw [vmlEntries, List.mem_singleton] at he; subst he; rw [skel_num]; decide
  | images =>
    rw [vmlEntries, List.mem_cons, List.mem_singleton] at he
    rcases he with rfl | rfl
    · rw [skel_num]; decide
    · rw [skel_num]; decide
theorem vm_nodup : ∀ (m : Nat) (a : VmlItem), ((vmlEntries m a).map Prod.fst).Nodup := by
  intro m a
  cases a with
  | objects => simp [vmlEntries]
  | images => exact two_nodup (by rw [skel_num, skel_num]; decide)

theorem dr_idx : ∀ (m : Nat) (a : PSheet × Prep), ∀ e ∈ drawingEntries m a, idx e.1 = m := by
  intro m a e he
  rw [drawingEntries, List.mem_singleton] at he; subst he; exact idx_num m (by decide) (by decide)
theorem dr_skel : ∀ (m : Nat) (a : PSheet × Prep), ∀ e ∈ drawingEntries m a,
    skel e.1 ∈ ["xl/drawings/drawing.xml".toList] := by
  intro m a e he
  rw [drawingEntries, List.mem_singleton] at he; subst he; rw [skel_num]; decide

theorem drr_idx : ∀ (m : Nat) (a : PSheet × Prep), ∀ e ∈ drawingRelEntries m a, idx e.1 = m := by
  intro m a e he
  rw [drawingRelEntries] at he
  split at he
  · simp at he
  · rw [List.mem_singleton] at he; subst he; exact idx_num m (by decide) (by decide)
theorem drr_skel : ∀ (m : Nat) (a : PSheet × Prep), ∀ e ∈ drawingRelEntries m a,
    skel e.1 ∈ ["xl/drawings/_rels/drawing.xml.rels".toList] := by
  intro m a e he
  rw [drawingRelEntries] at he
  split at he
  · simp at he
  · rw [List.mem_singleton] at he; subst he; rw [skel_num]; decide

theorem co_idx : ∀ (m : Nat) (a : PSheet), ∀ e ∈ commentEntries m a, idx e.1 = m := by
  intro m a e he
  rw [commentEntries] at he
  split at he
  · rw [List.mem_singleton] at he; subst he; exact idx_num m (by decide) (by decide)
  · simp at he
theorem co_skel : ∀ (m : Nat) (a : PSheet), ∀ e ∈ commentEntries m a,
    skel e.1 ∈ ["xl/comments.xml".toList] := by
  intro m a e he
  rw [commentEntries] at he
  split at he
  · rw [List.mem_singleton] at he; subst he; rw [skel_num]; decide
  · simp at he

theorem me_idx : ∀ (m : Nat) (a : PImage), ∀ e ∈ mediaEntries m a, idx e.1 = m := by
  intro m a e he
  rw [mediaEntries, List.mem_singleton] at he; subst he
  rw [List.append_assoc]
  exact idx_num m (by decide) (by cases a.kind <;> decide)
theorem me_skel : ∀ (m : Nat) (a : PImage), ∀ e ∈ mediaEntries m a,
    skel e.1 ∈ ["xl/media/image.png".toList, "xl/media/image.jpeg".toList, "xl/media/image.gif".toList,
      "xl/media/image.bmp".toList] := by
  intro m a e he
  rw [mediaEntries, List.mem_singleton] at he; subst he
  rw [List.append_assoc, skel_num]
  cases a.kind <;> decide

theorem ch_idx : ∀ (m : Nat) (a : Nat), ∀ e ∈ chartEntries m a, idx e.1 = m := by
  intro m a e he
  rw [chartEntries, List.mem_singleton] at he; subst he; exact idx_num m (by decide) (by decide)
theorem ch_skel : ∀ (m : Nat) (a : Nat), ∀ e ∈ chartEntries m a, skel e.1 ∈ ["xl/charts/chart.xml".toList] := by
  intro m a e he
  rw [chartEntries, List.mem_singleton] at he; subst he; rw [skel_num]; decide

theorem tb_idx : ∀ (m : Nat) (a : Nat), ∀ e ∈ tableEntries m a, idx e.1 = m := by
  intro m a e he
  rw [tableEntries, List.mem_singleton] at he; subst he; exact idx_num m (by decide) (by decide)
theorem tb_skel : ∀ (m : Nat) (a : Nat), ∀ e ∈ tableEntries m a, skel e.1 ∈ ["xl/tables/table.xml".toList] := by
  intro m a e he
  rw [tableEntries, List.mem_singleton] at he; subst he; rw [skel_num]; decide

/-- The VBA entries. -/
def PBook.vbaEntries (b : PBook) : List Entry :=
  match b.vba with
    | none => []
    | some v =>
      [("xl/vbaProject.bin".toList, .vbaProject v)] ++
      (match b.signature with
        | none => []
        | some g =>
          [("xl/vbaProjectSignature.bin".toList, .vbaSignature g),
           ("xl/_rels/vbaProject.bin.rels".toList,
            relsPart [{ type := "vbaProjectSignature".toList
                        target := "vbaProjectSignature.bin".toList }])])

/-- The entries in groups, each with the skeletons of its names. -/
def PBook.groups (b : PBook) : List (List Entry × List Str) :=
  let all := b.prepared
  [([("[Content_Types].xml".toList, b.contentTypes),
     ("_rels/.rels".toList, relsPart b.rootRels),
     ("xl/_rels/workbook.xml.rels".toList, relsPart b.workbookRels),
     ("xl/theme/theme1.xml".toList, .plain .theme),
     ("xl/styles.xml".toList, .plain .styles),
     ("xl/workbook.xml".toList, .workbook b.sheetIds)],
    ["[Content_Types].xml".toList, "_rels/.rels".toList, "xl/_rels/workbook.xml.rels".toList,
     "xl/theme/theme.xml".toList, "xl/styles.xml".toList, "xl/workbook.xml".toList]),
   (numbered (fun x => !x.1.1.chartsheet) worksheetEntries 1 (all.zip b.embeddeds.2),
    ["xl/worksheets/sheet.xml".toList, "xl/worksheets/_rels/sheet.xml.rels".toList]),
   (numbered (fun x => x.1.chartsheet) chartsheetEntries 1 all,
    ["xl/chartsheets/sheet.xml".toList, "xl/chartsheets/_rels/sheet.xml.rels".toList]),
   (if b.sst then [("xl/sharedStrings.xml".toList, .plain .sharedStrings)] else [],
    ["xl/sharedStrings.xml".toList]),
   ([("docProps/core.xml".toList, .plain .core), ("docProps/app.xml".toList, .plain .app)],
    ["docProps/core.xml".toList, "docProps/app.xml".toList]),
   (if b.custom then [("docProps/custom.xml".toList, .plain .custom)] else [],
    ["docProps/custom.xml".toList]),
   (numbered (fun x => !x.2.objs.isEmpty) drawingEntries 1 all, ["xl/drawings/drawing.xml".toList]),
   (numbered (fun _ => true) vmlEntries 1 (all.flatMap vmlItems),
    ["xl/drawings/vmlDrawing.vml".toList, "xl/drawings/_rels/vmlDrawing.vml.rels".toList]),
   (numbered (fun s => s.notes.isSome) commentEntries 1 b.allSheets, ["xl/comments.xml".toList]),
   (numbered (fun _ => true) mediaEntries 1 (b.embeddeds.1 ++ sheetMedia [] [] [] b.allSheets),
    ["xl/media/image.png".toList, "xl/media/image.jpeg".toList, "xl/media/image.gif".toList,
      "xl/media/image.bmp".toList]),
   (numbered (fun _ => true) chartEntries 1 (b.allSheets.flatMap PSheet.charts),
    ["xl/charts/chart.xml".toList]),
   (numbered (fun _ => true) tableEntries 1 (b.allSheets.flatMap PSheet.tables),
    ["xl/tables/table.xml".toList]),
   (b.vbaEntries, ["xl/vbaProject.bin".toList, "xl/vbaProjectSignature.bin".toList,
     "xl/_rels/vbaProject.bin.rels".toList]),
   (numbered (fun x => !x.2.objs.isEmpty) drawingRelEntries 1 all,
    ["xl/drawings/_rels/drawing.xml.rels".toList]),
   (if b.hasMetadata then [("xl/metadata.xml".toList, .plain .metadata)] else [],
    ["xl/metadata.xml".toList]),
   (if b.hasEmbedded then
    [("xl/richData/_rels/richValueRel.xml.rels".toList, relsPart (richRels b.embeddeds.1)),
     ("xl/richData/rdrichvalue.xml".toList, .plain .rdRichValue),
     ("xl/richData/rdRichValueTypes.xml".toList, .plain .rdRichValueTypes),
     ("xl/richData/rdrichvaluestructure.xml".toList, .plain .rdRichValueStructure),
     ("xl/richData/richValueRel.xml".toList,
      .richValueRel ((List.range b.embeddeds.1.length).map fun i => relStr (i + 1)))] else [],
    ["xl/richData/_rels/richValueRel.xml.rels".toList, "xl/richData/rdrichvalue.xml".toList,
     "xl/richData/rdRichValueTypes.xml".toList, "xl/richData/rdrichvaluestructure.xml".toList,
     "xl/richData/richValueRel.xml".toList]),
   (if b.bags then
    [("xl/featurePropertyBag/featurePropertyBag.xml".toList, .plain .featurePropertyBag)] else [],
    ["xl/featurePropertyBag/featurePropertyBag.xml".toList])]

theorem entries_eq_groups (b : PBook) : b.entries = (b.groups.map Prod.fst).flatten := by
  simp only [PBook.entries, PBook.groups, List.map_cons, List.map_nil, List.flatten_cons,
    List.flatten_nil, List.append_nil, List.append_assoc]
  rfl

/-- A fixed list of entries with a condition. -/
theorem fixed_group {c : Bool} {l : List Entry} {S : List Str} (h1 : (l.map Prod.fst).Nodup)
    (h2 : ∀ x ∈ l.map Prod.fst, skel x ∈ S) :
    (((if c then l else []).map Prod.fst).Nodup) ∧ ∀ x ∈ (if c then l else []).map Prod.fst, skel x ∈ S := by
  cases c with
  | true => exact ⟨h1, h2⟩
  | false => simp

theorem groups_ok (b : PBook) : ∀ g ∈ b.groups, (g.1.map Prod.fst).Nodup ∧
    ∀ x ∈ g.1.map Prod.fst, skel x ∈ g.2 := by
  intro g hg
  simp only [PBook.groups, List.mem_cons, List.not_mem_nil, or_false] at hg
  rcases hg with rfl | rfl | rfl | rfl | rfl | rfl | rfl | rfl | rfl | rfl | rfl | rfl | rfl | rfl | rfl | rfl | rfl
  · refine ⟨by simp only [List.map_cons, List.map_nil]; decide, ?_⟩
    simp only [List.map_cons, List.map_nil]; decide
  · exact ⟨nodup_numbered _ _ ws_idx ws_nodup _ _, skel_numbered _ _ _ ws_skel _ _⟩
  · exact ⟨nodup_numbered _ _ cs_idx cs_nodup _ _, skel_numbered _ _ _ cs_skel _ _⟩
  · exact fixed_group (by simp only [List.map_cons, List.map_nil]; decide)
      (by simp only [List.map_cons, List.map_nil]; decide)
  · refine ⟨by simp only [List.map_cons, List.map_nil]; decide, ?_⟩
    simp only [List.map_cons, List.map_nil]; decide
  · exact fixed_group (by simp only [List.map_cons, List.map_nil]; decide)
      (by simp only [List.map_cons, List.map_nil]; decide)
  · exact ⟨nodup_numbered _ _ dr_idx (by intro m a; simp [drawingEntries]) _ _, skel_numbered _ _ _ dr_skel _ _⟩
  · exact ⟨nodup_numbered _ _ vm_idx vm_nodup _ _, skel_numbered _ _ _ vm_skel _ _⟩
  · exact ⟨nodup_numbered _ _ co_idx (by intro m a; rw [commentEntries]; split <;> simp) _ _,
      skel_numbered _ _ _ co_skel _ _⟩
  · exact ⟨nodup_numbered _ _ me_idx (by intro m a; simp [mediaEntries]) _ _, skel_numbered _ _ _ me_skel _ _⟩
  · exact ⟨nodup_numbered _ _ ch_idx (by intro m a; simp [chartEntries]) _ _, skel_numbered _ _ _ ch_skel _ _⟩
  · exact ⟨nodup_numbered _ _ tb_idx (by intro m a; simp [tableEntries]) _ _, skel_numbered _ _ _ tb_skel _ _⟩
  · dsimp only [PBook.vbaEntries]
    cases b.vba with
    | none => simp
    | some v =>
      cases b.signature with
      | none =>
        simp only [List.append_nil, List.map_cons, List.map_nil]
        exact ⟨by decide, by decide⟩
      | some w =>
        simp only [List.cons_append, List.nil_append, List.map_cons, List.map_nil]
        exact ⟨by decide, by decide⟩
  · exact ⟨nodup_numbered _ _ drr_idx (by intro m a; rw [drawingRelEntries]; split <;> simp) _ _,
      skel_numbered _ _ _ drr_skel _ _⟩
  · exact fixed_group (by simp only [List.map_cons, List.map_nil]; decide)
      (by simp only [List.map_cons, List.map_nil]; decide)
  · exact fixed_group (by simp only [List.map_cons, List.map_nil]; decide)
      (by simp only [List.map_cons, List.map_nil]; decide)
  · exact fixed_group (by simp only [List.map_cons, List.map_nil]; decide)
      (by simp only [List.map_cons, List.map_nil]; decide)

theorem names_nodup (b : PBook) : (b.entries.map Prod.fst).Nodup := by
  have h : b.entries.map Prod.fst =
      ((b.groups.map fun g => (g.1.map Prod.fst, g.2)).map Prod.fst).flatten := by
    rw [entries_eq_groups, List.map_flatten, List.map_map, List.map_map]
    rfl
  rw [h]
  refine nodup_flatten_groups _ ?_ ?_ ?_
  · intro g hg
    obtain ⟨g', hg', rfl⟩ := List.mem_map.1 hg
    exact (groups_ok b g' hg').1
  · intro g hg
    obtain ⟨g', hg', rfl⟩ := List.mem_map.1 hg
    exact (groups_ok b g' hg').2
  · have hp : ((b.groups.map fun g => (g.1.map Prod.fst, g.2)).map Prod.snd).Pairwise
        fun S S' => ∀ k ∈ S, k ∉ S' := by
      simp only [PBook.groups, List.map_cons, List.map_nil]
      decide +kernel
    rw [List.pairwise_map] at hp
    exact hp

theorem lookup_of_mem_nodup {α : Type} {l : List (Str × α)} (h : (l.map Prod.fst).Nodup) {k : Str} {v : α}
    (hm : (k, v) ∈ l) : l.lookup k = some v := by
  induction l with
  | nil => simp at hm
  | cons e t ih =>
    rw [List.map_cons, List.nodup_cons] at h
    obtain ⟨k', v'⟩ := e
    rw [List.lookup_cons]
    rcases List.mem_cons.1 hm with he | ht
    · cases he; simp
    · have hne : k ≠ k' := by
        intro e; subst e
        exact h.1 (List.mem_map.2 ⟨(k, v), ht, rfl⟩)
      have hb : (k == k') = false := by simpa using hne
      rw [hb]
      exact ih h.2 ht

theorem lookup_entries {b : PBook} {k : Str} {p : Part} (h : (k, p) ∈ b.entries) :
    b.entries.lookup k = some p := lookup_of_mem_nodup (names_nodup b) h

theorem mem_entries_group {b : PBook} {g : List Entry} {S : List Str} (hg : (g, S) ∈ b.groups) {e : Entry}
    (he : e ∈ g) : e ∈ b.entries := by
  rw [entries_eq_groups, List.mem_flatten]
  exact ⟨g, List.mem_map.2 ⟨(g, S), hg, rfl⟩, he⟩

end Verif
