import Verif.Lemmas.PackageTypes
/-!
C19: every relationship of every part leads to a file of the package (or outside, or to a place in the
document), and every relationship file belongs to a part.
-/
namespace Verif
open Spec

/-! ### The relationship file determines the part -/

theorem segmentsFrom_ne (cur x : Str) : segmentsFrom cur x ≠ [] := by
  induction x generalizing cur with
  | nil => simp [segmentsFrom]
  | cons c t ih => rw [segmentsFrom]; split <;> simp [ih]

theorem segmentsFrom_noSlash (cur x : Str) (hc : noSlash cur) : ∀ s ∈ segmentsFrom cur x, noSlash s := by
  induction x generalizing cur with
  | nil => intro s hs; rw [segmentsFrom, List.mem_singleton] at hs; rw [hs]; exact hc
  | cons c t ih =>
    intro s hs
    rw [segmentsFrom] at hs
    split at hs
    · rcases List.mem_cons.1 hs with rfl | hs
      · exact hc
      · exact ih [] (by intro c h; simp at h) s hs
    · rename_i hne
      refine ih (cur ++ [c]) ?_ s hs
      intro d hd
      rcases List.mem_append.1 hd with hd | hd
      · exact hc d hd
      · rw [List.mem_singleton] at hd; rw [hd]; exact hne

theorem joinPath_segmentsFrom (cur x : Str) : joinPath (segmentsFrom cur x) = cur ++ x := by
  induction x generalizing cur with
  | nil => simp [segmentsFrom, joinPath]
  | cons c t ih =>
    rw [segmentsFrom]
    split
    · rename_i hc
      cases h : segmentsFrom [] t with
      | nil => exact absurd h (segmentsFrom_ne _ _)
      | cons u v =>
        rw [joinPath]
        · rw [← h, ih, hc]; rfl
        · simp
    · rw [ih]; simp

theorem relsName_inj {x y : Str} (h : relsName x = relsName y) : x = y := by
  have key : ∀ z, segments (relsName z) = (segments z).dropLast ++
      ["_rels".toList, ((segments z).getLast?.getD []) ++ ".rels".toList] := by
    intro z
    rw [relsName]
    apply segments_joinPath
    · simp
    · intro s hs
      have hz : ∀ s ∈ segments z, noSlash s := segmentsFrom_noSlash [] z (by intro c h; simp at h)
      rcases List.mem_append.1 hs with hs | hs
      · exact hz s ((List.dropLast_sublist _).subset hs)
      · simp only [List.mem_cons, List.not_mem_nil, or_false] at hs
        rcases hs with rfl | rfl
        · exact noSlash_of_all (by decide)
        · refine noSlash_append ?_ (noSlash_of_all (by decide))
          cases hl : (segments z).getLast? with
          | none => intro c h; simp at h
          | some s => exact hz s (List.mem_of_getLast? hl)
  have h1 : segments (relsName x) = segments (relsName y) := by rw [h]
  rw [key, key] at h1
  have h2 := List.append_inj_right' h1 (by rfl)
  have h3 := List.append_inj_left' h1 (by rfl)
  simp only [List.cons.injEq, and_true, true_and] at h2
  have h4 := List.append_inj_left' h2 rfl
  have e : ∀ z, z = joinPath ((segments z).dropLast ++ [(segments z).getLast?.getD []]) := by
    intro z
    have hne : segments z ≠ [] := segmentsFrom_ne _ _
    rw [List.getLast?_eq_some_getLast hne, Option.getD_some, List.dropLast_concat_getLast, segments,
      joinPath_segmentsFrom]
    rfl
  rw [e x, e y, h3, h4]

/-! ### What the relationships of a drawing are -/

theorem get_mem (r : RelIds) (k : Str) (rel x : PRel) (h : x ∈ (r.get k rel).1.rels) : x ∈ r.rels ∨ x = rel := by
  rw [RelIds.get] at h
  cases hl : r.ids.lookup k with
  | some i => rw [hl] at h; exact Or.inl h
  | none =>
    rw [hl] at h
    dsimp only at h
    rcases List.mem_append.1 h with h | h
    · exact Or.inl h
    · exact Or.inr (List.mem_singleton.1 h)

theorem link_mem (r : RelIds) (o : Option PUrl) (x : PRel) (h : x ∈ (r.link o).1.rels) :
    x ∈ r.rels ∨ ∃ u, o = some u ∧ x = u.rel := by
  cases o with
  | none => exact Or.inl h
  | some u =>
    rcases get_mem r u.link u.rel x h with h | h
    · exact Or.inl h
    · exact Or.inr ⟨u, rfl, h⟩

theorem prepImages_mem (b : DrawBook) (r : RelIds) (l : List PImage) (x : PRel)
    (h : x ∈ (prepImages b r l).2.1.rels) :
    x ∈ r.rels ∨ (∃ im ∈ l, ∃ u, im.url = some u ∧ x = u.rel) ∨
      ∃ im ∈ l, ∃ id, (prepImages b r l).1.worksheetIds.lookup im.hash = some id ∧ x = imageRel id im.kind := by
  induction l generalizing b r with
  | nil => exact Or.inl h
  | cons im t ih =>
    obtain ⟨id, hid, hr, _⟩ := prepImage_id b r im
    have hst := prepImages_stable (prepImage b r im).1 (prepImage b r im).2.1 t
    have e1 : (prepImages b r (im :: t)).1 = (prepImages (prepImage b r im).1 (prepImage b r im).2.1 t).1 := rfl
    have e2 : (prepImages b r (im :: t)).2.1 = (prepImages (prepImage b r im).1 (prepImage b r im).2.1 t).2.1 := rfl
    rw [e2] at h
    rw [e1]
    rcases ih _ _ h with h | ⟨i, hi, u, hu, rfl⟩ | ⟨i, hi, id', hid', rfl⟩
    · rw [hr] at h
      rcases get_mem _ _ _ _ h with h | rfl
      · rcases link_mem _ _ _ h with h | ⟨u, hu, rfl⟩
        · exact Or.inl h
        · exact Or.inr (Or.inl ⟨im, by simp, u, hu, rfl⟩)
      · exact Or.inr (Or.inr ⟨im, by simp, id, hst _ _ hid, rfl⟩)
    · exact Or.inr (Or.inl ⟨i, by simp [hi], u, hu, rfl⟩)
    · exact Or.inr (Or.inr ⟨i, by simp [hi], id', hid', rfl⟩)

theorem prepShapes_mem (r : RelIds) (l : List (Nat × Option PUrl)) (x : PRel)
    (h : x ∈ (prepShapes r l).1.rels) : x ∈ r.rels ∨ ∃ sh ∈ l, ∃ u, sh.2 = some u ∧ x = u.rel := by
  induction l generalizing r with
  | nil => exact Or.inl h
  | cons y t ih =>
    obtain ⟨n, o⟩ := y
    have e1 : (prepShapes r ((n, o) :: t)).1 = (prepShapes (r.link o).1 t).1 := rfl
    rw [e1] at h
    rcases ih _ h with h | ⟨sh, hs, u, hu, rfl⟩
    · rcases link_mem _ _ _ h with h | ⟨u, hu, rfl⟩
      · exact Or.inl h
      · exact Or.inr ⟨(n, o), by simp, u, hu, rfl⟩
    · exact Or.inr ⟨sh, by simp [hs], u, hu, rfl⟩

theorem prepHeader_mem (base : Nat) (ids relIds : List (Str × Nat)) (rels : List PRel) (l : List PImage) (x : PRel)
    (h : x ∈ (prepHeader base ids relIds rels l).2.1) :
    x ∈ rels ∨ ∃ im ∈ l, ∃ id, (prepHeader base ids relIds rels l).1.lookup im.hash = some id ∧
      x = imageRel id im.kind := by
  induction l generalizing ids relIds rels with
  | nil => exact Or.inl h
  | cons im t ih =>
    have hid : ∃ ids' id relIds' rels', ids'.lookup im.hash = some id ∧
        (rels' = rels ∨ rels' = rels ++ [imageRel id im.kind]) ∧
        (prepHeader base ids relIds rels (im :: t)).1 = (prepHeader base ids' relIds' rels' t).1 ∧
        (prepHeader base ids relIds rels (im :: t)).2.1 = (prepHeader base ids' relIds' rels' t).2.1 := by
      cases h1 : ids.lookup im.hash with
      | some i =>
        cases h2 : relIds.lookup im.hash with
        | some j => exact ⟨ids, i, relIds, rels, h1, Or.inl rfl, by simp only [prepHeader, h1, h2], by simp only [prepHeader, h1, h2]⟩
        | none => exact ⟨ids, i, _, _, h1, Or.inr rfl, by simp only [prepHeader, h1, h2]; rfl, by simp only [prepHeader, h1, h2]⟩
      | none =>
        have hl : (hmapPut im.hash (1 + base + ids.length) ids).lookup im.hash = some (1 + base + ids.length) := by
          rw [lookup_hmapPut, if_pos rfl]
        cases h2 : relIds.lookup im.hash with
        | some j => exact ⟨_, _, relIds, rels, hl, Or.inl rfl, by simp only [prepHeader, h1, h2], by simp only [prepHeader, h1, h2]⟩
        | none => exact ⟨_, _, _, _, hl, Or.inr rfl, by simp only [prepHeader, h1, h2]; rfl, by simp only [prepHeader, h1, h2]⟩
    obtain ⟨ids', id, relIds', rels', h1, h2, h3, h4⟩ := hid
    rw [h4] at h
    rw [h3]
    have hst : Stable ids' (prepHeader base ids' relIds' rels' t).1 := by
      rw [prepHeader_ids]; exact assign_stable _ _ _
    rcases ih _ _ _ h with h | ⟨i, hi, id', hid', rfl⟩
    · rcases h2 with rfl | rfl
      · exact Or.inl h
      · rcases List.mem_append.1 h with h | h
        · exact Or.inl h
        · rw [List.mem_singleton] at h
          exact Or.inr ⟨im, by simp, id, hst _ _ h1, h⟩
    · exact Or.inr ⟨i, by simp [hi], id', hid', rfl⟩

/-! ### Closedness, part by part -/

theorem internal_all {b : PBook} (h : InternalOk b) {s : PSheet} (hs : s ∈ b.allSheets) :
    ∀ u ∈ objectLinks s, u.internal = true → u.target.head? = some '#' := by
  rcases mem_allSheets hs with hs | rfl
  · exact h s hs
  · intro u hu; simp [objectLinks] at hu

section
variable {b : PBook} {pre post : List PSheet} {s : PSheet}

/-- What is needed for images. -/
def ImgOk (b : PBook) (r : PRel) : Prop := r.type = "image".toList → HashOk b ∧ HeaderImagesLast b

theorem closed_background {src : Str} (hx : inXl src) (h : b.allSheets = pre ++ s :: post) {r : PRel}
    (hr : r ∈ (b.prepAt pre s).background) (hi : ImgOk b r) : (destination b.entries src r).isSome := by
  have hbg : (b.prepAt pre s).background = (prepBackground (drawState b.draw0 pre) s.background).2 := rfl
  rw [hbg, prepBackground_rels] at hr
  obtain ⟨im, him, rfl⟩ := List.mem_map.1 hr
  rw [Option.mem_toList] at him
  obtain ⟨hh, hf⟩ := hi rfl
  have hg := (good_at hf h).2.2
  have hst : (drawState b.draw0 (pre ++ [s])).backgroundIds =
      (prepBackground (drawState b.draw0 pre) s.background).1.backgroundIds := by
    rw [drawState_snoc, prepDrawing_fst]
    dsimp only
    rw [stImg, (prepImages_ids _ _ _).2.2.2.1, stBg]
  rw [hst] at hg
  have hid : ∃ id, (prepBackground (drawState b.draw0 pre) s.background).1.backgroundIds.lookup im.hash = some id := by
    rw [prepBackground_book]
    exact assign_mem (by rw [Option.mem_toList]; exact him)
  obtain ⟨id, hid⟩ := hid
  rw [hid, Option.getD_some, dest_image hh hx hg (s := s) (by rw [h]; simp) (im := im)
    (by have : s.background = some im := him; simp [imagesOf, this]) hid]
  rfl

theorem closed_objects {src : Str} (hx : inXl src) (h : b.allSheets = pre ++ s :: post) {r : PRel}
    (hr : r ∈ (b.prepAt pre s).drawingObject) : (destination b.entries src r).isSome := by
  rw [prepAt_drawingObject] at hr
  simp only [dRel, vRel, hRel, List.mem_append, List.mem_ite_nil_right, List.mem_singleton] at hr
  rcases hr with (⟨hd, rfl⟩ | ⟨hv, rfl⟩) | ⟨hf, rfl⟩
  · rw [dest_drawing hx h hd]; rfl
  · rw [dest_vml hx h hv]; rfl
  · rw [dest_hf hx h hf]; rfl

theorem closed_ws {src : Str} (hx : inXl src) (h : b.allSheets = pre ++ s :: post) {r : PRel}
    (hr : r ∈ b.wsRels pre s) (hi : ImgOk b r) : (destination b.entries src r).isSome := by
  rw [PBook.wsRels] at hr
  simp only [List.mem_append] at hr
  rcases hr with (((hr | hr) | hr) | hr) | hr
  · rw [PSheet.linkRels, List.mem_map] at hr
    obtain ⟨l, hl, rfl⟩ := hr
    have : l.2.internal = false := by simpa using (List.mem_filter.1 hl).2
    rw [dest_link (by intro h; rw [this] at h; cases h)]
    rfl
  · exact closed_objects hx h hr
  · exact closed_background hx h hr hi
  · have htb : (b.prepAt pre s).table = (List.range s.tables.length).map fun k => tableRel (1 + tableCount pre + k) := rfl
    rw [htb, List.mem_map] at hr
    obtain ⟨k, hk, rfl⟩ := hr
    rw [dest_table hx h (List.getElem?_eq_getElem (List.mem_range.1 hk))]
    rfl
  · rw [prepAt_comment, List.mem_ite_nil_right, List.mem_singleton] at hr
    obtain ⟨hn, rfl⟩ := hr
    obtain ⟨n, hn⟩ := Option.isSome_iff_exists.1 hn
    rw [dest_comment hx h hn]
    rfl

theorem closed_dr (hu : InternalOk b) {src : Str} (hx : inXl src) (h : b.allSheets = pre ++ s :: post) {r : PRel}
    (hr : r ∈ (b.prepAt pre s).drawing) (hi : ImgOk b r) : (destination b.entries src r).isSome := by
  have hs : s ∈ b.allSheets := by rw [h]; simp
  have e : (b.prepAt pre s).drawing = (prepShapes (stChart (drawState b.draw0 pre) s).1 s.shapes).1.rels := rfl
  rw [e] at hr
  rcases prepShapes_mem _ _ _ hr with hr | ⟨sh, hsh, u, hsu, rfl⟩
  · have hc : r ∈ (stImg (drawState b.draw0 pre) s).2.1.rels ∨
        ∃ j, j < s.charts.length ∧ r = { type := "chart".toList, target :=
          (chartTarget ((stImg (drawState b.draw0 pre) s).1.chartId + j)) } := by
      rw [stChart] at hr
      split at hr
      · exact Or.inl hr
      · simp only [prepCharts] at hr
        rcases List.mem_append.1 hr with hr | hr
        · exact Or.inl hr
        · obtain ⟨j, hj, rfl⟩ := List.mem_map.1 hr
          exact Or.inr ⟨j, List.mem_range.1 hj, rfl⟩
    rcases hc with hr | ⟨j, hj, rfl⟩
    · rcases prepImages_mem _ _ _ _ hr with hr | ⟨im, him, u, hiu, rfl⟩ | ⟨im, him, id, hid, rfl⟩
      · simp at hr
      · rw [dest_link (internal_all hu hs u (mem_objectLinks_image him hiu))]; rfl
      · obtain ⟨hh, hf⟩ := hi rfl
        have hg := (good_at hf h).1
        have hst : (drawState b.draw0 (pre ++ [s])).worksheetIds = (stImg (drawState b.draw0 pre) s).1.worksheetIds := by
          rw [drawState_snoc, prepDrawing_fst]
        rw [hst] at hg
        rw [dest_image hh hx hg hs (im := im) (by simp [imagesOf, him]) hid]
        rfl
    · have hcid := chartId_at b pre s
      rw [hcid, dest_chart hx h (List.getElem?_eq_getElem hj)]
      rfl
  · rw [dest_link (internal_all hu hs u (mem_objectLinks_shape hsh hsu))]; rfl

theorem closed_hf {src : Str} (hx : inXl src) (h : b.allSheets = pre ++ s :: post) {r : PRel}
    (hr : r ∈ (b.prepAt pre s).vmlDrawing) (hi : ImgOk b r) : (destination b.entries src r).isSome := by
  have e2 : (b.prepAt pre s).vmlDrawing = (stHf (drawState b.draw0 pre) s).2.1 :=
    (prepDrawing_hf (drawState b.draw0 pre) s).1
  rw [e2] at hr
  rcases prepHeader_mem _ _ _ _ _ _ hr with hr | ⟨im, him, id, hid, rfl⟩
  · simp at hr
  · obtain ⟨hh, hf⟩ := hi rfl
    have hg := (good_at hf h).2.1
    have hst : (drawState b.draw0 (pre ++ [s])).headerIds = (stHf (drawState b.draw0 pre) s).1 := by
      rw [drawState_snoc, prepDrawing_fst]
    rw [hst] at hg
    rw [dest_image hh hx hg (s := s) (by rw [h]; simp) (im := im) (by simp [imagesOf, him]) hid]
    rfl

theorem closed_rich {r : PRel} (hr : r ∈ richRels b.embeddeds.1) :
    (destination b.entries "xl/richData/richValueRel.xml".toList r).isSome := by
  rw [richRels, List.mem_map] at hr
  obtain ⟨⟨im, j⟩, hm, rfl⟩ := hr
  rw [List.mem_zipIdx_iff_getElem?] at hm
  dsimp only at hm ⊢
  have hj := (List.getElem?_eq_some_iff.1 hm).1
  have hmed : b.media[j]? = some im := by
    rw [PBook.media, List.getElem?_append_left hj, hm]
  rw [destination_part (name := imName (j + 1) im.kind) (p := .media im.data) rfl (head_image _ _)
    (resolve_image inXl_rich _ _) (lookup_entries (mem_me hmed))]
  rfl

theorem dest_fixed {src t : Str} {ty name : Str} {p : Part} (hr : resolve src t = name)
    (ht : t.head? ≠ some '#') (hm : (name, p) ∈ b.entries) :
    (destination b.entries src { type := ty, target := t }).isSome := by
  rw [destination_part rfl ht hr (lookup_entries hm)]
  rfl

theorem sheetRel_mem {w c : Nat} {l : List PSheet} {r : PRel} (h : r ∈ sheetRelList w c l) :
    ∃ pre s post, l = pre ++ s :: post ∧ r =
      (if s.chartsheet then
        { type := "chartsheet".toList
          target := "chartsheets/sheet".toList ++
            showNat (c + (pre.filter fun s => s.chartsheet).length) ++ ".xml".toList }
      else { type := "worksheet".toList
             target := "worksheets/sheet".toList ++
               showNat (w + (pre.filter fun s => !s.chartsheet).length) ++ ".xml".toList }) := by
  obtain ⟨i, hi, e⟩ := List.mem_iff_getElem.1 h
  have hl : i < l.length := by rw [sheetRelList_length] at hi; exact hi
  have hs : l = l.take i ++ l[i] :: l.drop (i + 1) := by
    rw [List.getElem_cons_drop, List.take_append_drop]
  refine ⟨l.take i, l[i], l.drop (i + 1), hs, ?_⟩
  have := sheetRelList_at w c (l.take i) l[i] (l.drop (i + 1))
  rw [← hs, List.length_take, Nat.min_eq_left (by omega), List.getElem?_eq_getElem hi, e] at this
  exact Option.some.inj this

end

theorem closed_workbook {b : PBook} {r : PRel} (hr : r ∈ b.workbookRels) :
    (destination b.entries "xl/workbook.xml".toList r).isSome := by
  rw [PBook.workbookRels] at hr
  simp only [List.mem_append, List.mem_cons, List.not_mem_nil, or_false, List.mem_ite_nil_right] at hr
  rcases hr with (((((hr | rfl | rfl) | ⟨hc, rfl⟩) | ⟨hc, rfl⟩) | ⟨hc, rfl⟩) | ⟨hc, rfl | rfl | rfl | rfl⟩) | ⟨hc, rfl⟩
  · obtain ⟨pre, s, post, h, rfl⟩ := sheetRel_mem hr
    by_cases hc : s.chartsheet = true
    · rw [if_pos hc]
      rw [destination_part rfl (by simp) (resolve_cs _) (lookup_cs h hc)]; rfl
    · have hc' : s.chartsheet = false := by simpa using hc
      rw [if_neg hc]
      rw [destination_part rfl (by simp) (resolve_ws _) (lookup_ws h hc')]; rfl
  · exact dest_fixed (name := "xl/theme/theme1.xml".toList) (by decide +kernel) (by decide)
      (mem_group_at (b := b) 0 rfl (List.mem_of_getElem? (i := 3) rfl))
  · exact dest_fixed (name := "xl/styles.xml".toList) (by decide +kernel) (by decide)
      (mem_group_at (b := b) 0 rfl (List.mem_of_getElem? (i := 4) rfl))
  · exact dest_fixed (name := "xl/sharedStrings.xml".toList) (by decide +kernel) (by decide)
      (mem_group_at (b := b) 3 rfl (by rw [if_pos hc]; exact List.mem_cons_self))
  · exact dest_fixed (name := "xl/metadata.xml".toList) (by decide +kernel) (by decide)
      (mem_group_at (b := b) 14 rfl (by rw [if_pos hc]; exact List.mem_cons_self))
  · obtain ⟨v, hv⟩ := Option.isSome_iff_exists.1 hc
    refine dest_fixed (name := "xl/vbaProject.bin".toList) (p := .vbaProject v) (by decide +kernel) (by decide)
      (mem_group_at (b := b) 12 rfl ?_)
    rw [PBook.vbaEntries, hv]
    exact List.mem_append_left _ List.mem_cons_self
  · exact dest_fixed (name := "xl/richData/richValueRel.xml".toList) (by decide +kernel) (by decide)
      (mem_group_at (b := b) 15 rfl (by rw [if_pos hc]; exact List.mem_of_getElem? (i := 4) rfl))
  · exact dest_fixed (name := "xl/richData/rdrichvalue.xml".toList) (by decide +kernel) (by decide)
      (mem_group_at (b := b) 15 rfl (by rw [if_pos hc]; exact List.mem_of_getElem? (i := 1) rfl))
  · exact dest_fixed (name := "xl/richData/rdrichvaluestructure.xml".toList) (by decide +kernel) (by decide)
      (mem_group_at (b := b) 15 rfl (by rw [if_pos hc]; exact List.mem_of_getElem? (i := 3) rfl))
  · exact dest_fixed (name := "xl/richData/rdRichValueTypes.xml".toList) (by decide +kernel) (by decide)
      (mem_group_at (b := b) 15 rfl (by rw [if_pos hc]; exact List.mem_of_getElem? (i := 2) rfl))
  · exact dest_fixed (name := "xl/featurePropertyBag/featurePropertyBag.xml".toList) (by decide +kernel) (by decide)
      (mem_group_at (b := b) 16 rfl (by rw [if_pos hc]; exact List.mem_cons_self))

theorem closed_root {b : PBook} {r : PRel} (hr : r ∈ b.rootRels) : (destination b.entries [] r).isSome := by
  rw [PBook.rootRels] at hr
  simp only [List.mem_append, List.mem_cons, List.not_mem_nil, or_false, List.mem_ite_nil_right] at hr
  rcases hr with (rfl | rfl | rfl) | ⟨hc, rfl⟩
  · exact dest_fixed (name := "xl/workbook.xml".toList) (by decide +kernel) (by decide)
      (mem_group_at (b := b) 0 rfl (List.mem_of_getElem? (i := 5) rfl))
  · exact dest_fixed (name := "docProps/core.xml".toList) (by decide +kernel) (by decide)
      (mem_group_at (b := b) 4 rfl List.mem_cons_self)
  · exact dest_fixed (name := "docProps/app.xml".toList) (by decide +kernel) (by decide)
      (mem_group_at (b := b) 4 rfl (List.mem_cons_of_mem _ List.mem_cons_self))
  · exact dest_fixed (name := "docProps/custom.xml".toList) (by decide +kernel) (by decide)
      (mem_group_at (b := b) 5 rfl (by rw [if_pos hc]; exact List.mem_cons_self))

theorem prepEmbeddeds_length (ids : List (Str × Nat)) (all : List PImage) (l : List PSheet) :
    (prepEmbeddeds ids all l).2.length = l.length := by
  induction l generalizing ids all with
  | nil => rfl
  | cons s t ih =>
    have e : (prepEmbeddeds ids all (s :: t)).2 = (prepEmbedded ids all s.embedded).2.2 ::
      (prepEmbeddeds (prepEmbedded ids all s.embedded).1 (prepEmbedded ids all s.embedded).2.1 t).2 := rfl
    rw [e, List.length_cons, ih, List.length_cons]

/-- Every relationship file belongs to a part that is written (or to the package), and its relationships
lead somewhere. -/
theorem rels_closed (b : PBook) (name : Str) (l : List (Str × PRel))
    (h : (name, Part.rels l) ∈ b.entries) :
    ∃ src, name = relsName src ∧ (src = [] ∨ ∃ p, (src, p) ∈ b.entries) ∧
      (InternalOk b → ∀ x ∈ l, ImgOk b x.2 → (destination b.entries src x.2).isSome) := by
  have fin : ∀ (R : List PRel) (src : Str), Part.rels l = relsPart R →
      (InternalOk b → ∀ r ∈ R, ImgOk b r → (destination b.entries src r).isSome) →
      InternalOk b → ∀ x ∈ l, ImgOk b x.2 → (destination b.entries src x.2).isSome := by
    intro R src e hR hu x hx
    have e' : l = numberedRels R := Part.rels.inj e
    rw [e'] at hx
    exact hR hu _ (mem_numberedRels hx)
  obtain ⟨g, hg, heg, _⟩ := entries_group h
  simp only [PBook.groups, List.mem_cons, List.not_mem_nil, or_false] at hg
  rcases hg with rfl | rfl | rfl | rfl | rfl | rfl | rfl | rfl | rfl | rfl | rfl | rfl | rfl | rfl | rfl | rfl | rfl
  · simp only [List.mem_cons, List.not_mem_nil, or_false, Prod.mk.injEq] at heg
    rcases heg with ⟨_, e⟩ | ⟨rfl, e⟩ | ⟨rfl, e⟩ | ⟨_, e⟩ | ⟨_, e⟩ | ⟨_, e⟩
    · rw [contentTypes_eq] at e; cases e
    · exact ⟨[], by decide +kernel, Or.inl rfl, fin _ _ e fun _ r hr _ => closed_root hr⟩
    · exact ⟨"xl/workbook.xml".toList, by decide +kernel,
        Or.inr ⟨_, mem_group_at (b := b) 0 rfl (List.mem_of_getElem? (i := 5) rfl)⟩,
        fin _ _ e fun _ r hr _ => closed_workbook hr⟩
    · cases e
    · cases e
    · cases e
  · obtain ⟨P, a, Q, hl, hu, hm⟩ := (mem_numbered _ _ _ _ _).1 heg
    have hzl : b.prepared.length = b.embeddeds.2.length := by
      rw [← List.length_map Prod.fst, prepared_fst, PBook.embeddeds, prepEmbeddeds_length]
    have hmap : b.prepared = P.map Prod.fst ++ a.1 :: Q.map Prod.fst := by
      have := congrArg (List.map Prod.fst) hl
      rw [List.map_fst_zip (by omega), List.map_append, List.map_cons] at this
      exact this
    obtain ⟨h1, h2⟩ := prepared_at hmap
    have hc : a.1.1.chartsheet = false := by simpa using hu
    have hlen : (P.filter fun x => !x.1.1.chartsheet).length =
        (((P.map Prod.fst).map Prod.fst).filter fun s => !s.chartsheet).length := by
      rw [List.filter_map, List.filter_map, List.length_map, List.length_map]; rfl
    rw [hlen] at hm
    rw [worksheetEntries, List.mem_append] at hm
    rcases hm with hm | hm
    · rw [List.mem_singleton, Prod.mk.injEq] at hm
      cases hm.2
    · split at hm
      · rw [List.mem_singleton, Prod.mk.injEq] at hm
        rw [h2] at hm
        refine ⟨wsName (wsIdx ((P.map Prod.fst).map Prod.fst)), ?_,
          Or.inr ⟨_, mem_of_lookup (lookup_ws h1 hc)⟩, fin _ _ hm.2 fun _ r hr hi =>
            closed_ws (inXl_ws _) h1 hr hi⟩
        rw [relsName_ws]; exact hm.1
      · simp at hm
  · obtain ⟨P, a, Q, hl, hu, hm⟩ := (mem_numbered _ _ _ _ _).1 heg
    obtain ⟨h1, h2⟩ := prepared_at hl
    rw [filter_fst_length P (fun s => s.chartsheet)] at hm
    rw [chartsheetEntries, List.mem_append] at hm
    rcases hm with hm | hm
    · rw [List.mem_singleton, Prod.mk.injEq] at hm
      cases hm.2
    · split at hm
      · rw [List.mem_singleton, Prod.mk.injEq] at hm
        rw [h2] at hm
        refine ⟨csName (csIdx (P.map Prod.fst)), ?_,
          Or.inr ⟨_, mem_of_lookup (lookup_cs h1 hu)⟩, fin _ _ hm.2 fun _ r hr _ =>
            closed_objects (inXl_cs _) h1 hr⟩
        rw [relsName_cs]; exact hm.1
      · simp at hm
  · dsimp only at heg
    split at heg
    · rw [List.mem_singleton, Prod.mk.injEq] at heg; cases heg.2
    · simp at heg
  · simp only [List.mem_cons, List.not_mem_nil, or_false, Prod.mk.injEq] at heg
    rcases heg with ⟨_, e⟩ | ⟨_, e⟩ <;> cases e
  · dsimp only at heg
    split at heg
    · rw [List.mem_singleton, Prod.mk.injEq] at heg; cases heg.2
    · simp at heg
  · obtain ⟨P, a, Q, hl, hu, hm⟩ := (mem_numbered _ _ _ _ _).1 heg
    rw [drawingEntries, List.mem_singleton, Prod.mk.injEq] at hm
    cases hm.2
  · obtain ⟨P, a, Q, hl, _, hm⟩ := (mem_numbered _ _ _ _ _).1 heg
    cases a with
    | objects n bt =>
      rw [vmlEntries, List.mem_singleton, Prod.mk.injEq] at hm
      cases hm.2
    | images ids rels =>
      rw [vmlEntries, List.mem_cons, List.mem_singleton, Prod.mk.injEq, Prod.mk.injEq] at hm
      rcases hm with hm | hm
      · cases hm.2
      · have ha : VmlItem.images ids rels ∈ b.prepared.flatMap vmlItems := by rw [hl]; simp
        obtain ⟨x, hx, hi⟩ := List.mem_flatMap.1 ha
        have hrel : rels = x.2.vmlDrawing := by
          rw [vmlItems, List.mem_append] at hi
          rcases hi with hi | hi
          · split at hi
            · rw [List.mem_singleton] at hi; cases hi
            · simp at hi
          · split at hi
            · rw [List.mem_singleton] at hi; cases hi; rfl
            · simp at hi
        obtain ⟨P', Q', hx⟩ := List.append_of_mem hx
        obtain ⟨h1, h2⟩ := prepared_at hx
        rw [h2] at hrel
        refine ⟨vmName (1 + (P.filter fun _ => true).length), ?_, Or.inr ⟨.vmlImages ids, ?_⟩,
          fin _ _ hm.2 fun _ r hr hi => closed_hf (inXl_vm _) h1 (by rw [← hrel]; exact hr) hi⟩
        · rw [relsName_vm]; exact hm.1
        · refine mem_group_at (b := b) 7 rfl ?_
          rw [mem_numbered]
          exact ⟨P, _, Q, hl, rfl, by rw [vmlEntries]; exact List.mem_cons_self⟩
  · obtain ⟨P, a, Q, hl, hu, hm⟩ := (mem_numbered _ _ _ _ _).1 heg
    rw [commentEntries] at hm
    split at hm
    · rw [List.mem_singleton, Prod.mk.injEq] at hm; cases hm.2
    · simp at hm
  · obtain ⟨P, a, Q, hl, hu, hm⟩ := (mem_numbered _ _ _ _ _).1 heg
    rw [mediaEntries, List.mem_singleton, Prod.mk.injEq] at hm; cases hm.2
  · obtain ⟨P, a, Q, hl, hu, hm⟩ := (mem_numbered _ _ _ _ _).1 heg
    rw [chartEntries, List.mem_singleton, Prod.mk.injEq] at hm; cases hm.2
  · obtain ⟨P, a, Q, hl, hu, hm⟩ := (mem_numbered _ _ _ _ _).1 heg
    rw [tableEntries, List.mem_singleton, Prod.mk.injEq] at hm; cases hm.2
  · dsimp only [PBook.vbaEntries] at heg
    cases hv : b.vba with
    | none => rw [hv] at heg; simp at heg
    | some v =>
      rw [hv] at heg
      dsimp only at heg
      rcases List.mem_append.1 heg with hm | hm
      · rw [List.mem_singleton, Prod.mk.injEq] at hm; cases hm.2
      · cases hs : b.signature with
        | none => rw [hs] at hm; simp at hm
        | some w =>
          rw [hs] at hm
          dsimp only at hm
          rw [List.mem_cons, List.mem_singleton, Prod.mk.injEq, Prod.mk.injEq] at hm
          rcases hm with hm | ⟨rfl, e⟩
          · cases hm.2
          · have hmem : ∀ e : Entry, e ∈ b.vbaEntries → e ∈ b.entries := fun e he =>
              mem_group_at (b := b) 12 rfl he
            refine ⟨"xl/vbaProject.bin".toList, by decide +kernel,
              Or.inr ⟨.vbaProject v, hmem _ ?_⟩, fin _ _ e fun _ r hr _ => ?_⟩
            · rw [PBook.vbaEntries, hv]
              exact List.mem_append_left _ List.mem_cons_self
            · rw [List.mem_singleton] at hr
              subst hr
              refine dest_fixed (name := "xl/vbaProjectSignature.bin".toList) (p := .vbaSignature w)
                (by decide +kernel) (by decide) (hmem _ ?_)
              rw [PBook.vbaEntries, hv, hs]
              exact List.mem_append_right _ List.mem_cons_self
  · obtain ⟨P, a, Q, hl, hd, hm⟩ := (mem_numbered _ _ _ _ _).1 heg
    obtain ⟨h1, h2⟩ := prepared_at hl
    have ha : a ∈ b.prepared := by rw [hl]; simp
    have hd' : a.1.hasDrawing = true := by rw [← prepared_objs ha]; exact hd
    rw [filter_objs_length hl] at hm
    rw [drawingRelEntries] at hm
    split at hm
    · simp at hm
    · rw [List.mem_singleton, Prod.mk.injEq] at hm
      rw [h2] at hm
      refine ⟨drName (drIdx (P.map Prod.fst)), ?_,
        Or.inr ⟨_, mem_of_lookup (lookup_dr h1 hd')⟩, fin _ _ hm.2 fun hu r hr hi =>
          closed_dr hu (inXl_dr _) h1 hr hi⟩
      rw [relsName_dr]; exact hm.1
  · dsimp only at heg
    split at heg
    · rw [List.mem_singleton, Prod.mk.injEq] at heg; cases heg.2
    · simp at heg
  · dsimp only at heg
    split at heg
    · rename_i hc
      simp only [List.mem_cons, List.not_mem_nil, or_false, Prod.mk.injEq] at heg
      rcases heg with ⟨rfl, e⟩ | ⟨_, e⟩ | ⟨_, e⟩ | ⟨_, e⟩ | ⟨_, e⟩
      · exact ⟨"xl/richData/richValueRel.xml".toList, relsName_rich.symm,
          Or.inr ⟨_, mem_group_at (b := b) 15 rfl (by rw [if_pos hc]; exact List.mem_of_getElem? (i := 4) rfl)⟩,
          fin _ _ e fun _ r hr _ => closed_rich hr⟩
      · cases e
      · cases e
      · cases e
      · cases e
    · simp at heg
  · dsimp only at heg
    split at heg
    · rw [List.mem_singleton, Prod.mk.injEq] at heg; cases heg.2
    · simp at heg

/-- Every relationship file is that of the package or of a part that is written. -/
theorem C19_rels_have_parts (b : PBook) (name : Str) (l : List (Str × PRel))
    (h : (name, Part.rels l) ∈ b.entries) :
    ∃ src, name = relsName src ∧ (src = [] ∨ ∃ p, (src, p) ∈ b.entries) := by
  obtain ⟨src, h1, h2, _⟩ := rels_closed b name l h
  exact ⟨src, h1, h2⟩

theorem relsOf_closed (b : PBook) (hu : InternalOk b) (src : Str) (x : Str × PRel)
    (hx : x ∈ relsOf b.entries src) (hi : ImgOk b x.2) : (destination b.entries src x.2).isSome := by
  rw [relsOf] at hx
  cases hl : b.entries.lookup (relsName src) with
  | none => rw [hl] at hx; simp at hx
  | some p =>
    rw [hl] at hx
    cases p with
    | rels l =>
      obtain ⟨src', h1, _, h3⟩ := rels_closed b _ l (mem_of_lookup hl)
      rw [relsName_inj h1]
      exact h3 hu x hx hi
    | _ => simp at hx

/-- Every relationship of every part and of the package, images excepted, leads to a file of the package,
to a place in the document, or outside. -/
theorem C19_relationships (b : PBook) (hu : InternalOk b) (src : Str) (x : Str × PRel)
    (hx : x ∈ relsOf b.entries src) (ht : x.2.type ≠ "image".toList) :
    (destination b.entries src x.2).isSome := relsOf_closed b hu src x hx fun h => absurd h ht

/-- Every relationship leads somewhere. Missing: images, if one is numbered after a header or footer image
(`C19_header_images`) or two different images have the same hash. -/
theorem C19_image_relationships_partial (b : PBook) (hu : InternalOk b) (hh : HashOk b) (hf : HeaderImagesLast b)
    (src : Str) (x : Str × PRel) (hx : x ∈ relsOf b.entries src) :
    (destination b.entries src x.2).isSome := relsOf_closed b hu src x hx fun _ => ⟨hh, hf⟩

/-- A workbook with a drawing that has a link to a place, and what it gives. -/
def closedBook : PBook :=
  let u : PUrl := { link := "internal:B".toList, target := "#B".toList, internal := true }
  { sheets := [{ images := [{ hash := "9".toList, kind := .gif, data := [9], url := some u }],
                 tables := [1], notes := some 3 }] }

example : InternalOk closedBook ∧ HashOk closedBook ∧
    (relsOf closedBook.entries "xl/worksheets/sheet1.xml".toList).map (fun x => x.2.type) =
      ["drawing".toList, "vmlDrawing".toList, "table".toList, "comments".toList] ∧
    (relsOf closedBook.entries "xl/drawings/drawing1.xml".toList).map (fun x => x.2.type) =
      ["hyperlink".toList, "image".toList] := by
  refine ⟨by unfold InternalOk; decide +kernel, by unfold HashOk; decide +kernel, by decide +kernel, by decide +kernel⟩

end Verif
