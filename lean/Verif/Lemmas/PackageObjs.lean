import Verif.Lemmas.PackageDest
/-!
The objects of a drawing and the comments of a sheet.
-/
namespace Verif
open Spec

/-! ### Which entry a name belongs to -/

theorem entries_group {b : PBook} {e : Entry} (h : e ∈ b.entries) :
    ∃ g ∈ b.groups, e ∈ g.1 ∧ skel e.1 ∈ g.2 := by
  rw [entries_eq_groups, List.mem_flatten] at h
  obtain ⟨l, hl, he⟩ := h
  obtain ⟨g, hg, rfl⟩ := List.mem_map.1 hl
  exact ⟨g, hg, he, (groups_ok b g hg).2 _ (List.mem_map.2 ⟨e, he, rfl⟩)⟩

theorem mem_of_lookup {α : Type} {l : List (Str × α)} {k : Str} {v : α} (h : l.lookup k = some v) : (k, v) ∈ l := by
  induction l with
  | nil => simp at h
  | cons e t ih =>
    obtain ⟨k', v'⟩ := e
    rw [List.lookup_cons] at h
    by_cases hk : k = k'
    · subst hk; simp at h; subst h; simp
    · have hb : (k == k') = false := by simpa using hk
      rw [hb] at h
      exact List.mem_cons_of_mem _ (ih h)

theorem split_unique {α : Type} {used : α → Bool} {pre pre' post post' : List α} {a a' : α}
    (h : pre ++ a :: post = pre' ++ a' :: post') (ha : used a = true) (ha' : used a' = true)
    (hl : (pre.filter used).length = (pre'.filter used).length) : a = a' := by
  induction pre generalizing pre' with
  | nil =>
    cases pre' with
    | nil => simp at h; exact h.1
    | cons x t =>
      simp only [List.nil_append, List.cons_append, List.cons.injEq] at h
      obtain ⟨rfl, _⟩ := h
      simp [List.filter_cons, ha] at hl
  | cons x t ih =>
    cases pre' with
    | nil =>
      simp only [List.nil_append, List.cons_append, List.cons.injEq] at h
      obtain ⟨rfl, _⟩ := h
      simp [List.filter_cons, ha'] at hl
    | cons y t' =>
      simp only [List.cons_append, List.cons.injEq] at h
      obtain ⟨rfl, h⟩ := h
      refine ih h ?_
      rw [List.filter_cons, List.filter_cons] at hl
      split at hl <;> simpa using hl

section
variable {b : PBook} {pre post : List PSheet} {s : PSheet}

theorem skel_wsRels (n : Nat) : skel (relsName (wsName n)) = "xl/worksheets/_rels/sheet.xml.rels".toList := by
  rw [relsName_ws, skel_num]; decide

theorem group_of_wsRels {g : List Entry × List Str} (hg : g ∈ b.groups)
    (h : "xl/worksheets/_rels/sheet.xml.rels".toList ∈ g.2) :
    g.1 = numbered (fun x => !x.1.1.chartsheet) worksheetEntries 1 (b.prepared.zip b.embeddeds.2) := by
  have hp : ∀ (i : Nat) (S : List Str), (b.groups.map Prod.snd)[i]? = some S →
      "xl/worksheets/_rels/sheet.xml.rels".toList ∈ S → i = 1 := by
    have hall : ∀ x ∈ (b.groups.map Prod.snd).zipIdx, "xl/worksheets/_rels/sheet.xml.rels".toList ∈ x.1 → x.2 = 1 := by
      simp only [PBook.groups, List.map_cons, List.map_nil]
      decide +kernel
    intro i S hi hm
    exact hall (S, i) (by rw [List.mem_zipIdx_iff_getElem?]; exact hi) hm
  obtain ⟨i, hi⟩ := List.mem_iff_getElem?.1 hg
  have := hp i g.2 (by rw [List.getElem?_map, hi]; rfl) h
  subst this
  have hi' : b.groups[1]? = some (numbered (fun x => !x.1.1.chartsheet) worksheetEntries 1 (b.prepared.zip b.embeddeds.2),
    ["xl/worksheets/sheet.xml".toList, "xl/worksheets/_rels/sheet.xml.rels".toList]) := rfl
  rw [hi'] at hi
  cases hi
  rfl

theorem noRels_ws (h : b.allSheets = pre ++ s :: post) (hc : s.chartsheet = false)
    (hr : hasRelationships s (b.prepAt pre s) = false) : relsOf b.entries (wsName (wsIdx pre)) = [] := by
  rw [relsOf]
  cases hl : b.entries.lookup (relsName (wsName (wsIdx pre))) with
  | none => rfl
  | some p =>
    exfalso
    obtain ⟨g, hg, he, hs⟩ := entries_group (mem_of_lookup hl)
    dsimp only at hs
    rw [skel_wsRels] at hs
    rw [group_of_wsRels hg hs, mem_numbered] at he
    obtain ⟨P, a, Q, h1, h2, h3⟩ := he
    obtain ⟨Z, Y, hz, hlen⟩ := zip_split h
    have hidx := ws_idx _ _ _ h3
    dsimp only at hidx
    rw [relsName_ws, idx_num _ (by decide) (by decide)] at hidx
    have : a = ((s, b.prepAt pre s), b.vmAt pre s) := by
      refine split_unique (used := fun x => !x.1.1.chartsheet) (h1.symm.trans hz) h2 (by simp [hc]) ?_
      rw [hlen]
      have : wsIdx pre = 1 + (pre.filter fun s => !s.chartsheet).length := rfl
      omega
    subst this
    rw [worksheetEntries] at h3
    dsimp only at h3
    rw [hr] at h3
    simp only [List.mem_append, List.mem_singleton, Bool.false_eq_true, if_false, List.not_mem_nil, or_false] at h3
    have h4 := congrArg (fun x => skel x.1) h3
    dsimp only at h4
    rw [skel_wsRels, skel_num] at h4
    exact absurd h4 (by decide)

/-! ### Comments -/

theorem mem_numberedRels {l : List PRel} {x : Str × PRel} (h : x ∈ numberedRels l) : x.2 ∈ l := by
  rw [numberedRels, List.mem_map] at h
  obtain ⟨y, hy, rfl⟩ := h
  exact List.fst_mem_of_mem_zipIdx hy

theorem find_numberedRels_none {l : List PRel} {T : Str} (h : ∀ r ∈ l, r.type ≠ T) :
    (numberedRels l).find? (fun r => r.2.type = T) = none := by
  rw [List.find?_eq_none]
  intro x hx
  have := h _ (mem_numberedRels hx)
  simpa using this

theorem find_numberedRels {A B : List PRel} {r : PRel} {T : Str} (h : ∀ r ∈ A, r.type ≠ T) (hr : r.type = T) :
    ∃ id, (numberedRels (A ++ r :: B)).find? (fun r => r.2.type = T) = some (id, r) := by
  rw [numberedRels, List.zipIdx_append, List.map_append, List.find?_append]
  have := find_numberedRels_none h
  rw [numberedRels] at this
  rw [this, List.zipIdx_cons, List.map_cons, List.find?_cons_of_pos (by simpa using hr)]
  exact ⟨_, rfl⟩

/-- The relationships of a worksheet before the comments. -/
theorem wsRels_types (b : PBook) (pre : List PSheet) (s : PSheet) :
    ∃ A, b.wsRels pre s = A ++ (b.prepAt pre s).comment ∧ ∀ r ∈ A, r.type ≠ "comments".toList := by
  refine ⟨s.linkRels ++ (dRel pre s ++ (vRel pre s ++ (hRel pre s ++
      ((b.prepAt pre s).background ++ (b.prepAt pre s).table)))), ?_, ?_⟩
  · rw [wsRels_eq]; simp only [List.append_assoc]
  · intro r hr
    have hbg : (b.prepAt pre s).background = (prepBackground (drawState b.draw0 pre) s.background).2 := rfl
    rw [prepBackground_rels] at hbg
    have htb : (b.prepAt pre s).table = (List.range s.tables.length).map fun k => tableRel (1 + tableCount pre + k) := rfl
    rw [hbg, htb, PSheet.linkRels, dRel, vRel, hRel] at hr
    simp only [List.mem_append, List.mem_map, List.mem_ite_nil_right, List.mem_singleton] at hr
    have k1 : "hyperlink".toList ≠ "comments".toList := by decide
    have k2 : "drawing".toList ≠ "comments".toList := by decide
    have k3 : "vmlDrawing".toList ≠ "comments".toList := by decide
    have k4 : "image".toList ≠ "comments".toList := by decide
    have k5 : "table".toList ≠ "comments".toList := by decide
    rcases hr with ⟨x, _, rfl⟩ | ⟨_, rfl⟩ | ⟨_, rfl⟩ | ⟨_, rfl⟩ | ⟨x, _, rfl⟩ | ⟨x, _, rfl⟩
    · exact k1
    · exact k2
    · exact k3
    · exact k3
    · exact k4
    · exact k5

theorem ws_comments (h : b.allSheets = pre ++ s :: post) (hc : s.chartsheet = false) :
    commentsOf b.entries (wsName (wsIdx pre)) = s.notes := by
  obtain ⟨A, hA, hty⟩ := wsRels_types b pre s
  rw [prepAt_comment] at hA
  rw [commentsOf]
  cases hn : s.notes with
  | none =>
    rw [hn] at hA
    simp only [Option.isSome_none, Bool.false_eq_true, if_false, List.append_nil] at hA
    cases hr : hasRelationships s (b.prepAt pre s) with
    | false => rw [noRels_ws h hc hr]; rfl
    | true =>
      rw [relsOf_ws h hc hr, find_numberedRels_none (by rw [hA]; exact hty)]
  | some n =>
    rw [hn] at hA
    simp only [Option.isSome_some, if_true] at hA
    have hr := wsRels_has (b := b) (pre := pre) hc (by rw [hA]; simp)
    obtain ⟨id, hf⟩ := find_numberedRels (A := A) (B := []) (r := commentRel (1 + noteCount pre)) hty rfl
    rw [relsOf_ws h hc hr, hA, hf]
    dsimp only
    rw [dest_comment (inXl_ws _) h hn]

/-! ### Chartsheets -/

theorem cs_drawingOf (h : b.allSheets = pre ++ s :: post) (hc : s.chartsheet = true) :
    drawingOf b.entries (csName (csIdx pre)) =
      if s.hasDrawing then some (drName (drIdx pre), (b.prepAt pre s).objs) else none := by
  rw [drawingOf, refsOf_cs h hc, Option.bind_some, PSheet.chartsheetRefs]
  dsimp only
  rw [nextRef_snd]
  by_cases hd : s.hasDrawing = true
  · have e := prepAt_drawingObject b pre s
    rw [dRel, if_pos hd] at e
    simp only [List.singleton_append, List.cons_append, List.nil_append] at e
    have hr : hasRelationships s (b.prepAt pre s) = true := by
      rw [hasRelationships, e]; simp
    rw [if_pos hd, if_pos hd, Option.bind_some, followPart, follow, relsOf_cs h hc hr, e]
    have hl : (numberedRels (drawingRel (drIdx pre) :: (vRel pre s ++ hRel pre s))).lookup (relStr (0 + 1)) =
        some (drawingRel (drIdx pre)) := by
      rw [lookup_numberedRels]
      · rfl
      · simp only [List.length_cons, List.length_append, vRel_length, hRel_length]
        split <;> split <;> omega
    rw [hl, Option.bind_some, dest_drawing (inXl_cs _) h hd]
    rfl
  · rw [if_neg hd, if_neg hd]; rfl

theorem cs_header (h : b.allSheets = pre ++ s :: post) (hc : s.chartsheet = true) (hv : s.hasVml = false) :
    headerImagesOf b.entries (csName (csIdx pre)) = if s.hf = [] then [] else
      (b.prepAt pre s).hfIds.map
        (followImage b.entries (vmName (1 + vmlCount pre + if s.hasVml then 1 else 0))) := by
  rw [headerImagesOf, refsOf_cs h hc, Option.bind_some, PSheet.chartsheetRefs]
  dsimp only
  rw [nextRef_snd, nextRef_fst]
  by_cases hf : s.hf = []
  · rw [if_pos hf, if_neg (by simp [hf])]; rfl
  · have e := prepAt_drawingObject b pre s
    rw [hRel, if_pos hf, vRel, hv] at e
    simp only [Bool.false_eq_true, if_false, List.append_nil] at e
    have hr : hasRelationships s (b.prepAt pre s) = true := by
      rw [hasRelationships, e]; simp
    have hl : (numberedRels (dRel pre s ++ [vmlRel (1 + vmlCount pre + 0)])).lookup (relStr ((dRel pre s).length + 1)) =
        some (vmlRel (1 + vmlCount pre + 0)) := by
      rw [lookup_numberedRels]
      · exact getElem?_mid _ _ []
      · simp only [List.length_append, dRel_length, List.length_singleton]
        split <;> omega
    rw [dRel_length] at hl
    have hd := dest_hf (inXl_cs (csIdx pre)) h hf
    rw [hv] at hd
    simp only [Bool.false_eq_true, if_false] at hd
    rw [if_neg hf, if_pos (by simpa using hf), Option.bind_some, followPart, follow, relsOf_cs h hc hr, e]
    rw [Nat.zero_add, hl, Option.bind_some, hd, hv]
    rfl

/-! ### Objects of a drawing -/

theorem chartId_at (b : PBook) (pre : List PSheet) (s : PSheet) :
    (stImg (drawState b.draw0 pre) s).1.chartId = 1 + (pre.map fun s => s.charts.length).sum := by
  rw [(stImg_ids _ _).1, (drawState_ids _ _).2]; rfl

/-- The relationships after the images, and those of the drawing. -/
theorem drawing_rels_length (b : PBook) (pre : List PSheet) (s : PSheet) :
    (b.prepAt pre s).drawing.length ≤ 2 * s.images.length + s.charts.length + s.shapes.length := by
  have e : (b.prepAt pre s).drawing = (prepShapes (stChart (drawState b.draw0 pre) s).1 s.shapes).1.rels := rfl
  have h1 := (prepShapes_length_le (stChart (drawState b.draw0 pre) s).1 s.shapes).1
  have h2 := (prepImages_spec (fun _ _ => True) (stBg (drawState b.draw0 pre) s) {} s.images rfl
    (by intro k i _ h; simp at h) (fun _ _ _ _ _ => trivial) (fun _ _ _ _ _ => trivial)).2.2.2.2.2
  have h2' : (stImg (drawState b.draw0 pre) s).2.1.rels.length ≤ 0 + 2 * s.images.length := h2
  have h3 : (stChart (drawState b.draw0 pre) s).1.rels.length =
      (stImg (drawState b.draw0 pre) s).2.1.rels.length + s.charts.length := by
    rw [stChart]
    split
    · rename_i hc; rw [hc]; rfl
    · simp [prepCharts]
  rw [e]; omega

theorem stChart_rels (b : PBook) (pre : List PSheet) (s : PSheet) (j : Nat) (hj : j < s.charts.length) :
    (b.prepAt pre s).drawing[(stImg (drawState b.draw0 pre) s).2.1.rels.length + j]? =
      some { type := "chart".toList, target := chartTarget (1 + (pre.map fun s => s.charts.length).sum + j) } := by
  have e : (b.prepAt pre s).drawing = (prepShapes (stChart (drawState b.draw0 pre) s).1 s.shapes).1.rels := rfl
  obtain ⟨N, hN⟩ := (prepShapes_length_le (stChart (drawState b.draw0 pre) s).1 s.shapes).2
  have hne : s.charts ≠ [] := by intro h; rw [h] at hj; simp at hj
  have hs := prepCharts_spec (fun _ _ => False ∨ True) (stImg (drawState b.draw0 pre) s).2.1
    (stImg (drawState b.draw0 pre) s).1.chartId s.charts.length
  have hc : (stChart (drawState b.draw0 pre) s).1 = (prepCharts (stImg (drawState b.draw0 pre) s).2.1
      (stImg (drawState b.draw0 pre) s).1.chartId s.charts.length).1 := by
    rw [stChart, if_neg hne]
  have h1 : (stChart (drawState b.draw0 pre) s).1.rels[(stImg (drawState b.draw0 pre) s).2.1.rels.length + j]? =
      some { type := "chart".toList, target := chartTarget (1 + (pre.map fun s => s.charts.length).sum + j) } := by
    rw [hc]
    simp only [prepCharts]
    rw [List.getElem?_append_right (by omega), Nat.add_sub_cancel_left, List.getElem?_map,
      List.getElem?_range hj, chartId_at]
    rfl
  rw [e, hN, List.getElem?_append_left (List.getElem?_eq_some_iff.1 h1).1, h1]

theorem follow_dr (h : b.allSheets = pre ++ s :: post) (hd : s.hasDrawing = true)
    (hl : 2 * s.images.length + s.charts.length + s.shapes.length < 65536) {j : Nat} {r : PRel}
    (he : (b.prepAt pre s).drawing[j]? = some r) :
    follow b.entries (drName (drIdx pre)) (relStr (j + 1)) =
      (destination b.entries (drName (drIdx pre)) r).map fun d => (r.type, d) := by
  have hlen := drawing_rels_length b pre s
  have hr := relsOf_dr h hd (by intro e; rw [e] at he; simp at he)
  rw [follow, hr, lookup_numberedRels (by omega), he]
  rfl

theorem followChart_of {z : Zip} {src id n : Str} {c : Nat}
    (h : follow z src id = some ("chart".toList, .part n (.chart c))) : followChart z src id = some c := by
  rw [followChart, followPart_of h]

/-- The frames of the charts. -/
theorem frames_seen (h : b.allSheets = pre ++ s :: post) (hd : s.hasDrawing = true)
    (hl : 2 * s.images.length + s.charts.length + s.shapes.length < 65536) :
    (stChart (drawState b.draw0 pre) s).2.map (seeObj b.entries (drName (drIdx pre))) =
      s.charts.map fun c => .chart (some c) := by
  rw [stChart]
  split
  · rename_i hc; rw [hc]; rfl
  · simp only [prepCharts, List.map_map]
    apply List.ext_getElem?
    intro j
    rw [List.getElem?_map, List.getElem?_map]
    by_cases hj : j < s.charts.length
    · rw [List.getElem?_range hj, List.getElem?_eq_getElem hj, Option.map_some, Option.map_some]
      simp only [Function.comp, seeObj]
      have hf := follow_dr h hd hl (stChart_rels b pre s j hj)
      rw [dest_chart (inXl_dr _) h (List.getElem?_eq_getElem hj), Option.map_some] at hf
      rw [followChart_of hf]
    · rw [List.getElem?_eq_none (by simpa using hj), List.getElem?_eq_none (by simpa using hj)]
      simp only [Option.map_none]

/-! ### Pictures and links -/

theorem link_keys (r : RelIds) (o : Option PUrl) {k : Str} {i : Nat} (h : (r.link o).1.ids.lookup k = some i) :
    (∃ i, r.ids.lookup k = some i) ∨ ∃ u, o = some u ∧ k = u.link := by
  cases o with
  | none => exact Or.inl ⟨i, h⟩
  | some u =>
    simp only [RelIds.link, RelIds.get] at h
    cases hl : r.ids.lookup u.link with
    | some j => rw [hl] at h; exact Or.inl ⟨i, h⟩
    | none =>
      rw [hl] at h
      dsimp only at h
      rw [lookup_hmapPut] at h
      split at h
      · rename_i e; exact Or.inr ⟨u, rfl, e⟩
      · exact Or.inl ⟨i, h⟩

theorem prepImages_keys (b : DrawBook) (r : RelIds) (l : List PImage) {k : Str} {i : Nat}
    (h : (prepImages b r l).2.1.ids.lookup k = some i) :
    (∃ i, r.ids.lookup k = some i) ∨ ∃ im ∈ l, k = im.hash ∨ ∃ u, im.url = some u ∧ k = u.link := by
  induction l generalizing b r with
  | nil => exact Or.inl ⟨i, h⟩
  | cons im t ih =>
    have e2 : (prepImages b r (im :: t)).2.1 = (prepImages (prepImage b r im).1 (prepImage b r im).2.1 t).2.1 := rfl
    rw [e2] at h
    rcases ih _ _ h with ⟨j, hj⟩ | ⟨x, hx, h1⟩
    · obtain ⟨id, _, hr, _⟩ := prepImage_id b r im
      rw [hr, RelIds.get] at hj
      have hcase : (∃ i, (r.link im.url).1.ids.lookup k = some i) ∨ k = im.hash := by
        cases hl : (r.link im.url).1.ids.lookup im.hash with
        | some m => rw [hl] at hj; exact Or.inl ⟨j, hj⟩
        | none =>
          rw [hl] at hj
          dsimp only at hj
          rw [lookup_hmapPut] at hj
          split at hj
          · rename_i e; exact Or.inr e
          · exact Or.inl ⟨j, hj⟩
      rcases hcase with ⟨m, hm⟩ | hk
      · rcases link_keys r im.url hm with h2 | ⟨u, hu, hk⟩
        · exact Or.inl h2
        · exact Or.inr ⟨im, by simp, Or.inr ⟨u, hu, hk⟩⟩
      · exact Or.inr ⟨im, by simp, Or.inl hk⟩
    · exact Or.inr ⟨x, by simp [hx], h1⟩

theorem mem_objectLinks_image {s : PSheet} {im : PImage} (hm : im ∈ s.images) {u : PUrl} (hu : im.url = some u) :
    u ∈ objectLinks s := by
  rw [objectLinks]
  exact List.mem_append_left _ (List.mem_filterMap.2 ⟨im, hm, hu⟩)

theorem mem_objectLinks_shape {s : PSheet} {sh : Nat × Option PUrl} (hm : sh ∈ s.shapes) {u : PUrl}
    (hu : sh.2 = some u) : u ∈ objectLinks s := by
  rw [objectLinks]
  exact List.mem_append_right _ (List.mem_filterMap.2 ⟨sh, hm, hu⟩)

/-- The relationships of the drawing start with those of the images. -/
theorem drawing_prefix (b : PBook) (pre : List PSheet) (s : PSheet) {j : Nat} {r : PRel}
    (h : (stImg (drawState b.draw0 pre) s).2.1.rels[j]? = some r) : (b.prepAt pre s).drawing[j]? = some r := by
  have e : (b.prepAt pre s).drawing = (prepShapes (stChart (drawState b.draw0 pre) s).1 s.shapes).1.rels := rfl
  obtain ⟨N, hN⟩ := (prepShapes_length_le (stChart (drawState b.draw0 pre) s).1 s.shapes).2
  have h1 : (stChart (drawState b.draw0 pre) s).1.rels[j]? = some r := by
    rw [stChart]
    split
    · exact h
    · simp only [prepCharts]
      rw [List.getElem?_append_left (List.getElem?_eq_some_iff.1 h).1, h]
  rw [e, hN, List.getElem?_append_left (List.getElem?_eq_some_iff.1 h1).1, h1]

/-- The pictures of the drawing, in terms of the ids of their keys. -/
theorem pics_eq (b : PBook) (pre : List PSheet) (s : PSheet) :
    (stImg (drawState b.draw0 pre) s).2.2 = s.images.map (picOf (stImg (drawState b.draw0 pre) s).2.1) :=
  (prepImages_spec (fun _ _ => True) (stBg (drawState b.draw0 pre) s) {} s.images rfl
    (by intro k i _ h; simp at h) (fun _ _ _ _ _ => trivial) (fun _ _ _ _ _ => trivial)).2.2.2.1

/-- The bytes of every picture. -/
theorem pic_bytes (hh : HashOk b) (hf : HeaderImagesLast b) (h : b.allSheets = pre ++ s :: post)
    (hl : 2 * s.images.length + s.charts.length + s.shapes.length < 65536) (hk : KeysOk s)
    {im : PImage} (him : im ∈ s.images) :
    followImage b.entries (drName (drIdx pre)) ((stImg (drawState b.draw0 pre) s).2.1.idOf im.hash) =
      some im.data := by
  have hd : s.hasDrawing = true := by
    cases hi : s.images with
    | nil => rw [hi] at him; simp at him
    | cons x t => simp [PSheet.hasDrawing, hi]
  have hs : s ∈ b.allSheets := by rw [h]; simp
  have hg := (good_at hf h).1
  have hst : (drawState b.draw0 (pre ++ [s])).worksheetIds = (stImg (drawState b.draw0 pre) s).1.worksheetIds := by
    rw [drawState_snoc, prepDrawing_fst]
  rw [hst] at hg
  have hsp := prepImages_spec
    (fun k rel => ∀ im ∈ s.images, im.hash = k → ∃ id, (stImg (drawState b.draw0 pre) s).1.worksheetIds.lookup k = some id ∧
      rel = imageRel id im.kind)
    (stBg (drawState b.draw0 pre) s) {} s.images rfl
    (by intro k i _ h; simp at h)
    (by
      intro x hx u hu _ y hy e
      exact absurd e.symm ((hk y hy).2 u (mem_objectLinks_image hx hu)))
    (by
      intro x hx id hid _ y hy e
      refine ⟨id, hid, ?_⟩
      rw [(hashOk_all hh hs hs (x := y) (y := x) (by simp [imagesOf, hy]) (by simp [imagesOf, hx]) e).2])
  obtain ⟨i, hi⟩ := (hsp.2.2.2.2.1 im him).1
  obtain ⟨j, rel, rfl, h2, h3⟩ := hsp.2.1 im.hash i (hk im him).1 hi
  obtain ⟨id, h4, rfl⟩ := h3 im him rfl
  have hi' : (stImg (drawState b.draw0 pre) s).2.1.ids.lookup im.hash = some (j + 1) := hi
  have hfo := follow_dr h hd hl (drawing_prefix b pre s h2)
  rw [dest_image hh (inXl_dr _) hg hs (im := im) (by simp [imagesOf, him]) h4, Option.map_some, imageRel] at hfo
  rw [RelIds.idOf, hi', Option.getD_some]
  exact followImage_of hfo

/-- Where a link of the drawing leads. -/
theorem dest_link {z : Zip} {src : Str} {u : PUrl} (hu : u.internal = true → u.target.head? = some '#') :
    destination z src u.rel = some (linkDest u) := by
  rw [destination, linkDest]
  have hm : u.rel.mode = u.mode := rfl
  cases hi : u.internal with
  | true =>
    have hmode : u.rel.mode = [] := by rw [hm, PUrl.mode, hi]; rfl
    rw [if_neg (by rw [hmode]; decide), if_pos rfl]
    have ht : u.rel.target = u.target := rfl
    rw [ht]
    have h2 := hu hi
    cases hc : u.target with
    | nil => rw [hc] at h2; simp at h2
    | cons c t =>
      rw [hc] at h2
      simp only [List.head?_cons, Option.some.injEq] at h2
      subst h2
      rfl
  | false =>
    have hmode : u.rel.mode = "External".toList := by rw [hm, PUrl.mode, hi]; rfl
    rw [if_pos hmode]
    rfl

theorem rel_congr {u v : PUrl} (h1 : u.target = v.target) (h2 : u.internal = v.internal) : u.rel = v.rel := by
  obtain ⟨l, t, i⟩ := u
  obtain ⟨l', t', i'⟩ := v
  cases h1
  cases h2
  rfl

/-- The links of the pictures and shapes. -/
theorem links_seen (h : b.allSheets = pre ++ s :: post)
    (hl : 2 * s.images.length + s.charts.length + s.shapes.length < 65536) (hk : KeysOk s) (ho : LinksOk s)
    (hn : s.charts.length ≤ 1 ∨
      ∀ sh ∈ s.shapes, ∀ u, sh.2 = some u → ∃ im ∈ s.images, ∃ v, im.url = some v ∧ v.link = u.link) :
    (∀ im ∈ s.images, ∀ u, im.url = some u →
      followLink b.entries (drName (drIdx pre)) ((stImg (drawState b.draw0 pre) s).2.1.idOf u.link) =
        some (linkDest u)) ∧
    (stShape (drawState b.draw0 pre) s).2.map (seeObj b.entries (drName (drIdx pre))) =
      s.shapes.map fun sh => .shape sh.1 (sh.2.map fun u => some (linkDest u)) := by
  have hagree : ∀ u ∈ objectLinks s, ∀ v ∈ objectLinks s, u.link = v.link → u.rel = v.rel := by
    intro u hu v hv e
    have := (ho u hu).2.2 v hv e
    exact rel_congr this.1 this.2
  have hsp := prepImages_spec (fun k rel => ∀ u ∈ objectLinks s, u.link = k → rel = u.rel)
    (stBg (drawState b.draw0 pre) s) {} s.images rfl
    (by intro k i _ h; simp at h)
    (by
      intro x hx u hu _ v hv e
      exact (hagree v hv u (mem_objectLinks_image hx hu) e).symm)
    (by
      intro x hx id hid _ v hv e
      exact absurd e ((hk x hx).2 v hv))
  have hid : ∀ r : RelIds, (∀ (j : Nat) rel, r.rels[j]? = some rel → (b.prepAt pre s).drawing[j]? = some rel) →
      RInv (fun k rel => ∀ u ∈ objectLinks s, u.link = k → rel = u.rel) r → s.hasDrawing = true →
      ∀ u ∈ objectLinks s, (∃ i, r.ids.lookup u.link = some i) →
        followLink b.entries (drName (drIdx pre)) (r.idOf u.link) = some (linkDest u) := by
    intro r hp hi hd u hu ⟨i, hlk⟩
    obtain ⟨j, rel, rfl, h2, h3⟩ := hi u.link i (ho u hu).1 hlk
    have := h3 u hu rfl
    subst this
    have hfo := follow_dr h hd hl (hp _ _ h2)
    rw [dest_link (ho u hu).2.1, Option.map_some, type_link] at hfo
    rw [RelIds.idOf, hlk, Option.getD_some]
    exact followLink_of hfo
  constructor
  · intro im him u hu
    have hd : s.hasDrawing = true := by
      cases hi : s.images with
      | nil => rw [hi] at him; simp at him
      | cons x t => simp [PSheet.hasDrawing, hi]
    exact hid (stImg (drawState b.draw0 pre) s).2.1 (fun _ _ e => drawing_prefix b pre s e) hsp.2.1 hd u
      (mem_objectLinks_image him hu) ((hsp.2.2.2.2.1 im him).2 u hu)
  · by_cases hsh : s.shapes = []
    · have e0 : (stShape (drawState b.draw0 pre) s).2 = (prepShapes (stChart (drawState b.draw0 pre) s).1 s.shapes).2 := rfl
      rw [e0, hsh]; rfl
    · have hd : s.hasDrawing = true := by
        cases hi : s.shapes with
        | nil => exact absurd hi hsh
        | cons x t => simp [PSheet.hasDrawing, hi]
      -- the state before the shapes
      have hinv : RInv (fun k rel => ∀ u ∈ objectLinks s, u.link = k → rel = u.rel)
          (stChart (drawState b.draw0 pre) s).1 := by
        rw [stChart]
        split
        · exact hsp.2.1
        · exact (prepCharts_spec _ _ _ _ hsp.2.1).1
      have hlen : (stChart (drawState b.draw0 pre) s).1.ids.length = (stChart (drawState b.draw0 pre) s).1.rels.length ∨
          ∀ sh ∈ s.shapes, ∀ u, sh.2 = some u → ∃ i, (stChart (drawState b.draw0 pre) s).1.ids.lookup u.link = some i := by
        rcases hn with hn | hn
        · left
          rw [stChart]
          split
          · exact hsp.1
          · rename_i hne
            have h1 : s.charts.length = 1 := by
              have : s.charts.length ≠ 0 := by simpa using hne
              omega
            have hno : (stImg (drawState b.draw0 pre) s).2.1.ids.lookup "Chart".toList = none := by
              cases hx : (stImg (drawState b.draw0 pre) s).2.1.ids.lookup "Chart".toList with
              | none => rfl
              | some i =>
                exfalso
                rcases prepImages_keys _ _ _ hx with ⟨i, h0⟩ | ⟨im, him, h0 | ⟨u, hu, h0⟩⟩
                · simp at h0
                · exact (hk im him).1 h0.symm
                · exact (ho u (mem_objectLinks_image him hu)).1 h0.symm
            simp only [prepCharts, h1]
            rw [length_hmapPut hno, List.length_append, List.length_map, List.length_range]
            have := hsp.1
            have e1 : (stImg (drawState b.draw0 pre) s).2.1.ids.length =
              (stImg (drawState b.draw0 pre) s).2.1.rels.length := this
            omega
        · right
          intro sh hs' u hu
          obtain ⟨im, him, v, hv, hvu⟩ := hn sh hs' u hu
          obtain ⟨i, hi⟩ := (hsp.2.2.2.2.1 im him).2 v hv
          rw [hvu] at hi
          have hne := (ho u (mem_objectLinks_shape hs' hu)).1
          rw [stChart]
          split
          · exact ⟨i, hi⟩
          · exact ⟨i, (prepCharts_spec _ _ _ _ hsp.2.1).2.1 _ _ hne hi⟩
      have hss := prepShapes_spec _ (stChart (drawState b.draw0 pre) s).1 s.shapes hlen hinv (by
        intro sh hs' u hu _ v hv e
        exact (hagree v hv u (mem_objectLinks_shape hs' hu) e).symm)
      have e0 : (stShape (drawState b.draw0 pre) s).2 = (prepShapes (stChart (drawState b.draw0 pre) s).1 s.shapes).2 := rfl
      rw [e0, hss.2.2.1, List.map_map]
      apply List.map_congr_left
      intro sh hs'
      have hlink : ∀ u, sh.2 = some u → followLink b.entries (drName (drIdx pre))
          ((prepShapes (stChart (drawState b.draw0 pre) s).1 s.shapes).1.idOf u.link) = some (linkDest u) :=
        fun u hu => hid (prepShapes (stChart (drawState b.draw0 pre) s).1 s.shapes).1 (fun _ _ e => e) hss.1 hd u
          (mem_objectLinks_shape hs' hu) (hss.2.2.2 sh hs' u hu)
      cases hu : sh.2 with
      | none => simp only [Function.comp, shapeOf, seeObj, hu, Option.map_none]
      | some u => simp only [Function.comp, shapeOf, seeObj, hu, Option.map_some, hlink u hu]

end

end Verif
