import Verif.Lemmas.PackageObjs
/-!
C19, C20, C41, C46: the files of the package and the links between them.
-/
namespace Verif
open Spec

theorem sheets_split {b : PBook} {k : Nat} {s : PSheet} (hs : b.sheets[k]? = some s) :
    ∃ pre post, b.allSheets = pre ++ s :: post ∧ pre.length = k ∧ b.allSheets = b.sheets := by
  have hne : b.sheets ≠ [] := by intro e; rw [e] at hs; simp at hs
  obtain ⟨hk, ha⟩ := List.getElem?_eq_some_iff.1 hs
  refine ⟨b.sheets.take k, b.sheets.drop (k + 1), ?_, ?_, allSheets_eq hne⟩
  · rw [allSheets_eq hne, ← ha, List.getElem_cons_drop, List.take_append_drop]
  · rw [List.length_take]; omega

/-- The part of the `k`-th sheet. -/
theorem sheetName_ws {b : PBook} {k : Nat} {s : PSheet} (hs : b.sheets[k]? = some s)
    (hn : b.sheets.length < 65000) (hc : s.chartsheet = false) :
    ∃ pre post, b.allSheets = pre ++ s :: post ∧ sheetName b.entries k = some (wsName (wsIdx pre)) := by
  obtain ⟨pre, post, h, hk, he⟩ := sheets_split hs
  refine ⟨pre, post, h, ?_⟩
  have := sheetName_at h (by rw [he]; omega)
  rw [hk, sheetPath, hc] at this
  simpa using this

theorem sheetName_cs {b : PBook} {k : Nat} {s : PSheet} (hs : b.sheets[k]? = some s)
    (hn : b.sheets.length < 65000) (hc : s.chartsheet = true) :
    ∃ pre post, b.allSheets = pre ++ s :: post ∧ sheetName b.entries k = some (csName (csIdx pre)) := by
  obtain ⟨pre, post, h, hk, he⟩ := sheets_split hs
  refine ⟨pre, post, h, ?_⟩
  have := sheetName_at h (by rw [he]; omega)
  rw [hk, sheetPath, hc] at this
  simpa using this

/-! ### The objects of a sheet -/

theorem shapes_sp (r : RelIds) (l : List (Nat × Option PUrl)) : ∀ o ∈ (prepShapes r l).2, ∃ n l, o = .sp n l := by
  induction l generalizing r with
  | nil => intro o ho; simp [prepShapes] at ho
  | cons x t ih =>
    intro o ho
    obtain ⟨n, u⟩ := x
    have e : (prepShapes r ((n, u) :: t)).2 = .sp n (r.link u).2 :: (prepShapes (r.link u).1 t).2 := rfl
    rw [e] at ho
    rcases List.mem_cons.1 ho with rfl | ho
    · exact ⟨_, _, rfl⟩
    · exact ih _ o ho

theorem filterMap_congr_mem {α β : Type} {f g : α → Option β} {l : List α} (h : ∀ x ∈ l, f x = g x) :
    l.filterMap f = l.filterMap g := by
  induction l with
  | nil => rfl
  | cons a t ih =>
    rw [List.filterMap_cons, List.filterMap_cons, h a (List.mem_cons_self ..),
      ih fun x hx => h x (List.mem_cons_of_mem _ hx)]

theorem prepEmbedded_length (ids : List (Str × Nat)) (all l : List PImage) :
    (prepEmbedded ids all l).2.1.length ≤ all.length + l.length := by
  induction l generalizing ids all with
  | nil => simp [prepEmbedded]
  | cons im t ih =>
    rw [prepEmbedded]
    cases h : ids.lookup im.hash with
    | some i => exact Nat.le_trans (ih ids all) (by rw [List.length_cons]; omega)
    | none =>
      exact Nat.le_trans (ih (hmapPut im.hash (all.length + 1) ids) (all ++ [im]))
        (by rw [List.length_append]; simp only [List.length_cons, List.length_nil]; omega)

theorem embeddeds_length (ids : List (Str × Nat)) (all : List PImage) (l : List PSheet) :
    (prepEmbeddeds ids all l).1.length ≤ all.length + (l.map fun s => s.embedded.length).sum := by
  induction l generalizing ids all with
  | nil => simp [prepEmbeddeds]
  | cons s t ih =>
    have h1 := prepEmbedded_length ids all s.embedded
    have h2 := ih (prepEmbedded ids all s.embedded).1 (prepEmbedded ids all s.embedded).2.1
    have e : (prepEmbeddeds ids all (s :: t)).1 =
      (prepEmbeddeds (prepEmbedded ids all s.embedded).1 (prepEmbedded ids all s.embedded).2.1 t).1 := rfl
    rw [e, List.map_cons, List.sum_cons]
    omega

theorem charts_of_objs {b : PBook} {pre post : List PSheet} {s : PSheet} (h : b.allSheets = pre ++ s :: post)
    (hl : 2 * s.images.length + s.charts.length + s.shapes.length < 65536) {name : Str}
    (hd : drawingOf b.entries name =
      if s.hasDrawing then some (drName (drIdx pre), (b.prepAt pre s).objs) else none) :
    (objectsOf b.entries name).filterMap chartSeen = s.charts.map some ∧
    (objectsOf b.entries name).length = s.images.length + s.charts.length + s.shapes.length := by
  rw [objectsOf, hd]
  by_cases hdr : s.hasDrawing = true
  · rw [if_pos hdr]
    dsimp only
    have e : (b.prepAt pre s).objs = (stImg (drawState b.draw0 pre) s).2.2 ++
      (stChart (drawState b.draw0 pre) s).2 ++ (stShape (drawState b.draw0 pre) s).2 := rfl
    have hfr := frames_seen h hdr hl
    have hpics := pics_eq b pre s
    have hsl : (stShape (drawState b.draw0 pre) s).2.length = s.shapes.length := prepShapes_length _ _
    have hsp : ∀ o ∈ (stShape (drawState b.draw0 pre) s).2, ∃ n l, o = .sp n l := shapes_sp _ _
    rw [e, List.map_append, List.map_append, hfr, List.filterMap_append, List.filterMap_append]
    constructor
    · have h1 : ((stImg (drawState b.draw0 pre) s).2.2.map (seeObj b.entries (drName (drIdx pre)))).filterMap chartSeen = [] := by
        rw [hpics, List.map_map, List.filterMap_eq_nil_iff]
        intro o ho
        obtain ⟨im, _, rfl⟩ := List.mem_map.1 ho
        rfl
      have h3 : ((stShape (drawState b.draw0 pre) s).2.map (seeObj b.entries (drName (drIdx pre)))).filterMap chartSeen = [] := by
        rw [List.filterMap_eq_nil_iff]
        intro o ho
        obtain ⟨x, hx, rfl⟩ := List.mem_map.1 ho
        obtain ⟨n, l, rfl⟩ := hsp x hx
        rfl
      rw [h1, h3, List.nil_append, List.append_nil, List.filterMap_map]
      induction s.charts with
      | nil => rfl
      | cons c t ih => rw [List.filterMap_cons, List.map_cons, ih]; rfl
    · rw [List.length_append, List.length_append, List.length_map, List.length_map, List.length_map, hsl, hpics,
        List.length_map]
  · rw [if_neg hdr]
    simp only [PSheet.hasDrawing, Bool.or_eq_true, Bool.not_eq_true', not_or, Bool.not_eq_false,
      List.isEmpty_iff] at hdr
    obtain ⟨⟨h1, h2⟩, h3⟩ := hdr
    rw [h1, h2, h3]
    exact ⟨rfl, rfl⟩

/-! ### C41: every id in a sheet leads to the part the user put there -/

/-- From the workbook part to the `k`-th worksheet and from its ids to its links, tables, notes, buttons,
comments, charts and header images: each reaches what the user put in that worksheet.
Missing for the full property: sheets with 65000 or more links and tables or drawing objects
(`C41_too_many_links`), and workbooks with 65000 or more sheets; chartsheets are in
`C41_chartsheet_parts_partial`. -/
theorem C41_worksheet_parts_partial (b : PBook) (k : Nat) (s : PSheet) (hs : b.sheets[k]? = some s)
    (hc : s.chartsheet = false) (hn : b.sheets.length < 65000)
    (hl : s.links.length + s.tables.length < 65000)
    (ho : 2 * s.images.length + s.charts.length + s.shapes.length < 65000) :
    ∃ name, sheetName b.entries k = some name ∧
      linksOf b.entries name =
        (s.links.filter fun l => !l.2.internal).map (fun l => (l.1, some (.outside l.2.target))) ∧
      tablesOf b.entries name = s.tables.map some ∧
      noteShapesOf b.entries name =
        (if s.notes.isSome || s.buttons.isSome then some (s.notes, s.buttons) else none) ∧
      commentsOf b.entries name = s.notes ∧
      (objectsOf b.entries name).filterMap chartSeen = s.charts.map some ∧
      (objectsOf b.entries name).length = s.images.length + s.charts.length + s.shapes.length ∧
      (headerImagesOf b.entries name).length = s.hf.length := by
  obtain ⟨pre, post, h, hname⟩ := sheetName_ws hs hn hc
  have hl' : s.links.length + s.tables.length + 5 < 65536 := by omega
  have hobj := charts_of_objs h (by omega) (ws_drawingOf h hc hl')
  refine ⟨_, hname, ws_links h hc hl', ws_tables h hc hl', ws_notes h hc hl', ws_comments h hc, hobj.1, hobj.2, ?_⟩
  rw [ws_header h hc hl']
  split
  · rename_i e; rw [e]; rfl
  · rw [List.length_map, hfIds_length]

/-- The same for chartsheets without notes and buttons. Missing: chartsheets with notes or buttons and a
header image (`C41_chartsheet_notes`). -/
theorem C41_chartsheet_parts_partial (b : PBook) (k : Nat) (s : PSheet) (hs : b.sheets[k]? = some s)
    (hc : s.chartsheet = true) (hn : b.sheets.length < 65000) (hv : s.notes = none ∧ s.buttons = none)
    (ho : 2 * s.images.length + s.charts.length + s.shapes.length < 65000) :
    ∃ name, sheetName b.entries k = some name ∧
      (objectsOf b.entries name).filterMap chartSeen = s.charts.map some ∧
      (objectsOf b.entries name).length = s.images.length + s.charts.length + s.shapes.length ∧
      (headerImagesOf b.entries name).length = s.hf.length := by
  obtain ⟨pre, post, h, hname⟩ := sheetName_cs hs hn hc
  have hobj := charts_of_objs h (by omega) (cs_drawingOf h hc)
  have hv' : s.hasVml = false := by simp [PSheet.hasVml, hv.1, hv.2]
  refine ⟨_, hname, hobj.1, hobj.2, ?_⟩
  rw [cs_header h hc hv']
  split
  · rename_i e; rw [e]; rfl
  · rw [List.length_map, hfIds_length]

theorem lookup_numberedRels_big (l : List PRel) {n : Nat} (h : 65536 ≤ n) :
    (numberedRels l).lookup (relStr n) = none := by
  cases hx : (numberedRels l).lookup (relStr n) with
  | none => rfl
  | some r =>
    exfalso
    have := mem_of_lookup hx
    rw [numberedRels, List.mem_map] at this
    obtain ⟨y, _, hy⟩ := this
    have := relStr_injective (congrArg Prod.fst hy)
    omega

/-- A worksheet with more than 65535 links has a link that leads nowhere: the ids of the relationships
are counted in 16 bits, the links are not (F66b). -/
theorem C41_too_many_links (b : PBook) (k : Nat) (s : PSheet) (hs : b.sheets[k]? = some s)
    (hc : s.chartsheet = false) (hn : b.sheets.length < 65000)
    (hl : 65536 ≤ (s.links.filter fun l => !l.2.internal).length) :
    ∃ name l, sheetName b.entries k = some name ∧ l ∈ linksOf b.entries name ∧ l.2 = none := by
  obtain ⟨pre, post, h, hname⟩ := sheetName_ws hs hn hc
  have hr := relsOf_ws h hc (wsRels_has (b := b) (pre := pre) hc (by
    intro e
    have : s.linkRels = [] := by
      rw [wsRels_eq] at e
      exact (List.append_eq_nil_iff.1 e).1
    rw [PSheet.linkRels] at this
    have := congrArg List.length this
    rw [List.length_map, List.length_nil] at this
    omega))
  obtain ⟨x, hx⟩ : ∃ x, (s.links.filter fun l => !l.2.internal)[65535]? = some x :=
    ⟨_, List.getElem?_eq_getElem (by omega)⟩
  refine ⟨_, (x.1, followLink b.entries (wsName (wsIdx pre)) (relStr 65536)), hname, ?_, ?_⟩
  · rw [linksOf, refsOf_ws h hc, refs_eq _ _ pre b]
    dsimp only
    rw [linkRefs_eq, List.map_map, List.mem_map]
    refine ⟨(x, 65536), ?_, rfl⟩
    rw [List.mem_zipIdx_iff_le_and_getElem?_sub]
    exact ⟨by omega, hx⟩
  · dsimp only
    rw [followLink, follow, hr, lookup_numberedRels_big _ (by omega)]
    rfl

/-! ### C20: the images are the bytes put in -/

/-- A reader finds for the pictures, the background and the header and footer images of every worksheet
the bytes the user put there.
Missing: workbooks with images numbered after header or footer images (`C20_header_images`), hash
collisions, a link whose text is the hash of an image of the same sheet, 65000 objects. -/
theorem C20_images_partial (b : PBook) (hh : HashOk b) (hf : HeaderImagesLast b) (k : Nat) (s : PSheet)
    (hs : b.sheets[k]? = some s) (hc : s.chartsheet = false) (hn : b.sheets.length < 65000)
    (hl : s.links.length + s.tables.length < 65000) (hlen : s.hf.length < 65000)
    (ho : 2 * s.images.length + s.charts.length + s.shapes.length < 65000) (hk : KeysOk s) :
    ∃ name, sheetName b.entries k = some name ∧
      (objectsOf b.entries name).filterMap pictureBytes = s.images.map (fun im => some im.data) ∧
      backgroundOf b.entries name = s.background.map (fun im => im.data) ∧
      headerImagesOf b.entries name = s.hf.map (fun im => some im.data) := by
  obtain ⟨pre, post, h, hname⟩ := sheetName_ws hs hn hc
  have hl' : s.links.length + s.tables.length + 5 < 65536 := by omega
  refine ⟨_, hname, ?_, ws_background hh hf h hc hl', ?_⟩
  · rw [objectsOf, ws_drawingOf h hc hl']
    by_cases hdr : s.hasDrawing = true
    · rw [if_pos hdr]
      dsimp only
      have e : (b.prepAt pre s).objs = (stImg (drawState b.draw0 pre) s).2.2 ++
        (stChart (drawState b.draw0 pre) s).2 ++ (stShape (drawState b.draw0 pre) s).2 := rfl
      have hp : ((stImg (drawState b.draw0 pre) s).2.2.map (seeObj b.entries (drName (drIdx pre)))).filterMap
          pictureBytes = s.images.map (fun im => some im.data) := by
        rw [pics_eq, List.map_map, List.filterMap_map, ← List.filterMap_eq_map]
        apply filterMap_congr_mem
        intro im him
        have hb := pic_bytes hh hf h (by omega) hk him
        generalize b.entries = z at hb
        generalize drName (drIdx pre) = n at hb
        generalize (stImg (drawState b.draw0 pre) s).2.1 = r at hb
        simp only [Function.comp, picOf, seeObj, hb, pictureBytes]
      have hc2 : (s.charts.map fun c => ObjSeen.chart (some c)).filterMap pictureBytes = [] := by
        rw [List.filterMap_eq_nil_iff]
        intro x hx
        obtain ⟨c, _, rfl⟩ := List.mem_map.1 hx
        rfl
      have hs2 : ((stShape (drawState b.draw0 pre) s).2.map (seeObj b.entries (drName (drIdx pre)))).filterMap
          pictureBytes = [] := by
        rw [List.filterMap_eq_nil_iff]
        intro x hx
        obtain ⟨o, ho, rfl⟩ := List.mem_map.1 hx
        obtain ⟨n, l, rfl⟩ := shapes_sp _ _ o ho
        rfl
      rw [e, List.map_append, List.map_append, frames_seen h hdr (by omega), List.filterMap_append,
        List.filterMap_append, hp, hc2, hs2, List.append_nil, List.append_nil]
    · rw [if_neg hdr]
      simp only [PSheet.hasDrawing, Bool.or_eq_true, Bool.not_eq_true', not_or, Bool.not_eq_false,
        List.isEmpty_iff] at hdr
      obtain ⟨⟨h1, h2⟩, h3⟩ := hdr
      rw [h1]; rfl
  · rw [ws_header h hc hl']
    split
    · rename_i e; rw [e]; rfl
    · rename_i e
      exact hf_images hh hf h e (by omega)

/-- The images embedded in cells are always the bytes put in. Missing: hash collisions, 65000 images. -/
theorem C20_embedded_partial (b : PBook) (hh : HashOk b) (k : Nat) (s : PSheet) (hs : b.sheets[k]? = some s)
    (hc : s.chartsheet = false) (hn : b.sheets.length < 65000)
    (he : (b.sheets.map fun s => s.embedded.length).sum < 65000) :
    ∃ name, sheetName b.entries k = some name ∧
      embeddedOf b.entries name = s.embedded.map fun im => some im.data := by
  obtain ⟨pre, post, h, hname⟩ := sheetName_ws hs hn hc
  obtain ⟨_, _, _, _, ha⟩ := sheets_split hs
  refine ⟨_, hname, ws_embedded hh h hc ?_⟩
  have := embeddeds_length [] [] b.allSheets
  rw [ha] at this
  rw [PBook.embeddeds, ha]
  simp only [List.length_nil] at this
  omega

/-! ### C46: the objects of a drawing with their links -/

/-- A reader finds in the drawing of a sheet the pictures, charts and shapes the user put there, in order,
with their bytes and links. Missing: two charts or more with shapes that have links of their own
(`C46_shape_link_charts`), links that differ only in the anchor (`C46_anchor`), a link to a file named
"Chart" (`C46_chart_link`), and the conditions of `C20_images_partial`. -/
theorem C46_drawing_objects_partial (b : PBook) (hh : HashOk b) (hf : HeaderImagesLast b) (k : Nat) (s : PSheet)
    (hs : b.sheets[k]? = some s) (hn : b.sheets.length < 65000)
    (hl : s.links.length + s.tables.length < 65000)
    (ho : 2 * s.images.length + s.charts.length + s.shapes.length < 65000) (hk : KeysOk s) (hlk : LinksOk s)
    (hch : s.charts.length ≤ 1 ∨
      ∀ sh ∈ s.shapes, ∀ u, sh.2 = some u → ∃ im ∈ s.images, ∃ v, im.url = some v ∧ v.link = u.link) :
    ∃ name, sheetName b.entries k = some name ∧ objectsOf b.entries name = objectsPut s := by
  have key : ∀ pre post, b.allSheets = pre ++ s :: post → ∀ name, drawingOf b.entries name =
      (if s.hasDrawing then some (drName (drIdx pre), (b.prepAt pre s).objs) else none) →
      objectsOf b.entries name = objectsPut s := by
    intro pre post h name hd
    rw [objectsOf, hd]
    by_cases hdr : s.hasDrawing = true
    · rw [if_pos hdr]
      dsimp only
      have e : (b.prepAt pre s).objs = (stImg (drawState b.draw0 pre) s).2.2 ++
        (stChart (drawState b.draw0 pre) s).2 ++ (stShape (drawState b.draw0 pre) s).2 := rfl
      have hls := links_seen h (by omega) hk hlk hch
      have hp : (stImg (drawState b.draw0 pre) s).2.2.map (seeObj b.entries (drName (drIdx pre))) =
          s.images.map (fun im => .picture (some im.data) (im.url.map fun u => some (linkDest u))) := by
        rw [pics_eq, List.map_map]
        apply List.map_congr_left
        intro im him
        have hb := pic_bytes hh hf h (by omega) hk him
        have hl1 := hls.1 im him
        generalize b.entries = z at hb hl1
        generalize drName (drIdx pre) = n at hb hl1
        generalize (stImg (drawState b.draw0 pre) s).2.1 = r at hb hl1
        simp only [Function.comp, picOf, seeObj, hb]
        cases hu : im.url with
        | none => simp only [Option.map_none]
        | some u => simp only [Option.map_some, hl1 u hu]
      rw [e, List.map_append, List.map_append, frames_seen h hdr (by omega), hls.2, hp, objectsPut]
    · rw [if_neg hdr]
      simp only [PSheet.hasDrawing, Bool.or_eq_true, Bool.not_eq_true', not_or, Bool.not_eq_false,
        List.isEmpty_iff] at hdr
      obtain ⟨⟨h1, h2⟩, h3⟩ := hdr
      rw [objectsPut, h1, h2, h3]; rfl
  cases hc : s.chartsheet with
  | false =>
    obtain ⟨pre, post, h, hname⟩ := sheetName_ws hs hn hc
    exact ⟨_, hname, key pre post h _ (ws_drawingOf h hc (by omega))⟩
  | true =>
    obtain ⟨pre, post, h, hname⟩ := sheetName_cs hs hn hc
    exact ⟨_, hname, key pre post h _ (cs_drawingOf h hc)⟩

/-! ### Concrete workbooks -/

/-- Two pictures of the same file with the same link, a chart, a shape with that link. -/
def objSheet : PSheet :=
  { links := [((0, 0), { link := "http://a".toList, target := "http://a".toList }),
              ((0, 1), { link := "internal:B".toList, target := "#B".toList, internal := true }),
              ((1, 1), { link := "http://c".toList, target := "http://c".toList })]
    embedded := [{ hash := "5".toList, kind := .png, data := [5] }]
    background := some { hash := "7".toList, kind := .jpeg, data := [7, 7] }
    images := [{ hash := "8".toList, kind := .png, data := [8], url :=
                  some { link := "http://a".toList, target := "http://a".toList } },
               { hash := "8".toList, kind := .png, data := [8] },
               { hash := "9".toList, kind := .gif, data := [9], url :=
                  some { link := "internal:B".toList, target := "#B".toList, internal := true } }]
    charts := [1]
    shapes := [(1, none), (2, some { link := "http://d".toList, target := "http://d".toList })]
    notes := some 3, tables := [4, 5] }

def hfSheet : PSheet :=
  { background := some { hash := "7".toList, kind := .jpeg, data := [7, 7] }
    images := [{ hash := "9".toList, kind := .gif, data := [9] }]
    hf := [{ hash := "8".toList, kind := .png, data := [8] }, { hash := "7".toList, kind := .jpeg, data := [7, 7] },
           { hash := "8".toList, kind := .png, data := [8] }]
    buttons := some 2 }

/-- The hypotheses of the theorems are met. -/
example : KeysOk objSheet ∧ LinksOk objSheet ∧ HashOk { sheets := [objSheet, hfSheet] } ∧
    HeaderImagesLast { sheets := [objSheet, {}] } := by
  refine ⟨by unfold KeysOk; decide +kernel, by unfold LinksOk; decide +kernel,
    by unfold HashOk; decide +kernel, ?_⟩
  intro pre s post h hne
  exfalso
  have : s ∈ [objSheet, {}] := by rw [show [objSheet, ({} : PSheet)] = pre ++ s :: post from h]; simp
  simp only [List.mem_cons, List.not_mem_nil, or_false] at this
  rcases this with rfl | rfl <;> exact hne rfl

/-- A workbook of two sheets without embedded images, the first without header images. -/
theorem headerImagesLast_two (a c : PSheet) (ha : a.hf = []) (hea : a.embedded = []) (hec : c.embedded = []) :
    HeaderImagesLast { sheets := [a, c] } := by
  intro pre s post h hne
  have h : [a, c] = pre ++ s :: post := h
  refine ⟨fun t ht => ?_, ?_⟩
  · have ht : t ∈ [a, c] := ht
    simp only [List.mem_cons, List.not_mem_nil, or_false] at ht
    rcases ht with rfl | rfl
    · exact hea
    · exact hec
  · cases pre with
    | nil =>
      simp only [List.nil_append, List.cons.injEq] at h
      rw [← h.1] at hne
      exact absurd ha hne
    | cons x t =>
      cases t with
      | nil =>
        simp only [List.cons_append, List.nil_append, List.cons.injEq] at h
        rw [← h.2.2]; simp
      | cons y t => simp at h

example : HeaderImagesLast { sheets := [{ objSheet with embedded := [] }, hfSheet] } :=
  headerImagesLast_two _ _ rfl rfl rfl

/-- What the theorems say of a concrete workbook. -/
example : (sheetName (PBook.entries { sheets := [{ objSheet with embedded := [] }, hfSheet] }) 1).map
    (headerImagesOf (PBook.entries { sheets := [{ objSheet with embedded := [] }, hfSheet] })) =
    some [some [8], some [7, 7], some [8]] := by decide +kernel

/-! ### Where the properties fail -/

/-- F13: header and footer images are numbered without the embedded images before them and the picture of
the sheet after them without the header image: both show other files. -/
theorem C20_header_images :
    let b : PBook := { sheets := [{ embedded := [{ hash := "5".toList, kind := .png, data := [5] }],
                                    hf := [{ hash := "8".toList, kind := .png, data := [8] }] },
                                  { images := [{ hash := "9".toList, kind := .png, data := [9] }] }] }
    (sheetName b.entries 0).map (headerImagesOf b.entries) = some [some [5]] ∧
    (sheetName b.entries 1).map (fun n => (objectsOf b.entries n).filterMap pictureBytes) = some [some [8]] := by
  decide +kernel

/-- F13: the same with different kinds of files: the header image does not exist in the package. -/
theorem C19_header_images :
    let b : PBook := { sheets := [{ embedded := [{ hash := "5".toList, kind := .png, data := [5] }],
                                    hf := [{ hash := "8".toList, kind := .jpeg, data := [8] }] }] }
    destination b.entries "xl/drawings/vmlDrawing1.vml".toList (imageRel 1 .jpeg) = none ∧
    ("rId1".toList, imageRel 1 .jpeg) ∈ relsOf b.entries "xl/drawings/vmlDrawing1.vml".toList := by
  decide +kernel

/-- F65: in a chartsheet with notes the id of the header images leads to the notes. -/
theorem C41_chartsheet_notes :
    let b : PBook := { sheets := [{ chartsheet := true, charts := [1], notes := some 3,
                                    hf := [{ hash := "8".toList, kind := .png, data := [8] }] }] }
    (sheetName b.entries 0).map (fun n => (refsOf b.entries n).bind fun r =>
      r.legacyDrawingHF.bind (followPart b.entries n "vmlDrawing".toList)) =
      some (some ("xl/drawings/vmlDrawing1.vml".toList, .vml (some 3) none)) ∧
    (sheetName b.entries 0).map (headerImagesOf b.entries) = some [] := by
  decide +kernel

/-- F19: with two charts the link of a shape leads to a chart. -/
theorem C46_shape_link_charts :
    let b : PBook := { sheets := [{ charts := [1, 2], shapes := [(1, some { link := "http://d".toList,
                                                                            target := "http://d".toList })] }] }
    (sheetName b.entries 0).map (objectsOf b.entries) =
      some [.chart (some 1), .chart (some 2), .shape 1 (some none)] := by
  decide +kernel

/-- F64: of two links that differ in the anchor the second leads to the first. -/
theorem C46_anchor :
    let b : PBook := { sheets := [{ shapes := [(1, some { link := "http://d".toList, target := "http://d#a".toList }),
                                               (2, some { link := "http://d".toList, target := "http://d#b".toList })] }] }
    (sheetName b.entries 0).map (objectsOf b.entries) =
      some [.shape 1 (some (some (.outside "http://d#a".toList))),
            .shape 2 (some (some (.outside "http://d#a".toList)))] := by
  decide +kernel

/-- A link of a shape to a relative file named "Chart" leads to an id that does not exist. -/
theorem C46_chart_link :
    let b : PBook := { sheets := [{ charts := [1], shapes := [(1, some { link := "Chart".toList,
                                                                         target := "Chart".toList })] }] }
    (sheetName b.entries 0).map (objectsOf b.entries) =
      some [.chart (some 1), .shape 1 (some none)] := by
  decide +kernel

end Verif
