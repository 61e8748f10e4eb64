import Verif.Lemmas.PackageSheet
/-!
Image relationships lead to the bytes put in.
-/
namespace Verif
open Spec

theorem allSheets_eq {b : PBook} (h : b.sheets ≠ []) : b.allSheets = b.sheets := by
  rw [PBook.allSheets, if_neg h]

theorem mem_allSheets {b : PBook} {s : PSheet} (h : s ∈ b.allSheets) : s ∈ b.sheets ∨ s = {} := by
  rw [PBook.allSheets] at h
  split at h
  · right; simpa using h
  · left; exact h

theorem hashOk_all {b : PBook} (h : HashOk b) {s t : PSheet} (hs : s ∈ b.allSheets) (ht : t ∈ b.allSheets)
    {x y : PImage} (hx : x ∈ imagesOf s) (hy : y ∈ imagesOf t) (e : x.hash = y.hash) :
    x.data = y.data ∧ x.kind = y.kind := by
  rcases mem_allSheets hs with hs | rfl
  · rcases mem_allSheets ht with ht | rfl
    · exact h s hs t ht x hx y hy e
    · simp [imagesOf] at hy
  · simp [imagesOf] at hx

/-- The files of images in order. -/
def PBook.media (b : PBook) : List PImage := b.embeddeds.1 ++ sheetMedia [] [] [] b.allSheets

theorem good_nil : Good [] ([] : List (Str × Nat)) := fun _ _ h => by simp at h

theorem embeddeds_mem {b : PBook} {x : PImage} (h : x ∈ b.embeddeds.1) :
    ∃ s ∈ b.allSheets, x ∈ s.embedded := by
  obtain ⟨N, h1, h2⟩ := prepEmbeddeds_grow [] [] b.allSheets good_nil
  rw [PBook.embeddeds, h1, List.nil_append] at h
  exact h2 x h

theorem media_mem {b : PBook} {x : PImage} (h : x ∈ b.media) : ∃ s ∈ b.allSheets, x ∈ imagesOf s := by
  rcases List.mem_append.1 h with h | h
  · obtain ⟨s, hs, hx⟩ := embeddeds_mem h
    exact ⟨s, hs, by simp [imagesOf, hx]⟩
  · exact sheetMedia_mem _ _ _ _ x h

/-- A good id leads to the bytes of every image with that hash. -/
theorem dest_image {b : PBook} (hh : HashOk b) {src : Str} (hx : inXl src) {ids : List (Str × Nat)}
    (hg : Good b.media ids) {s : PSheet} (hs : s ∈ b.allSheets) {im : PImage} (hm : im ∈ imagesOf s) {id : Nat}
    (hid : ids.lookup im.hash = some id) :
    destination b.entries src (imageRel id im.kind) = some (.part (imName id im.kind) (.media im.data)) := by
  obtain ⟨j, im', rfl, h2, h3⟩ := hg _ _ hid
  obtain ⟨t, ht, hm'⟩ := media_mem (List.mem_of_getElem? h2)
  have := hashOk_all hh ht hs hm' hm h3
  refine destination_part rfl (head_image _ _) (resolve_image hx _ _) (lookup_entries ?_)
  rw [← this.2, ← this.1]
  exact mem_me h2

theorem followImage_of {z : Zip} {src id n : Str} {d : List Nat}
    (h : follow z src id = some ("image".toList, .part n (.media d))) : followImage z src id = some d := by
  rw [followImage, followPart_of h]

/-! ### The numbering condition -/

theorem prepHeader_nil (base : Nat) (ids relIds : List (Str × Nat)) (rels : List PRel) :
    prepHeader base ids relIds rels [] = (ids, rels, []) := rfl

theorem drawState_headerIds (d : DrawBook) (l : List PSheet) (h : ∀ s ∈ l, s.hf = []) :
    (drawState d l).headerIds = d.headerIds := by
  induction l generalizing d with
  | nil => rfl
  | cons s t ih =>
    have e : drawState d (s :: t) = drawState (prepDrawing d s).1 t := rfl
    rw [e, ih _ (fun x hx => h x (by simp [hx])), prepDrawing_fst]
    dsimp only
    rw [stHf, h s (by simp), prepHeader_nil]
    exact (stImg_ids d s).2.2

theorem safeAll_of {b : PBook} (h : HeaderImagesLast b) : SafeAll b.embeddeds.1.length b.draw0 b.allSheets := by
  intro pre s post he
  by_cases hb : b.sheets = []
  · rw [PBook.allSheets, if_pos hb] at he
    have hp : pre = [] := by
      cases pre with
      | nil => rfl
      | cons x t => simp at he
    subst hp
    simp only [List.nil_append, List.cons.injEq] at he
    obtain ⟨rfl, _⟩ := he
    exact ⟨Or.inl rfl, fun h => absurd rfl h⟩
  · rw [allSheets_eq hb] at he
    constructor
    · by_cases hp : ∀ t ∈ pre, t.hf = []
      · left; rw [drawState_headerIds _ _ hp]; rfl
      · right
        have : ∃ t ∈ pre, t.hf ≠ [] := by
          apply Classical.byContradiction
          intro hn
          apply hp
          intro t ht
          apply Classical.byContradiction
          intro h2
          exact hn ⟨t, ht, h2⟩
        obtain ⟨t, ht, hf⟩ := this
        obtain ⟨p1, p2, rfl⟩ := List.append_of_mem ht
        have := (h p1 t (p2 ++ s :: post) (by rw [he]; simp) hf).2 s (by simp)
        exact this
    · intro hf
      have hE := (h pre s post he hf).1
      obtain ⟨N, h1, h2⟩ := prepEmbeddeds_grow [] [] b.allSheets good_nil
      rw [PBook.embeddeds, h1, List.nil_append]
      cases N with
      | nil => rfl
      | cons x N =>
        obtain ⟨t, ht, hx⟩ := h2 x (by simp)
        rw [allSheets_eq hb] at ht
        rw [hE t ht] at hx
        simp at hx

/-- The maps after the sheet are right for all files. -/
theorem good_at {b : PBook} (h : HeaderImagesLast b) {pre post : List PSheet} {s : PSheet}
    (he : b.allSheets = pre ++ s :: post) :
    Good b.media (drawState b.draw0 (pre ++ [s])).worksheetIds ∧
    Good b.media (drawState b.draw0 (pre ++ [s])).headerIds ∧
    Good b.media (drawState b.draw0 (pre ++ [s])).backgroundIds := by
  have hs := safeAll_of h
  have he' : b.allSheets = (pre ++ [s]) ++ post := by rw [he]; simp
  have hi := imgInv_all (E := b.embeddeds.1.length) (d := b.draw0) (M := b.embeddeds.1) (pre ++ [s])
    (imgInv_init b.embeddeds.1) (by
      intro p x q e
      refine hs p x (q ++ post) ?_
      rw [he', e]; simp)
  have em : b.media = (b.embeddeds.1 ++ sheetMedia [] [] [] (pre ++ [s])) ++
      sheetMedia (mediaSt [] [] [] (pre ++ [s])).1 (mediaSt [] [] [] (pre ++ [s])).2.1
        (mediaSt [] [] [] (pre ++ [s])).2.2 post := by
    rw [PBook.media, he', sheetMedia_append, List.append_assoc]
  rw [em]
  exact ⟨hi.ws.append _, hi.hf.append _, hi.bg.append _⟩

theorem drawState_snoc (d : DrawBook) (pre : List PSheet) (s : PSheet) :
    drawState d (pre ++ [s]) = (prepDrawing (drawState d pre) s).1 := by
  rw [drawState, List.foldl_append]; rfl

/-! ### The background image -/

theorem ws_background {b : PBook} (hh : HashOk b) (hf : HeaderImagesLast b) {pre post : List PSheet}
    {s : PSheet} (h : b.allSheets = pre ++ s :: post) (hc : s.chartsheet = false)
    (hl : s.links.length + s.tables.length + 5 < 65536) :
    backgroundOf b.entries (wsName (wsIdx pre)) = s.background.map PImage.data := by
  rw [backgroundOf, refsOf_ws h hc, refs_eq _ _ pre b, Option.bind_some]
  dsimp only
  cases hb : s.background with
  | none => simp
  | some im =>
    have hbg : (b.prepAt pre s).background = (prepBackground (drawState b.draw0 pre) s.background).2 := rfl
    rw [prepBackground_rels, hb] at hbg
    have e := wsRels_eq b pre s
    rw [hbg] at e
    simp only [Option.toList, List.map_cons, List.map_nil, List.singleton_append] at e
    simp only [← List.append_assoc] at e
    have hg := (good_at hf h).2.2
    have hst : (drawState b.draw0 (pre ++ [s])).backgroundIds =
        (prepBackground (drawState b.draw0 pre) (some im)).1.backgroundIds := by
      rw [drawState_snoc, prepDrawing_fst]
      dsimp only
      rw [stImg, (prepImages_ids _ _ _).2.2.2.1, stBg, hb]
    rw [hst] at hg
    have hid : ∃ id, (prepBackground (drawState b.draw0 pre) (some im)).1.backgroundIds.lookup im.hash = some id := by
      rw [prepBackground_book]
      exact assign_mem (by simp)
    obtain ⟨id, hid⟩ := hid
    rw [hid, Option.getD_some] at e
    have := follow_ws h hc hl e
    simp only [List.length_append] at this
    rw [dest_image hh (inXl_ws _) hg (s := s) (by rw [h]; simp) (im := im) (by simp [imagesOf, hb]) hid,
      Option.map_some] at this
    simp only [Option.isSome_some, if_true, Option.bind_some, Option.map_some]
    exact followImage_of this

/-! ### Header and footer images -/

theorem hf_images {b : PBook} (hh : HashOk b) (hf : HeaderImagesLast b) {pre post : List PSheet}
    {s : PSheet} (h : b.allSheets = pre ++ s :: post) (hne : s.hf ≠ []) (hlen : s.hf.length < 65536) :
    (b.prepAt pre s).hfIds.map
        (followImage b.entries (vmName (1 + vmlCount pre + if s.hasVml then 1 else 0))) =
      s.hf.map fun im => some im.data := by
  have e1 : (b.prepAt pre s).hfIds = (stHf (drawState b.draw0 pre) s).2.2 :=
    (prepDrawing_hf (drawState b.draw0 pre) s).2
  have e2 : (b.prepAt pre s).vmlDrawing = (stHf (drawState b.draw0 pre) s).2.1 :=
    (prepDrawing_hf (drawState b.draw0 pre) s).1
  have hg := (good_at hf h).2.1
  have hst : (drawState b.draw0 (pre ++ [s])).headerIds = (stHf (drawState b.draw0 pre) s).1 := by
    rw [drawState_snoc, prepDrawing_fst]
  rw [hst] at hg
  have hsp := prepHeader_spec
    (fun k rel => ∀ im ∈ s.hf, im.hash = k → ∃ id, (stHf (drawState b.draw0 pre) s).1.lookup k = some id ∧
      rel = imageRel id im.kind)
    ((stImg (drawState b.draw0 pre) s).1.backgroundIds.length +
      (stImg (drawState b.draw0 pre) s).1.worksheetIds.length)
    (stImg (drawState b.draw0 pre) s).1.headerIds [] [] s.hf rfl (by intro k i h; simp at h) (by
      intro im him id hid x hx ex
      refine ⟨id, hid, ?_⟩
      have hs : s ∈ b.allSheets := by rw [h]; simp
      rw [(hashOk_all hh hs hs (x := x) (y := im) (by simp [imagesOf, hx]) (by simp [imagesOf, him]) ex).2])
  have hr := hfRels h hne
  rw [e2] at hr
  rw [e1]
  apply List.ext_getElem?
  intro n
  rw [List.getElem?_map, List.getElem?_map]
  cases hn : s.hf[n]? with
  | none =>
    have : s.hf.length ≤ n := List.getElem?_eq_none_iff.1 hn
    rw [List.getElem?_eq_none (by rw [show (stHf (drawState b.draw0 pre) s).2.2.length = s.hf.length from hsp.2.1]; exact this)]
    simp only [Option.map_none]
  | some im =>
    obtain ⟨j, rel, h1, h2, h3⟩ := hsp.2.2.1 n im hn
    have him : im ∈ s.hf := List.mem_of_getElem? hn
    obtain ⟨id, h4, rfl⟩ := h3 im him rfl
    have h1' : (stHf (drawState b.draw0 pre) s).2.2[n]? = some (relStr (j + 1)) := h1
    have h2' : (stHf (drawState b.draw0 pre) s).2.1[j]? = some (imageRel id im.kind) := h2
    rw [h1', Option.map_some, Option.map_some]
    have hlen2 : (stHf (drawState b.draw0 pre) s).2.1.length < 65536 := by
      have h5 := hsp.2.2.2
      have h5' : (stHf (drawState b.draw0 pre) s).2.1.length ≤ 0 + s.hf.length := h5
      omega
    have hfo : follow b.entries (vmName (1 + vmlCount pre + if s.hasVml then 1 else 0)) (relStr (j + 1)) =
        some ("image".toList, .part (imName id im.kind) (.media im.data)) := by
      rw [follow, hr, lookup_numberedRels hlen2, h2', Option.bind_some,
        dest_image hh (inXl_vm _) hg (s := s) (by rw [h]; simp) (im := im) (by simp [imagesOf, him]) h4,
        Option.map_some, imageRel]
    rw [followImage_of hfo]

theorem hfIds_length (b : PBook) (pre : List PSheet) (s : PSheet) :
    (b.prepAt pre s).hfIds.length = s.hf.length := by
  have e1 : (b.prepAt pre s).hfIds = (stHf (drawState b.draw0 pre) s).2.2 :=
    (prepDrawing_hf (drawState b.draw0 pre) s).2
  rw [e1]
  exact (prepHeader_spec (fun _ _ => True) _ _ [] [] s.hf rfl (by intro k i h; simp at h)
    (fun _ _ _ _ => trivial)).2.1

/-! ### Embedded images -/

theorem embedded_at {b : PBook} {pre post : List PSheet} {s : PSheet} (h : b.allSheets = pre ++ s :: post) :
    ∃ ids N, Good (prepEmbedded (embSt [] [] pre).1 (embSt [] [] pre).2 s.embedded).2.1 ids ∧
      b.embeddeds.1 = (prepEmbedded (embSt [] [] pre).1 (embSt [] [] pre).2 s.embedded).2.1 ++ N ∧
      b.vmAt pre s = s.embedded.map (fun im => (ids.lookup im.hash).getD 0) ∧
      ∀ im ∈ s.embedded, ∃ i, ids.lookup im.hash = some i := by
  have hg := embSt_good [] [] pre good_nil
  have hsp := prepEmbedded_spec (embSt [] [] pre).1 (embSt [] [] pre).2 s.embedded hg
  have h1 := (prepEmbeddeds_append [] [] pre (s :: post)).1
  have h2 : b.embeddeds.1 = (prepEmbeddeds (prepEmbedded (embSt [] [] pre).1 (embSt [] [] pre).2 s.embedded).1
      (prepEmbedded (embSt [] [] pre).1 (embSt [] [] pre).2 s.embedded).2.1 post).1 := by
    rw [PBook.embeddeds, h, h1]; rfl
  obtain ⟨N, hN, _⟩ := prepEmbeddeds_grow _ _ post hsp.1
  refine ⟨_, N, hsp.1, by rw [h2, hN], hsp.2.2.2, ?_⟩
  have hall : ∀ (l : List PImage) (ids : List (Str × Nat)) (all : List PImage), Good all ids →
      ∀ im ∈ l, ∃ i, (prepEmbedded ids all l).1.lookup im.hash = some i := by
    intro l
    induction l with
    | nil => intro _ _ _ im him; simp at him
    | cons x t ih =>
      intro ids all hg im him
      rw [prepEmbedded]
      cases hx : ids.lookup x.hash with
      | some i =>
        dsimp only
        rcases List.mem_cons.1 him with rfl | him
        · exact ⟨i, (prepEmbedded_spec ids all t hg).2.1 _ _ hx⟩
        · exact ih ids all hg im him
      | none =>
        have hg' : Good (all ++ [x]) (hmapPut x.hash (all.length + 1) ids) := by
          intro y i hy
          rw [lookup_hmapPut] at hy
          split at hy
          · rename_i e
            cases hy
            exact ⟨all.length, x, rfl, by simp, e.symm⟩
          · exact hg.append _ y i hy
        dsimp only
        rcases List.mem_cons.1 him with rfl | him
        · exact ⟨all.length + 1, (prepEmbedded_spec _ _ t hg').2.1 _ _ (by rw [lookup_hmapPut, if_pos rfl])⟩
        · exact ih _ _ hg' im him
  exact hall s.embedded _ _ hg

theorem inXl_rich : inXl "xl/richData/richValueRel.xml".toList :=
  ⟨"richData".toList, "richValueRel.xml".toList, by decide, noSlash_of_all (by decide), noSlash_of_all (by decide)⟩

theorem relsName_rich : relsName "xl/richData/richValueRel.xml".toList =
    "xl/richData/_rels/richValueRel.xml.rels".toList := by decide +kernel

theorem ws_embedded {b : PBook} (hh : HashOk b) {pre post : List PSheet} {s : PSheet}
    (h : b.allSheets = pre ++ s :: post) (hc : s.chartsheet = false) (hl : b.embeddeds.1.length < 65536) :
    embeddedOf b.entries (wsName (wsIdx pre)) = s.embedded.map fun im => some im.data := by
  rw [embeddedOf, refsOf_ws h hc]
  obtain ⟨ids, N, hg, hN, hvm, hall⟩ := embedded_at h
  have hvm' : (s.refs (b.vmAt pre s)).vm = b.vmAt pre s := rfl
  by_cases hemp : s.embedded = []
  · have : (s.refs (b.vmAt pre s)).vm = [] := by rw [hvm', hvm, hemp]; rfl
    rw [hemp]
    split
    · rename_i e _; cases e; rw [this]; rfl
    · rename_i e _; cases e; rw [this]; rfl
    · rename_i e _ ; simp at e
  · have hs : s ∈ b.allSheets := by rw [h]; simp
    have hE : b.hasEmbedded = true := by
      rw [PBook.hasEmbedded, List.any_eq_true]
      exact ⟨s, hs, by simpa using hemp⟩
    have hlk : b.entries.lookup "xl/richData/richValueRel.xml".toList =
        some (.richValueRel ((List.range b.embeddeds.1.length).map fun i => relStr (i + 1))) := by
      refine lookup_entries (mem_group_at (b := b) 15 rfl ?_)
      rw [if_pos hE]
      simp only [List.mem_cons, true_or, or_true]
    have hr : relsOf b.entries "xl/richData/richValueRel.xml".toList = numberedRels (richRels b.embeddeds.1) := by
      apply relsOf_of_mem
      rw [relsName_rich]
      refine mem_group_at (b := b) 15 rfl ?_
      rw [if_pos hE]
      exact List.mem_cons_self
    rw [hlk]
    dsimp only
    rw [hvm', hvm, List.map_map]
    apply List.map_congr_left
    intro im him
    obtain ⟨i, hi⟩ := hall im him
    have hi0 := hi
    obtain ⟨j, im', rfl, h2, h3⟩ := hg _ _ hi
    simp only [Function.comp, hi0, Option.getD_some, Nat.add_sub_cancel]
    rw [if_neg (by omega)]
    have h2' : b.embeddeds.1[j]? = some im' := by
      rw [hN, List.getElem?_append_left (List.getElem?_eq_some_iff.1 h2).1, h2]
    have hj : j < b.embeddeds.1.length := (List.getElem?_eq_some_iff.1 h2').1
    rw [List.getElem?_map, List.getElem?_range hj, Option.map_some, Option.bind_some]
    obtain ⟨t, ht, hm'⟩ := embeddeds_mem (List.mem_of_getElem? h2')
    have hd := hashOk_all hh ht hs (x := im') (y := im) (by simp [imagesOf, hm']) (by simp [imagesOf, him]) h3
    have hrel : (richRels b.embeddeds.1)[j]? = some (imageRel (j + 1) im'.kind) := by
      rw [richRels, List.getElem?_map, List.getElem?_zipIdx, h2']
      simp
    have hmed : b.media[j]? = some im' := by
      rw [PBook.media, List.getElem?_append_left hj, h2']
    have hfo : follow b.entries "xl/richData/richValueRel.xml".toList (relStr (j + 1)) =
        some ("image".toList, .part (imName (j + 1) im'.kind) (.media im'.data)) := by
      rw [follow, hr, lookup_numberedRels (by simpa [richRels] using hl), hrel, Option.bind_some,
        destination_part (name := imName (j + 1) im'.kind) (p := .media im'.data) rfl (head_image _ _)
          (resolve_image inXl_rich _ _) (lookup_entries (mem_me hmed))]
      rfl
    rw [followImage_of hfo, hd.1]

end Verif
