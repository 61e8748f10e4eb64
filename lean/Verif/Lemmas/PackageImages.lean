import Verif.Lemmas.PackagePrep
/-!
Image ids and media files.
-/
namespace Verif
open Spec

theorem lookup_hmapPut (k k' : Str) (v : Nat) (l : List (Str × Nat)) :
    (hmapPut k v l).lookup k' = if k' = k then some v else l.lookup k' := by
  induction l with
  | nil =>
    rw [hmapPut, List.lookup_cons]
    by_cases h : k' = k
    · simp [h]
    · have hb : (k' == k) = false := by simpa using h
      simp [hb, h]
  | cons e t ih =>
    obtain ⟨a, b⟩ := e
    rw [hmapPut]
    split
    · rename_i h
      rw [List.lookup_cons, List.lookup_cons]
      by_cases h2 : k' = k
      · simp [h2]
      · have hb : (k' == k) = false := by simpa using h2
        have hb2 : (k' == a) = false := by rw [h]; exact hb
        simp [hb, hb2, h2]
    · rename_i h
      rw [List.lookup_cons, List.lookup_cons]
      by_cases h2 : k' = a
      · have : k' ≠ k := by rw [h2]; exact h
        simp [h2, h]
      · have hb2 : (k' == a) = false := by simpa using h2
        rw [hb2]
        exact ih

theorem length_hmapPut {k : Str} {v : Nat} {l : List (Str × Nat)} (h : l.lookup k = none) :
    (hmapPut k v l).length = l.length + 1 := by
  induction l with
  | nil => rfl
  | cons e t ih =>
    obtain ⟨a, b⟩ := e
    rw [List.lookup_cons] at h
    by_cases h2 : k = a
    · subst h2; simp at h
    · have hb2 : (k == a) = false := by simpa using h2
      rw [hb2] at h
      rw [hmapPut, if_neg (fun e => h2 e.symm), List.length_cons, ih h, List.length_cons]

/-- The ids given to a list of images: the next number for a new hash. -/
def assign (n : Nat) (ids : List (Str × Nat)) : List PImage → Nat × List (Str × Nat)
  | [] => (n, ids)
  | im :: t =>
    match ids.lookup im.hash with
    | some _ => assign n ids t
    | none => assign (n + 1) (hmapPut im.hash (n + 1) ids) t

/-- Values of present keys stay. -/
def Stable (a b : List (Str × Nat)) : Prop := ∀ h i, a.lookup h = some i → b.lookup h = some i

theorem Stable.trans {a b c : List (Str × Nat)} (h1 : Stable a b) (h2 : Stable b c) : Stable a c :=
  fun h i e => h2 h i (h1 h i e)

theorem stable_put {k : Str} {v : Nat} {l : List (Str × Nat)} (h : l.lookup k = none) :
    Stable l (hmapPut k v l) := by
  intro x i hx
  rw [lookup_hmapPut]
  have : x ≠ k := by intro e; subst e; rw [h] at hx; exact absurd hx (by simp)
  rw [if_neg this]; exact hx

theorem assign_stable (n : Nat) (ids : List (Str × Nat)) (l : List PImage) :
    Stable ids (assign n ids l).2 := by
  induction l generalizing n ids with
  | nil => exact fun _ _ h => h
  | cons im t ih =>
    rw [assign]
    split
    · exact ih n ids
    · rename_i h
      exact (stable_put h).trans (ih _ _)

theorem assign_mem {n : Nat} {ids : List (Str × Nat)} {l : List PImage} {im : PImage} (h : im ∈ l) :
    ∃ i, (assign n ids l).2.lookup im.hash = some i := by
  induction l generalizing n ids with
  | nil => simp at h
  | cons x t ih =>
    rcases List.mem_cons.1 h with rfl | ht
    · rw [assign]
      split
      · rename_i i hi
        exact ⟨i, assign_stable _ _ _ _ _ hi⟩
      · refine ⟨n + 1, assign_stable _ _ _ _ _ ?_⟩
        rw [lookup_hmapPut, if_pos rfl]
    · rw [assign]
      split
      · exact ih ht
      · exact ih ht

/-- The seen set and the map have the same hashes. -/
def SameKeys (seen : List Str) (ids : List (Str × Nat)) : Prop :=
  ∀ h, h ∈ seen ↔ (ids.lookup h).isSome = true

theorem assign_new {n : Nat} {ids : List (Str × Nat)} {seen : List Str} (l : List PImage)
    (hk : SameKeys seen ids) :
    SameKeys (newImages seen l).2 (assign n ids l).2 ∧
    (assign n ids l).1 = n + (newImages seen l).1.length ∧
    (assign n ids l).2.length = ids.length + (newImages seen l).1.length ∧
    ∀ h i, (assign n ids l).2.lookup h = some i → ids.lookup h = some i ∨
      ∃ j im, (newImages seen l).1[j]? = some im ∧ im.hash = h ∧ i = n + j + 1 := by
  induction l generalizing n ids seen with
  | nil => exact ⟨hk, rfl, rfl, fun h i e => Or.inl e⟩
  | cons im t ih =>
    rw [assign, newImages]
    cases hl : ids.lookup im.hash with
    | some i =>
      have hm : im.hash ∈ seen := (hk _).2 (by rw [hl]; rfl)
      rw [if_pos hm]
      exact ih hk
    | none =>
      have hm : im.hash ∉ seen := fun h => by
        have := (hk _).1 h; rw [hl] at this; exact absurd this (by simp)
      rw [if_neg hm]
      have hk' : SameKeys (im.hash :: seen) (hmapPut im.hash (n + 1) ids) := by
        intro h
        rw [lookup_hmapPut, List.mem_cons]
        by_cases e : h = im.hash
        · simp [e]
        · simp only [if_neg e, e, false_or]; exact hk h
      have h := ih (n := n + 1) hk'
      dsimp only
      refine ⟨h.1, ?_, ?_, ?_⟩
      · rw [h.2.1, List.length_cons]; omega
      · rw [h.2.2.1, length_hmapPut hl, List.length_cons]; omega
      · intro x i hx
        rcases h.2.2.2 x i hx with h1 | ⟨j, im', h1, h2, h3⟩
        · rw [lookup_hmapPut] at h1
          split at h1
          · rename_i e
            cases h1
            exact Or.inr ⟨0, im, rfl, e.symm, rfl⟩
          · exact Or.inl h1
        · exact Or.inr ⟨j + 1, im', by rw [List.getElem?_cons_succ]; exact h1, h2, by omega⟩

/-- The ids are places in the list of media files, of images with that hash. -/
def Good (M : List PImage) (ids : List (Str × Nat)) : Prop :=
  ∀ h i, ids.lookup h = some i → ∃ j im, i = j + 1 ∧ M[j]? = some im ∧ im.hash = h

theorem Good.append {M : List PImage} {ids : List (Str × Nat)} (h : Good M ids) (N : List PImage) :
    Good (M ++ N) ids := by
  intro x i hx
  obtain ⟨j, im, h1, h2, h3⟩ := h x i hx
  refine ⟨j, im, h1, ?_, h3⟩
  rw [List.getElem?_append_left]
  · exact h2
  · exact (List.getElem?_eq_some_iff.1 h2).1

theorem good_assign {M : List PImage} {n : Nat} {ids : List (Str × Nat)} {seen : List Str} {l : List PImage}
    (hk : SameKeys seen ids) (hg : Good M ids) (hn : (newImages seen l).1 ≠ [] → n = M.length) :
    Good (M ++ (newImages seen l).1) (assign n ids l).2 := by
  intro h i hx
  rcases (assign_new (n := n) l hk).2.2.2 h i hx with h1 | ⟨j, im, h1, h2, h3⟩
  · exact hg.append _ h i h1
  · have hne : (newImages seen l).1 ≠ [] := by
      intro e; rw [e] at h1; simp at h1
    refine ⟨n + j, im, h3, ?_, h2⟩
    rw [hn hne, List.getElem?_append_right (by omega)]
    rw [show M.length + j - M.length = j by omega]
    exact h1

/-! ### The three kinds of images and `assign` -/

theorem prepImage_book (b : DrawBook) (r : RelIds) (im : PImage) :
    (prepImage b r im).1 =
      { b with imageId := (assign b.imageId b.worksheetIds [im]).1
               worksheetIds := (assign b.imageId b.worksheetIds [im]).2 } := by
  simp only [prepImage, assign]
  cases h : b.worksheetIds.lookup im.hash <;> rfl

theorem assign_cons (n : Nat) (ids : List (Str × Nat)) (im : PImage) (t : List PImage) :
    assign n ids (im :: t) = assign (assign n ids [im]).1 (assign n ids [im]).2 t := by
  simp only [assign]
  cases h : ids.lookup im.hash <;> rfl

theorem prepImages_book (b : DrawBook) (r : RelIds) (l : List PImage) :
    (prepImages b r l).1 =
      { b with imageId := (assign b.imageId b.worksheetIds l).1
               worksheetIds := (assign b.imageId b.worksheetIds l).2 } := by
  induction l generalizing b r with
  | nil => rfl
  | cons im t ih =>
    have h := ih (prepImage b r im).1 (prepImage b r im).2.1
    have e : (prepImages b r (im :: t)).1 = (prepImages (prepImage b r im).1 (prepImage b r im).2.1 t).1 := rfl
    rw [e, h, assign_cons, prepImage_book]

theorem prepBackground_book (b : DrawBook) (o : Option PImage) :
    (prepBackground b o).1 =
      { b with imageId := (assign b.imageId b.backgroundIds o.toList).1
               backgroundIds := (assign b.imageId b.backgroundIds o.toList).2 } := by
  cases o with
  | none => rfl
  | some im =>
    simp only [prepBackground, Option.toList, assign]
    cases h : b.backgroundIds.lookup im.hash <;> rfl

theorem prepBackground_rels (b : DrawBook) (o : Option PImage) :
    (prepBackground b o).2 = o.toList.map fun im =>
      imageRel (((prepBackground b o).1.backgroundIds.lookup im.hash).getD 0) im.kind := by
  cases o with
  | none => rfl
  | some im =>
    simp only [prepBackground, Option.toList, List.map_cons, List.map_nil]
    split
    · rename_i i h
      simp only [h, Option.getD_some]
    · simp only [lookup_hmapPut, if_true, Option.getD_some]

theorem prepHeader_ids (base : Nat) (ids relIds : List (Str × Nat)) (rels : List PRel) (l : List PImage) :
    (prepHeader base ids relIds rels l).1 = (assign (base + ids.length) ids l).2 := by
  induction l generalizing ids relIds rels with
  | nil => rfl
  | cons im t ih =>
    rw [prepHeader, assign]
    cases h : ids.lookup im.hash with
    | some i =>
      dsimp only
      exact ih _ _ _
    | none =>
      dsimp only
      rw [ih, length_hmapPut h, show 1 + base + ids.length = base + ids.length + 1 by omega]
      rw [show base + (ids.length + 1) = base + ids.length + 1 by omega]

/-! ### The media files of the sheets -/

/-- The sets of written hashes after some sheets. -/
def mediaSt (ws hf bg : List Str) : List PSheet → List Str × List Str × List Str
  | [] => (ws, hf, bg)
  | s :: t => mediaSt (newImages ws s.images).2 (newImages hf s.hf).2 (newImages bg s.background.toList).2 t

theorem sheetMedia_append (ws hf bg : List Str) (pre post : List PSheet) :
    sheetMedia ws hf bg (pre ++ post) = sheetMedia ws hf bg pre ++
      sheetMedia (mediaSt ws hf bg pre).1 (mediaSt ws hf bg pre).2.1 (mediaSt ws hf bg pre).2.2 post := by
  induction pre generalizing ws hf bg with
  | nil => rfl
  | cons s t ih =>
    simp only [List.cons_append, sheetMedia, mediaSt, ih, List.append_assoc]

/-- The state of the ids and the files written so far agree. `E` is the number of embedded images. -/
structure ImgInv (E : Nat) (d : DrawBook) (M : List PImage) (st : List Str × List Str × List Str) : Prop where
  ws : Good M d.worksheetIds
  bg : Good M d.backgroundIds
  hf : Good M d.headerIds
  kws : SameKeys st.1 d.worksheetIds
  khf : SameKeys st.2.1 d.headerIds
  kbg : SameKeys st.2.2 d.backgroundIds
  num : d.imageId = E + d.backgroundIds.length + d.worksheetIds.length
  len : M.length = E + d.backgroundIds.length + d.worksheetIds.length + d.headerIds.length

/-- A sheet whose images get right ids after the sheets so far. -/
def SafeStep (E : Nat) (d : DrawBook) (s : PSheet) : Prop :=
  (d.headerIds = [] ∨ (s.background = none ∧ s.images = [])) ∧ (s.hf ≠ [] → E = 0)

theorem imgInv_step {E : Nat} {d : DrawBook} {M : List PImage} {ws hf bg : List Str} {s : PSheet}
    (h : ImgInv E d M (ws, hf, bg)) (hs : SafeStep E d s) :
    ImgInv E (prepDrawing d s).1
      (M ++ ((newImages bg s.background.toList).1 ++ (newImages ws s.images).1 ++ (newImages hf s.hf).1))
      ((newImages ws s.images).2, (newImages hf s.hf).2, (newImages bg s.background.toList).2) := by
  -- the background
  have e1 : stBg d s = _ := prepBackground_book d s.background
  have a1 := assign_new (n := d.imageId) s.background.toList h.kbg
  have g1 := good_assign (n := d.imageId) (l := s.background.toList) h.kbg h.bg (by
    intro hne
    rcases hs.1 with h0 | ⟨h0, _⟩
    · rw [h.num, h.len, h0]; rfl
    · rw [h0] at hne; exact absurd rfl hne)
  dsimp only at a1 g1
  -- the images
  have e2 : (stImg d s).1 = _ := prepImages_book (stBg d s) {} s.images
  rw [e1] at e2
  dsimp only at e2
  have a2 := assign_new (n := (assign d.imageId d.backgroundIds s.background.toList).1) s.images h.kws
  have g2 := good_assign (n := (assign d.imageId d.backgroundIds s.background.toList).1) (l := s.images) h.kws
    (h.ws.append (newImages bg s.background.toList).1) (by
    intro hne
    rcases hs.1 with h0 | ⟨_, h0⟩
    · rw [a1.2.1, List.length_append, h.num, h.len, h0]; simp
    · rw [h0] at hne; exact absurd rfl hne)
  dsimp only at a2 g2
  -- the header images
  have e3 : (stHf d s).1 = _ := prepHeader_ids _ (stImg d s).1.headerIds [] [] s.hf
  rw [e2] at e3
  dsimp only at e3
  have a3 := assign_new (n := (assign d.imageId d.backgroundIds s.background.toList).2.length +
    (assign (assign d.imageId d.backgroundIds s.background.toList).1 d.worksheetIds s.images).2.length +
      d.headerIds.length) s.hf h.khf
  have g3 := good_assign (n := (assign d.imageId d.backgroundIds s.background.toList).2.length +
    (assign (assign d.imageId d.backgroundIds s.background.toList).1 d.worksheetIds s.images).2.length +
      d.headerIds.length) (l := s.hf) h.khf
    ((h.hf.append (newImages bg s.background.toList).1).append (newImages ws s.images).1) (by
    intro hne
    have hE : E = 0 := hs.2 (by intro e; rw [e] at hne; exact absurd rfl hne)
    have hl := h.len
    rw [List.length_append, List.length_append, a1.2.2.1, a2.2.2.1, hl, hE]
    omega)
  dsimp only at a3 g3
  have em : M ++ ((newImages bg s.background.toList).1 ++ (newImages ws s.images).1 ++ (newImages hf s.hf).1) =
      M ++ (newImages bg s.background.toList).1 ++ (newImages ws s.images).1 ++ (newImages hf s.hf).1 := by
    simp only [List.append_assoc]
  rw [prepDrawing_fst, em]
  constructor
  · dsimp only; rw [e2]; exact g2.append _
  · dsimp only; rw [e2]; exact (g1.append _).append _
  · dsimp only; rw [e3]; exact g3
  · dsimp only; rw [e2]; exact a2.1
  · dsimp only; rw [e3]; exact a3.1
  · dsimp only; rw [e2]; exact a1.1
  · dsimp only; rw [e2]; dsimp only
    rw [a2.2.2.1, a2.2.1, a1.2.2.1, a1.2.1, h.num]; omega
  · dsimp only; rw [e3, e2]; dsimp only
    have hl := h.len
    rw [List.length_append, List.length_append, List.length_append, a3.2.2.1, a2.2.2.1, a1.2.2.1, hl]
    omega

/-- Every sheet is safe after those before it. -/
def SafeAll (E : Nat) (d : DrawBook) (l : List PSheet) : Prop :=
  ∀ pre s post, l = pre ++ s :: post → SafeStep E (drawState d pre) s

theorem imgInv_all {E : Nat} {d : DrawBook} {M : List PImage} {ws hf bg : List Str} (l : List PSheet)
    (h : ImgInv E d M (ws, hf, bg)) (hs : SafeAll E d l) :
    ImgInv E (drawState d l) (M ++ sheetMedia ws hf bg l) (mediaSt ws hf bg l) := by
  induction l generalizing d M ws hf bg with
  | nil => simpa [drawState, sheetMedia, mediaSt] using h
  | cons s t ih =>
    have h1 := imgInv_step h (hs [] s t rfl)
    have h2 := ih h1 (by
      intro pre x post e
      have := hs (s :: pre) x post (by rw [e]; rfl)
      exact this)
    have e : M ++ sheetMedia ws hf bg (s :: t) =
      M ++ ((newImages bg s.background.toList).1 ++ (newImages ws s.images).1 ++ (newImages hf s.hf).1) ++
        sheetMedia (newImages ws s.images).2 (newImages hf s.hf).2 (newImages bg s.background.toList).2 t := by
      simp only [sheetMedia, List.append_assoc]
    rw [e]
    exact h2

theorem imgInv_init (M : List PImage) : ImgInv M.length { imageId := M.length } M ([], [], []) where
  ws := fun _ _ h => by simp at h
  bg := fun _ _ h => by simp at h
  hf := fun _ _ h => by simp at h
  kws := fun _ => by simp
  khf := fun _ => by simp
  kbg := fun _ => by simp
  num := rfl
  len := rfl

/-! ### Embedded images -/

theorem prepEmbedded_spec (ids : List (Str × Nat)) (all l : List PImage) (hg : Good all ids) :
    Good (prepEmbedded ids all l).2.1 (prepEmbedded ids all l).1 ∧
    Stable ids (prepEmbedded ids all l).1 ∧
    (∃ N, (prepEmbedded ids all l).2.1 = all ++ N ∧ ∀ x ∈ N, x ∈ l) ∧
    (prepEmbedded ids all l).2.2 = l.map fun im => ((prepEmbedded ids all l).1.lookup im.hash).getD 0 := by
  induction l generalizing ids all with
  | nil => exact ⟨hg, fun _ _ h => h, ⟨[], by simp [prepEmbedded], by simp⟩, rfl⟩
  | cons im t ih =>
    rw [prepEmbedded]
    cases h : ids.lookup im.hash with
    | some i =>
      have h2 := ih ids all hg
      obtain ⟨N, hN, hNm⟩ := h2.2.2.1
      refine ⟨h2.1, h2.2.1, ⟨N, hN, fun x hx => List.mem_cons_of_mem _ (hNm x hx)⟩, ?_⟩
      dsimp only
      rw [List.map_cons, h2.2.1 _ _ h, Option.getD_some]
      congr 1
      exact h2.2.2.2
    | none =>
      have hg' : Good (all ++ [im]) (hmapPut im.hash (all.length + 1) ids) := by
        intro x i hx
        rw [lookup_hmapPut] at hx
        split at hx
        · rename_i e
          cases hx
          exact ⟨all.length, im, rfl, by simp, e.symm⟩
        · exact hg.append _ x i hx
      have h2 := ih _ _ hg'
      obtain ⟨N, hN, hNm⟩ := h2.2.2.1
      refine ⟨h2.1, (stable_put h).trans h2.2.1, ⟨im :: N, by dsimp only; rw [hN]; simp, ?_⟩, ?_⟩
      · intro x hx
        rcases List.mem_cons.1 hx with rfl | hx
        · simp
        · exact List.mem_cons_of_mem _ (hNm x hx)
      · dsimp only
        rw [List.map_cons, h2.2.1 im.hash (all.length + 1) (by rw [lookup_hmapPut, if_pos rfl]),
          Option.getD_some]
        congr 1
        exact h2.2.2.2

/-- The map and the list of embedded images after some sheets. -/
def embSt (ids : List (Str × Nat)) (all : List PImage) : List PSheet → List (Str × Nat) × List PImage
  | [] => (ids, all)
  | s :: t => embSt (prepEmbedded ids all s.embedded).1 (prepEmbedded ids all s.embedded).2.1 t

theorem embSt_good (ids : List (Str × Nat)) (all : List PImage) (l : List PSheet) (hg : Good all ids) :
    Good (embSt ids all l).2 (embSt ids all l).1 := by
  induction l generalizing ids all with
  | nil => exact hg
  | cons s t ih => exact ih _ _ (prepEmbedded_spec ids all s.embedded hg).1

theorem prepEmbeddeds_append (ids : List (Str × Nat)) (all : List PImage) (pre post : List PSheet) :
    (prepEmbeddeds ids all (pre ++ post)).1 =
      (prepEmbeddeds (embSt ids all pre).1 (embSt ids all pre).2 post).1 ∧
    ∃ V, V.length = pre.length ∧ (prepEmbeddeds ids all (pre ++ post)).2 =
      V ++ (prepEmbeddeds (embSt ids all pre).1 (embSt ids all pre).2 post).2 := by
  induction pre generalizing ids all with
  | nil => exact ⟨rfl, [], rfl, rfl⟩
  | cons s t ih =>
    have h := ih (prepEmbedded ids all s.embedded).1 (prepEmbedded ids all s.embedded).2.1
    obtain ⟨V, hV, he⟩ := h.2
    refine ⟨h.1, (prepEmbedded ids all s.embedded).2.2 :: V, by simp [hV], ?_⟩
    simp only [List.cons_append, prepEmbeddeds]
    rw [he]
    rfl

theorem prepEmbeddeds_grow (ids : List (Str × Nat)) (all : List PImage) (l : List PSheet) (hg : Good all ids) :
    ∃ N, (prepEmbeddeds ids all l).1 = all ++ N ∧ ∀ x ∈ N, ∃ s ∈ l, x ∈ s.embedded := by
  induction l generalizing ids all with
  | nil => exact ⟨[], by simp [prepEmbeddeds], by simp⟩
  | cons s t ih =>
    have hp := prepEmbedded_spec ids all s.embedded hg
    obtain ⟨N1, h1, hm1⟩ := hp.2.2.1
    obtain ⟨N2, h2, hm2⟩ := ih _ _ hp.1
    refine ⟨N1 ++ N2, ?_, ?_⟩
    · simp only [prepEmbeddeds]
      rw [h2, h1, List.append_assoc]
    · intro x hx
      rcases List.mem_append.1 hx with h | h
      · exact ⟨s, by simp, hm1 x h⟩
      · obtain ⟨s', hs', hx'⟩ := hm2 x h
        exact ⟨s', by simp [hs'], hx'⟩

theorem newImages_mem (seen : List Str) (l : List PImage) : ∀ x ∈ (newImages seen l).1, x ∈ l := by
  induction l generalizing seen with
  | nil => simp [newImages]
  | cons im t ih =>
    rw [newImages]
    split
    · intro x hx; exact List.mem_cons_of_mem _ (ih _ x hx)
    · intro x hx
      rcases List.mem_cons.1 hx with rfl | hx
      · simp
      · exact List.mem_cons_of_mem _ (ih _ x hx)

theorem sheetMedia_mem (ws hf bg : List Str) (l : List PSheet) :
    ∀ x ∈ sheetMedia ws hf bg l, ∃ s ∈ l, x ∈ imagesOf s := by
  induction l generalizing ws hf bg with
  | nil => simp [sheetMedia]
  | cons s t ih =>
    intro x hx
    simp only [sheetMedia, List.mem_append] at hx
    rcases hx with ((h | h) | h) | h
    · exact ⟨s, by simp, by have := newImages_mem _ _ _ h; simp [imagesOf, this]⟩
    · exact ⟨s, by simp, by have := newImages_mem _ _ _ h; simp [imagesOf, this]⟩
    · exact ⟨s, by simp, by have := newImages_mem _ _ _ h; simp [imagesOf, this]⟩
    · obtain ⟨s', hs', hx'⟩ := ih _ _ _ x h
      exact ⟨s', by simp [hs'], hx'⟩

end Verif
