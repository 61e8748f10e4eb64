import Verif.Lemmas.PackageLoc
/-!
The relationships of the drawings and of the header images: ids and the relationship each leads to.
-/
namespace Verif
open Spec

/-! ### Drawings -/

/-- Every key but "Chart" has an id that leads to a relationship it may have. -/
def RInv (R : Str → PRel → Prop) (r : RelIds) : Prop :=
  ∀ k i, k ≠ "Chart".toList → r.ids.lookup k = some i → ∃ j rel, i = j + 1 ∧ r.rels[j]? = some rel ∧ R k rel

/-- The relationships only grow. -/
def RGrow (a b : RelIds) : Prop := Stable a.ids b.ids ∧ ∃ N, b.rels = a.rels ++ N

theorem RGrow.refl (a : RelIds) : RGrow a a := ⟨fun _ _ h => h, [], by simp⟩
theorem RGrow.trans {a b c : RelIds} (h1 : RGrow a b) (h2 : RGrow b c) : RGrow a c := by
  obtain ⟨s1, N1, e1⟩ := h1
  obtain ⟨s2, N2, e2⟩ := h2
  exact ⟨s1.trans s2, N1 ++ N2, by rw [e2, e1, List.append_assoc]⟩

theorem RGrow.at {a b : RelIds} (h : RGrow a b) {j : Nat} {rel : PRel} (e : a.rels[j]? = some rel) :
    b.rels[j]? = some rel := by
  obtain ⟨_, N, hN⟩ := h
  rw [hN, List.getElem?_append_left (List.getElem?_eq_some_iff.1 e).1, e]

theorem get_spec (R : Str → PRel → Prop) (r : RelIds) (key : Str) (rel : PRel)
    (hl : r.ids.length = r.rels.length) (hi : RInv R r) (hk : key ≠ "Chart".toList → R key rel) :
    (r.get key rel).1.ids.length = (r.get key rel).1.rels.length ∧ RInv R (r.get key rel).1 ∧
    RGrow r (r.get key rel).1 ∧ (r.get key rel).1.ids.lookup key = some (r.get key rel).2 ∧
    (r.get key rel).1.rels.length ≤ r.rels.length + 1 := by
  rw [RelIds.get]
  cases h : r.ids.lookup key with
  | some i => exact ⟨hl, hi, RGrow.refl r, h, by dsimp only; omega⟩
  | none =>
    dsimp only
    refine ⟨?_, ?_, ⟨stable_put h, [rel], rfl⟩, ?_, ?_⟩
    · rw [length_hmapPut h, List.length_append, hl]; rfl
    · intro k i hne hx
      dsimp only at hx
      rw [lookup_hmapPut] at hx
      split at hx
      · rename_i e
        cases hx
        subst e
        refine ⟨r.ids.length, rel, by omega, ?_, hk hne⟩
        dsimp only
        rw [hl, List.getElem?_append_right (by omega), Nat.sub_self]; rfl
      · obtain ⟨j, rel', h1, h2, h3⟩ := hi k i hne hx
        refine ⟨j, rel', h1, ?_, h3⟩
        dsimp only
        rw [List.getElem?_append_left (List.getElem?_eq_some_iff.1 h2).1, h2]
    · rw [lookup_hmapPut, if_pos rfl]
    · simp

/-- The id of a key, as text. -/
def RelIds.idOf (r : RelIds) (k : Str) : Str := relStr ((r.ids.lookup k).getD 0)

theorem link_spec (R : Str → PRel → Prop) (r : RelIds) (o : Option PUrl)
    (hl : r.ids.length = r.rels.length) (hi : RInv R r)
    (hk : ∀ u, o = some u → u.link ≠ "Chart".toList → R u.link u.rel) :
    (r.link o).1.ids.length = (r.link o).1.rels.length ∧ RInv R (r.link o).1 ∧
    RGrow r (r.link o).1 ∧ (r.link o).2 = o.map (fun u => (r.link o).1.idOf u.link) ∧
    (∀ u, o = some u → ∃ i, (r.link o).1.ids.lookup u.link = some i) ∧
    (r.link o).1.rels.length ≤ r.rels.length + 1 := by
  cases o with
  | none => exact ⟨hl, hi, RGrow.refl r, rfl, by simp, by simp [RelIds.link]⟩
  | some u =>
    have h := get_spec R r u.link u.rel hl hi (hk u rfl)
    refine ⟨h.1, h.2.1, h.2.2.1, ?_, ?_, h.2.2.2.2⟩
    · simp only [RelIds.link, Option.map_some, RelIds.idOf, h.2.2.2.1, Option.getD_some]
    · intro u' e
      cases e
      exact ⟨_, h.2.2.2.1⟩

theorem idOf_grow {a b : RelIds} (h : RGrow a b) {k : Str} (hk : ∃ i, a.ids.lookup k = some i) :
    b.idOf k = a.idOf k := by
  obtain ⟨i, hi⟩ := hk
  rw [RelIds.idOf, RelIds.idOf, hi, h.1 _ _ hi]

/-- What `prepImages` stores for an image. -/
def picOf (r : RelIds) (im : PImage) : DrawObj :=
  .pic (r.idOf im.hash) (im.url.map fun u => r.idOf u.link)

theorem picOf_grow {a b : RelIds} (h : RGrow a b) {im : PImage}
    (hk : ∃ i, a.ids.lookup im.hash = some i)
    (hu : ∀ u, im.url = some u → ∃ i, a.ids.lookup u.link = some i) : picOf b im = picOf a im := by
  rw [picOf, picOf, idOf_grow h hk]
  cases e : im.url with
  | none => rfl
  | some u => simp only [Option.map_some]; rw [idOf_grow h (hu u e)]

theorem prepImage_id (b : DrawBook) (r : RelIds) (im : PImage) :
    ∃ id, (prepImage b r im).1.worksheetIds.lookup im.hash = some id ∧
      (prepImage b r im).2.1 = ((r.link im.url).1.get im.hash (imageRel id im.kind)).1 ∧
      (prepImage b r im).2.2 = .pic (relStr ((r.link im.url).1.get im.hash (imageRel id im.kind)).2)
        (r.link im.url).2 := by
  simp only [prepImage]
  cases h : b.worksheetIds.lookup im.hash with
  | some i => exact ⟨i, h, rfl, rfl⟩
  | none =>
    refine ⟨b.imageId + 1, ?_, rfl, rfl⟩
    dsimp only
    rw [lookup_hmapPut, if_pos rfl]

theorem prepImage_stable (b : DrawBook) (r : RelIds) (im : PImage) :
    Stable b.worksheetIds (prepImage b r im).1.worksheetIds := by
  rw [prepImage_book]; exact assign_stable _ _ _

theorem prepImages_stable (b : DrawBook) (r : RelIds) (l : List PImage) :
    Stable b.worksheetIds (prepImages b r l).1.worksheetIds := by
  rw [prepImages_book]; exact assign_stable _ _ _

/-- The images: ids lead to permitted relationships, and the pictures use the ids of their keys. -/
theorem prepImages_spec (R : Str → PRel → Prop) (b : DrawBook) (r : RelIds) (l : List PImage)
    (hl : r.ids.length = r.rels.length) (hi : RInv R r)
    (hlink : ∀ im ∈ l, ∀ u, im.url = some u → u.link ≠ "Chart".toList → R u.link u.rel)
    (himg : ∀ im ∈ l, ∀ id, (prepImages b r l).1.worksheetIds.lookup im.hash = some id →
      im.hash ≠ "Chart".toList → R im.hash (imageRel id im.kind)) :
    (prepImages b r l).2.1.ids.length = (prepImages b r l).2.1.rels.length ∧
    RInv R (prepImages b r l).2.1 ∧ RGrow r (prepImages b r l).2.1 ∧
    (prepImages b r l).2.2 = l.map (picOf (prepImages b r l).2.1) ∧
    (∀ im ∈ l, (∃ i, (prepImages b r l).2.1.ids.lookup im.hash = some i) ∧
      ∀ u, im.url = some u → ∃ i, (prepImages b r l).2.1.ids.lookup u.link = some i) ∧
    (prepImages b r l).2.1.rels.length ≤ r.rels.length + 2 * l.length := by
  induction l generalizing b r with
  | nil => exact ⟨hl, hi, RGrow.refl r, rfl, by simp, by simp [prepImages]⟩
  | cons im t ih =>
    obtain ⟨id, hid, hr, ho⟩ := prepImage_id b r im
    have hst := prepImages_stable (prepImage b r im).1 (prepImage b r im).2.1 t
    have e1 : (prepImages b r (im :: t)).1 = (prepImages (prepImage b r im).1 (prepImage b r im).2.1 t).1 := rfl
    have e2 : (prepImages b r (im :: t)).2.1 = (prepImages (prepImage b r im).1 (prepImage b r im).2.1 t).2.1 := rfl
    have e3 : (prepImages b r (im :: t)).2.2 = (prepImage b r im).2.2 ::
      (prepImages (prepImage b r im).1 (prepImage b r im).2.1 t).2.2 := rfl
    have h1 := link_spec R r im.url hl hi (hlink im (by simp))
    have h2 := get_spec R (r.link im.url).1 im.hash (imageRel id im.kind) h1.1 h1.2.1 (by
      intro hne
      exact himg im (by simp) id (by rw [e1]; exact hst _ _ hid) hne)
    rw [← hr] at h2
    have h3 := ih (prepImage b r im).1 (prepImage b r im).2.1 h2.1 h2.2.1
      (fun x hx => hlink x (by simp [hx])) (by
        intro x hx i hi' hne
        exact himg x (by simp [hx]) i (by rw [e1]; exact hi') hne)
    rw [e2, e3]
    have k1 : ∃ i, (prepImage b r im).2.1.ids.lookup im.hash = some i := ⟨_, h2.2.2.2.1⟩
    have k2 : ∀ u, im.url = some u → ∃ i, (prepImage b r im).2.1.ids.lookup u.link = some i := by
      intro u hu
      obtain ⟨i, hi'⟩ := h1.2.2.2.2.1 u hu
      exact ⟨i, h2.2.2.1.1 _ _ hi'⟩
    refine ⟨h3.1, h3.2.1, (h1.2.2.1.trans h2.2.2.1).trans h3.2.2.1, ?_, ?_, ?_⟩
    · rw [List.map_cons, h3.2.2.2.1, picOf_grow h3.2.2.1 k1 k2, ho, picOf]
      congr 2
      · rw [RelIds.idOf, h2.2.2.2.1, Option.getD_some]
      · rw [h1.2.2.2.1]
        cases hu : im.url with
        | none => rfl
        | some u =>
          simp only [Option.map_some]
          obtain ⟨i, hi'⟩ := h1.2.2.2.2.1 u hu
          rw [hu] at hi' h2
          congr 1
          exact (idOf_grow h2.2.2.1 ⟨i, hi'⟩).symm
    · intro x hx
      rcases List.mem_cons.1 hx with rfl | hx
      · refine ⟨?_, ?_⟩
        · obtain ⟨i, hi'⟩ := k1; exact ⟨i, h3.2.2.1.1 _ _ hi'⟩
        · intro u hu; obtain ⟨i, hi'⟩ := k2 u hu; exact ⟨i, h3.2.2.1.1 _ _ hi'⟩
      · exact h3.2.2.2.2.1 x hx
    · have a := h3.2.2.2.2.2
      have b' := h2.2.2.2.2
      have c := h1.2.2.2.2.2
      rw [List.length_cons]; omega

/-- What `prepShapes` stores for a shape. -/
def shapeOf (r : RelIds) (sh : Nat × Option PUrl) : DrawObj := .sp sh.1 (sh.2.map fun u => r.idOf u.link)

/-- The shapes, when either the ids count the relationships or no new relationship is needed. -/
theorem prepShapes_spec (R : Str → PRel → Prop) (r : RelIds) (l : List (Nat × Option PUrl))
    (hl : r.ids.length = r.rels.length ∨ ∀ sh ∈ l, ∀ u, sh.2 = some u → ∃ i, r.ids.lookup u.link = some i)
    (hi : RInv R r) (hlink : ∀ sh ∈ l, ∀ u, sh.2 = some u → u.link ≠ "Chart".toList → R u.link u.rel) :
    RInv R (prepShapes r l).1 ∧ RGrow r (prepShapes r l).1 ∧
    (prepShapes r l).2 = l.map (shapeOf (prepShapes r l).1) ∧
    (∀ sh ∈ l, ∀ u, sh.2 = some u → ∃ i, (prepShapes r l).1.ids.lookup u.link = some i) := by
  induction l generalizing r with
  | nil => exact ⟨hi, RGrow.refl r, rfl, by simp⟩
  | cons x t ih =>
    obtain ⟨n, o⟩ := x
    have e1 : (prepShapes r ((n, o) :: t)).1 = (prepShapes (r.link o).1 t).1 := rfl
    have e2 : (prepShapes r ((n, o) :: t)).2 = .sp n (r.link o).2 :: (prepShapes (r.link o).1 t).2 := rfl
    have h1 : ((r.link o).1.ids.length = (r.link o).1.rels.length ∨
        ∀ sh ∈ t, ∀ u, sh.2 = some u → ∃ i, (r.link o).1.ids.lookup u.link = some i) ∧
        RInv R (r.link o).1 ∧ RGrow r (r.link o).1 ∧
        (r.link o).2 = o.map (fun u => (r.link o).1.idOf u.link) ∧
        (∀ u, o = some u → ∃ i, (r.link o).1.ids.lookup u.link = some i) := by
      rcases hl with hl | hl
      · have h := link_spec R r o hl hi (fun u e => hlink (n, o) (by simp) u e)
        exact ⟨Or.inl h.1, h.2.1, h.2.2.1, h.2.2.2.1, h.2.2.2.2.1⟩
      · have he : (r.link o).1 = r := by
          cases o with
          | none => rfl
          | some u =>
            obtain ⟨i, hi'⟩ := hl (n, some u) (by simp) u rfl
            simp only [RelIds.link, RelIds.get, hi']
        refine ⟨Or.inr ?_, by rw [he]; exact hi, by rw [he]; exact RGrow.refl r, ?_, ?_⟩
        · intro sh hs u hu; rw [he]; exact hl sh (by simp [hs]) u hu
        · cases o with
          | none => rfl
          | some u =>
            obtain ⟨i, hi'⟩ := hl (n, some u) (by simp) u rfl
            simp only [RelIds.link, RelIds.get, hi', Option.map_some, RelIds.idOf, Option.getD_some]
        · intro u hu; rw [he]; exact hl (n, o) (by simp) u hu
    have h2 := ih (r.link o).1 h1.1 h1.2.1 (fun sh hs => hlink sh (by simp [hs]))
    rw [e1, e2]
    refine ⟨h2.1, h1.2.2.1.trans h2.2.1, ?_, ?_⟩
    · rw [List.map_cons, h2.2.2.1, shapeOf, h1.2.2.2.1]
      congr 2
      cases o with
      | none => rfl
      | some u =>
        simp only [Option.map_some]
        rw [idOf_grow h2.2.1 (h1.2.2.2.2 u rfl)]
    · intro sh hs u hu
      rcases List.mem_cons.1 hs with rfl | hs
      · obtain ⟨i, hi'⟩ := h1.2.2.2.2 u hu
        exact ⟨i, h2.2.1.1 _ _ hi'⟩
      · exact h2.2.2.2 sh hs u hu

theorem prepShapes_length_le (r : RelIds) (l : List (Nat × Option PUrl)) :
    (prepShapes r l).1.rels.length ≤ r.rels.length + l.length ∧
    ∃ N, (prepShapes r l).1.rels = r.rels ++ N := by
  induction l generalizing r with
  | nil => exact ⟨by simp [prepShapes], [], by simp [prepShapes]⟩
  | cons x t ih =>
    obtain ⟨n, o⟩ := x
    have e1 : (prepShapes r ((n, o) :: t)).1 = (prepShapes (r.link o).1 t).1 := rfl
    have h0 : (r.link o).1.rels.length ≤ r.rels.length + 1 ∧ ∃ N, (r.link o).1.rels = r.rels ++ N := by
      cases o with
      | none => exact ⟨by simp [RelIds.link], [], by simp [RelIds.link]⟩
      | some u =>
        simp only [RelIds.link, RelIds.get]
        cases h : r.ids.lookup u.link with
        | some i => exact ⟨by simp, [], by simp⟩
        | none => exact ⟨by simp, [u.rel], by simp⟩
    have h := ih (r.link o).1
    obtain ⟨N1, hN1⟩ := h0.2
    obtain ⟨N2, hN2⟩ := h.2
    rw [e1]
    refine ⟨by rw [List.length_cons]; omega, N1 ++ N2, by rw [hN2, hN1, List.append_assoc]⟩

/-- After the charts. -/
theorem prepCharts_spec (R : Str → PRel → Prop) (r : RelIds) (c n : Nat) (hi : RInv R r) :
    RInv R (prepCharts r c n).1 ∧
    (∀ k i, k ≠ "Chart".toList → r.ids.lookup k = some i → (prepCharts r c n).1.ids.lookup k = some i) ∧
    ((prepCharts r c n).1.rels.length = r.rels.length + n) ∧
    (∀ j, j < n → (prepCharts r c n).1.rels[r.rels.length + j]? =
      some { type := "chart".toList, target := chartTarget (c + j) }) ∧
    (∀ (j : Nat) rel, r.rels[j]? = some rel → (prepCharts r c n).1.rels[j]? = some rel) := by
  refine ⟨?_, ?_, ?_, ?_, ?_⟩
  · intro k i hne hx
    simp only [prepCharts] at hx
    rw [lookup_hmapPut, if_neg hne] at hx
    obtain ⟨j, rel, h1, h2, h3⟩ := hi k i hne hx
    refine ⟨j, rel, h1, ?_, h3⟩
    simp only [prepCharts]
    rw [List.getElem?_append_left (List.getElem?_eq_some_iff.1 h2).1, h2]
  · intro k i hne hx
    simp only [prepCharts]
    rw [lookup_hmapPut, if_neg hne, hx]
  · simp [prepCharts]
  · intro j hj
    simp only [prepCharts]
    rw [List.getElem?_append_right (by omega), Nat.add_sub_cancel_left, List.getElem?_map,
      List.getElem?_range hj]
    rfl
  · intro j rel h
    simp only [prepCharts]
    rw [List.getElem?_append_left (List.getElem?_eq_some_iff.1 h).1, h]

/-! ### Header and footer images -/

/-- The relationships a hash may have, and the ids used. -/
theorem prepHeader_spec (R : Str → PRel → Prop) (base : Nat) (ids relIds : List (Str × Nat))
    (rels : List PRel) (l : List PImage) (hl : relIds.length = rels.length)
    (hi : ∀ k i, relIds.lookup k = some i → ∃ j rel, i = j + 1 ∧ rels[j]? = some rel ∧ R k rel)
    (himg : ∀ im ∈ l, ∀ id, (prepHeader base ids relIds rels l).1.lookup im.hash = some id →
      R im.hash (imageRel id im.kind)) :
    (∃ N, (prepHeader base ids relIds rels l).2.1 = rels ++ N) ∧
    (prepHeader base ids relIds rels l).2.2.length = l.length ∧
    (∀ (n : Nat) (im : PImage), l[n]? = some im → ∃ j rel, (prepHeader base ids relIds rels l).2.2[n]? = some (relStr (j + 1)) ∧
      (prepHeader base ids relIds rels l).2.1[j]? = some rel ∧ R im.hash rel) ∧
    (prepHeader base ids relIds rels l).2.1.length ≤ rels.length + l.length := by
  induction l generalizing ids relIds rels with
  | nil => exact ⟨⟨[], by simp [prepHeader]⟩, rfl, by simp, by simp [prepHeader]⟩
  | cons im t ih =>
    -- the id in the workbook
    have hid : ∃ ids' id, ids'.lookup im.hash = some id ∧
        (∀ i, relIds.lookup im.hash = some i → prepHeader base ids relIds rels (im :: t) =
          ((prepHeader base ids' relIds rels t).1, (prepHeader base ids' relIds rels t).2.1,
            relStr i :: (prepHeader base ids' relIds rels t).2.2)) ∧
        (relIds.lookup im.hash = none → prepHeader base ids relIds rels (im :: t) =
          ((prepHeader base ids' (hmapPut im.hash (1 + relIds.length) relIds)
              (rels ++ [imageRel id im.kind]) t).1,
           (prepHeader base ids' (hmapPut im.hash (1 + relIds.length) relIds)
              (rels ++ [imageRel id im.kind]) t).2.1,
            relStr (1 + relIds.length) ::
            (prepHeader base ids' (hmapPut im.hash (1 + relIds.length) relIds)
              (rels ++ [imageRel id im.kind]) t).2.2)) := by
      cases h : ids.lookup im.hash with
      | some i =>
        refine ⟨ids, i, h, ?_, ?_⟩
        · intro i' hr; simp only [prepHeader, h, hr]
        · intro hr; simp only [prepHeader, h, hr]
      | none =>
        refine ⟨hmapPut im.hash (1 + base + ids.length) ids, 1 + base + ids.length,
          by rw [lookup_hmapPut, if_pos rfl], ?_, ?_⟩
        · intro i' hr; simp only [prepHeader, h, hr]
        · intro hr; simp only [prepHeader, h, hr]
    obtain ⟨ids', id, hlk, he1, he2⟩ := hid
    -- the id in the part
    have hst : ∀ relIds' rels', Stable ids' (prepHeader base ids' relIds' rels' t).1 := by
      intro a c; rw [prepHeader_ids]; exact assign_stable _ _ _
    have hR : ∀ relIds' rels', (prepHeader base ids relIds rels (im :: t)).1 =
        (prepHeader base ids' relIds' rels' t).1 → R im.hash (imageRel id im.kind) := by
      intro a c e
      exact himg im (by simp) id (by rw [e]; exact hst a c _ _ hlk)
    cases hr : relIds.lookup im.hash with
    | some i =>
      have e := he1 i hr
      have h := ih ids' relIds rels hl hi (by
        intro x hx id' hx'
        exact himg x (by simp [hx]) id' (by rw [e]; exact hx'))
      rw [e]
      refine ⟨h.1, by simp [h.2.1], ?_, ?_⟩
      · intro n x hx
        cases n with
        | zero =>
          rw [List.getElem?_cons_zero] at hx
          cases hx
          obtain ⟨j, rel, h1, h2, h3⟩ := hi _ _ hr
          obtain ⟨N, hN⟩ := h.1
          refine ⟨j, rel, by dsimp only; rw [List.getElem?_cons_zero, h1], ?_, h3⟩
          dsimp only
          rw [hN, List.getElem?_append_left (List.getElem?_eq_some_iff.1 h2).1, h2]
        | succ n =>
          rw [List.getElem?_cons_succ] at hx
          dsimp only
          rw [List.getElem?_cons_succ]
          exact h.2.2.1 n x hx
      · have := h.2.2.2
        rw [List.length_cons]; dsimp only; omega
    | none =>
      have e := he2 hr
      have hRim := hR _ _ (by rw [e])
      have h := ih ids' (hmapPut im.hash (1 + relIds.length) relIds) (rels ++ [imageRel id im.kind])
        (by rw [length_hmapPut hr, hl]; simp)
        (by
          intro k i hx
          rw [lookup_hmapPut] at hx
          split at hx
          · rename_i ek
            cases hx
            subst ek
            refine ⟨relIds.length, imageRel id im.kind, by omega, ?_, hRim⟩
            rw [hl, List.getElem?_append_right (by omega), Nat.sub_self]; rfl
          · obtain ⟨j, rel', h1, h2, h3⟩ := hi k i hx
            refine ⟨j, rel', h1, ?_, h3⟩
            rw [List.getElem?_append_left (List.getElem?_eq_some_iff.1 h2).1, h2])
        (by
          intro x hx id' hx'
          exact himg x (by simp [hx]) id' (by rw [e]; exact hx'))
      rw [e]
      obtain ⟨N, hN⟩ := h.1
      refine ⟨⟨imageRel id im.kind :: N, by dsimp only; rw [hN]; simp⟩, by simp [h.2.1], ?_, ?_⟩
      · intro n x hx
        cases n with
        | zero =>
          rw [List.getElem?_cons_zero] at hx
          cases hx
          refine ⟨relIds.length, imageRel id im.kind,
            by dsimp only; rw [List.getElem?_cons_zero, Nat.add_comm], ?_, hRim⟩
          dsimp only
          rw [hN, hl, List.getElem?_append_left (by simp), List.getElem?_append_right (by omega), Nat.sub_self]
          rfl
        | succ n =>
          rw [List.getElem?_cons_succ] at hx
          dsimp only
          rw [List.getElem?_cons_succ]
          exact h.2.2.1 n x hx
      · have := h.2.2.2
        rw [List.length_append] at this
        simp only [List.length_cons, List.length_nil] at this ⊢
        omega

end Verif
