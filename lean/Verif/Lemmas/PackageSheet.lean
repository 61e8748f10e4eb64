import Verif.Lemmas.PackageRels
/-!
The references of a sheet part and the relationships they lead to.
-/
namespace Verif
open Spec

/-- The place just after a prefix. -/
theorem getElem?_mid {α : Type} (A : List α) (x : α) (B : List α) : (A ++ x :: B)[A.length]? = some x := by
  rw [List.getElem?_append_right (Nat.le_refl _), Nat.sub_self]; rfl

theorem linkRefs_eq (n : Nat) (l : List ((Nat × Nat) × PUrl)) :
    linkRefs n l = ((l.filter fun x => !x.2.internal).zipIdx n).map fun x => (x.1.1, relStr x.2) := by
  induction l generalizing n with
  | nil => rfl
  | cons x t ih =>
    obtain ⟨c, u⟩ := x
    rw [linkRefs, List.filter_cons]
    by_cases h : u.internal = true
    · rw [if_pos h]; simp only [h, Bool.not_true]; exact ih n
    · have h' : u.internal = false := by simpa using h
      rw [if_neg h]
      simp only [h', Bool.not_false, if_true, List.zipIdx_cons, List.map_cons, ih]

theorem linkRefs_length (n : Nat) (s : PSheet) : (linkRefs n s.links).length = s.linkRels.length := by
  rw [linkRefs_eq, PSheet.linkRels]; simp

/-- The relationship to the drawing. -/
def dRel (pre : List PSheet) (s : PSheet) : List PRel := if s.hasDrawing then [drawingRel (drIdx pre)] else []
/-- The relationship to the notes and buttons. -/
def vRel (pre : List PSheet) (s : PSheet) : List PRel := if s.hasVml then [vmlRel (1 + vmlCount pre)] else []
/-- The relationship to the header images. -/
def hRel (pre : List PSheet) (s : PSheet) : List PRel :=
  if s.hf ≠ [] then [vmlRel (1 + vmlCount pre + if s.hasVml then 1 else 0)] else []

theorem prepAt_drawingObject (b : PBook) (pre : List PSheet) (s : PSheet) :
    (b.prepAt pre s).drawingObject = dRel pre s ++ vRel pre s ++ hRel pre s := by
  have h1 := prepDrawing_drawingObject (drawState b.draw0 pre) s
  have h2 := (drawState_ids b.draw0 pre).1
  simp only [PBook.prepAt, vmlAdd, h1, h2]
  rfl

theorem prepAt_comment (b : PBook) (pre : List PSheet) (s : PSheet) :
    (b.prepAt pre s).comment = if s.notes.isSome then [commentRel (1 + noteCount pre)] else [] := by
  simp only [PBook.prepAt, vmlAdd, prepDrawing_comment, List.nil_append]

theorem prepAt_background_length (b : PBook) (pre : List PSheet) (s : PSheet) :
    (b.prepAt pre s).background.length = if s.background.isSome then 1 else 0 := by
  have : (b.prepAt pre s).background = (prepBackground (drawState b.draw0 pre) s.background).2 := rfl
  rw [this, prepBackground_rels]
  cases s.background <;> rfl

theorem wsRels_eq (b : PBook) (pre : List PSheet) (s : PSheet) :
    b.wsRels pre s = s.linkRels ++ (dRel pre s ++ (vRel pre s ++ (hRel pre s ++
      ((b.prepAt pre s).background ++ ((b.prepAt pre s).table ++ (b.prepAt pre s).comment))))) := by
  rw [PBook.wsRels, prepAt_drawingObject]
  simp only [List.append_assoc]

theorem dRel_length (pre : List PSheet) (s : PSheet) : (dRel pre s).length = if s.hasDrawing then 1 else 0 := by
  rw [dRel]; split <;> rfl
theorem vRel_length (pre : List PSheet) (s : PSheet) : (vRel pre s).length = if s.hasVml then 1 else 0 := by
  rw [vRel]; split <;> rfl
theorem hRel_length (pre : List PSheet) (s : PSheet) : (hRel pre s).length = if s.hf ≠ [] then 1 else 0 := by
  rw [hRel]; split <;> rfl

theorem nextRef_fst (c : Nat) (w : Bool) : (nextRef c w).1 = c + if w then 1 else 0 := by
  cases w <;> rfl
theorem nextRef_snd (c : Nat) (w : Bool) : (nextRef c w).2 = if w then some (relStr (c + 1)) else none := by
  cases w <;> rfl

theorem hf_bool (s : PSheet) : (if (!s.hf.isEmpty) = true then 1 else 0) = if s.hf ≠ [] then 1 else 0 := by
  cases s.hf <;> rfl

section
variable {b : PBook} {pre post : List PSheet} {s : PSheet}

/-- The ids in a worksheet part, by the lengths of the relationship lists before them. -/
theorem refs_eq (vm : List Nat) (s : PSheet) (pre : List PSheet) (b : PBook) :
    s.refs vm =
      { links := linkRefs 1 s.links
        drawing := if s.hasDrawing then some (relStr (s.linkRels.length + 1)) else none
        legacyDrawing := if s.hasVml then
          some (relStr (s.linkRels.length + (dRel pre s).length + 1)) else none
        legacyDrawingHF := if (!s.hf.isEmpty) then
          some (relStr (s.linkRels.length + (dRel pre s).length + (vRel pre s).length + 1)) else none
        picture := if s.background.isSome then
          some (relStr (s.linkRels.length + (dRel pre s).length + (vRel pre s).length +
            (hRel pre s).length + 1)) else none
        tableParts := (List.range s.tables.length).map fun k =>
          relStr (s.linkRels.length + (dRel pre s).length + (vRel pre s).length +
            (hRel pre s).length + (b.prepAt pre s).background.length + k + 1)
        vm := vm } := by
  simp only [PSheet.refs, nextRef_fst, nextRef_snd, dRel_length, vRel_length, hRel_length,
    prepAt_background_length, hf_bool, linkRefs_length]

theorem wsRels_has (hc : s.chartsheet = false) (h : b.wsRels pre s ≠ []) :
    hasRelationships s (b.prepAt pre s) = true := by
  rw [hasRelationships, hc]
  simp only [Bool.not_false, Bool.true_and, Bool.or_eq_true, Bool.not_eq_true', List.isEmpty_eq_false_iff]
  apply Classical.byContradiction
  intro hn
  simp only [not_or, ne_eq, Classical.not_not] at hn
  obtain ⟨⟨⟨h1, h2⟩, h3⟩, h4⟩ := hn
  apply h
  rw [PBook.wsRels, h1, h2, h3, h4, prepAt_comment]
  have : s.notes.isSome = false := by
    cases hs : s.notes with
    | none => rfl
    | some n =>
      rw [prepAt_drawingObject] at h2
      have hv : s.hasVml = true := by simp [PSheet.hasVml, hs]
      simp [vRel, hv] at h2
  simp [this]

theorem wsRels_length (b : PBook) (pre : List PSheet) (s : PSheet) :
    (b.wsRels pre s).length ≤ s.links.length + s.tables.length + 5 := by
  rw [wsRels_eq]
  simp only [List.length_append, dRel_length, vRel_length, hRel_length, prepAt_background_length,
    prepAt_comment]
  have h1 : s.linkRels.length ≤ s.links.length := by
    rw [PSheet.linkRels, List.length_map]; exact List.length_filter_le _ _
  have h2 : (b.prepAt pre s).table.length = s.tables.length := by simp [PBook.prepAt]
  have h3 : ∀ (c : Bool) (l : List PRel), (if c then l else []).length ≤ l.length := by
    intro c l; cases c <;> simp
  have h4 := h3 s.notes.isSome [commentRel (1 + noteCount pre)]
  have h5 : ∀ (p : Prop) [Decidable p], (if p then 1 else 0) ≤ 1 := by
    intro p _; split <;> omega
  have a1 := h5 (s.hasDrawing = true)
  have a2 := h5 (s.hasVml = true)
  have a3 := h5 (s.hf ≠ [])
  have a4 := h5 (s.background.isSome = true)
  rw [List.length_singleton] at h4
  omega

/-- Following an id of a worksheet. -/
theorem follow_ws (h : b.allSheets = pre ++ s :: post) (hc : s.chartsheet = false)
    (hl : s.links.length + s.tables.length + 5 < 65536) {A B : List PRel} {r : PRel}
    (he : b.wsRels pre s = A ++ r :: B) :
    follow b.entries (wsName (wsIdx pre)) (relStr (A.length + 1)) =
      (destination b.entries (wsName (wsIdx pre)) r).map fun d => (r.type, d) := by
  have hlen := wsRels_length b pre s
  have hr := relsOf_ws h hc (wsRels_has hc (by rw [he]; simp))
  rw [follow, hr, lookup_numberedRels (by omega), he, getElem?_mid]
  rfl

theorem head_of {a : Str} (c d : Str) (h : a.head? = some '.') : (a ++ c ++ d).head? ≠ some '#' := by
  cases a with
  | nil => exact absurd h (by simp)
  | cons x t =>
    rw [List.head?_cons] at h
    rw [List.append_assoc, List.cons_append, List.head?_cons, h]
    decide

theorem head_drawing (n : Nat) : (drawingRel n).mode = [] ∧ (drawingRel n).target.head? ≠ some '#' :=
  ⟨rfl, head_of _ _ (by decide)⟩
theorem head_vml (n : Nat) : (vmlRel n).mode = [] ∧ (vmlRel n).target.head? ≠ some '#' :=
  ⟨rfl, head_of _ _ (by decide)⟩
theorem head_table (n : Nat) : (tableRel n).mode = [] ∧ (tableRel n).target.head? ≠ some '#' :=
  ⟨rfl, head_of _ _ (by decide)⟩
theorem head_comment (n : Nat) : (commentRel n).mode = [] ∧ (commentRel n).target.head? ≠ some '#' :=
  ⟨rfl, head_of _ _ (by decide)⟩
theorem head_chart (n : Nat) : (chartTarget n).head? ≠ some '#' := head_of _ _ (by decide)
theorem head_image (n : Nat) (k : ImgType) : (imageTarget n k).head? ≠ some '#' := by
  have e : imageTarget n k = "../media/image".toList ++ showNat n ++ (".".toList ++ k.extension) :=
    List.append_assoc ("../media/image".toList ++ showNat n) ".".toList k.extension
  rw [e]
  exact head_of (a := "../media/image".toList) (showNat n) (".".toList ++ k.extension) (by decide)
theorem type_table (n : Nat) : (tableRel n).type = "table".toList := rfl
theorem type_link (u : PUrl) : u.rel.type = "hyperlink".toList := rfl
theorem target_link (u : PUrl) : u.rel.target = u.target := rfl

theorem followPart_of {z : Zip} {src t id n : Str} {p : Part} (h : follow z src id = some (t, .part n p)) :
    followPart z src t id = some (n, p) := by
  rw [followPart, h]
  simp

theorem followLink_of {z : Zip} {src id : Str} {d : Dest} (h : follow z src id = some ("hyperlink".toList, d)) :
    followLink z src id = some d := by
  rw [followLink, h]
  simp

theorem dest_drawing {src : Str} (hx : inXl src) (h : b.allSheets = pre ++ s :: post)
    (hd : s.hasDrawing = true) :
    destination b.entries src (drawingRel (drIdx pre)) =
      some (.part (drName (drIdx pre)) (.drawing (b.prepAt pre s).objs)) :=
  destination_part (head_drawing _).1 (head_drawing _).2 (resolve_drawing hx _) (lookup_dr h hd)

theorem dest_vml {src : Str} (hx : inXl src) (h : b.allSheets = pre ++ s :: post)
    (hv : s.hasVml = true) :
    destination b.entries src (vmlRel (1 + vmlCount pre)) =
      some (.part (vmName (1 + vmlCount pre)) (.vml s.notes s.buttons)) := by
  refine destination_part (head_vml _).1 (head_vml _).2 (resolve_vml hx _) (lookup_entries ?_)
  refine mem_vm h (j := 0) (it := .objects s.notes s.buttons) ?_ ?_
  · rw [vmlItems, if_pos hv]; rfl
  · exact List.mem_singleton.2 rfl

theorem dest_hf {src : Str} (hx : inXl src) (h : b.allSheets = pre ++ s :: post) (hf : s.hf ≠ []) :
    destination b.entries src (vmlRel (1 + vmlCount pre + if s.hasVml then 1 else 0)) =
      some (.part (vmName (1 + vmlCount pre + if s.hasVml then 1 else 0)) (.vmlImages (b.prepAt pre s).hfIds)) := by
  refine destination_part (head_vml _).1 (head_vml _).2 (resolve_vml hx _) (lookup_entries ?_)
  refine mem_vm h (j := if s.hasVml then 1 else 0)
    (it := .images (b.prepAt pre s).hfIds (b.prepAt pre s).vmlDrawing) ?_ ?_
  · rw [vmlItems]
    by_cases hv : s.hasVml = true
    · simp only [hv, if_true, if_pos hf]; rfl
    · simp only [hv, if_pos hf]; rfl
  · rw [vmlEntries]; exact List.mem_cons_self

theorem hfRels (h : b.allSheets = pre ++ s :: post) (hf : s.hf ≠ []) :
    relsOf b.entries (vmName (1 + vmlCount pre + if s.hasVml then 1 else 0)) =
      numberedRels (b.prepAt pre s).vmlDrawing := by
  apply relsOf_of_mem
  refine mem_vm h (j := if s.hasVml then 1 else 0)
    (it := .images (b.prepAt pre s).hfIds (b.prepAt pre s).vmlDrawing) ?_ ?_
  · rw [vmlItems]
    by_cases hv : s.hasVml = true
    · simp only [hv, if_true, if_pos hf]; rfl
    · simp only [hv, if_pos hf]; rfl
  · rw [vmlEntries, relsName_vm]
    exact List.mem_cons_of_mem _ (List.mem_singleton.2 rfl)

theorem dest_table {src : Str} (hx : inXl src) (h : b.allSheets = pre ++ s :: post) {j t : Nat}
    (ht : s.tables[j]? = some t) :
    destination b.entries src (tableRel (1 + tableCount pre + j)) =
      some (.part (tbName (1 + tableCount pre + j)) (.table t)) :=
  destination_part (head_table _).1 (head_table _).2 (resolve_table hx _) (lookup_entries (mem_tb h ht))

theorem dest_comment {src : Str} (hx : inXl src) (h : b.allSheets = pre ++ s :: post) {n : Nat}
    (hn : s.notes = some n) :
    destination b.entries src (commentRel (1 + noteCount pre)) =
      some (.part (coName (1 + noteCount pre)) (.comments n)) :=
  destination_part (head_comment _).1 (head_comment _).2 (resolve_comment hx _) (lookup_entries (mem_co h hn))

theorem dest_chart {src : Str} (hx : inXl src) (h : b.allSheets = pre ++ s :: post) {j c : Nat}
    (hc : s.charts[j]? = some c) :
    destination b.entries src { type := "chart".toList, target := chartTarget (1 + (pre.map fun s => s.charts.length).sum + j) } =
      some (.part (chName (1 + (pre.map fun s => s.charts.length).sum + j)) (.chart c)) :=
  destination_part rfl (head_chart _) (resolve_chart hx _) (lookup_entries (mem_ch h hc))

theorem refsOf_ws (h : b.allSheets = pre ++ s :: post) (hc : s.chartsheet = false) :
    refsOf b.entries (wsName (wsIdx pre)) = some (s.refs (b.vmAt pre s)) := by
  rw [refsOf, lookup_ws h hc]

theorem refsOf_cs (h : b.allSheets = pre ++ s :: post) (hc : s.chartsheet = true) :
    refsOf b.entries (csName (csIdx pre)) = some s.chartsheetRefs := by
  rw [refsOf, lookup_cs h hc]

/-! ### The worksheet readers -/

theorem ws_drawingOf (h : b.allSheets = pre ++ s :: post) (hc : s.chartsheet = false)
    (hl : s.links.length + s.tables.length + 5 < 65536) :
    drawingOf b.entries (wsName (wsIdx pre)) =
      if s.hasDrawing then some (drName (drIdx pre), (b.prepAt pre s).objs) else none := by
  rw [drawingOf, refsOf_ws h hc, refs_eq _ _ pre b, Option.bind_some]
  dsimp only
  by_cases hd : s.hasDrawing = true
  · have e := wsRels_eq b pre s
    rw [dRel, if_pos hd, List.singleton_append] at e
    rw [if_pos hd, if_pos hd, Option.bind_some, followPart, follow_ws h hc hl e, dest_drawing (inXl_ws _) h hd]
    rfl
  · rw [if_neg hd, if_neg hd]; rfl

theorem ws_notes (h : b.allSheets = pre ++ s :: post) (hc : s.chartsheet = false)
    (hl : s.links.length + s.tables.length + 5 < 65536) :
    noteShapesOf b.entries (wsName (wsIdx pre)) = if s.hasVml then some (s.notes, s.buttons) else none := by
  rw [noteShapesOf, refsOf_ws h hc, refs_eq _ _ pre b, Option.bind_some]
  dsimp only
  by_cases hv : s.hasVml = true
  · have e := wsRels_eq b pre s
    rw [vRel, if_pos hv, List.singleton_append, ← List.append_assoc] at e
    have := follow_ws h hc hl e
    rw [List.length_append] at this
    rw [if_pos hv, if_pos hv, Option.bind_some, followPart, this, dest_vml (inXl_ws _) h hv]
    rfl
  · rw [if_neg hv, if_neg hv]; rfl

theorem ws_header (h : b.allSheets = pre ++ s :: post) (hc : s.chartsheet = false)
    (hl : s.links.length + s.tables.length + 5 < 65536) :
    headerImagesOf b.entries (wsName (wsIdx pre)) = if s.hf = [] then [] else
      (b.prepAt pre s).hfIds.map
        (followImage b.entries (vmName (1 + vmlCount pre + if s.hasVml then 1 else 0))) := by
  rw [headerImagesOf, refsOf_ws h hc, refs_eq _ _ pre b, Option.bind_some]
  dsimp only
  by_cases hf : s.hf = []
  · rw [if_pos hf, if_neg (by simp [hf])]; rfl
  · have e := wsRels_eq b pre s
    rw [hRel, if_pos hf, List.singleton_append, ← List.append_assoc, ← List.append_assoc] at e
    have := follow_ws h hc hl e
    rw [List.length_append, List.length_append] at this
    rw [if_neg hf, if_pos (by simpa using hf), Option.bind_some, followPart, this, dest_hf (inXl_ws _) h hf]
    rfl

theorem ws_links (h : b.allSheets = pre ++ s :: post) (hc : s.chartsheet = false)
    (hl : s.links.length + s.tables.length + 5 < 65536) :
    linksOf b.entries (wsName (wsIdx pre)) =
      (s.links.filter fun l => !l.2.internal).map fun l => (l.1, some (.outside l.2.target)) := by
  rw [linksOf, refsOf_ws h hc, refs_eq _ _ pre b]
  dsimp only
  rw [linkRefs_eq, List.map_map]
  apply List.ext_getElem?
  intro i
  rw [List.getElem?_map, List.getElem?_map, List.getElem?_zipIdx]
  cases hi : (s.links.filter fun l => !l.2.internal)[i]? with
  | none => rfl
  | some l =>
    simp only [Option.map_some, Function.comp]
    have hm : l ∈ s.links.filter fun l => !l.2.internal := List.mem_of_getElem? hi
    have hint : l.2.internal = false := by
      have := (List.mem_filter.1 hm).2; simpa using this
    have hlen : i < s.linkRels.length := by
      rw [PSheet.linkRels, List.length_map]; exact (List.getElem?_eq_some_iff.1 hi).1
    have hrel : s.linkRels[i]? = some l.2.rel := by
      rw [PSheet.linkRels, List.getElem?_map, hi]; rfl
    have e : b.wsRels pre s = s.linkRels.take i ++ l.2.rel :: (s.linkRels.drop (i + 1) ++
        (b.wsRels pre s).drop s.linkRels.length) := by
      have e0 := wsRels_eq b pre s
      rw [show (b.wsRels pre s).drop s.linkRels.length =
        dRel pre s ++ (vRel pre s ++ (hRel pre s ++
      ((b.prepAt pre s).background ++ ((b.prepAt pre s).table ++ (b.prepAt pre s).comment)))) by
        rw [e0, List.drop_left]]
      have h1 : s.linkRels = s.linkRels.take i ++ l.2.rel :: s.linkRels.drop (i + 1) := by
        obtain ⟨hj, ha⟩ := List.getElem?_eq_some_iff.1 hrel
        rw [← ha, List.getElem_cons_drop, List.take_append_drop]
      rw [e0]
      conv => lhs; rw [h1]
      simp only [List.append_assoc, List.cons_append]
    have := follow_ws h hc hl e
    rw [List.length_take, Nat.min_eq_left (by omega)] at this
    have hm : l.2.rel.mode = "External".toList := by
      show l.2.mode = _
      rw [PUrl.mode, hint]; rfl
    rw [destination, if_pos hm, Option.map_some, type_link, target_link] at this
    rw [Nat.add_comm 1 i, followLink_of this]

theorem ws_tables (h : b.allSheets = pre ++ s :: post) (hc : s.chartsheet = false)
    (hl : s.links.length + s.tables.length + 5 < 65536) :
    tablesOf b.entries (wsName (wsIdx pre)) = s.tables.map some := by
  rw [tablesOf, refsOf_ws h hc, refs_eq _ _ pre b]
  dsimp only
  rw [List.map_map]
  apply List.ext_getElem?
  intro i
  rw [List.getElem?_map, List.getElem?_map]
  by_cases hi : i < s.tables.length
  · rw [List.getElem?_range hi, List.getElem?_eq_getElem hi]
    simp only [Option.map_some, Function.comp]
    have ht : s.tables[i]? = some s.tables[i] := List.getElem?_eq_getElem hi
    have htab : (b.prepAt pre s).table = (List.range s.tables.length).map fun k => tableRel (1 + tableCount pre + k) := rfl
    have hrel : (b.prepAt pre s).table[i]? = some (tableRel (1 + tableCount pre + i)) := by
      rw [htab, List.getElem?_map, List.getElem?_range hi]; rfl
    have h1 : (b.prepAt pre s).table = (b.prepAt pre s).table.take i ++ tableRel (1 + tableCount pre + i) ::
        (b.prepAt pre s).table.drop (i + 1) := by
      obtain ⟨hj, ha⟩ := List.getElem?_eq_some_iff.1 hrel
      rw [← ha, List.getElem_cons_drop, List.take_append_drop]
    have e := wsRels_eq b pre s
    rw [h1] at e
    simp only [← List.append_assoc] at e
    rw [List.append_assoc] at e
    rw [List.cons_append] at e
    have := follow_ws h hc hl e
    simp only [List.length_append, List.length_take] at this
    rw [Nat.min_eq_left (by rw [htab]; simp; omega)] at this
    rw [dest_table (inXl_ws _) h ht, Option.map_some, type_table] at this
    have f := followPart_of this
    simp only [f]
  · rw [List.getElem?_eq_none (by simpa using hi), List.getElem?_eq_none (by simpa using hi)]
    simp only [Option.map_none]

end

end Verif
