import Verif.Spec.Package
import Verif.Lemmas.Dec
import Verif.Lemmas.Gen
/-!
Lemmas about package paths and relationship files.
-/
namespace Verif
open Spec

/-- No slash in a segment. -/
def noSlash (s : Str) : Prop := ∀ c ∈ s, c ≠ '/'

theorem segmentsFrom_append {x : Str} (h : noSlash x) (cur y : Str) :
    segmentsFrom cur (x ++ y) = segmentsFrom (cur ++ x) y := by
  induction x generalizing cur with
  | nil => simp
  | cons c t ih =>
    have hc : c ≠ '/' := h c (by simp)
    have ht : noSlash t := fun d hd => h d (by simp [hd])
    rw [List.cons_append, segmentsFrom, if_neg hc, ih ht]
    simp [List.append_assoc]

theorem segmentsFrom_slash (cur y : Str) : segmentsFrom cur ('/' :: y) = cur :: segmentsFrom [] y := by
  rw [segmentsFrom, if_pos rfl]

theorem segments_joinPath {l : List Str} (hl : l ≠ []) (h : ∀ s ∈ l, noSlash s) :
    segments (joinPath l) = l := by
  induction l with
  | nil => exact absurd rfl hl
  | cons s t ih =>
    have hs : noSlash s := h s (by simp)
    cases t with
    | nil =>
      have := segmentsFrom_append hs [] []
      simp only [List.append_nil, List.nil_append] at this
      simp only [joinPath, segments, this, segmentsFrom]
    | cons u v =>
      have := segmentsFrom_append hs [] ('/' :: joinPath (u :: v))
      simp only [List.nil_append] at this
      rw [joinPath, segments, this, segmentsFrom_slash]
      · have ih' := ih (by simp) (fun x hx => h x (by simp [hx]))
        rw [segments] at ih'
        rw [ih']
      · simp

theorem showNat_noSlash (n : Nat) : noSlash (showNat n) := by
  intro c hc h
  have := showNat_isDigit hc
  subst h
  exact absurd this (by decide)

theorem noSlash_append {a b : Str} (ha : noSlash a) (hb : noSlash b) : noSlash (a ++ b) := by
  intro c hc
  rcases List.mem_append.1 hc with h | h
  · exact ha c h
  · exact hb c h

theorem noSlash_of_all {s : Str} (h : (s.all fun c => c != '/') = true) : noSlash s := by
  intro c hc e
  have := List.all_eq_true.1 h c hc
  simp [e] at this

theorem noSlash_num {a b : Str} (n : Nat) (ha : (a.all fun c => c != '/') = true)
    (hb : (b.all fun c => c != '/') = true) : noSlash (a ++ showNat n ++ b) :=
  noSlash_append (noSlash_append (noSlash_of_all ha) (showNat_noSlash n)) (noSlash_of_all hb)

/-- `relsName` of a path in a folder of depth two. -/
theorem relsName_two {a b c : Str} (ha : noSlash a) (hb : noSlash b) (hc : noSlash c) :
    relsName (joinPath [a, b, c]) = joinPath [a, b, "_rels".toList, c ++ ".rels".toList] := by
  rw [relsName, segments_joinPath (by simp) (by
    intro s hs; simp only [List.mem_cons, List.not_mem_nil, or_false] at hs
    rcases hs with rfl | rfl | rfl <;> assumption)]
  rfl

theorem relsName_one {a c : Str} (ha : noSlash a) (hc : noSlash c) :
    relsName (joinPath [a, c]) = joinPath [a, "_rels".toList, c ++ ".rels".toList] := by
  rw [relsName, segments_joinPath (by simp) (by
    intro s hs; simp only [List.mem_cons, List.not_mem_nil, or_false] at hs
    rcases hs with rfl | rfl <;> assumption)]
  rfl

/-- Up one folder and down another: from `a/b/c` the target `../d/e` is `a/d/e`. -/
theorem resolve_up {a b c d e : Str} (ha : noSlash a) (hb : noSlash b) (hc : noSlash c)
    (hd : noSlash d) (he : noSlash e) (hd' : d ≠ "..".toList) (he' : e ≠ "..".toList) :
    resolve (joinPath [a, b, c]) (joinPath ["..".toList, d, e]) = joinPath [a, d, e] := by
  rw [resolve, segments_joinPath (by simp) (by
    intro s hs; simp only [List.mem_cons, List.not_mem_nil, or_false] at hs
    rcases hs with rfl | rfl | rfl <;> assumption),
    segments_joinPath (by simp) (by
    intro s hs; simp only [List.mem_cons, List.not_mem_nil, or_false] at hs
    rcases hs with rfl | rfl | rfl
    · exact noSlash_of_all (by decide)
    · assumption
    · assumption)]
  simp only [walk, if_true, if_neg hd', if_neg he']
  rfl

/-- From `a/b/c` the target `../e` is `a/e`. -/
theorem resolve_up_one {a b c e : Str} (ha : noSlash a) (hb : noSlash b) (hc : noSlash c)
    (he : noSlash e) (he' : e ≠ "..".toList) :
    resolve (joinPath [a, b, c]) (joinPath ["..".toList, e]) = joinPath [a, e] := by
  rw [resolve, segments_joinPath (by simp) (by
    intro s hs; simp only [List.mem_cons, List.not_mem_nil, or_false] at hs
    rcases hs with rfl | rfl | rfl <;> assumption),
    segments_joinPath (by simp) (by
    intro s hs; simp only [List.mem_cons, List.not_mem_nil, or_false] at hs
    rcases hs with rfl | rfl
    · exact noSlash_of_all (by decide)
    · assumption)]
  simp only [walk, if_true, if_neg he']
  rfl

/-- From `a/c` the target `d/e` is `a/d/e`. -/
theorem resolve_down {a c d e : Str} (ha : noSlash a) (hc : noSlash c)
    (hd : noSlash d) (he : noSlash e) (hd' : d ≠ "..".toList) (he' : e ≠ "..".toList) :
    resolve (joinPath [a, c]) (joinPath [d, e]) = joinPath [a, d, e] := by
  rw [resolve, segments_joinPath (by simp) (by
    intro s hs; simp only [List.mem_cons, List.not_mem_nil, or_false] at hs
    rcases hs with rfl | rfl <;> assumption),
    segments_joinPath (by simp) (by
    intro s hs; simp only [List.mem_cons, List.not_mem_nil, or_false] at hs
    rcases hs with rfl | rfl <;> assumption)]
  simp only [walk, if_neg hd', if_neg he']
  rfl

theorem ne_dots {x : Str} (h : x.head? ≠ some '.') : x ≠ "..".toList := by
  intro e; exact h (by rw [e]; decide)

/-! ### The names of the numbered parts -/

def wsName (n : Nat) : Str := "xl/worksheets/sheet".toList ++ showNat n ++ ".xml".toList
def csName (n : Nat) : Str := "xl/chartsheets/sheet".toList ++ showNat n ++ ".xml".toList
def drName (n : Nat) : Str := "xl/drawings/drawing".toList ++ showNat n ++ ".xml".toList
def vmName (n : Nat) : Str := "xl/drawings/vmlDrawing".toList ++ showNat n ++ ".vml".toList
def coName (n : Nat) : Str := "xl/comments".toList ++ showNat n ++ ".xml".toList
def chName (n : Nat) : Str := "xl/charts/chart".toList ++ showNat n ++ ".xml".toList
def tbName (n : Nat) : Str := "xl/tables/table".toList ++ showNat n ++ ".xml".toList
def imName (n : Nat) (k : ImgType) : Str :=
  "xl/media/image".toList ++ showNat n ++ ".".toList ++ k.extension

theorem wsName_eq (n : Nat) : wsName n =
    joinPath ["xl".toList, "worksheets".toList, "sheet".toList ++ showNat n ++ ".xml".toList] := rfl
theorem csName_eq (n : Nat) : csName n =
    joinPath ["xl".toList, "chartsheets".toList, "sheet".toList ++ showNat n ++ ".xml".toList] := rfl
theorem drName_eq (n : Nat) : drName n =
    joinPath ["xl".toList, "drawings".toList, "drawing".toList ++ showNat n ++ ".xml".toList] := rfl
theorem vmName_eq (n : Nat) : vmName n =
    joinPath ["xl".toList, "drawings".toList, "vmlDrawing".toList ++ showNat n ++ ".vml".toList] := rfl
theorem coName_eq (n : Nat) : coName n =
    joinPath ["xl".toList, "comments".toList ++ showNat n ++ ".xml".toList] := rfl
theorem chName_eq (n : Nat) : chName n =
    joinPath ["xl".toList, "charts".toList, "chart".toList ++ showNat n ++ ".xml".toList] := rfl
theorem tbName_eq (n : Nat) : tbName n =
    joinPath ["xl".toList, "tables".toList, "table".toList ++ showNat n ++ ".xml".toList] := rfl
theorem imName_eq (n : Nat) (k : ImgType) : imName n k =
    joinPath ["xl".toList, "media".toList, "image".toList ++ showNat n ++ (".".toList ++ k.extension)] := by
  rw [← List.append_assoc]; rfl

theorem ext_noSlash (k : ImgType) : ((".".toList ++ k.extension).all fun c => c != '/') = true := by
  cases k <;> decide

theorem relsName_ws (n : Nat) : relsName (wsName n) =
    "xl/worksheets/_rels/sheet".toList ++ showNat n ++ ".xml.rels".toList := by
  rw [wsName_eq, relsName_two (noSlash_of_all (by decide)) (noSlash_of_all (by decide))
    (noSlash_num n (by decide) (by decide)), List.append_assoc]
  rfl
theorem relsName_cs (n : Nat) : relsName (csName n) =
    "xl/chartsheets/_rels/sheet".toList ++ showNat n ++ ".xml.rels".toList := by
  rw [csName_eq, relsName_two (noSlash_of_all (by decide)) (noSlash_of_all (by decide))
    (noSlash_num n (by decide) (by decide)), List.append_assoc]
  rfl
theorem relsName_dr (n : Nat) : relsName (drName n) =
    "xl/drawings/_rels/drawing".toList ++ showNat n ++ ".xml.rels".toList := by
  rw [drName_eq, relsName_two (noSlash_of_all (by decide)) (noSlash_of_all (by decide))
    (noSlash_num n (by decide) (by decide)), List.append_assoc]
  rfl
theorem relsName_vm (n : Nat) : relsName (vmName n) =
    "xl/drawings/_rels/vmlDrawing".toList ++ showNat n ++ ".vml.rels".toList := by
  rw [vmName_eq, relsName_two (noSlash_of_all (by decide)) (noSlash_of_all (by decide))
    (noSlash_num n (by decide) (by decide)), List.append_assoc]
  rfl

theorem head_ne {a b : Str} (h : a.head? ≠ some '.') (ha : a ≠ []) : a ++ b ≠ "..".toList := by
  apply ne_dots
  cases a with
  | nil => exact absurd rfl ha
  | cons c t => simpa using h

/-- The parts of a sheet, drawing, vml or rich value part are in a folder `xl/x`. -/
def inXl (name : Str) : Prop := ∃ f c, name = joinPath ["xl".toList, f, c] ∧ noSlash f ∧ noSlash c

theorem inXl_ws (n : Nat) : inXl (wsName n) :=
  ⟨_, _, wsName_eq n, noSlash_of_all (by decide), noSlash_num n (by decide) (by decide)⟩
theorem inXl_cs (n : Nat) : inXl (csName n) :=
  ⟨_, _, csName_eq n, noSlash_of_all (by decide), noSlash_num n (by decide) (by decide)⟩
theorem inXl_dr (n : Nat) : inXl (drName n) :=
  ⟨_, _, drName_eq n, noSlash_of_all (by decide), noSlash_num n (by decide) (by decide)⟩
theorem inXl_vm (n : Nat) : inXl (vmName n) :=
  ⟨_, _, vmName_eq n, noSlash_of_all (by decide), noSlash_num n (by decide) (by decide)⟩

theorem resolve_image {src : Str} (h : inXl src) (n : Nat) (k : ImgType) :
    resolve src (imageTarget n k) = imName n k := by
  obtain ⟨f, c, rfl, hf, hc⟩ := h
  have e : imageTarget n k = joinPath ["..".toList, "media".toList,
      "image".toList ++ showNat n ++ (".".toList ++ k.extension)] := by
    rw [← List.append_assoc]; rfl
  rw [e, resolve_up (noSlash_of_all (by decide)) hf hc (noSlash_of_all (by decide))
    (noSlash_num n (by decide) (ext_noSlash k)) (by decide)
    (by rw [List.append_assoc]; exact head_ne (by decide) (by decide)), imName_eq]

theorem resolve_chart {src : Str} (h : inXl src) (n : Nat) :
    resolve src (chartTarget n) = chName n := by
  obtain ⟨f, c, rfl, hf, hc⟩ := h
  have e : chartTarget n = joinPath ["..".toList, "charts".toList,
      "chart".toList ++ showNat n ++ ".xml".toList] := rfl
  rw [e, resolve_up (noSlash_of_all (by decide)) hf hc (noSlash_of_all (by decide))
    (noSlash_num n (by decide) (by decide)) (by decide)
    (by rw [List.append_assoc]; exact head_ne (by decide) (by decide)), chName_eq]

theorem resolve_drawing {src : Str} (h : inXl src) (n : Nat) :
    resolve src (drawingRel n).target = drName n := by
  obtain ⟨f, c, rfl, hf, hc⟩ := h
  have e : (drawingRel n).target = joinPath ["..".toList, "drawings".toList,
      "drawing".toList ++ showNat n ++ ".xml".toList] := rfl
  rw [e, resolve_up (noSlash_of_all (by decide)) hf hc (noSlash_of_all (by decide))
    (noSlash_num n (by decide) (by decide)) (by decide)
    (by rw [List.append_assoc]; exact head_ne (by decide) (by decide)), drName_eq]

theorem resolve_vml {src : Str} (h : inXl src) (n : Nat) :
    resolve src (vmlRel n).target = vmName n := by
  obtain ⟨f, c, rfl, hf, hc⟩ := h
  have e : (vmlRel n).target = joinPath ["..".toList, "drawings".toList,
      "vmlDrawing".toList ++ showNat n ++ ".vml".toList] := rfl
  rw [e, resolve_up (noSlash_of_all (by decide)) hf hc (noSlash_of_all (by decide))
    (noSlash_num n (by decide) (by decide)) (by decide)
    (by rw [List.append_assoc]; exact head_ne (by decide) (by decide)), vmName_eq]

theorem resolve_table {src : Str} (h : inXl src) (n : Nat) :
    resolve src (tableRel n).target = tbName n := by
  obtain ⟨f, c, rfl, hf, hc⟩ := h
  have e : (tableRel n).target = joinPath ["..".toList, "tables".toList,
      "table".toList ++ showNat n ++ ".xml".toList] := rfl
  rw [e, resolve_up (noSlash_of_all (by decide)) hf hc (noSlash_of_all (by decide))
    (noSlash_num n (by decide) (by decide)) (by decide)
    (by rw [List.append_assoc]; exact head_ne (by decide) (by decide)), tbName_eq]

theorem resolve_comment {src : Str} (h : inXl src) (n : Nat) :
    resolve src (commentRel n).target = coName n := by
  obtain ⟨f, c, rfl, hf, hc⟩ := h
  have e : (commentRel n).target = joinPath ["..".toList,
      "comments".toList ++ showNat n ++ ".xml".toList] := rfl
  rw [e, resolve_up_one (noSlash_of_all (by decide)) hf hc
    (noSlash_num n (by decide) (by decide))
    (by rw [List.append_assoc]; exact head_ne (by decide) (by decide)), coName_eq]

theorem resolve_ws (n : Nat) : resolve "xl/workbook.xml".toList
    ("worksheets/sheet".toList ++ showNat n ++ ".xml".toList) = wsName n := by
  have e : ("worksheets/sheet".toList ++ showNat n ++ ".xml".toList) =
    joinPath ["worksheets".toList, "sheet".toList ++ showNat n ++ ".xml".toList] := rfl
  have e2 : "xl/workbook.xml".toList = joinPath ["xl".toList, "workbook.xml".toList] := by decide
  rw [e, e2, resolve_down (noSlash_of_all (by decide)) (noSlash_of_all (by decide))
    (noSlash_of_all (by decide)) (noSlash_num n (by decide) (by decide)) (by decide)
    (by rw [List.append_assoc]; exact head_ne (by decide) (by decide)), wsName_eq]

theorem resolve_cs (n : Nat) : resolve "xl/workbook.xml".toList
    ("chartsheets/sheet".toList ++ showNat n ++ ".xml".toList) = csName n := by
  have e : ("chartsheets/sheet".toList ++ showNat n ++ ".xml".toList) =
    joinPath ["chartsheets".toList, "sheet".toList ++ showNat n ++ ".xml".toList] := rfl
  have e2 : "xl/workbook.xml".toList = joinPath ["xl".toList, "workbook.xml".toList] := by decide
  rw [e, e2, resolve_down (noSlash_of_all (by decide)) (noSlash_of_all (by decide))
    (noSlash_of_all (by decide)) (noSlash_num n (by decide) (by decide)) (by decide)
    (by rw [List.append_assoc]; exact head_ne (by decide) (by decide)), csName_eq]

/-! ### Relationship files -/

theorem relStr_injective {a b : Nat} (h : relStr a = relStr b) : a = b :=
  showNat_injective (List.append_cancel_left h)

theorem lookup_zipIdx_relStr (l : List PRel) (n i : Nat) (hn : n + l.length < 65535 + 1) :
    ((l.zipIdx n).map fun (r, i) => (relStr ((i + 1) % 65536), r)).lookup (relStr (n + i + 1)) = l[i]? := by
  induction l generalizing n i with
  | nil => simp
  | cons r t ih =>
    rw [List.zipIdx_cons, List.map_cons, List.lookup_cons]
    simp only [List.length_cons] at hn
    have hm : (n + 1) % 65536 = n + 1 := Nat.mod_eq_of_lt (by omega)
    rw [hm]
    cases i with
    | zero => simp
    | succ i =>
      have hb : (relStr (n + (i + 1) + 1) == relStr (n + 1)) = false := by
        have : relStr (n + (i + 1) + 1) ≠ relStr (n + 1) := fun e => by
          have := relStr_injective e; omega
        simpa using this
      rw [hb]
      have := ih (n + 1) i (by omega)
      rw [show n + (i + 1) + 1 = n + 1 + i + 1 by omega, this]
      simp

/-- The relationships of a list, with their ids. -/
def numberedRels (l : List PRel) : List (Str × PRel) :=
  l.zipIdx.map fun (r, i) => (relStr ((i + 1) % 65536), r)

theorem lookup_numberedRels {l : List PRel} (h : l.length < 65536) (i : Nat) :
    (numberedRels l).lookup (relStr (i + 1)) = l[i]? := by
  have := lookup_zipIdx_relStr l 0 i (by omega)
  simpa [numberedRels] using this

/-! ### Numbered entries -/

theorem mem_numbered {α : Type} (used : α → Bool) (f : Nat → α → List Entry) (n : Nat) (l : List α)
    (e : Entry) :
    e ∈ numbered used f n l ↔
      ∃ pre a post, l = pre ++ a :: post ∧ used a = true ∧ e ∈ f (n + (pre.filter used).length) a := by
  induction l generalizing n with
  | nil => simp [numbered]
  | cons x t ih =>
    rw [numbered]
    constructor
    · intro h
      by_cases hx : used x = true
      · rw [if_pos hx] at h
        rcases List.mem_append.1 h with h | h
        · exact ⟨[], x, t, rfl, hx, by simpa using h⟩
        · obtain ⟨pre, a, post, rfl, ha, he⟩ := (ih (n + 1)).1 h
          refine ⟨x :: pre, a, post, rfl, ha, ?_⟩
          rw [List.filter_cons, if_pos hx, List.length_cons]
          rw [show n + ((pre.filter used).length + 1) = n + 1 + (pre.filter used).length by omega]
          exact he
      · rw [if_neg hx] at h
        obtain ⟨pre, a, post, rfl, ha, he⟩ := (ih n).1 h
        exact ⟨x :: pre, a, post, rfl, ha, by rw [List.filter_cons, if_neg hx]; exact he⟩
    · rintro ⟨pre, a, post, hl, ha, he⟩
      cases pre with
      | nil =>
        simp only [List.nil_append, List.cons.injEq] at hl
        obtain ⟨rfl, rfl⟩ := hl
        rw [if_pos ha]
        exact List.mem_append_left _ (by simpa using he)
      | cons y pre =>
        simp only [List.cons_append, List.cons.injEq] at hl
        obtain ⟨rfl, rfl⟩ := hl
        by_cases hx : used x = true
        · rw [if_pos hx]
          refine List.mem_append_right _ ((ih (n + 1)).2 ⟨pre, a, post, rfl, ha, ?_⟩)
          rw [List.filter_cons, if_pos hx, List.length_cons] at he
          rw [show n + 1 + (pre.filter used).length = n + ((pre.filter used).length + 1) by omega]
          exact he
        · rw [if_neg hx]
          refine (ih n).2 ⟨pre, a, post, rfl, ha, ?_⟩
          rw [List.filter_cons, if_neg hx] at he
          exact he

end Verif
