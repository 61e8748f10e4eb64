import Verif.Lemmas.PackageTypes
/-!
C19: the names of the parts are different, every part has the content type of its kind, and the content
types name only parts that are written.
-/
namespace Verif
open Spec

/-- The names of the files of a package are pairwise different. -/
theorem C19_part_names_distinct (b : PBook) : (b.entries.map Prod.fst).Nodup := names_nodup b

theorem skel_slash (n : Str) : skel ('/' :: n) = '/' :: skel n := by
  rw [skel, List.filter_cons]; rfl

theorem typed_fixed {b : PBook} {name : Str} {m : Bool} {p : Part} (i : Nat) {g : List (Str × Str)} {S : List Str}
    (h : b.overrideGroups[i]? = some (g, S)) (hx : ∃ t ∈ typeFor m p, ('/' :: name, t) ∈ g) :
    ∃ t ∈ typeFor m p, contentTypeOf b.entries name = some t := by
  obtain ⟨t, ht, hm⟩ := hx
  exact ⟨t, ht, type_of_override (override_at i h hm)⟩

theorem typed_numbered {b : PBook} {m : Bool} {p : Part} {n k : Nat} {a c t : Str} (i : Nat) {S : List Str}
    (h : b.overrideGroups[i]? = some (overrides n ('/' :: a) c t, S)) (hk : k < n) (ht : t ∈ typeFor m p) :
    ∃ t ∈ typeFor m p, contentTypeOf b.entries (a ++ showNat (1 + k) ++ c) = some t := by
  refine ⟨t, ht, type_of_override (override_at i h (mem_overrides.2 ⟨k, hk, ?_⟩))⟩
  rw [Nat.add_comm 1 k, List.cons_append, List.cons_append]

theorem typed_rels {b : PBook} {m : Bool} {x : Str} {l : List PRel}
    (hs : skel ('/' :: (x ++ '.' :: "rels".toList)) ∉ overrideSkels) :
    ∃ t ∈ typeFor m (relsPart l), contentTypeOf b.entries (x ++ '.' :: "rels".toList) = some t := by
  refine ⟨_, List.mem_cons_self, type_of_default hs ?_⟩
  rw [extension_dot _ _ (by decide)]
  simp only [PBook.defaults, List.append_assoc]
  exact List.mem_append_left _ List.mem_cons_self

theorem typed_rels_num {b : PBook} {m : Bool} {a c : Str} {n : Nat} {l : List PRel} (d : Str)
    (hc : c = d ++ '.' :: "rels".toList) (hs : '/' :: (skel a ++ skel c) ∉ overrideSkels) :
    ∃ t ∈ typeFor m (relsPart l), contentTypeOf b.entries (a ++ showNat n ++ c) = some t := by
  have h : a ++ showNat n ++ c = (a ++ showNat n ++ d) ++ '.' :: "rels".toList := by
    rw [hc, List.append_assoc _ d]
  have hs' : skel ('/' :: (a ++ showNat n ++ c)) ∉ overrideSkels := by
    rw [skel_slash, skel_num]; exact hs
  rw [h] at hs' ⊢
  exact typed_rels hs'

theorem filter_pre_lt {α : Type} {f : α → Bool} {l pre post : List α} {a : α} (h : l = pre ++ a :: post)
    (ha : f a = true) : (pre.filter f).length < (l.filter f).length := by
  rw [h, List.filter_append, List.length_append, List.filter_cons, if_pos ha, List.length_cons]
  omega

theorem prepared_filter (b : PBook) (f : PSheet → Bool) :
    (b.prepared.filter fun x => f x.1).length = (b.allSheets.filter f).length := by
  rw [filter_fst_length, prepared_fst]

theorem zip_filter (b : PBook) (f : PSheet → Bool) :
    ((b.prepared.zip b.embeddeds.2).filter fun x => f x.1.1).length ≤ (b.allSheets.filter f).length := by
  rw [← prepared_filter b f]
  have : ∀ (P : List (PSheet × Prep)) (V : List (List Nat)),
      ((P.zip V).filter fun x => f x.1.1).length ≤ (P.filter fun x => f x.1).length := by
    intro P
    induction P with
    | nil => intro V; simp
    | cons p t ih =>
      intro V
      cases V with
      | nil => simp
      | cons v V =>
        rw [List.zip_cons_cons, List.filter_cons, List.filter_cons]
        have := ih V
        cases f p.1 <;> simp <;> omega
  exact this _ _

theorem any_hasVml {b : PBook} {x : PSheet × Prep} {it : VmlItem} (hx : x ∈ b.prepared) (hi : it ∈ vmlItems x) :
    b.allSheets.any (fun s => s.hasVml || !s.hf.isEmpty) = true := by
  rw [List.any_eq_true]
  refine ⟨x.1, ?_, ?_⟩
  · rw [← prepared_fst b]; exact List.mem_map.2 ⟨x, hx, rfl⟩
  · rw [vmlItems, List.mem_append] at hi
    rcases hi with h | h
    · split at h
      · rename_i e; simp [e]
      · simp at h
    · split at h
      · rename_i e; cases hh : x.1.hf with
        | nil => exact absurd hh e
        | cons _ _ => simp
      · simp at h

theorem usesType_of {b : PBook} {im : PImage} (h : im ∈ b.media) : b.usesType im.kind = true := by
  obtain ⟨s, hs, hx⟩ := media_mem h
  rw [PBook.usesType, List.any_eq_true]
  refine ⟨s, hs, ?_⟩
  rw [List.any_eq_true]
  exact ⟨im, hx, by simp⟩

/-- Every file of a package except the list of types itself has the content type of its kind: by the name
or by the extension. -/
theorem C19_content_types (b : PBook) : ∀ e ∈ b.entries, e.1 ≠ "[Content_Types].xml".toList →
    ∃ t ∈ typeFor b.vba.isSome e.2, contentTypeOf b.entries e.1 = some t := by
  intro e he hne
  obtain ⟨g, hg, heg, _⟩ := entries_group he
  clear he
  simp only [PBook.groups, List.mem_cons, List.not_mem_nil, or_false] at hg
  rcases hg with rfl | rfl | rfl | rfl | rfl | rfl | rfl | rfl | rfl | rfl | rfl | rfl | rfl | rfl | rfl | rfl | rfl
  · simp only [List.mem_cons, List.not_mem_nil, or_false] at heg
    rcases heg with rfl | rfl | rfl | rfl | rfl | rfl
    · exact absurd rfl hne
    · exact typed_rels (x := "_rels/".toList) (by decide +kernel)
    · exact typed_rels (x := "xl/_rels/workbook.xml".toList) (by decide +kernel)
    · exact typed_fixed 0 rfl ⟨_, List.mem_cons_self, by decide +kernel⟩
    · exact typed_fixed 0 rfl ⟨_, List.mem_cons_self, by decide +kernel⟩
    · refine typed_fixed 1 rfl ?_
      cases b.vba.isSome with
      | false => exact ⟨_, List.mem_cons_self, List.mem_cons_self⟩
      | true => exact ⟨_, List.mem_cons_self, List.mem_cons_self⟩
  · obtain ⟨pre, a, post, hl, hu, hm⟩ := (mem_numbered _ _ _ _ _).1 heg
    have hk : ((pre.filter fun x => !x.1.1.chartsheet).length) < (b.allSheets.filter fun s => !s.chartsheet).length :=
      Nat.lt_of_lt_of_le (filter_pre_lt hl hu) (zip_filter b fun s => !s.chartsheet)
    rw [worksheetEntries, List.mem_append] at hm
    rcases hm with hm | hm
    · rw [List.mem_singleton] at hm; subst hm
      exact typed_numbered 2 rfl hk List.mem_cons_self
    · split at hm
      · rw [List.mem_singleton] at hm; subst hm
        exact typed_rels_num ".xml".toList (by decide) (by decide +kernel)
      · simp at hm
  · obtain ⟨pre, a, post, hl, hu, hm⟩ := (mem_numbered _ _ _ _ _).1 heg
    have hk : ((pre.filter fun x => x.1.chartsheet).length) < (b.allSheets.filter fun s => s.chartsheet).length := by
      rw [← prepared_filter b fun s => s.chartsheet]
      exact filter_pre_lt hl hu
    rw [chartsheetEntries, List.mem_append] at hm
    rcases hm with hm | hm
    · rw [List.mem_singleton] at hm; subst hm
      exact typed_numbered 3 rfl hk List.mem_cons_self
    · split at hm
      · rw [List.mem_singleton] at hm; subst hm
        exact typed_rels_num ".xml".toList (by decide) (by decide +kernel)
      · simp at hm
  · dsimp only at heg
    split at heg
    · rename_i hc
      rw [List.mem_singleton] at heg; subst heg
      exact typed_fixed 8 rfl ⟨_, List.mem_cons_self, by rw [if_pos hc]; decide +kernel⟩
    · simp at heg
  · simp only [List.mem_cons, List.not_mem_nil, or_false] at heg
    rcases heg with rfl | rfl
    · exact typed_fixed 0 rfl ⟨_, List.mem_cons_self, by decide +kernel⟩
    · exact typed_fixed 0 rfl ⟨_, List.mem_cons_self, by decide +kernel⟩
  · dsimp only at heg
    split at heg
    · rename_i hc
      rw [List.mem_singleton] at heg; subst heg
      exact typed_fixed 12 rfl ⟨_, List.mem_cons_self, by rw [if_pos hc]; decide +kernel⟩
    · simp at heg
  · obtain ⟨pre, a, post, hl, hu, hm⟩ := (mem_numbered _ _ _ _ _).1 heg
    have hk : ((pre.filter fun x => !x.2.objs.isEmpty).length) < (b.allSheets.filter PSheet.hasDrawing).length := by
      rw [← prepared_filter b PSheet.hasDrawing]
      have e : (b.prepared.filter fun x => !x.2.objs.isEmpty) = b.prepared.filter fun x => x.1.hasDrawing :=
        List.filter_congr fun x hx => prepared_objs hx
      rw [← e]
      exact filter_pre_lt hl hu
    rw [drawingEntries, List.mem_singleton] at hm
    subst hm
    exact typed_numbered 4 rfl hk List.mem_cons_self
  · obtain ⟨pre, a, post, hl, hu, hm⟩ := (mem_numbered _ _ _ _ _).1 heg
    have ha : a ∈ b.prepared.flatMap vmlItems := by rw [hl]; simp
    obtain ⟨x, hx, hi⟩ := List.mem_flatMap.1 ha
    have hv := any_hasVml hx hi
    have hd : ("vml".toList, "application/vnd.openxmlformats-officedocument.vmlDrawing".toList) ∈ b.defaults := by
      simp only [PBook.defaults, if_pos hv, List.append_assoc]
      exact List.mem_append_right _ (List.mem_append_left _ List.mem_cons_self)
    have hv2 : ∀ n, contentTypeOf b.entries ("xl/drawings/vmlDrawing".toList ++ showNat n ++ ".vml".toList) =
        some "application/vnd.openxmlformats-officedocument.vmlDrawing".toList := by
      intro n
      refine type_of_default (by rw [skel_slash, skel_num]; decide +kernel) ?_
      rw [show ".vml".toList = '.' :: "vml".toList from rfl, extension_dot _ _ (by decide)]
      exact hd
    cases a with
    | objects n bt =>
      rw [vmlEntries, List.mem_singleton] at hm
      subst hm
      exact ⟨_, List.mem_cons_self, hv2 _⟩
    | images ids rels =>
      rw [vmlEntries, List.mem_cons, List.mem_singleton] at hm
      rcases hm with hm | hm
      · subst hm
        exact ⟨_, List.mem_cons_self, hv2 _⟩
      · subst hm
        exact typed_rels_num ".vml".toList (by decide) (by decide +kernel)
  · obtain ⟨pre, a, post, hl, hu, hm⟩ := (mem_numbered _ _ _ _ _).1 heg
    have hk := filter_pre_lt (f := fun s => s.notes.isSome) hl hu
    rw [commentEntries] at hm
    split at hm
    · rw [List.mem_singleton] at hm; subst hm
      exact typed_numbered 7 rfl hk List.mem_cons_self
    · simp at hm
  · obtain ⟨pre, a, post, hl, hu, hm⟩ := (mem_numbered _ _ _ _ _).1 heg
    have ha : a ∈ b.media := by rw [PBook.media, hl]; simp
    have hut := usesType_of ha
    rw [mediaEntries, List.mem_singleton] at hm
    subst hm
    have hd : ∀ k : ImgType, b.usesType k = true → ∃ t ∈ typeFor b.vba.isSome (.media a.data),
        (k.extension, t) ∈ b.defaults := by
      intro k hk
      cases k with
      | png =>
        refine ⟨_, List.mem_cons_self, ?_⟩
        simp only [PBook.defaults, if_pos hk, List.append_assoc]
        exact List.mem_append_right _ (List.mem_append_right _ (List.mem_append_left _ List.mem_cons_self))
      | jpeg =>
        refine ⟨_, List.mem_cons_of_mem _ List.mem_cons_self, ?_⟩
        simp only [PBook.defaults, if_pos hk, List.append_assoc]
        exact List.mem_append_right _ (List.mem_append_right _ (List.mem_append_right _
          (List.mem_append_left _ List.mem_cons_self)))
      | gif =>
        refine ⟨_, List.mem_cons_of_mem _ (List.mem_cons_of_mem _ List.mem_cons_self), ?_⟩
        simp only [PBook.defaults, if_pos hk, List.append_assoc]
        exact List.mem_append_right _ (List.mem_append_right _ (List.mem_append_right _
          (List.mem_append_right _ (List.mem_append_left _ List.mem_cons_self))))
      | bmp =>
        refine ⟨_, List.mem_cons_of_mem _ (List.mem_cons_of_mem _ (List.mem_cons_of_mem _ List.mem_cons_self)), ?_⟩
        simp only [PBook.defaults, if_pos hk, List.append_assoc]
        exact List.mem_append_right _ (List.mem_append_right _ (List.mem_append_right _
          (List.mem_append_right _ (List.mem_append_right _ (List.mem_append_left _ List.mem_cons_self)))))
    obtain ⟨t, ht, hd⟩ := hd a.kind hut
    refine ⟨t, ht, type_of_default ?_ ?_⟩
    · rw [skel_slash, List.append_assoc, skel_num]
      cases a.kind <;> decide +kernel
    · have hx : extension ("xl/media/image".toList ++ showNat (1 + (pre.filter fun _ => true).length) ++ ".".toList ++
          a.kind.extension) = a.kind.extension := by
        rw [List.append_assoc]
        exact extension_dot _ _ (by cases a.kind <;> decide)
      rw [hx]
      exact hd
  · obtain ⟨pre, a, post, hl, hu, hm⟩ := (mem_numbered _ _ _ _ _).1 heg
    have hk := filter_pre_lt (f := fun _ => true) hl hu
    rw [chartEntries, List.mem_singleton] at hm
    subst hm
    refine typed_numbered 5 rfl (Nat.lt_of_lt_of_eq hk ?_) List.mem_cons_self
    rw [List.filter_eq_self.2 (by simp), List.length_flatMap]
  · obtain ⟨pre, a, post, hl, hu, hm⟩ := (mem_numbered _ _ _ _ _).1 heg
    have hk := filter_pre_lt (f := fun _ => true) hl hu
    rw [tableEntries, List.mem_singleton] at hm
    subst hm
    refine typed_numbered 6 rfl (Nat.lt_of_lt_of_eq hk ?_) List.mem_cons_self
    rw [List.filter_eq_self.2 (by simp), List.length_flatMap]
  · dsimp only [PBook.vbaEntries] at heg
    cases hv : b.vba with
    | none => rw [hv] at heg; simp at heg
    | some v =>
      have hvs : b.vba.isSome = true := by rw [hv]; rfl
      rw [hv] at heg
      dsimp only at heg
      rcases List.mem_append.1 heg with h | h
      · rw [List.mem_singleton] at h
        subst h
        refine ⟨_, List.mem_cons_self, type_of_default (by dsimp only; decide +kernel) ?_⟩
        simp only [PBook.defaults, if_pos hvs]
        exact List.mem_append_right _ (List.mem_cons.2 (Or.inl (by decide +kernel)))
      · cases hs : b.signature with
        | none => rw [hs] at h; simp at h
        | some w =>
          rw [hs] at h
          dsimp only at h
          rw [List.mem_cons, List.mem_singleton] at h
          rcases h with h | h
          · subst h
            refine typed_fixed 1 rfl ?_
            rw [if_pos hvs, hs]
            exact ⟨_, List.mem_cons_self, List.mem_cons_of_mem _ List.mem_cons_self⟩
          · subst h
            exact typed_rels (x := "xl/_rels/vbaProject.bin".toList) (by decide +kernel)
  · obtain ⟨pre, a, post, hl, hu, hm⟩ := (mem_numbered _ _ _ _ _).1 heg
    rw [drawingRelEntries] at hm
    split at hm
    · simp at hm
    · rw [List.mem_singleton] at hm; subst hm
      exact typed_rels_num ".xml".toList (by decide) (by decide +kernel)
  · dsimp only at heg
    split at heg
    · rename_i hc
      rw [List.mem_singleton] at heg; subst heg
      exact typed_fixed 9 rfl ⟨_, List.mem_cons_self, by rw [if_pos hc]; decide +kernel⟩
    · simp at heg
  · dsimp only at heg
    split at heg
    · rename_i hc
      simp only [List.mem_cons, List.not_mem_nil, or_false] at heg
      rcases heg with rfl | rfl | rfl | rfl | rfl
      · exact typed_rels (x := "xl/richData/_rels/richValueRel.xml".toList) (by decide +kernel)
      · exact typed_fixed 10 rfl ⟨_, List.mem_cons_self, by rw [if_pos hc]; decide +kernel⟩
      · exact typed_fixed 10 rfl ⟨_, List.mem_cons_self, by rw [if_pos hc]; decide +kernel⟩
      · exact typed_fixed 10 rfl ⟨_, List.mem_cons_self, by rw [if_pos hc]; decide +kernel⟩
      · refine typed_fixed 10 rfl ?_
        rw [if_pos hc]
        refine ⟨_, List.mem_cons_self, ?_⟩
        dsimp only
        decide +kernel
    · simp at heg
  · dsimp only at heg
    split at heg
    · rename_i hc
      rw [List.mem_singleton] at heg; subst heg
      exact typed_fixed 11 rfl ⟨_, List.mem_cons_self, by rw [if_pos hc]; decide +kernel⟩
    · simp at heg

theorem filter_nth {α : Type} {f : α → Bool} {l : List α} {i : Nat} (h : i < (l.filter f).length) :
    ∃ pre a post, l = pre ++ a :: post ∧ f a = true ∧ (pre.filter f).length = i := by
  induction l generalizing i with
  | nil => simp at h
  | cons x t ih =>
    rw [List.filter_cons] at h
    by_cases hx : f x = true
    · rw [if_pos hx, List.length_cons] at h
      cases i with
      | zero => exact ⟨[], x, t, rfl, hx, rfl⟩
      | succ j =>
        obtain ⟨pre, a, post, h1, h2, h3⟩ := ih (i := j) (by omega)
        refine ⟨x :: pre, a, post, by rw [h1]; rfl, h2, ?_⟩
        rw [List.filter_cons, if_pos hx, List.length_cons, h3]
    · rw [if_neg hx] at h
      obtain ⟨pre, a, post, h1, h2, h3⟩ := ih h
      refine ⟨x :: pre, a, post, by rw [h1]; rfl, h2, ?_⟩
      rw [List.filter_cons, if_neg hx, h3]

/-- The content types name no file that is not in the package. -/
theorem C19_overrides_exist (b : PBook) (d o : List (Str × Str))
    (h : b.entries.lookup "[Content_Types].xml".toList = some (.types d o)) :
    ∀ x ∈ o, ∃ n p, x.1 = '/' :: n ∧ (n, p) ∈ b.entries := by
  rw [lookup_types] at h
  simp only [Option.some.injEq, Part.types.injEq] at h
  rw [← h.2]
  clear h
  intro x hx
  rw [PBook.allOverrides, List.mem_flatten] at hx
  obtain ⟨l, hl, hx⟩ := hx
  obtain ⟨g, hg, rfl⟩ := List.mem_map.1 hl
  clear hl
  simp only [PBook.overrideGroups, List.mem_cons, List.not_mem_nil, or_false] at hg
  have slash : ∀ (t : Str) (n : Nat) (c : Str), ('/' :: t) ++ showNat n ++ c = '/' :: (t ++ showNat n ++ c) :=
    fun _ _ _ => rfl
  rcases hg with rfl | rfl | rfl | rfl | rfl | rfl | rfl | rfl | rfl | rfl | rfl | rfl | rfl
  · simp only [List.mem_cons, List.not_mem_nil, or_false] at hx
    rcases hx with rfl | rfl | rfl | rfl
    · exact ⟨"docProps/app.xml".toList, _, (by decide +kernel), mem_group_at (b := b) 4 rfl (List.mem_cons_of_mem _ List.mem_cons_self)⟩
    · exact ⟨"docProps/core.xml".toList, _, (by decide +kernel), mem_group_at (b := b) 4 rfl List.mem_cons_self⟩
    · exact ⟨"xl/styles.xml".toList, _, (by decide +kernel), mem_group_at (b := b) 0 rfl (List.mem_of_getElem? (i := 4) rfl)⟩
    · exact ⟨"xl/theme/theme1.xml".toList, _, (by decide +kernel), mem_group_at (b := b) 0 rfl (List.mem_of_getElem? (i := 3) rfl)⟩
  · have hw : ("xl/workbook.xml".toList, Part.workbook b.sheetIds) ∈ b.entries :=
      mem_group_at (b := b) 0 rfl (List.mem_of_getElem? (i := 5) rfl)
    dsimp only at hx
    split at hx
    · rename_i hv
      rcases List.mem_append.1 hx with hx | hx
      · rw [List.mem_singleton] at hx
        subst hx
        exact ⟨"xl/workbook.xml".toList, _, (by decide +kernel), hw⟩
      · split at hx
        · rename_i hs
          rw [List.mem_singleton] at hx
          subst hx
          obtain ⟨v, hv⟩ := Option.isSome_iff_exists.1 hv
          obtain ⟨w, hs⟩ := Option.isSome_iff_exists.1 hs
          refine ⟨"xl/vbaProjectSignature.bin".toList, .vbaSignature w, (by decide +kernel), mem_group_at (b := b) 12 rfl ?_⟩
          rw [PBook.vbaEntries, hv, hs]
          exact List.mem_append_right _ List.mem_cons_self
        · simp at hx
    · rw [List.mem_singleton] at hx
      subst hx
      exact ⟨"xl/workbook.xml".toList, _, (by decide +kernel), hw⟩
  · obtain ⟨i, hi, rfl⟩ := mem_overrides.1 hx
    obtain ⟨pre, a, post, h1, h2, h3⟩ := filter_nth hi
    have hc : a.chartsheet = false := by simpa using h2
    refine ⟨_, (.worksheet (a.refs (b.vmAt pre a))), slash "xl/worksheets/sheet".toList (i + 1) ".xml".toList, mem_ws h1 hc (e := (_, _)) ?_⟩
    rw [wsIdx, h3, Nat.add_comm 1 i]
    exact List.mem_append_left _ List.mem_cons_self
  · obtain ⟨i, hi, rfl⟩ := mem_overrides.1 hx
    obtain ⟨pre, a, post, h1, h2, h3⟩ := filter_nth hi
    refine ⟨_, .chartsheet a.chartsheetRefs, slash "xl/chartsheets/sheet".toList (i + 1) ".xml".toList, mem_cs h1 h2 (e := (_, _)) ?_⟩
    rw [csIdx, h3, Nat.add_comm 1 i]
    exact List.mem_append_left _ List.mem_cons_self
  · obtain ⟨i, hi, rfl⟩ := mem_overrides.1 hx
    obtain ⟨pre, a, post, h1, h2, h3⟩ := filter_nth hi
    refine ⟨_, .drawing (b.prepAt pre a).objs, slash "xl/drawings/drawing".toList (i + 1) ".xml".toList, mem_dr h1 h2 (e := (_, _)) ?_⟩
    rw [drIdx, h3, Nat.add_comm 1 i]
    exact List.mem_cons_self
  · obtain ⟨i, hi, rfl⟩ := mem_overrides.1 hx
    have hi' : i < (b.allSheets.flatMap PSheet.charts).length := by
      rw [List.length_flatMap]; exact hi
    refine ⟨_, .chart (b.allSheets.flatMap PSheet.charts)[i], slash "xl/charts/chart".toList (i + 1) ".xml".toList, mem_group_at (b := b) 10 rfl (e := (_, _))
      (numbered_at (j := i) (List.getElem?_eq_getElem hi') ?_)⟩
    rw [Nat.add_comm 1 i]
    exact List.mem_cons_self
  · obtain ⟨i, hi, rfl⟩ := mem_overrides.1 hx
    have hi' : i < (b.allSheets.flatMap PSheet.tables).length := by
      rw [List.length_flatMap]; exact hi
    refine ⟨_, .table (b.allSheets.flatMap PSheet.tables)[i], slash "xl/tables/table".toList (i + 1) ".xml".toList, mem_group_at (b := b) 11 rfl (e := (_, _))
      (numbered_at (j := i) (List.getElem?_eq_getElem hi') ?_)⟩
    rw [Nat.add_comm 1 i]
    exact List.mem_cons_self
  · obtain ⟨i, hi, rfl⟩ := mem_overrides.1 hx
    obtain ⟨pre, a, post, h1, h2, h3⟩ := filter_nth hi
    obtain ⟨n, hn⟩ := Option.isSome_iff_exists.1 h2
    refine ⟨_, .comments n, slash "xl/comments".toList (i + 1) ".xml".toList, ?_⟩
    have := mem_co h1 hn
    rw [noteCount, h3, Nat.add_comm 1 i] at this
    exact this
  · dsimp only at hx
    split at hx
    · rename_i hc
      rw [List.mem_singleton] at hx
      subst hx
      exact ⟨"xl/sharedStrings.xml".toList, _, (by decide +kernel), mem_group_at (b := b) 3 rfl (by rw [if_pos hc]; exact List.mem_cons_self)⟩
    · simp at hx
  · dsimp only at hx
    split at hx
    · rename_i hc
      rw [List.mem_singleton] at hx
      subst hx
      exact ⟨"xl/metadata.xml".toList, _, (by decide +kernel), mem_group_at (b := b) 14 rfl (by rw [if_pos hc]; exact List.mem_cons_self)⟩
    · simp at hx
  · dsimp only at hx
    split at hx
    · rename_i hc
      have hm : ∀ e : Entry, e ∈
        [("xl/richData/_rels/richValueRel.xml.rels".toList, relsPart (richRels b.embeddeds.1)),
         ("xl/richData/rdrichvalue.xml".toList, .plain .rdRichValue),
         ("xl/richData/rdRichValueTypes.xml".toList, .plain .rdRichValueTypes),
         ("xl/richData/rdrichvaluestructure.xml".toList, .plain .rdRichValueStructure),
         ("xl/richData/richValueRel.xml".toList,
          .richValueRel ((List.range b.embeddeds.1.length).map fun i => relStr (i + 1)))] → e ∈ b.entries := by
        intro e he
        exact mem_group_at (b := b) 15 rfl (by rw [if_pos hc]; exact he)
      simp only [List.mem_cons, List.not_mem_nil, or_false] at hx
      rcases hx with rfl | rfl | rfl | rfl
      · exact ⟨"xl/richData/rdRichValueTypes.xml".toList, _, (by decide +kernel), hm _ (List.mem_of_getElem? (i := 2) rfl)⟩
      · exact ⟨"xl/richData/rdrichvalue.xml".toList, _, (by decide +kernel), hm _ (List.mem_of_getElem? (i := 1) rfl)⟩
      · exact ⟨"xl/richData/rdrichvaluestructure.xml".toList, _, (by decide +kernel), hm _ (List.mem_of_getElem? (i := 3) rfl)⟩
      · exact ⟨"xl/richData/richValueRel.xml".toList, _, (by decide +kernel), hm _ (List.mem_of_getElem? (i := 4) rfl)⟩
    · simp at hx
  · dsimp only at hx
    split at hx
    · rename_i hc
      rw [List.mem_singleton] at hx
      subst hx
      exact ⟨"xl/featurePropertyBag/featurePropertyBag.xml".toList, _, (by decide +kernel), mem_group_at (b := b) 16 rfl (by rw [if_pos hc]; exact List.mem_cons_self)⟩
    · simp at hx
  · dsimp only at hx
    split at hx
    · rename_i hc
      rw [List.mem_singleton] at hx
      subst hx
      exact ⟨"docProps/custom.xml".toList, _, (by decide +kernel), mem_group_at (b := b) 5 rfl (by rw [if_pos hc]; exact List.mem_cons_self)⟩
    · simp at hx

end Verif
