import Verif.Props.ViewSetup
/-!
C61: the protection of a sheet and the ranges that may be edited, as a reader of the file sees them.
-/
namespace Verif
open Spec

variable {s : Setup} {o : SheetRest} {chart : Bool} {secs : List (Str × List Tree)}

/-! ### After the calls -/

theorem run_protectionOn (calls : List SetupCall) (s : Setup) :
    (s.run calls).protectionOn = (s.protectionOn || calls.any fun c =>
      match c with | .protect => true | .protectWithPassword _ => true | .protectWithOptions _ => true | _ => false) := by
  induction calls generalizing s with
  | nil => rw [List.any_nil, Bool.or_false]; rfl
  | cons c calls ih =>
    rw [List.any_cons, ← Bool.or_assoc]
    show ((s.exec c).2.run calls).protectionOn = _
    rw [ih]
    congr 1
    cases c <;> simp only [Setup.exec] <;> (repeat' split) <;> simp

theorem run_options (calls : List SetupCall) : { (Setup.run {} calls).options with contents := true } = optionsMeant calls :=
  run_field (fun s => { s.options with contents := true }) _ calls (by field_cases) {}

theorem hash_seen (p : List (BitVec 8)) : hashSeen (hashPassword p) = passwordSeen p := by
  unfold passwordSeen
  split
  · rename_i h
    subst h
    decide
  · rename_i h
    rw [C23_hash_is_legacy_verifier p h]

theorem run_hash (calls : List SetupCall) : hashSeen (Setup.run {} calls).protectionHash = passwordMeant calls := by
  refine run_field (fun s => hashSeen s.protectionHash) _ calls (fun s c _ => ?_) {}
  cases c <;> simp only [Setup.exec] <;> (repeat' split) <;> first
    | rfl
    | exact hash_seen _

/-! ### The element `sheetProtection` -/

theorem readHash_attrs (h : BitVec 16) (r : Attrs) (hr : r.lookup "password".toList = none) :
    readHash (passwordAttrs h ++ r) = some (hashSeen h) := by
  unfold readHash passwordAttrs hashSeen
  cases e : passwordAttr h with
  | none =>
    rw [List.nil_append, hr]
    have : h = 0 := by
      unfold passwordAttr at e
      split at e
      · assumption
      · cases e
    rw [if_pos this]
  | some v =>
    rw [List.singleton_append, look_eq]
    have hz : h ≠ 0 := by
      intro hz
      rw [hz, show passwordAttr 0 = none from by decide] at e
      cases e
    rw [if_neg hz]
    dsimp only
    rw [(C23_attribute_reads_back h v e).2]
    rfl

theorem allowed_locked {n : Text} {b : Bool} {as : Attrs} (h : as.lookup n = if !b then some "1".toList else none) :
    allowed n false as = some b := by
  unfold allowed
  rw [flag_if n _ h]
  simp

theorem allowed_free {n : Text} {b : Bool} {as : Attrs} (h : as.lookup n = if b then some "0".toList else none) :
    allowed n true as = some b := by
  unfold allowed
  rw [flag_default (v := "0".toList) (b := b) rfl h]
  cases b <;> rfl

macro "prot_look" : tactic =>
  `(tactic| (unfold Setup.protectionTree; simp only [treeParts, Bool.false_eq_true, if_false]; rw [passwordAttrs_ne (by decide)]; look_attrs))

theorem protection_attrs (s : Setup) :
    attrFlag "sheet".toList false (treeParts (s.protectionTree false)).1 = some true ∧
    readHash (treeParts (s.protectionTree false)).1 = some (hashSeen s.protectionHash) ∧
    allowed "selectLockedCells".toList false (treeParts (s.protectionTree false)).1 = some s.options.selectLockedCells ∧
    allowed "selectUnlockedCells".toList false (treeParts (s.protectionTree false)).1 = some s.options.selectUnlockedCells ∧
    allowed "formatCells".toList true (treeParts (s.protectionTree false)).1 = some s.options.formatCells ∧
    allowed "formatColumns".toList true (treeParts (s.protectionTree false)).1 = some s.options.formatColumns ∧
    allowed "formatRows".toList true (treeParts (s.protectionTree false)).1 = some s.options.formatRows ∧
    allowed "insertColumns".toList true (treeParts (s.protectionTree false)).1 = some s.options.insertColumns ∧
    allowed "insertRows".toList true (treeParts (s.protectionTree false)).1 = some s.options.insertRows ∧
    allowed "insertHyperlinks".toList true (treeParts (s.protectionTree false)).1 = some s.options.insertLinks ∧
    allowed "deleteColumns".toList true (treeParts (s.protectionTree false)).1 = some s.options.deleteColumns ∧
    allowed "deleteRows".toList true (treeParts (s.protectionTree false)).1 = some s.options.deleteRows ∧
    allowed "sort".toList true (treeParts (s.protectionTree false)).1 = some s.options.sort ∧
    allowed "autoFilter".toList true (treeParts (s.protectionTree false)).1 = some s.options.useAutofilter ∧
    allowed "pivotTables".toList true (treeParts (s.protectionTree false)).1 = some s.options.usePivotTables ∧
    allowed "scenarios".toList false (treeParts (s.protectionTree false)).1 = some s.options.editScenarios ∧
    allowed "objects".toList false (treeParts (s.protectionTree false)).1 = some s.options.editObjects := by
  refine ⟨?_, ?_, ?_, ?_, ?_, ?_, ?_, ?_, ?_, ?_, ?_, ?_, ?_, ?_, ?_, ?_, ?_⟩
  · refine flag_if _ true ?_
    prot_look
    rfl
  · unfold Setup.protectionTree
    simp only [treeParts, Bool.false_eq_true, if_false]
    refine readHash_attrs _ _ ?_
    look_attrs
  · exact allowed_locked (by prot_look)
  · exact allowed_locked (by prot_look)
  · exact allowed_free (by prot_look)
  · exact allowed_free (by prot_look)
  · exact allowed_free (by prot_look)
  · exact allowed_free (by prot_look)
  · exact allowed_free (by prot_look)
  · exact allowed_free (by prot_look)
  · exact allowed_free (by prot_look)
  · exact allowed_free (by prot_look)
  · exact allowed_free (by prot_look)
  · exact allowed_free (by prot_look)
  · exact allowed_free (by prot_look)
  · exact allowed_locked (by prot_look)
  · exact allowed_locked (by prot_look)

theorem read_protection (h : Secs s o false secs) : readProtection (secNodes secs) =
    some (if s.protectionOn then some (hashSeen s.protectionHash, { s.options with contents := true }) else none) := by
  unfold readProtection
  rw [h.child h.protection]
  cases s.protectionOn
  · rfl
  · obtain ⟨h1, h2, h3, h4, h5, h6, h7, h8, h9, h10, h11, h12, h13, h14, h15, h16, h17⟩ := protection_attrs s
    simp only [if_true, List.head?_cons, Option.map_some]
    rw [h1]
    dsimp only
    rw [h2, h3, h4, h5, h6, h7, h8, h9, h10, h11, h12, h13, h14, h15, h16, h17]
    rfl

theorem protection_run (calls : List SetupCall) (hsec : Secs (Setup.run {} calls) o false secs) :
    readProtection (secNodes secs) = some (protectionMeant calls) := by
  rw [read_protection hsec, run_protectionOn, run_hash, run_options]
  rfl

/-- C61: a reader finds a worksheet protected if and only if one of the calls protects it, and then with the rights of the last
options and the hash of the last password. -/
theorem C61_protection (calls : List SetupCall) (h : ∀ c ∈ calls, CallSafe c) (o : SheetRest) (ho : RestOk o) :
    (parseDoc (writePart (worksheetTree (Setup.run {} calls) o))).bind (inRoot "worksheet".toList readProtection) =
      some (protectionMeant calls) := by
  have hs := setupSafe_run h
  rw [C07_part_roundtrip _ (worksheet_ok hs ho), Option.bind_some]
  unfold worksheetTree
  simp only [Tree.toNode, inRoot, if_true]
  exact protection_run calls (secs_worksheet hs ho)

/-- The hypotheses hold for a sheet on which rows may be inserted, with a password. -/
theorem C61_witness : (∀ c ∈ [SetupCall.protectWithOptions { insertRows := true, selectLockedCells := false },
      .protectWithPassword [0x70#8, 0x61#8, 0x73#8, 0x73#8, 0x77#8, 0x6F#8, 0x72#8, 0x64#8]], CallSafe c) ∧
    protectionMeant [.protectWithOptions { insertRows := true, selectLockedCells := false },
      .protectWithPassword [0x70#8, 0x61#8, 0x73#8, 0x73#8, 0x77#8, 0x6F#8, 0x72#8, 0x64#8]] =
      some (some 0x83AF, { insertRows := true, selectLockedCells := false }) := by
  refine ⟨fun c hc => ?_, by decide +kernel⟩
  simp only [List.mem_cons, List.not_mem_nil, or_false] at hc
  rcases hc with rfl | rfl <;> trivial

/-! ### Ranges that may be edited -/

/-- A range of the settings as it is read. -/
def rangeSeen (p : Str × Str × BitVec 16) : Option ProtectedRange := (readRange p.1).map fun r => (p.2.1, r, hashSeen p.2.2)

theorem readRanges_trees (l : List (Str × Str × BitVec 16)) :
    (l.map fun p => treeParts (.empty "protectedRange".toList (passwordAttrs p.2.2 ++ [("sqref".toList, p.1), ("name".toList, p.2.1)]))).mapM
      (fun e : NodeAttrs × List Node => match e.1.lookup "name".toList, e.1.lookup "sqref".toList, readHash e.1 with
        | some n, some r, some h => (readRange r).map fun r => ((n, r, h) : ProtectedRange)
        | _, _, _ => none) = l.mapM rangeSeen := by
  rw [mapM_map]
  congr 1
  funext p
  dsimp only [treeParts]
  rw [passwordAttrs_ne (by decide), passwordAttrs_ne (by decide), readHash_attrs _ _ (by look_attrs)]
  look_attrs
  rfl

theorem read_ranges (h : Secs s o chart secs) : readProtectedRanges (secNodes secs) = s.unprotected.mapM rangeSeen := by
  unfold readProtectedRanges kidsOf
  rw [h.child h.ranges]
  cases e : s.unprotected with
  | nil => rfl
  | cons p l =>
    simp only [List.isEmpty_cons, Bool.false_eq_true, if_false, List.head?_cons, Option.map_some, Option.getD_some]
    rw [← readRanges_trees, ← e]
    unfold Setup.protectedRangesTree
    dsimp only [treeParts]
    rw [elems_trees, List.filter_eq_self.mpr (by
      intro x hx
      obtain ⟨p, hp, rfl⟩ := List.mem_map.mp hx
      exact decide_eq_true rfl), List.map_map]
    rfl

theorem goodRange_iff (d : Dims) : ((gridCell d.firstRow d.firstCol && gridCell d.lastRow d.lastCol) = true ∧
    ¬ (d.firstRow > d.lastRow ∨ d.firstCol > d.lastCol)) ↔ GoodRange d := by
  rw [Bool.and_eq_true, gridCell_iff, gridCell_iff]
  unfold GoodRange OnSheet
  omega

theorem run_ranges (calls : List SetupCall) (s : Setup) (m : List ProtectedRange) (h : s.unprotected.mapM rangeSeen = some m) :
    (s.run calls).unprotected.mapM rangeSeen = some (rangesMeant m calls) := by
  have hl : ∀ (l : List (Str × Str × BitVec 16)) m, l.mapM rangeSeen = some m → m.length = l.length := by
    intro l
    induction l with
    | nil => intro m h; cases h; rfl
    | cons p l ih =>
      intro m h
      rw [List.mapM_cons] at h
      cases e1 : rangeSeen p with
      | none => rw [e1] at h; cases h
      | some q =>
        cases e2 : l.mapM rangeSeen with
        | none => rw [e1, e2] at h; cases h
        | some q' =>
          rw [e1, e2] at h
          cases h
          rw [List.length_cons, List.length_cons, ih q' e2]
  induction calls generalizing s m with
  | nil => exact h
  | cons c calls ih =>
    show ((s.exec c).2.run calls).unprotected.mapM rangeSeen = _
    by_cases hc : ∃ d n p, c = .unprotectRange d n p
    · obtain ⟨d, n, p, rfl⟩ := hc
      unfold rangesMeant
      by_cases hg : GoodRange d
      · rw [if_pos hg]
        obtain ⟨g1, g2⟩ := (goodRange_iff d).mpr hg
        refine ih _ _ ?_
        simp only [Setup.exec, g1, if_true]
        rw [if_neg g2]
        dsimp only
        refine mapM_append h ?_
        rw [List.mapM_cons, List.mapM_nil]
        simp only [rangeSeen, C02_range_roundtrip, hash_seen, hl _ _ h, Option.map_some, List.isEmpty_iff, Nat.add_comm 1]
        rfl
      · rw [if_neg hg]
        refine ih _ _ ?_
        have : (s.exec (.unprotectRange d n p)).2 = s := by
          simp only [Setup.exec]
          split
          · rename_i g1
            split
            · rfl
            · rename_i g2
              exact absurd ((goodRange_iff d).mp ⟨g1, g2⟩) hg
          · rfl
        rw [this]
        exact h
    · have hu : (s.exec c).2.unprotected = s.unprotected := by
        cases c <;> simp only [Setup.exec] <;> (repeat' split) <;> first
          | rfl
          | exact absurd ⟨_, _, _, rfl⟩ hc
      have hm : rangesMeant m (c :: calls) = rangesMeant m calls := by
        cases c <;> first
          | rfl
          | exact absurd ⟨_, _, _, rfl⟩ hc
      rw [hm]
      exact ih _ _ (hu ▸ h)

/-- C61: the ranges that may be edited on a protected sheet, as a reader finds them, are those of the accepted calls, in their order, with
their names and the hashes of their passwords. -/
theorem C61_ranges (calls : List SetupCall) (h : ∀ c ∈ calls, CallSafe c) (o : SheetRest) (ho : RestOk o) :
    (parseDoc (writePart (worksheetTree (Setup.run {} calls) o))).bind (inRoot "worksheet".toList readProtectedRanges) =
      some (rangesMeant [] calls) := by
  have hs := setupSafe_run h
  rw [C07_part_roundtrip _ (worksheet_ok hs ho), Option.bind_some]
  unfold worksheetTree
  simp only [Tree.toNode, inRoot, if_true]
  rw [show toNodes ((worksheetSections (Setup.run {} calls) o).flatMap (·.2)) = secNodes (worksheetSections (Setup.run {} calls) o) from rfl,
    read_ranges (secs_worksheet hs ho)]
  exact run_ranges calls {} [] rfl

/-- Two ranges, one with a name and a password; a range with its corners in the wrong order is refused. -/
theorem C61_ranges_witness : rangesMeant [] [.unprotectRange ⟨0, 0, 3, 1⟩ [] [], .protect, .unprotectRange ⟨9, 5, 3, 1⟩ [] [],
      .unprotectRange ⟨9, 5, 9, 5⟩ "Input".toList [0x61#8]] =
    [("Range".toList ++ showNat 1, ((0, 0), (3, 1)), none), ("Input".toList, ((9, 5), (9, 5)), some 0xCE88)] := by rfl

/-- F128: a range without a name may get the name of another range. -/
theorem C61_range_name_clash :
    (parseDoc (writePart (worksheetTree (Setup.run {} [.unprotectRange ⟨0, 0, 3, 1⟩ "Range2".toList [], .unprotectRange ⟨9, 5, 9, 5⟩ [] []]) {}))).bind
      (inRoot "worksheet".toList readProtectedRanges) =
      some [("Range2".toList, ((0, 0), (3, 1)), none), ("Range2".toList, ((9, 5), (9, 5)), none)] := by
  rw [C61_ranges _ (fun c hc => by
    simp only [List.mem_cons, List.not_mem_nil, or_false] at hc
    rcases hc with rfl | rfl
    · exact (by decide : attrSafe "Range2".toList = true)
    · exact (by decide : attrSafe [] = true)) {} restOk_empty]
  have : showNat 2 = "2".toList := by decide +kernel
  show some [("Range2".toList, ((0, 0), (3, 1)), none), ("Range".toList ++ showNat 2, ((9, 5), (9, 5)), none)] = _
  rw [this]
  rfl

/-! ### Chartsheets -/

/-- What may be edited on a protected chartsheet: its contents and its objects, 18.3.1.85 for chartsheets (CT_ChartsheetProtection). -/
def readChartProtection (ks : List Node) : Option (Option (Bool × Bool)) :=
  match Spec.child "sheetProtection".toList ks with
  | none => some none
  | some e =>
    match allowed "content".toList false e.1, allowed "objects".toList false e.1 with
    | some c, some o => some (some (c, o))
    | _, _ => none

/-- F126: on chartsheets the options are turned round: contents and objects that the user may edit are locked, and those that he
may not edit are free. -/
theorem C61_chartsheet_inverted (opts : ProtectionOptions) (o : SheetRest) (ho : RestOk o) :
    (parseDoc (writePart (chartsheetTree (Setup.run {} [.protectWithOptions opts]) o))).bind
      (inRoot "chartsheet".toList readChartProtection) = some (some (!opts.contents, !opts.editObjects)) := by
  have hs : SetupSafe (Setup.run {} [.protectWithOptions opts]) :=
    setupSafe_run fun c hc => by rw [List.mem_singleton] at hc; subst hc; trivial
  rw [C07_part_roundtrip _ (chartsheet_ok hs ho), Option.bind_some]
  unfold chartsheetTree
  simp only [Tree.toNode, inRoot, if_true]
  unfold readChartProtection
  have hc := (secs_chartsheet hs ho).child (secs_chartsheet hs ho).protection
  unfold secNodes at hc
  rw [hc]
  have h1 : (treeParts ((Setup.run {} [.protectWithOptions opts]).protectionTree true)).1.lookup "content".toList =
      if opts.contents then some "1".toList else none := by
    unfold Setup.protectionTree
    simp only [treeParts, if_true]
    rw [passwordAttrs_ne (by decide)]
    look_attrs
    rfl
  have h2 : (treeParts ((Setup.run {} [.protectWithOptions opts]).protectionTree true)).1.lookup "objects".toList =
      if opts.editObjects then some "1".toList else none := by
    unfold Setup.protectionTree
    simp only [treeParts, if_true]
    rw [passwordAttrs_ne (by decide)]
    look_attrs
    rfl
  show (match allowed "content".toList false (treeParts ((Setup.run {} [.protectWithOptions opts]).protectionTree true)).1,
    allowed "objects".toList false (treeParts ((Setup.run {} [.protectWithOptions opts]).protectionTree true)).1 with
    | some c, some o => some (some (c, o))
    | _, _ => none) = _
  unfold allowed
  rw [flag_if _ _ h1, flag_if _ _ h2]
  rfl

end Verif
