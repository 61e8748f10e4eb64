import Verif.Spec.DocProps
import Verif.Props.WorkbookRun
import Verif.Props.SetupRun
/-!
C68: the document properties read back as what was asked for.
-/
namespace Verif
open Spec

/-! ### Texts -/

theorem textSafe_cons (c : Char) (s : Str) : textSafe (c :: s) = (xmlChar c && c ≠ '\r' && textSafe s) := rfl

theorem textSafe_of_attrSafe {s : Str} (h : attrSafe s = true) : textSafe s = true := by
  unfold attrSafe at h
  unfold textSafe
  rw [List.all_eq_true] at h ⊢
  intro c hc
  have := h c hc
  simp only [Bool.and_eq_true] at this ⊢
  exact ⟨this.1.1, this.2⟩

theorem escape_textSafe {s : Str} (h : textSafe s = true) : excelControlEscape s = s := by
  induction s with
  | nil => rfl
  | cons c s ih =>
    rw [textSafe_cons, Bool.and_eq_true] at h
    have hc : isControl c = false := by
      have := h.1
      simp only [xmlChar, Bool.and_eq_true, Bool.or_eq_true, decide_eq_true_eq] at this
      unfold isControl
      obtain ⟨h1, h3⟩ := this
      have h3 : c ≠ '\r' := h3
      by_cases hn : c = '\n'
      · subst hn; decide
      · by_cases ht : c = '\t'
        · subst ht; decide
        · simp_all; grind
    unfold excelControlEscape at ih ⊢
    rw [List.flatMap_cons, ih h.2]
    simp [hc]

theorem textSafe_data {t d : Str} {as : Attrs} (ht : isName t = true) (ha : attrsGood as) (h : textSafe d = true) :
    treeOk (.data t d as) = true := by
  simp only [treeOk, Bool.and_eq_true]
  refine ⟨⟨⟨ht, List.all_eq_true.mpr ha.1⟩, decide_eq_true ha.2⟩, List.all_eq_true.mpr fun c hc => ?_⟩
  have := List.all_eq_true.mp h c hc
  simp only [xmlChar, Bool.and_eq_true, Bool.or_eq_true, decide_eq_true_eq] at this
  obtain ⟨h1, _⟩ := this
  unfold isNonChar
  by_cases e1 : c = '\t'
  · subst e1; decide
  by_cases e2 : c = '\n'
  · subst e2; decide
  by_cases e3 : c = '\r'
  · subst e3; decide
  have : ¬ c.toNat = 0xFFFE ∧ ¬ c.toNat = 0xFFFF := by grind
  simp [this.1, this.2]

theorem data_reads {t d : Str} {as : Attrs} (h : textSafe d = true) :
    textOnly (treeParts (.data t d as)).2 = some d := by
  simp only [treeParts, textOnly_data]
  rw [escape_textSafe h]

/-! ### Lists of texts -/

/-- One element of such a list. -/
inductive IsText : Str → Str → List Tree → Prop where
  | always (t d : Str) : IsText t d (always t d)
  | w3cdtf (t d : Str) : IsText t d (w3cdtf t d)
  | unlessEmpty (t d : Str) : IsText t d (unlessEmpty t d)

theorem isText_child {t d : Str} {ts : List Tree} (h : IsText t d ts) (hd : textSafe d = true) (rest : List Tree)
    (hr : child t (toNodes rest) = none) : textAt t (toNodes (ts ++ rest)) = some d := by
  have one : ∀ as, textAt t (toNodes (.data t d as :: rest)) = some d := by
    intro as
    unfold textAt
    rw [child_head (t := t) _ _ rfl]
    exact data_reads hd
  cases h with
  | always => exact one []
  | w3cdtf => exact one _
  | unlessEmpty =>
    unfold unlessEmpty
    by_cases e : d = []
    · rw [if_pos e, e, List.nil_append]
      unfold textAt
      rw [hr]
    · rw [if_neg e]; exact one []

theorem isText_skip {t d u : Str} {ts : List Tree} (h : IsText t d ts) (hu : u ≠ t) (rest : List Tree) :
    child u (toNodes (ts ++ rest)) = child u (toNodes rest) := by
  have one : ∀ as, child u (toNodes (.data t d as :: rest)) = child u (toNodes rest) :=
    fun as => child_skip (.data t d as) _ (fun e => hu e.symm)
  cases h with
  | always => exact one []
  | w3cdtf => exact one _
  | unlessEmpty =>
    unfold unlessEmpty
    by_cases e : d = []
    · rw [if_pos e]; rfl
    · rw [if_neg e]; exact one []

theorem textAt_skip {t d u : Str} {ts : List Tree} (h : IsText t d ts) (hu : u ≠ t) (rest : List Tree) :
    textAt u (toNodes (ts ++ rest)) = textAt u (toNodes rest) := by
  unfold textAt
  rw [isText_skip h hu]

theorem always_ok {t d : Str} (ht : isName t = true) (hd : textSafe d = true) :
    ∀ k ∈ always t d, treeOk k = true := ok_single (textSafe_data ht attrsGood_nil hd)

theorem unlessEmpty_ok {t d : Str} (ht : isName t = true) (hd : textSafe d = true) :
    ∀ k ∈ unlessEmpty t d, treeOk k = true := by
  unfold unlessEmpty
  by_cases e : d = []
  · rw [if_pos e]; exact ok_nil
  · rw [if_neg e]; exact always_ok ht hd

theorem w3cdtf_ok {t d : Str} (ht : isName t = true) (hd : textSafe d = true) :
    ∀ k ∈ w3cdtf t d, treeOk k = true := by
  refine ok_single (textSafe_data ht ?_ hd)
  exact attrsGood_one (by decide) (by decide +kernel)

/-! ### The core properties -/

/-- All texts of the properties can be written. -/
structure PropsSafe (p : DocProps) : Prop where
  author : textSafe p.author = true
  title : textSafe p.title = true
  comment : textSafe p.comment = true
  company : textSafe p.company = true
  manager : textSafe p.manager = true
  status : textSafe p.status = true
  subject : textSafe p.subject = true
  category : textSafe p.category = true
  keywords : textSafe p.keywords = true
  base : textSafe p.hyperlinkBase = true
  creation : textSafe p.creation = true
  custom : ∀ q ∈ p.custom, attrSafe q.1 = true ∧ valSafe q.2 = true

theorem propsSafe_exec {p : DocProps} (h : PropsSafe p) (c : DocCall) (hc : docSafe c = true) :
    PropsSafe (p.exec c) := by
  obtain ⟨h1, h2, h3, h4, h5, h6, h7, h8, h9, h10, h11, h12⟩ := h
  cases c with
  | custom n v =>
    refine ⟨h1, h2, h3, h4, h5, h6, h7, h8, h9, h10, h11, ?_⟩
    intro q hq
    have hc : (attrSafe n && valSafe v) = true := hc
    rw [Bool.and_eq_true] at hc
    rcases List.mem_append.mp hq with hq | hq
    · exact h12 q hq
    · rw [List.mem_singleton.mp hq]; exact hc
  | title s => exact ⟨h1, hc, h3, h4, h5, h6, h7, h8, h9, h10, h11, h12⟩
  | subject s => exact ⟨h1, h2, h3, h4, h5, h6, hc, h8, h9, h10, h11, h12⟩
  | manager s => exact ⟨h1, h2, h3, h4, hc, h6, h7, h8, h9, h10, h11, h12⟩
  | company s => exact ⟨h1, h2, h3, hc, h5, h6, h7, h8, h9, h10, h11, h12⟩
  | category s => exact ⟨h1, h2, h3, h4, h5, h6, h7, hc, h9, h10, h11, h12⟩
  | author s => exact ⟨hc, h2, h3, h4, h5, h6, h7, h8, h9, h10, h11, h12⟩
  | keywords s => exact ⟨h1, h2, h3, h4, h5, h6, h7, h8, hc, h10, h11, h12⟩
  | comment s => exact ⟨h1, h2, hc, h4, h5, h6, h7, h8, h9, h10, h11, h12⟩
  | status s => exact ⟨h1, h2, h3, h4, h5, hc, h7, h8, h9, h10, h11, h12⟩
  | hyperlinkBase s => exact ⟨h1, h2, h3, h4, h5, h6, h7, h8, h9, hc, h11, h12⟩
  | creation s => exact ⟨h1, h2, h3, h4, h5, h6, h7, h8, h9, h10, hc, h12⟩

theorem propsSafe_run {now : Str} (hn : textSafe now = true) {calls : List DocCall} (hc : calls.all docSafe = true) :
    PropsSafe (DocProps.run now calls) := by
  unfold DocProps.run
  have h0 : PropsSafe { creation := now } := ⟨rfl, rfl, rfl, rfl, rfl, rfl, rfl, rfl, rfl, rfl, hn, by simp⟩
  generalize ({ creation := now } : DocProps) = p at h0
  induction calls generalizing p with
  | nil => exact h0
  | cons c r ih =>
    rw [List.all_cons, Bool.and_eq_true] at hc
    exact ih hc.2 _ (propsSafe_exec h0 c hc.1)

/-- A field that each call either replaces or leaves has the last value that was said. -/
theorem doc_field {α : Type} (f : DocProps → α) (said : DocCall → Option α)
    (h : ∀ (p : DocProps) (c : DocCall), f (p.exec c) = (said c).getD (f p)) (calls : List DocCall) (p : DocProps) :
    f (calls.foldl DocProps.exec p) = lastSaid said (f p) calls := by
  induction calls generalizing p with
  | nil => rfl
  | cons c r ih => rw [lastSaid_cons, ← h p c]; exact ih _

theorem core_meant (now : Str) (calls : List DocCall) :
    ({ title := (DocProps.run now calls).title, subject := (DocProps.run now calls).subject
       creator := (DocProps.run now calls).author, keywords := (DocProps.run now calls).keywords
       description := (DocProps.run now calls).comment, lastModifiedBy := (DocProps.run now calls).author
       created := (DocProps.run now calls).creation, modified := (DocProps.run now calls).creation
       category := (DocProps.run now calls).category
       contentStatus := (DocProps.run now calls).status } : CoreSeen) = coreMeant now calls := by
  unfold coreMeant DocProps.run
  congr 1 <;> exact doc_field _ _ (fun p c => by cases c <;> rfl) _ _

/-- The kids of the core properties. -/
def coreKids (p : DocProps) : List Tree :=
    (unlessEmpty "dc:title".toList p.title ++ (unlessEmpty "dc:subject".toList p.subject ++
     (always "dc:creator".toList p.author ++ (unlessEmpty "cp:keywords".toList p.keywords ++
      (unlessEmpty "dc:description".toList p.comment ++ (always "cp:lastModifiedBy".toList p.author ++
       (w3cdtf "dcterms:created".toList p.creation ++ (w3cdtf "dcterms:modified".toList p.creation ++
        (unlessEmpty "cp:category".toList p.category ++ unlessEmpty "cp:contentStatus".toList p.status)))))))))

theorem coreTree_ok {p : DocProps} (h : PropsSafe p) : treeOk (coreTree p) = true := by
  refine treeOk_node (by decide +kernel) ⟨by decide +kernel, by decide +kernel⟩ ?_
  refine ok_append (unlessEmpty_ok (by decide +kernel) h.title) (ok_append (unlessEmpty_ok (by decide +kernel) h.subject)
    (ok_append (always_ok (by decide +kernel) h.author) (ok_append (unlessEmpty_ok (by decide +kernel) h.keywords)
      (ok_append (unlessEmpty_ok (by decide +kernel) h.comment) (ok_append (always_ok (by decide +kernel) h.author)
        (ok_append (w3cdtf_ok (by decide +kernel) h.creation) (ok_append (w3cdtf_ok (by decide +kernel) h.creation)
          (ok_append (unlessEmpty_ok (by decide +kernel) h.category)
            (unlessEmpty_ok (by decide +kernel) h.status)))))))))

/-- Skip one text. -/
macro "skip_text" : tactic => `(tactic| first
  | rw [textAt_skip (.unlessEmpty _ _) (by decide)]
  | rw [textAt_skip (.always _ _) (by decide)]
  | rw [textAt_skip (.w3cdtf _ _) (by decide)])

/-- No other such element follows. -/
macro "no_more" : tactic => `(tactic| (
  repeat first
    | rw [isText_skip (.unlessEmpty _ _) (by decide)]
    | rw [isText_skip (.always _ _) (by decide)]
    | rw [isText_skip (.w3cdtf _ _) (by decide)]
  first
    | rfl
    | (rw [← List.append_nil (unlessEmpty _ _), isText_skip (.unlessEmpty _ _) (by decide)]; rfl)
    | (rw [← List.append_nil (always _ _), isText_skip (.always _ _) (by decide)]; rfl)))

theorem readCore_tree {p : DocProps} (h : PropsSafe p) : readCore (coreTree p).toNode = some
    { title := p.title, subject := p.subject, creator := p.author, keywords := p.keywords, description := p.comment
      lastModifiedBy := p.author, created := p.creation, modified := p.creation, category := p.category
      contentStatus := p.status } := by
  have e1 : textAt "dc:title".toList (toNodes (coreKids p)) = some p.title := by
    unfold coreKids
    exact isText_child (.unlessEmpty _ _) h.title _ (by no_more)
  have e2 : textAt "dc:subject".toList (toNodes (coreKids p)) = some p.subject := by
    unfold coreKids
    skip_text
    exact isText_child (.unlessEmpty _ _) h.subject _ (by no_more)
  have e3 : textAt "dc:creator".toList (toNodes (coreKids p)) = some p.author := by
    unfold coreKids
    skip_text; skip_text
    exact isText_child (.always _ _) h.author _ (by no_more)
  have e4 : textAt "cp:keywords".toList (toNodes (coreKids p)) = some p.keywords := by
    unfold coreKids
    skip_text; skip_text; skip_text
    exact isText_child (.unlessEmpty _ _) h.keywords _ (by no_more)
  have e5 : textAt "dc:description".toList (toNodes (coreKids p)) = some p.comment := by
    unfold coreKids
    skip_text; skip_text; skip_text; skip_text
    exact isText_child (.unlessEmpty _ _) h.comment _ (by no_more)
  have e6 : textAt "cp:lastModifiedBy".toList (toNodes (coreKids p)) = some p.author := by
    unfold coreKids
    skip_text; skip_text; skip_text; skip_text; skip_text
    exact isText_child (.always _ _) h.author _ (by no_more)
  have e7 : textAt "dcterms:created".toList (toNodes (coreKids p)) = some p.creation := by
    unfold coreKids
    skip_text; skip_text; skip_text; skip_text; skip_text; skip_text
    exact isText_child (.w3cdtf _ _) h.creation _ (by no_more)
  have e8 : textAt "dcterms:modified".toList (toNodes (coreKids p)) = some p.creation := by
    unfold coreKids
    skip_text; skip_text; skip_text; skip_text; skip_text; skip_text; skip_text
    exact isText_child (.w3cdtf _ _) h.creation _ (by no_more)
  have e9 : textAt "cp:category".toList (toNodes (coreKids p)) = some p.category := by
    unfold coreKids
    skip_text; skip_text; skip_text; skip_text; skip_text; skip_text; skip_text; skip_text
    exact isText_child (.unlessEmpty _ _) h.category _ (by no_more)
  have e10 : textAt "cp:contentStatus".toList (toNodes (coreKids p)) = some p.status := by
    unfold coreKids
    skip_text; skip_text; skip_text; skip_text; skip_text; skip_text; skip_text; skip_text; skip_text
    rw [← List.append_nil (unlessEmpty _ _)]
    exact isText_child (.unlessEmpty _ _) h.status _ rfl
  show readCore (.elem "cp:coreProperties".toList _ (toNodes (coreKids p))) = _
  unfold readCore
  dsimp only
  rw [if_neg (by simp), e1, e2, e3, e4, e5, e6, e7, e8, e9, e10]
  rfl

/-- C68. The core properties part is a document in which each property has the value that was set last. -/
theorem C68_core_properties (now : Str) (hn : textSafe now = true) (calls : List DocCall)
    (hc : calls.all docSafe = true) :
    ∃ node, parseDoc (writePart (coreTree (DocProps.run now calls))) = some node ∧
      readCore node = some (coreMeant now calls) := by
  have h := propsSafe_run hn hc
  refine ⟨_, C07_part_roundtrip _ (coreTree_ok h), ?_⟩
  rw [readCore_tree h, core_meant]

/-! ### The custom properties -/

theorem showI32_safe (n : Int) : attrSafe (showI32 n) = true := by
  unfold showI32
  split
  · rw [attrSafe_cons, showNat_attrSafe]; decide
  · exact showNat_attrSafe _

theorem readInt_show (n : Int) : readInt (showI32 n) = some n := by
  unfold showI32
  split
  · rename_i h
    show (readNat (showNat n.natAbs)).map (fun n : Nat => -(Int.ofNat n)) = some n
    rw [readNat_showNat, Option.map_some]
    congr 1
    show -(n.natAbs : Int) = n
    omega
  · rename_i h
    have hd : ∀ r, showNat n.natAbs ≠ '-' :: r := by
      intro r e
      have := showNat_isDigit (n := n.natAbs) (c := '-') (by rw [e]; exact List.mem_cons_self)
      revert this; decide
    unfold readInt
    split
    · rename_i r e; exact absurd e (hd r)
    · rw [readNat_showNat, Option.map_some]
      congr 1
      show (n.natAbs : Int) = n
      omega

theorem customVal_safe {v : CustomVal} (h : valSafe v = true) : treeOk (customValTree v) = true := by
  cases v with
  | text s => exact textSafe_data (by decide +kernel) attrsGood_nil h
  | real s => exact textSafe_data (by decide +kernel) attrsGood_nil h
  | datetime s => exact textSafe_data (by decide +kernel) attrsGood_nil h
  | int n => exact textSafe_data (by decide +kernel) attrsGood_nil (textSafe_of_attrSafe (showI32_safe n))
  | bool b => cases b <;> decide +kernel

theorem readCustomVal_tree {v : CustomVal} (h : valSafe v = true) :
    readCustomVal (toNodes [customValTree v]) = some v := by
  have one : ∀ (t d : Str), textSafe d = true →
      textOnly (if d = [] then [] else [Node.text (excelControlEscape d)]) = some d := by
    intro t d hd
    rw [textOnly_data, escape_textSafe hd]
  cases v with
  | text s =>
    show readCustomVal [.elem "vt:lpwstr".toList [] _] = _
    unfold readCustomVal
    dsimp only
    rw [one "".toList s h]; rfl
  | real s =>
    show readCustomVal [.elem "vt:r8".toList [] _] = _
    unfold readCustomVal
    dsimp only
    rw [one "".toList s h]; rfl
  | datetime s =>
    show readCustomVal [.elem "vt:filetime".toList [] _] = _
    unfold readCustomVal
    dsimp only
    rw [one "".toList s h]; rfl
  | int n =>
    show readCustomVal [.elem "vt:i4".toList [] _] = _
    unfold readCustomVal
    dsimp only
    rw [one "".toList _ (textSafe_of_attrSafe (showI32_safe n))]
    dsimp only
    rw [if_neg (by decide), if_pos rfl, readInt_show]; rfl
  | bool b => cases b <;> decide +kernel

theorem customTree1_ok {i : Nat} {q : Str × CustomVal} (h : attrSafe q.1 = true ∧ valSafe q.2 = true) :
    treeOk (customTree1 i q) = true := by
  refine treeOk_node (by decide +kernel) ?_ (ok_single (customVal_safe h.2))
  refine attrsGood_cons (attrOk_of (by decide +kernel) (by decide +kernel)) ?_ ?_
  · refine attrsGood_cons (attrOk_of (by decide +kernel) (showNat_attrSafe _)) ?_ ?_
    · exact attrsGood_one (by decide +kernel) h.1
    · show _ ∉ ["name".toList]; decide
  · show _ ∉ ["pid".toList, "name".toList]; decide

theorem readCustom1_tree {i : Nat} {q : Str × CustomVal} (h : valSafe q.2 = true) :
    readCustom1 (treeParts (customTree1 i q)) = some (i, q.1, q.2) := by
  unfold readCustom1 customTree1
  simp only [treeParts]
  rw [readCustomVal_tree h, attrNat, look_ne (by decide), look_eq, Option.bind_some, readNat_showNat,
    look_ne (by decide), look_ne (by decide), look_eq]

theorem custom_said (now : Str) (calls : List DocCall) :
    (DocProps.run now calls).custom = calls.filterMap customCall := by
  have : ∀ p : DocProps, (calls.foldl DocProps.exec p).custom =
      p.custom ++ calls.filterMap customCall := by
    induction calls with
    | nil => intro p; simp
    | cons c r ih =>
      intro p
      rw [List.foldl_cons, ih, List.filterMap_cons]
      cases c with
      | custom n v =>
        show (p.custom ++ [(n, v)]) ++ _ = _
        rw [List.append_assoc]; rfl
      | _ => rfl
  exact this _

/-- C68. The custom properties part is there if a custom property was set, and then it is a document with one
property per call, in the order of the calls, with the name and value given, numbered from 2. -/
theorem C68_custom_properties (now : Str) (hn : textSafe now = true) (calls : List DocCall)
    (hc : calls.all docSafe = true) :
    match customPart (DocProps.run now calls) with
    | none => customMeant calls = []
    | some text => ∃ node, parseDoc text = some node ∧ readCustomProps node = some (customMeant calls) := by
  have h := propsSafe_run hn hc
  have hm := custom_said now calls
  unfold customMeant
  rw [← hm]
  generalize DocProps.run now calls = p at *
  unfold customPart
  by_cases e : p.custom = []
  · rw [if_pos e]
    show List.mapIdx _ p.custom = []
    rw [e]; rfl
  · rw [if_neg e]
    dsimp only
    have hk : ∀ k ∈ p.custom.mapIdx (fun i q => customTree1 (i + 2) q), ∃ i q, q ∈ p.custom ∧ k = customTree1 i q := by
      intro k hk
      obtain ⟨i, hi, e⟩ := List.mem_mapIdx.mp hk
      exact ⟨i + 2, _, List.getElem_mem hi, e.symm⟩
    refine ⟨_, C07_part_roundtrip _ ?_, ?_⟩
    · refine treeOk_node (by decide +kernel) ⟨by decide +kernel, by decide +kernel⟩ ?_
      intro k hm
      obtain ⟨i, q, hq, rfl⟩ := hk k hm
      exact customTree1_ok (h.custom q hq)
    · show readCustomProps (.elem "Properties".toList _ (toNodes (p.custom.mapIdx fun i q => customTree1 (i + 2) q))) = _
      unfold readCustomProps
      dsimp only
      rw [if_neg (by simp), elems_all]
      · have hsafe := h.custom
        generalize p.custom = l at hsafe
        clear hm e hk
        suffices ∀ k, List.mapM readCustom1 (List.map treeParts (l.mapIdx fun i q => customTree1 (i + k) q)) =
            some (l.mapIdx fun i q => (i + k, q.1, q.2)) from this 2
        induction l with
        | nil => intro k; rfl
        | cons q r ih =>
          intro k
          rw [List.mapIdx_cons, List.mapIdx_cons, List.map_cons, List.mapM_cons,
            readCustom1_tree (hsafe q List.mem_cons_self).2]
          have := ih (fun q hq => hsafe q (List.mem_cons_of_mem _ hq)) (k + 1)
          have e1 : (fun i q => customTree1 (i + 1 + k) q) = fun i q => customTree1 (i + (k + 1)) q := by
            funext i q; rw [show i + 1 + k = i + (k + 1) by omega]
          have e2 : (fun (i : Nat) (q : Str × CustomVal) => (i + 1 + k, q.1, q.2)) = fun i q => (i + (k + 1), q.1, q.2) := by
            funext i q; rw [show i + 1 + k = i + (k + 1) by omega]
          rw [e1, e2, this]
          rfl
      · intro x hx
        obtain ⟨i, q, _, rfl⟩ := hk x hx
        rfl

/-! ### The extended properties -/

theorem vector_read {t item base : Str} {items : List Tree} (h : ∀ x ∈ items, treeTag x = item) (rest : List Tree) {n : Nat}
    (hn : n = items.length) :
    readVector t item (toNodes (Tree.node t [] [.node "vt:vector".toList
      [("size".toList, showNat n), ("baseType".toList, base)] items] :: rest)) = some (items.map treeParts) := by
  unfold readVector
  rw [child_head (t := t) _ _ rfl]
  dsimp only
  have e : child "vt:vector".toList (treeParts (Tree.node t [] [.node "vt:vector".toList
      [("size".toList, showNat n), ("baseType".toList, base)] items])).2 =
      some (treeParts (.node "vt:vector".toList [("size".toList, showNat n), ("baseType".toList, base)] items)) :=
    child_head (t := "vt:vector".toList) _ _ rfl
  rw [e]
  dsimp only
  have e1 : elems item (treeParts (.node "vt:vector".toList
      [("size".toList, showNat n), ("baseType".toList, base)] items)).2 = items.map treeParts := elems_all h
  rw [e1, if_pos]
  show readNat (showNat n) = _
  rw [readNat_showNat, List.length_map, hn]

theorem titles_read (ts : List Str) (h : ∀ t ∈ ts, textSafe t = true) :
    ((ts.map fun t => Tree.data "vt:lpstr".toList t []).map treeParts).mapM (fun e => textOnly e.2) = some ts := by
  rw [List.map_map, mapM_map]
  have := mapM_some_of_forall (f := fun t => textOnly (treeParts (Tree.data "vt:lpstr".toList t [])).2)
    (g := id) (l := ts) fun x hx => data_reads (h x hx)
  rw [List.map_id] at this
  exact this

theorem pairs_read (hs : List (Str × Nat)) (h : ∀ p ∈ hs, textSafe p.1 = true) :
    readPairs ((hs.flatMap fun h => [Tree.node "vt:variant".toList [] [.data "vt:lpstr".toList h.1 []],
      .node "vt:variant".toList [] [.data "vt:i4".toList (showNat h.2) []]]).map treeParts) = some hs := by
  induction hs with
  | nil => rfl
  | cons p r ih =>
    rw [List.flatMap_cons, List.cons_append, List.cons_append, List.nil_append, List.map_cons, List.map_cons]
    unfold readPairs
    have e1 : textAt "vt:lpstr".toList (treeParts (Tree.node "vt:variant".toList [] [.data "vt:lpstr".toList p.1 []])).2 =
        some p.1 := isText_child (.always "vt:lpstr".toList p.1) (h p (List.mem_cons_self ..)) [] rfl
    have e2 : textAt "vt:i4".toList (treeParts (Tree.node "vt:variant".toList [] [.data "vt:i4".toList (showNat p.2) []])).2 =
        some (showNat p.2) :=
      isText_child (.always "vt:i4".toList (showNat p.2)) (textSafe_of_attrSafe (showNat_attrSafe _)) [] rfl
    rw [e1, e2, Option.bind_some, readNat_showNat, ih fun q hq => h q (List.mem_cons_of_mem _ hq)]

theorem pairs_length (hs : List (Str × Nat)) : hs.length * 2 =
    (hs.flatMap fun h => [Tree.node "vt:variant".toList [] [.data "vt:lpstr".toList h.1 []],
      .node "vt:variant".toList [] [.data "vt:i4".toList (showNat h.2) []]]).length := by
  induction hs with
  | nil => rfl
  | cons p r ih =>
    rw [List.flatMap_cons, List.length_append, ← ih, List.length_cons, List.length_cons, List.length_cons,
      List.length_nil]
    omega

theorem pairs_tag (hs : List (Str × Nat)) : ∀ x ∈ (hs.flatMap fun h =>
    [Tree.node "vt:variant".toList [] [.data "vt:lpstr".toList h.1 []],
      .node "vt:variant".toList [] [.data "vt:i4".toList (showNat h.2) []]]), treeTag x = "vt:variant".toList := by
  intro x hx
  obtain ⟨p, _, hx⟩ := List.mem_flatMap.mp hx
  rcases List.mem_cons.mp hx with rfl | hx
  · rfl
  · rcases List.mem_cons.mp hx with rfl | hx
    · rfl
    · cases hx

/-- The elements of `app.xml`. -/
def appKids (p : DocProps) (readOnly : Bool) (headings : List (Str × Nat)) (titles : List Str) : List Tree :=
    (always "Application".toList "Microsoft Excel".toList ++
     (always "DocSecurity".toList (if readOnly then "2".toList else "0".toList) ++
      (always "ScaleCrop".toList "false".toList ++ ([headingPairsTree headings, titlesTree titles] ++
       (unlessEmpty "Manager".toList p.manager ++ (always "Company".toList p.company ++
        (always "LinksUpToDate".toList "false".toList ++ (always "SharedDoc".toList "false".toList ++
         (unlessEmpty "HyperlinkBase".toList p.hyperlinkBase ++ (always "HyperlinksChanged".toList "false".toList ++
          always "AppVersion".toList "12.0000".toList))))))))))

theorem readVector_skip {t d u item : Str} {ts : List Tree} (h : IsText t d ts) (hu : u ≠ t) (rest : List Tree) :
    readVector u item (toNodes (ts ++ rest)) = readVector u item (toNodes rest) := by
  unfold readVector
  rw [isText_skip h hu]

theorem textAt_tree {u : Str} (x : Tree) (rest : List Tree) (h : treeTag x ≠ u) :
    textAt u (toNodes (x :: rest)) = textAt u (toNodes rest) := by
  unfold textAt
  rw [child_skip x rest h]

theorem readApp_tree {p : DocProps} (h : PropsSafe p) (ro : Bool) (hs : List (Str × Nat)) (ts : List Str)
    (hh : ∀ q ∈ hs, textSafe q.1 = true) (ht : ∀ t ∈ ts, textSafe t = true) :
    readApp (appTree p ro hs ts).toNode = some
      { security := if ro then 2 else 0, headings := hs, titles := ts, manager := p.manager, company := p.company
        hyperlinkBase := p.hyperlinkBase } := by
  have e1 : textAt "DocSecurity".toList (toNodes (appKids p ro hs ts)) = some (if ro then "2".toList else "0".toList) := by
    unfold appKids
    skip_text
    refine isText_child (.always _ _) (by cases ro <;> decide) _ ?_
    rw [isText_skip (.always _ _) (by decide)]
    simp only [List.cons_append, List.nil_append]
    rw [child_skip (headingPairsTree hs) _ (by decide : "HeadingPairs".toList ≠ _),
      child_skip (titlesTree ts) _ (by decide : "TitlesOfParts".toList ≠ _)]
    no_more
  have e2 : readVector "HeadingPairs".toList "vt:variant".toList (toNodes (appKids p ro hs ts)) =
      some ((hs.flatMap fun h => [Tree.node "vt:variant".toList [] [.data "vt:lpstr".toList h.1 []],
      .node "vt:variant".toList [] [.data "vt:i4".toList (showNat h.2) []]]).map treeParts) := by
    unfold appKids
    rw [readVector_skip (.always _ _) (by decide), readVector_skip (.always _ _) (by decide),
      readVector_skip (.always _ _) (by decide)]
    simp only [List.cons_append, List.nil_append]
    exact vector_read (pairs_tag hs) _ (pairs_length hs)
  have e3 : readVector "TitlesOfParts".toList "vt:lpstr".toList (toNodes (appKids p ro hs ts)) =
      some ((ts.map fun t => Tree.data "vt:lpstr".toList t []).map treeParts) := by
    unfold appKids
    rw [readVector_skip (.always _ _) (by decide), readVector_skip (.always _ _) (by decide),
      readVector_skip (.always _ _) (by decide)]
    simp only [List.cons_append, List.nil_append]
    have : ∀ rest, readVector "TitlesOfParts".toList "vt:lpstr".toList (toNodes (headingPairsTree hs :: rest)) =
        readVector "TitlesOfParts".toList "vt:lpstr".toList (toNodes rest) := by
      intro rest
      unfold readVector
      rw [child_skip (headingPairsTree hs) _ (by decide : "HeadingPairs".toList ≠ _)]
    rw [this]
    refine vector_read ?_ _ (by rw [List.length_map])
    intro x hx
    obtain ⟨t, _, rfl⟩ := List.mem_map.mp hx
    rfl
  have skip2 : ∀ {u : Str} (rest : List Tree), "HeadingPairs".toList ≠ u → "TitlesOfParts".toList ≠ u →
      textAt u (toNodes ([headingPairsTree hs, titlesTree ts] ++ rest)) = textAt u (toNodes rest) := by
    intro u rest h1 h2
    simp only [List.cons_append, List.nil_append]
    rw [textAt_tree (headingPairsTree hs) _ h1, textAt_tree (titlesTree ts) _ h2]
  have e4 : textAt "Manager".toList (toNodes (appKids p ro hs ts)) = some p.manager := by
    unfold appKids
    skip_text; skip_text; skip_text
    rw [skip2 _ (by decide) (by decide)]
    exact isText_child (.unlessEmpty _ _) h.manager _ (by no_more)
  have e5 : textAt "Company".toList (toNodes (appKids p ro hs ts)) = some p.company := by
    unfold appKids
    skip_text; skip_text; skip_text
    rw [skip2 _ (by decide) (by decide)]
    skip_text
    exact isText_child (.always _ _) h.company _ (by no_more)
  have e6 : textAt "HyperlinkBase".toList (toNodes (appKids p ro hs ts)) = some p.hyperlinkBase := by
    unfold appKids
    skip_text; skip_text; skip_text
    rw [skip2 _ (by decide) (by decide)]
    skip_text; skip_text; skip_text; skip_text
    exact isText_child (.unlessEmpty _ _) h.base _ (by no_more)
  show readApp (.elem "Properties".toList _ (toNodes (appKids p ro hs ts))) = _
  unfold readApp
  dsimp only
  have e7 : (some (if ro then "2".toList else "0".toList)).bind readNat = some (if ro then 2 else 0) := by
    cases ro <;> decide +kernel
  rw [if_neg (by simp), e1, e2, e3, e4, e5, e6, e7]
  simp only [Option.bind_eq_bind, Option.bind_some, pairs_read hs hh, titles_read ts ht]

theorem appTree_ok {p : DocProps} (h : PropsSafe p) (ro : Bool) (hs : List (Str × Nat)) (ts : List Str)
    (hh : ∀ q ∈ hs, textSafe q.1 = true) (ht : ∀ t ∈ ts, textSafe t = true) :
    treeOk (appTree p ro hs ts) = true := by
  have vec : ∀ {b : Str} (n : Nat), attrSafe b = true →
      attrsGood [("size".toList, showNat n), ("baseType".toList, b)] :=
    fun n hb => two_good (by decide) (by decide) (showNat_attrSafe n) hb (by decide)
  refine treeOk_node (by decide +kernel) ⟨by decide +kernel, by decide +kernel⟩ ?_
  refine ok_append (always_ok (by decide +kernel) (by decide)) (ok_append (always_ok (by decide +kernel) (by cases ro <;> decide))
    (ok_append (always_ok (by decide +kernel) (by decide)) (ok_append ?_ (ok_append (unlessEmpty_ok (by decide +kernel) h.manager)
    (ok_append (always_ok (by decide +kernel) h.company) (ok_append (always_ok (by decide +kernel) (by decide))
    (ok_append (always_ok (by decide +kernel) (by decide)) (ok_append (unlessEmpty_ok (by decide +kernel) h.base)
    (ok_append (always_ok (by decide +kernel) (by decide)) (always_ok (by decide +kernel) (by decide)))))))))))
  intro k hk
  rcases List.mem_cons.mp hk with rfl | hk
  · refine treeOk_node (by decide +kernel) attrsGood_nil (ok_single ?_)
    refine treeOk_node (by decide +kernel) (vec _ (by decide)) ?_
    intro x hx
    obtain ⟨q, hq, hx⟩ := List.mem_flatMap.mp hx
    rcases List.mem_cons.mp hx with rfl | hx
    · exact treeOk_node (by decide +kernel) attrsGood_nil (ok_single (textSafe_data (by decide +kernel) attrsGood_nil (hh q hq)))
    · rcases List.mem_cons.mp hx with rfl | hx
      · exact treeOk_node (by decide +kernel) attrsGood_nil (ok_single (textSafe_data (by decide +kernel) attrsGood_nil
          (textSafe_of_attrSafe (showNat_attrSafe _))))
      · cases hx
  · rcases List.mem_cons.mp hk with rfl | hk
    · refine treeOk_node (by decide +kernel) attrsGood_nil (ok_single ?_)
      refine treeOk_node (by decide +kernel) (vec _ (by decide)) ?_
      intro x hx
      obtain ⟨t, hq, rfl⟩ := List.mem_map.mp hx
      exact textSafe_data (by decide +kernel) attrsGood_nil (ht t hq)
    · cases hk

/-! ### The names in the list of parts -/

theorem zip2_right {α β : Type} {R : α → β → Prop} {as : List α} {bs : List β} (h : Zip2 R as bs) {b : β}
    (hb : b ∈ bs) : ∃ a ∈ as, R a b := by
  induction h with
  | nil => cases hb
  | cons h _ ih =>
    rcases List.mem_cons.mp hb with rfl | hb
    · exact ⟨_, List.mem_cons_self, h⟩
    · obtain ⟨a, ha, hr⟩ := ih hb
      exact ⟨a, List.mem_cons_of_mem _ ha, hr⟩

theorem mem_collectAll {U : Unicode} {l : List SheetNames} {c : List DefName} (h : collectAll U l = some c) {d : DefName}
    (hd : d ∈ c) : ∃ s ∈ l, ∃ q e, quoteSheetName U s.name = some q ∧ e ∈ [s.autofilter, s.printArea, s.titles] ∧
      e.inUse = true ∧ d = e.initialize U q := by
  induction l generalizing c with
  | nil => cases h; cases hd
  | cons s ss ih =>
    unfold collectAll at h
    cases h1 : s.collect U with
    | none => rw [h1] at h; cases h
    | some x =>
      cases h2 : collectAll U ss with
      | none => rw [h1, h2] at h; cases h
      | some y =>
        rw [h1, h2] at h
        have : c = x ++ y := by
          injection h with h
          exact h.symm
        subst this
        rcases List.mem_append.mp hd with hd | hd
        · unfold SheetNames.collect at h1
          cases hq : quoteSheetName U s.name with
          | none => rw [hq] at h1; cases h1
          | some q =>
            rw [hq, Option.map_some, Option.some.injEq] at h1
            subst h1
            obtain ⟨e, he, rfl⟩ := List.mem_map.mp hd
            obtain ⟨hm, hu⟩ := List.mem_filter.mp he
            exact ⟨s, List.mem_cons_self, q, e, hq, hm, hu, rfl⟩
        · obtain ⟨t, ht, r⟩ := ih h2 hd
          exact ⟨t, List.mem_cons_of_mem _ ht, r⟩

/-- The entry of a name in the list of parts. -/
def DefName.title (d : DefName) : Option Str := if d.appName = [] then none else some d.appName

theorem appNames_titles (l : List DefName) : appNames l = (l.map DefName.title).filterMap id := by
  unfold appNames
  induction l with
  | nil => rfl
  | cons d r ih =>
    rw [List.map_cons, List.map_cons, List.filter_cons, List.filterMap_cons, ih]
    unfold DefName.title
    cases d.appName with
    | nil => rfl
    | cons c s => rfl

theorem initialize_quoted (U : Unicode) (d : DefName) (q : Str) : (d.initialize U q).quoted = q := by
  simp only [DefName.initialize, DefName.setSortName, DefName.setRange]
  split <;> rfl

theorem resolved_fields {sheets : List Str} {d d' : DefName} (h : Resolved sheets d d') :
    d'.kind = d.kind ∧ d'.quoted = d.quoted ∧ d'.name = d.name ∧ d'.range = d.range := by
  rcases h with ⟨_, rfl⟩ | ⟨_, _, _, _, _, rfl⟩ <;> exact ⟨rfl, rfl, rfl, rfl⟩

theorem appName_of {d d' : DefName} (h1 : d'.kind = d.kind) (h2 : d'.quoted = d.quoted) (h3 : d'.name = d.name)
    (h4 : d'.range = d.range) : d'.appName = d.appName := by
  unfold DefName.appName
  rw [h1, h2, h3, h4]

theorem defineName_nonempty {U : Unicode} {n f : Str} {d : DefName} (h : defineName U n f = .ok d) : d.name ≠ [] := by
  have key : ∀ d0 : DefName,
      (match d0.name with
        | [] => .panic
        | c :: _ =>
          if !U.alpha c && c ≠ '_' && c ≠ '\\' then .err
          else if d0.name.any (" ,/*[]:\"'".toList.contains ·) then .err
          else .ok (({ d0 with range := formulaToString f } : DefName).setSortName U)) =
        Res3.ok d → d.name ≠ [] := by
    intro d0 h
    cases hn : d0.name with
    | nil => simp [hn] at h
    | cons c t =>
      simp only [hn] at h
      split at h
      · simp at h
      · split at h
        · simp at h
        · simp only [Res3.ok.injEq] at h
          subst h
          intro e
          cases e
  exact key _ h

theorem from_bang {s : Str} (h : '!' ∈ s) : '!' :: (s.dropWhile (· ≠ '!')).tail = s.dropWhile (· ≠ '!') := by
  induction s with
  | nil => cases h
  | cons c r ih =>
    by_cases e : c = '!'
    · subst e; rfl
    · rw [List.dropWhile_cons_of_pos (by simpa using e)]
      exact ih (by rcases List.mem_cons.mp h with h | h; exact absurd h.symm e; exact h)

/-- A name from `define_name`. -/
theorem user_app {U : Unicode} {sheets : List Str} {call : Str × Str} {d d' : DefName}
    (h : defineName U call.1 call.2 = .ok d) (hr : Resolved sheets d d') :
    (attrSafe call.1 = true → attrSafe call.2 = true → textSafe d'.appName = true) ∧
    (GoodCall call.1 → ¬ "_xlnm.".toList.isPrefixOf (askedScope call.1).2 = true →
      NameTitle sheets d'.written d'.title) := by
  obtain ⟨f1, f2, f3, f4⟩ := resolved_fields hr
  obtain ⟨h1, _, h3⟩ := defineName_ok h
  have hne := defineName_nonempty h
  have ea := appName_of f1 f2 f3 f4
  refine ⟨?_, ?_⟩
  · intro hs _
    apply textSafe_of_attrSafe
    rw [ea]
    unfold DefName.appName
    by_cases hb : call.1.any (· == '!') = true
    · rw [if_pos hb] at h3
      obtain ⟨k1, k2, k3⟩ := h3
      rw [k1]
      dsimp only
      refine attrSafe_append (attrSafe_sub hs ?_) ?_
      · rw [k2]; intro c hc; exact (List.takeWhile_sublist _).subset hc
      · have ht : attrSafe d.name = true :=
          attrSafe_sub hs (by rw [k3]; intro c hc; exact (List.dropWhile_sublist _).subset (List.mem_of_mem_tail hc))
        rw [attrSafe_cons, ht]; decide
    · rw [if_neg hb] at h3
      obtain ⟨k1, k2, k3⟩ := h3
      rw [k1]
      dsimp only
      split
      · rw [k3]; exact hs
      · rfl
  · intro hg hx
    have hw := user_written hg h hr
    obtain ⟨w1, w2, w3, w4⟩ := hw
    unfold NameTitle
    rw [w1]
    rw [if_neg (by simp)]
    by_cases hb : call.1.any (· == '!') = true
    · rw [if_pos hb] at h3
      obtain ⟨k1, k2, k3⟩ := h3
      have hmem : '!' ∈ call.1 := by
        obtain ⟨x, hx, e⟩ := List.any_eq_true.mp hb
        have : x = '!' := by simpa using e
        rwa [this] at hx
      rcases hg with hg | ⟨sheet, n, hs, hne', hbang⟩
      · exact absurd hmem hg
      · have hsc : askedScope call.1 = (some sheet, n) := by simp [askedScope, hs]
        rw [hsc] at w4 w3 hx
        obtain ⟨i, hi, hsh⟩ := w4
        rw [hi]
        have ecall : d'.appName = call.1 := by
          rw [ea]
          unfold DefName.appName
          rw [k1]
          dsimp only
          rw [k2, k3]
          rw [from_bang hmem]
          exact List.takeWhile_append_dropWhile
        have hcne : call.1 ≠ [] := by intro e; rw [e] at hmem; cases hmem
        refine ⟨call.1, sheet, ?_, hsh, ?_⟩
        · unfold DefName.title; rw [ecall, if_neg hcne]
        · rw [hs, w3]
          unfold shortName
          rw [if_neg hx]
    · rw [if_neg hb] at h3
      obtain ⟨k1, k2, k3⟩ := h3
      have hl : d'.written.localSheetId = none := by simp [DefName.written, f1, k1]
      rw [hl]
      dsimp only
      have hn : d'.written.name = d.name := by simp [DefName.written, DefName.writtenName, f1, k1, f3]
      have ht : d'.written.text = d.range := f4
      rw [hn, ht]
      unfold DefName.title
      rw [ea]
      unfold DefName.appName
      rw [k1]
      dsimp only
      by_cases hr' : '!' ∈ d.range
      · have hc : d.range.contains '!' = true := by simpa using hr'
        rw [hc, if_pos hr', if_pos rfl, if_neg hne]
      · have hc : d.range.contains '!' = false := by simpa using hr'
        rw [hc, if_neg hr']
        rfl

/-- A built-in name. -/
theorem feature_app {U : Unicode} {sheets : List Str} {e d' : DefName} {n q : Str} {i : Nat}
    (hk : e.kind = .autofilter ∨ e.kind = .printArea ∨ e.kind = .printTitles) (hq : quoteSheetName U n = some q)
    (hr : Resolved sheets (e.initialize U q) d') :
    (attrSafe n = true → textSafe d'.appName = true) ∧
    (U.Sane → n.head? ≠ some '\'' → n ≠ [] → sheets[i]? = some n →
      (∀ j, lookupSheet sheets 0 n = some j → j = i) → NameTitle sheets d'.written d'.title) := by
  obtain ⟨f1, f2, f3, f4⟩ := resolved_fields hr
  rw [init_kind] at f1
  rw [initialize_quoted] at f2
  refine ⟨?_, ?_⟩
  · intro hs
    apply textSafe_of_attrSafe
    have hqs := quoted_safe hq hs
    unfold DefName.appName
    rw [f1, f2]
    rcases hk with hk | hk | hk <;> rw [hk] <;> dsimp only
    · rfl
    · exact attrSafe_append hqs (by decide)
    · exact attrSafe_append hqs (by decide)
  · intro hU hn hne hi hj
    have hd' := resolved_feature hn hne hq hj hr
    have hidx : d'.index = i := by rw [hd']
    have tail : ∀ (long short : Str), d'.writtenName = long → shortName long = short →
        d'.appName = q ++ '!' :: short → d'.kind ≠ .global → d'.kind ≠ .autofilter →
        NameTitle sheets d'.written d'.title := by
      intro long short h1 h2 h3 h4 h5
      unfold NameTitle
      have hh : d'.written.hidden = false := by simp [DefName.written, h5]
      have hl : d'.written.localSheetId = some i := by simp [DefName.written, h4, hidx]
      have hw : d'.written.name = long := h1
      rw [hh, if_neg (by simp), hl]
      refine ⟨d'.appName, n, ?_, hi, ?_⟩
      · unfold DefName.title
        rw [h3, if_neg (by simp)]
      · rw [h3, hw, h2]
        exact C03_quote_roundtrip U hU n q _ hn hq
    rcases hk with hk | hk | hk
    · unfold NameTitle
      rw [if_pos (by simp [DefName.written, f1, hk])]
      unfold DefName.title DefName.appName
      rw [f1, hk]
      rfl
    · refine tail "_xlnm.Print_Area".toList "Print_Area".toList ?_ (by decide) ?_ ?_ ?_
      · unfold DefName.writtenName; rw [f1, hk]
      · unfold DefName.appName; rw [f1, hk, f2]; rfl
      · rw [f1, hk]; decide
      · rw [f1, hk]; decide
    · refine tail "_xlnm.Print_Titles".toList "Print_Titles".toList ?_ (by decide) ?_ ?_ ?_
      · unfold DefName.writtenName; rw [f1, hk]
      · unfold DefName.appName; rw [f1, hk, f2]; rfl
      · rw [f1, hk]; decide
      · rw [f1, hk]; decide

theorem sheetAfter_kind3 (p : Str × List SheetNameOp) :
    ∀ d ∈ [(sheetAfter p).autofilter, (sheetAfter p).printArea, (sheetAfter p).titles],
      d.inUse = true → d.kind = .autofilter ∨ d.kind = .printArea ∨ d.kind = .printTitles := by
  intro d hd hu
  obtain ⟨h1, h2⟩ := sheetAfter_kinds p d hd hu
  cases hk : d.kind with
  | autofilter => exact .inl rfl
  | printArea => exact .inr (.inl rfl)
  | printTitles => exact .inr (.inr rfl)
  | global => exact absurd hk h1
  | «local» => exact absurd hk h2

/-- The names of a save. -/
theorem names_app {U : Unicode} {calls : List (Str × Str)} {defs L : List DefName}
    {sheets : List (Str × List SheetNameOp)} (hd : Zip2 (fun c d => defineName U c.1 c.2 = .ok d) calls defs)
    (h : saveNames U defs (sheets.map sheetAfter) = .ok L) :
    ((∀ c ∈ calls, attrSafe c.1 = true ∧ attrSafe c.2 = true) → (∀ p ∈ sheets, attrSafe p.1 = true) →
      ∀ d ∈ L, textSafe d.appName = true) ∧
    (U.Sane → (∀ c ∈ calls, GoodCall c.1 ∧ ¬ "_xlnm.".toList.isPrefixOf (askedScope c.1).2 = true) →
      (∀ p ∈ sheets, LegalName p.1) → (sheets.map Prod.fst).Nodup →
      ∀ d ∈ L, NameTitle (sheets.map Prod.fst) d.written d.title) := by
  obtain ⟨c, l, hc, hr, rfl⟩ := saveNames_ok h
  rw [sheetAfter_names] at hr
  obtain ⟨xs, ys, rfl, h1, h2⟩ := Zip2.append_inv (resolve_ok hr)
  have hmem : ∀ d, d ∈ (xs ++ ys).mergeSort DefName.keyLe → d ∈ xs ∨ d ∈ ys := fun d hd =>
    List.mem_append.mp ((List.mergeSort_perm _ _).mem_iff.mp hd)
  have hx : ∀ d ∈ xs, ∃ call ∈ calls, ∃ d0, defineName U call.1 call.2 = .ok d0 ∧ Resolved (sheets.map Prod.fst) d0 d := by
    intro d hd'
    obtain ⟨d0, hm, hr'⟩ := zip2_right h1 hd'
    obtain ⟨call, hm', he⟩ := zip2_right hd hm
    exact ⟨call, hm', d0, he, hr'⟩
  have hy : ∀ d ∈ ys, ∃ p ∈ sheets, ∃ (q : Str) (e : DefName), quoteSheetName U p.1 = some q ∧
      (e.kind = .autofilter ∨ e.kind = .printArea ∨ e.kind = .printTitles) ∧
      Resolved (sheets.map Prod.fst) (e.initialize U q) d := by
    intro d hd'
    obtain ⟨d0, hm, hr'⟩ := zip2_right h2 hd'
    obtain ⟨s, hs, q, e, hq, hm', hu, rfl⟩ := mem_collectAll hc hm
    obtain ⟨p, hp, rfl⟩ := List.mem_map.mp hs
    rw [sheetAfter_name] at hq
    exact ⟨p, hp, q, e, hq, sheetAfter_kind3 p e hm' hu, hr'⟩
  refine ⟨?_, ?_⟩
  · intro hs1 hs2 d hd'
    rcases hmem d hd' with hm | hm
    · obtain ⟨call, hm', d0, he, hr'⟩ := hx d hm
      exact (user_app he hr').1 (hs1 call hm').1 (hs1 call hm').2
    · obtain ⟨p, hp, q, e, hq, hk, hr'⟩ := hy d hm
      exact (feature_app (i := 0) hk hq hr').1 (hs2 p hp)
  · intro hU hg hl hnd d hd'
    rcases hmem d hd' with hm | hm
    · obtain ⟨call, hm', d0, he, hr'⟩ := hx d hm
      exact (user_app he hr').2 (hg call hm').1 (hg call hm').2
    · obtain ⟨p, hp, q, e, hq, hk, hr'⟩ := hy d hm
      obtain ⟨i, hi⟩ := List.getElem?_of_mem hp
      have hi' : (sheets.map Prod.fst)[i]? = some p.1 := by rw [List.getElem?_map, hi]; rfl
      refine (feature_app (i := i) hk hq hr').2 hU (hl p hp).first (hl p hp).notBlank hi' ?_
      intro j hj
      obtain ⟨k, e, hk'⟩ := lookupSheet_some hj
      obtain ⟨hlt, e1⟩ := List.getElem?_eq_some_iff.mp hk'
      obtain ⟨hlt', e2⟩ := List.getElem?_eq_some_iff.mp hi'
      have hpw := List.pairwise_iff_getElem.mp hnd
      rcases Nat.lt_trichotomy k i with hlt1 | rfl | hlt1
      · exact absurd (e1.trans e2.symm) (hpw k i hlt hlt' hlt1)
      · omega
      · exact absurd (e2.trans e1.symm) (hpw i k hlt' hlt hlt1)

/-! ### The part that is saved -/

theorem appSheets_meant {b : WBook} {l : List SheetAsk} (h : b.sheets = l.map sheetOf) (hn : l ≠ []) (chart : Bool) :
    appSheets chart b.activate.sheets = sheetTitles chart b.activate.activeTab l := by
  have hs := (activate_seen b l h hn).2
  generalize b.activate.activeTab = t at hs ⊢
  generalize b.activate.sheets = ws at hs ⊢
  unfold appSheets sheetTitles sheetsMeant
  suffices ∀ (ws : List WbSheet) (l : List SheetAsk) (k : Nat),
      (∀ i : Nat, (ws[i]?).map (fun s => (s.names, s.view.visible, s.chart)) =
        (l[i]?).map fun s => (sheetAfter (s.name, s.feats), if i + k = t then .default else leftVisible s.views, s.chart)) →
      (ws.filter fun s => s.chart = chart ∧ s.view.visible ≠ .veryHidden).map (·.names.name) =
      ((l.zip (l.mapIdx fun i s => (⟨s.name, i + k + 1, if i + k = t then .default else leftVisible s.views,
        "rId".toList ++ showNat (i + k + 1)⟩ : SheetSeen))).filter
          fun p => p.1.chart = chart ∧ p.2.state ≠ .veryHidden).map fun p => p.1.name from
    this ws l 0 (by simpa using hs)
  intro ws
  induction ws with
  | nil =>
    intro l k hs
    cases l with
    | nil => rfl
    | cons s r => have := hs 0; simp at this
  | cons w ws ih =>
    intro l k hs
    cases l with
    | nil => have := hs 0; simp at this
    | cons s r =>
      have h0 := hs 0
      simp only [List.getElem?_cons_zero, Option.map_some, Option.some.injEq, Prod.mk.injEq, Nat.zero_add] at h0
      obtain ⟨g1, g2, g3⟩ := h0
      have ih' := ih r (k + 1) (by
        intro i
        have := hs (i + 1)
        simp only [List.getElem?_cons_succ] at this
        rw [this]
        simp only [show i + 1 + k = i + (k + 1) by omega])
      rw [List.mapIdx_cons, List.zip_cons_cons, List.filter_cons, List.filter_cons]
      simp only [Nat.zero_add, g2, g3]
      have e : (List.mapIdx (fun i s => (⟨s.name, i + 1 + k + 1, if i + 1 + k = t then Visible.default else leftVisible s.views,
          "rId".toList ++ showNat (i + 1 + k + 1)⟩ : SheetSeen)) r) =
          List.mapIdx (fun i s => (⟨s.name, i + (k + 1) + 1, if i + (k + 1) = t then Visible.default else leftVisible s.views,
          "rId".toList ++ showNat (i + (k + 1) + 1)⟩ : SheetSeen)) r := by
        congr 1
        funext i s
        rw [show i + 1 + k = i + (k + 1) by omega]
      rw [e]
      have hname : w.names.name = s.name := by rw [g1, sheetAfter_name]
      generalize (if k = t then Visible.default else leftVisible s.views) = v
      by_cases hc : s.chart = chart ∧ v ≠ Visible.veryHidden
      · rw [if_pos (decide_eq_true hc), if_pos (decide_eq_true hc), List.map_cons, List.map_cons, hname, ih']
      · rw [if_neg (by simpa using hc), if_neg (by simpa using hc)]
        exact ih'

theorem defines_unique {U : Unicode} {cs : List (Str × Str)} {ds ds' : List DefName}
    (h : Zip2 (fun c d => defineName U c.1 c.2 = .ok d) cs ds)
    (h' : Zip2 (fun c d => defineName U c.1 c.2 = .ok d) cs ds') : ds = ds' := by
  induction h generalizing ds' with
  | nil => cases h'; rfl
  | cons h1 _ ih =>
    cases h' with
    | cons h2 h' =>
      rw [h1] at h2
      injection h2 with h2
      rw [h2, ih h']

/-- Everything about `app.xml`. -/
theorem app_saved {U : Unicode} {ops : List WOp} (ho : ops.all callText = true) {b' : WBook} {wtext atext : Str}
    (h : (WBook.run U {} ops).save U = (b', .ok wtext)) (hl : (BookAsk.of U ops).sheets.length < 65536)
    {now : Str} (hn : textSafe now = true) {calls : List DocCall} (hc : calls.all docSafe = true)
    (ha : (WBook.run U {} ops).saveApp U (DocProps.run now calls) = .ok atext) :
    ∃ L wnode node, parseDoc wtext = some wnode ∧ parseDoc atext = some node ∧
      readWorkbook wnode = some
        { sheets := sheetsMeant b'.activeTab (BookAsk.of U ops).sheets, activeTab := b'.activeTab
          names := L.map DefName.written, readOnly := (BookAsk.of U ops).readOnly
          codename := (BookAsk.of U ops).codename } ∧
      readApp node = some
        { security := if (BookAsk.of U ops).readOnly then 2 else 0
          headings := addHeading "Worksheets".toList (sheetTitles false b'.activeTab (BookAsk.of U ops).sheets).length ++
            (addHeading "Charts".toList (sheetTitles true b'.activeTab (BookAsk.of U ops).sheets).length ++
             addHeading "Named Ranges".toList ((appNames L).length % 65536))
          titles := sheetTitles false b'.activeTab (BookAsk.of U ops).sheets ++
            (sheetTitles true b'.activeTab (BookAsk.of U ops).sheets ++ appNames L)
          manager := (DocProps.run now calls).manager, company := (DocProps.run now calls).company
          hyperlinkBase := (DocProps.run now calls).hyperlinkBase } ∧
      duplicateLoop U ((BookAsk.of U ops).sheets.map (·.name)) [] = false ∧
      (∃ defs, Zip2 (fun c d => defineName U c.1 c.2 = .ok d) (BookAsk.of U ops).defines defs ∧
        saveNames U defs (((BookAsk.of U ops).sheets.map fun s => (s.name, s.feats)).map sheetAfter) = .ok L) ∧
      ∃ past, AskSafe past (BookAsk.of U ops) := by
  obtain ⟨L, wnode, hp, hnode, hr, hact, hd, ⟨defs, hz, hsn⟩, past, hs⟩ := workbook_saved ho h hl
  obtain ⟨past', hrel, _, hne⟩ := ask_filled U ops ho
  obtain ⟨L', hb, ht, _, hsn'⟩ := save_ok h
  have hb1 : b'.sheets.map (·.names) = ((BookAsk.of U ops).sheets.map fun s => (s.name, s.feats)).map sheetAfter := by
    rw [hb]; exact activate_names hrel.sheets hne
  have hu : b'.user = ((WBook.run U {} ops).filled U).user := by rw [hb]; rfl
  have hL : (WBook.run U {} ops).saveApp U (DocProps.run now calls) = .ok (writePart (appTree (DocProps.run now calls)
      b'.readOnly (appHeadings b'.sheets (appNames L'))
      (appSheets false b'.sheets ++ (appSheets true b'.sheets ++ appNames L')))) := by
    unfold WBook.saveApp
    have h1 : ((WBook.run U {} ops).prepare U).1 = b' := by rw [hb]; rfl
    have h2 : ((WBook.run U {} ops).prepare U).2 = .ok L' := by
      have : ((WBook.run U {} ops).prepare U).2 = if duplicateLoop U (b'.sheets.map (·.names.name)) [] then .err
        else saveNames U b'.user (b'.sheets.map (·.names)) := by rw [hb]; rfl
      rw [this, ‹duplicateLoop U (b'.sheets.map (·.names.name)) [] = false›, if_neg (by simp)]
      exact hsn'
    rw [h2]
    dsimp only
    rw [h1]
  rw [hL] at ha
  injection ha with ha
  have hLL : L' = L := by
    rw [hu, hb1, ← defines_unique hz hrel.user] at hsn'
    rw [hsn] at hsn'
    injection hsn' with e
    exact e.symm
  subst hLL
  have hps := propsSafe_run hn hc
  have hnm : ∀ t ∈ appNames L', textSafe t = true := by
    intro t ht
    obtain ⟨d, hd', rfl⟩ := List.mem_map.mp (List.mem_filter.mp ht).1
    refine (names_app hz hsn).1 hs.defines ?_ d hd'
    intro p hp
    obtain ⟨q, hq, rfl⟩ := List.mem_map.mp hp
    exact hs.names q hq
  have hsh : ∀ ch : Bool, appSheets ch b'.sheets = sheetTitles ch b'.activeTab (BookAsk.of U ops).sheets := by
    intro ch
    rw [hb]
    exact appSheets_meant hrel.sheets hne ch
  have hst : ∀ (ch : Bool), ∀ t ∈ sheetTitles ch b'.activeTab (BookAsk.of U ops).sheets, textSafe t = true := by
    intro ch t ht
    obtain ⟨p, hp, rfl⟩ := List.mem_map.mp ht
    exact textSafe_of_attrSafe (hs.names p.1 (List.of_mem_zip (List.mem_filter.mp hp).1).1)
  have hro : b'.readOnly = (BookAsk.of U ops).readOnly := by rw [hb]; exact hrel.ro
  have htit : ∀ t ∈ appSheets false b'.sheets ++ (appSheets true b'.sheets ++ appNames L'), textSafe t = true := by
    intro t ht
    rw [hsh, hsh] at ht
    rcases List.mem_append.mp ht with ht | ht
    · exact hst _ t ht
    · rcases List.mem_append.mp ht with ht | ht
      · exact hst _ t ht
      · exact hnm t ht
  have hhead : ∀ q ∈ appHeadings b'.sheets (appNames L'), textSafe q.1 = true := by
    have one : ∀ (k : Str) (n : Nat), textSafe k = true → ∀ q ∈ addHeading k n, textSafe q.1 = true := by
      intro k n hk q hq
      unfold addHeading at hq
      split at hq
      · rw [List.mem_singleton.mp hq]; exact hk
      · cases hq
    intro q hq
    rcases List.mem_append.mp hq with hq | hq
    · exact one _ _ (by decide) q hq
    · rcases List.mem_append.mp hq with hq | hq
      · exact one _ _ (by decide) q hq
      · exact one _ _ (by decide) q hq
  refine ⟨L', wnode, _, hp, by rw [← ha]; exact C07_part_roundtrip _ (appTree_ok hps _ _ _ hhead htit), hr, ?_, hd,
    ⟨defs, hz, hsn⟩, past, hs⟩
  rw [readApp_tree hps _ _ _ hhead htit, hro]
  unfold appHeadings
  rw [hsh, hsh]

theorem headings_meant {a b c : Nat} : addHeading "Worksheets".toList a ++ (addHeading "Charts".toList b ++
    addHeading "Named Ranges".toList c) = headingsMeant a b c := by
  unfold addHeading headingsMeant
  cases a <;> cases b <;> cases c <;> simp

/-- C68. The extended properties part of a saved workbook is a document that lists the worksheets, then the
chartsheets (except those that are very hidden, and with the active sheet, which is made visible), then the names,
with headings that give their numbers; it is marked as recommended to be read only if that was asked for; manager,
company and hyperlink base are those set last. -/
theorem C68_app_properties (U : Unicode) (ops : List WOp) (ho : ops.all callText = true) (b' : WBook)
    (wtext atext : Str) (h : (WBook.run U {} ops).save U = (b', .ok wtext))
    (hl : (BookAsk.of U ops).sheets.length < 65536) (now : Str) (hn : textSafe now = true) (calls : List DocCall)
    (hc : calls.all docSafe = true) (ha : (WBook.run U {} ops).saveApp U (DocProps.run now calls) = .ok atext) :
    ∃ node seen active names, parseDoc atext = some node ∧ readApp node = some seen ∧
      IsActiveTab (fun i => ((BookAsk.of U ops).sheets[i]?).any fun s => leftActive s.views)
        (BookAsk.of U ops).sheets.length active ∧
      seen.titles = sheetTitles false active (BookAsk.of U ops).sheets ++
        (sheetTitles true active (BookAsk.of U ops).sheets ++ names) ∧
      (names.length < 65536 → seen.headings = headingsMeant (sheetTitles false active (BookAsk.of U ops).sheets).length
        (sheetTitles true active (BookAsk.of U ops).sheets).length names.length) ∧
      seen.security = (if (BookAsk.of U ops).readOnly then 2 else 0) ∧
      seen.manager = lastSaid (fun | .manager s => some s | _ => none) [] calls ∧
      seen.company = lastSaid (fun | .company s => some s | _ => none) [] calls ∧
      seen.hyperlinkBase = lastSaid (fun | .hyperlinkBase s => some s | _ => none) [] calls := by
  obtain ⟨L, wnode, node, _, hp, _, hr, _⟩ := app_saved ho h hl hn hc ha
  obtain ⟨_, _, _, _, _, hact, _⟩ := workbook_saved ho h hl
  refine ⟨node, _, b'.activeTab, appNames L, hp, hr, hact, rfl, ?_, rfl, ?_, ?_, ?_⟩
  · intro hlt
    dsimp only
    rw [Nat.mod_eq_of_lt hlt, headings_meant]
  · exact doc_field (·.manager) _ (by intro p c; cases c <;> rfl) calls _
  · exact doc_field (·.company) _ (by intro p c; cases c <;> rfl) calls _
  · exact doc_field (·.hyperlinkBase) _ (by intro p c; cases c <;> rfl) calls _

theorem zip2_map_of {α β γ : Type} {R : β → γ → Prop} {f : α → β} {g : α → γ} {l : List α}
    (h : ∀ a ∈ l, R (f a) (g a)) : Zip2 R (l.map f) (l.map g) := by
  induction l with
  | nil => exact .nil
  | cons a r ih => exact .cons (h a List.mem_cons_self) (ih fun b hb => h b (List.mem_cons_of_mem _ hb))

/-- C68. The names in the list of parts, against the defined names of the workbook part of the same save: hidden
names are left out, a name of the workbook is listed if it refers to a sheet, and a name of a sheet is listed with
the name of its sheet, in the order of the workbook part. Missing: names with several exclamation marks (finding F11)
and built-in names that the user defines by hand. -/
theorem C68_name_titles_partial (U : Unicode) (hU : U.Sane) (ops : List WOp) (ho : ops.all callText = true)
    (b' : WBook) (wtext atext : Str) (h : (WBook.run U {} ops).save U = (b', .ok wtext))
    (hl : (BookAsk.of U ops).sheets.length < 65536)
    (hg : ∀ c ∈ (BookAsk.of U ops).defines, GoodCall c.1 ∧ ¬ "_xlnm.".toList.isPrefixOf (askedScope c.1).2 = true)
    (now : Str) (hn : textSafe now = true) (calls : List DocCall) (hc : calls.all docSafe = true)
    (ha : (WBook.run U {} ops).saveApp U (DocProps.run now calls) = .ok atext) :
    ∃ wnode anode wseen seen ts, parseDoc wtext = some wnode ∧ readWorkbook wnode = some wseen ∧
      parseDoc atext = some anode ∧ readApp anode = some seen ∧
      Zip2 (NameTitle (wseen.sheets.map (·.name))) wseen.names ts ∧
      seen.titles = sheetTitles false wseen.activeTab (BookAsk.of U ops).sheets ++
        (sheetTitles true wseen.activeTab (BookAsk.of U ops).sheets ++ ts.filterMap id) := by
  obtain ⟨L, wnode, node, hwp, hp, hwr, hr, hd, ⟨defs, hz, hsn⟩, past, hs⟩ := app_saved ho h hl hn hc ha
  have hnd := ((duplicateLoop_iff U _ []).mp hd).1
  have e : ((BookAsk.of U ops).sheets.map fun s => (s.name, s.feats)).map Prod.fst =
      (BookAsk.of U ops).sheets.map (·.name) := by
    rw [List.map_map]; rfl
  have e' : (sheetsMeant b'.activeTab (BookAsk.of U ops).sheets).map (·.name) = (BookAsk.of U ops).sheets.map (·.name) := by
    unfold sheetsMeant
    apply List.ext_getElem?
    intro i
    rw [List.getElem?_map, List.getElem?_mapIdx, List.getElem?_map, Option.map_map]
    rfl
  refine ⟨wnode, node, _, _, L.map DefName.title, hwp, hwr, hp, hr, ?_, ?_⟩
  · dsimp only
    rw [e', ← e]
    refine zip2_map_of ((names_app hz hsn).2 hU hg ?_ (by rw [e]; exact nodup_of_map hnd))
    intro p hm
    obtain ⟨s, hs', rfl⟩ := List.mem_map.mp hm
    rcases hs.legal s hs' with hl' | ⟨pre, k, hpre, e, hk⟩
    · exact hl'
    · show LegalName s.name
      rw [e]
      exact legal_generated pre hpre k (by omega)
  · rw [← appNames_titles]

/-! ### Examples -/

/-- The text of the extended properties saved for a history, read back. -/
def readAppPart (U : Unicode) (ops : List WOp) (p : DocProps) : Option AppSeen :=
  match (WBook.run U {} ops).saveApp U p with
  | .ok text => (parseDoc text).bind readApp
  | _ => none

/-- Calls with everything in them; texts that XML has to escape. -/
def demoDocCalls : List DocCall :=
  [.title "Sums & <signs>".toList, .author "A. B".toList, .author "C. \"D\"".toList, .manager "Boss".toList,
   .custom "Ok?".toList (.bool true), .custom "Count".toList (.int (-12)), .comment "two\nlines".toList,
   .custom "Name".toList (.text "x & y".toList), .hyperlinkBase "http://a/?b&c".toList, .manager "".toList]

example : demoDocCalls.all docSafe = true ∧ textSafe "2024-01-01T00:00:00Z".toList = true := by decide +kernel

example : coreMeant "2024-01-01T00:00:00Z".toList demoDocCalls =
    { title := "Sums & <signs>".toList, subject := [], creator := "C. \"D\"".toList, keywords := []
      description := "two\nlines".toList, lastModifiedBy := "C. \"D\"".toList
      created := "2024-01-01T00:00:00Z".toList, modified := "2024-01-01T00:00:00Z".toList, category := []
      contentStatus := [] } := by decide +kernel

example : customMeant demoDocCalls = [(2, "Ok?".toList, .bool true), (3, "Count".toList, .int (-12)),
    (4, "Name".toList, .text "x & y".toList)] := by decide +kernel

/-- The parts of a workbook with four sheets, one of them a chartsheet and one very hidden, and a name. -/
theorem demoApp_seen : readAppPart asciiUnicode
      [.add, .addChart, .push "A & <B>".toList, .add, .setName 0 "Say \"hi\"".toList, .view 0 (.setVeryHidden true),
       .view 3 (.setActive true), .defineName "Sheet2!Local".toList "=Sheet2!$A$1<5".toList, .readOnlyRecommended]
      (DocProps.run "2024-01-01T00:00:00Z".toList demoDocCalls) = some
    { security := 2
      headings := [("Worksheets".toList, 2), ("Charts".toList, 1), ("Named Ranges".toList, 1)]
      titles := ["A & <B>".toList, "Sheet2".toList, "Chart1".toList, "Sheet2!Local".toList]
      manager := [], company := [], hyperlinkBase := "http://a/?b&c".toList } := by
  decide +kernel

/-- A save of `demoBookOps` (four sheets, two names, a filter and repeated rows) meets the hypotheses. -/
example : ∃ b' wtext atext, (WBook.run asciiUnicode {} demoBookOps).save asciiUnicode = (b', .ok wtext) ∧
    (WBook.run asciiUnicode {} demoBookOps).saveApp asciiUnicode (DocProps.run "2024".toList demoDocCalls) = .ok atext ∧
    ∀ c ∈ (BookAsk.of asciiUnicode demoBookOps).defines, ¬ "_xlnm.".toList.isPrefixOf (askedScope c.1).2 = true := by
  obtain ⟨b', text, h, _⟩ := demoBook_saved
  have hp : ∃ L, ((WBook.run asciiUnicode {} demoBookOps).prepare asciiUnicode).2 = .ok L := by
    cases hq : ((WBook.run asciiUnicode {} demoBookOps).prepare asciiUnicode).2 with
    | ok L => exact ⟨L, rfl⟩
    | err =>
      have := congrArg Prod.snd h
      unfold WBook.save at this
      dsimp only at this
      rw [hq] at this
      cases this
    | panic =>
      have := congrArg Prod.snd h
      unfold WBook.save at this
      dsimp only at this
      rw [hq] at this
      cases this
  obtain ⟨L, hL⟩ := hp
  have ha : ∃ atext, (WBook.run asciiUnicode {} demoBookOps).saveApp asciiUnicode (DocProps.run "2024".toList demoDocCalls) =
      .ok atext := by
    unfold WBook.saveApp
    rw [hL]
    exact ⟨_, rfl⟩
  obtain ⟨atext, ha⟩ := ha
  refine ⟨b', text, atext, h, ha, ?_⟩
  · have e : (BookAsk.of asciiUnicode demoBookOps).defines = [("Rate".toList, "=Sheet2!$A$1<5".toList),
      ("Sheet2!Local".toList, "=Sheet2!$A$1&\"x\"".toList)] := by decide +kernel
    rw [e]
    decide +kernel

/-- Finding F140: `set_custom_property` accepts a name that is already used; the part then has two properties of
that name. -/
theorem C68_custom_name_twice :
    ∃ node, parseDoc (writePart (customTree (DocProps.run [] [.custom "Name".toList (.int 1),
        .custom "Name".toList (.int 2)]))) = some node ∧
      readCustomProps node = some [(2, "Name".toList, .int 1), (3, "Name".toList, .int 2)] :=
  ⟨_, C07_part_roundtrip _ (by decide +kernel), by decide +kernel⟩

/-- Finding F141: a carriage return in a text reads back as a line feed. -/
theorem C68_carriage_return :
    (parseDoc (writePart (coreTree (DocProps.run [] [.title "a\rb".toList])))).bind readCore ≠
      some (coreMeant [] [.title "a\rb".toList]) := by
  decide +kernel

end Verif
