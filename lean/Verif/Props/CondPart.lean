import Verif.Props.CondRule
import Verif.Props.Dxf
import Verif.Props.Notes
/-!
C38: the conditional formats of a worksheet, read back.
-/
namespace Verif
open Spec

/-! ### The map -/

theorem assoc_eq {β : Type} (k : Str) (v : β) (r : List (Str × β)) : ((k, v) :: r).lookup k = some v := by
  rw [List.lookup_cons, beq_self_eq_true]

theorem assoc_ne {β : Type} {j k : Str} (h : ¬ j = k) (v : β) (r : List (Str × β)) :
    ((k, v) :: r).lookup j = r.lookup j := by
  rw [List.lookup_cons, show (j == k) = false from by simpa using h]

theorem assoc_none {β : Type} {k : Str} {m : List (Str × β)} (h : k ∉ m.map Prod.fst) : m.lookup k = none := by
  induction m with
  | nil => rfl
  | cons p t ih =>
    obtain ⟨x, y⟩ := p
    rw [List.map_cons, List.mem_cons, not_or] at h
    rw [assoc_ne h.1, ih h.2]

theorem lookup_condInsert {k : Str} (v : CondStored) {m : List (Str × List CondStored)}
    (hm : (m.map Prod.fst).Pairwise strLt) (j : Str) :
    (condInsert k v m).lookup j = if j = k then some ((m.lookup k).getD [] ++ [v]) else m.lookup j := by
  induction m with
  | nil =>
    simp only [condInsert]
    by_cases h : j = k
    · subst h; rw [if_pos rfl, assoc_eq]; rfl
    · rw [if_neg h, assoc_ne h]
  | cons p t ih =>
    obtain ⟨k', vs⟩ := p
    simp only [List.map_cons, List.pairwise_cons] at hm
    unfold condInsert
    by_cases h : k = k'
    · subst h
      rw [if_pos rfl]
      by_cases hj : j = k
      · subst hj; rw [if_pos rfl, assoc_eq, assoc_eq]; rfl
      · rw [if_neg hj, assoc_ne hj, assoc_ne hj]
    · rw [if_neg h, assoc_ne (j := k) h vs t]
      by_cases hs : strLe k k' = true
      · rw [if_pos hs]
        have hn : t.lookup k = none := by
          refine assoc_none ?_
          intro hk
          have := (hm.1 k hk).1
          exact h (strLe_antisymm hs this)
        by_cases hj : j = k
        · subst hj; rw [if_pos rfl, assoc_eq, hn]; rfl
        · rw [if_neg hj, assoc_ne hj]
      · rw [if_neg hs]
        by_cases hj : j = k'
        · subst hj
          rw [assoc_eq, if_neg (fun e => h e.symm), assoc_eq]
        · rw [assoc_ne hj, assoc_ne hj, ih hm.2]

theorem keys_condInsert (k : Str) (v : CondStored) (m : List (Str × List CondStored)) (j : Str) :
    j ∈ (condInsert k v m).map Prod.fst ↔ j = k ∨ j ∈ m.map Prod.fst := by
  induction m with
  | nil => simp [condInsert]
  | cons p t ih =>
    obtain ⟨k', vs⟩ := p
    unfold condInsert
    split
    · rename_i h; subst h; simp
    · split
      · simp
      · simp only [List.map_cons, List.mem_cons, ih]; grind

theorem sorted_condInsert {k : Str} (v : CondStored) {m : List (Str × List CondStored)}
    (hm : (m.map Prod.fst).Pairwise strLt) : ((condInsert k v m).map Prod.fst).Pairwise strLt := by
  induction m with
  | nil => simp [condInsert]
  | cons p t ih =>
    obtain ⟨k', vs⟩ := p
    have hm0 := hm
    simp only [List.map_cons, List.pairwise_cons] at hm
    unfold condInsert
    split
    · exact hm0
    · rename_i hk
      split
      · rename_i h
        simp only [List.map_cons, List.pairwise_cons]
        refine ⟨?_, hm⟩
        intro a ha
        rcases List.mem_cons.mp ha with rfl | ha
        · exact ⟨h, hk⟩
        · refine ⟨strLe_trans h (hm.1 a ha).1, ?_⟩
          rintro rfl
          exact hk (strLe_antisymm h (hm.1 _ ha).1)
      · rename_i h
        simp only [List.map_cons, List.pairwise_cons]
        refine ⟨?_, ih hm.2⟩
        intro a ha
        rcases (keys_condInsert k v t a).mp ha with rfl | ha
        · exact ⟨(strLe_total _ _).resolve_left h, fun e => hk e.symm⟩
        · exact hm.1 a ha

/-! ### Acceptance -/

theorem iconSetName_eq (t : CondIcons) : t.name = iconSetName t := by cases t <;> rfl

theorem iconSetCount_eq (t : CondIcons) : t.count = iconSetCount t := by cases t <;> decide +kernel

theorem valid_iff (k : CondKind) : k.valid = true ↔ (match k with
    | .cell r => r ≠ none
    | .formula f => f ≠ []
    | .top (.top n) | .top (.bottom n) => 1 ≤ n ∧ n ≤ 1000
    | .top (.topPercent n) | .top (.bottomPercent n) => 1 ≤ n ∧ n ≤ 100
    | .text r => r ≠ none
    | .icons s => s.icons.length = iconSetCount s.type
    | _ => True) := by
  cases k with
  | cell r => cases r <;> simp [CondKind.valid]
  | text r => cases r <;> simp [CondKind.valid]
  | formula f => cases f <;> simp [CondKind.valid]
  | top r => cases r <;> simp [CondKind.valid]
  | icons s => simp [CondKind.valid, iconSetCount_eq]
  | _ => simp [CondKind.valid]

theorem legal_iff (d : Dims) (c : CondFmt) : CondLegal (d, c) ↔
    (¬ ((d.firstRow ≥ ROW_MAX || d.firstCol ≥ COL_MAX || d.lastRow ≥ ROW_MAX || d.lastCol ≥ COL_MAX) = true) ∧
    ¬ ((d.firstRow > d.lastRow || d.firstCol > d.lastCol) = true)) ∧ c.kind.valid = true := by
  unfold CondLegal
  rw [valid_iff]
  have e1 : ROW_MAX = 1048576 := rfl
  have e2 : COL_MAX = 16384 := rfl
  simp only [Bool.or_eq_true, decide_eq_true_eq, e1, e2]
  refine and_congr ?_ Iff.rfl
  omega

theorem add_legal {s : CondSheet} {d : Dims} {c : CondFmt} (h : CondLegal (d, c)) : s.add d c = (true, s.store d c) := by
  obtain ⟨⟨h1, h2⟩, h3⟩ := (legal_iff d c).mp h
  unfold CondSheet.add
  rw [if_neg h1, if_neg h2, if_neg (by rw [h3]; decide)]

theorem add_illegal {s : CondSheet} {d : Dims} {c : CondFmt} (h : ¬ CondLegal (d, c)) : s.add d c = (false, s) := by
  unfold CondSheet.add
  split
  · rfl
  · rename_i h1
    split
    · rfl
    · rename_i h2
      split
      · rfl
      · rename_i h3
        exact absurd ((legal_iff d c).mpr ⟨⟨h1, h2⟩, by simpa using h3⟩) h

/-- C38. A conditional format is accepted exactly when its range is a range of the grid and its rule is complete and
within its limits; a refused call changes nothing. -/
theorem C38_accepted (s : CondSheet) (d : Dims) (c : CondFmt) :
    ((s.add d c).1 = true ↔ CondLegal (d, c)) ∧ ((s.add d c).1 = false → (s.add d c).2 = s) := by
  by_cases h : CondLegal (d, c)
  · rw [add_legal h]; simp [h]
  · rw [add_illegal h]; simp [h]

/-! ### The state after a sequence of calls -/

theorem firsts_snoc (l : List Text) (x : Text) :
    firsts (l ++ [x]) = if x ∈ firsts l then firsts l else firsts l ++ [x] := by
  unfold firsts
  rw [List.foldl_append]; rfl

theorem mem_firsts (l : List Text) (x : Text) : x ∈ firsts l ↔ x ∈ l := by
  have key : ∀ (l acc : List Text), x ∈ l.foldl (fun acc x => if x ∈ acc then acc else acc ++ [x]) acc ↔ x ∈ acc ∨ x ∈ l := by
    intro l
    induction l with
    | nil => intro acc; simp
    | cons y l ih =>
      intro acc
      rw [List.foldl_cons, ih]
      split
      · rename_i h; simp only [List.mem_cons]; grind
      · simp only [List.mem_append, List.mem_cons, List.not_mem_nil, or_false]; grind
  unfold firsts
  rw [key]; simp

/-- The format of a stored rule has its number in the table. -/
def DxfResolved (t : DxfTable) (c : CondStored) : Prop :=
  match c.cond.format, c.dxf with
  | none, none => True
  | some f, some i => t.formats[i]? = some f
  | _, _ => False

theorem DxfResolved.mono {t u : DxfTable} {r : List Format} (h : u.formats = t.formats ++ r) {c : CondStored}
    (hc : DxfResolved t c) : DxfResolved u c := by
  unfold DxfResolved at *
  rcases hf : c.cond.format with _ | f <;> rcases hd : c.dxf with _ | i <;> rw [hf, hd] at hc <;> try exact hc
  dsimp only at hc ⊢
  rw [h]
  obtain ⟨hlt, _⟩ := List.getElem?_eq_some_iff.mp hc
  rw [List.getElem?_append_left hlt]; exact hc

/-- What a worksheet stores after accepted calls. -/
structure CondInv (s : CondSheet) (acc : List FmtCall) : Prop where
  order : s.order = firsts (acc.map callRange)
  sorted : (s.formats.map Prod.fst).Pairwise strLt
  look : ∀ k, ((s.formats.lookup k).getD []).map (·.cond) = (acc.filter fun p => callRange p = k).map (·.2)
  keys : ∀ k, (s.formats.lookup k).isSome = true ↔ k ∈ acc.map callRange
  dxf : s.dxf.Inv
  resolved : ∀ k, ∀ c ∈ (s.formats.lookup k).getD [], DxfResolved s.dxf c
  classic : s.hasClassic = acc.any fun p => !p.2.kind.onlyX14
  x14 : s.hasX14 = acc.any fun p => p.2.kind.hasX14

theorem condRange_eq (d : Dims) (c : CondFmt) : c.range d = callRange (d, c) := by
  unfold CondFmt.range callRange
  cases c.multi <;> rfl

theorem CondInv.store {s : CondSheet} {acc : List FmtCall} (h : CondInv s acc) (d : Dims) (c : CondFmt) :
    CondInv (s.store d c) (acc ++ [(d, c)]) := by
  have hd : ∃ (i : Option Nat) (t : DxfTable) (r : List Format), t.Inv ∧ t.formats = s.dxf.formats ++ r ∧ DxfResolved t ⟨c, i⟩ ∧
      s.store d c = {
        formats := condInsert (c.range d) ⟨c, i⟩ s.formats
        order := if (s.formats.lookup (c.range d)).isSome then s.order else s.order ++ [c.range d]
        dxf := t
        hasClassic := s.hasClassic || !c.kind.onlyX14
        hasX14 := s.hasX14 || c.kind.hasX14 } := by
    unfold CondSheet.store
    cases hf : c.format with
    | none => exact ⟨none, s.dxf, [], h.dxf, by simp, by simp [DxfResolved, hf], rfl⟩
    | some f =>
      obtain ⟨h1, ⟨r, h2⟩, h3, _⟩ := DxfTable.formatDxfIndex_spec h.dxf f
      exact ⟨some _, _, r, h1, h2, by simpa [DxfResolved, hf] using h3, rfl⟩
  obtain ⟨i, t, r, ht, hr, hres, e⟩ := hd
  rw [e]
  rw [condRange_eq]
  have hmem : (s.formats.lookup (callRange (d, c))).isSome = true ↔ callRange (d, c) ∈ s.order := by
    rw [h.keys, h.order, mem_firsts]
  refine ⟨?_, sorted_condInsert _ h.sorted, ?_, ?_, ht, ?_, ?_, ?_⟩
  · dsimp only
    rw [List.map_append, List.map_cons, List.map_nil, firsts_snoc, ← h.order]
    by_cases hm : callRange (d, c) ∈ s.order
    · rw [if_pos hm, if_pos (hmem.mpr hm)]
    · rw [if_neg hm, if_neg (fun hh => hm (hmem.mp hh))]
  · intro k
    dsimp only
    rw [lookup_condInsert _ h.sorted, List.filter_append, List.map_append]
    by_cases hk : k = callRange (d, c)
    · subst hk
      rw [if_pos rfl, Option.getD_some, List.map_append, h.look]
      simp
    · rw [if_neg hk, h.look, List.filter_cons_of_neg (by simpa using fun e => hk e.symm)]
      simp
  · intro k
    dsimp only
    rw [lookup_condInsert _ h.sorted, List.map_append, List.mem_append]
    by_cases hk : k = callRange (d, c)
    · subst hk; simp
    · rw [if_neg hk, h.keys]; simp [hk]
  · intro k x hx
    dsimp only at hx ⊢
    rw [lookup_condInsert _ h.sorted] at hx
    by_cases hk : k = callRange (d, c)
    · rw [if_pos hk, Option.getD_some] at hx
      rcases List.mem_append.mp hx with hx | hx
      · exact (h.resolved _ x hx).mono hr
      · rw [List.mem_singleton.mp hx]; exact hres
    · rw [if_neg hk] at hx
      exact (h.resolved k x hx).mono hr
  · dsimp only; rw [h.classic, List.any_append]; simp
  · dsimp only; rw [h.x14, List.any_append]; simp

theorem CondInv.empty : CondInv {} [] := by
  refine ⟨rfl, by simp, by intro k; rfl, by intro k; simp, DxfTable.inv_empty, ?_, rfl, rfl⟩
  intro k c hc; simp at hc

theorem CondInv.step {s : CondSheet} {acc : List FmtCall} (h : CondInv s acc) (o : RuleOp) :
    CondInv (s.step o) (acc ++ legalCalls [o]) := by
  cases o with
  | cond d c =>
    unfold CondSheet.step
    dsimp only
    by_cases hl : CondLegal (d, c)
    · rw [add_legal hl, show legalCalls [.cond d c] = [(d, c)] from by simp [legalCalls, condCalls, hl]]
      exact h.store d c
    · rw [add_illegal hl, show legalCalls [.cond d c] = [] from by simp [legalCalls, condCalls, hl], List.append_nil]
      exact h
  | tableFormat f =>
    rw [show legalCalls [.tableFormat f] = [] from rfl, List.append_nil]
    obtain ⟨h1, ⟨r, h2⟩, _, _⟩ := DxfTable.formatDxfIndex_spec h.dxf f
    exact ⟨h.order, h.sorted, h.look, h.keys, h1, fun k c hc => (h.resolved k c hc).mono h2, h.classic, h.x14⟩

theorem legalCalls_append (a b : List RuleOp) : legalCalls (a ++ b) = legalCalls a ++ legalCalls b := by
  simp [legalCalls, condCalls, List.filterMap_append]

theorem condRun_inv (ops : List RuleOp) : CondInv (condRun ops) (legalCalls ops) := by
  have key : ∀ (ops : List RuleOp) (s : CondSheet) (acc : List FmtCall), CondInv s acc →
      CondInv (ops.foldl CondSheet.step s) (acc ++ legalCalls ops) := by
    intro ops
    induction ops with
    | nil => intro s acc h; simpa [legalCalls, condCalls] using h
    | cons o ops ih =>
      intro s acc h
      have := ih _ _ (h.step o)
      rw [List.append_assoc, ← legalCalls_append] at this
      exact this
  have := key ops {} [] CondInv.empty
  rwa [List.nil_append] at this

/-! ### The rules of a range -/

theorem rule_some {k : CondKind} (h : k.valid = true) (dxf : Option Nat) (p : Nat) (stop : Bool) (range guid : Str) :
    ∃ t r, k.rule dxf p stop range guid = some t ∧ treeTag t = "cfRule".toList ∧ ruleMeant k range = some r := by
  cases k with
  | cell o =>
    cases o with
    | none => cases h
    | some c => exact ⟨_, _, rfl, rfl, rfl⟩
  | text o =>
    cases o with
    | none => cases h
    | some c => exact ⟨_, _, rfl, rfl, rfl⟩
  | _ => exact ⟨_, _, rfl, rfl, rfl⟩

/-- The numbers of a worksheet lead to the formats. -/
def Leads (formats : Nat → Option DxfSeen) (global : List Nat) (t : DxfTable) : Prop :=
  ∀ (i : Nat) (f : Format), t.formats[i]? = some f → ∃ g, global[i]? = some g ∧ formats g = some (dxfMeant f)

theorem formatOf_stored {formats : Nat → Option DxfSeen} {global : List Nat} {t : DxfTable} (hl : Leads formats global t)
    {c : CondStored} (hr : DxfResolved t c) :
    formatOf formats (ruleDxf c.cond.kind (c.dxf.bind fun i => global[i]?)) = some (formatMeantOf c.cond) := by
  unfold ruleDxf formatMeantOf
  cases hasFormat c.cond.kind with
  | false => rfl
  | true =>
    simp only [if_true]
    unfold DxfResolved at hr
    rcases hf : c.cond.format with _ | f <;> rcases hd : c.dxf with _ | i <;> rw [hf, hd] at hr
    · rfl
    · exact hr.elim
    · exact hr.elim
    · obtain ⟨g, h1, h2⟩ := hl i f hr
      rw [Option.bind_some, h1]
      simp only [formatOf, h2, Option.map_some]

/-- What is known of a stored rule. -/
structure StoredOk (t : DxfTable) (c : CondStored) : Prop where
  valid : c.cond.kind.valid = true
  ok : CondOk c.cond
  res : DxfResolved t c

theorem condRules_read {formats : Nat → Option DxfSeen} {global : List Nat} {t : DxfTable} (hl : Leads formats global t)
    (si : Nat) {range : Str} (hrange : attrSafe range = true) :
    ∀ (cs : List CondStored) (l : List FmtCall) (g p : Nat), cs.map (·.cond) = l.map (·.2) → (∀ c ∈ cs, StoredOk t c) →
      ((condRules global si range (g, p) cs).1.filter (fun x => decide (treeTag x = "cfRule".toList))) =
        (condRules global si range (g, p) cs).1 ∧
      ((condRules global si range (g, p) cs).1.map treeParts).mapM (readCond formats) =
        some (((List.range' p l.length).zip l |>.filter fun q => !q.2.2.kind.onlyX14).filterMap (condSeenOf range)) ∧
      (condRules global si range (g, p) cs).2.2 = p + l.length
  | [], l, g, p, h, _ => by
    have : l = [] := by cases l with
      | nil => rfl
      | cons a l => cases h
    subst this
    exact ⟨rfl, rfl, rfl⟩
  | c :: cs, [], g, p, h, _ => by cases h
  | c :: cs, a :: l, g, p, h, hok => by
    simp only [List.map_cons, List.cons.injEq] at h
    obtain ⟨i1, i2, i3⟩ := condRules_read hl si hrange cs l (if c.cond.kind.hasX14 then g + 1 else g) (p + 1) h.2
      fun x hx => hok x (List.mem_cons_of_mem _ hx)
    have hc := hok c List.mem_cons_self
    simp only [condRules]
    rw [List.length_cons, List.range'_succ, List.zip_cons_cons]
    refine ⟨?_, ?_, by rw [i3]; omega⟩
    · rw [List.filter_append, i1]
      congr 1
      split
      · rfl
      · obtain ⟨x, r, h1, h2, _⟩ := rule_some hc.valid (c.dxf.bind fun i => global[i]?) p c.cond.stop range
          (if c.cond.kind.hasX14 then condGuid si g else [])
        rw [h1, Option.toList_some, List.filter_cons_of_pos (by rw [h2]; rfl), List.filter_nil]
    · rw [List.filter_cons]
      dsimp only
      rw [← h.1]
      cases ho : c.cond.kind.onlyX14 with
      | true =>
        simp only [if_true, List.nil_append, Bool.not_true, Bool.false_eq_true, if_false]
        exact i2
      | false =>
        simp only [Bool.false_eq_true, if_false, Bool.not_false, if_true]
        obtain ⟨x, r, h1, _, h3⟩ := rule_some hc.valid (c.dxf.bind fun i => global[i]?) p c.cond.stop range
          (if c.cond.kind.hasX14 then condGuid si g else [])
        have hx : readCond formats (treeParts x) = some ⟨r, formatMeantOf c.cond, p, c.cond.stop⟩ :=
          readCond_rule hc.ok.texts hc.ok.colors hc.ok.scale hrange (formatOf_stored hl hc.res) h1 h3
        rw [h1, Option.toList_some, List.singleton_append, List.map_cons, List.mapM_cons, hx, i2, List.filterMap_cons]
        unfold condSeenOf
        dsimp only
        rw [← h.1, h3]
        rfl

/-! ### All ranges -/

/-- The stored rules of the ranges `ks`, with the calls. -/
def Blocks (s : CondSheet) (acc : List FmtCall) (ks : List Str) : Prop :=
  ∀ k ∈ ks, attrSafe k = true ∧ ((s.formats.lookup k).getD []).map (·.cond) = (acc.filter fun p => callRange p = k).map (·.2) ∧
    ∀ c ∈ (s.formats.lookup k).getD [], StoredOk s.dxf c

theorem condLoop_read {formats : Nat → Option DxfSeen} {global : List Nat} {s : CondSheet} {acc : List FmtCall}
    (hl : Leads formats global s.dxf) (si : Nat) :
    ∀ (ks : List Str) (g p : Nat), Blocks s acc ks →
      ((condLoop s global si (g, p) ks).filter (fun x => decide (treeTag x = "conditionalFormatting".toList))) =
        condLoop s global si (g, p) ks ∧
      ((condLoop s global si (g, p) ks).map treeParts).mapM (readCondBlock formats) =
        some ((numbered p (ks.map fun k => (k, acc.filter fun c => callRange c = k))).filterMap blockMeant)
  | [], g, p, _ => ⟨rfl, rfl⟩
  | k :: ks, g, p, hb => by
    obtain ⟨b1, b2, b3⟩ := hb k List.mem_cons_self
    obtain ⟨r1, r2, r3⟩ := condRules_read hl si b1 _ _ g p b2 b3
    have ih := condLoop_read (acc := acc) hl si ks (condRules global si k (g, p) ((s.formats.lookup k).getD [])).2.1
      (condRules global si k (g, p) ((s.formats.lookup k).getD [])).2.2 fun j hj => hb j (List.mem_cons_of_mem _ hj)
    simp only [condLoop]
    rw [List.map_cons, numbered, List.filterMap_cons]
    rw [r3] at ih
    have e2 : (condRules global si k (g, p) ((s.formats.lookup k).getD [])).2 =
        ((condRules global si k (g, p) ((s.formats.lookup k).getD [])).2.1, p + (acc.filter fun c => callRange c = k).length) := by
      rw [← r3]
    rw [e2]
    generalize (condRules global si k (g, p) ((s.formats.lookup k).getD [])).2.1 = g' at ih
    have hall : (((s.formats.lookup k).getD []).all fun c => c.cond.kind.onlyX14) =
        (acc.filter fun c => callRange c = k).all fun c => c.2.kind.onlyX14 := by
      have e3 : ∀ (l : List CondStored), (l.all fun c => c.cond.kind.onlyX14) = (l.map (·.cond)).all fun c => c.kind.onlyX14 := by
        intro l; rw [List.all_map]; rfl
      rw [e3, b2, List.all_map]; rfl
    rw [hall]
    generalize acc.filter (fun c => callRange c = k) = l at *
    have hz : ((List.range' p l.length).zip l).filter (fun q => !q.2.2.kind.onlyX14) = [] ↔
        (l.all fun c => c.2.kind.onlyX14) = true := by
      rw [List.filter_eq_nil_iff, List.all_eq_true]
      constructor
      · intro h c hc
        obtain ⟨i, hi, rfl⟩ := List.getElem_of_mem hc
        have hlt : i < ((List.range' p l.length).zip l).length := by
          rw [List.length_zip, List.length_range']; omega
        have := h (((List.range' p l.length).zip l)[i]'hlt) (List.getElem_mem hlt)
        rw [List.getElem_zip] at this
        simpa using this
      · rintro h ⟨n, c⟩ hc
        have := h c (List.of_mem_zip hc).2
        simp [this]
    cases ha : (l.all fun c => c.2.kind.onlyX14) with
    | true =>
      simp only [if_true, List.nil_append]
      have : blockMeant (k, (List.range' p l.length).zip l) = none := by
        unfold blockMeant; dsimp only; rw [hz.mpr ha]
      rw [this]
      exact ih
    | false =>
      simp only [Bool.false_eq_true, if_false]
      have hne : ((List.range' p l.length).zip l).filter (fun q => !q.2.2.kind.onlyX14) ≠ [] := by
        intro h; rw [hz.mp h] at ha; cases ha
      have hbm : blockMeant (k, (List.range' p l.length).zip l) =
          some (k, (((List.range' p l.length).zip l).filter fun q => !q.2.2.kind.onlyX14).filterMap (condSeenOf k)) := by
        unfold blockMeant; dsimp only
        split
        · contradiction
        · rfl
      rw [hbm, List.singleton_append]
      refine ⟨?_, ?_⟩
      · rw [List.filter_cons_of_pos (by rfl), ih.1]
      · rw [List.map_cons, List.mapM_cons, ih.2]
        have : readCondBlock formats (treeParts (.node "conditionalFormatting".toList [("sqref".toList, k)]
            (condRules global si k (g, p) ((s.formats.lookup k).getD [])).1)) =
            some (k, (((List.range' p l.length).zip l).filter fun q => !q.2.2.kind.onlyX14).filterMap (condSeenOf k)) := by
          unfold readCondBlock
          simp only [treeParts]
          rw [elems_trees, r1, r2, look_eq]
        rw [this]
        rfl

end Verif
