import Verif.Lemmas.CellRead
import Verif.Props.CondRule
import Verif.Props.Notes
/-!
The rows of the `sheetData` section, read back.
-/
set_option linter.unusedSimpArgs false
namespace Verif
open Spec

variable {Fmt : Type}

/-! ### Attributes -/

theorem may_ne {k n : Str} (h : k ≠ n) (o : Option Str) (r : Attrs) : (mayAttr n o ++ r).lookup k = r.lookup k := by
  cases o with
  | none => rfl
  | some v => exact look_ne h v r

theorem may_eq (n : Str) (o : Option Str) (r : Attrs) (h : r.lookup n = none) : (mayAttr n o ++ r).lookup n = o := by
  cases o with
  | none => exact h
  | some v => exact look_eq n v r

/-- The attributes of a `row` element. -/
def rowShape (row : Nat) (spans dy style height : Option Str) (hidden : Option Str) (level collapsed : Option Str) : Attrs :=
  ("r".toList, showNat (row + 1)) :: (mayAttr "spans".toList spans ++ (mayAttr "x14ac:dyDescent".toList dy ++
    (mayAttr "s".toList style ++ (mayAttr "customFormat".toList (style.map fun _ => "1".toList) ++
    (mayAttr "ht".toList height ++ (mayAttr "hidden".toList hidden ++
    (mayAttr "customHeight".toList (height.map fun _ => "1".toList) ++
    (mayAttr "outlineLevel".toList level ++ (mayAttr "collapsed".toList collapsed ++ [])))))))))

/-- The settings of a row in the model, as they should be seen. -/
def Sheet.rowSettings (s : Sheet Fmt) (opt : Option (RowOpt Fmt)) : RowSettings :=
  match opt with
  | some o =>
    { style := if o.xf ≠ 0 then some (s.getGlobalXfIndex o.xf) else none
      height := if o.height ≠ DEFAULT_ROW_HEIGHT || s.defaultHeight ≠ DEFAULT_ROW_HEIGHT then some o.height else none
      hidden := o.hidden
      level := if s.cfg.constMem then 0 else o.level
      collapsed := o.collapsed && !s.cfg.constMem }
  | none =>
    { style := none
      height := if s.defaultHeight ≠ DEFAULT_ROW_HEIGHT then some s.defaultHeight else none
      hidden := false, level := 0, collapsed := false }

theorem rowAttrs_shape (s : Sheet Fmt) (x14 : Bool) (span : Option (Nat × Nat)) (row : Nat) (opt : Option (RowOpt Fmt)) :
    s.rowAttrs x14 span row opt =
      rowShape row (if s.cfg.constMem then none else span.map fun m => showNat m.1 ++ [':'] ++ showNat m.2)
        (if x14 then some "0.25".toList else none) ((s.rowSettings opt).style.map showNat) (s.rowSettings opt).height
        (if (s.rowSettings opt).hidden then some "1".toList else none)
        (if (s.rowSettings opt).level > 0 then some (showNat (s.rowSettings opt).level) else none)
        (if (s.rowSettings opt).collapsed then some "1".toList else none) := by
  unfold Sheet.rowAttrs rowShape Sheet.rowSettings
  generalize showNat (row + 1) = rt
  cases opt with
  | none =>
    by_cases hh : s.defaultHeight = DEFAULT_ROW_HEIGHT <;> cases hc : s.cfg.constMem <;> cases span <;> cases x14 <;>
      simp [hh, mayAttr]
  | some o =>
    dsimp only
    generalize (o.height ≠ DEFAULT_ROW_HEIGHT || s.defaultHeight ≠ DEFAULT_ROW_HEIGHT : Bool) = custom
    obtain ⟨height, xf, hidden, level, collapsed, fmt⟩ := o
    dsimp only
    have h1 : ∀ (b : Bool) (k v : Str), (if b = true then [(k, v)] else []) = mayAttr k (if b = true then some v else none) := by
      intro b k v; cases b <;> rfl
    have h2 : (if xf ≠ 0 then [("s".toList, showNat (s.getGlobalXfIndex xf)), ("customFormat".toList, "1".toList)] else []) =
        mayAttr "s".toList (Option.map showNat (if xf ≠ 0 then some (s.getGlobalXfIndex xf) else none)) ++
        mayAttr "customFormat".toList (Option.map (fun _ => "1".toList)
          (Option.map showNat (if xf ≠ 0 then some (s.getGlobalXfIndex xf) else none))) := by
      by_cases hx : xf = 0
      · rw [if_neg (fun h => h hx), if_neg (fun h => h hx)]; rfl
      · rw [if_pos hx, if_pos hx]; rfl
    have h3 : (if (decide (level > 0) && !s.cfg.constMem) = true then some (showNat level) else none) =
        (if (if s.cfg.constMem then 0 else level) > 0 then some (showNat (if s.cfg.constMem then 0 else level)) else none) := by
      cases s.cfg.constMem
      · by_cases hl : level > 0 <;> simp [hl]
      · simp
    have h5 : (Option.map (fun _ => "1".toList) (if custom = true then some height else none)) =
        (if custom = true then some "1".toList else none) := by cases custom <;> rfl
    rw [h2, h1, h1, h1, h1, h1, h1, h3, h5]
    simp only [List.append_assoc, List.append_nil, List.cons_append, List.nil_append]
    congr 2
    cases s.cfg.constMem <;> cases span <;> rfl

theorem rowShape_names (row : Nat) (spans dy style height hidden level collapsed : Option Str) :
    ((rowShape row spans dy style height hidden level collapsed).map Prod.fst).Sublist
      ["r".toList, "spans".toList, "x14ac:dyDescent".toList, "s".toList, "customFormat".toList, "ht".toList,
       "hidden".toList, "customHeight".toList, "outlineLevel".toList, "collapsed".toList] := by
  have key : ∀ (n : Str) (o : Option Str) (r : Attrs) (l : List Str), (r.map Prod.fst).Sublist l →
      ((mayAttr n o ++ r).map Prod.fst).Sublist (n :: l) := by
    intro n o r l h
    cases o with
    | none => exact h.cons _
    | some v => exact h.cons₂ _
  unfold rowShape
  refine List.Sublist.cons₂ _ ?_
  repeat (first | exact List.Sublist.slnil | refine key _ _ _ _ ?_)

theorem mayAttr_ok {n : Str} {o : Option Str} (hn : isName n = true) (h : ∀ v, o = some v → attrSafe v = true) :
    ∀ a ∈ mayAttr n o, attrOk a = true := by
  intro a ha
  cases o with
  | none => cases ha
  | some v => simp [mayAttr] at ha; subst ha; exact attrOk_of hn (h v rfl)

theorem rowShape_good (row : Nat) (spans dy style height hidden level collapsed : Option Str)
    (h : ∀ v, spans = some v ∨ dy = some v ∨ style = some v ∨ height = some v ∨ hidden = some v ∨ level = some v ∨
      collapsed = some v → attrSafe v = true) :
    attrsGood (rowShape row spans dy style height hidden level collapsed) := by
  refine attrsGood_sub ?_ (rowShape_names _ _ _ _ _ _ _ _) (by decide +kernel)
  have one : ∀ (o : Option Str) (v : Str), (o.map fun _ => "1".toList) = some v → attrSafe v = true := by
    intro o v hv
    cases o with
    | none => cases hv
    | some x => simp at hv; subst hv; decide
  intro a ha
  unfold rowShape at ha
  rcases List.mem_cons.mp ha with rfl | ha
  · exact attrOk_of (by decide) (showNat_attrSafe _)
  rcases List.mem_append.mp ha with ha | ha
  · exact mayAttr_ok (by decide) (fun v hv => h v (Or.inl hv)) a ha
  rcases List.mem_append.mp ha with ha | ha
  · exact mayAttr_ok (by decide) (fun v hv => h v (Or.inr (Or.inl hv))) a ha
  rcases List.mem_append.mp ha with ha | ha
  · exact mayAttr_ok (by decide) (fun v hv => h v (Or.inr (Or.inr (Or.inl hv)))) a ha
  rcases List.mem_append.mp ha with ha | ha
  · exact mayAttr_ok (by decide) (one _) a ha
  rcases List.mem_append.mp ha with ha | ha
  · exact mayAttr_ok (by decide) (fun v hv => h v (Or.inr (Or.inr (Or.inr (Or.inl hv))))) a ha
  rcases List.mem_append.mp ha with ha | ha
  · exact mayAttr_ok (by decide) (fun v hv => h v (Or.inr (Or.inr (Or.inr (Or.inr (Or.inl hv)))))) a ha
  rcases List.mem_append.mp ha with ha | ha
  · exact mayAttr_ok (by decide) (one _) a ha
  rcases List.mem_append.mp ha with ha | ha
  · exact mayAttr_ok (by decide) (fun v hv => h v (Or.inr (Or.inr (Or.inr (Or.inr (Or.inr (Or.inl hv))))))) a ha
  rcases List.mem_append.mp ha with ha | ha
  · exact mayAttr_ok (by decide) (fun v hv => h v (Or.inr (Or.inr (Or.inr (Or.inr (Or.inr (Or.inr hv))))))) a ha
  · cases ha

theorem rowAttrs_good (s : Sheet Fmt) (x14 : Bool) (span : Option (Nat × Nat)) (row : Nat) (opt : Option (RowOpt Fmt))
    (hd : attrSafe s.defaultHeight = true) (ho : ∀ o, opt = some o → attrSafe o.height = true) :
    attrsGood (s.rowAttrs x14 span row opt) := by
  rw [rowAttrs_shape]
  refine rowShape_good _ _ _ _ _ _ _ _ ?_
  intro v hv
  rcases hv with hv | hv | hv | hv | hv | hv | hv
  · split at hv
    · cases hv
    · cases span with
      | none => cases hv
      | some m =>
        simp only [Option.map_some, Option.some.injEq] at hv
        subst hv
        exact attrSafe_append (attrSafe_append (showNat_attrSafe _) (by decide)) (showNat_attrSafe _)
  · split at hv
    · injection hv with hv; subst hv; decide
    · cases hv
  · cases e : (s.rowSettings opt).style with
    | none => rw [e] at hv; cases hv
    | some n => rw [e] at hv; injection hv with hv; subst hv; exact showNat_attrSafe _
  · cases opt with
    | none =>
      simp only [Sheet.rowSettings] at hv
      split at hv
      · injection hv with hv; subst hv; exact hd
      · cases hv
    | some o =>
      simp only [Sheet.rowSettings] at hv
      split at hv
      · injection hv with hv; subst hv; exact ho o rfl
      · cases hv
  · split at hv
    · injection hv with hv; subst hv; decide
    · cases hv
  · split at hv
    · injection hv with hv; subst hv; exact showNat_attrSafe _
    · cases hv
  · split at hv
    · injection hv with hv; subst hv; decide
    · cases hv

macro "may_look" : tactic =>
  `(tactic| (unfold rowShape; repeat (first | rw [look_ne (by decide)] | rw [may_ne (by decide)])))

theorem shape_r (row : Nat) (a b c d e f g : Option Str) :
    (rowShape row a b c d e f g).lookup "r".toList = some (showNat (row + 1)) := look_eq _ _ _

theorem shape_s (row : Nat) (a b c d e f g : Option Str) : (rowShape row a b c d e f g).lookup "s".toList = c := by
  may_look
  exact may_eq _ _ _ (by repeat (first | rw [may_ne (by decide)] | rfl))

theorem shape_cf (row : Nat) (a b c d e f g : Option Str) :
    (rowShape row a b c d e f g).lookup "customFormat".toList = c.map fun _ => "1".toList := by
  may_look
  exact may_eq _ _ _ (by repeat (first | rw [may_ne (by decide)] | rfl))

theorem shape_ht (row : Nat) (a b c d e f g : Option Str) : (rowShape row a b c d e f g).lookup "ht".toList = d := by
  may_look
  exact may_eq _ _ _ (by repeat (first | rw [may_ne (by decide)] | rfl))

theorem shape_hidden (row : Nat) (a b c d e f g : Option Str) : (rowShape row a b c d e f g).lookup "hidden".toList = e := by
  may_look
  exact may_eq _ _ _ (by repeat (first | rw [may_ne (by decide)] | rfl))

theorem shape_ch (row : Nat) (a b c d e f g : Option Str) :
    (rowShape row a b c d e f g).lookup "customHeight".toList = d.map fun _ => "1".toList := by
  may_look
  exact may_eq _ _ _ (by repeat (first | rw [may_ne (by decide)] | rfl))

theorem shape_level (row : Nat) (a b c d e f g : Option Str) :
    (rowShape row a b c d e f g).lookup "outlineLevel".toList = f := by
  may_look
  exact may_eq _ _ _ (by repeat (first | rw [may_ne (by decide)] | rfl))

theorem shape_collapsed (row : Nat) (a b c d e f g : Option Str) :
    (rowShape row a b c d e f g).lookup "collapsed".toList = g := by
  may_look
  exact may_eq _ _ _ (by repeat (first | rw [may_ne (by decide)] | rfl))

theorem readSettings_row (s : Sheet Fmt) (x14 : Bool) (span : Option (Nat × Nat)) (row : Nat) (opt : Option (RowOpt Fmt)) :
    readSettings (s.rowAttrs x14 span row opt) = some (s.rowSettings opt) := by
  rw [rowAttrs_shape]
  generalize s.rowSettings opt = st
  have h1 : ∀ (a b d e f g : Option Str), optNat (rowShape row a b (st.style.map showNat) d e f g) "s".toList = some st.style := by
    intro a b d e f g
    unfold optNat; rw [shape_s]
    cases st.style with
    | none => rfl
    | some n => simp only [Option.map_some, readNat_showNat]
  have h2 : ∀ (a b c d e g : Option Str), optNat (rowShape row a b c d e (if st.level > 0 then some (showNat st.level) else none) g)
      "outlineLevel".toList = some (if st.level > 0 then some st.level else none) := by
    intro a b c d e g
    unfold optNat; rw [shape_level]
    by_cases h : st.level > 0
    · rw [if_pos h, if_pos h]; simp only [readNat_showNat, Option.map_some]
    · rw [if_neg h, if_neg h]
  unfold readSettings
  rw [h1, h2]
  simp only [flagOn, shape_cf, shape_ch, shape_ht, shape_hidden, shape_collapsed]
  cases st with
  | mk style height hidden level collapsed =>
    congr 1
    simp only [RowSettings.mk.injEq]
    refine ⟨?_, ?_, ?_, ?_, ?_⟩
    · cases style <;> simp
    · cases height <;> simp
    · cases hidden <;> simp
    · split
      · rfl
      · simp only [Option.getD_none]; omega
    · cases collapsed <;> simp

/-! ### Cells of a row -/

/-- A written cell, seen by the reader: the blank cell without format is not in the file. -/
def CellFound (row : Nat) : Option CellSeen → Option (Nat × Cell × Nat) → Prop
  | x, none => x = none
  | x, some p => (x = none ∧ p.2.1.content = .blank ∧ p.2.2 = 0) ∨
      ∃ v, Meant p.2.1.content v ∧ x = some { row := row, col := p.1, style := p.2.2, formula := v.formula, cm := v.cm,
                                              vm := none, value := v.value }

theorem treesOk_append {a b : List Tree} (ha : treesOk a = true) (hb : treesOk b = true) : treesOk (a ++ b) = true := by
  induction a with
  | nil => exact hb
  | cons t ts ih =>
    simp only [treesOk, List.cons_append, Bool.and_eq_true] at ha ⊢
    exact ⟨ha.1, ih ha.2⟩

theorem cells_spec (cm : Bool) (images : List Nat) (shared : List Value) (si : List Str) (hsh : SharedOk shared si)
    (row : Nat) (cells : List (Nat × Cell × Nat)) (hp : (cells.map Prod.fst).Pairwise (· < ·))
    (hok : ∀ p ∈ cells, p.2.1.isWritten cm = true ∧ p.2.1.resolvesIn si ∧ contentOk p.2.1.content) :
    ∃ ts seen, cells.flatMap (fun p => cellText cm images row p.1 p.2.1 p.2.2) = writeCalls (callsList ts) ∧
      treesOk ts = true ∧ (toNodes ts).mapM (readCellElem shared) = some seen ∧
      (∀ x ∈ seen, x.row = row ∧ x.col ∈ cells.map Prod.fst) ∧
      ∀ c, CellFound row (seen.find? fun x => x.col == c) (cells.find? fun p => p.1 == c) := by
  induction cells with
  | nil => exact ⟨[], [], rfl, rfl, rfl, by simp, fun c => rfl⟩
  | cons p ps ih =>
    rw [List.map_cons, List.pairwise_cons] at hp
    obtain ⟨ts, seen, h1, h2, h3, h4, h5⟩ := ih hp.2 fun q hq => hok q (List.mem_cons_of_mem _ hq)
    obtain ⟨g1, g2, g3⟩ := hok p List.mem_cons_self
    obtain ⟨ct, hw⟩ := cellText_spec cm images shared si hsh row p.1 p.2.1 p.2.2 g1 g2 g3
    have hnone : seen.find? (fun x => x.col == p.1) = none := by
      rw [List.find?_eq_none]
      intro x hx he
      have := (h4 x hx).2
      have e : x.col = p.1 := by simpa using he
      rw [e] at this
      exact absurd (hp.1 _ this) (Nat.lt_irrefl _)
    have hnone' : ps.find? (fun q => q.1 == p.1) = none := by
      rw [List.find?_eq_none]
      intro x hx he
      have e : x.1 = p.1 := by simpa using he
      have := hp.1 x.1 (List.mem_map.mpr ⟨x, hx, rfl⟩)
      omega
    rcases hw.read with ⟨rfl, hb, hx⟩ | ⟨t, v, rfl, hm, hr⟩
    · refine ⟨ts, seen, ?_, h2, h3, ?_, ?_⟩
      · rw [List.flatMap_cons, hw.text, h1]; rfl
      · intro x hx; exact ⟨(h4 x hx).1, List.mem_cons_of_mem _ (h4 x hx).2⟩
      · intro c
        rw [List.find?_cons]
        by_cases hc : p.1 = c
        · subst hc
          rw [hnone]; simp only [beq_self_eq_true]
          exact Or.inl ⟨rfl, hb, hx⟩
        · rw [show (p.1 == c) = false by simpa using hc]
          exact h5 c
    · refine ⟨t :: ts, { row := row, col := p.1, style := p.2.2, formula := v.formula, cm := v.cm, vm := none, value := v.value } :: seen, ?_, ?_, ?_, ?_, ?_⟩
      · rw [List.flatMap_cons, hw.text, h1]; simp [callsList, writeCalls]
      · have := hw.ok
        simp only [treesOk, Bool.and_true] at this
        simp only [treesOk, this, h2, Bool.and_self]
      · simp only [toNodes, List.mapM_cons, hr, h3]; rfl
      · intro x hx
        rcases List.mem_cons.mp hx with rfl | hx
        · exact ⟨rfl, List.mem_cons_self⟩
        · exact ⟨(h4 x hx).1, List.mem_cons_of_mem _ (h4 x hx).2⟩
      · intro c
        rw [List.find?_cons, List.find?_cons]
        by_cases hc : p.1 = c
        · subst hc
          simp only [beq_self_eq_true]
          exact Or.inr ⟨v, hm, rfl⟩
        · rw [show (p.1 == c) = false by simpa using hc]
          exact h5 c

/-! ### Rows -/

/-- What is asked of a row: its cells are written ones, resolve, and hold text that XML can carry; its height is a
number. -/
structure RowGood (cm : Bool) (si : List Str) (ro : RowOut Fmt) : Prop where
  cells : ∀ p ∈ ro.cells.getD [], p.2.1.isWritten cm = true ∧ p.2.1.resolvesIn si ∧ contentOk p.2.1.content
  height : ∀ o, ro.opt = some o → attrSafe o.height = true

theorem readRowElem_row (s : Sheet Fmt) (x14 : Bool) (span : Option (Nat × Nat)) (row : Nat) (opt : Option (RowOpt Fmt))
    (shared : List Value) (ks : List Node) (seen : List CellSeen) (h : ks.mapM (readCellElem shared) = some seen)
    (hr : ∀ x ∈ seen, x.row = row) :
    readRowElem shared (.elem "row".toList (s.rowAttrs x14 span row opt) ks) = some ⟨row, s.rowSettings opt, seen⟩ := by
  unfold readRowElem; dsimp only
  rw [if_neg (fun h => h rfl), readSettings_row, h, rowAttrs_shape, shape_r]
  simp only [Option.bind_some, readRow_show]
  rw [if_pos]
  rw [List.all_eq_true]
  intro x hx
  simpa using hr x hx

theorem row_spec (s : Sheet Fmt) (x14 : Bool) (images : List Nat) (shared : List Value) (si : List Str)
    (hsh : SharedOk shared si) (hd : attrSafe s.defaultHeight = true) (ro : RowOut Fmt)
    (hp : ((ro.cells.getD []).map Prod.fst).Pairwise (· < ·)) (hg : RowGood s.cfg.constMem si ro) :
    ∃ t seen, s.rowText x14 images ro = writeCalls t.calls ∧ treeOk t = true ∧
      readRowElem shared t.toNode = some ⟨ro.row, s.rowSettings ro.opt, seen⟩ ∧ (∀ x ∈ seen, x.row = ro.row) ∧
      ∀ c, CellFound ro.row (seen.find? fun x => x.col == c) ((ro.cells.getD []).find? fun p => p.1 == c) := by
  have hgood := rowAttrs_good s x14 (s.rowSpan ro.row) ro.row ro.opt hd hg.height
  unfold Sheet.rowText
  cases hc : ro.cells with
  | none =>
    refine ⟨.empty "row".toList (s.rowAttrs x14 (s.rowSpan ro.row) ro.row ro.opt), [], ?_, ?_, ?_, by simp, fun c => rfl⟩
    · simp [Tree.calls, writeCalls, Call.write]
    · simp only [treeOk, List.all_eq_true.mpr hgood.1, decide_eq_true hgood.2, Bool.and_true]; decide
    · exact readRowElem_row s x14 _ _ _ shared [] [] rfl (by simp)
  | some cells =>
    have hp' := hp
    have hg' := hg.cells
    rw [hc] at hp' hg'
    obtain ⟨ts, seen, h1, h2, h3, h4, h5⟩ := cells_spec s.cfg.constMem images shared si hsh ro.row cells hp' hg'
    refine ⟨.node "row".toList (s.rowAttrs x14 (s.rowSpan ro.row) ro.row ro.opt) ts, seen, ?_, ?_, ?_,
      fun x hx => (h4 x hx).1, h5⟩
    · dsimp only
      rw [h1]
      simp [Tree.calls, writeCalls, Call.write]
    · simp only [treeOk, h2, List.all_eq_true.mpr hgood.1, decide_eq_true hgood.2, Bool.and_true]; decide
    · exact readRowElem_row s x14 _ _ _ shared _ seen h3 fun x hx => (h4 x hx).1

theorem find_map_pair (row : Nat) (cells : List (Nat × Cell × Nat)) (c : Nat) :
    (cells.map fun p => (row, p.1, p.2.1, p.2.2)).find? (fun e => e.1 == row && e.2.1 == c) =
      (cells.find? fun p => p.1 == c).map fun p => (row, p.1, p.2.1, p.2.2) := by
  rw [List.find?_map]
  congr 2
  funext p
  simp

/-- The cells of a file with given rows. -/
def CellFoundAt : Option CellSeen → Option (Nat × Nat × Cell × Nat) → Prop
  | x, none => x = none
  | x, some e => CellFound e.1 x (some e.2)

theorem rows_spec (s : Sheet Fmt) (x14 : Bool) (images : List Nat) (shared : List Value) (si : List Str)
    (hsh : SharedOk shared si) (hd : attrSafe s.defaultHeight = true) (rows : List (RowOut Fmt)) (hm : rowMajor rows)
    (hg : ∀ ro ∈ rows, RowGood s.cfg.constMem si ro) :
    ∃ ts seen, rows.flatMap (s.rowText x14 images) = writeCalls (callsList ts) ∧ treesOk ts = true ∧
      (toNodes ts).mapM (readRowElem shared) = some seen ∧
      (∀ x ∈ seen, x.row ∈ rows.map RowOut.row ∧ ∀ y ∈ x.cells, y.row = x.row) ∧
      (∀ r c, CellFoundAt (seenAt seen r c) ((cellsOf rows).find? fun e => e.1 == r && e.2.1 == c)) ∧
      ∀ r, settingsAt seen r = (rows.find? fun ro => ro.row == r).map fun ro => s.rowSettings ro.opt := by
  induction rows with
  | nil => exact ⟨[], [], rfl, rfl, rfl, by simp, fun r c => rfl, fun r => rfl⟩
  | cons ro ros ih =>
    have hm1 := List.pairwise_cons.mp hm.1
    obtain ⟨ts, seen, h1, h2, h3, h4, h5, h6⟩ := ih ⟨hm1.2, fun x hx => hm.2 x (List.mem_cons_of_mem _ hx)⟩
      fun x hx => hg x (List.mem_cons_of_mem _ hx)
    obtain ⟨t, cs, g1, g2, g3, g4, g5⟩ := row_spec s x14 images shared si hsh hd ro (hm.2 ro List.mem_cons_self)
      (hg ro List.mem_cons_self)
    have hgt : ∀ x ∈ seen, ro.row < x.row := by
      intro x hx
      obtain ⟨q, hq, e⟩ := List.mem_map.mp (h4 x hx).1
      rw [← e]; exact hm1.1 q hq
    refine ⟨t :: ts, ⟨ro.row, s.rowSettings ro.opt, cs⟩ :: seen, ?_, ?_, ?_, ?_, ?_, ?_⟩
    · rw [List.flatMap_cons, g1, h1]; simp [callsList, writeCalls]
    · simp only [treesOk, g2, h2, Bool.and_self]
    · simp only [toNodes, List.mapM_cons, g3, h3]; rfl
    · intro x hx
      rcases List.mem_cons.mp hx with rfl | hx
      · exact ⟨List.mem_cons_self, g4⟩
      · exact ⟨List.mem_cons_of_mem _ (h4 x hx).1, (h4 x hx).2⟩
    · intro r c
      have e1 : cellsOf (ro :: ros) = (ro.cells.getD []).map (fun p => (ro.row, p.1, p.2.1, p.2.2)) ++ cellsOf ros := by
        simp [cellsOf]
      rw [e1, List.find?_append]
      unfold seenAt
      rw [List.flatMap_cons, List.find?_append]
      by_cases hr : ro.row = r
      · subst hr
        have e2 : (cellsOf ros).find? (fun e => e.1 == ro.row && e.2.1 == c) = none := by
          rw [List.find?_eq_none]
          intro e he hh
          simp only [cellsOf, List.mem_flatMap, List.mem_map] at he
          obtain ⟨q, hq, p, hp, rfl⟩ := he
          have := hm1.1 q hq
          simp at hh
          omega
        have e3 : (seen.flatMap (·.cells)).find? (fun x => x.row == ro.row && x.col == c) = none := by
          rw [List.find?_eq_none]
          intro x hx hh
          obtain ⟨q, hq, hxq⟩ := List.mem_flatMap.mp hx
          have h7 := (h4 q hq).2 x hxq
          have h8 := hgt q hq
          simp at hh
          omega
        have e4 : cs.find? (fun x => x.row == ro.row && x.col == c) = cs.find? fun x => x.col == c := by
          clear g3 g5
          induction cs with
          | nil => rfl
          | cons a l ih =>
            rw [List.find?_cons, List.find?_cons, ih fun x hx => g4 x (List.mem_cons_of_mem _ hx)]
            simp [g4 a List.mem_cons_self]
        rw [e2, e3, e4, Option.or_none, Option.or_none, find_map_pair]
        have := g5 c
        cases e5 : (ro.cells.getD []).find? fun p => p.1 == c with
        | none => rw [e5] at this; exact this
        | some p => rw [e5] at this; exact this
      · have e2 : ((ro.cells.getD []).map fun p => (ro.row, p.1, p.2.1, p.2.2)).find? (fun e => e.1 == r && e.2.1 == c) = none := by
          rw [List.find?_eq_none]
          intro e he hh
          obtain ⟨p, hp, rfl⟩ := List.mem_map.mp he
          simp at hh
          exact hr hh.1
        have e3 : cs.find? (fun x => x.row == r && x.col == c) = none := by
          rw [List.find?_eq_none]
          intro x hx hh
          simp at hh
          exact hr ((g4 x hx).symm.trans hh.1)
        rw [e2, e3, Option.none_or, Option.none_or]
        exact h5 r c
    · intro r
      unfold settingsAt
      rw [List.find?_cons, List.find?_cons]
      by_cases hr : ro.row = r
      · subst hr
        simp
      · rw [show (ro.row == r) = false by simpa using hr]
        exact h6 r

/-- The `sheetData` section. -/
theorem sheetData_spec [DecidableEq Fmt] (s : Sheet Fmt) (x14 : Bool) (images : List Nat) (shared : List Value) (si : List Str)
    (hsh : SharedOk shared si) (hd : attrSafe s.defaultHeight = true) (hm : rowMajor s.rows)
    (hg : ∀ ro ∈ s.rows, RowGood s.cfg.constMem si ro)
    (hempty : s.table = [] → s.notes = [] → s.changedRows = [] → s.rows = []) :
    ∃ n seen, parseContent (s.sheetDataText x14 images) = some [n] ∧ readSheetData shared n = some seen ∧
      (∀ r c, CellFoundAt (seenAt seen r c) ((cellsOf s.rows).find? fun e => e.1 == r && e.2.1 == c)) ∧
      ∀ r, settingsAt seen r = (s.rows.find? fun ro => ro.row == r).map fun ro => s.rowSettings ro.opt := by
  obtain ⟨ts, seen, h1, h2, h3, -, h5, h6⟩ := rows_spec s x14 images shared si hsh hd s.rows hm hg
  by_cases he : (s.table.isEmpty && s.notes.isEmpty && s.changedRows.isEmpty) = true
  · have hr : s.rows = [] := by
      simp only [Bool.and_eq_true, List.isEmpty_iff] at he
      exact hempty he.1.1 he.1.2 he.2
    refine ⟨.elem "sheetData".toList [] [], [], ?_, rfl, ?_, ?_⟩
    · unfold Sheet.sheetDataText
      rw [if_pos he, hr]
      have := parseContent_trees [.empty "sheetData".toList []] (by decide)
      have e : writeCalls (callsList [Tree.empty "sheetData".toList []]) =
        xmlEmptyTagOnly "sheetData".toList ++ [] := by decide +kernel
      rw [e] at this
      exact this
    · intro r c; rw [hr]; rfl
    · intro r; rw [hr]; rfl
  · refine ⟨.elem "sheetData".toList [] (toNodes ts), seen, ?_, ?_, h5, h6⟩
    · unfold Sheet.sheetDataText
      rw [if_neg he, h1]
      have := parseContent_trees [.node "sheetData".toList [] ts] (by simp only [treesOk, treeOk, h2, Bool.and_true]; decide)
      have e : writeCalls (callsList [Tree.node "sheetData".toList [] ts]) =
          xmlStartTagOnly "sheetData".toList ++ writeCalls (callsList ts) ++ xmlEndTag "sheetData".toList := by
        simp [callsList, Tree.calls, writeCalls, Call.write, xmlStartTag, xmlStartTagOnly, writeAttributes]
      rw [e] at this
      exact this
    · simp only [readSheetData, if_true, h3]

end Verif
