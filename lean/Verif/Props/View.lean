import Verif.Spec.View
/-!
C40: sheet activation leaves a consistent view.
-/
namespace Verif

/-- Each of the three flags of a sheet is what its calls left, and the flags are consistent. -/
structure ViewRel (v : SheetView) (calls : List ViewOp) : Prop where
  act : v.active = leftActive calls
  sel : v.selected = leftSelected calls
  vis : v.visible = leftVisible calls

/-- An active sheet is selected, a selected sheet is visible. -/
def SheetView.Consistent (v : SheetView) : Prop :=
  (v.active = true → v.visible = .default) ∧ (v.selected = true → v.visible = .default)

theorem consistent_exec (v : SheetView) (op : ViewOp) (h : v.Consistent) :
    (v.exec op).Consistent := by
  obtain ⟨a, s, vis, f⟩ := v
  unfold SheetView.Consistent at *
  cases op with
  | setActive b => cases b <;> cases a <;> cases s <;> cases vis <;>
      simp_all [SheetView.exec, SheetView.setActive]
  | setSelected b => cases b <;> cases a <;> cases s <;> cases vis <;>
      simp_all [SheetView.exec, SheetView.setSelected]
  | setHidden b => cases b <;> cases a <;> cases s <;> cases vis <;>
      simp_all [SheetView.exec, SheetView.setHidden]
  | setVeryHidden b => cases b <;> cases a <;> cases s <;> cases vis <;>
      simp_all [SheetView.exec, SheetView.setVeryHidden]
  | setFirstTab b => cases b <;> cases a <;> cases s <;> cases vis <;>
      simp_all [SheetView.exec, SheetView.setFirstTab]

theorem viewRel_exec (v : SheetView) (calls : List ViewOp) (op : ViewOp) (hc : v.Consistent)
    (h : ViewRel v calls) : ViewRel (v.exec op) (calls ++ [op]) := by
  obtain ⟨h1, h2, h3⟩ := h
  have hc2 := hc.2
  constructor
  · unfold leftActive at *
    cases op with
    | setActive b => cases b <;> simp [SheetView.exec, SheetView.setActive]
    | setSelected b => cases b <;> simpa [SheetView.exec, SheetView.setSelected] using h1
    | setHidden b => cases b <;> simp [SheetView.exec, SheetView.setHidden, h1]
    | setVeryHidden b => cases b <;> simp [SheetView.exec, SheetView.setVeryHidden, h1]
    | setFirstTab b =>
      simp only [SheetView.exec, SheetView.setFirstTab]
      split <;> simpa using h1
  · unfold leftSelected at *
    cases op with
    | setActive b => cases b <;> simp [SheetView.exec, SheetView.setActive, h2]
    | setSelected b => cases b <;> simp [SheetView.exec, SheetView.setSelected]
    | setHidden b => cases b <;> simp [SheetView.exec, SheetView.setHidden, h2]
    | setVeryHidden b => cases b <;> simp [SheetView.exec, SheetView.setVeryHidden, h2]
    | setFirstTab b =>
      simp only [SheetView.exec, SheetView.setFirstTab]
      split <;> simpa using h2
  · unfold leftVisible at *
    cases op with
    | setActive b => cases b <;> simp [SheetView.exec, SheetView.setActive, h3]
    | setSelected b => cases b <;> simp [SheetView.exec, SheetView.setSelected, h3]
    | setHidden b => cases b <;> simp [SheetView.exec, SheetView.setHidden]
    | setVeryHidden b => cases b <;> simp [SheetView.exec, SheetView.setVeryHidden]
    | setFirstTab b =>
      simp only [SheetView.exec, SheetView.setFirstTab]
      split
      · rename_i hs
        have := hc2 hs
        rw [this] at h3
        simpa using h3
      · simpa using h3

/-- The loop finds the last active sheet. -/
theorem activeLoop_fst (vs : List SheetView) (i : Nat) (acc : Nat × Nat) :
    (∃ k v, vs[k]? = some v ∧ v.active = true ∧ (activeLoop vs i acc).1 = i + k ∧
      ∀ j w, k < j → vs[j]? = some w → w.active = false) ∨
    ((∀ (j : Nat) (w : SheetView), vs[j]? = some w → w.active = false) ∧ (activeLoop vs i acc).1 = acc.1) := by
  induction vs generalizing i acc with
  | nil => right; simp [activeLoop]
  | cons v vs ih =>
    simp only [activeLoop]
    rcases ih (i + 1) (if v.firstSheet then ((if v.active then (i, acc.2) else acc).1, i)
        else (if v.active then (i, acc.2) else acc)) with ⟨k, w, hk, hw, he, hl⟩ | ⟨hn, he⟩
    · left
      refine ⟨k + 1, w, by simpa using hk, hw, by rw [he]; omega, ?_⟩
      intro j x hj hx
      cases j with
      | zero => omega
      | succ j => exact hl j x (by omega) (by simpa using hx)
    · by_cases hv : v.active
      · left
        refine ⟨0, v, by simp, hv, ?_, ?_⟩
        · rw [he]; simp [hv]; split <;> rfl
        · intro j x hj hx
          cases j with
          | zero => omega
          | succ j => exact hn j x (by simpa using hx)
      · right
        refine ⟨?_, ?_⟩
        · intro j x hx
          cases j with
          | zero => simp at hx; subst hx; simpa using hv
          | succ j => exact hn j x (by simpa using hx)
        · rw [he]; simp [hv]; split <;> rfl

/-- The sheet-call part of a history. -/
def sheetCalls (hist : List (Nat × ViewOp)) : List BookViewOp := hist.map fun p => .sheet p.1 p.2

/-- `n` new worksheets. -/
def BookView.new (n : Nat) : BookView := { sheets := List.replicate n {} }

theorem callsOn_append (i : Nat) (h : List (Nat × ViewOp)) (p : Nat × ViewOp) :
    callsOn i (h ++ [p]) = if p.1 = i then callsOn i h ++ [p.2] else callsOn i h := by
  unfold callsOn
  rw [List.filter_append, List.map_append]
  by_cases hp : p.1 = i <;> simp [hp]

/-- After any interleaving of calls every sheet's flags are what its own calls left. -/
theorem view_run (n : Nat) (hist : List (Nat × ViewOp)) :
    ((BookView.new n).run (sheetCalls hist)).sheets.length = n ∧
    ∀ i v, ((BookView.new n).run (sheetCalls hist)).sheets[i]? = some v →
      v.Consistent ∧ ViewRel v (callsOn i hist) := by
  suffices ∀ (h : List (Nat × ViewOp)) (b : BookView) (past : List (Nat × ViewOp)),
      b.sheets.length = n →
      (∀ i v, b.sheets[i]? = some v → v.Consistent ∧ ViewRel v (callsOn i past)) →
      (b.run (sheetCalls h)).sheets.length = n ∧
      ∀ i v, (b.run (sheetCalls h)).sheets[i]? = some v →
        v.Consistent ∧ ViewRel v (callsOn i (past ++ h)) by
    have := this hist (BookView.new n) [] (by simp [BookView.new]) (by
      intro i v hv
      simp [BookView.new, List.getElem?_replicate] at hv
      obtain ⟨_, rfl⟩ := hv
      exact ⟨⟨by simp, by simp⟩, ⟨rfl, rfl, rfl⟩⟩)
    simpa using this
  intro h
  induction h with
  | nil => intro b past hl hb; simpa [sheetCalls, BookView.run] using ⟨hl, hb⟩
  | cons p h ih =>
    intro b past hl hb
    have := ih (b.exec (.sheet p.1 p.2)) (past ++ [p]) (by simp [BookView.exec, hl]) (by
      intro i v hv
      simp only [BookView.exec, List.getElem?_modify] at hv
      rw [callsOn_append]
      cases hs : b.sheets[i]? with
      | none => simp [hs] at hv
      | some w =>
        simp [hs] at hv
        obtain ⟨hc, hr⟩ := hb i w hs
        by_cases hp : p.1 = i
        · simp [hp] at hv ⊢; subst hv
          exact ⟨consistent_exec _ _ hc, viewRel_exec _ _ _ hc hr⟩
        · simp [hp] at hv ⊢; subst hv; exact ⟨hc, hr⟩)
    simpa [sheetCalls, BookView.run] using this

/-- The conditions under which a written view makes sense to Excel: the active tab is an existing
sheet which is selected and visible, and no selected sheet is hidden. -/
def WrittenView.Valid (w : WrittenView) : Prop :=
  (∃ s, w.sheets[w.activeTab.getD 0]? = some s ∧ s.1 = true ∧ s.2 = .default) ∧
  ∀ s ∈ w.sheets, s.1 = true → s.2 = .default

theorem consistent_setActive (v : SheetView) (h : v.Consistent) (b : Bool) :
    (v.setActive b).Consistent := consistent_exec v (.setActive b) h

/-- Facts about one save of a workbook with consistent sheets. -/
theorem save_valid (b : BookView) (hb : ∀ v ∈ b.sheets, v.Consistent) :
    (b.exec .save).written.Valid ∧ ∀ v ∈ (b.exec .save).sheets, v.Consistent := by
  have hne : (if b.sheets = [] then [({} : SheetView)] else b.sheets) ≠ [] := by
    split <;> simp_all
  have hcons : ∀ v ∈ (if b.sheets = [] then [({} : SheetView)] else b.sheets), v.Consistent := by
    split
    · intro v hv; simp at hv; subst hv; exact ⟨by simp, by simp⟩
    · exact hb
  simp only [BookView.exec, BookView.setActiveWorksheets]
  generalize (if b.sheets = [] then [({} : SheetView)] else b.sheets) = L at hne hcons
  generalize hr : activeLoop L 0 (0, b.firstSheet) = r
  have hlt : r.1 < L.length := by
    rcases activeLoop_fst L 0 (0, b.firstSheet) with ⟨k, v, hk, _, he, _⟩ | ⟨_, he⟩
    · rw [← hr, he]
      have := (List.getElem?_eq_some_iff.mp hk).1
      omega
    · rw [← hr, he]; exact List.length_pos_iff.mpr hne
  have hcons' : ∀ v ∈ L.modify r.1 (·.setActive true), v.Consistent := by
    intro v hv
    obtain ⟨j, hj⟩ := List.mem_iff_getElem?.mp hv
    rw [List.getElem?_modify] at hj
    cases hs : L[j]? with
    | none => simp [hs] at hj
    | some w =>
      have hw := hcons w (List.mem_iff_getElem?.mpr ⟨j, hs⟩)
      simp [hs] at hj
      split at hj
      · subst hj; exact consistent_setActive _ hw _
      · subst hj; exact hw
  refine ⟨⟨?_, ?_⟩, hcons'⟩
  · have hg : (BookView.written ⟨L.modify r.1 (·.setActive true), r.2, r.1⟩).activeTab.getD 0 = r.1 := by
      simp only [BookView.written]; split <;> simp <;> omega
    rw [hg]
    simp only [BookView.written, List.getElem?_map, List.getElem?_modify]
    rw [List.getElem?_eq_getElem hlt]
    exact ⟨_, by simp; rfl, by simp [SheetView.setActive], by simp [SheetView.setActive]⟩
  · intro s hs hsel
    simp only [BookView.written, List.mem_map] at hs
    obtain ⟨v, hv, rfl⟩ := hs
    exact (hcons' v hv).2 hsel

/-- **C40**, consistency: whatever calls and earlier saves came before, in whatever order, a saved
workbook always has a visible, selected active tab, and no hidden sheet is selected. -/
theorem C40_saved_view_valid (ops : List BookViewOp) :
    ((({ sheets := [] } : BookView).run ops).exec .save).written.Valid := by
  suffices ∀ (ops : List BookViewOp) (b : BookView), (∀ v ∈ b.sheets, v.Consistent) →
      ∀ v ∈ (b.run ops).sheets, v.Consistent from
    (save_valid _ (this ops _ (by simp))).1
  intro ops
  induction ops with
  | nil => intro b hb; exact hb
  | cons op ops ih =>
    intro b hb
    refine ih _ ?_
    cases op with
    | save => exact (save_valid b hb).2
    | addSheet =>
      intro v hv
      simp [BookView.exec] at hv
      rcases hv with hv | rfl
      · exact hb v hv
      · exact ⟨by simp, by simp⟩
    | sheet i op =>
      intro v hv
      obtain ⟨j, hj⟩ := List.mem_iff_getElem?.mp hv
      simp only [BookView.exec, List.getElem?_modify] at hj
      cases hs : b.sheets[j]? with
      | none => simp [hs] at hj
      | some w =>
        have hw := hb w (List.mem_iff_getElem?.mpr ⟨j, hs⟩)
        simp [hs] at hj
        split at hj
        · subst hj; exact consistent_exec _ _ hw
        · subst hj; exact hw

/-- **C40**, exactly: for every interleaving of calls on a workbook with `n > 0` sheets, the first
save makes the last sheet left activated the active tab (sheet 0 if there is none), and every sheet
is written selected / hidden exactly as its own calls left it, except that the active tab is
selected and visible. -/
theorem C40_active_tab (n : Nat) (hn : 0 < n) (hist : List (Nat × ViewOp)) (w : WrittenView)
    (hw : w = (((BookView.new n).run (sheetCalls hist)).exec .save).written) :
    IsActiveTab (fun i => leftActive (callsOn i hist)) n (w.activeTab.getD 0) ∧
    w.sheets.length = n ∧
    ∀ i, i < n → w.sheets[i]? = some
      (if i = w.activeTab.getD 0 then (true, .default)
       else (leftSelected (callsOn i hist), leftVisible (callsOn i hist))) := by
  obtain ⟨hl, hr⟩ := view_run n hist
  generalize hB : (BookView.new n).run (sheetCalls hist) = b at hl hr hw
  have hne : b.sheets ≠ [] := by intro h; rw [h] at hl; simp at hl; omega
  simp only [BookView.exec, BookView.setActiveWorksheets, if_neg hne] at hw
  generalize hq : activeLoop b.sheets 0 (0, b.firstSheet) = r at hw
  have hg : w.activeTab.getD 0 = r.1 := by
    rw [hw]; simp only [BookView.written]; split <;> simp <;> omega
  rw [hg]
  have hget : ∀ i, i < n → ∃ v, b.sheets[i]? = some v := fun i hi =>
    ⟨_, List.getElem?_eq_getElem (by omega)⟩
  refine ⟨?_, by rw [hw]; simp [BookView.written, hl], ?_⟩
  · rcases activeLoop_fst b.sheets 0 (0, b.firstSheet) with ⟨k, v, hk, hv, he, hlast⟩ | ⟨hn', he⟩
    · left
      rw [hq] at he
      have hkl := (List.getElem?_eq_some_iff.mp hk).1
      have he' : r.1 = k := by omega
      rw [he']
      refine ⟨by omega, by show leftActive (callsOn k hist) = true; rw [← (hr k v hk).2.act]; exact hv, ?_⟩
      intro j hj hjn
      obtain ⟨x, hx⟩ := hget j hjn
      show leftActive (callsOn j hist) = false
      rw [← (hr j x hx).2.act]
      exact hlast j x hj hx
    · right
      rw [hq] at he
      refine ⟨?_, he⟩
      intro j hj
      obtain ⟨x, hx⟩ := hget j hj
      show leftActive (callsOn j hist) = false
      rw [← (hr j x hx).2.act]
      exact hn' j x hx
  · intro i hi
    obtain ⟨x, hx⟩ := hget i hi
    rw [hw]
    simp only [BookView.written, List.getElem?_map, List.getElem?_modify, hx]
    by_cases h : i = r.1
    · subst h; simp [SheetView.setActive]
    · have h' : ¬ r.1 = i := fun e => h e.symm
      have hrel := (hr i x hx).2
      simp [h, h', hrel.sel, hrel.vis]

/-- **C40**, what the user hid stays hidden, as long as some sheet was activated or the first sheet
was not hidden. -/
theorem C40_hidden_stays_hidden (n : Nat) (hn : 0 < n) (hist : List (Nat × ViewOp))
    (hx : (∃ k, k < n ∧ leftActive (callsOn k hist) = true) ∨
      leftVisible (callsOn 0 hist) = .default)
    (w : WrittenView) (hw : w = (((BookView.new n).run (sheetCalls hist)).exec .save).written)
    (i : Nat) (hi : i < n) :
    (w.sheets[i]?).map (·.2) = some (leftVisible (callsOn i hist)) := by
  obtain ⟨ha, hlen, hs⟩ := C40_active_tab n hn hist w hw
  rw [hs i hi]
  by_cases h : i = w.activeTab.getD 0
  · simp only [h, if_true, Option.map_some]
    rw [← h]
    have hv : leftVisible (callsOn i hist) = .default := by
      rcases ha with ⟨hk, hka, _⟩ | ⟨hno, h0⟩
      · rw [← h] at hka
        obtain ⟨hl, hr⟩ := view_run n hist
        have hgi := List.getElem?_eq_getElem (show i < _ from hl ▸ hi)
        obtain ⟨hc, hr⟩ := hr i _ hgi
        rw [← hr.vis]
        exact hc.1 (by rw [hr.act]; exact hka)
      · rcases hx with ⟨k, hk, hka⟩ | hv
        · have := hno k hk; simp only at this; rw [hka] at this; cases this
        · rw [h, h0]; exact hv
    rw [hv]
  · simp [h]

/-- The exception is real (finding F58): hiding the first of two sheets without activating the
other gives a file in which the first sheet is visible. -/
theorem C40_hidden_first_sheet_counterexample :
    leftVisible (callsOn 0 [(0, .setHidden true)]) = .hidden ∧
    ((((BookView.new 2).run (sheetCalls [(0, .setHidden true)])).exec .save).written.sheets[0]?).map
      (·.2) = some .default := by decide +kernel

/-- `set_active` calls on two sheets: the sheet with the larger index becomes the active tab, not the
sheet activated last, and both stay selected (finding F60). -/
theorem C40_later_activation_counterexample :
    ((((BookView.new 3).run (sheetCalls [(2, .setActive true), (1, .setActive true)])).exec
      .save).written) = ⟨some 2, none, [(false, .default), (true, .default), (true, .default)]⟩ := by
  decide +kernel

/-- A `firstSheet` value survives the flag being removed before the next save (finding F59). -/
theorem C40_stale_first_tab_counterexample :
    (((BookView.new 3).run [.sheet 1 (.setFirstTab true), .save, .sheet 1 (.setFirstTab false),
      .save]).written).firstSheet = some 2 := by decide +kernel

/-- A non-trivial instance: three sheets, one hidden, one selected, the last active. -/
example : ((((BookView.new 3).run (sheetCalls [(0, .setHidden true), (1, .setSelected true),
    (2, .setActive true)])).exec .save).written) =
    ⟨some 2, none, [(false, .hidden), (true, .default), (true, .default)]⟩ ∧
    (∃ k, k < 3 ∧ leftActive (callsOn k [(0, .setHidden true), (1, .setSelected true),
    (2, .setActive true)]) = true) := ⟨by decide +kernel, 2, by decide, by decide +kernel⟩

end Verif
