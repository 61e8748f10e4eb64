import Verif.Model.SaveLists
/-!
C18, the objects of a worksheet: what a save writes after a history of edits and saves.
-/
namespace Verif
namespace SaveLists
variable {ρ ν β σ δ : Type}

/-! ### Specification -/

/-- The content after a history: that of the last edit. -/
def contentAfter (c0 : Content ρ ν β σ δ) (evs : List (Event ρ ν β σ δ)) : Content ρ ν β σ δ :=
  evs.foldl (fun c ev => match ev with | .edit c' => c' | _ => c) c0

/-- The file shows exactly the content: every note, button, header image, shape and other object
once, in order, and exactly the relationships of the content. -/
structure Shows (c : Content ρ ν β σ δ) (w : Written ρ ν β σ δ) : Prop where
  notes : w.vmlNotes = c.notes
  buttons : w.vmlButtons = c.buttons
  headers : w.vmlHeaders = c.headers
  objects : w.objects = c.objects
  shapes : w.shapes = c.shapes
  comment : w.rels.comment = c.rels.comment
  drawingObject : w.rels.drawingObject = c.rels.drawingObject
  drawing : w.rels.drawing = c.rels.drawing
  hyperlink : w.rels.hyperlink = c.rels.hyperlink ++ c.links
  table : w.rels.table = c.rels.table
  vmlDrawing : w.rels.vmlDrawing = c.rels.vmlDrawing
  background : w.rels.background = c.rels.background

/-- No save of the history failed after its preparation. -/
def noLateFailure (evs : List (Event ρ ν β σ δ)) : Prop :=
  ∀ ev ∈ evs, match ev with | .failLate => False | _ => True

/-! ### Proofs -/

private theorem anchors_spec (pre shapes : List σ) (objs : List δ) :
    writeAnchors (pre ++ shapes) pre.length (objs.map .object ++ shapes.map fun _ => .shape) =
      some (objs, shapes, pre.length + shapes.length) := by
  induction objs with
  | cons d l ih => rw [List.map_cons, List.cons_append]; unfold writeAnchors; rw [ih]; rfl
  | nil =>
    rw [List.map_nil, List.nil_append]
    induction shapes generalizing pre with
    | nil => rfl
    | cons s l ih =>
      have h1 : (pre ++ s :: l)[pre.length]? = some s := by simp
      have h2 := ih (pre ++ [s])
      rw [List.append_assoc, List.singleton_append, List.length_append, List.length_singleton] at h2
      rw [List.map_cons]
      unfold writeAnchors
      rw [h1]
      dsimp only
      rw [h2]
      simp only [Option.map_some, List.length_cons]
      congr 3
      omega

/-- Between saves: nothing is left over. -/
private def Clean (s : WSheet ρ ν β σ δ) : Prop :=
  s.commentsVml = [] ∧ s.buttonsVml = [] ∧ s.shapeId = s.drawingShapes.length

private theorem Clean.save {s : WSheet ρ ν β σ δ} (h : Clean s) :
    ∃ s' w, s.save = some (s', w) ∧ Clean s' ∧ s'.content = s.content ∧ Shows s.content w := by
  obtain ⟨h1, h2, h3⟩ := h
  have ha : writeAnchors (s.drawingShapes ++ s.content.shapes) s.shapeId
      ([] ++ s.content.objects.map .object ++ s.content.shapes.map fun _ => (.shape : Anchor δ)) =
      some (s.content.objects, s.content.shapes, s.shapeId + s.content.shapes.length) := by
    rw [List.nil_append, h3]; exact anchors_spec _ _ _
  have ha' : writeAnchors s.reset.prepare.drawingShapes s.reset.prepare.shapeId s.reset.prepare.drawings =
      some (s.content.objects, s.content.shapes, s.shapeId + s.content.shapes.length) := ha
  unfold WSheet.save WSheet.package
  rw [ha']
  refine ⟨_, _, rfl, ⟨rfl, rfl, ?_⟩, rfl, ?_⟩
  · show s.shapeId + _ = (s.drawingShapes ++ s.content.shapes).length
    rw [List.length_append, h3]
  · refine ⟨?_, ?_, ?_, rfl, rfl, ?_, ?_, ?_, ?_, ?_, ?_, ?_⟩
    · show s.commentsVml ++ s.content.notes = _
      rw [h1, List.nil_append]
    · show s.buttonsVml ++ s.content.buttons = _
      rw [h2, List.nil_append]
    all_goals rfl

private theorem Clean.run {s : WSheet ρ ν β σ δ} (h : Clean s) {evs : List (Event ρ ν β σ δ)}
    (hev : noLateFailure evs) :
    ∃ s', s.run evs = some s' ∧ Clean s' ∧ s'.content = contentAfter s.content evs := by
  induction evs generalizing s with
  | nil => exact ⟨s, rfl, h, rfl⟩
  | cons ev evs ih =>
    have hrest : noLateFailure evs := fun e he => hev e (List.mem_cons_of_mem _ he)
    have hstep : ∃ s1, s.step ev = some s1 ∧ Clean s1 ∧ s1.content = contentAfter s.content [ev] := by
      cases ev with
      | edit c => exact ⟨_, rfl, h, rfl⟩
      | save =>
        obtain ⟨s', w, e, hc, hcc, _⟩ := h.save
        exact ⟨s', by unfold WSheet.step; rw [e]; rfl, hc, hcc⟩
      | failEarly => exact ⟨_, rfl, h, rfl⟩
      | failLate => exact (hev .failLate List.mem_cons_self).elim
    obtain ⟨s1, e1, hc1, hcc1⟩ := hstep
    obtain ⟨s', e', hc', hcc'⟩ := ih hc1 hrest
    refine ⟨s', ?_, hc', ?_⟩
    · show (s.step ev).bind (fun s => s.run evs) = some s'
      rw [e1]; exact e'
    · rw [hcc', hcc1]; rfl

/-- C18 (partial: no save of the history failed after its preparation): after every history of
edits, successful saves and saves refused by the name checks, `save()` succeeds without a panic and
the file shows exactly the current content: nothing from an earlier save is left. -/
theorem C18_objects_partial (c0 : Content ρ ν β σ δ) (evs : List (Event ρ ν β σ δ)) (h : noLateFailure evs) :
    ∃ s s' w, WSheet.run { content := c0 } evs = some s ∧ s.save = some (s', w) ∧
      Shows (contentAfter c0 evs) w := by
  obtain ⟨s, e, hc, hcc⟩ := Clean.run (s := { content := c0 }) ⟨rfl, rfl, rfl⟩ h
  obtain ⟨s', w, es, _, _, hw⟩ := hc.save
  rw [hcc] at hw
  exact ⟨s, s', w, e, es, hw⟩

/-! ### Concrete cases -/

/-- A content with two notes, a button, a picture and a shape. -/
def demoContent (shape : Nat) : Content Nat Nat Nat Nat Nat where
  notes := [1, 2]
  buttons := [3]
  headers := [4]
  objects := [5]
  shapes := [shape]
  rels := { comment := [7], drawingObject := [8, 9] }
  links := [10]

/-- Edits and saves, one of them refused. -/
def demoEvents : List (Event Nat Nat Nat Nat Nat) :=
  [.save, .failEarly, .edit (demoContent 6), .save, .edit (demoContent 7), .save, .save]

example : noLateFailure demoEvents := by
  intro ev h
  simp only [demoEvents, List.mem_cons, List.not_mem_nil, or_false] at h
  rcases h with rfl | rfl | rfl | rfl | rfl | rfl | rfl <;> trivial
example : contentAfter (demoContent 0) demoEvents = demoContent 7 := rfl
example : ((WSheet.run { content := demoContent 0 } demoEvents).bind (·.save)).map
    (fun r => (r.2.vmlNotes, r.2.vmlButtons, r.2.shapes, r.2.rels.comment)) = some ([1, 2], [3], [7], [7]) := by
  decide +kernel

/-- C18 is false after a save that failed between the preparation and the package, for example
because a chart refers to a worksheet that is only added afterwards: every note and button is in
the VML part twice (finding F24), and a shape that was replaced since is written in its old form
(finding F23). -/
theorem C18_failed_save_counterexample :
    ((WSheet.run { content := demoContent 6 } [.failLate, .edit (demoContent 7)]).bind (·.save)).map
      (fun r => (r.2.vmlNotes, r.2.vmlButtons, r.2.shapes, r.2.rels.comment)) =
    some ([1, 2, 1, 2], [3, 3], [6], [7]) := by decide +kernel

/-! ### `show_all_notes` -/

/-- C18: at the first save a note is shown if it was made visible, or if it has no setting of its
own and the worksheet shows all notes. -/
theorem C18_notes_shown (showAll : Bool) (notes : List (Option Bool)) (i : Nat) (v : Option Bool)
    (h : notes[i]? = some v) :
    (prepareVisible showAll notes)[i]?.map shown = some (v == some true || (v == none && showAll)) := by
  unfold prepareVisible
  rw [List.getElem?_map, h]
  cases v with
  | none => cases showAll <;> rfl
  | some b => cases b <;> cases showAll <;> rfl

/-- C18 is false for `show_all_notes`: after a save with `show_all_notes(true)` and a call of
`show_all_notes(false)` the next file still shows all notes (finding F114). -/
theorem C18_show_all_notes_counterexample :
    (prepareVisible false (prepareVisible true [none, some false])).map shown = [true, false] ∧
    (prepareVisible false [none, some false]).map shown = [false, false] := by decide

end SaveLists
end Verif
