import Verif.Lemmas.PackageNames
/-!
The lists of one sheet after the preparations of a save, in terms of the sheets before it.
-/
namespace Verif
open Spec

/-- The state of `prepare_drawings` after some sheets. -/
def drawState (b : DrawBook) (l : List PSheet) : DrawBook := l.foldl (fun b s => (prepDrawing b s).1) b

theorem prepDrawings_append (b : DrawBook) (pre post : List PSheet) :
    prepDrawings b (pre ++ post) = prepDrawings b pre ++ prepDrawings (drawState b pre) post := by
  induction pre generalizing b with
  | nil => rfl
  | cons s t ih =>
    simp only [List.cons_append, prepDrawings, drawState, List.foldl_cons]
    rw [ih]
    rfl

theorem prepDrawings_fst (b : DrawBook) (l : List PSheet) : (prepDrawings b l).map Prod.fst = l := by
  induction l generalizing b with
  | nil => rfl
  | cons s t ih => simp only [prepDrawings, List.map_cons, ih]

/-- The number of VML files of a sheet. -/
def nVml (s : PSheet) : Nat := (if s.hasVml then 1 else 0) + (if s.hf ≠ [] then 1 else 0)

/-- The number of VML files of the sheets. -/
def vmlCount (l : List PSheet) : Nat := (l.map nVml).sum

/-- The number of sheets with notes. -/
def noteCount (l : List PSheet) : Nat := (l.filter fun s => s.notes.isSome).length

/-- What `prepare_vml` adds to a sheet. -/
def vmlAdd (c v : Nat) (s : PSheet) (p : Prep) : Prep :=
  { p with
    drawingObject := p.drawingObject ++ (if s.hasVml then [vmlRel v] else []) ++
      (if s.hf ≠ [] then [vmlRel (v + if s.hasVml then 1 else 0)] else [])
    comment := p.comment ++ (if s.notes.isSome then [commentRel c] else []) }

theorem prepVmls_cons (c v : Nat) (s : PSheet) (p : Prep) (t : List (PSheet × Prep)) :
    prepVmls c v ((s, p) :: t) = (s, vmlAdd c v s p) ::
      prepVmls (c + if s.notes.isSome then 1 else 0) (v + nVml s) t := by
  rw [prepVmls]
  have hn : s.notes.isSome = true → s.hasVml = true := by
    intro h; simp [PSheet.hasVml, h]
  by_cases h1 : s.hasVml = true
  · by_cases h2 : s.notes.isSome = true
    · by_cases h3 : s.hf = []
      · simp [h1, h2, h3, vmlAdd, nVml]
      · simp [h1, h2, h3, vmlAdd, nVml]
    · by_cases h3 : s.hf = []
      · simp [h1, h2, h3, vmlAdd, nVml]
      · simp [h1, h2, h3, vmlAdd, nVml]
  · have h2 : ¬ s.notes.isSome = true := fun h => h1 (hn h)
    by_cases h3 : s.hf = []
    · simp [h1, h2, h3, vmlAdd, nVml]
    · simp [h1, h2, h3, vmlAdd, nVml]

theorem prepVmls_append (c v : Nat) (pre post : List (PSheet × Prep)) :
    prepVmls c v (pre ++ post) = prepVmls c v pre ++
      prepVmls (c + noteCount (pre.map Prod.fst)) (v + vmlCount (pre.map Prod.fst)) post := by
  induction pre generalizing c v with
  | nil => rfl
  | cons x t ih =>
    obtain ⟨s, p⟩ := x
    rw [List.cons_append, prepVmls_cons, prepVmls_cons, ih, List.cons_append]
    congr 2
    congr 1
    · simp only [noteCount, List.map_cons, List.filter_cons]
      by_cases h : s.notes.isSome = true
      · simp only [h, if_true, List.length_cons]; omega
      · simp only [h]; simp
    · simp only [vmlCount, List.map_cons, List.sum_cons]; omega

theorem prepVmls_fst (c v : Nat) (l : List (PSheet × Prep)) :
    (prepVmls c v l).map Prod.fst = l.map Prod.fst := by
  induction l generalizing c v with
  | nil => rfl
  | cons x t ih =>
    obtain ⟨s, p⟩ := x
    rw [prepVmls_cons, List.map_cons, List.map_cons, ih]

theorem prepTables_append (n : Nat) (pre post : List (PSheet × Prep)) :
    prepTables n (pre ++ post) = prepTables n pre ++
      prepTables (n + (pre.map fun x => x.1.tables.length).sum) post := by
  induction pre generalizing n with
  | nil => rfl
  | cons x t ih =>
    obtain ⟨s, p⟩ := x
    simp only [List.cons_append, prepTables, ih, List.map_cons, List.sum_cons]
    rw [Nat.add_assoc]

theorem prepTables_fst (n : Nat) (l : List (PSheet × Prep)) :
    (prepTables n l).map Prod.fst = l.map Prod.fst := by
  induction l generalizing n with
  | nil => rfl
  | cons x t ih =>
    obtain ⟨s, p⟩ := x
    simp only [prepTables, List.map_cons, ih]

/-- The state before the first sheet. -/
def PBook.draw0 (b : PBook) : DrawBook := { imageId := b.embeddeds.1.length }

/-- The number of tables of some sheets. -/
def tableCount (l : List PSheet) : Nat := (l.map fun s => s.tables.length).sum

/-- The lists of a sheet that follows the sheets `pre`. -/
def PBook.prepAt (b : PBook) (pre : List PSheet) (s : PSheet) : Prep :=
  { vmlAdd (1 + noteCount pre) (1 + vmlCount pre) s (prepDrawing (drawState b.draw0 pre) s).2 with
    table := (List.range s.tables.length).map fun k => tableRel (1 + tableCount pre + k) }

theorem prepared_split (b : PBook) (pre : List PSheet) (s : PSheet) (post : List PSheet)
    (h : b.allSheets = pre ++ s :: post) :
    ∃ P Q, b.prepared = P ++ (s, b.prepAt pre s) :: Q ∧ P.map Prod.fst = pre ∧ Q.map Prod.fst = post := by
  have e1 : prepDrawings b.draw0 (pre ++ s :: post) = prepDrawings b.draw0 pre ++
      (s, (prepDrawing (drawState b.draw0 pre) s).2) ::
        prepDrawings (prepDrawing (drawState b.draw0 pre) s).1 post := by
    rw [prepDrawings_append]; rfl
  have e2 : b.prepared = prepTables 1 (prepVmls 1 1 (prepDrawings b.draw0 (pre ++ s :: post))) := by
    rw [PBook.prepared, h]; rfl
  rw [e1, prepVmls_append, prepVmls_cons, prepDrawings_fst, prepTables_append] at e2
  have e3 : (List.map (fun x => x.fst.tables.length) (prepVmls 1 1 (prepDrawings b.draw0 pre))).sum =
      tableCount pre := by
    have := prepVmls_fst 1 1 (prepDrawings b.draw0 pre)
    rw [prepDrawings_fst] at this
    rw [tableCount, ← this, List.map_map]
    rw [this]; rfl
  rw [e3, prepTables] at e2
  refine ⟨_, _, e2, ?_, ?_⟩
  · rw [prepTables_fst, prepVmls_fst, prepDrawings_fst]
  · rw [prepTables_fst, prepVmls_fst, prepDrawings_fst]

theorem prepared_fst (b : PBook) : b.prepared.map Prod.fst = b.allSheets := by
  rw [PBook.prepared, prepTables_fst, prepVmls_fst, prepDrawings_fst]

/-! ### The stages of `prepDrawing` -/

/-- After the background image. -/
def stBg (b : DrawBook) (s : PSheet) : DrawBook := (prepBackground b s.background).1
/-- After the images. -/
def stImg (b : DrawBook) (s : PSheet) : DrawBook × RelIds × List DrawObj :=
  prepImages (stBg b s) {} s.images
/-- After the charts. -/
def stChart (b : DrawBook) (s : PSheet) : RelIds × List DrawObj :=
  if s.charts = [] then ((stImg b s).2.1, []) else prepCharts (stImg b s).2.1 (stImg b s).1.chartId s.charts.length
/-- After the shapes. -/
def stShape (b : DrawBook) (s : PSheet) : RelIds × List DrawObj := prepShapes (stChart b s).1 s.shapes
/-- After the header and footer images. -/
def stHf (b : DrawBook) (s : PSheet) : List (Str × Nat) × List PRel × List Str :=
  prepHeader ((stImg b s).1.backgroundIds.length + (stImg b s).1.worksheetIds.length)
    (stImg b s).1.headerIds [] [] s.hf

theorem prepDrawing_background (b : DrawBook) (s : PSheet) :
    (prepDrawing b s).2.background = (prepBackground b s.background).2 := rfl
theorem prepDrawing_drawing (b : DrawBook) (s : PSheet) :
    (prepDrawing b s).2.drawing = (stShape b s).1.rels := rfl
theorem prepDrawing_objs (b : DrawBook) (s : PSheet) :
    (prepDrawing b s).2.objs = (stImg b s).2.2 ++ (stChart b s).2 ++ (stShape b s).2 := rfl
theorem prepDrawing_comment (b : DrawBook) (s : PSheet) : (prepDrawing b s).2.comment = [] := rfl

theorem prepDrawing_fst (b : DrawBook) (s : PSheet) :
    (prepDrawing b s).1 =
      { chartId := (stImg b s).1.chartId + s.charts.length
        drawingId := (stImg b s).1.drawingId + if s.hasDrawing then 1 else 0
        imageId := (stImg b s).1.imageId
        worksheetIds := (stImg b s).1.worksheetIds
        headerIds := (stHf b s).1
        backgroundIds := (stImg b s).1.backgroundIds } := by
  by_cases h : s.hasDrawing = true
  · simp only [prepDrawing, h, if_true]; rfl
  · simp only [prepDrawing, h]; rfl

theorem prepDrawing_hf (b : DrawBook) (s : PSheet) :
    (prepDrawing b s).2.vmlDrawing = (stHf b s).2.1 ∧ (prepDrawing b s).2.hfIds = (stHf b s).2.2 := by
  by_cases h : s.hasDrawing = true
  · simp only [prepDrawing, h, if_true]; exact ⟨rfl, rfl⟩
  · simp only [prepDrawing, h]; exact ⟨rfl, rfl⟩

theorem prepBackground_ids (b : DrawBook) (o : Option PImage) :
    (prepBackground b o).1.chartId = b.chartId ∧ (prepBackground b o).1.drawingId = b.drawingId ∧
    (prepBackground b o).1.headerIds = b.headerIds ∧
    (prepBackground b o).1.worksheetIds = b.worksheetIds := by
  cases o with
  | none => exact ⟨rfl, rfl, rfl, rfl⟩
  | some im =>
    simp only [prepBackground]
    split <;> exact ⟨rfl, rfl, rfl, rfl⟩

theorem prepImages_ids (b : DrawBook) (r : RelIds) (l : List PImage) :
    (prepImages b r l).1.chartId = b.chartId ∧ (prepImages b r l).1.drawingId = b.drawingId ∧
    (prepImages b r l).1.headerIds = b.headerIds ∧
    (prepImages b r l).1.backgroundIds = b.backgroundIds ∧
    (prepImages b r l).2.2.length = l.length := by
  induction l generalizing b r with
  | nil => exact ⟨rfl, rfl, rfl, rfl, rfl⟩
  | cons im t ih =>
    have h := ih (prepImage b r im).1 (prepImage b r im).2.1
    have h1 : (prepImage b r im).1.chartId = b.chartId ∧ (prepImage b r im).1.drawingId = b.drawingId ∧
        (prepImage b r im).1.headerIds = b.headerIds ∧
        (prepImage b r im).1.backgroundIds = b.backgroundIds := by
      simp only [prepImage]
      split <;> exact ⟨rfl, rfl, rfl, rfl⟩
    simp only [prepImages, List.length_cons]
    exact ⟨h.1.trans h1.1, h.2.1.trans h1.2.1, h.2.2.1.trans h1.2.2.1, h.2.2.2.1.trans h1.2.2.2,
      by rw [h.2.2.2.2]⟩

theorem stImg_ids (b : DrawBook) (s : PSheet) :
    (stImg b s).1.chartId = b.chartId ∧ (stImg b s).1.drawingId = b.drawingId ∧
    (stImg b s).1.headerIds = b.headerIds := by
  have h1 := prepBackground_ids b s.background
  have h2 := prepImages_ids (stBg b s) {} s.images
  exact ⟨h2.1.trans h1.1, h2.2.1.trans h1.2.1, h2.2.2.1.trans h1.2.2.1⟩

theorem prepShapes_length (r : RelIds) (l : List (Nat × Option PUrl)) :
    (prepShapes r l).2.length = l.length := by
  induction l generalizing r with
  | nil => rfl
  | cons x t ih =>
    obtain ⟨n, u⟩ := x
    simp only [prepShapes, List.length_cons]
    rw [ih]

theorem objs_isEmpty (b : DrawBook) (s : PSheet) :
    (!(prepDrawing b s).2.objs.isEmpty) = s.hasDrawing := by
  have h1 := (prepImages_ids (stBg b s) {} s.images).2.2.2.2
  have h2 : (stChart b s).2.length = s.charts.length := by
    rw [stChart]
    split
    · rename_i h; simp [h]
    · simp [prepCharts]
  have h3 := prepShapes_length (stChart b s).1 s.shapes
  have e : (prepDrawing b s).2.objs.length = s.images.length + s.charts.length + s.shapes.length := by
    rw [prepDrawing_objs, List.length_append, List.length_append, h2]
    rw [show (stImg b s).2.2.length = s.images.length from h1,
      show (stShape b s).2.length = s.shapes.length from h3]
  have hk : ∀ {α : Type} (l : List α), (!l.isEmpty) = decide (l.length ≠ 0) := by
    intro α l; cases l <;> simp
  rw [PSheet.hasDrawing, hk, hk, hk, hk, e]
  simp only [← Bool.decide_or]
  apply decide_eq_decide.2
  omega

theorem prepDrawing_drawingObject (b : DrawBook) (s : PSheet) :
    (prepDrawing b s).2.drawingObject = if s.hasDrawing then [drawingRel b.drawingId] else [] := by
  have hd := (stImg_ids b s).2.1
  have e : (prepDrawing b s).2.drawingObject =
      (let o := if s.images = [] then [] else [drawingRel (stImg b s).1.drawingId]
       let o := if s.charts = [] ∨ s.images ≠ [] then o else [drawingRel (stImg b s).1.drawingId]
       if s.shapes ≠ [] ∧ o = [] then [drawingRel (stImg b s).1.drawingId] else o) := rfl
  rw [e, hd]
  unfold PSheet.hasDrawing
  by_cases h1 : s.images = []
  · by_cases h2 : s.charts = []
    · by_cases h3 : s.shapes = []
      · simp [h1, h2, h3]
      · simp [h1, h2, h3]
    · simp [h1, h2]
  · simp [h1]

theorem drawState_ids (b : DrawBook) (l : List PSheet) :
    (drawState b l).drawingId = b.drawingId + (l.filter PSheet.hasDrawing).length ∧
    (drawState b l).chartId = b.chartId + (l.map fun s => s.charts.length).sum := by
  induction l generalizing b with
  | nil => exact ⟨rfl, rfl⟩
  | cons s t ih =>
    have h := ih (prepDrawing b s).1
    have h1 := stImg_ids b s
    have e1 : (prepDrawing b s).1.drawingId = b.drawingId + if s.hasDrawing then 1 else 0 := by
      rw [prepDrawing_fst]; dsimp only; rw [h1.2.1]
    have e2 : (prepDrawing b s).1.chartId = b.chartId + s.charts.length := by
      rw [prepDrawing_fst]; dsimp only; rw [h1.1]
    rw [e1, e2] at h
    have hs : drawState b (s :: t) = drawState (prepDrawing b s).1 t := rfl
    rw [hs, h.1, h.2, List.map_cons, List.sum_cons, List.filter_cons]
    refine ⟨?_, by omega⟩
    split
    · rw [List.length_cons]; omega
    · omega

end Verif
