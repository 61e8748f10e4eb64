import Verif.Spec.Setup
import Verif.Props.DataValidPart
import Verif.Props.HeaderFooter
/-!
The settings after a run of calls, field by field.
-/
namespace Verif
open Spec

theorem lastSaid_cons {κ α : Type} (f : κ → Option α) (x : α) (c : κ) (calls : List κ) :
    lastSaid f x (c :: calls) = lastSaid f ((f c).getD x) calls := by
  unfold lastSaid
  rw [List.reverse_cons, List.findSome?_append]
  cases calls.reverse.findSome? f with
  | some y => rfl
  | none => cases e : f c <;> simp [e]

/-- A field that each call either replaces or leaves has the last value that was said. -/
theorem run_field {α : Type} (f : Setup → α) (said : SetupCall → Option α) (calls : List SetupCall)
    (h : ∀ s, ∀ c ∈ calls, f (s.exec c).2 = (said c).getD (f s)) (s : Setup) : f (s.run calls) = lastSaid said (f s) calls := by
  induction calls generalizing s with
  | nil => rfl
  | cons c calls ih =>
    rw [lastSaid_cons, ← h s c List.mem_cons_self]
    exact ih (fun s c hc => h s c (List.mem_cons_of_mem _ hc)) _

/-- A condition that all calls keep. -/
theorem run_keeps (P : Setup → Prop) (calls : List SetupCall) (h : ∀ s, ∀ c ∈ calls, P s → P (s.exec c).2) {s : Setup} (hs : P s) :
    P (s.run calls) := by
  induction calls generalizing s with
  | nil => exact hs
  | cons c calls ih =>
    exact ih (fun s c hc => h s c (List.mem_cons_of_mem _ hc)) (h s c List.mem_cons_self hs)

/-- The scaling of the settings. -/
def Setup.scaling (s : Setup) : Scaling := if s.fitToPage then .fit s.fitWidth s.fitHeight else .percent s.printScale

/-- Settings that were not changed are those of a new sheet. -/
structure SetupInv (s : Setup) : Prop where
  page : s.pageSetupChanged = false → s.paperSize = 0 ∧ s.isPortrait = true ∧ s.printScale = 100 ∧ s.fitToPage = false ∧
    s.defaultPageOrder = true ∧ s.firstPageNumber = 0 ∧ s.blackAndWhite = false ∧ s.draft = false
  print : s.printOptionsChanged = false → s.centerHorizontally = false ∧ s.centerVertically = false ∧ s.headings = false ∧
    s.printGridlines = false
  hf : s.headFooterChanged = false → s.header = [] ∧ s.footer = [] ∧ s.scaleWithDoc = true ∧ s.alignWithPage = true
  fit : s.fitToPage = true → s.printScale = 100

theorem setupInv_exec {s : Setup} (h : SetupInv s) (c : SetupCall) : SetupInv (s.exec c).2 := by
  obtain ⟨h1, h2, h3, h4⟩ := h
  cases c <;> simp only [Setup.exec] <;> (repeat' split) <;> constructor <;> first | assumption | grind

theorem setupInv_run (calls : List SetupCall) : SetupInv (Setup.run {} calls) :=
  run_keeps SetupInv calls (fun _ c _ h => setupInv_exec h c)
    ⟨fun _ => ⟨rfl, rfl, rfl, rfl, rfl, rfl, rfl, rfl⟩, fun _ => ⟨rfl, rfl, rfl, rfl⟩, fun _ => ⟨rfl, rfl, rfl, rfl⟩, fun h => by cases h⟩

/-- One field by cases of the calls. -/
macro "field_cases" : tactic =>
  `(tactic| (intro s c _; cases c <;> simp only [Setup.exec] <;> (repeat' split) <;> first | rfl | simp_all))

theorem run_paperSize (calls : List SetupCall) : (Setup.run {} calls).paperSize = (pageMeant calls).paper :=
  run_field (·.paperSize) _ calls (by field_cases) {}

theorem run_portrait (calls : List SetupCall) : (!(Setup.run {} calls).isPortrait) = (pageMeant calls).landscape :=
  run_field (fun s => !s.isPortrait) _ calls (by field_cases) {}

theorem run_scaling (calls : List SetupCall) : (Setup.run {} calls).scaling = (pageMeant calls).scaling :=
  run_field (·.scaling) _ calls (by
    intro s c _
    cases c <;> simp only [Setup.exec] <;> (repeat' split) <;> first | rfl | simp_all [Setup.scaling]) {}

theorem run_order (calls : List SetupCall) : (!(Setup.run {} calls).defaultPageOrder) = (pageMeant calls).overThenDown :=
  run_field (fun s => !s.defaultPageOrder) _ calls (by field_cases) {}

theorem run_bw (calls : List SetupCall) : (Setup.run {} calls).blackAndWhite = (pageMeant calls).blackAndWhite :=
  run_field (·.blackAndWhite) _ calls (by field_cases) {}

theorem run_draft (calls : List SetupCall) : (Setup.run {} calls).draft = (pageMeant calls).draft :=
  run_field (·.draft) _ calls (by field_cases) {}

theorem setMargin_getD (x : Str) (o : Option Str) : setMargin x o = o.getD x := by cases o <;> rfl

theorem run_left (calls : List SetupCall) : (Setup.run {} calls).marginLeft = (pageMeant calls).left :=
  run_field (·.marginLeft) _ calls (by
    intro s c _
    cases c <;> simp only [Setup.exec] <;> (repeat' split) <;> first | rfl | exact setMargin_getD _ _) {}
theorem run_right (calls : List SetupCall) : (Setup.run {} calls).marginRight = (pageMeant calls).right :=
  run_field (·.marginRight) _ calls (by
    intro s c _
    cases c <;> simp only [Setup.exec] <;> (repeat' split) <;> first | rfl | exact setMargin_getD _ _) {}
theorem run_top (calls : List SetupCall) : (Setup.run {} calls).marginTop = (pageMeant calls).top :=
  run_field (·.marginTop) _ calls (by
    intro s c _
    cases c <;> simp only [Setup.exec] <;> (repeat' split) <;> first | rfl | exact setMargin_getD _ _) {}
theorem run_bottom (calls : List SetupCall) : (Setup.run {} calls).marginBottom = (pageMeant calls).bottom :=
  run_field (·.marginBottom) _ calls (by
    intro s c _
    cases c <;> simp only [Setup.exec] <;> (repeat' split) <;> first | rfl | exact setMargin_getD _ _) {}
theorem run_marginHeader (calls : List SetupCall) : (Setup.run {} calls).marginHeader = (pageMeant calls).headerMargin :=
  run_field (·.marginHeader) _ calls (by
    intro s c _
    cases c <;> simp only [Setup.exec] <;> (repeat' split) <;> first | rfl | exact setMargin_getD _ _) {}
theorem run_marginFooter (calls : List SetupCall) : (Setup.run {} calls).marginFooter = (pageMeant calls).footerMargin :=
  run_field (·.marginFooter) _ calls (by
    intro s c _
    cases c <;> simp only [Setup.exec] <;> (repeat' split) <;> first | rfl | exact setMargin_getD _ _) {}

theorem run_centerH (calls : List SetupCall) : (Setup.run {} calls).centerHorizontally = (pageMeant calls).centerHorizontally :=
  run_field (·.centerHorizontally) _ calls (by field_cases) {}
theorem run_centerV (calls : List SetupCall) : (Setup.run {} calls).centerVertically = (pageMeant calls).centerVertically :=
  run_field (·.centerVertically) _ calls (by field_cases) {}
theorem run_headings (calls : List SetupCall) : (Setup.run {} calls).headings = (pageMeant calls).headings :=
  run_field (·.headings) _ calls (by field_cases) {}
theorem run_gridlines (calls : List SetupCall) : (Setup.run {} calls).printGridlines = (pageMeant calls).gridlines :=
  run_field (·.printGridlines) _ calls (by field_cases) {}
theorem run_scaleWithDoc (calls : List SetupCall) : (Setup.run {} calls).scaleWithDoc = (pageMeant calls).scaleWithDoc :=
  run_field (·.scaleWithDoc) _ calls (by field_cases) {}
theorem run_align (calls : List SetupCall) : (Setup.run {} calls).alignWithPage = (pageMeant calls).alignWithMargins :=
  run_field (·.alignWithPage) _ calls (by field_cases) {}

/-- The texts of the calls: no text has `&&[` in it. -/
def HfCall : SetupCall → Prop
  | .header t => NoAmp t ∧ attrSafe t = true
  | .footer t => NoAmp t ∧ attrSafe t = true
  | _ => True

theorem run_header (calls : List SetupCall) (h : ∀ c ∈ calls, HfCall c) :
    hfParts hfNames (Setup.run {} calls).header = (pageMeant calls).header := by
  refine congrArg (hfParts hfNames) (run_field (·.header) _ calls ?_ {})
  intro s c hc
  cases c <;> simp only [Setup.exec] <;> (repeat' split) <;> try rfl
  · rename_i t ht
    rw [expandHeader_length (h _ hc).1] at t
    omega
  · rename_i t ht
    rw [expandHeader_length (h _ hc).1] at t
    omega

theorem run_footer (calls : List SetupCall) (h : ∀ c ∈ calls, HfCall c) :
    hfParts hfNames (Setup.run {} calls).footer = (pageMeant calls).footer := by
  refine congrArg (hfParts hfNames) (run_field (·.footer) _ calls ?_ {})
  intro s c hc
  cases c <;> simp only [Setup.exec] <;> (repeat' split) <;> try rfl
  · rename_i t ht
    rw [expandHeader_length (h _ hc).1] at t
    omega
  · rename_i t ht
    rw [expandHeader_length (h _ hc).1] at t
    omega

end Verif
