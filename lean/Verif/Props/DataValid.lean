import Verif.Spec.DataValid
import Verif.Props.CondValue
import Verif.Props.Sparkline
/-! Data validations in the file are those that were added (C57). -/
namespace Verif
open Spec

/-! ### The calls on a validation -/

theorem lastSaid_snoc {κ α : Type} (f : κ → Option α) (x : α) (calls : List κ) (c : κ) :
    lastSaid f x (calls ++ [c]) = (f c).getD (lastSaid f x calls) := by
  unfold lastSaid
  rw [List.reverse_append, List.reverse_singleton, List.singleton_append, List.findSome?_cons]
  cases f c <;> rfl

/-- The operator and values of a stored rule. -/
def compareOf : DvRule → Option (OpSeen × List Text)
  | .equalTo v => some (.equal, [v])
  | .notEqualTo v => some (.notEqual, [v])
  | .greaterThan v => some (.greaterThan, [v])
  | .greaterThanOrEqualTo v => some (.greaterThanOrEqual, [v])
  | .lessThan v => some (.lessThan, [v])
  | .lessThanOrEqualTo v => some (.lessThanOrEqual, [v])
  | .between a b => some (.between, [a, b])
  | .notBetween a b => some (.notBetween, [a, b])
  | .customFormula _ => none
  | .listSource _ => none

/-- What a stored validation allows. -/
def allowedOf : DvType → DvRule → Option Allowed
  | .any, _ => some .any
  | .whole, r => (compareOf r).map fun p => .whole p.1 p.2
  | .decimal, r => (compareOf r).map fun p => .decimal p.1 p.2
  | .date, r => (compareOf r).map fun p => .date p.1 p.2
  | .time, r => (compareOf r).map fun p => .time p.1 p.2
  | .textLength, r => (compareOf r).map fun p => .textLength p.1 p.2
  | .list, .listSource f => some (.list f)
  | .custom, .customFormula f => some (.custom f)
  | _, _ => none

theorem compareOf_internal (r : DvUserRule) : compareOf r.internal = some (compareMeant r) := by cases r <;> rfl

/-- A validation after calls. -/
structure DvRel (d : DataValidation) (calls : List DvCall) : Prop where
  allowed : allowedOf d.type d.rule = some (allowedBy calls)
  style : d.style = lastSaid (fun c => match c with | .errorStyle s => some s | _ => none) .stop calls
  blank : d.ignoreBlank = lastSaid (fun c => match c with | .ignoreBlank b => some b | _ => none) true calls
  dropdown : d.showDropdown = lastSaid (fun c => match c with | .showDropdown b => some b | _ => none) true calls
  input : d.showInput = lastSaid (fun c => match c with | .showInput b => some b | _ => none) true calls
  error : d.showError = lastSaid (fun c => match c with | .showError b => some b | _ => none) true calls
  errorTitle : d.errorTitle = lastSaid (fun c => match c with | .errorTitle t => some t | _ => none) [] calls
  errorMessage : d.errorMessage = lastSaid (fun c => match c with | .errorMessage t => some t | _ => none) [] calls
  inputTitle : d.inputTitle = lastSaid (fun c => match c with | .inputTitle t => some t | _ => none) [] calls
  inputMessage : d.inputMessage = lastSaid (fun c => match c with | .inputMessage t => some t | _ => none) [] calls
  multi : d.multi = lastSaid multiSaid [] calls

theorem flatMap_intercalate (g : Char → List Char) (hg : g ',' = [',']) (items : List (List Char)) :
    (List.intercalate [','] items).flatMap g = List.intercalate [','] (items.map fun s => s.flatMap g) := by
  induction items with
  | nil => rfl
  | cons a l ih =>
    cases l with
    | nil => simp [List.intercalate]
    | cons b l =>
      rw [List.intercalate_cons_cons, List.map_cons, List.map_cons, List.intercalate_cons_cons, ← List.map_cons, ← ih]
      simp [hg]

theorem dvJoin_eq (items : List Str) : '"' :: dvJoin items ++ ['"'] = quotedText (listText items) := by
  unfold dvJoin quotedText listText
  rw [flatMap_intercalate _ (by decide)]

theorem DvRel.exec {d d' : DataValidation} {calls : List DvCall} {c : DvCall} (h : DvRel d calls) (he : d.exec c = some d') :
    DvRel d' (calls ++ [c]) := by
  cases c with
  | listStrings items =>
    simp only [DataValidation.exec] at he
    split at he
    · cases he
    · cases he
      constructor <;> simp only [allowedBy, lastSaid_snoc] <;> first
        | (simp only [callAllows, Option.getD_some, allowedOf, dvJoin_eq]; done)
        | exact h.style | exact h.blank | exact h.dropdown | exact h.input | exact h.error | exact h.errorTitle
        | exact h.errorMessage | exact h.inputTitle | exact h.inputMessage | exact h.multi
  | wholeNumber r =>
    cases he
    constructor <;> simp only [allowedBy, lastSaid_snoc] <;> first
      | (simp only [callAllows, Option.getD_some, allowedOf, compareOf_internal, Option.map_some]; done)
      | exact h.style | exact h.blank | exact h.dropdown | exact h.input | exact h.error | exact h.errorTitle
      | exact h.errorMessage | exact h.inputTitle | exact h.inputMessage | exact h.multi
  | decimalNumber r =>
    cases he
    constructor <;> simp only [allowedBy, lastSaid_snoc] <;> first
      | (simp only [callAllows, Option.getD_some, allowedOf, compareOf_internal, Option.map_some]; done)
      | exact h.style | exact h.blank | exact h.dropdown | exact h.input | exact h.error | exact h.errorTitle
      | exact h.errorMessage | exact h.inputTitle | exact h.inputMessage | exact h.multi
  | date r =>
    cases he
    constructor <;> simp only [allowedBy, lastSaid_snoc] <;> first
      | (simp only [callAllows, Option.getD_some, allowedOf, compareOf_internal, Option.map_some]; done)
      | exact h.style | exact h.blank | exact h.dropdown | exact h.input | exact h.error | exact h.errorTitle
      | exact h.errorMessage | exact h.inputTitle | exact h.inputMessage | exact h.multi
  | time r =>
    cases he
    constructor <;> simp only [allowedBy, lastSaid_snoc] <;> first
      | (simp only [callAllows, Option.getD_some, allowedOf, compareOf_internal, Option.map_some]; done)
      | exact h.style | exact h.blank | exact h.dropdown | exact h.input | exact h.error | exact h.errorTitle
      | exact h.errorMessage | exact h.inputTitle | exact h.inputMessage | exact h.multi
  | textLength r =>
    cases he
    constructor <;> simp only [allowedBy, lastSaid_snoc] <;> first
      | (simp only [callAllows, Option.getD_some, allowedOf, compareOf_internal, Option.map_some]; done)
      | exact h.style | exact h.blank | exact h.dropdown | exact h.input | exact h.error | exact h.errorTitle
      | exact h.errorMessage | exact h.inputTitle | exact h.inputMessage | exact h.multi
  | listFormula f =>
    cases he
    constructor <;> simp only [allowedBy, lastSaid_snoc] <;> first
      | rfl
      | exact h.style | exact h.blank | exact h.dropdown | exact h.input | exact h.error | exact h.errorTitle
      | exact h.errorMessage | exact h.inputTitle | exact h.inputMessage | exact h.multi
  | custom f =>
    cases he
    constructor <;> simp only [allowedBy, lastSaid_snoc] <;> first
      | rfl
      | exact h.style | exact h.blank | exact h.dropdown | exact h.input | exact h.error | exact h.errorTitle
      | exact h.errorMessage | exact h.inputTitle | exact h.inputMessage | exact h.multi
  | anyValue =>
    cases he
    constructor <;> simp only [allowedBy, lastSaid_snoc] <;> first
      | rfl
      | exact h.style | exact h.blank | exact h.dropdown | exact h.input | exact h.error | exact h.errorTitle
      | exact h.errorMessage | exact h.inputTitle | exact h.inputMessage | exact h.multi
  | inputTitle t =>
    simp only [DataValidation.exec] at he
    split at he
    · cases he
    · cases he
      constructor <;> simp only [allowedBy, lastSaid_snoc] <;> first
        | rfl | exact h.allowed
        | exact h.style | exact h.blank | exact h.dropdown | exact h.input | exact h.error | exact h.errorTitle
        | exact h.errorMessage | exact h.inputTitle | exact h.inputMessage | exact h.multi
  | inputMessage t =>
    simp only [DataValidation.exec] at he
    split at he
    · cases he
    · cases he
      constructor <;> simp only [allowedBy, lastSaid_snoc] <;> first
        | rfl | exact h.allowed
        | exact h.style | exact h.blank | exact h.dropdown | exact h.input | exact h.error | exact h.errorTitle
        | exact h.errorMessage | exact h.inputTitle | exact h.inputMessage | exact h.multi
  | errorTitle t =>
    simp only [DataValidation.exec] at he
    split at he
    · cases he
    · cases he
      constructor <;> simp only [allowedBy, lastSaid_snoc] <;> first
        | rfl | exact h.allowed
        | exact h.style | exact h.blank | exact h.dropdown | exact h.input | exact h.error | exact h.errorTitle
        | exact h.errorMessage | exact h.inputTitle | exact h.inputMessage | exact h.multi
  | errorMessage t =>
    simp only [DataValidation.exec] at he
    split at he
    · cases he
    · cases he
      constructor <;> simp only [allowedBy, lastSaid_snoc] <;> first
        | rfl | exact h.allowed
        | exact h.style | exact h.blank | exact h.dropdown | exact h.input | exact h.error | exact h.errorTitle
        | exact h.errorMessage | exact h.inputTitle | exact h.inputMessage | exact h.multi
  | _ =>
    cases he
    constructor <;> simp only [allowedBy, lastSaid_snoc] <;> first
      | rfl | exact h.allowed
      | exact h.style | exact h.blank | exact h.dropdown | exact h.input | exact h.error | exact h.errorTitle
      | exact h.errorMessage | exact h.inputTitle | exact h.inputMessage | exact h.multi

theorem DvRel.new : DvRel {} [] := by constructor <;> rfl

theorem DvRel.run {d d' : DataValidation} {before calls : List DvCall} (h : DvRel d before)
    (he : calls.foldlM DataValidation.exec d = some d') : DvRel d' (before ++ calls) := by
  induction calls generalizing d before with
  | nil => cases he; rw [List.append_nil]; exact h
  | cons c calls ih =>
    rw [List.foldlM_cons] at he
    cases e : d.exec c with
    | none => rw [e] at he; cases he
    | some d1 =>
      rw [e] at he
      have := ih (h.exec e) he
      rwa [List.append_assoc] at this

theorem DvRel.build {d : DataValidation} {calls : List DvCall} (he : DataValidation.build calls = some d) : DvRel d calls := by
  have := DvRel.new.run he
  rwa [List.nil_append] at this

theorem exec_isSome (d : DataValidation) (c : DvCall) : (d.exec c).isSome = true ↔ DvCallLegal c := by
  cases c with
  | listStrings items =>
    simp only [DataValidation.exec, DvCallLegal, ← dvJoin_eq]
    split
    · simp; omega
    · simp; omega
  | inputTitle t => simp only [DataValidation.exec, DvCallLegal]; split <;> simp <;> omega
  | inputMessage t => simp only [DataValidation.exec, DvCallLegal]; split <;> simp <;> omega
  | errorTitle t => simp only [DataValidation.exec, DvCallLegal]; split <;> simp <;> omega
  | errorMessage t => simp only [DataValidation.exec, DvCallLegal]; split <;> simp <;> omega
  | _ => simp [DataValidation.exec, DvCallLegal]

/-- A validation can be made if all texts are within Excel's limits, and only then. -/
theorem C57_limits (calls : List DvCall) :
    (DataValidation.build calls).isSome = true ↔ ∀ c ∈ calls, DvCallLegal c := by
  unfold DataValidation.build
  suffices ∀ d : DataValidation, (calls.foldlM DataValidation.exec d).isSome = true ↔ ∀ c ∈ calls, DvCallLegal c from this {}
  induction calls with
  | nil => intro d; simp
  | cons c calls ih =>
    intro d
    rw [List.foldlM_cons]
    have hx := exec_isSome d c
    cases e : d.exec c with
    | none =>
      rw [e] at hx
      simp only [List.mem_cons, forall_eq_or_imp]
      constructor
      · intro h; cases h
      · intro h; exact absurd (hx.2 h.1) (by simp)
    | some d1 =>
      rw [e] at hx
      show (calls.foldlM DataValidation.exec d1).isSome = true ↔ _
      rw [ih d1]
      simp only [List.mem_cons, forall_eq_or_imp]
      exact ⟨fun h => ⟨hx.1 rfl, h⟩, fun h => h.2⟩

/-! ### Lists -/

theorem splitCommas_ne (t : List Char) : splitCommas t ≠ [] := by
  cases t with
  | nil => simp [splitCommas]
  | cons c t =>
    unfold splitCommas
    split
    · simp
    · split <;> simp

theorem splitCommas_plain (a : List Char) (h : ',' ∉ a) : splitCommas a = [a] := by
  induction a with
  | nil => rfl
  | cons c a ih =>
    rw [List.mem_cons, not_or] at h
    unfold splitCommas
    rw [if_neg (fun e => h.1 e.symm), ih h.2]

theorem splitCommas_append (a t : List Char) (h : ',' ∉ a) : splitCommas (a ++ ',' :: t) = a :: splitCommas t := by
  induction a with
  | nil => simp [splitCommas]
  | cons c a ih =>
    rw [List.mem_cons, not_or] at h
    rw [List.cons_append]
    conv => lhs; unfold splitCommas
    rw [if_neg (fun e => h.1 e.symm), ih h.2]

theorem splitCommas_list (items : List (List Char)) (h0 : items ≠ []) (h : ∀ i ∈ items, ',' ∉ i) :
    splitCommas (listText items) = items := by
  unfold listText
  induction items with
  | nil => exact absurd rfl h0
  | cons a l ih =>
    cases l with
    | nil => simp only [List.intercalate_singleton]; exact splitCommas_plain a (h a (by simp))
    | cons b l =>
      rw [List.intercalate_cons_cons, List.append_assoc, List.singleton_append, splitCommas_append a _ (h a (by simp)),
        ih (by simp) (fun i hi => h i (by simp [hi]))]

/-- A list of strings is that list for Excel, quotes included, if there are no commas in the strings. -/
theorem C57_list_partial (items : List (List Char)) (h0 : items ≠ []) (h : ∀ i ∈ items, ',' ∉ i) (e : FEnv) (f : List Char)
    (hf : callAllows (.listStrings items) = some (.list f)) : readListSource e f = some items := by
  simp only [callAllows, Option.some.injEq, Allowed.list.injEq] at hf
  subst hf
  unfold readListSource
  rw [show quotedText (listText items) = '"' :: (listText items).flatMap (fun c => if c = '"' then ['"', '"'] else [c]) ++ ['"']
    from rfl, eval_quoted]
  dsimp only
  rw [splitCommas_list items h0 h]

end Verif
