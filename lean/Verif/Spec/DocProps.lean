import Verif.Model.DocProps
import Verif.Spec.WorkbookPart
import Verif.Spec.DataValid
/-!
How a reader sees the document property parts (ECMA-376 part 2, 11 and part 1, 22.2, 22.3), and what was asked for.
-/
namespace Verif.Spec
open Verif

/-- The text of an element; the empty text if there is no such element, `none` if it has something other than text
in it. -/
def textAt (t : Text) (ks : List Node) : Option Text :=
  match child t ks with
  | none => some []
  | some e => textOnly e.2

/-- The core properties. -/
structure CoreSeen where
  title : Text
  subject : Text
  creator : Text
  keywords : Text
  description : Text
  lastModifiedBy : Text
  created : Text
  modified : Text
  category : Text
  contentStatus : Text
deriving DecidableEq, Repr

/-- A core properties part. -/
def readCore : Node → Option CoreSeen
  | .text _ => none
  | .elem root _ ks =>
    if root ≠ "cp:coreProperties".toList then none
    else do
      let title ← textAt "dc:title".toList ks
      let subject ← textAt "dc:subject".toList ks
      let creator ← textAt "dc:creator".toList ks
      let keywords ← textAt "cp:keywords".toList ks
      let description ← textAt "dc:description".toList ks
      let by_ ← textAt "cp:lastModifiedBy".toList ks
      let created ← textAt "dcterms:created".toList ks
      let modified ← textAt "dcterms:modified".toList ks
      let category ← textAt "cp:category".toList ks
      let status ← textAt "cp:contentStatus".toList ks
      some ⟨title, subject, creator, keywords, description, by_, created, modified, category, status⟩

/-- A whole number with a sign. -/
def readInt : Text → Option Int
  | '-' :: s => (readNat s).map fun n : Nat => -(Int.ofNat n)
  | s => (readNat s).map Int.ofNat

/-- The value of a custom property, 22.4. -/
def readCustomVal : List Node → Option CustomVal
  | [.elem t _ ks] =>
    match textOnly ks with
    | none => none
    | some s =>
      if t = "vt:lpwstr".toList then some (.text s)
      else if t = "vt:i4".toList then (readInt s).map .int
      else if t = "vt:r8".toList then some (.real s)
      else if t = "vt:filetime".toList then some (.datetime s)
      else if t = "vt:bool".toList then
        if s = "true".toList then some (.bool true) else if s = "false".toList then some (.bool false) else none
      else none
  | _ => none

/-- A custom property: its id, name and value, 22.3.2.2. -/
def readCustom1 (e : NodeAttrs × List Node) : Option (Nat × Text × CustomVal) :=
  match attrNat "pid".toList e.1, e.1.lookup "name".toList, readCustomVal e.2 with
  | some i, some n, some v => some (i, n, v)
  | _, _, _ => none

/-- A custom properties part. -/
def readCustomProps : Node → Option (List (Nat × Text × CustomVal))
  | .text _ => none
  | .elem root _ ks =>
    if root ≠ "Properties".toList then none else (elems "property".toList ks).mapM readCustom1

/-- The extended properties. -/
structure AppSeen where
  security : Nat
  headings : List (Text × Nat)
  titles : List Text
  manager : Text
  company : Text
  hyperlinkBase : Text
deriving DecidableEq, Repr

/-- Pairs of a heading and a number. -/
def readPairs : List (NodeAttrs × List Node) → Option (List (Text × Nat))
  | [] => some []
  | a :: b :: r =>
    match textAt "vt:lpstr".toList a.2, (textAt "vt:i4".toList b.2).bind readNat, readPairs r with
    | some k, some n, some l => some ((k, n) :: l)
    | _, _, _ => none
  | _ => none

/-- The elements of a vector, 22.4.2.35: `none` unless there are as many as its size says. -/
def readVector (t item : Text) (ks : List Node) : Option (List (NodeAttrs × List Node)) :=
  match child t ks with
  | none => none
  | some c =>
    match child "vt:vector".toList c.2 with
    | none => none
    | some v => if attrNat "size".toList v.1 = some (elems item v.2).length then some (elems item v.2) else none

/-- An extended properties part. -/
def readApp : Node → Option AppSeen
  | .text _ => none
  | .elem root _ ks =>
    if root ≠ "Properties".toList then none
    else do
      let security ← (textAt "DocSecurity".toList ks).bind readNat
      let hv ← readVector "HeadingPairs".toList "vt:variant".toList ks
      let headings ← readPairs hv
      let tv ← readVector "TitlesOfParts".toList "vt:lpstr".toList ks
      let titles ← tv.mapM fun e => textOnly e.2
      let manager ← textAt "Manager".toList ks
      let company ← textAt "Company".toList ks
      let base ← textAt "HyperlinkBase".toList ks
      some ⟨security, headings, titles, manager, company, base⟩

/-! ### What was asked for -/

/-- Texts of XML without a carriage return (which does not survive in XML). -/
def textSafe (s : Text) : Bool := s.all fun c => xmlChar c && c ≠ '\r'

/-- The core properties asked for: each is what the last call said. -/
def coreMeant (now : Text) (calls : List DocCall) : CoreSeen where
  title := lastSaid (fun | .title s => some s | _ => none) [] calls
  subject := lastSaid (fun | .subject s => some s | _ => none) [] calls
  creator := lastSaid (fun | .author s => some s | _ => none) [] calls
  keywords := lastSaid (fun | .keywords s => some s | _ => none) [] calls
  description := lastSaid (fun | .comment s => some s | _ => none) [] calls
  lastModifiedBy := lastSaid (fun | .author s => some s | _ => none) [] calls
  created := lastSaid (fun | .creation s => some s | _ => none) now calls
  modified := lastSaid (fun | .creation s => some s | _ => none) now calls
  category := lastSaid (fun | .category s => some s | _ => none) [] calls
  contentStatus := lastSaid (fun | .status s => some s | _ => none) [] calls

/-- The custom property a call asks for. -/
def customCall : DocCall → Option (Text × CustomVal)
  | .custom n v => some (n, v)
  | _ => none

/-- The custom properties asked for, numbered from 2 in the order of the calls. -/
def customMeant (calls : List DocCall) : List (Nat × Text × CustomVal) :=
  (calls.filterMap customCall).mapIdx fun i q => (i + 2, q.1, q.2)

/-- The texts of a value can be written in XML. -/
def valSafe : CustomVal → Bool
  | .text s | .real s | .datetime s => textSafe s
  | _ => true

/-- The texts of a call can be written in XML. -/
def docSafe : DocCall → Bool
  | .title s | .subject s | .manager s | .company s | .category s | .author s | .keywords s | .comment s
  | .status s | .hyperlinkBase s | .creation s => textSafe s
  | .custom n v => attrSafe n && valSafe v

/-- The names of the sheets of one kind, except those that are very hidden. -/
def sheetTitles (chart : Bool) (active : Nat) (sheets : List SheetAsk) : List Text :=
  ((sheets.zip (sheetsMeant active sheets)).filter fun p => p.1.chart = chart ∧ p.2.state ≠ .veryHidden).map
    fun p => p.1.name

/-- The headings with their numbers; those that are empty are left out. -/
def headingsMeant (worksheets charts ranges : Nat) : List (Text × Nat) :=
  [("Worksheets".toList, worksheets), ("Charts".toList, charts), ("Named Ranges".toList, ranges)].filter
    fun p => p.2 ≠ 0

/-- The short form of a built-in name. -/
def shortName (n : Text) : Text := if "_xlnm.".toList.isPrefixOf n then n.drop 6 else n

/-- The entry in the list of parts for a defined name: hidden names have none, names of the workbook have one if
they refer to a sheet, names of a sheet are given with that sheet. -/
def NameTitle (sheets : List Text) (w : WrittenName) (t : Option Text) : Prop :=
  if w.hidden then t = none
  else match w.localSheetId with
  | none => t = if '!' ∈ w.text then some w.name else none
  | some i => ∃ x sheet, t = some x ∧ sheets[i]? = some sheet ∧ readSheetRef x = some (sheet, shortName w.name)

end Verif.Spec
