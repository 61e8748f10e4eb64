import Verif.Model.DefinedNames
import Verif.Spec.Names
/-!
What the user asked for, for defined names, and how the text of the written names is read.
-/
namespace Verif.Spec

/-- Two lists of the same length, related element by element. -/
inductive Zip2 {α β : Type} (R : α → β → Prop) : List α → List β → Prop
  | nil : Zip2 R [] []
  | cons {a b as bs} : R a b → Zip2 R as bs → Zip2 R (a :: as) (b :: bs)

/-- A rectangle of a sheet, given by its first and last row and column. -/
structure Area where
  r1 : Nat
  c1 : Nat
  r2 : Nat
  c2 : Nat
deriving DecidableEq, Repr

/-- Read `$5:$7` as whole rows. -/
def readRows (s : List Char) : Option (Nat × Nat) :=
  match s.takeWhile (· ≠ ':'), s.dropWhile (· ≠ ':') with
  | '$' :: a, ':' :: '$' :: b =>
    match readRow a, readRow b with
    | some x, some y => some (x, y)
    | _, _ => none
  | _, _ => none

/-- Read `$B:$D` as whole columns. -/
def readCols (s : List Char) : Option (Nat × Nat) :=
  match s.takeWhile (· ≠ ':'), s.dropWhile (· ≠ ':') with
  | '$' :: a, ':' :: '$' :: b =>
    match readCol a, readCol b with
    | some x, some y => some (x, y)
    | _, _ => none
  | _, _ => none

/-- Read an absolute area: whole rows, whole columns, or a range of cells. -/
def readArea (s : List Char) : Option Area :=
  match readRows s with
  | some (x, y) => some ⟨x, 0, y, 16383⟩
  | none =>
    match readCols s with
    | some (x, y) => some ⟨0, x, 1048575, y⟩
    | none => (readRangeAbs s).map fun p => ⟨p.1.1, p.1.2, p.2.1, p.2.2⟩

/-- Read `Sheet!Area`. -/
def readSheetArea (s : List Char) : Option (List Char × Area) :=
  match readSheetRef s with
  | some (n, rest) => (readArea rest).map fun a => (n, a)
  | none => none

/-- Read the columns and rows to repeat: `Sheet!$A:$B`, `Sheet!$1:$2` or both with a comma. The result
is the sheet name, the columns and the rows. -/
def readTitles (s : List Char) : Option (List Char × Option (Nat × Nat) × Option (Nat × Nat)) :=
  match readSheetRef s with
  | none => none
  | some (n, rest) =>
    match rest.dropWhile (· ≠ ',') with
    | [] =>
      match readCols rest, readRows rest with
      | some c, _ => some (n, some c, none)
      | none, some r => some (n, none, some r)
      | none, none => none
    | _ :: more =>
      match readCols (rest.takeWhile (· ≠ ',')), readSheetRef more with
      | some c, some (n', rest') =>
        match readRows rest' with
        | some r => if n = n' then some (n, some c, some r) else none
        | none => none
      | _, _ => none

/-- The sheet (if any) and the name in what the user passed to `define_name`. -/
def askedScope (s : List Char) : Option (List Char) × List Char :=
  match readSheetRef s with
  | some (sheet, n) => (some sheet, n)
  | none => (none, s)

/-- A name is well formed if it has no exclamation mark, or is `Sheet!Name` or `'Sheet'!Name` where
the name of the sheet is not empty and has no exclamation mark in it. -/
def GoodCall (s : List Char) : Prop :=
  '!' ∉ s ∨ ∃ sheet n, readSheetRef s = some (sheet, n) ∧ sheet ≠ [] ∧ '!' ∉ sheet

/-- The element written for one call of `define_name(name, formula)`. -/
def UserWritten (sheets : List (List Char)) (call : List Char × List Char) (w : WrittenName) : Prop :=
  w.hidden = false ∧ (call.2 = '=' :: w.text ∨ (call.2.head? ≠ some '=' ∧ call.2 = w.text)) ∧
  w.name = (askedScope call.1).2 ∧
  match (askedScope call.1).1 with
  | none => w.localSheetId = none
  | some s => ∃ i, w.localSheetId = some i ∧ sheets[i]? = some s

/-- What was asked of one worksheet. -/
structure Asked where
  autofilter : Option Area := none
  printArea : Option Area := none
  rows : Option (Nat × Nat) := none
  cols : Option (Nat × Nat) := none
deriving DecidableEq, Repr

/-- An area of the sheet: in bounds, and not reversed. -/
def Area.Ok (a : Area) : Prop := a.r1 ≤ a.r2 ∧ a.c1 ≤ a.c2 ∧ a.r2 < 1048576 ∧ a.c2 < 16384

instance (a : Area) : Decidable a.Ok := by unfold Area.Ok; infer_instance

/-- The whole sheet. -/
def wholeSheet : Area := ⟨0, 0, 1048575, 16383⟩

/-- The last accepted call of each kind counts; the whole sheet as print area means no print area. -/
def Asked.step (k : Asked) : SheetNameOp → Asked
  | .autofilter r1 c1 r2 c2 =>
    if (⟨r1, c1, r2, c2⟩ : Area).Ok then { k with autofilter := some ⟨r1, c1, r2, c2⟩ } else k
  | .printArea r1 c1 r2 c2 =>
    let a : Area := ⟨r1, c1, r2, c2⟩
    if a.Ok then { k with printArea := if a = wholeSheet then none else some a } else k
  | .rows r1 r2 => if r1 ≤ r2 ∧ r2 < 1048576 then { k with rows := some (r1, r2) } else k
  | .cols c1 c2 => if c1 ≤ c2 ∧ c2 < 16384 then { k with cols := some (c1, c2) } else k

/-- What a list of calls asks for. -/
def Asked.of (ops : List SheetNameOp) : Asked := ops.foldl Asked.step {}

/-- One built-in name. -/
inductive Feature where
  | autofilter (a : Area)
  | printArea (a : Area)
  | titles (cols rows : Option (Nat × Nat))
deriving DecidableEq, Repr

/-- The built-in names a sheet needs. -/
def Asked.features (k : Asked) : List Feature :=
  (match k.autofilter with | some a => [.autofilter a] | none => []) ++
  (match k.printArea with | some a => [.printArea a] | none => []) ++
  (if k.rows = none ∧ k.cols = none then [] else [.titles k.cols k.rows])

/-- The element written for a built-in name of sheet `i`, whose name is `sheet`. -/
def FeatureWritten (i : Nat) (sheet : List Char) (f : Feature) (w : WrittenName) : Prop :=
  w.localSheetId = some i ∧
  match f with
  | .autofilter a => w.name = "_xlnm._FilterDatabase".toList ∧ w.hidden = true ∧
      readSheetArea w.text = some (sheet, a)
  | .printArea a => w.name = "_xlnm.Print_Area".toList ∧ w.hidden = false ∧
      readSheetArea w.text = some (sheet, a)
  | .titles c r => w.name = "_xlnm.Print_Titles".toList ∧ w.hidden = false ∧
      readTitles w.text = some (sheet, c, r)

/-- The elements for all sheets, starting at sheet `i`. -/
def SheetsWritten : Nat → List (List Char × List SheetNameOp) → List WrittenName → Prop
  | _, [], ws => ws = []
  | i, (n, ops) :: rest, ws => ∃ a b, ws = a ++ b ∧
      Zip2 (FeatureWritten i n) (Asked.of ops).features a ∧ SheetsWritten (i + 1) rest b

end Verif.Spec
