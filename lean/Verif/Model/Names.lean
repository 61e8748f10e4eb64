import Verif.Model.Ref
/-!
Sheet names: quoting for references (/repo/src/utility.rs:628-812), validation
(/repo/src/utility.rs:904-930) and the names given by the workbook
(/repo/src/workbook.rs:496-655, 1216-1223, 2068-2077).

Unicode tables are a parameter: `char::is_alphanumeric`, `char::is_alphabetic`, the upper-casing
of one character (`str::to_uppercase` maps each character separately) and `str::to_lowercase`.
-/
namespace Verif

/-- The Unicode functions of the Rust standard library that the name code uses. -/
structure Unicode where
  alnum : Char → Bool
  alpha : Char → Bool
  upper : Char → Str
  lower : Str → Str

/-- `str::to_uppercase`. -/
def Unicode.upperStr (U : Unicode) (s : Str) : Str := s.flatMap U.upper

/-- The ranges of `is_emoji`, /repo/src/utility.rs:754-799. -/
def emojiRanges : List (Nat × Nat) :=
  [(0x203C, 0x203C), (0x2049, 0x2049), (0x2122, 0x2122), (0x2139, 0x2139), (0x2194, 0x2199),
   (0x21A9, 0x21A9), (0x21AA, 0x21AA), (0x231A, 0x231A), (0x231B, 0x231B), (0x2328, 0x2328),
   (0x23CF, 0x23CF), (0x23E9, 0x23F3), (0x23F8, 0x23FA), (0x24C2, 0x24C2), (0x25AA, 0x25AA),
   (0x25AB, 0x25AB), (0x25B6, 0x25B6), (0x25C0, 0x25C0), (0x25FB, 0x25FE), (0x2600, 0x2604),
   (0x260E, 0x260E), (0x2611, 0x2611), (0x2614, 0x2614), (0x2615, 0x2615), (0x2618, 0x2618),
   (0x261D, 0x261D), (0x2620, 0x2620), (0x2622, 0x2622), (0x2623, 0x2623), (0x2626, 0x2626),
   (0x262A, 0x262A), (0x262E, 0x262E), (0x262F, 0x262F), (0x2638, 0x263A), (0x2640, 0x2640),
   (0x2642, 0x2642), (0x2648, 0x2653), (0x265F, 0x265F), (0x2660, 0x2660), (0x2663, 0x2663),
   (0x2665, 0x2665), (0x2666, 0x2666), (0x2668, 0x2668), (0x267B, 0x267B), (0x267E, 0x267E),
   (0x267F, 0x267F), (0x2692, 0x2697), (0x2699, 0x2699), (0x269B, 0x269B), (0x269C, 0x269C),
   (0x26A0, 0x26A0), (0x26A1, 0x26A1), (0x26A7, 0x26A7), (0x26AA, 0x26AA), (0x26AB, 0x26AB),
   (0x26B0, 0x26B0), (0x26B1, 0x26B1), (0x26BD, 0x26BD), (0x26BE, 0x26BE), (0x26C4, 0x26C4),
   (0x26C5, 0x26C5), (0x26C8, 0x26C8), (0x26CE, 0x26CE), (0x26CF, 0x26CF), (0x26D1, 0x26D1),
   (0x26D3, 0x26D3), (0x26D4, 0x26D4), (0x26E9, 0x26E9), (0x26EA, 0x26EA), (0x26F0, 0x26F5),
   (0x26F7, 0x26FA), (0x26FD, 0x26FD), (0x2702, 0x2702), (0x2705, 0x2705), (0x2708, 0x270D),
   (0x270F, 0x270F), (0x2712, 0x2712), (0x2714, 0x2714), (0x2716, 0x2716), (0x271D, 0x271D),
   (0x2721, 0x2721), (0x2728, 0x2728), (0x2733, 0x2733), (0x2734, 0x2734), (0x2744, 0x2744),
   (0x2747, 0x2747), (0x274C, 0x274C), (0x274E, 0x274E), (0x2753, 0x2755), (0x2757, 0x2757),
   (0x2763, 0x2763), (0x2764, 0x2764), (0x2795, 0x2797), (0x27A1, 0x27A1), (0x27B0, 0x27B0),
   (0x27BF, 0x27BF), (0x2934, 0x2934), (0x2935, 0x2935), (0x2B05, 0x2B07), (0x2B1B, 0x2B1B),
   (0x2B1C, 0x2B1C), (0x2B50, 0x2B50), (0x2B55, 0x2B55), (0x3030, 0x3030), (0x303D, 0x303D),
   (0x3297, 0x3297), (0x3299, 0x3299), (0x1F004, 0x1F004), (0x1F0CF, 0x1F0CF),
   (0x1F170, 0x1F170), (0x1F171, 0x1F171), (0x1F17E, 0x1F17E), (0x1F17F, 0x1F17F),
   (0x1F18E, 0x1F18E), (0x1F191, 0x1F19A), (0x1F1E6, 0x1F1FF), (0x1F201, 0x1F201),
   (0x1F202, 0x1F202), (0x1F21A, 0x1F21A), (0x1F22F, 0x1F22F), (0x1F232, 0x1F23A),
   (0x1F250, 0x1F250), (0x1F251, 0x1F251), (0x1F300, 0x1F321), (0x1F324, 0x1F393),
   (0x1F396, 0x1F396), (0x1F397, 0x1F397), (0x1F399, 0x1F39B), (0x1F39E, 0x1F3F0),
   (0x1F3F3, 0x1F3F5), (0x1F3F7, 0x1F4FD), (0x1F4FF, 0x1F53D), (0x1F549, 0x1F54E),
   (0x1F550, 0x1F567), (0x1F56F, 0x1F56F), (0x1F570, 0x1F570), (0x1F573, 0x1F57A),
   (0x1F587, 0x1F587), (0x1F58A, 0x1F58D), (0x1F590, 0x1F590), (0x1F595, 0x1F595),
   (0x1F596, 0x1F596), (0x1F5A4, 0x1F5A4), (0x1F5A5, 0x1F5A5), (0x1F5A8, 0x1F5A8),
   (0x1F5B1, 0x1F5B1), (0x1F5B2, 0x1F5B2), (0x1F5BC, 0x1F5BC), (0x1F5C2, 0x1F5C4),
   (0x1F5D1, 0x1F5D3), (0x1F5DC, 0x1F5DE), (0x1F5E1, 0x1F5E1), (0x1F5E3, 0x1F5E3),
   (0x1F5E8, 0x1F5E8), (0x1F5EF, 0x1F5EF), (0x1F5F3, 0x1F5F3), (0x1F5FA, 0x1F64F),
   (0x1F680, 0x1F6C5), (0x1F6CB, 0x1F6D2), (0x1F6D5, 0x1F6D7), (0x1F6DC, 0x1F6E5),
   (0x1F6E9, 0x1F6E9), (0x1F6EB, 0x1F6EB), (0x1F6EC, 0x1F6EC), (0x1F6F0, 0x1F6F0),
   (0x1F6F3, 0x1F6FC), (0x1F7E0, 0x1F7EB), (0x1F7F0, 0x1F7F0), (0x1F90C, 0x1F93A),
   (0x1F93C, 0x1F945), (0x1F947, 0x1F9FF), (0x1FA70, 0x1FA7C), (0x1FA80, 0x1FA88),
   (0x1FA90, 0x1FABD), (0x1FABF, 0x1FAC5), (0x1FACE, 0x1FADB), (0x1FAE0, 0x1FAE8),
   (0x1FAF0, 0x1FAF8)]

/-- `is_emoji`, /repo/src/utility.rs:745-800. -/
def isEmoji (c : Char) : Bool :=
  if c.toNat < 0x203C then false
  else emojiRanges.any fun r => r.1 ≤ c.toNat && c.toNat ≤ r.2

/-- `char::is_ascii_digit`. -/
def isAsciiDigit (c : Char) : Bool := '0' ≤ c && c ≤ '9'

/-- `str::len`: length in bytes. -/
def utf8Len (s : Str) : Nat := (s.map Char.utf8Size).sum

/-- `split_cell_reference`, /repo/src/utility.rs:804-812. -/
def splitCellReference (U : Unicode) (s : Str) : Str × Str :=
  if s.any isAsciiDigit then
    (U.upperStr (s.takeWhile (!isAsciiDigit ·)), U.upperStr (s.dropWhile (!isAsciiDigit ·)))
  else ([], [])

/-- `parse::<u64>().unwrap_or_default()` of a string of digits (a leading `+` cannot occur). -/
def parseU64 (s : Str) : Nat :=
  if s ≠ [] ∧ s.all isAsciiDigit then
    let n := s.foldl (fun n c => 10 * n + (c.toNat - 48)) 0
    if n < 2 ^ 64 then n else 0
  else 0

/-- The characters of rule 1, /repo/src/utility.rs:657. -/
def plainChar (U : Unicode) (c : Char) : Bool := U.alnum c || c = '_' || c = '.' || isEmoji c

/-- The `if`/`else if` chain of `quote_sheet_name`, /repo/src/utility.rs:649-719: does the name need
quotes?  `none` is an arithmetic panic (in `column_name_to_number` or `col + 1`, 675-676). -/
def requiresQuoting (U : Unicode) (s : Str) : Option Bool :=
  let parts := splitCellReference U s
  let rc := parts.2.takeWhile isAsciiDigit
  if s.head? = some '\'' then some false
  else if !s.all (plainChar U) then some true
  else if (s.head?.map fun c => isAsciiDigit c || c = '.' || isEmoji c) = some true then some true
  else if 1 ≤ utf8Len parts.1 ∧ utf8Len parts.1 ≤ 3 ∧ parts.2.all isAsciiDigit then
    match columnNameToNumber parts.1 with
    | none => none
    | some col =>
      if col + 1 ≥ 65536 then none
      else
        let row := parseU64 parts.2
        some (decide (row > 0 ∧ row ≤ ROW_MAX ∧ col + 1 ≤ COL_MAX))
  else if parts.1 = "R".toList then
    let row := parseU64 rc
    some (decide (row > 0 ∧ row ≤ ROW_MAX))
  else if parts.1 = "RC".toList ∨ parts.1 = "C".toList then
    let col := parseU64 rc
    some (decide (col > 0 ∧ col ≤ COL_MAX))
  else if U.upperStr s = "R".toList ∨ U.upperStr s = "C".toList ∨ U.upperStr s = "RC".toList then
    some true
  else some false

/-- `replace('\'', "''")`. -/
def doubleQuotes (s : Str) : Str := s.flatMap fun c => if c = '\'' then ['\'', '\''] else [c]

/-- `quote_sheet_name`, /repo/src/utility.rs:628-730 (`none` = panic). -/
def quoteSheetName (U : Unicode) (s : Str) : Option Str :=
  (requiresQuoting U s).map fun b => if b then '\'' :: doubleQuotes s ++ ['\''] else s

/-- `replace("''", "'")`: non-overlapping, left to right. -/
def undoubleQuotes : Str → Str
  | '\'' :: '\'' :: rest => '\'' :: undoubleQuotes rest
  | c :: rest => c :: undoubleQuotes rest
  | [] => []

/-- `unquote_sheetname`, /repo/src/utility.rs:733-740; `none` is the slice panic on `"'"`. -/
def unquoteSheetname (s : Str) : Option Str :=
  if s.head? = some '\'' ∧ s.getLast? = some '\'' then
    match s with
    | [_] => none
    | s => some (undoubleQuotes s.tail.dropLast)
  else some s

/-- The errors of `validate_sheetname`. -/
inductive NameErr where
  | blank | tooLong | invalidChar | apostrophe
deriving DecidableEq, Repr

/-- `validate_sheetname`, /repo/src/utility.rs:904-930 (`none` = `Ok(())`); `check_sheet_name` (898)
and `set_name` (/repo/src/worksheet.rs:2022-2031) return its error. -/
def validateSheetname (s : Str) : Option NameErr :=
  if s = [] then some .blank
  else if s.length > 31 then some .tooLong
  else if s.any ("*?:[]\\/".toList.contains ·) then some .invalidChar
  else if s.head? = some '\'' ∨ s.getLast? = some '\'' then some .apostrophe
  else none

/-- The sheet name part of a workbook: the names of `worksheets` and `num_worksheets`. -/
structure NameBook where
  names : List Str
  numWorksheets : Nat
  numChartsheets : Nat
deriving DecidableEq, Repr

/-- A new workbook, /repo/src/workbook.rs:395-470. -/
def NameBook.new : NameBook := ⟨[], 0, 0⟩

inductive NameOp where
  /-- `add_worksheet`, `add_worksheet_with_constant_memory`, `add_worksheet_with_low_memory` -/
  | add
  /-- `add_chartsheet` -/
  | addChart
  /-- `push_worksheet` of a sheet with no name (`[]`) or an accepted name -/
  | push (name : Str)
  /-- `set_name` on sheet `i` -/
  | setName (i : Nat) (name : Str)
deriving DecidableEq, Repr

/-- One call.  `add` is /repo/src/workbook.rs:496-507 (and 559-580, 632-656), `addChart` 882-893,
`push` 1216-1223, `setName` /repo/src/worksheet.rs:2022-2031.  (The counters are `u16` in the code; a
workbook with 65535 sheets is not considered.) -/
def NameBook.exec (b : NameBook) : NameOp → NameBook
  | .add =>
    { b with names := b.names ++ ["Sheet".toList ++ showNat (b.numWorksheets + 1)],
             numWorksheets := b.numWorksheets + 1 }
  | .addChart =>
    { b with names := b.names ++ ["Chart".toList ++ showNat (b.numChartsheets + 1)],
             numChartsheets := b.numChartsheets + 1 }
  | .push name =>
    if name = [] then { b with names := b.names ++ ["Sheet".toList ++ showNat (b.names.length + 1)] }
    else { b with names := b.names ++ [name] }
  | .setName i name =>
    if (validateSheetname name).isSome then b else { b with names := b.names.set i name }

def NameBook.run (b : NameBook) (ops : List NameOp) : NameBook := ops.foldl NameBook.exec b

/-- The duplicate check loop of `save`, /repo/src/workbook.rs:2069-2077: `true` means
`SheetnameReused`. -/
def duplicateLoop (U : Unicode) : List Str → List Str → Bool
  | [], _ => false
  | n :: ns, seen => if seen.contains (U.lower n) then true else duplicateLoop U ns (U.lower n :: seen)

/-- The names check of `save`, preceded by adding a sheet to an empty workbook (2041-2043). -/
def NameBook.saveFails (U : Unicode) (b : NameBook) : Bool :=
  let b := if b.names = [] then b.exec .add else b
  duplicateLoop U b.names []

end Verif
