/-!
Small self-contained functions: password hash, auto-fit pixel widths, page breaks and
data-validation lists.
-/
namespace Verif

/-- utility.rs:1103 (and 1107): the rotation step of `hash_password`. -/
def hashRot (h : BitVec 16) : BitVec 16 := ((h >>> 14) &&& 0x01#16) ||| ((h <<< 1) &&& 0x7FFF#16)

/-- utility.rs:1102-1105: the loop over the bytes of the password, last byte first. -/
def hashLoop (bytes : List (BitVec 8)) : BitVec 16 :=
  bytes.reverse.foldl (fun h b => hashRot h ^^^ b.setWidth 16) 0

/-- utility.rs:1094-1112 `hash_password`, on the UTF-8 bytes of the password. -/
def hashPassword (bytes : List (BitVec 8)) : BitVec 16 :=
  if bytes.isEmpty then 0
  else hashRot (hashLoop bytes) ^^^ BitVec.ofNat 16 bytes.length ^^^ 0xCE4B#16

/-- One upper-case hexadecimal digit (Rust `{:X}` formatting). -/
def hexDigitU (n : Nat) : Char :=
  if n < 10 then Char.ofNat (48 + n) else Char.ofNat (55 + n)

/-- worksheet.rs:19510-19512: the password attribute, `format!("{:04X}", hash)`, written only
when the hash is not zero.  (A 16-bit value never needs more than four digits.) -/
def passwordAttr (h : BitVec 16) : Option (List Char) :=
  if h = 0 then none
  else some [hexDigitU (h.toNat / 4096), hexDigitU (h.toNat / 256 % 16),
    hexDigitU (h.toNat / 16 % 16), hexDigitU (h.toNat % 16)]

/-- worksheet.rs:1416 `MAX_AUTOFIT_WIDTH_PIXELS`. -/
def maxAutofitPx : Nat := 1790

/-- utility.rs:1058-1085: the pixel width of one character. -/
def charPx (c : Char) : Nat :=
  if " '".toList.contains c then 3
  else if ",.:;I`ijl".toList.contains c then 4
  else if "!()-J[]frt{}".toList.contains c then 5
  else if "\"/L\\csz".toList.contains c then 6
  else if "#$*+0123456789<=>?EFSTYZ^_agkvxy|~".toList.contains c then 7
  else if "BCKPRXbdehnopqu".toList.contains c then 8
  else if "ADGHUV".toList.contains c then 9
  else if "&NOQ".toList.contains c then 10
  else if "%w".toList.contains c then 11
  else if "Mm".toList.contains c then 12
  else if "@W".toList.contains c then 13
  else 8

/-- utility.rs:1057-1086: the accumulating loop on a 16-bit counter; `none` is the overflow
panic. -/
def pxLoop : List Char → Nat → Option Nat
  | [], n => some n
  | c :: cs, n => if n + charPx c < 65536 then pxLoop cs (n + charPx c) else none

/-- utility.rs:1049-1089 `pixel_width`. -/
def pixelWidth (s : List Char) : Option Nat :=
  if s.length > 233 then some maxAutofitPx
  else (pxLoop s 0).map (fun n => min n maxAutofitPx)

/-- utility.rs:1040-1044 `cell_autofit_width` (16-bit addition, `none` = overflow). -/
def cellAutofitWidth (s : List Char) : Option Nat := do
  let w ← pixelWidth s
  if w + 7 < 65536 then some (w + 7) else none

/-- Outcome of a `&mut self -> Result` method on a piece of state: what is stored afterwards. -/
inductive Outcome (σ : Type) where
  | ok (s : σ)
  | err (s : σ)
  | panic
deriving DecidableEq, Repr

/-- worksheet.rs:14947-14967 `process_pagebreaks`.  `uniq` is the contents of the `HashSet` of the
requested breaks in whatever order it iterates (14948-14949); `none` is the panic of `breaks[0]`
on an empty list (14953), `some none` the `ParameterError`. -/
def processPagebreaks (uniq : List Nat) : Option (Option (List Nat)) :=
  match uniq.mergeSort (fun a b => decide (a ≤ b)) with
  | [] => none
  | b :: bs =>
    let l := if b = 0 then bs else b :: bs
    if l.length > 1023 then some none else some (some l)

/-- worksheet.rs:12821-12838 `set_page_breaks` (`max` = `ROW_MAX`) and 12858-12878
`set_vertical_page_breaks` (`max` = `COL_MAX`); `old` is the stored list of breaks. -/
def setPageBreaks (max : Nat) (old breaks uniq : List Nat) : Outcome (List Nat) :=
  if breaks.isEmpty then .ok old
  else match processPagebreaks uniq with
    | none => .panic
    | some none => .err old
    | some (some l) =>
      match l.getLast? with
      | none => .panic
      | some b => if b ≥ max then .err old else .ok l

/-- data_validation.rs:560: `replace('"', "\"\"")`. -/
def dvEscape (s : List Char) : List Char := s.flatMap (fun c => if c = '"' then ['"', '"'] else [c])

/-- data_validation.rs:562: `join(",")`. -/
def joinComma : List (List Char) → List Char
  | [] => []
  | [x] => x
  | x :: y :: ys => x ++ ',' :: joinComma (y :: ys)

/-- data_validation.rs:554-576 `allow_list_strings`: the stored `ListSource` formula text, or
`none` for `DataValidationError`. -/
def allowListStrings (items : List (List Char)) : Option (List Char) :=
  let joined := joinComma (items.map dvEscape)
  if joined.length > 255 then none else some ('"' :: joined ++ ['"'])

/-- data_validation.rs:1052-1064 `set_input_title`, 1204-1216 `set_error_title` (`limit` = 32);
1120-1136 `set_input_message`, 1271-1287 `set_error_message` (`limit` = 255). -/
def setLimited (limit : Nat) (old text : List Char) : Outcome (List Char) :=
  if text.length > limit then .err old else .ok text

end Verif
