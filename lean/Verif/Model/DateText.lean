import Verif.Model.DateTime
import Verif.Model.Dec
/-!
Dates as texts: `parse_from_str`, `to_rfc3339` and the time stamps of the document properties, /repo/src/datetime.rs.

Simplification: `f64` is abstract (`FloatOps`): the few operations that this code uses on it.
-/
namespace Verif

/-- The operations on `f64` that are used here. -/
structure FloatOps (F : Type) where
  /-- `str::parse::<f64>`; `none` is an error. -/
  parse : Str → Option F
  /-- `f64::from(u64)`, `as f64`. -/
  ofNat : Nat → F
  /-- `x > 59.999` -/
  above : F → Bool
  /-- `format!("{x:02}")` -/
  show2 : F → Str

/-- `ExcelDateTimeType`, /repo/src/datetime.rs:1350-1355. -/
inductive DtKind where
  | default | dateOnly | timeOnly | dateAndTime
deriving DecidableEq, Repr

/-- `ExcelDateTime`, /repo/src/datetime.rs:130-140 and its default 1331-1347, without the 1904 epoch and without the
serial number (`from_serial_datetime` leaves the other fields as they are by default). -/
structure ExcelDT (F : Type) where
  date : YMD := ⟨0, 0, 0⟩
  hour : Nat := 0
  min : Nat := 0
  sec : F
  kind : DtKind := .default
deriving DecidableEq, Repr

/-- The errors. -/
inductive DtErr where
  | range | parse
deriving DecidableEq, Repr

/-- `from_ymd`, /repo/src/datetime.rs:368-382. -/
def fromYmd {F : Type} (ops : FloatOps F) (d : YMD) : Except DtErr (ExcelDT F) :=
  if !validateYmd d then .error .range
  else .ok { date := d, sec := ops.ofNat 0, kind := .dateOnly }

/-- `and_hms`, /repo/src/datetime.rs:584-608, with `validate_hms`, 968-986. -/
def ExcelDT.andHms {F : Type} (ops : FloatOps F) (t : ExcelDT F) (hour min : Nat) (sec : F) : Except DtErr (ExcelDT F) :=
  if min > 60 then .error .range
  else if ops.above sec then .error .range
  else .ok { t with hour := hour, min := min, sec := sec, kind := if t.kind = .dateOnly then .dateAndTime else .timeOnly }

/-- `from_hms`, /repo/src/datetime.rs:445-447. -/
def fromHms {F : Type} (ops : FloatOps F) (hour min : Nat) (sec : F) : Except DtErr (ExcelDT F) :=
  ExcelDT.andHms ops { sec := ops.ofNat 0 } hour min sec

/-- `char::is_whitespace`: the characters with the Unicode property White_Space. -/
def isUniSpace (c : Char) : Bool :=
  (9 ≤ c.toNat && c.toNat ≤ 13) || c.toNat = 0x20 || c.toNat = 0x85 || c.toNat = 0xA0 || c.toNat = 0x1680 ||
  (0x2000 ≤ c.toNat && c.toNat ≤ 0x200A) || c.toNat = 0x2028 || c.toNat = 0x2029 || c.toNat = 0x202F ||
  c.toNat = 0x205F || c.toNat = 0x3000

/-- `str::trim`. -/
def uniTrim (s : Str) : Str := ((s.dropWhile isUniSpace).reverse.dropWhile isUniSpace).reverse

/-- The characters at which the text is split, /repo/src/datetime.rs:246. -/
def dtSep (c : Char) : Bool := c = '-' || c = 'T' || c = 'Z' || c = ' ' || c = ':'

/-- `str::split` at these characters. -/
def dtSplit : Str → List Str
  | [] => [[]]
  | c :: s =>
    if dtSep c then [] :: dtSplit s
    else match dtSplit s with
      | p :: ps => (c :: p) :: ps
      | [] => [[c]]

/-- A digit. -/
def dtDigit (c : Char) : Option Nat := if 48 ≤ c.toNat ∧ c.toNat ≤ 57 then some (c.toNat - 48) else none

/-- The loop of `parse::<u8>` and `parse::<u16>`: an error on a character that is no digit, or on overflow. -/
def dtDigits (max : Nat) : Nat → Str → Option Nat
  | n, [] => some n
  | n, c :: s =>
    match dtDigit c with
    | none => none
    | some d => if n * 10 + d > max then none else dtDigits max (n * 10 + d) s

/-- `parse::<u8>` and `parse::<u16>`: a plus sign may come first. -/
def parseUint (max : Nat) : Str → Option Nat
  | [] => none
  | ['+'] => none
  | '+' :: s => dtDigits max 0 s
  | s => dtDigits max 0 s

/-- A token as a number, /repo/src/datetime.rs:250-278: 0 if there is none, or if it is no number. -/
def tokenNat (max : Nat) (parts : List Str) (i : Nat) : Nat :=
  match parts[i]? with
  | some t => (parseUint max t).getD 0
  | none => 0

/-- A token as seconds, /repo/src/datetime.rs:275-278 and 294-297. -/
def tokenSec {F : Type} (ops : FloatOps F) (parts : List Str) (i : Nat) : F :=
  match parts[i]? with
  | some t => (ops.parse t).getD (ops.ofNat 0)
  | none => ops.ofNat 0

/-- `parse_from_str`, /repo/src/datetime.rs:245-305. -/
def parseFromStr {F : Type} (ops : FloatOps F) (s : Str) : Except DtErr (ExcelDT F) :=
  let parts := dtSplit (uniTrim s)
  if s.contains '-' then
    match fromYmd ops ⟨tokenNat 65535 parts 0, tokenNat 255 parts 1, tokenNat 255 parts 2⟩ with
    | .error e => .error e
    | .ok t => t.andHms ops (tokenNat 65535 parts 3) (tokenNat 255 parts 4) (tokenSec ops parts 5)
  else if s.contains ':' then
    fromHms ops (tokenNat 65535 parts 0) (tokenNat 255 parts 1) (tokenSec ops parts 2)
  else .error .parse

/-- `format!("{n:02}")`. -/
def pad2 (n : Nat) : Str := if n < 10 then '0' :: showNat n else showNat n

/-- `to_rfc3339`, /repo/src/datetime.rs:1280-1285. -/
def ExcelDT.rfc3339 {F : Type} (ops : FloatOps F) (t : ExcelDT F) : Str :=
  showNat t.date.year ++ '-' :: (pad2 t.date.month ++ '-' :: (pad2 t.date.day ++ 'T' :: (pad2 t.hour ++ ':' ::
    (pad2 t.min ++ ':' :: (ops.show2 t.sec ++ ['Z'])))))

/-- `unix_time_to_rfc3339`, /repo/src/datetime.rs:1113-1118, the text of `utc_now` (1249-1252) at a time stamp. -/
def unixRfc3339 {F : Type} (ops : FloatOps F) (ts : Nat) : Str :=
  let p := unixTimeToParts ts
  ExcelDT.rfc3339 ops { date := p.1, hour := p.2.1, min := p.2.2.1, sec := ops.ofNat p.2.2.2 }

end Verif
