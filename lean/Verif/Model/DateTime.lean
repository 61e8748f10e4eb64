/-!
Model of `/repo/src/datetime.rs`: `ExcelDateTime` validation, conversion to Excel serial
numbers, and conversion of Unix timestamps to date parts.

Simplifications: the fixed width integers are `Nat` (the property theorems bound the results);
subtractions that could underflow in Rust are modelled by `subU`, which returns `none` (panic).
The fractional time of day is kept as an exact number of milliseconds instead of an `f64`.
-/
namespace Verif

/-- The date fields of `ExcelDateTime` (datetime.rs:186-196): year, month, day. -/
structure YMD where
  year : Nat
  month : Nat
  day : Nat
deriving DecidableEq, Repr

/-- Unsigned subtraction: `none` models the overflow panic. -/
def subU (a b : Nat) : Option Nat := if b ≤ a then some (a - b) else none

/-- datetime.rs:1243-1245 `is_leap_year`. -/
def isLeapYear (year : Nat) : Bool := year % 4 == 0 && (year % 100 != 0 || year % 400 == 0)

/-- datetime.rs:936, 954-956 (also 1029, 1073-1074 and 1134, 1205-1207): the `months` array with
February adjusted when `leap`. -/
def monthsArr (leap : Bool) : List Nat :=
  [31, if leap then 29 else 28, 31, 30, 31, 30, 31, 31, 30, 31, 30, 31]

/-- datetime.rs:935-965 `validate_ymd`: `true` is `Ok(())`; all errors are
`DateTimeRangeError`. -/
def validateYmd (d : YMD) : Bool :=
  if d.year > 9999 || (d.year < 1900 && (d.year != 1899 || d.month != 12 || d.day != 31)) then
    false
  else if !(1 ≤ d.month && d.month ≤ 12) then false
  else
    let months := monthsArr (isLeapYear d.year || d.year == 1900)
    if d.day < 1 || d.day > months.getD (d.month - 1) 0 then false else true

/-- datetime.rs:968-986 `validate_hms`, with the seconds given in milliseconds. -/
def validateHms (min secMs : Nat) : Bool := !(min > 60) && !(secMs > 59999)

/-- datetime.rs:989-1013 `validate_hms_milli`. -/
def validateHmsMilli (min sec milli : Nat) : Bool := !(min > 60) && !(sec > 60) && !(milli > 999)

/-- datetime.rs:1049: the time of day, in milliseconds (the code divides by 24*60*60 s). -/
def timeMs (hour min secMs : Nat) : Nat := (hour * 60 * 60 + min * 60) * 1000 + secMs

/-- datetime.rs:1079-1081: days of the months before `month`. -/
def prevMonthDays (months : List Nat) (month : Nat) : Nat := (months.take (month - 1)).sum

/-- datetime.rs:1020-1107 `to_excel_from_ymd_hms`, whole-day part (the result is this number of
days plus `timeMs / 86_400_000`).  `none` = arithmetic underflow panic. -/
def serialDays (d0 : YMD) (is1904 : Bool) : Option Nat := do
  let epoch := if is1904 then 1904 else 1900
  let off := if is1904 then 4 else 0
  let d := if d0.year = 0 then (if is1904 then ⟨1904, 1, 1⟩ else ⟨1899, 12, 31⟩) else d0
  if !is1904 && d == ⟨1899, 12, 31⟩ then return 0
  if !is1904 && d == ⟨1900, 1, 0⟩ then return 0
  if !is1904 && d == ⟨1900, 2, 29⟩ then return 60
  let range ← subU d.year epoch
  let leap := isLeapYear d.year
  let days := prevMonthDays (monthsArr leap) d.month + d.day + range * 365 + range / 4
  let days ← subU days ((range + off) / 100)
  let days := days + (range + off + 300) / 400
  let days ← subU days (if leap then 1 else 0)
  return if !is1904 && days > 59 then days + 1 else days

/-- datetime.rs:908-914, 1106 `to_excel`: the serial date-time in milliseconds since day 0, for a
value made from date and time parts. -/
def serialMs (d : YMD) (is1904 : Bool) (hour min secMs : Nat) : Option Nat :=
  (serialDays d is1904).map (fun n => n * 86400000 + timeMs hour min secMs)

/-- datetime.rs:1151-1157: which 100-year block of the 400-year cycle, and the days left. -/
def blocks100 (days : Nat) : Nat × Nat :=
  if days < 36525 then (days / 36525, days % 36525)
  else (1 + (days - 36525) / 36524, (days - 36525) % 36524)

/-- datetime.rs:1164-1179: which 4-year block, the days left, and whether the block has no leap
year. -/
def blocks4 (b100 days : Nat) : Nat × Nat × Bool :=
  if b100 = 0 then (days / 1461, days % 1461, false)
  else if days < 1461 then (days / 1460, days % 1460, true)
  else (1 + (days - 1460) / 1461, (days - 1460) % 1461, false)

/-- datetime.rs:1183-1196: which year of the 4-year block, and the zero-based day of the year. -/
def blocks1 (nonLeap : Bool) (days : Nat) : Nat × Nat :=
  if nonLeap then (days / 365, days % 365)
  else if days < 366 then (days / 366, days % 366)
  else (1 + (days - 366) / 365, (days - 366) % 365)

/-- datetime.rs:1210-1218: the month loop over the one-based day of the year. -/
def monthLoop : List Nat → Nat → Nat → Nat × Nat
  | [], month, days => (month, days)
  | md :: rest, month, days =>
    if days > md then monthLoop rest (month + 1) (days - md) else (month, days)

/-- datetime.rs:1133-1221 `unix_time_to_date_parts`, date part, from the day count. -/
def dayToYmd (days0 : Nat) : YMD :=
  let days := days0 + 135140
  let b400 := days / 146097
  let (b100, days) := blocks100 (days % 146097)
  let (b4, days, nl) := blocks4 b100 days
  let (b1, days) := blocks1 nl days
  let year := 1600 + b400 * 400 + b100 * 100 + b4 * 4 + b1
  let (month, day) := monthLoop (monthsArr (isLeapYear year)) 1 (days + 1)
  ⟨year, month, day⟩

/-- datetime.rs:1133-1240 `unix_time_to_date_parts`: date, hour, minute, second. -/
def unixTimeToParts (ts : Nat) : YMD × Nat × Nat × Nat :=
  let seconds := ts % 86400
  let hour := seconds / 3600
  let min := (seconds - hour * 3600) / 60
  let sec := (seconds - hour * 3600 - min * 60) % 60
  (dayToYmd (ts / 86400), hour, min, sec)

/-- datetime.rs:842-877 `from_timestamp`: `none` is `DateTimeRangeError`; the inner option of the
year subtraction (`year - 400`, 854) is folded into it. -/
def fromTimestamp (ts : Int) : Option (YMD × Nat × Nat × Nat) :=
  if !(decide (-2209075200 ≤ ts) && decide (ts < 253402300800)) then none
  else
    let t := (12622780800 + ts).toNat
    let (d, hour, min, sec) := unixTimeToParts t
    match subU d.year 400 with
    | none => none
    | some year =>
      let d' : YMD := ⟨year, d.month, d.day⟩
      if !validateYmd d' then none
      else if !validateHms min (sec * 1000) then none
      else some (d', hour, min, sec)

end Verif
