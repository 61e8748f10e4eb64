import Verif.Spec.Book
/-! Row and column formats when both are in use. -/
namespace Verif
variable {Fmt : Type}

/-- The call is an accepted setting (format, height, hidden) of row `r`. -/
def Op.setsRow (r : Nat) : Op Fmt → Bool
  | .rowFormat r' _ | .rowHeight r' _ | .rowHidden r' => r' = r && r < 1048576
  | _ => false

/-- The call is an accepted format of column `c`. -/
def Op.setsCol (c : Nat) : Op Fmt → Bool
  | .columnFormat c' _ => c' = c && c < 16384
  | _ => false

/-- The format given by the first setting of row `r`, if that was a format. -/
def firstRowFmt (ops : List (Op Fmt)) (r : Nat) : Option Fmt :=
  (ops.find? (·.setsRow r)).bind fun
    | .rowFormat _ f => some f
    | _ => none

/-- The first format given to column `c`. -/
def firstColFmt (ops : List (Op Fmt)) (c : Nat) : Option Fmt :=
  (ops.find? (·.setsCol c)).bind fun
    | .columnFormat _ f => some f
    | _ => none

/-- A value written to one cell without a format; dynamic functions and empty strings are left out. -/
inductive PlainWrite where
  | number (n : F64)
  | dateTime (n : F64)
  | string (s : Str)
  | rich (s raw : Str)
  | formula (fa : FormulaArg)
  | boolean (b : Bool)

/-- The call that makes the write, with or without a format. -/
def PlainWrite.op (w : PlainWrite) (r c : Nat) (f : Option Fmt) : Op Fmt :=
  match w with
  | .number n => .number r c n f
  | .dateTime n => .dateTime r c n f
  | .string s => .string r c s f
  | .rich s raw => .rich r c s raw f
  | .formula fa => .formula r c fa f
  | .boolean b => .boolean r c b f

/-- The write stores something: no empty string, no text over Excel's limit, no dynamic function. -/
def PlainWrite.stores (cfg : Cfg) : PlainWrite → Bool
  | .number n | .dateTime n => match n with
    | .finite _ => true
    | .nan => cfg.nanText ≠ [] && cfg.nanText.length ≤ 32767
    | .posInf => cfg.infText ≠ [] && cfg.infText.length ≤ 32767
    | .negInf => cfg.negInfText ≠ [] && cfg.negInfText.length ≤ 32767
  | .string s | .rich s _ => s ≠ [] && s.length ≤ 32767
  | .formula fa => !fa.dynamic
  | .boolean _ => true

end Verif
