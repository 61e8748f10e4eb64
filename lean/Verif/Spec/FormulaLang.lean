import Verif.Spec.Ref
import Verif.Spec.DateTime
/-!
A small specification of what Excel computes for a formula: enough of the language for the formulas of conditional
formats. Formulas are read as Excel reads them (strings in double quotes with a doubled quote for a quote, references,
whole numbers, functions, `+`, `-` and comparisons) and computed at once. Numbers are exact.

Simplifications: `LEFT`, `RIGHT` and `LEN` count characters (Excel counts UTF-16 units, which differ only outside the
basic multilingual plane); the functions know whole-number arguments where Excel truncates; a text is not converted to a
number in arithmetic.
-/
namespace Verif.Spec

/-- What a cell or a formula evaluates to. -/
inductive FVal where
  | num (x : Rat)
  | text (t : List Char)
  | bool (b : Bool)
  | blank
  | err
deriving DecidableEq

/-- The world in which a formula is computed: the cells by row and column, the serial number of today, the lower case of
characters, and how numbers show as text. -/
structure FEnv where
  cell : Nat → Nat → FVal
  today : Int
  lower : Char → Char
  numText : Rat → List Char

/-! ### Tokens -/

/-- A token: a name, number or reference; a string; an operator. -/
inductive FTok where
  | word (w : List Char)
  | str (s : List Char)
  | op (c : Char)
  | le | ge | ne
deriving DecidableEq

/-- Where the tokenizer is: between tokens, in a word, in a string, after a quote in a string, after `<`, after `>`. -/
inductive LexMode where
  | start
  | word (w : List Char)
  | str (s : List Char)
  | quote (s : List Char)
  | lt
  | gt
deriving DecidableEq

/-- Letters, digits and what else is in names and references. -/
def wordChar (c : Char) : Bool :=
  ('A' ≤ c && c ≤ 'Z') || ('a' ≤ c && c ≤ 'z') || ('0' ≤ c && c ≤ '9') || c = '$' || c = '.' || c = '_'

/-- The start of a token. -/
def lexStart (c : Char) : Option (List FTok × LexMode) :=
  if wordChar c then some ([], .word [c])
  else if c = '"' then some ([], .str [])
  else if c = '<' then some ([], .lt)
  else if c = '>' then some ([], .gt)
  else if c = ' ' then some ([], .start)
  else if c = '=' || c = '+' || c = '-' || c = ',' || c = '(' || c = ')' then some ([.op c], .start)
  else none

/-- A finished token, and then the start of the next. -/
def lexAfter (t : FTok) (c : Char) : Option (List FTok × LexMode) := (lexStart c).map fun p => (t :: p.1, p.2)

/-- One character. -/
def lexStep : LexMode → Char → Option (List FTok × LexMode)
  | .start, c => lexStart c
  | .word w, c => if wordChar c then some ([], .word (w ++ [c])) else lexAfter (.word w) c
  | .str s, c => if c = '"' then some ([], .quote s) else some ([], .str (s ++ [c]))
  | .quote s, c => if c = '"' then some ([], .str (s ++ ['"'])) else lexAfter (.str s) c
  | .lt, c => if c = '=' then some ([.le], .start) else if c = '>' then some ([.ne], .start) else lexAfter (.op '<') c
  | .gt, c => if c = '=' then some ([.ge], .start) else lexAfter (.op '>') c

/-- The end of the text: an open string is an error. -/
def lexEnd : LexMode → Option (List FTok)
  | .start => some []
  | .word w => some [.word w]
  | .str _ => none
  | .quote s => some [.str s]
  | .lt => some [.op '<']
  | .gt => some [.op '>']

/-- The tokens of a text. -/
def lexFrom (m : LexMode) (done : List FTok) : List Char → Option (List FTok)
  | [] => (lexEnd m).map (done ++ ·)
  | c :: cs =>
    match lexStep m c with
    | none => none
    | some (out, m') => lexFrom m' (done ++ out) cs

/-! ### Functions -/

/-- A value as a number: blanks are zero, logical values zero or one. -/
def FVal.toNum : FVal → Option Rat
  | .num x => some x
  | .bool b => some (if b then 1 else 0)
  | .blank => some 0
  | .text _ => none
  | .err => none

/-- A value as text. -/
def FVal.toText (e : FEnv) : FVal → Option (List Char)
  | .num x => some (e.numText x)
  | .text t => some t
  | .bool b => some (if b then "TRUE".toList else "FALSE".toList)
  | .blank => some []
  | .err => none

/-- A condition: true, or a number other than zero. -/
def FVal.holds : FVal → Bool
  | .bool b => b
  | .num x => x ≠ 0
  | _ => false

/-- One place of a search pattern: a character, `?` or `*`. -/
inductive PatChar where
  | lit (c : Char)
  | one
  | many

/-- The pattern that a search text is: `~` takes the next character literally. -/
def pattern : List Char → List PatChar
  | [] => []
  | '~' :: c :: cs => .lit c :: pattern cs
  | '*' :: cs => .many :: pattern cs
  | '?' :: cs => .one :: pattern cs
  | c :: cs => .lit c :: pattern cs

/-- The text starts with something that fits the pattern, whatever the case of the letters. -/
def fitsAt (lower : Char → Char) : List PatChar → List Char → Bool
  | [], _ => true
  | .lit _ :: _, [] => false
  | .lit c :: p, d :: t => lower c == lower d && fitsAt lower p t
  | .one :: _, [] => false
  | .one :: p, _ :: t => fitsAt lower p t
  | .many :: p, t => (List.range (t.length + 1)).any fun k => fitsAt lower p (t.drop k)

/-- The first place where a pattern fits. -/
def findPattern (lower : Char → Char) (p : List PatChar) (t : List Char) : Option Nat :=
  (List.range (t.length + 1)).find? fun k => fitsAt lower p (t.drop k)

/-- The rest of a text whose inner blanks are reduced to one and whose last blanks are removed; `gap` if there were blanks
before it. -/
def trimRest : Bool → List Char → List Char
  | _, [] => []
  | gap, c :: t =>
    if c = ' ' then trimRest true t
    else if gap then ' ' :: c :: trimRest false t
    else c :: trimRest false t

/-- A text without the blanks around it, and with one blank between words. -/
def trimText (t : List Char) : List Char := trimRest false (t.dropWhile (· = ' '))

/-- Rounding toward zero. -/
def truncRat (x : Rat) : Int := if 0 ≤ x then x.floor else -((-x).floor)

/-- The year and month of a serial number in the 1900 date system, with its 29 February 1900. -/
def serialYM (n : Int) : Nat × Nat :=
  if n = 60 then (1900, 2)
  else
    let d := dateFrom1970 (if n < 60 then n - 25568 else n - 25569)
    (d.year, d.month)

/-- The day of the week of a serial number: Sunday is 1. -/
def serialWeekday (n : Int) : Int := (n - 1) % 7 + 1

/-- One argument that is a number. -/
def numFn (f : Rat → FVal) : List FVal → FVal
  | [v] => match v.toNum with
    | some x => f x
    | none => .err
  | _ => .err

/-- The logical value of an argument. -/
def FVal.toBool : FVal → Option Bool
  | .bool b => some b
  | .num x => some (decide (x ≠ 0))
  | .blank => some false
  | _ => none

/-- The logical values of the arguments. -/
def boolArgs (vs : List FVal) : Option (List Bool) := vs.mapM FVal.toBool

/-- What a function computes. -/
def callFn (e : FEnv) (name : List Char) (args : List FVal) : FVal :=
  if name = "TODAY".toList then (if args = [] then .num e.today else .err)
  else if name = "ISERROR".toList then
    match args with
    | [v] => .bool (v == .err)
    | _ => .err
  else if name = "NOT".toList then
    match boolArgs args with
    | some [b] => .bool (!b)
    | _ => .err
  else if name = "AND".toList then
    match boolArgs args with
    | some bs => .bool (bs.all id)
    | none => .err
  else if name = "OR".toList then
    match boolArgs args with
    | some bs => .bool (bs.any id)
    | none => .err
  else if name = "SEARCH".toList then
    match args with
    | [f, w] =>
      match f.toText e, w.toText e with
      | some f, some w =>
        match findPattern e.lower (pattern f) w with
        | some k => .num (k + 1 : Nat)
        | none => .err
      | _, _ => .err
    | _ => .err
  else if name = "LEFT".toList then
    match args with
    | [v, n] =>
      match v.toText e, n.toNum with
      | some t, some n => if n < 0 then .err else .text (t.take n.floor.toNat)
      | _, _ => .err
    | _ => .err
  else if name = "RIGHT".toList then
    match args with
    | [v, n] =>
      match v.toText e, n.toNum with
      | some t, some n => if n < 0 then .err else .text (t.drop (t.length - n.floor.toNat))
      | _, _ => .err
    | _ => .err
  else if name = "LEN".toList then
    match args with
    | [v] =>
      match v.toText e with
      | some t => .num t.length
      | none => .err
    | _ => .err
  else if name = "TRIM".toList then
    match args with
    | [v] =>
      match v.toText e with
      | some t => .text (trimText t)
      | none => .err
    | _ => .err
  else if name = "FLOOR".toList then
    match args with
    | [v, s] =>
      match v.toNum, s.toNum with
      | some x, some s => if s = 1 then .num x.floor else .err
      | _, _ => .err
    | _ => .err
  else if name = "ROUNDDOWN".toList then
    match args with
    | [v, s] =>
      match v.toNum, s.toNum with
      | some x, some s => if s = 0 then .num (truncRat x) else .err
      | _, _ => .err
    | _ => .err
  else if name = "WEEKDAY".toList then numFn (fun x => if x < 0 then .err else .num (serialWeekday x.floor)) args
  else if name = "MONTH".toList then numFn (fun x => if x < 0 then .err else .num (serialYM x.floor).2) args
  else if name = "YEAR".toList then numFn (fun x => if x < 0 then .err else .num (serialYM x.floor).1) args
  else .err

/-! ### Operators -/

/-- Sums and differences. -/
def arith (minus : Bool) (a b : FVal) : FVal :=
  match a.toNum, b.toNum with
  | some x, some y => .num (if minus then x - y else x + y)
  | _, _ => .err

/-- Equality of values: texts whatever the case of the letters; a blank is zero and the empty text. -/
def sameVal (e : FEnv) (a b : FVal) : Option Bool :=
  match a, b with
  | .err, _ => none
  | _, .err => none
  | .num x, .num y => some (decide (x = y))
  | .text s, .text t => some (decide (s.map e.lower = t.map e.lower))
  | .bool x, .bool y => some (decide (x = y))
  | .blank, .blank => some true
  | .blank, .num y => some (decide (0 = y))
  | .num x, .blank => some (decide (x = 0))
  | .blank, .text t => some (decide (t = []))
  | .text s, .blank => some (decide (s = []))
  | _, _ => some false

/-- A comparison operator. -/
inductive FCmp where
  | eq | ne | lt | le | gt | ge
deriving DecidableEq

/-- The order of two numbers (other values are not ordered here). -/
def orderVal (c : FCmp) (a b : FVal) : FVal :=
  match a.toNum, b.toNum with
  | some x, some y =>
    match c with
    | .lt => .bool (decide (x < y))
    | .le => .bool (decide (x ≤ y))
    | .gt => .bool (decide (y < x))
    | .ge => .bool (decide (y ≤ x))
    | _ => .err
  | _, _ => .err

/-- A comparison. -/
def compareVal (e : FEnv) (c : FCmp) (a b : FVal) : FVal :=
  match c with
  | .eq => match sameVal e a b with
    | some r => .bool r
    | none => .err
  | .ne => match sameVal e a b with
    | some r => .bool (!r)
    | none => .err
  | c => orderVal c a b

/-- The comparison operator that a token is. -/
def cmpTok : FTok → Option FCmp
  | .op '=' => some .eq
  | .op '<' => some .lt
  | .op '>' => some .gt
  | .le => some .le
  | .ge => some .ge
  | .ne => some .ne
  | _ => none

/-- A word that is not a function: a whole number, a logical value, or a cell. -/
def wordVal (e : FEnv) (w : List Char) : FVal :=
  if w = "TRUE".toList then .bool true
  else if w = "FALSE".toList then .bool false
  else match readNat w with
    | some n => .num n
    | none =>
      match readA1 w with
      | some (r, c) => e.cell r c
      | none => .err

/-! ### Reading and computing -/

mutual
/-- A string, a function call, a word, or something in parentheses. -/
def evPrimary (e : FEnv) : Nat → List FTok → Option (FVal × List FTok)
  | 0, _ => none
  | _ + 1, .str s :: r => some (.text s, r)
  | n + 1, .word w :: .op '(' :: r =>
    match evArgs e n r with
    | some (args, r) => some (callFn e w args, r)
    | none => none
  | _ + 1, .word w :: r => some (wordVal e w, r)
  | n + 1, .op '(' :: r =>
    match evExpr e n r with
    | some (v, .op ')' :: r) => some (v, r)
    | _ => none
  | _, _ => none

/-- The arguments of a function, up to the parenthesis. -/
def evArgs (e : FEnv) : Nat → List FTok → Option (List FVal × List FTok)
  | 0, _ => none
  | _ + 1, .op ')' :: r => some ([], r)
  | n + 1, ts =>
    match evExpr e n ts with
    | some (v, .op ',' :: r) =>
      match evArgs e n r with
      | some (vs, r) => some (v :: vs, r)
      | none => none
    | some (v, .op ')' :: r) => some ([v], r)
    | _ => none

/-- What may follow a term: more terms. -/
def evSum (e : FEnv) : Nat → FVal → List FTok → Option (FVal × List FTok)
  | 0, _, _ => none
  | n + 1, v, .op '+' :: r =>
    match evPrimary e n r with
    | some (w, r) => evSum e n (arith false v w) r
    | none => none
  | n + 1, v, .op '-' :: r =>
    match evPrimary e n r with
    | some (w, r) => evSum e n (arith true v w) r
    | none => none
  | _ + 1, v, r => some (v, r)

/-- What may follow a sum: comparisons. -/
def evCmp (e : FEnv) : Nat → FVal → List FTok → Option (FVal × List FTok)
  | 0, _, _ => none
  | _ + 1, v, [] => some (v, [])
  | n + 1, v, t :: r =>
    match cmpTok t with
    | none => some (v, t :: r)
    | some c =>
      match evPrimary e n r with
      | none => none
      | some (w, r) =>
        match evSum e n w r with
        | some (w, r) => evCmp e n (compareVal e c v w) r
        | none => none

/-- An expression. -/
def evExpr (e : FEnv) : Nat → List FTok → Option (FVal × List FTok)
  | 0, _ => none
  | n + 1, ts =>
    match evPrimary e n ts with
    | none => none
    | some (v, r) =>
      match evSum e n v r with
      | none => none
      | some (v, r) => evCmp e n v r
end

/-- The value of the tokens of a whole formula. -/
def evalToks (e : FEnv) (ts : List FTok) : Option FVal :=
  match evExpr e (4 * ts.length + 8) ts with
  | some (v, []) => some v
  | _ => none

/-- The value of a formula; none if it is not a formula. -/
def evalFormula (e : FEnv) (f : List Char) : Option FVal :=
  match lexFrom .start [] f with
  | some ts => evalToks e ts
  | none => none

end Verif.Spec
