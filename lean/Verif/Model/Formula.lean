import Verif.Model.Xml
/-!
Formula text: `Formula::new` with `escape_formula` and `copy_escaped_formula`,
`escape_table_functions` (/repo/src/formula.rs:752-1181).
-/
namespace Verif

/-- The table of `future_functions`, /repo/src/formula.rs:1012-1177. -/
def futureTable : List (String × Nat) :=
  [("ACOTH", 0), ("ACOT", 0), ("AGGREGATE", 0), ("ARABIC", 0), ("ARRAYTOTEXT", 0), ("BASE", 0),
   ("BETA.DIST", 0), ("BETA.INV", 0), ("BINOM.DIST.RANGE", 0), ("BINOM.DIST", 0), ("BINOM.INV", 0),
   ("BITAND", 0), ("BITLSHIFT", 0), ("BITOR", 0), ("BITRSHIFT", 0), ("BITXOR", 0), ("CEILING.MATH", 0),
   ("CEILING.PRECISE", 0), ("CHISQ.DIST.RT", 0), ("CHISQ.DIST", 0), ("CHISQ.INV.RT", 0),
   ("CHISQ.INV", 0), ("CHISQ.TEST", 0), ("COMBINA", 0), ("CONCAT", 0), ("CONFIDENCE.NORM", 0),
   ("CONFIDENCE.T", 0), ("COTH", 0), ("COT", 0), ("COVARIANCE.P", 0), ("COVARIANCE.S", 0), ("CSCH", 0),
   ("CSC", 0), ("DAYS", 0), ("DECIMAL", 0), ("ERF.PRECISE", 0), ("ERFC.PRECISE", 0), ("EXPON.DIST", 0),
   ("F.DIST.RT", 0), ("F.DIST", 0), ("F.INV.RT", 0), ("F.INV", 0), ("F.TEST", 0), ("FIELDVALUE", 0),
   ("FILTERXML", 0), ("FLOOR.MATH", 0), ("FLOOR.PRECISE", 0), ("FORECAST.ETS.CONFINT", 0),
   ("FORECAST.ETS.SEASONALITY", 0), ("FORECAST.ETS.STAT", 0), ("FORECAST.ETS", 0),
   ("FORECAST.LINEAR", 0), ("FORMULATEXT", 0), ("GAMMA.DIST", 0), ("GAMMA.INV", 0),
   ("GAMMALN.PRECISE", 0), ("GAMMA", 0), ("GAUSS", 0), ("HYPGEOM.DIST", 0), ("IFNA", 0), ("IFS", 0),
   ("IMAGE", 0), ("IMCOSH", 0), ("IMCOT", 0), ("IMCSCH", 0), ("IMCSC", 0), ("IMSECH", 0), ("IMSEC", 0),
   ("IMSINH", 0), ("IMTAN", 0), ("ISFORMULA", 0), ("ISOMITTED", 0), ("ISOWEEKNUM", 0), ("LET", 0),
   ("LOGNORM.DIST", 0), ("LOGNORM.INV", 0), ("MAXIFS", 0), ("MINIFS", 0), ("MODE.MULT", 0),
   ("MODE.SNGL", 0), ("MUNIT", 0), ("NEGBINOM.DIST", 0), ("NORM.DIST", 0), ("NORM.INV", 0),
   ("NORM.S.DIST", 0), ("NORM.S.INV", 0), ("NUMBERVALUE", 0), ("PDURATION", 0), ("PERCENTILE.EXC", 0),
   ("PERCENTILE.INC", 0), ("PERCENTRANK.EXC", 0), ("PERCENTRANK.INC", 0), ("PERMUTATIONA", 0),
   ("PHI", 0), ("POISSON.DIST", 0), ("PQSOURCE", 0), ("PYTHON_STR", 0), ("PYTHON_TYPE", 0),
   ("PYTHON_TYPENAME", 0), ("QUARTILE.EXC", 0), ("QUARTILE.INC", 0), ("QUERYSTRING", 0),
   ("RANK.AVG", 0), ("RANK.EQ", 0), ("RRI", 0), ("SECH", 0), ("SEC", 0), ("SHEETS", 0), ("SHEET", 0),
   ("SKEW.P", 0), ("STDEV.P", 0), ("STDEV.S", 0), ("T.DIST.2T", 0), ("T.DIST.RT", 0), ("T.DIST", 0),
   ("T.INV.2T", 0), ("T.INV", 0), ("T.TEST", 0), ("TEXTAFTER", 0), ("TEXTBEFORE", 0), ("TEXTJOIN", 0),
   ("UNICHAR", 0), ("UNICODE", 0), ("VALUETOTEXT", 0), ("VAR.P", 0), ("VAR.S", 0), ("WEBSERVICE", 0),
   ("WEIBULL.DIST", 0), ("XMATCH", 0), ("XOR", 0), ("Z.TEST", 0), ("ANCHORARRAY", 1), ("BYCOL", 1),
   ("BYROW", 1), ("CHOOSECOLS", 1), ("CHOOSEROWS", 1), ("DROP", 1), ("EXPAND", 1), ("HSTACK", 1),
   ("LAMBDA", 1), ("MAKEARRAY", 1), ("MAP", 1), ("RANDARRAY", 1), ("REDUCE", 1), ("SCAN", 1),
   ("SEQUENCE", 1), ("SINGLE", 1), ("SORTBY", 1), ("SWITCH", 1), ("TAKE", 1), ("TEXTSPLIT", 1),
   ("TOCOL", 1), ("TOROW", 1), ("UNIQUE", 1), ("VSTACK", 1), ("WRAPCOLS", 1), ("WRAPROWS", 1),
   ("XLOOKUP", 1), ("FILTER", 2), ("SORT", 2), ("PY", 2)]

/-- `future_functions`, /repo/src/formula.rs:1008-1180. -/
def futureFunctions (f : Str) : Option Nat := (futureTable.map fun p => (p.1.toList, p.2)).lookup f

/-- `is_function_char`, /repo/src/formula.rs:861-862, 934-935. -/
def isFunctionChar (c : Char) : Bool :=
  ('A' ≤ c && c ≤ 'Z') || ('0' ≤ c && c ≤ '9') || c = '.'

/-- `is_function_start_char`, /repo/src/formula.rs:936. -/
def isFunctionStartChar (c : Char) : Bool := ('A' ≤ c && c ≤ 'Z') || ('0' ≤ c && c ≤ '9')

/-- The state of the loop of `escape_formula`, /repo/src/formula.rs:840-844. `token` is the slice from
`start_position` to the current position while `in_function` is set; it takes in every character that is
passed, also those of a string literal. -/
structure EscState where
  token : Option Str := none
  literal : Bool := false
  dynamic : Bool := false
  out : Str := []

/-- The prefix and the new dynamic flag for a token that is followed by `(`,
/repo/src/formula.rs:875-886. -/
def futurePrefix (token : Str) : Str × Bool :=
  match futureFunctions token with
  | none => ([], false)
  | some t => ("_xlfn.".toList ++ (if t = 2 then "_xlws.".toList else []), decide (t > 0))

/-- One step of the loop of `escape_formula`, /repo/src/formula.rs:846-901. -/
def escStep (s : EscState) (c : Char) : EscState :=
  let literal := if c = '"' then !s.literal else s.literal
  if literal then { s with literal := literal, out := s.out ++ [c], token := s.token.map (· ++ [c]) }
  else
    match s.token with
    | some token =>
      if !isFunctionChar c then
        let p := if c = '(' then futurePrefix token else ([], false)
        { token := none, literal := literal, dynamic := s.dynamic || p.2,
          out := s.out ++ p.1 ++ token ++ [c] }
      else { s with literal := literal, token := some (token ++ [c]) }
    | none =>
      if isFunctionChar c then { s with literal := literal, token := some [c] }
      else { s with literal := literal, out := s.out ++ [c] }

/-- `escape_formula`, /repo/src/formula.rs:839-909. -/
def escapeFormula (f : Str) : Str × Bool :=
  let s := f.foldl escStep {}
  (s.out ++ s.token.getD [], s.dynamic)

/-- One step of the loop of `copy_escaped_formula`, /repo/src/formula.rs:920-960. -/
def copyStep (s : EscState) (c : Char) : EscState :=
  let literal := if c = '"' then !s.literal else s.literal
  if literal then { s with literal := literal, token := s.token.map (· ++ [c]) }
  else
    match s.token with
    | some token =>
      if !isFunctionChar c then
        let p := if c = '(' then futurePrefix token else ([], false)
        { s with token := none, literal := literal, dynamic := s.dynamic || p.2 }
      else { s with literal := literal, token := some (token ++ [c]) }
    | none =>
      if isFunctionStartChar c then { s with literal := literal, token := some [c] }
      else { s with literal := literal }

/-- `copy_escaped_formula`, /repo/src/formula.rs:914-963. -/
def copyEscapedFormula (f : Str) : Str × Bool := (f, (f.foldl copyStep {}).dynamic)

/-- Rust `strip_prefix(char)`. -/
def stripPrefix (c : Char) : Str → Str
  | d :: s => if d = c then s else d :: s
  | [] => []

/-- Rust `strip_suffix(char)`. -/
def stripSuffix (c : Char) (s : Str) : Str := if s.getLast? = some c then s.dropLast else s

/-- The braces and the equals sign, /repo/src/formula.rs:754-763. -/
def stripFormula (f : Str) : Str := stripSuffix '}' (stripPrefix '=' (stripPrefix '{' f))

/-- Rust `contains(&str)`. -/
def containsStr (p : Str) : Str → Bool
  | [] => p.isEmpty
  | c :: s => startsWith p (c :: s) || containsStr p s

/-- `Formula::new`, /repo/src/formula.rs:752-783: the stored text and the dynamic flag. -/
def formulaNew (f : Str) : Str × Bool :=
  let f := stripFormula f
  if containsStr "_xlfn.".toList f then copyEscapedFormula f else escapeFormula f

/-- The loop of `escape_table_functions`, /repo/src/formula.rs:977-996. -/
def tableStep (s : Bool × Str) (c : Char) : Bool × Str :=
  let literal := if c = '"' then !s.1 else s.1
  if literal then (literal, s.2 ++ [c])
  else if c = '@' then (literal, s.2 ++ "[#This Row],".toList)
  else (literal, s.2 ++ [c])

/-- `escape_table_functions`, /repo/src/formula.rs:968-1000. -/
def escapeTableFunctions (f : Str) : Str :=
  if !f.contains '@' then f else (f.foldl tableStep (false, [])).2

end Verif
