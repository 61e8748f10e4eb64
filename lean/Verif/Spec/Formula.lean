/-!
How formulas are stored, from the documentation (/repo/src/formula.rs:215-250 and 517-691): the lists of
dynamic and of future functions, and where prefixes are put.
-/
namespace Verif.Spec

/-- The table of future functions in the documentation, /repo/src/formula.rs:520-690. -/
def documented : List String :=
  ["_xlfn.ACOTH", "_xlfn.ACOT", "_xlfn.AGGREGATE", "_xlfn.ARABIC", "_xlfn.ARRAYTOTEXT", "_xlfn.BASE",
   "_xlfn.BETA.DIST", "_xlfn.BETA.INV", "_xlfn.BINOM.DIST.RANGE", "_xlfn.BINOM.DIST",
   "_xlfn.BINOM.INV", "_xlfn.BITAND", "_xlfn.BITLSHIFT", "_xlfn.BITOR", "_xlfn.BITRSHIFT",
   "_xlfn.BITXOR", "_xlfn.CEILING.MATH", "_xlfn.CEILING.PRECISE", "_xlfn.CHISQ.DIST.RT",
   "_xlfn.CHISQ.DIST", "_xlfn.CHISQ.INV.RT", "_xlfn.CHISQ.INV", "_xlfn.CHISQ.TEST", "_xlfn.COMBINA",
   "_xlfn.CONCAT", "_xlfn.CONFIDENCE.NORM", "_xlfn.CONFIDENCE.T", "_xlfn.COTH", "_xlfn.COT",
   "_xlfn.COVARIANCE.P", "_xlfn.COVARIANCE.S", "_xlfn.CSCH", "_xlfn.CSC", "_xlfn.DAYS",
   "_xlfn.DECIMAL", "_xlfn.ERF.PRECISE", "_xlfn.ERFC.PRECISE", "_xlfn.EXPON.DIST", "_xlfn.F.DIST.RT",
   "_xlfn.F.DIST", "_xlfn.F.INV.RT", "_xlfn.F.INV", "_xlfn.F.TEST", "_xlfn.FIELDVALUE",
   "_xlfn.FILTERXML", "_xlfn.FLOOR.MATH", "_xlfn.FLOOR.PRECISE", "_xlfn.FORECAST.ETS.CONFINT",
   "_xlfn.FORECAST.ETS.SEASONALITY", "_xlfn.FORECAST.ETS.STAT", "_xlfn.FORECAST.ETS",
   "_xlfn.FORECAST.LINEAR", "_xlfn.FORMULATEXT", "_xlfn.GAMMA.DIST", "_xlfn.GAMMA.INV",
   "_xlfn.GAMMALN.PRECISE", "_xlfn.GAMMA", "_xlfn.GAUSS", "_xlfn.HYPGEOM.DIST", "_xlfn.IFNA",
   "_xlfn.IFS", "_xlfn.IMAGE", "_xlfn.IMCOSH", "_xlfn.IMCOT", "_xlfn.IMCSCH", "_xlfn.IMCSC",
   "_xlfn.IMSECH", "_xlfn.IMSEC", "_xlfn.IMSINH", "_xlfn.IMTAN", "_xlfn.ISFORMULA", "_xlfn.ISOMITTED",
   "_xlfn.ISOWEEKNUM", "_xlfn.LET", "_xlfn.LOGNORM.DIST", "_xlfn.LOGNORM.INV", "_xlfn.MAXIFS",
   "_xlfn.MINIFS", "_xlfn.MODE.MULT", "_xlfn.MODE.SNGL", "_xlfn.MUNIT", "_xlfn.NEGBINOM.DIST",
   "_xlfn.NORM.DIST", "_xlfn.NORM.INV", "_xlfn.NORM.S.DIST", "_xlfn.NORM.S.INV", "_xlfn.NUMBERVALUE",
   "_xlfn.PDURATION", "_xlfn.PERCENTILE.EXC", "_xlfn.PERCENTILE.INC", "_xlfn.PERCENTRANK.EXC",
   "_xlfn.PERCENTRANK.INC", "_xlfn.PERMUTATIONA", "_xlfn.PHI", "_xlfn.POISSON.DIST", "_xlfn.PQSOURCE",
   "_xlfn.PYTHON_STR", "_xlfn.PYTHON_TYPE", "_xlfn.PYTHON_TYPENAME", "_xlfn.QUARTILE.EXC",
   "_xlfn.QUARTILE.INC", "_xlfn.QUERYSTRING", "_xlfn.RANK.AVG", "_xlfn.RANK.EQ", "_xlfn.RRI",
   "_xlfn.SECH", "_xlfn.SEC", "_xlfn.SHEETS", "_xlfn.SHEET", "_xlfn.SKEW.P", "_xlfn.STDEV.P",
   "_xlfn.STDEV.S", "_xlfn.T.DIST.2T", "_xlfn.T.DIST.RT", "_xlfn.T.DIST", "_xlfn.T.INV.2T",
   "_xlfn.T.INV", "_xlfn.T.TEST", "_xlfn.TEXTAFTER", "_xlfn.TEXTBEFORE", "_xlfn.TEXTJOIN",
   "_xlfn.UNICHAR", "_xlfn.UNICODE", "_xlfn.VALUETOTEXT", "_xlfn.VAR.P", "_xlfn.VAR.S",
   "_xlfn.WEBSERVICE", "_xlfn.WEIBULL.DIST", "_xlfn.XMATCH", "_xlfn.XOR", "_xlfn.Z.TEST",
   "_xlfn.ANCHORARRAY", "_xlfn.BYCOL", "_xlfn.BYROW", "_xlfn.CHOOSECOLS", "_xlfn.CHOOSEROWS",
   "_xlfn.DROP", "_xlfn.EXPAND", "_xlfn._xlws.FILTER", "_xlfn.HSTACK", "_xlfn.LAMBDA",
   "_xlfn.MAKEARRAY", "_xlfn.MAP", "_xlfn._xlws.PY", "_xlfn.RANDARRAY", "_xlfn.REDUCE", "_xlfn.SCAN",
   "_xlfn.SINGLE", "_xlfn.SEQUENCE", "_xlfn._xlws.SORT", "_xlfn.SORTBY", "_xlfn.SWITCH", "_xlfn.TAKE",
   "_xlfn.TEXTSPLIT", "_xlfn.TOCOL", "_xlfn.TOROW", "_xlfn.UNIQUE", "_xlfn.VSTACK", "_xlfn.WRAPCOLS",
   "_xlfn.WRAPROWS", "_xlfn.XLOOKUP"]

/-- The dynamic functions of the documentation, /repo/src/formula.rs:219-252, and `PY`. -/
def documentedDynamic : List String :=
  ["BYCOL", "BYROW", "CHOOSECOLS", "CHOOSEROWS", "DROP", "EXPAND", "FILTER", "HSTACK", "LAMBDA",
   "MAKEARRAY", "MAP", "RANDARRAY", "REDUCE", "SCAN", "SEQUENCE", "SORT", "SORTBY", "SWITCH", "TAKE",
   "TEXTSPLIT", "TOCOL", "TOROW", "UNIQUE", "VSTACK", "WRAPCOLS", "WRAPROWS", "XLOOKUP", "SINGLE",
   "ANCHORARRAY",
   "SINGLE", "ANCHORARRAY", "PY"]

/-- The characters of function names. -/
def nameLike (c : Char) : Bool := ('A' ≤ c && c ≤ 'Z') || ('0' ≤ c && c ≤ '9') || c = '.'

/-- The prefix a function name is stored with. -/
def storedPrefix (name : List Char) : List Char :=
  if String.ofList ("_xlfn.".toList ++ name) ∈ documented then "_xlfn.".toList
  else if String.ofList ("_xlfn._xlws.".toList ++ name) ∈ documented then "_xlfn._xlws.".toList
  else []

/-- The function called at the start of a text: the longest run of name characters, if a bracket
follows. -/
def calledHere (s : List Char) : Option (List Char) :=
  if (s.dropWhile nameLike).head? = some '(' then some (s.takeWhile nameLike) else none

/-- The stored text of a formula: in front of each function call outside string literals its prefix is
put, and all else is copied. `lit`: inside a literal; `mid`: the character before is a name character. -/
def stored (lit mid : Bool) : List Char → List Char
  | [] => []
  | c :: s =>
    if c = '"' then c :: stored (!lit) false s
    else if lit then c :: stored true false s
    else
      (if nameLike c && !mid then ((calledHere (c :: s)).map storedPrefix).getD [] else []) ++
        c :: stored false (nameLike c) s

/-- A dynamic function is called outside string literals. -/
def callsDynamic (lit mid : Bool) : List Char → Bool
  | [] => false
  | c :: s =>
    if c = '"' then callsDynamic (!lit) false s
    else if lit then callsDynamic true false s
    else
      (nameLike c && !mid &&
        (calledHere (c :: s)).any fun n => String.ofList n ∈ documentedDynamic) ||
      callsDynamic false (nameLike c) s

/-- The characters a function name may start with. -/
def nameStartLike (c : Char) : Bool := ('A' ≤ c && c ≤ 'Z') || ('0' ≤ c && c ≤ '9')

/-- In a formula that has prefixes already (so that a dot may stand in front of a name): a dynamic
function is called outside string literals. `mid`: inside a name. -/
def callsDynamicPrefixed (lit mid : Bool) : List Char → Bool
  | [] => false
  | c :: s =>
    if c = '"' then callsDynamicPrefixed (!lit) false s
    else if lit then callsDynamicPrefixed true false s
    else
      (nameStartLike c && !mid &&
        (calledHere (c :: s)).any fun n => String.ofList n ∈ documentedDynamic) ||
      callsDynamicPrefixed false (nameLike c && (mid || nameStartLike c)) s

/-- No string literal starts right behind a name character. (In a formula that Excel accepts this can
only happen in a quoted sheet name.) -/
def literalsApart (lit mid : Bool) : List Char → Bool
  | [] => true
  | c :: s =>
    if c = '"' then !(!lit && mid) && literalsApart (!lit) false s
    else if lit then literalsApart true false s
    else literalsApart false (nameLike c) s

/-- The text of a formula without the marks of an array formula: `{=…}`, `=…` or plain. -/
def body (f : List Char) : List Char :=
  match f with
  | '{' :: '=' :: s => if s.getLast? = some '}' then s.dropLast else f
  | '=' :: s => s
  | s => s

/-- Table references: outside string literals the sign of this row is written out. -/
def rowRefs (lit : Bool) : List Char → List Char
  | [] => []
  | c :: s =>
    if c = '"' then c :: rowRefs (!lit) s
    else if !lit && c = '@' then "[#This Row],".toList ++ rowRefs lit s
    else c :: rowRefs lit s

end Verif.Spec
