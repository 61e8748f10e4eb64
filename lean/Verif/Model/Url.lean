import Verif.Model.Sheet
import Verif.Model.Xml
/-!
Hyperlinks: /repo/src/url.rs:258-552, `store_url` (/repo/src/worksheet.rs:15348-15369),
`write_hyperlinks`/`write_hyperlink` (/repo/src/worksheet.rs:17902-17914, 18155-18209).
-/
namespace Verif

/-- `HyperlinkType`, /repo/src/url.rs:575-580. -/
inductive LinkType where
  | unknown | url | internal | file
deriving DecidableEq, Repr

/-- `Url`, /repo/src/url.rs:262-273. -/
structure Url where
  linkType : LinkType := .unknown
  originalUrl : Str
  link : Str
  relationshipLink : Str
  text : Str := []
  anchor : Str := []
  toolTip : Str := []
  isObjectLink : Bool := false
  relId : Nat := 0
deriving DecidableEq, Repr

/-- `Url::new`, /repo/src/url.rs:282-296. -/
def Url.new (link : Str) : Url := { originalUrl := link, link := link, relationshipLink := link }

/-- `Url::set_text`, /repo/src/url.rs:337-340. -/
def Url.setText (u : Url) (t : Str) : Url := { u with text := t }
/-- `Url::set_tip`, /repo/src/url.rs:350-353. -/
def Url.setTip (u : Url) (t : Str) : Url := { u with toolTip := t }

/-- Rust `str::replacen(p, r, 1)` for a non-empty pattern: the first occurrence, wherever it is. -/
def replaceFirst (p r : Str) : Str → Str
  | [] => []
  | c :: s => if startsWith p (c :: s) then r ++ (c :: s).drop p.length else c :: replaceFirst p r s

/-- Rust `splitn(2, '#')`: the text before the first `#`, and the text after it if there is one. -/
def splitHash : Str → Str × Option Str
  | [] => ([], none)
  | c :: s => if c = '#' then ([], some s) else (c :: (splitHash s).1, (splitHash s).2)

/-- `Url::relative_path`, /repo/src/url.rs:513-527. `find(':')` returns a byte position; position 1
means that the first character is one byte, not a colon, and the second is a colon. -/
def relativePath (url : Str) : Bool :=
  if startsWith ['\\', '\\'] url then false
  else
    match url with
    | a :: ':' :: _ => !(a ≠ ':' && decide (a.toNat < 128))
    | _ => true

/-- The codes of `Url::is_escaped`, /repo/src/url.rs:538-548. -/
def escapedCodes : List Str :=
  ["%25".toList, "%22".toList, "%20".toList, "%3c".toList, "%3e".toList, "%5b".toList,
   "%5d".toList, "%5e".toList, "%60".toList, "%7b".toList, "%7d".toList]

/-- The windows of three bytes of `Url::is_escaped`, /repo/src/url.rs:535-550. All codes are ASCII, so
windows of characters see the same matches as windows of bytes. -/
def hasEscapedCode : Str → Bool
  | a :: b :: c :: s => escapedCodes.contains [a, b, c] || hasEscapedCode (b :: c :: s)
  | _ => false

/-- `Url::is_escaped`, /repo/src/url.rs:530-551. -/
def isEscaped (url : Str) : Bool := if !url.contains '%' then false else hasEscapedCode url

/-- `if !is_escaped(s) { s = escape_url(s) }`, /repo/src/url.rs:470-472, 476-478. -/
def escapeOnce (s : Str) : Str := if !isEscaped s then escapeUrl s else s

/-- `str::replace('#', "%23")`, /repo/src/url.rs:482. -/
def replaceHash (s : Str) : Str := s.flatMap fun c => if c = '#' then "%23".toList else [c]

/-- `str::replace('\\', "/")`, /repo/src/url.rs:453. -/
def replaceBackslash (s : Str) : Str := s.map fun c => if c = '\\' then '/' else c

/-- The prefixes of a web link, /repo/src/url.rs:384-387. -/
def webPrefixes : List Str :=
  ["http://".toList, "https://".toList, "ftp://".toList, "ftps://".toList]

/-- `if self.text.is_empty() { self.text = t }`. -/
def Url.defaultText (u : Url) (t : Str) : Url := { u with text := if u.text = [] then t else u.text }

/-- The split into link and anchor, /repo/src/url.rs:397-401, 443-447. -/
def Url.splitAnchor (u : Url) : Url :=
  match splitHash u.link with
  | (l, some a) => { u with link := l, anchor := a }
  | (_, none) => u

/-- The web branch of `parse_url`, /repo/src/url.rs:389-409. -/
def Url.parseWeb (u : Url) : Url :=
  let u := ({ u with linkType := .url }.defaultText u.link).splitAnchor
  { u with relationshipLink := if u.isObjectLink then u.originalUrl else u.link }

/-- The mailto branch of `parse_url`, /repo/src/url.rs:411-416. -/
def Url.parseMail (u : Url) : Url :=
  { u with linkType := .url }.defaultText (replaceFirst "mailto:".toList [] u.link)

/-- The internal branch of `parse_url`, /repo/src/url.rs:418-425. -/
def Url.parseInternal (u : Url) : Url :=
  { u with linkType := .internal
           anchor := replaceFirst "internal:".toList [] u.link
           relationshipLink := replaceFirst "internal:".toList ['#'] u.link }.defaultText
    (replaceFirst "internal:".toList [] u.link)

/-- The path without the `file` prefixes, /repo/src/url.rs:429-430. -/
def filePath (link : Str) : Str :=
  replaceFirst "file://".toList [] (replaceFirst "file:///".toList [] link)

/-- The file branch of `parse_url`, /repo/src/url.rs:427-459. -/
def Url.parseFile (u : Url) : Url :=
  let path := filePath u.link
  let rel := relativePath path
  let u := ({ u with linkType := .file, link := if rel then path else u.link }.defaultText
    path).splitAnchor
  { u with relationshipLink :=
      if u.isObjectLink then (if rel then replaceBackslash u.link else u.originalUrl) else u.link }

/-- `Url::parse_url`, /repo/src/url.rs:383-465; `none` is the error. -/
def Url.parseUrl (u : Url) : Option Url :=
  if webPrefixes.any (fun p => startsWith p u.link) then some u.parseWeb
  else if startsWith "mailto:".toList u.link then some u.parseMail
  else if startsWith "internal:".toList u.link then some u.parseInternal
  else if startsWith "file://".toList u.link then some u.parseFile
  else none

/-- `Url::escape_strings`, /repo/src/url.rs:468-484. -/
def Url.escapeStrings (u : Url) : Url :=
  let rel := if u.linkType ≠ .internal then escapeOnce u.relationshipLink else u.relationshipLink
  { u with link := escapeOnce u.link
           relationshipLink := if u.linkType = .file then replaceHash rel else rel }

/-- `Url::initialize`, /repo/src/url.rs:359-379; `none` is the error. -/
def Url.initialize (u : Url) : Option Url :=
  match u.parseUrl with
  | none => none
  | some u =>
    if u.link.length > 2080 ∨ u.anchor.length > 2080 then none
    else if u.toolTip.length > 255 then none
    else some u.escapeStrings

/-- `Image::set_url`, /repo/src/image.rs:755-763. -/
def Url.forImage (u : Url) : Option Url := { u with isObjectLink := true }.initialize

/-- `Url::target_mode`, /repo/src/url.rs:503-509. -/
def Url.targetMode (u : Url) : Str := if u.linkType = .internal then [] else "External".toList

/-! ### The hyperlinks of a sheet -/

/-- The `hyperlinks` map of a worksheet, /repo/src/worksheet.rs:1597: a `BTreeMap` with the key
`(row, col)`. The key is kept as `row * 16384 + col`, which is the same order for the columns below
16384 that reach it. -/
abbrev LinkMap := BMap Url

/-- The key of a cell in `LinkMap`. -/
def linkKey (r c : Nat) : Nat := r * 16384 + c

/-- `store_url`, /repo/src/worksheet.rs:15348-15369, without the string cell it writes (the cells are
in `Model/Sheet.lean`): the URL is initialized, the cell is checked and the text is limited by
`write_string_with_format` (/repo/src/worksheet.rs:15038-15062), then the link is stored.
`none` is an error. -/
def storeUrl (m : LinkMap) (r c : Nat) (u : Url) : Option LinkMap :=
  match u.initialize with
  | none => none
  | some h =>
    if r ≥ ROW_MAX ∨ c ≥ COL_MAX then none
    else if h.text.length > MAX_STRING_LEN then none
    else some (BMap.insert (linkKey r c) h m)

/-- A sequence of `write_url` calls; a refused call leaves the links alone. -/
def storeUrls (calls : List (Nat × Nat × Url)) : LinkMap :=
  calls.foldl (fun m x => (storeUrl m x.1 x.2.1 x.2.2).getD m) []

/-- `Url::increment_rel_id`, /repo/src/url.rs:487-495: the link and the next id. -/
def Url.incrementRelId (u : Url) (n : Nat) : Url × Nat :=
  match u.linkType with
  | .url => ({ u with relId := n }, n + 1)
  | .file => ({ u with relId := n }, n + 1)
  | _ => (u, n)

/-- The attributes of `write_hyperlink`, /repo/src/worksheet.rs:18155-18208. `other` says that the cell
exists and is not a string cell (/repo/src/worksheet.rs:18160-18169). -/
def hyperlinkAttrs (other : Bool) (r c : Nat) (u : Url) : Attrs :=
  ("ref".toList, rowColToCell r c) ::
  match u.linkType with
  | .unknown => []
  | .internal =>
    ("location".toList, u.anchor) ::
      ((if u.toolTip ≠ [] then [("tooltip".toList, u.toolTip)] else []) ++
      [("display".toList, u.text)])
  | _ =>
    ("r:id".toList, "rId".toList ++ showNat u.relId) ::
      ((if u.anchor ≠ [] then [("location".toList, u.anchor)] else []) ++
      (if u.isObjectLink || other then [("display".toList, u.link)] else []) ++
      (if u.toolTip ≠ [] then [("tooltip".toList, u.toolTip)] else []))

/-- The relationship of `write_hyperlink`, /repo/src/worksheet.rs:18189-18193. -/
def hyperlinkRel (u : Url) : List (Str × Str × Str) :=
  match u.linkType with
  | .unknown => []
  | .internal => []
  | _ => [("hyperlink".toList, u.relationshipLink, u.targetMode)]

/-- The loop of `write_hyperlinks`, /repo/src/worksheet.rs:17905-17909: the elements and the
relationships. `other r c` says that the cell holds something else than a string. -/
def hyperlinkTrees (other : Nat → Nat → Bool) :
    Nat → LinkMap → List Tree × List (Str × Str × Str)
  | _, [] => ([], [])
  | n, (k, u) :: m =>
    let r := k / 16384
    let c := k % 16384
    let (u, n) := u.incrementRelId n
    let rest := hyperlinkTrees other n m
    (.empty "hyperlink".toList (hyperlinkAttrs (other r c) r c u) :: rest.1, hyperlinkRel u ++ rest.2)

/-- `write_hyperlinks`, /repo/src/worksheet.rs:17902-17914 (called for a non-empty map, 17413). -/
def hyperlinksTree (other : Nat → Nat → Bool) (m : LinkMap) : Tree :=
  .node "hyperlinks".toList [] (hyperlinkTrees other 1 m).1

end Verif
