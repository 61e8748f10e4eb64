import Verif.Model.Dec
/-!
The XML writer: /repo/src/xmlwriter.rs.
Output is modelled as the text appended to the writer (a `Cursor<Vec<u8>>` in the code).
-/
namespace Verif

/-- The arms of `match_attribute_html_char`, /repo/src/xmlwriter.rs:164-173. -/
def attributeCharTable : List (Char × Str) :=
  [('&', "&amp;".toList), ('"', "&quot;".toList), ('<', "&lt;".toList), ('>', "&gt;".toList),
   ('\n', "&#xA;".toList)]

/-- `match_attribute_html_char`, /repo/src/xmlwriter.rs:164-173. -/
def matchAttributeHtmlChar (c : Char) : Option Str := attributeCharTable.lookup c

/-- The arms of `match_xml_char`, /repo/src/xmlwriter.rs:182-226. -/
def xmlCharTable : List (Char × Str) :=
  [('&', "&amp;".toList), ('<', "&lt;".toList), ('>', "&gt;".toList),
   ('\x00', "_x0000_".toList), ('\x01', "_x0001_".toList), ('\x02', "_x0002_".toList),
   ('\x03', "_x0003_".toList), ('\x04', "_x0004_".toList), ('\x05', "_x0005_".toList),
   ('\x06', "_x0006_".toList), ('\x07', "_x0007_".toList), ('\x08', "_x0008_".toList),
   ('\x0B', "_x000B_".toList), ('\x0C', "_x000C_".toList), ('\x0D', "_x000D_".toList),
   ('\x0E', "_x000E_".toList), ('\x0F', "_x000F_".toList), ('\x10', "_x0010_".toList),
   ('\x11', "_x0011_".toList), ('\x12', "_x0012_".toList), ('\x13', "_x0013_".toList),
   ('\x14', "_x0014_".toList), ('\x15', "_x0015_".toList), ('\x16', "_x0016_".toList),
   ('\x17', "_x0017_".toList), ('\x18', "_x0018_".toList), ('\x19', "_x0019_".toList),
   ('\x1A', "_x001A_".toList), ('\x1B', "_x001B_".toList), ('\x1C', "_x001C_".toList),
   ('\x1D', "_x001D_".toList), ('\x1E', "_x001E_".toList), ('\x1F', "_x001F_".toList)]

/-- `match_xml_char`, /repo/src/xmlwriter.rs:182-226. -/
def matchXmlChar (c : Char) : Option Str := xmlCharTable.lookup c

/-- The arms of `match_url_char`, /repo/src/xmlwriter.rs:229-244. -/
def urlCharTable : List (Char × Str) :=
  [('%', "%25".toList), ('"', "%22".toList), (' ', "%20".toList), ('<', "%3c".toList),
   ('>', "%3e".toList), ('[', "%5b".toList), (']', "%5d".toList), ('^', "%5e".toList),
   ('`', "%60".toList), ('{', "%7b".toList), ('}', "%7d".toList)]

/-- `match_url_char`, /repo/src/xmlwriter.rs:229-244. -/
def matchUrlChar (c : Char) : Option Str := urlCharTable.lookup c

/-- `escape_string`, /repo/src/xmlwriter.rs:247-269: find the first character that needs an
escape, copy everything before it, then escape the remainder character by character;
if there is none the original is borrowed unchanged. -/
def escapeString (h : Char → Option Str) (s : Str) : Str :=
  match s.findIdx? (fun c => (h c).isSome) with
  | none => s
  | some i => s.take i ++ (s.drop i).flatMap (fun c => (h c).getD [c])

/-- `escape_attributes`, /repo/src/xmlwriter.rs:129-131. -/
def escapeAttributes (s : Str) : Str := escapeString matchAttributeHtmlChar s
/-- `escape_xml_data`, /repo/src/xmlwriter.rs:134-136. -/
def escapeXmlData (s : Str) : Str := escapeString matchXmlChar s
/-- `escape_url`, /repo/src/xmlwriter.rs:139-141. -/
def escapeUrl (s : Str) : Str := escapeString matchUrlChar s

/-- `char::is_ascii_hexdigit` (Rust standard library). -/
def isAsciiHexDigit (c : Char) : Bool :=
  ('0' ≤ c && c ≤ '9') || ('a' ≤ c && c ≤ 'f') || ('A' ≤ c && c ≤ 'F')

/-- `escape_xml_escapes`, /repo/src/xmlwriter.rs:274-309.
The code collects the byte positions of `_x` and, from the right, inserts `_x005F` at each
one that is followed by four ASCII hex digits and at least one further byte
(`index + 7 <= len`).  `_x` cannot overlap itself, all six bytes are ASCII when the test
succeeds, and insertions happen right to left at original positions, so this is the same as
one left to right pass over characters. -/
def escapeXmlEscapes : Str → Str
  | '_' :: 'x' :: a :: b :: c :: d :: e :: rest =>
    if isAsciiHexDigit a && isAsciiHexDigit b && isAsciiHexDigit c && isAsciiHexDigit d then
      "_x005F".toList ++ '_' :: escapeXmlEscapes ('x' :: a :: b :: c :: d :: e :: rest)
    else '_' :: escapeXmlEscapes ('x' :: a :: b :: c :: d :: e :: rest)
  | c :: rest => c :: escapeXmlEscapes rest
  | [] => []
termination_by s => s.length

/-- An attribute list: name and unescaped value. -/
abbrev Attrs := List (Str × Str)

/-- `IntoAttribute::write_to` for string pairs, /repo/src/xmlwriter.rs:321-339. -/
def writeAttribute (a : Str × Str) : Str :=
  ' ' :: a.1 ++ "=\"".toList ++ escapeAttributes a.2 ++ ['"']

/-- The attribute loop, /repo/src/xmlwriter.rs:42-44 (also 67-69, 87-89). -/
def writeAttributes (as : Attrs) : Str := as.flatMap writeAttribute

/-- `xml_declaration`, /repo/src/xmlwriter.rs:23-27. -/
def xmlDeclaration : Str :=
  "<?xml version=\"1.0\" encoding=\"UTF-8\" standalone=\"yes\"?>\n".toList

/-- `xml_start_tag_only`, /repo/src/xmlwriter.rs:30-32. -/
def xmlStartTagOnly (tag : Str) : Str := '<' :: tag ++ ['>']
/-- `xml_start_tag`, /repo/src/xmlwriter.rs:35-47. -/
def xmlStartTag (tag : Str) (as : Attrs) : Str := '<' :: tag ++ writeAttributes as ++ ['>']
/-- `xml_end_tag`, /repo/src/xmlwriter.rs:50-52. -/
def xmlEndTag (tag : Str) : Str := '<' :: '/' :: tag ++ ['>']
/-- `xml_empty_tag_only`, /repo/src/xmlwriter.rs:55-57. -/
def xmlEmptyTagOnly (tag : Str) : Str := '<' :: tag ++ ['/', '>']
/-- `xml_empty_tag`, /repo/src/xmlwriter.rs:60-72. -/
def xmlEmptyTag (tag : Str) (as : Attrs) : Str := '<' :: tag ++ writeAttributes as ++ ['/', '>']
/-- `xml_data_element_only`, /repo/src/xmlwriter.rs:75-77. -/
def xmlDataElementOnly (tag data : Str) : Str :=
  '<' :: tag ++ '>' :: escapeXmlData data ++ '<' :: '/' :: tag ++ ['>']
/-- `xml_data_element`, /repo/src/xmlwriter.rs:80-92. -/
def xmlDataElement (tag data : Str) (as : Attrs) : Str :=
  '<' :: tag ++ writeAttributes as ++ '>' :: escapeXmlData data ++ '<' :: '/' :: tag ++ ['>']

/-- `xml_si_element`, /repo/src/xmlwriter.rs:95-111. -/
def xmlSiElement (s : Str) (preserve : Bool) : Str :=
  if preserve then
    "<si><t xml:space=\"preserve\">".toList ++ escapeXmlData (escapeXmlEscapes s) ++
      "</t></si>".toList
  else
    "<si><t>".toList ++ escapeXmlData (escapeXmlEscapes s) ++ "</t></si>".toList

/-- `xml_rich_si_element`, /repo/src/xmlwriter.rs:114-116. -/
def xmlRichSiElement (s : Str) : Str := "<si>".toList ++ s ++ "</si>".toList

/-- Rust `str::starts_with(&str)`. -/
def startsWith (p s : Str) : Bool := p.isPrefixOf s
/-- Rust `str::ends_with(&str)`. -/
def endsWith (p s : Str) : Bool := p.isSuffixOf s

/-- The characters of `whitespace`, /repo/src/shared_strings.rs:71. -/
def isSstWhitespace (c : Char) : Bool := c = '\t' || c = '\n' || c = ' '

/-- The body of the loop of `write_sst_strings`, /repo/src/shared_strings.rs:73-83. -/
def writeSstString (s : Str) : Str :=
  let preserve := s.head?.any isSstWhitespace || s.getLast?.any isSstWhitespace
  if startsWith "<r>".toList s && endsWith "</r>".toList s then xmlRichSiElement s
  else xmlSiElement s preserve

/-- One call of the writer API used by all part writers. -/
inductive Call where
  | start (tag : Str) (as : Attrs)
  | close (tag : Str)
  | empty (tag : Str) (as : Attrs)
  | data (tag : Str) (text : Str) (as : Attrs)
deriving Repr, DecidableEq

/-- Text appended by one writer call (lines as for the functions used). -/
def Call.write : Call → Str
  | .start t as => xmlStartTag t as
  | .close t => xmlEndTag t
  | .empty t as => xmlEmptyTag t as
  | .data t d as => xmlDataElement t d as

/-- Text appended by a sequence of writer calls, /repo/src/xmlwriter.rs:30-92. -/
def writeCalls (cs : List Call) : Str := cs.flatMap Call.write

/-- The element structure a part writer emits: an element with children written by a
start-tag/end-tag pair, an empty tag, or a data element. -/
inductive Tree where
  | node (tag : Str) (as : Attrs) (kids : List Tree)
  | empty (tag : Str) (as : Attrs)
  | data (tag : Str) (text : Str) (as : Attrs)
deriving Repr

mutual
/-- The sequence of writer calls for an element tree (the pattern used by every
`write_*`/`assemble_xml_file` function: start tag, children, end tag). -/
def Tree.calls : Tree → List Call
  | .node t as kids => .start t as :: (callsList kids ++ [.close t])
  | .empty t as => [.empty t as]
  | .data t d as => [.data t d as]
/-- Writer calls of a list of siblings. -/
def callsList : List Tree → List Call
  | [] => []
  | k :: ks => k.calls ++ callsList ks
end

/-- A complete part: declaration then one root element, e.g. /repo/src/worksheet.rs
`assemble_xml_file`, /repo/src/shared_strings.rs:39-50. -/
def writePart (root : Tree) : Str := xmlDeclaration ++ writeCalls root.calls

end Verif
