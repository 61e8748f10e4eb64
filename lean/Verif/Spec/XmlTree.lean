import Verif.Model.Xml
import Verif.Spec.Xml
/-!
Specification: which XML element a tree of writer calls is meant to be, and which trees
consist of names and characters that XML can express at all.
-/
namespace Verif
open Spec

/-- An attribute with an XML name and a value XML can carry. -/
def attrOk (a : Str × Str) : Bool := isName a.1 && attrSafe a.2

/-- Valid writer calls: names are XML names, attribute names differ, attribute values and
text contain only characters XML can carry. -/
def callOk : Call → Bool
  | .start t as => isName t && as.all attrOk && decide (as.map Prod.fst).Nodup
  | .close t => isName t
  | .empty t as => isName t && as.all attrOk && decide (as.map Prod.fst).Nodup
  | .data t d as => isName t && as.all attrOk && decide (as.map Prod.fst).Nodup &&
      d.all (fun c => !isNonChar c)

mutual
/-- The XML element a writer tree stands for. -/
def Tree.toNode : Tree → Node
  | .node t as kids => .elem t as (toNodes kids)
  | .empty t as => .elem t as []
  | .data t d as => .elem t as (if d = [] then [] else [.text (excelControlEscape d)])
def toNodes : List Tree → List Node
  | [] => []
  | k :: ks => k.toNode :: toNodes ks
end


mutual
/-- All names and texts of the tree can be expressed in XML. -/
def treeOk : Tree → Bool
  | .node t as kids =>
    isName t && as.all attrOk && decide (as.map Prod.fst).Nodup && treesOk kids
  | .empty t as => isName t && as.all attrOk && decide (as.map Prod.fst).Nodup
  | .data t d as => isName t && as.all attrOk && decide (as.map Prod.fst).Nodup &&
      d.all (fun c => !isNonChar c)
def treesOk : List Tree → Bool
  | [] => true
  | k :: ks => treeOk k && treesOk ks
end

end Verif
