import Verif.Model.Saves
import Verif.Spec.Book
/-! Specification for histories of edits and saves. -/
namespace Verif
variable {Fmt : Type} [DecidableEq Fmt]

/-- The calls of a history, without the saves. -/
def callsOf (evs : List (Event Fmt)) : List (Nat × Op Fmt) :=
  evs.filterMap fun ev => match ev with
    | .call i op => some (i, op)
    | .save .. => none

/-- What `save()` writes after the history `evs`. -/
def savedAfter (cfgs : List Cfg) (merge : Fmt → Fmt → Fmt) (dflt : Fmt) (evs : List (Event Fmt))
    (extra : List Fmt) : Book Fmt :=
  ((Book.new cfgs merge dflt).history evs).prepare extra

end Verif
