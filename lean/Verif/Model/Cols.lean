/-!
The `<cols>` writer (worksheet.rs:19276-19319).  `α` stands for `ColOptions` (width, format index,
hidden, level, collapsed, autofit); its derived `PartialEq` is modelled as a lawful equality (the
only exception in Rust is a NaN width, which would merely split a range).
-/
namespace Verif
variable {α : Type} [BEq α]

/-- One `<col>` element: zero-based first and last column and the options it is written with
(worksheet.rs:19322-19324 adds one to both column numbers). -/
structure ColRec (α : Type) where
  first : Nat
  last : Nat
  opts : α
deriving DecidableEq, Repr

/-- worksheet.rs:19301-19316: the loop over the sorted columns; `cur` is the pending range. -/
def colsLoop (cur : ColRec α) : List (Nat × α) → List (ColRec α)
  | [] => [cur]
  | (n, o) :: t =>
    if n == cur.last + 1 && o == cur.opts then colsLoop { cur with last := n } t
    else cur :: colsLoop ⟨n, n, o⟩ t

/-- worksheet.rs:19276-19319 `write_cols`: `entries` are the pairs of the `changed_cols` hash map in
whatever order it iterates. -/
def writeCols (entries : List (Nat × α)) : List (ColRec α) :=
  match entries.mergeSort (fun a b => decide (a.1 ≤ b.1)) with
  | [] => []
  | (n, o) :: t => colsLoop ⟨n, n, o⟩ t

end Verif
