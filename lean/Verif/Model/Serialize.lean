import Verif.Model.Sheet
/-!
Serialization of data structures to a worksheet: /repo/src/serializer.rs (state 1979-2117, the
`Serializer` implementation 3522-3891, the header serializer 3907-4198) and
/repo/src/worksheet.rs:11048-11208, 11649-11899 and 11903-12175.

Simplifications: column widths of the fields are left out; the table option is a default table
(`set_table_default`, which writes no cells because it is marked as a serialization table,
/repo/src/worksheet.rs:8794) and of `add_table` only the "at least one data row" check is kept;
row and column numbers are natural numbers, so a subtraction below zero is shown as `panic`.
-/
namespace Verif

/-- A value handed to serde, as the calls a derived `Serialize` makes on a serializer
(/repo/src/serializer.rs:3542-3891): all number types as `number`, `char` as `text`, `unit` and
unit structs as `none`, unit variants as `text`; `wrap` is `Some`, a newtype struct or a newtype
variant; `seq` is a sequence, tuple or tuple struct. -/
inductive SerValue where
  | boolean (b : Bool)
  | number (n : F64)
  | text (s : Str)
  | none
  | bytes
  | wrap (v : SerValue)
  | seq (vs : List SerValue)
  | map (kvs : List (SerValue × SerValue))
  | struct (name : Str) (fs : List (Str × SerValue))
  | tupleVariant (variant : Str) (vs : List SerValue)
  | structVariant (variant : Str) (fs : List (Str × SerValue))

/-- What reaches the worksheet: `serialize_struct`, `serialize_field`, and the scalar calls. -/
inductive SerCall where
  | struct (name : Str)
  | field (key : Str)
  | boolean (b : Bool)
  | number (n : F64)
  | text (s : Str)
deriving Repr, DecidableEq

mutual
/-- The calls made for a value, /repo/src/serializer.rs:3542-3891. -/
def SerValue.calls : SerValue → List SerCall
  | .boolean b => [.boolean b]
  | .number n => [.number n]
  | .text s => [.text s]
  | .none => [.text []]
  | .bytes => []
  | .wrap v => v.calls
  | .seq vs => serCallsAll vs
  | .map kvs => serCallsPairs kvs
  | .struct name fs => .struct name :: serCallsFields fs
  | .tupleVariant variant vs => .text variant :: serCallsAll vs
  | .structVariant variant fs => .text variant :: serCallsVariant fs
/-- `serialize_element` in turn, /repo/src/serializer.rs:3783-3788 and 3801-3842. -/
def serCallsAll : List SerValue → List SerCall
  | [] => []
  | v :: vs => v.calls ++ serCallsAll vs
/-- `serialize_key` and `serialize_value`, /repo/src/serializer.rs:3855-3867. -/
def serCallsPairs : List (SerValue × SerValue) → List SerCall
  | [] => []
  | (k, v) :: kvs => k.calls ++ (v.calls ++ serCallsPairs kvs)
/-- `serialize_field` of a struct, /repo/src/serializer.rs:3761-3769. -/
def serCallsFields : List (Str × SerValue) → List SerCall
  | [] => []
  | (k, v) :: fs => .field k :: (v.calls ++ serCallsFields fs)
/-- `serialize_field` of a struct variant, /repo/src/serializer.rs:3880-3886. -/
def serCallsVariant : List (Str × SerValue) → List SerCall
  | [] => []
  | (k, v) :: fs => .text k :: (v.calls ++ serCallsVariant fs)
end

/-- `SerializerHeader`, /repo/src/serializer.rs:3897-3900. -/
structure SerHeader where
  structName : Str
  fieldNames : List Str
deriving Repr, DecidableEq

/-- The header serializer, /repo/src/serializer.rs:3907-4198, on the value given as a prototype:
strings are recorded, everything else but structs is ignored (a tuple, which passes its elements
on, is not distinguished from a sequence here). -/
def SerHeader.capture : SerValue → SerHeader → SerHeader
  | .text s, h => { h with fieldNames := h.fieldNames ++ [s] }
  | .struct name fs, h => ⟨name, h.fieldNames ++ fs.map Prod.fst⟩
  | .tupleVariant variant _, h => { h with fieldNames := h.fieldNames ++ [variant] }
  | .structVariant variant _, h => { h with fieldNames := h.fieldNames ++ [variant] }
  | .boolean _, h | .number _, h | .none, h | .bytes, h | .wrap _, h | .seq _, h | .map _, h => h

/-- `CustomSerializeField`, /repo/src/serializer.rs:3018-3028. -/
structure SerField (Fmt : Type) where
  name : Str
  header : Str
  headerFmt : Option Fmt := none
  columnFmt : Option Fmt := none
  valueFmt : Option Fmt := none
  skip : Bool := false
  col : Nat := 0
deriving Repr, DecidableEq

/-- `CustomSerializeField::new`, /repo/src/serializer.rs:3044-3059. -/
def SerField.new {Fmt : Type} (name : Str) : SerField Fmt := { name := name, header := name }

/-- `SerializeFieldOptions`, /repo/src/serializer.rs:2220-2255; `table` is whether a (default)
table was asked for. -/
structure SerOptions (Fmt : Type) where
  structName : Str := []
  headerFmt : Option Fmt := none
  hasHeaders : Bool := true
  custom : List (SerField Fmt) := []
  customOnly : Bool := false
  table : Bool := false
deriving Repr, DecidableEq

/-- `SerializationHeaderConfig`, /repo/src/serializer.rs:2092-2099; `table` is the
`show_header_row` of the pending table. -/
structure SerConfig (Fmt : Type) where
  fields : List (Str × SerField Fmt)
  minRow : Nat
  minCol : Nat
  maxRow : Nat
  maxCol : Nat
  table : Option Bool
deriving Repr, DecidableEq

/-- A worksheet with its `SerializerState` (/repo/src/serializer.rs:1979-1993) and the ranges of
the tables added for serialized data. -/
structure SerSheet (Fmt : Type) where
  sheet : Sheet Fmt
  structs : List (Str × SerConfig Fmt) := []
  curStruct : Str := []
  curField : Str := []
  tables : List Dims := []

/-- The outcome of a call. -/
inductive SerRes (Fmt : Type) where
  | ok (s : SerSheet Fmt)
  | err (e : Err) (s : SerSheet Fmt)
  | panic

/-- `HashMap::insert`: a new value for a key. -/
def hashSet {α : Type} (m : List (Str × α)) (k : Str) (v : α) : List (Str × α) :=
  (k, v) :: m.filter fun p => p.1 ≠ k

section
variable {Fmt : Type} [DecidableEq Fmt]

/-- `write_serialized_table`, /repo/src/worksheet.rs:12160-12175, with `get_table`,
/repo/src/serializer.rs:2103-2116: the pending table of a struct is added over its area. -/
def SerSheet.writeTable (s : SerSheet Fmt) (c : SerConfig Fmt) : SerRes Fmt :=
  match c.table with
  | none => .ok s
  | some showHeader =>
    if c.maxRow = 0 then .panic
    else if c.minRow > c.maxRow - 1 then .err .rowColumnOrder s
    else if c.minRow = c.maxRow - 1 && showHeader then .err .parameter s
    else .ok { s with tables := s.tables ++ [⟨c.minRow, c.minCol, c.maxRow - 1, c.maxCol⟩] }

/-- The columns given to the fields that are not skipped, /repo/src/worksheet.rs:12020-12030. -/
def placeFields (col0 : Nat) : List (SerField Fmt) → Nat → List (SerField Fmt)
  | [], _ => []
  | h :: hs, off =>
    if h.skip then placeFields col0 hs off
    else { h with col := col0 + off } :: placeFields col0 hs (off + 1)

/-- The worksheet calls for one header, /repo/src/worksheet.rs:12039-12065. -/
def SerOptions.headerOps (o : SerOptions Fmt) (row : Nat) (h : SerField Fmt) : List (Op Fmt) :=
  (match h.columnFmt with
    | some f => [.columnFormat h.col f]
    | none => []) ++
  (if o.hasHeaders then
    match h.headerFmt with
    | some f => [.string row h.col h.header (some f)]
    | none =>
      match o.headerFmt with
      | some f => [.string row h.col h.header (some f)]
      | none => [.string row h.col h.header none]
  else [])

/-- `store_custom_serialization_headers`, /repo/src/worksheet.rs:11984-12114.  The loop that places,
writes and collects the fields is split in three; it can only be left early with an error, and
then nothing that was collected is kept. -/
def SerSheet.storeCustomHeaders (s : SerSheet Fmt) (row col : Nat) (o : SerOptions Fmt) : SerRes Fmt :=
  if !checkDimensionsOnly row col then .err .rowColumnLimit s
  else if o.structName = [] then .err .parameter s
  else if o.custom = [] then .err .parameter s
  else
    let placed := placeFields col o.custom 0
    match forEach (placed.flatMap (o.headerOps row)) (fun op sh => sh.exec op) s.sheet with
    | (some e, sh) => .err e { s with sheet := sh }
    | (none, sh) =>
      let s := { s with sheet := sh }
      let fields := placed.foldl (fun m h => hashSet m h.name h) []
      let maxCol := placed.foldl (fun _ h => h.col) col
      let maxRow := if o.hasHeaders then row + 1 else row
      let table := if o.table then some o.hasHeaders else none
      let config : SerConfig Fmt := ⟨fields, row, col, maxRow, maxCol, table⟩
      match s.structs.lookup o.structName with
      | none => .ok { s with structs := hashSet s.structs o.structName config }
      | some old =>
        match ({ s with structs := hashSet s.structs o.structName { old with table := none } } :
            SerSheet Fmt).writeTable old with
        | .ok s => .ok { s with structs := hashSet s.structs o.structName config }
        | .err e s => .err e s
        | .panic => .panic

/-- `store_serialization_headers`, /repo/src/worksheet.rs:11957-11980. -/
def SerSheet.storeHeaders (s : SerSheet Fmt) (row col : Nat) (h : SerHeader) (f : Fmt) : SerRes Fmt :=
  s.storeCustomHeaders row col
    { structName := h.structName, headerFmt := some f, custom := h.fieldNames.map SerField.new }

/-- The fields written for a struct, /repo/src/worksheet.rs:11921-11950: the custom settings, if
any, for each of its fields, unless only the custom ones are wanted. -/
def SerOptions.merge (o : SerOptions Fmt) (names : List Str) : List (SerField Fmt) :=
  if o.customOnly then o.custom
  else
    let custom := o.custom.foldl (fun m h => hashSet m h.name h) []
    names.filterMap fun n =>
      match custom.lookup n with
      | some c => if !c.skip then some c else none
      | none => some (SerField.new n)

/-- `store_serialization_headers_with_options`, /repo/src/worksheet.rs:11903-11953. -/
def SerSheet.storeHeadersWithOptions (s : SerSheet Fmt) (row col : Nat) (h : SerHeader)
    (o : SerOptions Fmt) : SerRes Fmt :=
  if o.custom.any fun c => !h.fieldNames.contains c.name then .err .parameter s
  else s.storeCustomHeaders row col
    { o with structName := h.structName, custom := o.merge h.fieldNames }

/-- `set_current_struct`, /repo/src/serializer.rs:2015-2025. -/
def SerSheet.setCurrentStruct (s : SerSheet Fmt) (name : Str) : SerSheet Fmt :=
  let s := { s with curStruct := name }
  match s.structs.lookup name with
  | none => s
  | some c => { s with structs := hashSet s.structs name { c with maxRow := c.maxRow + 1 } }

/-- `serialize_to_worksheet_cell`, /repo/src/worksheet.rs:12128-12144, with `current_state`,
/repo/src/serializer.rs:1997-2012. -/
def SerSheet.writeCurrent (s : SerSheet Fmt) (op : Nat → Nat → Option Fmt → Op Fmt) : SerRes Fmt :=
  match s.structs.lookup s.curStruct with
  | none => .ok s
  | some c =>
    match c.fields.lookup s.curField with
    | none => .ok s
    | some f =>
      if c.maxRow = 0 then .panic
      else
        match s.sheet.exec (op (c.maxRow - 1) f.col f.valueFmt) with
        | (some e, sh) => .err e { s with sheet := sh }
        | (none, sh) => .ok { s with sheet := sh }

/-- One call of the serializer. -/
def SerSheet.call (s : SerSheet Fmt) : SerCall → SerRes Fmt
  | .struct name => .ok (s.setCurrentStruct name)
  | .field key => .ok { s with curField := key }
  | .boolean b => s.writeCurrent fun r c f => .boolean r c b f
  | .number n => s.writeCurrent fun r c f => .number r c n f
  | .text t => s.writeCurrent fun r c f => .string r c t f

/-- The calls for a value in turn, stopping at the first error. -/
def SerSheet.calls (s : SerSheet Fmt) : List SerCall → SerRes Fmt
  | [] => .ok s
  | c :: cs =>
    match s.call c with
    | .ok s => s.calls cs
    | r => r

/-- `serialize`, /repo/src/worksheet.rs:10780-10787 (`serialize_data_structure`, 12118-12124). -/
def SerSheet.serialize (s : SerSheet Fmt) (v : SerValue) : SerRes Fmt := s.calls v.calls

/-- `get_serialize_dimensions`, /repo/src/worksheet.rs:11770-11775 and
/repo/src/serializer.rs:2029-2045; the inner `none` is a panic. -/
def SerSheet.getDimensions (s : SerSheet Fmt) (name : Str) : Except Err (Option Dims) :=
  match s.structs.lookup name with
  | none => .error .parameter
  | some c =>
    .ok (if c.maxRow = 0 then none else some ⟨c.minRow, c.minCol, c.maxRow - 1, c.maxCol⟩)

/-- `get_serialize_column_dimensions`, /repo/src/worksheet.rs:11892-11899 and
/repo/src/serializer.rs:2049-2072; the inner `none` is a panic. -/
def SerSheet.getColumnDimensions (s : SerSheet Fmt) (name field : Str) : Except Err (Option Dims) :=
  match s.structs.lookup name with
  | none => .error .parameter
  | some c =>
    match c.fields.lookup field with
    | none => .error .parameter
    | some f => .ok (if c.maxRow = 0 then none else some ⟨c.minRow, f.col, c.maxRow - 1, f.col⟩)

/-- `store_serialized_tables` at save, /repo/src/worksheet.rs:12148-12156, with `get_tables`,
/repo/src/serializer.rs:2075-2085.  `order` is the order in which the hash map gives the structs,
which is not fixed. -/
def SerSheet.storeTables (s : SerSheet Fmt) : List (Str × SerConfig Fmt) → SerRes Fmt
  | [] => .ok s
  | p :: order =>
    match s.writeTable p.2 with
    | .ok s => s.storeTables order
    | r => r

/-- The calls on a worksheet used for serialization: the cell calls, the header calls
(`serialize_headers_with_format`, `serialize_headers_with_options` and their `deserialize_`
variants, which differ in how the header is found; `set_serialize_headers`) and `serialize`. -/
inductive SerOp (Fmt : Type) where
  | cell (op : Op Fmt)
  | headers (row col : Nat) (h : SerHeader) (f : Fmt)
  | headersWith (row col : Nat) (h : SerHeader) (o : SerOptions Fmt)
  | setHeaders (row col : Nat) (o : SerOptions Fmt)
  | serialize (v : SerValue)

/-- One call. -/
def SerSheet.exec (s : SerSheet Fmt) : SerOp Fmt → SerRes Fmt
  | .cell op =>
    match s.sheet.exec op with
    | (some e, sh) => .err e { s with sheet := sh }
    | (none, sh) => .ok { s with sheet := sh }
  | .headers row col h f => s.storeHeaders row col h f
  | .headersWith row col h o => s.storeHeadersWithOptions row col h o
  | .setHeaders row col o => s.storeCustomHeaders row col o
  | .serialize v => s.serialize v

/-- A history of calls, all of them accepted; `none` if one fails. -/
def SerSheet.run (s : SerSheet Fmt) : List (SerOp Fmt) → Option (SerSheet Fmt)
  | [] => some s
  | op :: ops =>
    match s.exec op with
    | .ok s => s.run ops
    | _ => none

end
end Verif
