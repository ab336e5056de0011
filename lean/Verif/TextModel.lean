import Verif.FileModel
import Verif.SortModel
/-
Text output: `ToJson` and `ToStrings` of references, vaults and sets, and the tables of `PrintAsTable` and `Print`.
-/
set_option linter.unusedSectionVars false
namespace MVault.W
variable {V Ty : Type} [LinearOrder V] [Typed V Ty] [DecidableEq Ty] [Texts V Ty]

/-! ### JSON -/

/-- `IsQuotedJsonType`, ToJson.cpp lines 5-21, for a kind of types. -/
class Quoting (Ty : Type) where
  isQuoted : Ty → Bool
export Quoting (isQuoted)

/-- `IsQuotedJsonType`, ToJson.cpp lines 5-21, for integers of 16 to 64 bits, `bool` and `std::string`. -/
def VTy.quoted : VTy → Bool
  | .int _ => false
  | .bool => false
  | .str => true
instance : Quoting VTy := ⟨VTy.quoted⟩

variable [Quoting Ty]

/-- `ToJson(dataSaver)`, ToJson.cpp lines 23-35. -/
def jsonCell (v : V) : List Char :=
  if isQuoted (typeOf v) = true then '"' :: (toText v ++ ['"']) else toText v

/-- The loop over the keys, VaultRecordRef.cpp lines 309-323 and Vault.cpp lines 736-751; `start` is what goes before each key
when the text is formatted, `counter` is `keyCounter`, `total` the number of keys. A key the record does not have leaves the
`DataSaver` empty, whose `Str()` calls an empty `std::function` (DataSaver.cpp line 89): `none`. -/
def jsonFields (fmt : Bool) (start : List Char) (data : List (Key × V)) (total : Nat) : List Key → Nat → Option (List Char)
  | [], _ => some []
  | k :: ks, counter => do
    let v ← mget data k
    let rest ← jsonFields fmt start data total ks (counter + 1)
    some ((if fmt = true then '\n' :: start else []) ++ '"' :: (k.name ++ '"' :: ':' :: ((if fmt = true then [' '] else []) ++
      (jsonCell v ++ ((if counter + 1 ≠ total then [','] else []) ++ rest)))))

/-- `VaultRecordRef::ToJson`, VaultRecordRef.cpp lines 292-335. -/
def refToJson (w : World Key V Ty) (f : Nat) (fmt : Bool) (tabSize : Nat) : Option (List Char) := do
  let ref ← w.refs[f]?
  let body ← match ref.ptr with
    | none => some []
    | some r => do
      let x ← w.getRec r
      if x.valid = true then do
        let o ← ref.vlt
        let vo ← w.getObj o
        jsonFields fmt (List.replicate tabSize ' ') x.data vo.keysOrder.length vo.keysOrder 0
      else some []
  some ('{' :: (body ++ ((if fmt = true then ['\n'] else []) ++ ['}'])))

/-- The loop over the records, Vault.cpp lines 721-760. `name counter r` is the name of a record in the object form: the template with
the counter or the address of the record (lines 727-730). -/
def jsonRecords (fmt : Bool) (tab : List Char) (isArray : Bool) (name : Nat → Nat → List Char) (w : World Key V Ty) (keys : List Key) (total : Nat) :
    List Nat → Nat → Option (List Char)
  | [], _ => some []
  | r :: rs, counter => do
    let x ← w.getRec r
    let body ← jsonFields fmt (tab ++ tab) x.data keys.length keys 0
    let rest ← jsonRecords fmt tab isArray name w keys total rs (counter + 1)
    some ((if fmt = true then '\n' :: tab else []) ++ ((if isArray = true then [] else '"' :: (name counter r ++ ['"', ':'])) ++
      ((if fmt = true ∧ isArray = false then [' '] else []) ++ ('{' :: (body ++ ((if fmt = true then '\n' :: tab else []) ++
        ('}' :: ((if counter + 1 ≠ total then [','] else []) ++ rest))))))))

/-- `Vault::ToJson`, Vault.cpp lines 701-768; `addr` gives the printed addresses of records. -/
def vaultToJson (env : Env) (addr : Nat → List Char) (w : World Key V Ty) (o : Nat) (fmt : Bool) (tabSize : Nat) (useTemplate : Bool) (template : List Char)
    (isArray : Bool) : Option (List Char) := do
  let vo ← w.getObj o
  let body ← jsonRecords fmt (List.replicate tabSize ' ') isArray (fun n r => if useTemplate = true then template ++ Str.decDigits n else addr r) w
    vo.keysOrder vo.recs.length (env.perm vo.recs) 0
  some ((if isArray = true then '[' else '{') :: (body ++ ((if fmt = true then ['\n'] else []) ++ [if isArray = true then ']' else '}'])))

/-- `VaultRecordSet::ToJson`, VaultRecordSet.cpp lines 342-354. -/
def setToJson (env : Env) (addr : Nat → List Char) (w : World Key V Ty) (s : Nat) (fmt : Bool) (tabSize : Nat) (useTemplate : Bool) (template : List Char)
    (isArray : Bool) : Option (List Char) := do
  let so ← w.getObj s
  match so.parent with
  | none => some ['{', '}']
  | some p => do
    let _ ← w.getObj p
    vaultToJson env addr w s fmt tabSize useTemplate template isArray

/-! ### ToStrings -/

/-- The key/text pairs of one record in key order, VaultRecordRef.cpp lines 351-357 and Vault.cpp lines 783-789; the empty
`DataSaver` of a missing key as above. -/
def pairTexts (data : List (Key × V)) : List Key → Option (List (Key × List Char))
  | [] => some []
  | k :: ks => do
    let v ← mget data k
    let rest ← pairTexts data ks
    some ((k, toText v) :: rest)

/-- `VaultRecordRef::ToStrings`, VaultRecordRef.cpp lines 337-367. -/
def refToStrings (w : World Key V Ty) (f : Nat) : Option (List (Key × List Char)) := do
  let ref ← w.refs[f]?
  match ref.ptr with
  | none => some []
  | some r => do
    let x ← w.getRec r
    if x.valid = true then do
      let o ← ref.vlt
      let vo ← w.getObj o
      pairTexts x.data vo.keysOrder
    else some []

/-- `Vault::ToStrings`, Vault.cpp lines 770-795. (`ToString` of a `std::string` is the identity, ToString.h line 227.) -/
def vaultToStrings (env : Env) (w : World Key V Ty) (o : Nat) : Option (List (List (Key × List Char))) := do
  let vo ← w.getObj o
  (env.perm vo.recs).mapM fun r => (w.getRec r).bind fun x => pairTexts x.data vo.keysOrder

/-- `VaultRecordSet::ToStrings`, VaultRecordSet.cpp lines 356-367. -/
def setToStrings (env : Env) (w : World Key V Ty) (s : Nat) : Option (List (List (Key × List Char))) := do
  let so ← w.getObj s
  match so.parent with
  | none => some []
  | some p => do
    let _ ← w.getObj p
    vaultToStrings env w s

/-! ### Tables

The output of `Print` and `PrintAsTable` as the list of its lines; each line is followed by `"\n"`. A string variable
`dataString` is reused for all cells, and a failing `GetDataAsString` leaves it as it was, so it is passed along. -/

/-- `record->GetDataAsString(key, dataString)` on a record, DataContainer.h lines 226-234: the string afterwards. -/
def recText (w : World Key V Ty) (r : Nat) (k : Key) (old : List Char) : Option (List Char) :=
  (w.getRec r).map fun x => match mget x.data k with | some v => toText v | none => old

/-- `VaultRecordRef::GetDataAsString(key, dataString)`, VaultRecordRef.cpp lines 168-209, for a reference to `ptr` through `vlt`: the string
afterwards. -/
def refText (w : World Key V Ty) (ref : Ref) (k : Key) (old : List Char) : Option (List Char) :=
  match ref.ptr with
  | none => some old
  | some r => do
    let o ← ref.vlt
    let vo ← w.getObj o
    let x ← w.getRec r
    if x.valid = false then some old
    else match mget vo.cols k with
      | none => some old
      | some _ => recText w r k old

/-- `VaultRecordRef::GetKeys`, VaultRecordRef.cpp lines 233-247. -/
def refKeys (w : World Key V Ty) (ref : Ref) : Option (List Key) :=
  match ref.ptr with
  | none => some []
  | some r => do
    let x ← w.getRec r
    if x.valid = true then do
      let o ← ref.vlt
      let vo ← w.getObj o
      some vo.keysOrder
    else some []

/-- The inner loop of the width computation, PrintAsTable.h lines 52-56, Vault.cpp lines 849-853. -/
def widthLoop {R : Type} (get : R → Key → List Char → Option (List Char)) (k : Key) : List R → Nat × List Char → Option (Nat × List Char)
  | [], s => some s
  | r :: rs, (n, old) => do
    let t ← get r k old
    widthLoop get k rs (if t.length > n then t.length else n, t)

/-- The column widths, PrintAsTable.h lines 42-57, Vault.cpp lines 833-855: at least the length of the key name. -/
def widths {R : Type} (get : R → Key → List Char → Option (List Char)) (rs : List R) : List Key → List Char → Option (List Nat × List Char)
  | [], old => some ([], old)
  | k :: ks, old => do
    let (n, t) ← widthLoop get k rs (k.name.length, old)
    let (ns, t') ← widths get rs ks t
    some (n :: ns, t')

/-- A line between rows, PrintAsTable.h lines 60-67, Vault.cpp lines 858-867: `corner` and `bar` are `+`, `-` or `$`, `~`. -/
def rule (corner bar : Char) (ns : List Nat) : List Char := corner :: ns.flatMap fun n => bar :: (List.replicate n bar ++ [bar, corner])

/-- One cell: a space, the text, spaces up to the width, a space and a bar; PrintAsTable.h lines 73-75, 96-98. -/
def cell (t : List Char) (n : Nat) : List Char := ' ' :: (t ++ (List.replicate (n - t.length) ' ' ++ [' ', '|']))

/-- The cells of one record, PrintAsTable.h lines 93-99, Vault.cpp lines 904-912. -/
def rowCells {R : Type} (get : R → Key → List Char → Option (List Char)) (r : R) : List Key → List Nat → List Char → Option (List Char × List Char)
  | k :: ks, n :: ns, old => do
    let t ← get r k old
    let (line, t') ← rowCells get r ks ns t
    some (cell t n ++ line, t')
  | _, _, old => some ([], old)

/-- The lines of the records. -/
def rowLines {R : Type} (get : R → Key → List Char → Option (List Char)) (idText : R → List Char) (ks : List Key) (ns : List Nat) :
    List R → List Char → Option (List (List Char))
  | [], _ => some []
  | r :: rs, old => do
    let (line, t) ← rowCells get r ks ns old
    let rest ← rowLines get idText ks ns rs t
    some (('|' :: line ++ idText r) :: rest)

/-- Header, three rules and the rows, PrintAsTable.h lines 59-130, Vault.cpp lines 857-941. `more` says that not all rows are shown. -/
def tableLines (ks : List Key) (ns : List Nat) (rows : List (List Char)) (more : Bool) : List (List Char) :=
  rule '+' '-' ns :: ('|' :: (ks.zip ns).flatMap fun p => cell p.1.name p.2) :: rule '+' '-' ns ::
    (rows ++ [if more = true then rule '$' '~' ns else rule '+' '-' ns])

/-- `PrintAsTable(container, isPrintId, amountOfRecords, keys)`, PrintAsTable.h lines 24-134, without the line with the number of
records: the records of the container up to the one at which `counter == amountOfRecords` (never for 0). `idOf` is the printed id if
`isPrintId`, else nothing. -/
def printAsTable (w : World Key V Ty) (refs : List Ref) (idOf : Ref → List Char) (amount : Nat) (keys : List Key) : Option (List (List Char)) := do
  match refs with
  | [] => some ["The keys could not be retrieved because the container is empty".toList]
  | r :: _ => do
    let ks ← if keys = [] then refKeys w r else some keys
    let (ns, t) ← widths (refText w) refs ks []
    let rows ← rowLines (refText w) idOf ks ns (if amount = 0 then refs else refs.take amount) t
    some (tableLines ks ns rows (decide (amount < refs.length)))

/-- `Vault::Print`, Vault.cpp lines 797-944, without the line with the number of records: `none` is undefined behaviour. The rows are those
`SortBy` visits (`sortedIds`, see `C38`), through references to the vault itself. -/
def vaultPrint (env : Env) (w : World Key V Ty) (o : Nat) (idOf : Ref → List Char) (amount : Nat) (primaryKey : Key) (isReverse : Bool) (keys : List Key) :
    Option (List (List Char)) := do
  let vo ← w.getObj o
  if vo.cols = [] then some [(if vo.isBase = true then "Vault does not contain keys!" else "VaultRecordSet does not contain keys!").toList]
  else do
    let ks := if keys = [] then vo.keysOrder else keys
    let (ns, t) ← widths (recText w) (env.perm vo.recs) ks []
    let key ← if primaryKey = Key.of [] then ks.head? else some primaryKey
    let rows ← rowLines (refText w) idOf ks ns ((sortedIds vo key isReverse (some amount)).map fun r => ⟨some r, some o⟩) t
    some (tableLines ks ns rows (decide (amount < vo.recs.length)))

end MVault.W
