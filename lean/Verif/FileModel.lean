import Verif.WorldObs
import Verif.CsvModel
import Verif.StringsModel
import Mathlib.Data.List.Lex
import Mathlib.Data.List.Dedup
import Mathlib.Data.Char
import Mathlib.Data.Prod.Lex
/-
File layer: `Vault::SaveToFile` and `Vault::ReadFile` (Vault.cpp lines 40-180 and 946-1046) on top of the CSV layer, the text
conversions and the world of vaults. Keys are texts here (`std::string`, ordered as `std::string` is).
A file is its list of characters; the file system is not modelled (a file that cannot be opened is `none`).
-/
set_option linter.unusedSectionVars false
namespace MVault.W
open MVault.Csv (formatCsv parseFile)

/-- Key names, `std::string`. Vault.h line 64. -/
def Key : Type := List Char
/-- The name of a key. Vault.h line 64. -/
def Key.name (k : Key) : List Char := k
/-- The key with a name. Vault.cpp lines 67-72. -/
def Key.of (s : List Char) : Key := s
/-- `std::string` order. -/
instance : LinearOrder Key := inferInstanceAs (LinearOrder (List Char))

/-- The conversions a `DataSaver` captures for the type of its value (DataSaver.h lines 158-180): `ToString` and
`FromString`. `FromString` for a type gives values of that type. -/
class Texts (V : Type) (Ty : outParam Type) [Typed V Ty] where
  toText : V → List Char
  fromText : Ty → List Char → Str.Out V
  from_ty : ∀ t s v, fromText t s = .ok v → typeOf v = t
export Texts (toText fromText)

variable {V Ty : Type} [LinearOrder V] [Typed V Ty] [DecidableEq Ty] [Texts V Ty]

/-! ### Saving -/

/-- `record->GetDataAsString(key, data)` into an empty string, DataContainer.h lines 226-234: the empty string stays when the
key is missing. -/
def cellText (data : List (Key × V)) (k : Key) : List Char :=
  match mget data k with | some v => toText v | none => []

/-- `record->Size()`, DataContainer.h lines 280-283: number of keys of a container. -/
def sizeOf (data : List (Key × V)) : Nat := ((data.map (·.1)).dedup).length

/-- One row, Vault.cpp lines 993-1005 and 1014-1026: after each field the counter decides whether to stop or to write the
separator; `std::size_t` has 64 bits. -/
def saveRow (sep : List Char) (data : List (Key × V)) : List Key → Nat → List Char
  | [], _ => []
  | k :: ks, n => formatCsv (cellText data k) ++ if n = 1 then [] else sep ++ saveRow sep data ks (if n = 0 then 2 ^ 64 - 1 else n - 1)

/-- The two characters CR LF, Vault.cpp line 963. -/
def endLine : List Char := ['\r', '\n']

/-- The key line, Vault.cpp lines 966-985: names are written as they are. Without any key the first iterator is dereferenced
at the end (line 971): undefined. The line end is only written if the vault has keys (also for `keys` given by the user). -/
def saveHeader (sep : List Char) (order : List Key) (hasKeys : Bool) : Option (List Char) :=
  match order with
  | [] => none
  | k :: ks => some (k.name ++ ks.flatMap (fun k' => sep ++ k'.name) ++ if hasKeys then endLine else [])

/-- `Vault::SaveToFile`, Vault.cpp lines 946-1032: the text written for vault `o`; `none` is undefined behaviour. -/
def saveToFile (env : Env) (w : World Key V Ty) (o : Nat) (keys : List Key) (sep : List Char) (isSaveKey : Bool) : Option (List Char) := do
  let vo ← w.getObj o
  let order := if keys = [] then vo.keysOrder else keys
  let header ← if isSaveKey = true then saveHeader sep order (decide (vo.keysOrder.length ≠ 0)) else some []
  loop (fun text r => (w.getRec r).map fun x =>
    text ++ saveRow sep x.data order (if keys = [] then sizeOf x.data else keys.length) ++ endLine) (env.perm vo.recs) header

/-! ### Reading -/

/-- What happened to one row. Vault.cpp lines 100-176. -/
inductive RowOut (V : Type)
  | ub | bad (k : Key) | skip | ok (data : List (Key × V))

/-- Setting the fields of one row by key on a copy of the template, Vault.cpp lines 66-140: stop at the first refused field
(unknown key or text that does not convert); `none` for the key is an iterator past the end. `set` is
`isCorrectRecordInFile`: a row in which nothing was set is dropped (line 142). -/
def setRow : List (Option Key × List Char) → List (Key × V) → Bool → RowOut V
  | [], data, set => if set = true then .ok data else .skip
  | (none, _) :: _, _, _ => .ub
  | (some k, s) :: l, data, _ => match mget data k with
    | none => .bad k
    | some v0 => match fromText (typeOf v0) s with
      | .ub => .ub
      | .reject => .bad k
      | .ok v => setRow l (mput data k v) true

/-- Which keys the fields of a row belong to: the loaded or given keys as long as there are both (lines 76-90, 119-137);
without either, the vault's keys in order, where a surplus field is an iterator past the end (lines 99-115). -/
def pairRow (order : List Key) : List (List Char) → List (Option Key × List Char)
  | [] => []
  | s :: l => (order.head?, s) :: pairRow order.tail l

/-- The field/key pairs of one row: with `isLoadKeys` the keys of the file, else `userKeys`, else the vault's order. Vault.cpp lines 100-150. -/
def rowPairs (loaded : Option (List Key)) (userKeys order : List Key) (row : List (List Char)) : List (Option Key × List Char) :=
  match loaded with
  | some ks => ((ks.zip row).map fun p => (some p.1, p.2))
  | none => if userKeys = [] then pairRow order row else ((userKeys.zip row).map fun p => (some p.1, p.2))

/-- The row after the record handler, Vault.cpp lines 76-77; only called with loaded keys. -/
def handledRow (handler : List Key → List (List Char) → List (List Char)) (loaded : Option (List Key)) (row : List (List Char)) : List (List Char) :=
  match loaded with | some ks => handler ks row | none => row

/-- The main loop of `Vault::ReadFile`, Vault.cpp lines 64-177. `n` is `lineCounter` before the row. Errors of fields are
reported at `lineCounter + 1` with loaded keys (line 85) and at `lineCounter` without (lines 110, 130); a clash of a unique
key is always reported at `lineCounter` (line 163). `handler` is the record handler of the preprocessing overload (a pure
function here; the identity when there is no preprocessing). -/
def readLoop (handler : List Key → List (List Char) → List (List Char)) (loaded : Option (List Key)) (userKeys : List Key) (o : Nat) :
    List (List (List Char)) → Nat → World Key V Ty → List (Nat × Key) → Option (World Key V Ty × List (Nat × Key))
  | [], _, w, errs => some (w, errs)
  | row :: rows, n, w, errs => do
    let vo ← w.getObj o
    match setRow (rowPairs loaded userKeys vo.keysOrder (handledRow handler loaded row)) vo.tmpl false with
    | .ub => none
    | .skip => readLoop handler loaded userKeys o rows (n + 1) w errs
    | .bad k => readLoop handler loaded userKeys o rows (n + 1) w (errs ++ [(if loaded.isSome then n + 1 + 1 else n + 1, k)])
    | .ok data => do
      let (w1, out) ← insertRecord w o data
      match out with
      | .error k => readLoop handler loaded userKeys o rows (n + 1) w1 (errs ++ [(n + 1, k)])
      | .ok _ => readLoop handler loaded userKeys o rows (n + 1) w1 errs

/-- `Vault::ReadFile`, Vault.cpp lines 40-180: return value, the world afterwards and `GetErrorsInLastReadedFile`
(lines 1048-1053). A file that cannot be opened is `none`. `block`, `big` as in the CSV layer. -/
def readFileWith (handler : List Key → List (List Char) → List (List Char)) (block big : Nat) (w : World Key V Ty) (o : Nat)
    (file : Option (List Char)) (sep : Char) (isLoadKeys : Bool) (userKeys : List Key) : Option (Bool × World Key V Ty × List (Nat × Key)) :=
  match file with
  | none => some (false, w, [])
  | some text => do
    let rows ← parseFile block big sep text
    let (w1, errs) ← if isLoadKeys = true then readLoop handler (some ((rows.head?.getD []).map Key.of)) userKeys o rows.tail 0 w []
      else readLoop handler none userKeys o rows 0 w []
    some (true, w1, errs)

/-- `Vault::ReadFile(fileName, separator, isLoadKeys, keys)`, Vault.cpp lines 1034-1039. -/
def readFile (block big : Nat) (w : World Key V Ty) (o : Nat) (file : Option (List Char)) (sep : Char) (isLoadKeys : Bool)
    (userKeys : List Key) : Option (Bool × World Key V Ty × List (Nat × Key)) :=
  readFileWith (fun _ row => row) block big w o file sep isLoadKeys userKeys

/-- `Vault::ReadFile(fileName, separator, recordHandler)`, Vault.cpp lines 1041-1046. -/
def readFileHandled (handler : List Key → List (List Char) → List (List Char)) (block big : Nat) (w : World Key V Ty) (o : Nat)
    (file : Option (List Char)) (sep : Char) : Option (Bool × World Key V Ty × List (Nat × Key)) :=
  readFileWith handler block big w o file sep true []

/-! ### The values that can be written and read: integers, booleans and texts -/

/-- Types of values: the integer types with a `FromString`, `bool`, `std::string`. FromString.h lines 31-339, the overloads. -/
inductive VTy
  | int (t : Str.IntTy) | bool | str
  deriving DecidableEq

/-- Values with their C++ type; integers are in the range of their type. DataSaver.h lines 24-42, 69-73. -/
inductive Val
  | int (t : Str.IntTy) (i : Int) (h : t.lo ≤ i ∧ i ≤ t.hi)
  | bool (b : Bool)
  | str (s : List Char)

/-- Numbering of the integer types, for the order below. Device of the model for `std::type_index`, Vault.h line 64. -/
def intCode : Str.IntTy → Nat
  | .i16 => 0 | .i32 => 1 | .i64 => 2 | .u16 => 3 | .u32 => 4 | .u64 => 5

/-- Sort key of a value: first the type, then the value. Within one type this is `operator<` of `int`, `bool` and
`std::string`; values of different types are never compared by the code. Map.h lines 439-443. -/
def Val.code : Val → Nat ×ₗ Int ×ₗ List Char
  | .int t i _ => toLex (intCode t, toLex (i, []))
  | .bool b => toLex (6, toLex (if b then 1 else 0, []))
  | .str s => toLex (7, toLex (0, s))

theorem Val.code_inj : Function.Injective Val.code := by
  intro a b h
  cases a with
  | int t i _ =>
    cases b with
    | int t' i' _ =>
      simp only [Val.code, toLex_inj, Prod.mk.injEq, and_true] at h
      obtain ⟨h1, h2⟩ := h
      subst h2
      have : t = t' := by cases t <;> cases t' <;> simp [intCode] at h1 <;> rfl
      subst this; rfl
    | bool _ => cases t <;> simp [Val.code, intCode] at h
    | str _ => cases t <;> simp [Val.code, intCode] at h
  | bool x =>
    cases b with
    | int t i _ => cases t <;> simp [Val.code, intCode] at h
    | bool y => cases x <;> cases y <;> simp [Val.code] at h <;> rfl
    | str _ => simp [Val.code] at h
  | str s =>
    cases b with
    | int t i _ => cases t <;> simp [Val.code, intCode] at h
    | bool y => simp [Val.code] at h
    | str s' => simp [Val.code] at h; rw [h]

instance : LinearOrder Val := LinearOrder.lift' Val.code Val.code_inj

/-- `typeid` of a value. DataSaver.h lines 24-42, 69-73. -/
def Val.ty : Val → VTy
  | .int t _ _ => .int t
  | .bool _ => .bool
  | .str _ => .str

theorem Str.IntTy.zero_ok (t : Str.IntTy) : t.lo ≤ 0 ∧ 0 ≤ t.hi := by cases t <;> decide

instance : Typed Val VTy where
  typeOf := Val.ty
  zero
    | .int t => .int t 0 (Str.IntTy.zero_ok t)
    | .bool => .bool false
    | .str => .str []
  zero_ty t := by cases t <;> rfl

/-- `ToString`, ToString.h. -/
def Val.text : Val → List Char
  | .int _ i _ => Str.toStringInt i
  | .bool b => Str.toStringBool b
  | .str s => Str.toStringStr s

/-- `FromString`, FromString.h. The integer read is always in range (the `else` is never taken). -/
def readVal : VTy → List Char → Str.Out Val
  | .int t, s => match Str.fromStringInt t s with
    | .ub => .ub
    | .reject => .reject
    | .ok i => if h : t.lo ≤ i ∧ i ≤ t.hi then .ok (.int t i h) else .ub
  | .bool, s => match Str.fromStringBool s with
    | .ub => .ub
    | .reject => .reject
    | .ok b => .ok (.bool b)
  | .str, s => match Str.fromStringStr s with
    | .ub => .ub
    | .reject => .reject
    | .ok x => .ok (.str x)

instance : Texts Val VTy where
  toText := Val.text
  fromText := readVal
  from_ty t s v h := by
    cases t with
    | int t =>
      simp only [readVal] at h
      split at h <;> try cases h
      split at h
      · cases h; rfl
      · cases h
    | bool => simp only [readVal] at h; split at h <;> cases h; rfl
    | str => simp only [readVal] at h; split at h <;> cases h; rfl

end MVault.W
