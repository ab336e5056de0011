import Verif.TextModel
import Verif.WorldTypes
/-
Validation of the text layer (`ToJson`, `ToStrings`, `Print`, `SaveToFile`, `ReadFile`) against the unit tests of the project: the script language of
`ConfText.lean`, which `conformance/gentext.py` generates. These are tests of the model, not proofs of properties.
-/
namespace MVault.ConfText
open MVault.W

/-- A value of type `int`. -/
def vi (i : Int) : Val := if h : Str.IntTy.lo .i32 ≤ i ∧ i ≤ Str.IntTy.hi .i32 then .int .i32 i h else .bool false
/-- A value of type `std::size_t`. -/
def vz (i : Int) : Val := if h : Str.IntTy.lo .u64 ≤ i ∧ i ≤ Str.IntTy.hi .u64 then .int .u64 i h else .bool false
/-- Worlds of the tests. -/
abbrev XW := World Key Val VTy
/-- Operations of the tests. -/
abbrev XO := Op Key Val VTy
/-- State of a test: the world and the errors of the last file read. -/
structure St where
  w : XW
  errs : List (Nat × Key) := []
/-- A statement; `none` is undefined behaviour or a failed assertion. -/
abbrev Stmt := St → Option St
/-- A call. -/
def op (o : XO) : Stmt := fun s => (step Env.rev s.w o).map fun w => { s with w := w }
/-- An assertion. -/
def chk (p : XW → Bool) : Stmt := fun s => if p s.w then some s else none
/-- `Vault::ToJson` or `VaultRecordSet::ToJson`. -/
def json (isSet : Bool) (o : Nat) (fmt : Bool) (tab : Nat) (useT : Bool) (t : List Char) (arr : Bool) (out : List Char) : Stmt := chk fun w =>
  (if isSet then setToJson else vaultToJson) Env.rev (fun _ => []) w o fmt tab useT t arr == some out
/-- `VaultRecordRef::ToJson`. -/
def refJson (f : Nat) (fmt : Bool) (tab : Nat) (out : List Char) : Stmt := chk fun w => refToJson w f fmt tab == some out
/-- `ToStrings`. -/
def strings (isSet : Bool) (o : Nat) (out : List (List (Key × List Char))) : Stmt := chk fun w =>
  match (if isSet then setToStrings else vaultToStrings) Env.rev w o with
  | some l => l.isPerm out
  | none => false
/-- `VaultRecordRef::ToStrings`. -/
def refStrings (f : Nat) (out : List (Key × List Char)) : Stmt := chk fun w => refToStrings w f == some out
/-- `Print`. -/
def print (o amount : Nat) (pk : Key) (rev : Bool) (ks : List Key) (out : List (List Char)) : Stmt := chk fun w =>
  vaultPrint Env.rev w o (fun _ => []) amount pk rev ks == some out
/-- `SaveToFile` to a file that can be opened. -/
def save (o : Nat) (ks : List Key) (sep : List Char) (b : Bool) (out : List Char) : Stmt := chk fun w => saveToFile Env.rev w o ks sep b == some out
/-- `ReadFile`. -/
def read (handler : List Key → List (List Char) → List (List Char)) (o : Nat) (file : Option (List Char)) (sep : Char) (load : Bool) (ks : List Key) (ok : Bool) : Stmt := fun s =>
  match readFileWith handler 1000 1000 s.w o file sep load ks with
  | some (b, w, e) => if b = ok then some ⟨w, e⟩ else none
  | none => none
/-- `GetErrorsInLastReadedFile() == e`. -/
def errors (e : List (Nat × Key)) : Stmt := fun s => if s.errs == e then some s else none
/-- `GetDataAsString(key, text)`: the text afterwards. -/
def asString (f : Nat) (k : Key) (old new : List Char) : Stmt := chk fun w => match w.refs[f]? with
  | some r => refText w r k old == some new
  | none => false
/-- `VaultRecordRef::GetKeys`. -/
def keysOf (f : Nat) (ks : List Key) : Stmt := chk fun w => match w.refs[f]? with
  | some r => refKeys w r == some ks
  | none => false
/-- The number of records in the last line of `Print`. -/
def size (o n : Nat) : Stmt := chk fun w => match w.getObj o with | some x => x.recs.length == n | none => false
/-- Run a test. -/
def runX (l : List Stmt) : Bool := (l.foldl (fun s t => s.bind t) (some ⟨World.empty, []⟩)).isSome

end MVault.ConfText
