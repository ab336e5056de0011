import Verif.TextModel
import Verif.WorldOut
import Mathlib.Data.List.Dedup
/-
Questions that change nothing: keys of references and sets, `GetDataAsString`, `PrintRecord`; and the maps a refused `AddUniqueKey`
leaves behind, which `PrintRecord` and `Print` meet.
-/
set_option linter.unusedSectionVars false
namespace MVault.W
variable {K V Ty : Type} [LinearOrder K] [LinearOrder V] [Typed V Ty] [DecidableEq Ty]

/-! ### References and sets -/

/-- `VaultRecordRef::IsKeyExist`, VaultRecordRef.cpp lines 222-231; `Vlt->IsKeyExist` is `Vault::IsKeyExist` (Vault.cpp lines 316-324) also when
`Vlt` is a set, for the function is not virtual. -/
def refIsKeyExist (w : World K V Ty) (f : Nat) (k : K) : Option Bool := do
  let ref ← w.refs[f]?
  match ref.vlt with
  | none => some false
  | some o => (w.getObj o).map fun vo => mhas vo.tmpl k

/-- `VaultRecordRef::GetKeys`, VaultRecordRef.cpp lines 233-247, of reference variable `f`. -/
def refGetKeys (w : World K V Ty) (f : Nat) : Option (List K) := do
  let ref ← w.refs[f]?
  match ref.ptr with
  | none => some []
  | some r => do
    let x ← w.getRec r
    if x.valid = true then do
      let o ← ref.vlt
      (w.getObj o).map (·.keysOrder)
    else some []

/-- Asking the vault of a set, or answering `dflt` when there is none: the frame of the functions below. VaultRecordSet.cpp lines 152-190. -/
def viaParent {A : Type} (w : World K V Ty) (s : Nat) (dflt : A) (ask : Obj K V Ty → A) : Option A := do
  let so ← w.getObj s
  match so.parent with
  | none => some dflt
  | some p => (w.getObj p).map ask

/-- `VaultRecordSet::IsKeyExist`, VaultRecordSet.cpp lines 152-162. -/
def setIsKeyExist (w : World K V Ty) (s : Nat) (k : K) : Option Bool := viaParent w s false fun po => mhas po.tmpl k
/-- `VaultRecordSet::GetKeys`, VaultRecordSet.cpp lines 303-313. -/
def setGetKeys (w : World K V Ty) (s : Nat) : Option (List K) := viaParent w s [] (·.keysOrder)
/-- `VaultRecordSet::GetUniqueKeys`, VaultRecordSet.cpp lines 315-325. -/
def setGetUniqueKeys (w : World K V Ty) (s : Nat) : Option (List K) := viaParent w s [] (·.uniq)
/-- `VaultRecordSet::GetKeyType`, VaultRecordSet.cpp lines 164-178: the vault is only locked, the answer is the set's own. -/
def setGetKeyType (w : World K V Ty) (s : Nat) (k : K) : Option (Option Ty) := do
  let so ← w.getObj s
  match so.parent with
  | none => some none
  | some p => do
    let _ ← w.getObj p
    some ((mget so.cols k).map (·.ty))

/-! ### What a refused AddUniqueKey leaves behind

`AddKey` enters the new index maps in `VaultHashMapStructure` and `VaultMapStructure` (Vault.hpp lines 348-361) before it refuses a unique key
without function for a vault with records (lines 367-372), and does not take them out again. -/

/-- For each vault the names in `VaultHashMapStructure` (the same as in `VaultMapStructure`) that are not keys of the vault. Vault.h lines 49, 61; Vault.hpp lines 347-372. -/
abbrev Left (K : Type) := Nat → List K

/-- Replacing the names of one vault. Vault.hpp lines 347-372. -/
def Left.put (L : Left K) (o : Nat) (l : List K) : Left K := fun o' => if o' = o then l else L o'

/-- What an operation with its answer does to these names: Vault.hpp lines 348-372 and 410-411 (AddKey and AddUniqueKey), Vault.cpp lines
569-581 (DropVault), 226-228 (copy assignment drops first), 270-271, 290-299 (moves). Sets never get any: they add unique keys through
`AddUniqueKey(key, function)` (Vault.hpp line 529), whose flag `isUniqueKeyWithoutLambda` is false. -/
def leftAfter (w : World K V Ty) (L : Left K) : Op K V Ty → Answer K → Left K
  | .addKey o k _, .res r => if r.ok = true then L.put o ((L o).filter (· ≠ k)) else L
  | .addUniqueKey o k _ _ _, .res r =>
    if r.code = .TryToAddUniqueKeyInNonEmptyVaultWithoutLambda then L.put o (if k ∈ L o then L o else k :: L o)
    else if r.ok = true ∨ r.code = .UniqueKeyValueAlredyInSet then L.put o ((L o).filter (· ≠ k))
    else L
  | .dropVault o, _ => L.put o []
  | .vaultAssign o a, _ => if o = a then L else L.put o []
  | .vaultMoveNew a, _ => (L.put w.nextO (L a)).put a []
  | .vaultMoveAssign o a, _ => if o = a then L else (L.put o (L a)).put a []
  | _, _ => L

/-- Worlds with the left names, reached from the empty world by operations that satisfy `G`. History of calls, models no single function: Vault.hpp lines 324-372. -/
inductive LReach (G : World K V Ty → Op K V Ty → Prop) : World K V Ty → Left K → Prop
  | init : LReach G World.empty (fun _ => [])
  | step {env : Env} {w w' : World K V Ty} {L : Left K} {op : Op K V Ty} {a : Answer K} : LReach G w L → G w op → outcome env w op = some (w', a) →
      LReach G w' (leftAfter w L op a)

/-- The names in `VaultHashMapStructure` (Vault.h line 49) of an object, each once. -/
def structureKeys (L : Left K) (o : Nat) (vo : Obj K V Ty) : List K := (vo.cols.map (·.1)).dedup ++ (if vo.isSet = true then [] else L o)

/-! ### Texts -/

variable {V : Type} [LinearOrder V] [Typed V Ty] [Texts V Ty]

/-- `VaultRecordRef::GetDataAsString`, VaultRecordRef.cpp lines 168-209: result and the text written to the output (`none`: untouched). Line 203
ignores whether the container holds the key. -/
def refGetDataAsString (w : World K V Ty) (f : Nat) (k : K) : Option (Res K × Option (List Char)) := do
  let ref ← w.refs[f]?
  match ref.ptr with
  | none => some (.bad .DataRecordNotValid (some k), none)
  | some r => do
    let o ← ref.vlt
    let vo ← w.getObj o
    let x ← w.getRec r
    if x.valid = false then some (.bad .DataRecordNotValid (some k), none)
    else match mget vo.cols k with
      | none => some (.bad .WrongKey (some k), none)
      | some _ => some (.good (some k), (mget x.data k).map toText)

/-- The line of one key, VaultRecordRef.cpp lines 266-269. The empty `DataSaver` of a missing key has an empty `std::function` for its text, calling it
ends the program (the function is `noexcept`): `none`. -/
def printLine (data : List (Key × V)) (k : Key) : Option (List Char) := (mget data k).map fun v => '\t' :: (k.name ++ " = ".toList ++ toText v)

/-- `VaultRecordRef::PrintRecord`, VaultRecordRef.cpp lines 249-279: the printed lines; `addr` gives the printed addresses of records, `order` the order of
the hash table with the keys. -/
def printRecord (addr : Nat → List Char) (order : List Key → List Key) (w : World Key V Ty) (L : Left Key) (f : Nat) : Option (List (List Char)) := do
  let ref ← w.refs[f]?
  match ref.ptr with
  | none => some ["VaultRecordRef not valid!".toList]
  | some r => do
    let x ← w.getRec r
    if x.valid = true then do
      let o ← ref.vlt
      let vo ← w.getObj o
      let lines ← (order (structureKeys L o vo)).mapM (printLine x.data)
      some (("Vault record ".toList ++ addr r ++ [':']) :: lines)
    else some ["VaultRecordRef not valid!".toList]

/-- `Vault::Print` with the left maps: Vault.cpp line 805 asks whether `VaultMapStructure` is empty, so left maps hide that there are no keys, and line
896 takes the front of the empty list of keys. Otherwise as `vaultPrint`, which models lines 797-944 without left maps. -/
def vaultPrintLeft (env : Env) (w : World Key V Ty) (L : Left Key) (o : Nat) (idOf : Ref → List Char) (amount : Nat) (primaryKey : Key) (isReverse : Bool)
    (keys : List Key) : Option (List (List Char)) := do
  let vo ← w.getObj o
  if vo.cols = [] ∧ structureKeys L o vo ≠ [] then do
    let (ns, t) ← widths (recText w) (env.perm vo.recs) keys []
    let key ← if primaryKey = Key.of [] then keys.head? else some primaryKey
    let rows ← rowLines (refText w) idOf keys ns ((sortedIds vo key isReverse (some amount)).map fun r => ⟨some r, some o⟩) t
    some (tableLines keys ns rows (decide (amount < vo.recs.length)))
  else vaultPrint env w o idOf amount primaryKey isReverse keys

end MVault.W
