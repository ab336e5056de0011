import Mathlib.Order.Defs.LinearOrder
/-
World layer, part 1: finite maps, typed values, records, indices (columns), vault and set objects.
Models `Map.h`, `VaultRecord.h`, the data members of `Vault.h`, `VaultRecordSet.h`, `VaultRecordRef.h` and the
per-key functions built by `Vault::AddKey` (`Vault.hpp`).
-/
namespace MVault.W

/-! ### Finite maps (models `std::unordered_map` used by key) -/

section Maps
variable {K V : Type} [DecidableEq K]

/-- Lookup. Standard library (`std::unordered_map` by key), Vault.h lines 64-84, VaultRecord.h line 17. -/
def mget : List (K × V) → K → Option V
  | [], _ => none
  | (k', v) :: l, k => if k' = k then some v else mget l k

/-- Insert or overwrite. Standard library (`std::unordered_map` by key), Vault.h lines 64-84, VaultRecord.h line 17. -/
def mput : List (K × V) → K → V → List (K × V)
  | [], k, v => [(k, v)]
  | (k', v') :: l, k, v => if k' = k then (k, v) :: l else (k', v') :: mput l k v

/-- Remove. Standard library (`std::unordered_map` by key), Vault.h lines 64-84, VaultRecord.h line 17. -/
def mdel (m : List (K × V)) (k : K) : List (K × V) := m.filter (fun e => e.1 ≠ k)

/-- Change every value, keeping the keys. Standard library (`std::unordered_map` by key), Vault.h lines 64-84, VaultRecord.h line 17. -/
def mmap {W : Type} (f : K → V → W) (m : List (K × V)) : List (K × W) := m.map (fun e => (e.1, f e.1 e.2))

/-- Key test. Standard library (`std::unordered_map` by key), Vault.h lines 64-84, VaultRecord.h line 17. -/
def mhas (m : List (K × V)) (k : K) : Bool := (mget m k).isSome

end Maps

/-- Values of all C++ types together: `typeOf` is `typeid`, `zero t` is `T{}`. The order compares values of the same type
with `operator<`; values of different types are never compared by the code. Simplification: `operator<` is a total order and
agrees with `operator==` (so no NaN). DataSaver.h line 27 (`typeid`), Vault.hpp line 60 (`T{}`), Vault.h lines 49, 61 (hash and order). -/
class Typed (V : Type) (Ty : outParam Type) where
  typeOf : V → Ty
  zero : Ty → V
  zero_ty : ∀ t, typeOf (zero t) = t
export Typed (typeOf zero)

/-- A C++ function with return type `T` can only give values of type `T`: cast of an arbitrary value to type `t`. Vault.hpp lines 326, 381 (the function given to AddUniqueKey). -/
def castTo {V Ty : Type} [Typed V Ty] [DecidableEq Ty] (t : Ty) (v : V) : V := if typeOf v = t then v else zero t

/-- VaultOperationResult.h lines 22-40. -/
inductive Code
  | OtherParentVaultNotValid | SameVaultRecordSet | TryToAddUniqueKeyInNonEmptyVaultWithoutLambda | DuplicateKey | UniqueKey
  | RecordAlredyInSet | ParentVaultNotMatch | ParentVaultNotValid | DataRecordNotValid | WrongKey | WrongType | Idle
  | WrongValue | UniqueKeyValueAlredyInSet | Success
  deriving DecidableEq, Repr

/-- VaultOperationResult.h lines 45-60: `IsOperationSuccess`, `ResultCode`, `Key`. The two type fields are modelled
apart, in WorldTypes.lean. -/
structure Res (K : Type) where
  ok : Bool
  code : Code
  key : Option K
  deriving DecidableEq

/-- A successful result. VaultOperationResult.cpp lines 5-10. -/
def Res.good {K : Type} (k : Option K) : Res K := ⟨true, .Success, k⟩
/-- A failed result. VaultOperationResult.cpp lines 5-10. -/
def Res.bad {K : Type} (c : Code) (k : Option K) : Res K := ⟨false, c, k⟩

/-! ### Records, references -/

/-- VaultRecord.h lines 14-31: container with the key values, `IsValid`, `RefCounter`, `dependentVaultRecordSets`. -/
structure Rec (K V : Type) where
  data : List (K × V)
  valid : Bool
  refs : Nat
  deps : List Nat

/-- VaultRecordRef.h: `VaultRecordPtr`, `Vlt`. -/
structure Ref where
  ptr : Option Nat
  vlt : Option Nat
  deriving DecidableEq

/-! ### Columns: one key of a vault -/

/-- Everything a vault stores for one key: the entry of `KeysTypes`, the hash map and the ordered map of
`VaultHashMapStructure` / `VaultMapStructure` (entries `(value, record)`), whether they are multi containers, and the default
captured by the per-key functions (Vault.hpp lines 347-361, 442-522). These tables are always changed together
(AddKey, RemoveKey, DropVault), so they are one entry here. Simplification: after a failed
`AddUniqueKey` without function on a non-empty vault the code leaves unused empty maps behind (line 367); they only show up
in `PrintRecord` and `Print` and are modelled in AskModel.lean.
`dropH`, `dropO` are ghost fields: they record that an operation removed index entries of records it was not about. No
operation reads them. -/
structure Col (V Ty : Type) where
  ty : Ty
  multi : Bool
  dflt : V
  hash : List (V × Nat)
  ord : List (V × Nat)
  dropH : Bool := false
  dropO : Bool := false

section Cols
variable {K V Ty : Type} [DecidableEq K] [LinearOrder V] [Typed V Ty] [DecidableEq Ty]

/-- Does an index hold the value? Map.h lines 362-374. -/
def hasVal (l : List (V × Nat)) (v : V) : Bool := l.any (fun e => e.1 = v)

/-- `std::multimap::emplace` / `std::map::emplace` of a value: insertion at the upper bound. Map.h lines 319-332. -/
def ordInsert : List (V × Nat) → V → Nat → List (V × Nat)
  | [], v, r => [(v, r)]
  | (v', r') :: l, v, r => if v < v' then (v, r) :: (v', r') :: l else (v', r') :: ordInsert l v r

/-- `Map::Emplace`, Map.h lines 319-332: a non-multi container refuses a present key. -/
def ordEmplace (multi : Bool) (l : List (V × Nat)) (v : V) (r : Nat) : List (V × Nat) :=
  if multi = false ∧ hasVal l v = true then l else ordInsert l v r

/-- `UnorderedMap::Emplace`, Map.h lines 319-332. -/
def hashEmplace (multi : Bool) (l : List (V × Nat)) (v : V) (r : Nat) : List (V × Nat) :=
  if multi = false ∧ hasVal l v = true then l else l ++ [(v, r)]

/-- The adder of a key, Vault.hpp lines 442-459, applied to a value: `false` when the hash map refuses it. -/
def Col.add (c : Col V Ty) (v : V) (r : Nat) : Col V Ty × Bool :=
  if c.multi = false ∧ hasVal c.hash v = true then (c, false)
  else ({ c with hash := hashEmplace c.multi c.hash v r, ord := ordEmplace c.multi c.ord v r }, true)

/-- The eraser of a key, Vault.hpp lines 470-501, applied to a value: from the hash map only the record's entry is erased
(by iterator); from the ordered map all entries with the value are erased (by key, line 496) if the record's is there. -/
def Col.erase (c : Col V Ty) (v : V) (r : Nat) : Col V Ty :=
  { c with
    hash := List.erase c.hash (v, r)
    ord := if (v, r) ∈ c.ord then c.ord.filter (fun e => e.1 ≠ v) else c.ord
    dropO := c.dropO || (decide ((v, r) ∈ c.ord) && c.ord.any (fun e => e.1 = v ∧ e.2 ≠ r)) }

/-- The index part of `SetDataToRecord`, Vault.hpp lines 56-110: `none` is the UniqueKeyValueAlredyInSet refusal of line 67
(which looks for the *old* value); otherwise all entries with the old value are erased (by key, lines 81 and 102) if the
record's is among them, then the new value is added. -/
def Col.setVal (c : Col V Ty) (old new : V) (r : Nat) : Option (Col V Ty) :=
  if c.multi = false ∧ hasVal c.hash old = true then none
  else some { c with
    hash := hashEmplace c.multi (if (old, r) ∈ c.hash then c.hash.filter (fun e => e.1 ≠ old) else c.hash) new r
    ord := ordEmplace c.multi (if (old, r) ∈ c.ord then c.ord.filter (fun e => e.1 ≠ old) else c.ord) new r
    dropH := c.dropH || (decide ((old, r) ∈ c.hash) && c.hash.any (fun e => e.1 = old ∧ e.2 ≠ r))
    dropO := c.dropO || (decide ((old, r) ∈ c.ord) && c.ord.any (fun e => e.1 = old ∧ e.2 ≠ r)) }

/-- The clearer of a key, Vault.hpp lines 462-467. -/
def Col.clear (c : Col V Ty) : Col V Ty := { c with hash := [], ord := [], dropH := false, dropO := false }

/-- `newRecord->GetData(key, value)` with `value` initialised to `d`: unchanged when the key is missing or holds another
type (DataContainer.h line 188, DataSaver). -/
def readOr (ty : Ty) (d : V) (data : List (K × V)) (k : K) : V :=
  match mget data k with
  | some v => if typeOf v = ty then v else d
  | none => d

/-- Value used by the adder, Vault.hpp lines 444-447. -/
def Col.addVal (c : Col V Ty) (data : List (K × V)) (k : K) : V := readOr c.ty c.dflt data k

/-- Value used by the eraser and by SetDataToRecord, Vault.hpp lines 60-61 and 472-474. -/
def Col.oldVal (c : Col V Ty) (data : List (K × V)) (k : K) : V := readOr c.ty (zero c.ty) data k

/-- All adders of an object for one record. Vault.h line 67; Vault.cpp lines 174-175, 526-527. -/
def addCols (cols : List (K × Col V Ty)) (data : List (K × V)) (r : Nat) : List (K × Col V Ty) :=
  mmap (fun k c => (c.add (c.addVal data k) r).1) cols

/-- All erasers of an object for one record. Vault.h line 73; Vault.cpp lines 23-24. -/
def eraseCols (cols : List (K × Col V Ty)) (data : List (K × V)) (r : Nat) : List (K × Col V Ty) :=
  mmap (fun k c => c.erase (c.oldVal data k) r) cols

/-- All clearers of an object. Vault.h line 70; Vault.cpp lines 619-620; VaultRecordSet.cpp lines 270-271. -/
def clearCols (cols : List (K × Col V Ty)) : List (K × Col V Ty) := mmap (fun _ c => c.clear) cols

end Cols

/-! ### Vault and set objects, the world -/

/-- Data members of `Vault` (Vault.h) and `VaultRecordSet` (VaultRecordSet.h, which derives from `Vault`):
`isSet` is the static class, `isBase` is `VaultDerivedClass == VaultBase`, `parent` is `ParentVault`, `tmpl` is
`RecordTemplate`, `recs` is `RecordsSet`, `sets` is `RecordSetsSet`. -/
structure Obj (K V Ty : Type) where
  isSet : Bool
  isBase : Bool
  parent : Option Nat
  tmpl : List (K × V)
  cols : List (K × Col V Ty)
  keysOrder : List K
  uniq : List K
  recs : List Nat
  sets : List Nat

/-- A new `Vault`, Vault.cpp lines 182-187. -/
def Obj.newVault {K V Ty : Type} : Obj K V Ty := ⟨false, true, none, [], [], [], [], [], []⟩
/-- A new `VaultRecordSet`, VaultRecordSet.cpp lines 77-83. -/
def Obj.newSet {K V Ty : Type} : Obj K V Ty := ⟨true, false, none, [], [], [], [], [], []⟩

/-- Memory: live records, live vault and set objects, all reference variables (by position), next free addresses.
Simplification: addresses are never reused. Vault.h lines 38-113, VaultRecord.h lines 20-30, VaultRecordRef.h lines 24-30. -/
structure World (K V Ty : Type) where
  recs : List (Nat × Rec K V)
  objs : List (Nat × Obj K V Ty)
  refs : List Ref
  nextR : Nat
  nextO : Nat

/-- Nothing allocated. No object has been constructed yet: the state before the constructors of Vault.cpp line 182 and VaultRecordSet.cpp line 77. -/
def World.empty {K V Ty : Type} : World K V Ty := ⟨[], [], [], 0, 0⟩

/-- The iteration order of unordered containers, chosen freely for every operation. Standard library, Vault.h lines 67-113. -/
structure Env where
  perm : List Nat → List Nat
  isPerm : ∀ l, (perm l).Perm l

/-- Insertion order. One choice of the standard library, Vault.h lines 67-113. -/
def Env.id : Env := ⟨fun l => l, fun l => List.Perm.refl l⟩
/-- Reverse insertion order. One choice of the standard library, Vault.h lines 67-113. -/
def Env.rev : Env := ⟨List.reverse, fun l => List.reverse_perm l⟩

section Prims
variable {K V Ty : Type}

/-- Store a record. Assignment to members of a record, VaultRecord.h lines 20-30. -/
def World.putRec (w : World K V Ty) (r : Nat) (x : Rec K V) : World K V Ty := { w with recs := mput w.recs r x }
/-- `delete` a record. VaultRecord.cpp lines 67-140. -/
def World.freeRec (w : World K V Ty) (r : Nat) : World K V Ty := { w with recs := mdel w.recs r }
/-- Store an object. Assignment to members of a vault or set, Vault.h lines 38-113. -/
def World.putObj (w : World K V Ty) (o : Nat) (x : Obj K V Ty) : World K V Ty := { w with objs := mput w.objs o x }
/-- Access through a pointer to a record: `none` (undefined behaviour) when it has been deleted. VaultRecordRef.h line 27, Vault.h line 110. -/
def World.getRec (w : World K V Ty) (r : Nat) : Option (Rec K V) := mget w.recs r
/-- Access through a pointer to a vault or set: `none` (undefined behaviour) when it has been destroyed. VaultRecordRef.h lines 24-30, Vault.h line 113. -/
def World.getObj (w : World K V Ty) (o : Nat) : Option (Obj K V Ty) := mget w.objs o

/-- A loop whose body may be undefined. The range-based loops of Vault.cpp and Vault.hpp, for example Vault.cpp lines 23-24. -/
def loop {A B : Type} (f : B → A → Option B) : List A → B → Option B
  | [], b => some b
  | a :: l, b => (f b a).bind (loop f l)

/-- `emplace` into `std::unordered_set`. Vault.h lines 110, 113; VaultRecord.h line 30. -/
def setIns (l : List Nat) (a : Nat) : List Nat := if a ∈ l then l else l ++ [a]

end Prims
end MVault.W
