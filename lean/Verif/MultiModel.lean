import Verif.ContainerModel
import Mathlib.Order.Defs.LinearOrder
/-
Model of the containers that may hold several values for one key: `DataMultiHashMap` and `DataMultiMap` (Source/DataContainer.h lines 27-284 instantiated with
`std::unordered_multimap` / `std::multimap`, and lines 291-332). A container is the list of its entries in iteration order.

Which of several entries with the same key `Container.find` returns is not specified by C++, nor is the position at which a hash table puts a new entry (except that
entries with equal keys stay together). So calls are relations: every outcome the standard library may choose is included.
-/
namespace MVault.Cont
section
variable {K V Ty : Type} [DecidableEq Ty] [LinearOrder K]

/-- The two containers: `DataMultiHashMap` (DataContainer.h lines 291-308) and `DataMultiMap` (lines 315-332). -/
inductive Kind
  | hash | tree

/-- `Container`, DataContainer.h line 32: the entries in iteration order. -/
abbrev Multi (K V Ty : Type) := List (K × Saver V Ty)

/-- Entries with equal keys are next to each other: an entry that stands between two entries with key `x` has key `x` (C++ standard, unordered associative
containers). Standard library, DataContainer.h line 32. -/
def Multi.Grouped (b : Multi K V Ty) : Prop := ∀ x z : K, List.Sublist [x, z, x] (b.map Prod.fst) → z = x

/-- `Container.emplace(key, saver)` in a container that accepts equal keys, DataContainer.h lines 64, 82, 93. A `std::multimap` puts the entry after all entries with
keys that are not greater (C++11 and later); a `std::unordered_multimap` puts it anywhere, perhaps reordering everything (rehash), but keeps equal keys together. -/
def Kind.emplace : Kind → Multi K V Ty → K × Saver V Ty → Multi K V Ty → Prop
  | .tree, b, e, b' => b' = b.takeWhile (fun p => decide (p.1 ≤ e.1)) ++ e :: b.dropWhile (fun p => decide (p.1 ≤ e.1))
  | .hash, b, e, b' => b'.Perm (e :: b) ∧ Multi.Grouped b'

/-- `Container.find(key)` may return the entry `s` that stands between `l` and `r`. DataContainer.h lines 127-262. -/
def Multi.FindsAt (b : Multi K V Ty) (k : K) (l : Multi K V Ty) (s : Saver V Ty) (r : Multi K V Ty) : Prop := b = l ++ (k, s) :: r

/-- `Container.find(key) == Container.end()`. DataContainer.h lines 127-262. -/
def Multi.Misses (b : Multi K V Ty) (k : K) : Prop := ∀ p ∈ b, p.1 ≠ k

/-- Calls that change the container. The one-argument-less forms of AddData and SetData are those with `none` for the custom delete function. DataContainer.h lines 60-270. -/
inductive MOp (K V Ty : Type)
  | add (k : K) (v : V) (custom : Option Nat)
  | addSaver (k : K) (d : Saver V Ty)
  | set (k : K) (v : V) (custom : Option Nat)
  | setSaver (k : K) (d : Saver V Ty)
  | setStr (k : K) (str : List Char)
  | erase (k : K)
  | clear

/-- What a call reports: the answer of SetDataFromString, and the calls of custom delete functions it makes, each with the value it was pointed to (`none` = null). DataContainer.h lines 60-270, DataSaver.cpp. -/
structure MRes (V : Type) where
  answer : Option Bool := none
  deleted : List (Nat × Option V) := []

/-- The custom delete function called by ResetData, DataSaver.cpp lines 61-65, with the value `Ptr` points to. -/
def Saver.customCall (s : Saver V Ty) : List (Nat × Option V) :=
  match s.resetData.2 with
  | some f => [(f, s.ptr)]
  | none => []

/-- One call that does not end in undefined behaviour: container before, call, container after, what is reported. DataContainer.h lines 60-270. -/
inductive MStep (kind : Kind) (τ : V → Ty) (fromStr : Ty → List Char → Option V) : Multi K V Ty → MOp K V Ty → Multi K V Ty → MRes V → Prop
  /-- AddData, DataContainer.h lines 61-83 -/
  | add (b b' k v c) : kind.emplace b (k, Saver.setData τ Saver.empty v c) b' → MStep kind τ fromStr b (.add k v c) b' {}
  /-- AddDataFromDataSaver, DataContainer.h lines 91-94 -/
  | addSaver (b b' k d) : kind.emplace b (k, Saver.copy d) b' → MStep kind τ fromStr b (.addSaver k d) b' {}
  /-- SetData of a key that is not there, DataContainer.h lines 126-131 -/
  | setNew (b b' k v c) : b.Misses k → kind.emplace b (k, Saver.setData τ Saver.empty v c) b' → MStep kind τ fromStr b (.set k v c) b' {}
  /-- SetData of a key that is there, DataContainer.h lines 132-133 -/
  | setOld (b l s r k v c) : b.FindsAt k l s r → MStep kind τ fromStr b (.set k v c) (l ++ (k, s.setData τ v c) :: r) {}
  /-- SetDataFromDataSaver of a key that is not there, DataContainer.h lines 146-151 -/
  | setSaverNew (b b' k d) : b.Misses k → kind.emplace b (k, Saver.copy d) b' → MStep kind τ fromStr b (.setSaver k d) b' {}
  /-- SetDataFromDataSaver of a key that is there, DataContainer.h lines 152-153 -/
  | setSaverOld (b l s r k d) : b.FindsAt k l s r → MStep kind τ fromStr b (.setSaver k d) (l ++ (k, s.assign d) :: r) {}
  /-- SetDataFromString of a key that is not there, DataContainer.h line 173 -/
  | setStrNone (b k str) : b.Misses k → MStep kind τ fromStr b (.setStr k str) b { answer := some false }
  /-- SetDataFromString of a key that is there, DataContainer.h lines 166-171 -/
  | setStr (b l s r k str a s') : b.FindsAt k l s r → s.setDataFromString fromStr str = some (a, s') →
      MStep kind τ fromStr b (.setStr k str) (l ++ (k, s') :: r) { answer := some a }
  /-- EraseData of a key that is not there, DataContainer.h lines 257-258 -/
  | eraseNone (b k) : b.Misses k → MStep kind τ fromStr b (.erase k) b {}
  /-- EraseData of a key that is there, DataContainer.h lines 258-262 -/
  | erase (b l s r k) : b.FindsAt k l s r → MStep kind τ fromStr b (.erase k) (l ++ r) { deleted := s.customCall }
  /-- Clear, DataContainer.h lines 270-273: the destructor of DataSaver (DataSaver.cpp lines 97-101) calls no custom delete function -/
  | clear (b) : MStep kind τ fromStr b .clear [] {}

/-- A history of calls from the empty container: the calls with what they reported, and the container in the end. History of calls, models no single function: DataContainer.h lines 60-270. -/
inductive MReach (kind : Kind) (τ : V → Ty) (fromStr : Ty → List Char → Option V) : List (MOp K V Ty × MRes V) → Multi K V Ty → Prop
  | nil : MReach kind τ fromStr [] []
  | snoc (h b op b' r) : MReach kind τ fromStr h b → MStep kind τ fromStr b op b' r → MReach kind τ fromStr (h ++ [(op, r)]) b'

/-- `GetData(key, data)`, DataContainer.h lines 187-196: possible answers and contents of `data` afterwards. -/
inductive MGet (b : Multi K V Ty) (k : K) (T : Ty) (data : V) : Bool → V → Prop
  | missing : b.Misses k → MGet b k T data false data
  | found (l s r) : b.FindsAt k l s r → MGet b k T data true (s.getData T data).2

/-- `GetDataSaver(key, dataSaver)`, DataContainer.h lines 207-215: possible answers and contents of `dataSaver` afterwards. -/
inductive MGetSaver (b : Multi K V Ty) (k : K) (d : Saver V Ty) : Bool → Saver V Ty → Prop
  | missing : b.Misses k → MGetSaver b k d false d
  | found (l s r) : b.FindsAt k l s r → MGetSaver b k d true (d.assign s)

/-- `GetDataAsString(key, str)`, DataContainer.h lines 226-234: possible answers and contents of `str` afterwards. No outcome where Str is undefined. -/
inductive MGetStr (toStr : V → List Char) (b : Multi K V Ty) (k : K) (str : List Char) : Bool → List Char → Prop
  | missing : b.Misses k → MGetStr toStr b k str false str
  | found (l s r t) : b.FindsAt k l s r → s.str toStr = some t → MGetStr toStr b k str true t

/-- `IsData`, DataContainer.h lines 243-246. -/
def Multi.isData (b : Multi K V Ty) (k : K) : Bool := b.any (fun p => decide (p.1 = k))

/-- `Size`, DataContainer.h lines 280-283. -/
def Multi.size (b : Multi K V Ty) : Nat := b.length

/-- `GetAllData`, DataContainer.h lines 304-307 and 328-331: `equal_range`. In a tree this is what lies between the first entry whose key is not less than `key` and
the first entry whose key is greater; in a hash table it is the run of entries with the key that starts at the first of them. -/
def Kind.getAllData (kind : Kind) (b : Multi K V Ty) (k : K) : Multi K V Ty :=
  match kind with
  | .tree => (b.dropWhile (fun p => decide (p.1 < k))).takeWhile (fun p => decide (p.1 ≤ k))
  | .hash => (b.dropWhile (fun p => decide (p.1 ≠ k))).takeWhile (fun p => decide (p.1 = k))

end
end MVault.Cont
