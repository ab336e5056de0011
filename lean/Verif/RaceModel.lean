import Verif.MutexModel
/-
Which memory the methods of a vault, its references and its sets touch, and under which lock of the vault: a table with one entry per public method, read off
Source/Vault.cpp, Vault.hpp, VaultRecordRef.cpp, VaultRecordRef.hpp, VaultRecordSet.cpp and VaultRecordSet.hpp, and threads that run these methods concurrently,
with the vault's recursive reader/writer mutex of `MutexModel`.
Not in the table: what the record's own mutex protects (`RefCounter`, `IsValid`, `dependentVaultRecordSets`, VaultRecord.cpp lines 67-139), references themselves
(each is used by one thread), and methods of sets whose parent is another vault.
-/
namespace MVault.Race
open MVault.Mtx

/-- Shared memory of one vault. `Z` names the sets attached to it. Vault.h lines 38-113. -/
inductive Loc (Z : Type)
  /-- `RecordsSet`, both index structures, key tables, template, function tables of the vault, Vault.h lines 37-110. -/
  | index
  /-- The data inside the records. -/
  | cells
  /-- `RecordSetsSet`, the vault's list of dependent sets. -/
  | kids
  /-- `InvalidFileRecords`. -/
  | errs
  /-- The same fields of the set object `z`. -/
  | set (z : Z)
  /-- `ParentVault` of the set object `z`. -/
  | parent (z : Z)
  deriving DecidableEq

/-- What a piece of code does with a location. Vault.cpp, Vault.hpp, VaultRecordSet.cpp: see the table `Meth.sections`. -/
inductive Touch | no | reads | writes deriving DecidableEq

/-- A piece of a method between taking and releasing the vault's lock (`lock = none`: a piece that runs without it). Vault.cpp, Vault.hpp, VaultRecordSet.cpp: see the table `Meth.sections`. -/
structure Section (Z : Type) where
  lock : Option Kind
  touch : Loc Z → Touch

/-- Public methods. Vault.h, VaultRecordSet.h: see the table `Meth.sections`. -/
inductive Meth (Z : Type)
  | addKey | updateKey | removeKey | keyInfo | createRecord | readFile | eraseRecord | dropData | dropVault | lookup | request (z : Z) | getErrors
  | copyFrom | assignFrom | copyTo | moveFrom | moveTo | refSetData | refGetData
  | setAdd (z : Z) | setRemove (z : Z) | setRead (z : Z) | setClear (z : Z) | setReset (z : Z) | setCombine (z a : Z) | setCopy (z a : Z) | setMove (z a : Z) | setIntersection (z a b : Z)
  | setEq (a b : Z)

variable {Z : Type} [DecidableEq Z]

/-- A set method starts by reading `ParentVault` without a lock (`GetIsParentVaultValid`, VaultRecordSet.cpp lines 131-136). -/
def checkParent (z : Z) : Section Z := ⟨none, fun l => if l = .parent z then .reads else .no⟩

/-- The table. The lines are given with `lookup`, `createRecord` and the other pieces above (Vault.cpp, Vault.hpp, VaultRecordSet.cpp). -/
def Meth.sections : Meth Z → List (Section Z)
  -- AddKey, AddUniqueKey: Vault.hpp lines 324-539, lock line 335; new key in every record and every dependent set
  | .addKey => [⟨some .W, fun | .index => .writes | .cells => .writes | .kids => .reads | .errs => .no | .set _ => .writes | .parent _ => .no⟩]
  -- UpdateKey: Vault.hpp lines 573-622, lock line 587
  | .updateKey => [⟨some .W, fun | .index => .writes | _ => .no⟩]
  -- RemoveKey: Vault.cpp lines 370-426, lock line 374
  | .removeKey => [⟨some .W, fun | .index => .writes | .cells => .writes | .kids => .reads | .errs => .no | .set _ => .writes | .parent _ => .no⟩]
  -- IsKeyExist, GetKeyType, GetKeys, GetUniqueKeys, Size, GetKeyValue: Vault.cpp lines 316-368, 639-649, Vault.hpp lines 624-669; read lock
  | .keyInfo => [⟨some .R, fun | .index => .reads | _ => .no⟩]
  -- CreateRecord: Vault.cpp lines 428-539, lock line 443
  | .createRecord => [⟨some .W, fun | .index => .writes | .cells => .writes | _ => .no⟩]
  -- ReadFile: Vault.cpp lines 40-180, lock line 47
  | .readFile => [⟨some .W, fun | .index => .writes | .cells => .writes | .errs => .writes | _ => .no⟩]
  -- EraseRecord, EraseRecords: Vault.cpp lines 9-38, 626-637, Vault.hpp lines 937-1088; write lock; erased records leave the dependent sets
  | .eraseRecord => [⟨some .W, fun | .index => .writes | .cells => .reads | .kids => .no | .errs => .no | .set _ => .writes | .parent _ => .no⟩]
  -- DropData: Vault.cpp lines 603-624, lock line 608
  | .dropData => [⟨some .W, fun | .index => .writes | .cells => .no | .kids => .reads | .errs => .no | .set _ => .writes | .parent _ => .no⟩]
  -- DropVault: Vault.cpp lines 541-601, lock line 546; dependent sets are reset
  | .dropVault => [⟨some .W, fun | .cells => .no | _ => .writes⟩]
  -- GetRecord, GetRecords, GetSortedRecords, SortBy, ToJson, ToStrings, Print, SaveToFile: Vault.hpp lines 671-791, Vault.cpp lines 651-1032; read lock
  | .lookup => [⟨some .R, fun | .index => .reads | .cells => .reads | _ => .no⟩]
  -- RequestEqual ... RequestInterval, Request: Vault.hpp lines 271-322, 874-935, read lock lines 281, 884; the target is registered in RecordSetsSet (lines 287, 890)
  | .request z => [⟨some .R, fun l => if l = .index ∨ l = .cells then .reads else if l = .kids ∨ l = .set z ∨ l = .parent z then .writes else .no⟩]
  -- GetErrorsInLastReadedFile: Vault.cpp lines 1048-1053, no lock
  | .getErrors => [⟨none, fun | .errs => .reads | _ => .no⟩]
  -- the source of a copy constructor: Vault.cpp lines 189-219, read lock line 193
  | .copyFrom => [⟨some .R, fun | .index => .reads | .cells => .reads | _ => .no⟩]
  -- the source of an assignment: Vault.cpp lines 221-259. The read lock of line 230 has no effect: the thread holds the read lock of the target (line 229), and the counters of
  -- a thread are shared by all vaults (C43_refuted_nested; C104_assign_source_refuted has the schedule)
  | .assignFrom => [⟨none, fun | .index => .reads | .cells => .reads | _ => .no⟩]
  -- the target of an assignment: Vault.cpp lines 221-259: DropVault, AddKey for every key, and the rest under the read lock of line 229
  | .copyTo => [⟨some .W, fun | .cells => .no | _ => .writes⟩, ⟨some .W, fun | .index => .writes | .kids => .reads | _ => .no⟩,
      ⟨some .R, fun | .index => .writes | .cells => .writes | _ => .no⟩]
  -- the source of a move: Vault.cpp lines 261-314, read locks lines 265, 293
  | .moveFrom => [⟨some .R, fun | .index => .writes | .kids => .writes | .errs => .writes | _ => .no⟩]
  -- the target of a move assignment: Vault.cpp lines 285-314: DropVault, and the rest without a lock of its own (line 293 locks the other vault)
  | .moveTo => [⟨some .W, fun | .cells => .no | _ => .writes⟩, ⟨none, fun | .index => .writes | .kids => .writes | .errs => .writes | _ => .no⟩]
  -- SetData: VaultRecordRef.hpp lines 9-43 (lock 29), VaultRecordRef.cpp lines 151-166 (lock 157), Vault.hpp lines 12-126; dependent sets are updated
  | .refSetData => [⟨some .W, fun | .index => .writes | .cells => .writes | .kids => .no | .errs => .no | .set _ => .writes | .parent _ => .no⟩]
  -- GetData, GetDataAsString, GetKeys, IsKeyExist, ToJson, ToStrings, PrintRecord: VaultRecordRef.hpp lines 45-96, VaultRecordRef.cpp lines 168-366; read lock
  | .refGetData => [⟨some .R, fun | .index => .reads | .cells => .reads | _ => .no⟩]
  -- AddRecord: VaultRecordSet.cpp lines 179-228, read lock line 187
  | .setAdd z => [checkParent z, ⟨some .R, fun l => if l = .set z then .writes else if l = .cells then .reads else .no⟩]
  -- RemoveRecord, RemoveRecords: VaultRecordSet.cpp lines 278-286, VaultRecordSet.hpp lines 250-306, read lock lines 284, 265, 292
  | .setRemove z => [checkParent z, ⟨some .R, fun l => if l = .set z then .writes else if l = .cells then .reads else .no⟩]
  -- GetKeyType, CheckRecord, Size, GetSortedRecords, ToJson, ToStrings, Print, SaveToFile, GetKeyValue, GetRecord(s), SortBy, GetKeys, IsKeyExist: read lock
  | .setRead z => [checkParent z, ⟨some .R, fun l => if l = .set z ∨ l = .cells ∨ l = .index then .reads else .no⟩]
  -- Clear: VaultRecordSet.cpp lines 260-277, no lock
  | .setClear z => [checkParent z, ⟨none, fun l => if l = .set z then .writes else .no⟩]
  -- Reset and the destructor: VaultRecordSet.cpp lines 244-258, 553-558, write lock line 250
  | .setReset z => [checkParent z, ⟨some .W, fun l => if l = .set z ∨ l = .parent z ∨ l = .kids then .writes else .no⟩]
  -- Join, Exclude, Intersect: VaultRecordSet.cpp lines 383-535, read lock lines 418, 470, 520
  | .setCombine z a => [checkParent z, checkParent a, ⟨some .R, fun l => if l = .set z then .writes else if l = .set a ∨ l = .cells then .reads else .no⟩]
  -- copy constructor, assignment, CopySet: VaultRecordSet.cpp lines 13-42, 86-107, write lock line 17
  | .setCopy z a => [checkParent a, ⟨some .W, fun l => if l = .set z ∨ l = .parent z ∨ l = .kids then .writes else if l = .set a ∨ l = .cells then .reads else .no⟩]
  -- move constructor, move assignment, MoveSet: VaultRecordSet.cpp lines 45-75, 109-129, write lock line 49; `a` is emptied and detached
  | .setMove z a => [checkParent a, ⟨some .W, fun l => if l = .set z ∨ l = .parent z ∨ l = .set a ∨ l = .parent a ∨ l = .kids then .writes else if l = .cells then .reads else .no⟩]
  -- Intersection: VaultRecordSet.cpp lines 619-699, read lock line 649; the result is registered in RecordSetsSet (line 663)
  | .setIntersection z a b => [checkParent z, checkParent a, checkParent b,
      ⟨some .R, fun l => if l = .set z ∨ l = .parent z ∨ l = .kids then .writes else if l = .set a ∨ l = .set b ∨ l = .cells then .reads else .no⟩]
  -- operator== and operator!=: VaultRecordSet.cpp lines 560-584, no lock
  | .setEq a b => [⟨none, fun l => if l = .set a ∨ l = .set b ∨ l = .parent a ∨ l = .parent b then .reads else .no⟩]

/-- The lock and, for every thread, the piece of a method it is in. ReadWriteMutex.cpp lines 67-132. -/
structure RSt (Z T : Type) where
  sys : Sys Unit T
  at_ : T → Option (Section Z)

variable {T : Type} [DecidableEq T]

/-- Nobody has done anything yet. ReadWriteMutex.cpp lines 5-9. -/
def RSt.init (Z T : Type) : RSt Z T := ⟨Sys.init Unit T, fun _ => none⟩

/-- Thread `t` has the lock it needs for a piece of a method: a write lock, any lock, or nothing. ReadWriteMutex.cpp lines 67-132. -/
def has (s : Sys Unit T) (t : T) : Option Kind → Prop
  | some .W => s.job t = .free ∧ (Kind.W, ()) ∈ s.stack t
  | some .R => s.job t = .free ∧ s.stack t ≠ []
  | none => True

/-- Steps. `may t m` says that thread `t` calls method `m`. ReadWriteMutex.cpp lines 67-132 around the pieces of the table. -/
inductive RStep (may : T → Meth Z → Prop) : RSt Z T → RSt Z T → Prop
  /-- A step of a thread on the vault's lock; a thread inside a piece of a method that needs the lock keeps it. -/
  | lock (c : RSt Z T) (s' : Sys Unit T) : SStep false c.sys s' →
      (∀ t x, c.at_ t = some x → x.lock ≠ none → s'.stack t = c.sys.stack t ∧ s'.job t = c.sys.job t) → RStep may c { c with sys := s' }
  /-- A thread enters a piece of a method it calls. -/
  | enter (c : RSt Z T) (t : T) (m : Meth Z) (x : Section Z) : may t m → x ∈ m.sections → c.at_ t = none → has c.sys t x.lock →
      RStep may c { c with at_ := upd c.at_ t (some x) }
  /-- A thread leaves it. -/
  | leave (c : RSt Z T) (t : T) : RStep may c { c with at_ := upd c.at_ t none }

/-- Reachable states. History of calls, models no single function: ReadWriteMutex.cpp lines 67-132. -/
inductive RReach (may : T → Meth Z → Prop) : RSt Z T → Prop
  | init : RReach may (RSt.init Z T)
  | step (c c' : RSt Z T) : RReach may c → RStep may c c' → RReach may c'

end MVault.Race
