import Verif.MutexModel
/-
Model of the lifetime of one `VaultRecord` used by any number of threads: `AddRef`, `RemoveRef`, `Invalidate` and `GetIsValid`
(Source/VaultRecord.cpp), one transition per statement, composed with the model of the recursive reader/writer mutex of its vault
(`MVault.Mtx.Sys`, one mutex). The record's own `std::recursive_mutex` is a lock with an owner; re-locking by its owner (`GetIsValid`
inside `ToJson`, `ToStrings`, `PrintRecord`) is part of one transition.
-/
namespace MVault.Life
open MVault.Mtx

/-- Where a thread is in a method of the record. Comments give the *next* statement. VaultRecord.cpp lines 67-140. -/
inductive LPc
  | idle
  | ar1            -- AddRef, VaultRecord.cpp line 69: VaultRecordMutex.lock()
  | ar2            -- line 70: ++RefCounter
  | ar3            -- line 71: VaultRecordMutex.unlock()
  | rr1            -- RemoveRef, line 79: VaultRecordMutex.lock()
  | rr2            -- line 80: --RefCounter
  | rr3            -- line 81: if (!IsValid && RefCounter == 0) isEnd = true
  | rr4 (e : Bool) -- line 82: VaultRecordMutex.unlock()
  | rr5 (e : Bool) -- line 84: if (isEnd) delete this
  | iv1            -- Invalidate, line 92: VaultRecordMutex.lock()
  | iv2            -- line 93: IsValid = false
  | iv3            -- line 94: if (RefCounter == 0) isEnd = true
  | iv4 (e : Bool) -- line 95: VaultRecordMutex.unlock()
  | iv5 (e : Bool) -- line 97: if (isEnd) delete this
  | gv1            -- GetIsValid, line 105: VaultRecordMutex.lock()
  | gv2            -- line 106: res = IsValid
  | gv3            -- line 107: VaultRecordMutex.unlock()
  | us1            -- any other access to the record: VaultRecordPtr->GetData (VaultRecordRef.hpp line 92), SetData (Vault.hpp lines 12-126)
  | tj1            -- VaultRecordRef::PrintRecord, ToJson, ToStrings (VaultRecordRef.cpp lines 255, 302, 345): VaultRecordMutex.lock()
  | tj2            -- lines 257-273, 304-326, 347-361: GetIsValid, ReadLock of the vault, reading the record, ReadUnlock
  | tj3            -- lines 276, 328, 363: VaultRecordMutex.unlock()
  deriving DecidableEq, Repr

/-- State of the record and of the methods running on it. `made`, `inVault` (is it in the vault's `RecordsSet`), `freed` and `owners` (one entry
per `VaultRecordRef` that counts: the thread that uses this reference) describe the world around the record. VaultRecord.h lines 20-30. -/
structure Life (T : Type) where
  pc : T → LPc
  mtx : Option T
  valid : Bool
  cnt : Nat
  made : Bool
  inVault : Bool
  freed : Bool
  owners : List T

/-- A vault with its mutex and one record, used by threads `T`. VaultRecord.h lines 20-30, Vault.h lines 96-113. -/
structure Conc (T : Type) where
  sys : Sys Unit T
  life : Life T

section
variable {T : Type} [DecidableEq T]

/-- Before the record is created. VaultRecord.h lines 20-24: `IsValid = true`, `RefCounter = 0`. -/
def Conc.init (T : Type) : Conc T := ⟨Sys.init Unit T, ⟨fun _ => .idle, none, true, 0, false, false, false, []⟩⟩

/-- Thread `t` holds some lock of the vault. ReadWriteMutex.cpp lines 67-132. -/
def Conc.locked (c : Conc T) (t : T) : Prop := c.sys.job t = .free ∧ c.sys.stack t ≠ []

/-- Thread `t` holds a write lock of the vault. ReadWriteMutex.cpp lines 67-132. -/
def Conc.writes (c : Conc T) (t : T) : Prop := c.sys.job t = .free ∧ (Kind.W, ()) ∈ c.sys.stack t

/-- Thread `t` may use the pointer to the record: it has a reference, or it holds a lock of the vault and finds the record there. VaultRecordRef.h line 27, Vault.h line 110. -/
def Conc.reaches (c : Conc T) (t : T) : Prop := t ∈ c.life.owners ∨ (c.locked t ∧ c.life.inVault = true)

/-- The thread is in a method of the record in which it takes or releases no lock of the vault. VaultRecord.cpp lines 67-140. -/
def LPc.busy : LPc → Bool
  | .idle => false
  | .tj2 => false
  | _ => true

/-- Move thread `t`. VaultRecord.cpp lines 67-140. -/
def Life.goto (l : Life T) (t : T) (p : LPc) : Life T := { l with pc := upd l.pc t p }

/-- Steps of all threads. VaultRecord.cpp lines 67-140, ReadWriteMutex.cpp lines 67-132. -/
inductive CStep : Conc T → Conc T → Prop
  /-- Any step of any thread on the vault's mutex (no spurious wake-ups); a thread that is inside a method of the record does not take part. -/
  | lock (c : Conc T) (s' : Sys Unit T) : SStep false c.sys s' →
      (∀ t, (c.life.pc t).busy = true → s'.stack t = c.sys.stack t ∧ s'.job t = c.sys.job t) → CStep c ⟨s', c.life⟩
  /-- Vault::CreateRecord, Vault.cpp lines 443-528: under the write lock a new record is put into the vault. -/
  | create (c : Conc T) (t : T) : c.life.pc t = .idle → c.writes t → c.life.made = false →
      CStep c ⟨c.sys, { c.life with made := true, inVault := true }⟩
  /-- VaultRecordRef::SetRecord on a record found in the vault under a lock (VaultRecordRef.cpp lines 7-20; CreateRecord, GetRecord, GetRecords,
  GetSortedRecords, SortBy), or a copy of a reference the thread has (lines 50-72). -/
  | addRef (c : Conc T) (t : T) : c.life.pc t = .idle → c.reaches t → CStep c ⟨c.sys, c.life.goto t .ar1⟩
  | ar1 (c : Conc T) (t : T) : c.life.pc t = .ar1 → c.life.mtx = none → CStep c ⟨c.sys, { c.life.goto t .ar2 with mtx := some t }⟩
  | ar2 (c : Conc T) (t : T) : c.life.pc t = .ar2 → CStep c ⟨c.sys, { c.life.goto t .ar3 with cnt := c.life.cnt + 1, owners := t :: c.life.owners }⟩
  | ar3 (c : Conc T) (t : T) : c.life.pc t = .ar3 → CStep c ⟨c.sys, { c.life.goto t .idle with mtx := none }⟩
  /-- Reset, assignment or destructor of a reference the thread has (VaultRecordRef.cpp lines 281-290, 50-96, 368-373). -/
  | removeRef (c : Conc T) (t : T) : c.life.pc t = .idle → t ∈ c.life.owners → CStep c ⟨c.sys, c.life.goto t .rr1⟩
  | rr1 (c : Conc T) (t : T) : c.life.pc t = .rr1 → c.life.mtx = none → CStep c ⟨c.sys, { c.life.goto t .rr2 with mtx := some t }⟩
  | rr2 (c : Conc T) (t : T) : c.life.pc t = .rr2 → CStep c ⟨c.sys, { c.life.goto t .rr3 with cnt := c.life.cnt - 1, owners := c.life.owners.erase t }⟩
  | rr3 (c : Conc T) (t : T) : c.life.pc t = .rr3 → CStep c ⟨c.sys, c.life.goto t (.rr4 (!c.life.valid && c.life.cnt == 0))⟩
  | rr4 (c : Conc T) (t : T) (e : Bool) : c.life.pc t = .rr4 e → CStep c ⟨c.sys, { c.life.goto t (.rr5 e) with mtx := none }⟩
  | rr5 (c : Conc T) (t : T) (e : Bool) : c.life.pc t = .rr5 e → CStep c ⟨c.sys, { c.life.goto t .idle with freed := if e then true else c.life.freed }⟩
  /-- A reference is handed to another thread (for example a `VaultRecordRef` moved into a thread or returned from it). -/
  | handOver (c : Conc T) (t u : T) : c.life.pc t = .idle → c.life.pc u = .idle → t ∈ c.life.owners →
      CStep c ⟨c.sys, { c.life with owners := u :: c.life.owners.erase t }⟩
  /-- Vault::RemoveRecord, DropVault, DropData (Vault.cpp lines 9-38, 541-624): under the write lock the record leaves the vault and is invalidated. -/
  | erase (c : Conc T) (t : T) : c.life.pc t = .idle → c.writes t → c.life.inVault = true →
      CStep c ⟨c.sys, { c.life.goto t .iv1 with inVault := false }⟩
  | iv1 (c : Conc T) (t : T) : c.life.pc t = .iv1 → c.life.mtx = none → CStep c ⟨c.sys, { c.life.goto t .iv2 with mtx := some t }⟩
  | iv2 (c : Conc T) (t : T) : c.life.pc t = .iv2 → CStep c ⟨c.sys, { c.life.goto t .iv3 with valid := false }⟩
  | iv3 (c : Conc T) (t : T) : c.life.pc t = .iv3 → CStep c ⟨c.sys, c.life.goto t (.iv4 (c.life.cnt == 0))⟩
  | iv4 (c : Conc T) (t : T) (e : Bool) : c.life.pc t = .iv4 e → CStep c ⟨c.sys, { c.life.goto t (.iv5 e) with mtx := none }⟩
  | iv5 (c : Conc T) (t : T) (e : Bool) : c.life.pc t = .iv5 e → CStep c ⟨c.sys, { c.life.goto t .idle with freed := if e then true else c.life.freed }⟩
  /-- VaultRecordRef::IsValid, GetData, SetData ... (VaultRecordRef.cpp lines 211-220; VaultRecordRef.hpp lines 29-95). -/
  | getIsValid (c : Conc T) (t : T) : c.life.pc t = .idle → c.reaches t → CStep c ⟨c.sys, c.life.goto t .gv1⟩
  | gv1 (c : Conc T) (t : T) : c.life.pc t = .gv1 → c.life.mtx = none → CStep c ⟨c.sys, { c.life.goto t .gv2 with mtx := some t }⟩
  | gv2 (c : Conc T) (t : T) : c.life.pc t = .gv2 → CStep c ⟨c.sys, c.life.goto t .gv3⟩
  | gv3 (c : Conc T) (t : T) : c.life.pc t = .gv3 → CStep c ⟨c.sys, { c.life.goto t .idle with mtx := none }⟩
  /-- Any other access to the record. -/
  | use (c : Conc T) (t : T) : c.life.pc t = .idle → c.reaches t → CStep c ⟨c.sys, c.life.goto t .us1⟩
  | us1 (c : Conc T) (t : T) : c.life.pc t = .us1 → CStep c ⟨c.sys, c.life.goto t .idle⟩
  /-- VaultRecordRef::PrintRecord, ToJson, ToStrings (VaultRecordRef.cpp lines 249-279, 292-335, 337-366). -/
  | toJson (c : Conc T) (t : T) : c.life.pc t = .idle → t ∈ c.life.owners → CStep c ⟨c.sys, c.life.goto t .tj1⟩
  | tj1 (c : Conc T) (t : T) : c.life.pc t = .tj1 → c.life.mtx = none → CStep c ⟨c.sys, { c.life.goto t .tj2 with mtx := some t }⟩
  | tj2 (c : Conc T) (t : T) : c.life.pc t = .tj2 → c.sys.job t = .free → CStep c ⟨c.sys, c.life.goto t .tj3⟩
  | tj3 (c : Conc T) (t : T) : c.life.pc t = .tj3 → CStep c ⟨c.sys, { c.life.goto t .idle with mtx := none }⟩

/-- Reachable states. History of calls, models no single function: VaultRecord.cpp lines 67-140. -/
inductive CReach : Conc T → Prop
  | init : CReach (Conc.init T)
  | step (c c') : CReach c → CStep c c' → CReach c'

end
end MVault.Life
