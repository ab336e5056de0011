import Verif.LifeModel
/-
Model of a vault with any number of records used by any number of threads: one recursive reader/writer mutex (`MVault.Mtx.Sys`) and, for each record,
the state of `LifeModel.lean`. Every thread runs at most one method of one record at a time.
-/
namespace MVault.Life
open MVault.Mtx

/-- A vault with its mutex (Vault.h, `RecursiveReadWriteMtx`) and its records (VaultRecord.h lines 14-30), used by threads `T`; `R` names all records that
are ever created. -/
structure Many (R T : Type) where
  sys : Sys Unit T
  recs : R → Life T

section
variable {R T : Type} [DecidableEq R] [DecidableEq T]

/-- The vault and one of its records. Vault.h line 110. -/
def Many.view (c : Many R T) (r : R) : Conc T := ⟨c.sys, c.recs r⟩

/-- Before any record is created. VaultRecord.h lines 20-24. -/
def Many.init (R T : Type) : Many R T := ⟨Sys.init Unit T, fun _ => (Conc.init T).life⟩

/-- Steps of all threads: on the vault's mutex, or one statement of a method of record `r` (`CStep`: VaultRecord.cpp lines 60-115, VaultRecordRef.cpp lines
7-96, 211-373, Vault.cpp lines 9-38, 443-528, 541-624). A thread begins a method of a record only when it is in no method of another one. -/
inductive MStep : Many R T → Many R T → Prop
  | lock (c : Many R T) (s' : Sys Unit T) : SStep false c.sys s' →
      (∀ r t, ((c.recs r).pc t).busy = true → s'.stack t = c.sys.stack t ∧ s'.job t = c.sys.job t) → MStep c ⟨s', c.recs⟩
  | record (c : Many R T) (r : R) (l : Life T) : CStep (c.view r) ⟨c.sys, l⟩ →
      (∀ t, (c.recs r).pc t = .idle → l.pc t ≠ .idle → ∀ r', (c.recs r').pc t = .idle) → MStep c ⟨c.sys, upd c.recs r l⟩

/-- Reachable states. History of calls, models no single function: VaultRecord.cpp lines 67-140. -/
inductive MReach : Many R T → Prop
  | init : MReach (Many.init R T)
  | step (c c') : MReach c → MStep c c' → MReach c'

end
end MVault.Life
