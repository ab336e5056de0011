import Verif.MutexModel
/-
Model of methods of one vault that are called by several threads at the same time. A method body is a list of statements that run one at a time, interleaved
with those of the other threads, on the shared data; it runs while the thread holds the vault's recursive reader/writer lock (`MVault.Mtx.Sys`, one mutex).
-/
namespace MVault.Lin
open MVault.Mtx

/-- A method body: the kind of lock it holds from its first to its last statement, its local variables at the start, its statements on the shared data and the
local variables, and the value it returns. The locking frame of the methods of Vault.cpp and Vault.hpp (`ReadLock<RecursiveReadWriteMutex>` / `WriteLock<...>` as first statement, for example Vault.cpp lines 316-324). -/
structure Prog (S L A : Type) where
  kind : Kind
  start : L
  steps : List (S × L → S × L)
  result : L → A

/-- All statements, without interruption. The locking frame of the methods of Vault.cpp and Vault.hpp (`ReadLock<RecursiveReadWriteMutex>` / `WriteLock<...>` as first statement, for example Vault.cpp lines 316-324). -/
def exec {S L : Type} (fs : List (S × L → S × L)) (x : S × L) : S × L := fs.foldl (fun y f => f y) x

/-- Where a thread is: outside of a method body, or in one with these statements left and these local variables. The locking frame of the methods of Vault.cpp and Vault.hpp (`ReadLock<RecursiveReadWriteMutex>` / `WriteLock<...>` as first statement, for example Vault.cpp lines 316-324). -/
inductive Th (S L A : Type)
  | idle
  | run (p : Prog S L A) (rest : List (S × L → S × L)) (l : L)

/-- Shared data, the lock, the threads, and the list of method bodies completed so far with the values they return (ghost). The locking frame of the methods of Vault.cpp and Vault.hpp (`ReadLock<RecursiveReadWriteMutex>` / `WriteLock<...>` as first statement, for example Vault.cpp lines 316-324). -/
structure St (S L A T : Type) where
  sys : Sys Unit T
  data : S
  th : T → Th S L A
  log : List (Prog S L A × A)

variable {S L A T : Type} [DecidableEq T]

/-- Nobody has done anything yet. The locking frame of the methods of Vault.cpp and Vault.hpp (`ReadLock<RecursiveReadWriteMutex>` / `WriteLock<...>` as first statement, for example Vault.cpp lines 316-324). -/
def St.init (s0 : S) : St S L A T := ⟨Sys.init Unit T, s0, fun _ => .idle, []⟩

/-- Thread `t` holds the lock a body of kind `k` needs: a write lock, or any lock. The locking frame of the methods of Vault.cpp and Vault.hpp (`ReadLock<RecursiveReadWriteMutex>` / `WriteLock<...>` as first statement, for example Vault.cpp lines 316-324). -/
def holdsFor (s : Sys Unit T) (t : T) : Kind → Prop
  | .W => s.job t = .free ∧ (Kind.W, ()) ∈ s.stack t
  | .R => s.job t = .free ∧ s.stack t ≠ []

/-- Steps. `ok` says which bodies the threads may run. The locking frame of the methods of Vault.cpp and Vault.hpp (`ReadLock<RecursiveReadWriteMutex>` / `WriteLock<...>` as first statement, for example Vault.cpp lines 316-324). -/
inductive LStep (ok : Prog S L A → Prop) : St S L A T → St S L A T → Prop
  /-- Any step of any thread on the lock; a thread inside a body keeps its locks. -/
  | lock (c : St S L A T) (s' : Sys Unit T) : SStep false c.sys s' →
      (∀ t p rest l, c.th t = .run p rest l → s'.stack t = c.sys.stack t ∧ s'.job t = c.sys.job t) → LStep ok c { c with sys := s' }
  /-- A thread that has the lock begins a body. -/
  | begin (c : St S L A T) (t : T) (p : Prog S L A) : ok p → c.th t = .idle → holdsFor c.sys t p.kind →
      LStep ok c { c with th := upd c.th t (.run p p.steps p.start) }
  /-- One statement. -/
  | exec (c : St S L A T) (t : T) (p : Prog S L A) (f : S × L → S × L) (rest : List (S × L → S × L)) (l : L) : c.th t = .run p (f :: rest) l →
      LStep ok c { c with data := (f (c.data, l)).1, th := upd c.th t (.run p rest (f (c.data, l)).2) }
  /-- The body is complete. -/
  | finish (c : St S L A T) (t : T) (p : Prog S L A) (l : L) : c.th t = .run p [] l →
      LStep ok c { c with th := upd c.th t .idle, log := c.log ++ [(p, p.result l)] }

/-- Runs. The locking frame of the methods of Vault.cpp and Vault.hpp (`ReadLock<RecursiveReadWriteMutex>` / `WriteLock<...>` as first statement, for example Vault.cpp lines 316-324). -/
inductive LRun (ok : Prog S L A → Prop) : St S L A T → St S L A T → Prop
  | refl (c) : LRun ok c c
  | step (c c' c'') : LRun ok c c' → LStep ok c' c'' → LRun ok c c''

end MVault.Lin
