import Verif.RecFairModel
/-
Copying and moving vaults while other threads work with them: which locks `Vault(const Vault&)`, `operator=(const Vault&)`, `Vault(Vault&&)` and `operator=(Vault&&)`
take, and the threads that run them beside other calls. The mutexes are those of MutexModel.lean, with their thread-local counters shared by all vaults.
-/
namespace MVault.Mtx
variable {T : Type} [DecidableEq T] {M : Type} [DecidableEq M]

/-- One RAII lock coming into being or going out of scope. ReadWriteMutex.h lines 122-255. -/
inductive LockOp (M : Type)
  | lock (k : Kind) (m : M)   -- a `ReadLock<>` or `WriteLock<>` object is made
  | unlock                    -- the innermost lock object goes out of scope
  deriving DecidableEq, Repr

/-- The locks of the `n` key copiers run with the vault `p`: each one calls `p->AddKey`, which holds the write lock of `p`. Vault.hpp lines 519-522, 335. -/
def keyCopies (p : M) (n : Nat) : List (LockOp M) := (List.replicate n [.lock .W p, .unlock]).flatten

/-- `Vault p(h)`: the read lock of `h`, then the key copiers of the `n` keys of `h`. Vault.cpp lines 189-219 (lock 193, copiers 198-199). -/
def copyNew (h p : M) (n : Nat) : List (LockOp M) := [.lock .R h] ++ keyCopies p n ++ [.unlock]

/-- `a = b`, two different vaults: `DropVault` (write lock of `a`), then the read locks of `a` and of `b`, then the key copiers. Simplified: what `DropVault`
locks besides while it holds the write lock of `a` is only counted. Vault.cpp lines 221-259 (227, 229, 230, 235-236), 541-601. -/
def copyAssign (a b : M) (n : Nat) : List (LockOp M) :=
  [.lock .W a, .unlock, .lock .R a, .lock .R b] ++ keyCopies a n ++ [.unlock, .unlock]

/-- `Vault p(std::move(h))`: the read lock of `h`. Vault.cpp lines 261-283 (265). -/
def moveNew (h : M) : List (LockOp M) := [.lock .R h, .unlock]

/-- `a = std::move(b)`, two different vaults: `DropVault`, then the read lock of `b`. Vault.cpp lines 285-314 (291, 293). -/
def moveAssign (a b : M) : List (LockOp M) := [.lock .W a, .unlock, .lock .R b, .unlock]

/-- The locks a thread holds after a program of lock operations, innermost first. ReadWriteMutex.h lines 122-255. -/
def held : List (LockOp M) → List (Kind × M) → List (Kind × M)
  | [], l => l
  | .lock k m :: r, l => held r ((k, m) :: l)
  | .unlock :: r, l => held r l.tail

/-- Who can reach a vault: nobody yet, only the thread that is constructing it, or all threads. Ghost state, models no code. -/
inductive Own (T : Type)
  | unborn
  | of (t : T)
  | shared
  deriving DecidableEq

/-- The mutexes with who can reach their vaults. ReadWriteMutex.cpp lines 67-132. -/
structure CSys (M T : Type) where
  sys : Sys M T
  own : M → Own T

/-- When the rules let thread `t`, which holds the locks `l` (innermost first), ask for the lock `k` of `m`:
it holds a write lock already; or a read lock and asks for another read lock (in both cases the library only counts, ReadWriteMutex.cpp lines 80-87, 110-118);
or it holds nothing and the vault is one all threads can reach;
or it asks for the write lock of the vault whose lock it took first;
or for the write lock of a vault that only it can reach, because it is constructing it. -/
def May (own : M → Own T) (t : T) (l : List (Kind × M)) (k : Kind) (m : M) : Prop :=
  (∃ e ∈ l, e.1 = .W) ∨ (l ≠ [] ∧ k = .R) ∨ (l = [] ∧ own m = .shared) ∨
    (k = .W ∧ l.getLast?.map Prod.snd = some m) ∨ (k = .W ∧ l ≠ [] ∧ own m = .of t)

/-- In the step from `s` to `s'` thread `t` asks for the lock `k` of `m`. ReadWriteMutex.cpp lines 76-120. -/
def Asks (s s' : Sys M T) (t : T) (k : Kind) (m : M) : Prop :=
  s.job t = .free ∧ (s'.stack t = (k, m) :: s.stack t ∨ (k = .R ∧ s'.job t = .rl m) ∨ (k = .W ∧ (s'.job t = .wl m ∨ s'.job t = .wlRelease m)))

/-- Steps: threads lock and unlock as the rules allow; a thread begins to construct a vault; it has finished, from now on all threads can reach the vault
(the thread is in no call and holds no lock of it; `pc`, where the threads stand with respect to the new mutex, starts afresh: it is not part of the program's memory).
Vault.cpp lines 189-219, ReadWriteMutex.cpp lines 76-132. -/
inductive CStep (sp : Bool) : CSys M T → CSys M T → Prop
  | act (c s') : SStep sp c.sys s' → (∀ t k m, Asks c.sys s' t k m → May c.own t (c.sys.stack t) k m) → CStep sp c { c with sys := s' }
  | start (c t p) : c.own p = .unborn → CStep sp c { c with own := upd c.own p (.of t) }
  | finish (c t p) : c.own p = .of t → c.sys.job t = .free → (∀ e ∈ c.sys.stack t, e.2 ≠ p) →
      CStep sp c { sys := { c.sys with inner := upd c.sys.inner p { c.sys.inner p with pc := fun _ => .idle } }, own := upd c.own p .shared }

/-- Reachable states: at first every vault is shared or not yet made, and nobody holds a lock. History, models no single function: ReadWriteMutex.cpp lines 5-9, 67-132. -/
inductive CReach (sp : Bool) : CSys M T → Prop
  | init (own) : (∀ m t, own m ≠ .of t) → CReach sp ⟨Sys.init M T, own⟩
  | step (c c') : CReach sp c → CStep sp c c' → CReach sp c'

end MVault.Mtx
