import Verif.MutexModel
/-
Infinite executions of threads that lock and unlock vaults: `RecursiveReadWriteMutex` (the lock inside every `Vault`), who acts when, fairness of the scheduler and of
`std::mutex`, and clients that do not keep locks for ever.
-/
namespace MVault.Mtx
variable {T : Type} [DecidableEq T] {M : Type} [DecidableEq M]

/-- Thread `t` acts. The same steps as `SStep` (MutexModel.lean, ReadWriteMutex.cpp lines 76-132), with the name of the thread. -/
inductive SActs (sp : Bool) : Sys M T → T → Sys M T → Prop
  -- ReadLock, lines 76-89
  | readLockFast (s t m) : s.job t = .free → (s.lw t ≠ 0 ∨ s.lr t ≠ 0) →
      SActs sp s t { s with lr := if s.lw t = 0 then upd s.lr t (s.lr t + 1) else s.lr, stack := upd s.stack t ((.R, m) :: s.stack t) }
  | readLockCall (s t m) : s.job t = .free → s.lw t = 0 → s.lr t = 0 → SActs sp s t (s.call t m .rl1 (.rl m))
  | readLockDone (s t m) : s.job t = .rl m → (s.inner m).pc t = .reading →
      SActs sp s t { s with lr := upd s.lr t (s.lr t + 1), job := upd s.job t .free, stack := upd s.stack t ((.R, m) :: s.stack t) }
  -- ReadUnlock, lines 91-104
  | readUnlockFast (s t m rest) : s.job t = .free → s.stack t = (.R, m) :: rest → (s.lw t ≠ 0 ∨ s.lr t ≠ 1) →
      SActs sp s t { s with lr := if s.lw t = 0 then upd s.lr t (s.lr t - 1) else s.lr, stack := upd s.stack t rest }
  | readUnlockCall (s t m rest) : s.job t = .free → s.stack t = (.R, m) :: rest → s.lw t = 0 → s.lr t = 1 →
      SActs sp s t (s.call t m .ru1 (.ru m))
  | readUnlockDone (s t m) : s.job t = .ru m → (s.inner m).pc t = .idle →
      SActs sp s t { s with lr := upd s.lr t (s.lr t - 1), job := upd s.job t .free, stack := upd s.stack t (s.stack t).tail }
  -- WriteLock, lines 106-120
  | writeLockFast (s t m) : s.job t = .free → s.lw t ≠ 0 →
      SActs sp s t { s with lw := upd s.lw t (s.lw t + 1), stack := upd s.stack t ((.W, m) :: s.stack t) }
  | writeLockUpgrade (s t m) : s.job t = .free → s.lw t = 0 → s.lr t > 0 → SActs sp s t (s.call t m .ru1 (.wlRelease m))
  | writeLockUpgraded (s t m) : s.job t = .wlRelease m → (s.inner m).pc t = .idle → SActs sp s t (s.call t m .wl1 (.wl m))
  | writeLockCall (s t m) : s.job t = .free → s.lw t = 0 → s.lr t = 0 → SActs sp s t (s.call t m .wl1 (.wl m))
  | writeLockDone (s t m) : s.job t = .wl m → (s.inner m).pc t = .writing →
      SActs sp s t { s with lw := upd s.lw t (s.lw t + 1), job := upd s.job t .free, stack := upd s.stack t ((.W, m) :: s.stack t) }
  -- WriteUnlock, lines 122-132
  | writeUnlockFast (s t m rest) : s.job t = .free → s.stack t = (.W, m) :: rest → s.lw t ≠ 1 →
      SActs sp s t { s with lw := upd s.lw t (s.lw t - 1), stack := upd s.stack t rest }
  | writeUnlockCall (s t m rest) : s.job t = .free → s.stack t = (.W, m) :: rest → s.lw t = 1 →
      SActs sp s t (s.call t m .wu1 (.wuRelease m))
  | writeUnlockDone (s t m) : s.job t = .wuRelease m → (s.inner m).pc t = .idle → s.lr t = 0 →
      SActs sp s t { s with lw := upd s.lw t (s.lw t - 1), job := upd s.job t .free, stack := upd s.stack t (s.stack t).tail }
  | writeUnlockReacquire (s t m) : s.job t = .wuRelease m → (s.inner m).pc t = .idle → s.lr t > 0 →
      SActs sp s t (s.call t m .rl1 (.wuReacquire m))
  | writeUnlockReacquired (s t m) : s.job t = .wuReacquire m → (s.inner m).pc t = .reading →
      SActs sp s t { s with lw := upd s.lw t (s.lw t - 1), job := upd s.job t .free, stack := upd s.stack t (s.stack t).tail }
  -- a step inside an inner call
  | inside (s t m i') : IStep sp (s.inner m) t i' → SActs sp s t { s with inner := upd s.inner m i' }

/-- An infinite execution of threads `T` with vaults `M`, from the start (ReadWriteMutex.cpp lines 5-9): at each moment one thread acts, or none. -/
structure RExec (M T : Type) [DecidableEq M] [DecidableEq T] (sp : Bool) where
  σ : Nat → Sys M T
  who : Nat → Option T
  start : σ 0 = Sys.init M T
  step : ∀ i, match who i with | none => σ (i + 1) = σ i | some t => SActs sp (σ i) t (σ (i + 1))

/-- Every thread works with one vault at a time: all locks it holds and the call it is in concern one vault. Assumption on the callers, models no code; why it is needed: ReadWriteMutex.cpp lines 68-69 and C43. -/
def RExec.OneVault {sp : Bool} (e : RExec M T sp) : Prop :=
  ∀ i t, ∃ m, (∀ x ∈ (e.σ i).stack t, x.2 = m) ∧
    ∀ m', ((e.σ i).job t = .rl m' ∨ (e.σ i).job t = .ru m' ∨ (e.σ i).job t = .wlRelease m' ∨ (e.σ i).job t = .wl m' ∨ (e.σ i).job t = .wuRelease m' ∨
      (e.σ i).job t = .wuReacquire m') → m' = m

/-- Thread `t` is in a call and can take a step of it without a spurious wake-up: it is not blocked in `lock()` of a taken mutex or in `Cv.wait`. ReadWriteMutex.cpp lines 15-132. -/
def rcan (s : Sys M T) (t : T) : Prop := s.job t ≠ .free ∧ ∃ s', SActs false s t s'

/-- The scheduler and a fair `std::mutex`: a thread in a call that can go on again and again goes on at some time. Assumption on the platform, models no code. -/
def RExec.Fair {sp : Bool} (e : RExec M T sp) : Prop := ∀ t i, (∀ j ≥ i, ∃ k ≥ j, rcan (e.σ k) t) → ∃ j ≥ i, e.who j = some t

/-- The clients: a thread that from some time on only runs code of its own gives back all locks at some time. Assumption on the callers, see the RAII classes in ReadWriteMutex.h lines 122-255. -/
def RExec.Releases {sp : Bool} (e : RExec M T sp) : Prop := ∀ t i, (∀ j ≥ i, (e.σ j).job t = .free) → ∃ j ≥ i, (e.σ j).stack t = []

end MVault.Mtx
