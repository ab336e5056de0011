import Verif.PropsMutex3
/-
Model of `RecursiveReadWriteMutex` with its switch `IsActive` (ReadWriteMutex.cpp lines 71-132, `Disable`): the model of MutexModel.lean is about mutexes that are
switched on; here every mutex object has the switch, and the RAII objects of a thread may be about mutexes of both kinds, as they are when record sets (whose
mutex is switched off, VaultRecordSet.cpp lines 41, 74, 82) and vaults are used together.
The inner `ReadWriteMutex::Disable` (lines 11-14) is never called in /repo and is not modelled.
-/
namespace MVault.Mtx
variable {T : Type} [DecidableEq T] {M : Type} [DecidableEq M]

/-- The steps of `SStep` with the mutex object they are about: what the bodies of the four functions do when `IsActive` is true. ReadWriteMutex.cpp lines 76-132. -/
inductive SStepAt (sp : Bool) (m : M) : Sys M T → Sys M T → Prop
  -- ReadLock, lines 76-89
  | readLockFast (s t) : s.job t = .free → (s.lw t ≠ 0 ∨ s.lr t ≠ 0) →
      SStepAt sp m s { s with lr := if s.lw t = 0 then upd s.lr t (s.lr t + 1) else s.lr, stack := upd s.stack t ((.R, m) :: s.stack t) }
  | readLockCall (s t) : s.job t = .free → s.lw t = 0 → s.lr t = 0 → SStepAt sp m s (s.call t m .rl1 (.rl m))
  | readLockDone (s t) : s.job t = .rl m → (s.inner m).pc t = .reading →
      SStepAt sp m s { s with lr := upd s.lr t (s.lr t + 1), job := upd s.job t .free, stack := upd s.stack t ((.R, m) :: s.stack t) }
  -- ReadUnlock, lines 91-104
  | readUnlockFast (s t rest) : s.job t = .free → s.stack t = (.R, m) :: rest → (s.lw t ≠ 0 ∨ s.lr t ≠ 1) →
      SStepAt sp m s { s with lr := if s.lw t = 0 then upd s.lr t (s.lr t - 1) else s.lr, stack := upd s.stack t rest }
  | readUnlockCall (s t rest) : s.job t = .free → s.stack t = (.R, m) :: rest → s.lw t = 0 → s.lr t = 1 →
      SStepAt sp m s (s.call t m .ru1 (.ru m))
  | readUnlockDone (s t) : s.job t = .ru m → (s.inner m).pc t = .idle →
      SStepAt sp m s { s with lr := upd s.lr t (s.lr t - 1), job := upd s.job t .free, stack := upd s.stack t (s.stack t).tail }
  -- WriteLock, lines 106-120
  | writeLockFast (s t) : s.job t = .free → s.lw t ≠ 0 →
      SStepAt sp m s { s with lw := upd s.lw t (s.lw t + 1), stack := upd s.stack t ((.W, m) :: s.stack t) }
  | writeLockUpgrade (s t) : s.job t = .free → s.lw t = 0 → s.lr t > 0 → SStepAt sp m s (s.call t m .ru1 (.wlRelease m))
  | writeLockUpgraded (s t) : s.job t = .wlRelease m → (s.inner m).pc t = .idle → SStepAt sp m s (s.call t m .wl1 (.wl m))
  | writeLockCall (s t) : s.job t = .free → s.lw t = 0 → s.lr t = 0 → SStepAt sp m s (s.call t m .wl1 (.wl m))
  | writeLockDone (s t) : s.job t = .wl m → (s.inner m).pc t = .writing →
      SStepAt sp m s { s with lw := upd s.lw t (s.lw t + 1), job := upd s.job t .free, stack := upd s.stack t ((.W, m) :: s.stack t) }
  -- WriteUnlock, lines 122-132
  | writeUnlockFast (s t rest) : s.job t = .free → s.stack t = (.W, m) :: rest → s.lw t ≠ 1 →
      SStepAt sp m s { s with lw := upd s.lw t (s.lw t - 1), stack := upd s.stack t rest }
  | writeUnlockCall (s t rest) : s.job t = .free → s.stack t = (.W, m) :: rest → s.lw t = 1 →
      SStepAt sp m s (s.call t m .wu1 (.wuRelease m))
  | writeUnlockDone (s t) : s.job t = .wuRelease m → (s.inner m).pc t = .idle → s.lr t = 0 →
      SStepAt sp m s { s with lw := upd s.lw t (s.lw t - 1), job := upd s.job t .free, stack := upd s.stack t (s.stack t).tail }
  | writeUnlockReacquire (s t) : s.job t = .wuRelease m → (s.inner m).pc t = .idle → s.lr t > 0 →
      SStepAt sp m s (s.call t m .rl1 (.wuReacquire m))
  | writeUnlockReacquired (s t) : s.job t = .wuReacquire m → (s.inner m).pc t = .reading →
      SStepAt sp m s { s with lw := upd s.lw t (s.lw t - 1), job := upd s.job t .free, stack := upd s.stack t (s.stack t).tail }
  -- a step inside an inner call
  | inside (s t i') : IStep sp (s.inner m) t i' → SStepAt sp m s { s with inner := upd s.inner m i' }

/-- All mutex objects with their switch `IsActive` (ReadWriteMutex.h: `bool IsActive = true` of `RecursiveReadWriteMutex`, ReadWriteMutex.cpp lines 71-132), and all threads.
`sys.stack` holds the RAII locks of both kinds of mutexes. -/
structure OSys (M T : Type) where
  act : M → Bool
  sys : Sys M T

/-- Initial state: every mutex is switched on. ReadWriteMutex.h line 69 ff. -/
def OSys.init (M T : Type) : OSys M T := ⟨fun _ => true, Sys.init M T⟩

/-- RAII lock object on a switched-off mutex made: `if (IsActive)` is not taken, nothing happens but that the object exists. ReadWriteMutex.cpp lines 76-89, 106-120. -/
def OSys.push (x : OSys M T) (t : T) (e : Kind × M) : OSys M T := { x with sys := { x.sys with stack := upd x.sys.stack t (e :: x.sys.stack t) } }

/-- The innermost RAII lock object, on a switched-off mutex, destroyed: nothing else happens. ReadWriteMutex.cpp lines 91-104, 122-132. -/
def OSys.pop (x : OSys M T) (t : T) : OSys M T := { x with sys := { x.sys with stack := upd x.sys.stack t (x.sys.stack t).tail } }

/-- Steps: on a mutex that is switched on, those of `SStepAt`; on one that is switched off, lock objects come and go without effect; and a mutex that nobody holds
and nobody is in a call of may be switched off (in VaultRecordSet.cpp it is switched off by the constructors and by assignment). ReadWriteMutex.cpp lines 71-132. -/
inductive OStep (sp : Bool) : OSys M T → OSys M T → Prop
  | on (x : OSys M T) (m : M) (s' : Sys M T) : x.act m = true → SStepAt sp m x.sys s' → OStep sp x { x with sys := s' }
  | lockOff (x : OSys M T) (t : T) (k : Kind) (m : M) : x.act m = false → x.sys.job t = .free → OStep sp x (x.push t (k, m))
  | unlockOff (x : OSys M T) (t : T) (k : Kind) (m : M) (rest : List (Kind × M)) : x.act m = false → x.sys.job t = .free →
      x.sys.stack t = (k, m) :: rest → OStep sp x (x.pop t)
  | disable (x : OSys M T) (m : M) : (∀ t k, (k, m) ∉ x.sys.stack t) → (∀ t, (x.sys.job t).mtx ≠ some m) →
      OStep sp x { x with act := upd x.act m false }

/-- Reachable states. History of calls, models no single function: ReadWriteMutex.cpp lines 71-132. -/
inductive OReach (sp : Bool) : OSys M T → Prop
  | init : OReach sp (OSys.init M T)
  | step (x x') : OReach sp x → OStep sp x x' → OReach sp x'

end MVault.Mtx
