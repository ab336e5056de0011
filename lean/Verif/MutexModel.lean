/-
Model of `Source/ReadWriteMutex.cpp`: `ReadWriteMutex` as a labelled transition system over an arbitrary set of
threads, one transition per mutex / atomic / condition-variable operation, and `RecursiveReadWriteMutex` on top of it
with its thread-local counters, for an arbitrary set of mutex objects.
Sequential consistency of the atomics is assumed (they are used with the default memory order).
`ReadCounter` is a signed `std::atomic_int`; its overflow is not modelled.
`IsActive` (Disable) is assumed true here; OffModel.lean adds the switch.
-/
namespace MVault.Mtx

/-- Program counter of a thread with respect to one `ReadWriteMutex`. Comments give the *next* statement. ReadWriteMutex.cpp lines 15-65. -/
inductive Pc
  | idle      -- not in a call, holds nothing
  | rl1       -- ReadLock line 20: WriteMutex.lock()
  | rl2       -- line 21: ReadMutex.lock()
  | rl3       -- line 22: ReadCounter.fetch_add(1)
  | rl4       -- line 23: ReadMutex.unlock()
  | rl5       -- line 24: WriteMutex.unlock()
  | reading   -- ReadLock has returned
  | ru1       -- ReadUnlock line 32: ReadMutex.lock()
  | ru2       -- line 33: ReadCounter.fetch_sub(1)
  | ru3       -- line 35: if (ReadCounter.load() == 0)
  | ru4       -- line 36: while (IsCondVarWaiting.load())
  | ru5       -- line 37: Cv.notify_all()
  | ru6       -- line 39: ReadMutex.unlock()
  | wl1       -- WriteLock line 50: WriteMutex.lock()
  | wl2       -- line 52: IsCondVarWaiting.store(true)
  | wl3       -- line 54: if (ReadCounter > 0)
  | wl4       -- line 54: about to enter Cv.wait
  | wl5       -- line 54: blocked in Cv.wait
  | wl6       -- line 56: IsCondVarWaiting.store(false)
  | writing   -- WriteLock has returned
  | wu1       -- WriteUnlock line 64: WriteMutex.unlock()
  deriving DecidableEq, Repr

/-- Function update. Device of the model for thread-local state, ReadWriteMutex.cpp lines 68-69. -/
def upd {A B : Type} [DecidableEq A] (f : A → B) (a : A) (b : B) : A → B := fun x => if x = a then b else f x

/-- State of one `ReadWriteMutex`, ReadWriteMutex.h: owner of `WriteMutex`, owner of `ReadMutex`, `ReadCounter`,
`IsCondVarWaiting`, and where every thread is. -/
structure Inner (T : Type) where
  pc : T → Pc
  wOwn : Option T
  rOwn : Option T
  cnt : Int
  flag : Bool

/-- Constructor, ReadWriteMutex.cpp lines 5-9. -/
def Inner.init (T : Type) : Inner T := ⟨fun _ => .idle, none, none, 0, false⟩

section
variable {T : Type} [DecidableEq T]

/-- Move thread `t` to `p`. ReadWriteMutex.cpp lines 15-65. -/
def Inner.goto (s : Inner T) (t : T) (p : Pc) : Inner T := { s with pc := upd s.pc t p }

/-- `Cv.notify_all()`: every thread blocked in `Cv.wait` continues. ReadWriteMutex.cpp line 37. -/
def Inner.notify (s : Inner T) : Inner T := { s with pc := fun u => if s.pc u = .wl5 then .wl6 else s.pc u }

/-- One step of thread `t` inside a call; `sp` says whether spurious wake-ups of `Cv.wait` (which has no predicate,
line 54) are allowed to happen. ReadWriteMutex.cpp lines 16-66. -/
inductive IStep (sp : Bool) : Inner T → T → Inner T → Prop
  | rl1 (s t) : s.pc t = .rl1 → s.wOwn = none → IStep sp s t { s.goto t .rl2 with wOwn := some t }
  | rl2 (s t) : s.pc t = .rl2 → s.rOwn = none → IStep sp s t { s.goto t .rl3 with rOwn := some t }
  | rl3 (s t) : s.pc t = .rl3 → IStep sp s t { s.goto t .rl4 with cnt := s.cnt + 1 }
  | rl4 (s t) : s.pc t = .rl4 → IStep sp s t { s.goto t .rl5 with rOwn := none }
  | rl5 (s t) : s.pc t = .rl5 → IStep sp s t { s.goto t .reading with wOwn := none }
  | ru1 (s t) : s.pc t = .ru1 → s.rOwn = none → IStep sp s t { s.goto t .ru2 with rOwn := some t }
  | ru2 (s t) : s.pc t = .ru2 → IStep sp s t { s.goto t .ru3 with cnt := s.cnt - 1 }
  | ru3 (s t) : s.pc t = .ru3 → IStep sp s t (s.goto t (if s.cnt = 0 then .ru4 else .ru6))
  | ru4 (s t) : s.pc t = .ru4 → IStep sp s t (s.goto t (if s.flag then .ru5 else .ru6))
  | ru5 (s t) : s.pc t = .ru5 → IStep sp s t (s.notify.goto t .ru4)
  | ru6 (s t) : s.pc t = .ru6 → IStep sp s t { s.goto t .idle with rOwn := none }
  | wl1 (s t) : s.pc t = .wl1 → s.wOwn = none → IStep sp s t { s.goto t .wl2 with wOwn := some t }
  | wl2 (s t) : s.pc t = .wl2 → IStep sp s t { s.goto t .wl3 with flag := true }
  | wl3 (s t) : s.pc t = .wl3 → IStep sp s t (s.goto t (if s.cnt > 0 then .wl4 else .wl6))
  | wl4 (s t) : s.pc t = .wl4 → IStep sp s t (s.goto t .wl5)
  | spurious (s t) : sp = true → s.pc t = .wl5 → IStep sp s t (s.goto t .wl6)
  | wl6 (s t) : s.pc t = .wl6 → IStep sp s t { s.goto t .writing with flag := false }
  | wu1 (s t) : s.pc t = .wu1 → IStep sp s t { s.goto t .idle with wOwn := none }

/-- A client of a plain `ReadWriteMutex`: threads call ReadLock / ReadUnlock / WriteLock / WriteUnlock in matching
pairs (as the RAII classes `ReadLock<>` and `WriteLock<>` of ReadWriteMutex.h do) or take a step inside a call. -/
inductive Step (sp : Bool) : Inner T → Inner T → Prop
  | callRL (s t) : s.pc t = .idle → Step sp s (s.goto t .rl1)
  | callRU (s t) : s.pc t = .reading → Step sp s (s.goto t .ru1)
  | callWL (s t) : s.pc t = .idle → Step sp s (s.goto t .wl1)
  | callWU (s t) : s.pc t = .writing → Step sp s (s.goto t .wu1)
  | inside (s t s') : IStep sp s t s' → Step sp s s'

/-- Reachable states of a plain `ReadWriteMutex`. History of calls, models no single function: ReadWriteMutex.cpp lines 5-65. -/
inductive Reach (sp : Bool) : Inner T → Prop
  | init : Reach sp (Inner.init T)
  | step (s s') : Reach sp s → Step sp s s' → Reach sp s'

/-! ### RecursiveReadWriteMutex -/

/-- Kind of a lock. ReadWriteMutex.h lines 122-255. -/
inductive Kind | R | W deriving DecidableEq, Repr

/-- What a thread is doing in a `RecursiveReadWriteMutex` call on mutex `m`: the inner call that is running and what
follows it. ReadWriteMutex.cpp lines 76-132. -/
inductive Job (M : Type)
  | free                 -- not in a call
  | rl (m : M)           -- ReadLock lines 83-86: inner ReadLock, then ++read counter
  | ru (m : M)           -- ReadUnlock lines 97-100: inner ReadUnlock, then --read counter
  | wlRelease (m : M)    -- WriteLock line 112: inner ReadUnlock (upgrade), then inner WriteLock
  | wl (m : M)           -- WriteLock line 114: inner WriteLock, then ++write counter
  | wuRelease (m : M)    -- WriteUnlock line 126: inner WriteUnlock
  | wuReacquire (m : M)  -- WriteUnlock line 128: inner ReadLock, then --write counter
  deriving DecidableEq

/-- All mutex objects and all threads. `lr`, `lw` are the thread-local counters of lines 68-69: they are per thread and
shared by *all* mutex objects. `stack` is ghost state: the locks the thread's RAII objects hold, innermost first. -/
structure Sys (M T : Type) where
  inner : M → Inner T
  lr : T → Nat
  lw : T → Nat
  job : T → Job M
  stack : T → List (Kind × M)

variable {M : Type} [DecidableEq M]

/-- Initial state. ReadWriteMutex.cpp lines 5-9, 68-69. -/
def Sys.init (M T : Type) : Sys M T :=
  ⟨fun _ => Inner.init T, fun _ => 0, fun _ => 0, fun _ => .free, fun _ => []⟩

/-- Start of an inner call: thread `t` goes to `p` in mutex `m`. ReadWriteMutex.cpp lines 83, 97, 112, 114, 126, 128. -/
def Sys.call (s : Sys M T) (t : T) (m : M) (p : Pc) (j : Job M) : Sys M T :=
  { s with inner := upd s.inner m ((s.inner m).goto t p), job := upd s.job t j }

/-- Steps of the system. RAII locks are released in reverse order of acquisition, so unlocking always concerns the
innermost lock. ReadWriteMutex.cpp lines 76-132. -/
inductive SStep (sp : Bool) : Sys M T → Sys M T → Prop
  -- ReadLock, lines 76-89
  | readLockFast (s t m) : s.job t = .free → (s.lw t ≠ 0 ∨ s.lr t ≠ 0) →
      SStep sp s { s with lr := if s.lw t = 0 then upd s.lr t (s.lr t + 1) else s.lr, stack := upd s.stack t ((.R, m) :: s.stack t) }
  | readLockCall (s t m) : s.job t = .free → s.lw t = 0 → s.lr t = 0 → SStep sp s (s.call t m .rl1 (.rl m))
  | readLockDone (s t m) : s.job t = .rl m → (s.inner m).pc t = .reading →
      SStep sp s { s with lr := upd s.lr t (s.lr t + 1), job := upd s.job t .free, stack := upd s.stack t ((.R, m) :: s.stack t) }
  -- ReadUnlock, lines 91-104
  | readUnlockFast (s t m rest) : s.job t = .free → s.stack t = (.R, m) :: rest → (s.lw t ≠ 0 ∨ s.lr t ≠ 1) →
      SStep sp s { s with lr := if s.lw t = 0 then upd s.lr t (s.lr t - 1) else s.lr, stack := upd s.stack t rest }
  | readUnlockCall (s t m rest) : s.job t = .free → s.stack t = (.R, m) :: rest → s.lw t = 0 → s.lr t = 1 →
      SStep sp s (s.call t m .ru1 (.ru m))
  | readUnlockDone (s t m) : s.job t = .ru m → (s.inner m).pc t = .idle →
      SStep sp s { s with lr := upd s.lr t (s.lr t - 1), job := upd s.job t .free, stack := upd s.stack t (s.stack t).tail }
  -- WriteLock, lines 106-120
  | writeLockFast (s t m) : s.job t = .free → s.lw t ≠ 0 →
      SStep sp s { s with lw := upd s.lw t (s.lw t + 1), stack := upd s.stack t ((.W, m) :: s.stack t) }
  | writeLockUpgrade (s t m) : s.job t = .free → s.lw t = 0 → s.lr t > 0 → SStep sp s (s.call t m .ru1 (.wlRelease m))
  | writeLockUpgraded (s t m) : s.job t = .wlRelease m → (s.inner m).pc t = .idle → SStep sp s (s.call t m .wl1 (.wl m))
  | writeLockCall (s t m) : s.job t = .free → s.lw t = 0 → s.lr t = 0 → SStep sp s (s.call t m .wl1 (.wl m))
  | writeLockDone (s t m) : s.job t = .wl m → (s.inner m).pc t = .writing →
      SStep sp s { s with lw := upd s.lw t (s.lw t + 1), job := upd s.job t .free, stack := upd s.stack t ((.W, m) :: s.stack t) }
  -- WriteUnlock, lines 122-132
  | writeUnlockFast (s t m rest) : s.job t = .free → s.stack t = (.W, m) :: rest → s.lw t ≠ 1 →
      SStep sp s { s with lw := upd s.lw t (s.lw t - 1), stack := upd s.stack t rest }
  | writeUnlockCall (s t m rest) : s.job t = .free → s.stack t = (.W, m) :: rest → s.lw t = 1 →
      SStep sp s (s.call t m .wu1 (.wuRelease m))
  | writeUnlockDone (s t m) : s.job t = .wuRelease m → (s.inner m).pc t = .idle → s.lr t = 0 →
      SStep sp s { s with lw := upd s.lw t (s.lw t - 1), job := upd s.job t .free, stack := upd s.stack t (s.stack t).tail }
  | writeUnlockReacquire (s t m) : s.job t = .wuRelease m → (s.inner m).pc t = .idle → s.lr t > 0 →
      SStep sp s (s.call t m .rl1 (.wuReacquire m))
  | writeUnlockReacquired (s t m) : s.job t = .wuReacquire m → (s.inner m).pc t = .reading →
      SStep sp s { s with lw := upd s.lw t (s.lw t - 1), job := upd s.job t .free, stack := upd s.stack t (s.stack t).tail }
  -- a step inside an inner call
  | inside (s t m i') : IStep sp (s.inner m) t i' → SStep sp s { s with inner := upd s.inner m i' }

/-- Reachable states of the system of recursive mutexes. History of calls, models no single function: ReadWriteMutex.cpp lines 76-132. -/
inductive SReach (sp : Bool) : Sys M T → Prop
  | init : SReach sp (Sys.init M T)
  | step (s s') : SReach sp s → SStep sp s s' → SReach sp s'

end
end MVault.Mtx
