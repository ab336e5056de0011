import Verif.MutexModel
/-
Infinite executions of `ReadWriteMutex`: who acts when, fairness of the scheduler and of `std::mutex`, and clients that release what they hold.
-/
namespace MVault.Mtx
variable {T : Type} [DecidableEq T]

/-- Thread `t` acts: it makes a call, as the RAII classes of ReadWriteMutex.h do, or takes a step inside one (ReadWriteMutex.cpp lines 15-65). -/
inductive Acts (sp : Bool) : Inner T → T → Inner T → Prop
  | callRL (s t) : s.pc t = .idle → Acts sp s t (s.goto t .rl1)
  | callRU (s t) : s.pc t = .reading → Acts sp s t (s.goto t .ru1)
  | callWL (s t) : s.pc t = .idle → Acts sp s t (s.goto t .wl1)
  | callWU (s t) : s.pc t = .writing → Acts sp s t (s.goto t .wu1)
  | inside (s t s') : IStep sp s t s' → Acts sp s t s'

/-- An infinite execution from the constructed mutex (ReadWriteMutex.cpp lines 5-9): at each moment one thread acts, or none. -/
structure Exec (T : Type) [DecidableEq T] (sp : Bool) where
  σ : Nat → Inner T
  who : Nat → Option T
  start : σ 0 = Inner.init T
  step : ∀ i, match who i with | none => σ (i + 1) = σ i | some t => Acts sp (σ i) t (σ (i + 1))

/-- Thread `t` can take a step inside its call without a spurious wake-up: it is not blocked in `lock()` of a taken mutex or in `Cv.wait`. ReadWriteMutex.cpp lines 15-65. -/
def can (s : Inner T) (t : T) : Prop := ∃ s', IStep false s t s'

/-- The scheduler: a thread that can go on, and stays able to, goes on at some time. Assumption on the platform, models no code. -/
def Exec.Scheduled {sp : Bool} (e : Exec T sp) : Prop := ∀ t i, (∀ j ≥ i, can (e.σ j) t) → ∃ j ≥ i, e.who j = some t

/-- The scheduler and a fair `std::mutex`: a thread that can go on again and again (whenever the mutex it waits for is free) goes on at some time. Assumption on the platform, models no code. -/
def Exec.Fair {sp : Bool} (e : Exec T sp) : Prop := ∀ t i, (∀ j ≥ i, ∃ k ≥ j, can (e.σ k) t) → ∃ j ≥ i, e.who j = some t

/-- The clients: who holds the lock releases it at some time (calls `ReadUnlock` or `WriteUnlock`). Assumption on the callers, see the RAII classes in ReadWriteMutex.h lines 122-255. -/
def Exec.Releases {sp : Bool} (e : Exec T sp) : Prop := ∀ t i, ((e.σ i).pc t = .reading ∨ (e.σ i).pc t = .writing) → ∃ j ≥ i, e.who j = some t

end MVault.Mtx
