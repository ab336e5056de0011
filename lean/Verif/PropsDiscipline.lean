import Verif.DisciplineLemmas
set_option linter.unusedSimpArgs false
/-!
C106: the locks use `std::mutex` within its rules, and the thread-local counters never run below zero, for every
number of mutexes and threads, every schedule, every nesting of read and write locks (also of different mutexes by one
thread, where C43 is refuted) and also with spurious wake-ups.

`SReach sp s` are the reachable states of any number of `RecursiveReadWriteMutex` objects. `(s.inner m).pc t` is the next
statement of thread `t` inside mutex `m` (table in MutexModel), `wOwn` / `rOwn` are the owners of its `WriteMutex` and
`ReadMutex`, `s.stack t` the locks `t` holds, innermost first, and `s.job t = .free` says that `t` runs user code.
-/
namespace MVault.Mtx
variable {T : Type} [DecidableEq T] {M : Type} [DecidableEq M]

/-- The next statement locks `WriteMutex`: ReadWriteMutex.cpp lines 20, 50. -/
def locksWrite (p : Pc) : Prop := p = .rl1 ∨ p = .wl1
/-- The next statement unlocks `WriteMutex`: ReadWriteMutex.cpp lines 24, 64. -/
def unlocksWrite (p : Pc) : Prop := p = .rl5 ∨ p = .wu1
/-- The next statement locks `ReadMutex`: ReadWriteMutex.cpp lines 21, 32. -/
def locksRead (p : Pc) : Prop := p = .rl2 ∨ p = .ru1
/-- The next statement unlocks `ReadMutex`: ReadWriteMutex.cpp lines 23, 39. -/
def unlocksRead (p : Pc) : Prop := p = .rl4 ∨ p = .ru6

/-- C106: a `std::mutex` is unlocked only by the thread that owns it. -/
theorem C106_unlock_by_owner {sp : Bool} (s : Sys M T) (hs : SReach sp s) (t : T) (m : M) :
    (unlocksWrite ((s.inner m).pc t) → (s.inner m).wOwn = some t) ∧
    (unlocksRead ((s.inner m).pc t) → (s.inner m).rOwn = some t) := by
  have h := (DInv.reach hs).own m
  refine ⟨fun hp => (h.w t).1 ?_, fun hp => (h.r t).1 ?_⟩
  · rcases hp with hp | hp <;> rw [hp] <;> rfl
  · rcases hp with hp | hp <;> rw [hp] <;> rfl

/-- C106: a `std::mutex` is never locked by the thread that owns it already. -/
theorem C106_no_relock {sp : Bool} (s : Sys M T) (hs : SReach sp s) (t : T) (m : M) :
    (locksWrite ((s.inner m).pc t) → (s.inner m).wOwn ≠ some t) ∧
    (locksRead ((s.inner m).pc t) → (s.inner m).rOwn ≠ some t) := by
  have h := (DInv.reach hs).own m
  refine ⟨fun hp ho => ?_, fun hp ho => ?_⟩
  · have := (h.w t).2 ho
    rcases hp with hp | hp <;> rw [hp] at this <;> cases this
  · have := (h.r t).2 ho
    rcases hp with hp | hp <;> rw [hp] at this <;> cases this

/-- C106: at most one thread is in `Cv.wait` of a mutex. Every `WriteLock` waits with a `std::mutex` of its own
(ReadWriteMutex.cpp lines 46-54), which `std::condition_variable` allows only for one waiting thread. -/
theorem C106_one_waiter {sp : Bool} (s : Sys M T) (hs : SReach sp s) (t u : T) (m : M)
    (ht : (s.inner m).pc t = .wl4 ∨ (s.inner m).pc t = .wl5) (hu : (s.inner m).pc u = .wl4 ∨ (s.inner m).pc u = .wl5) :
    t = u := by
  have h := (DInv.reach hs).own m
  have h1 : (s.inner m).wOwn = some t := (h.w t).1 (by rcases ht with e | e <;> rw [e] <;> rfl)
  have h2 : (s.inner m).wOwn = some u := (h.w u).1 (by rcases hu with e | e <;> rw [e] <;> rfl)
  rw [h1] at h2; exact Option.some.inj h2

/-- C106: a thread in user code owns no `ReadMutex`, and owns the `WriteMutex` of exactly one mutex, that of its outermost
write lock, or of none when it holds no write lock. In particular a thread that holds no lock owns nothing. -/
theorem C106_user_code {sp : Bool} (s : Sys M T) (hs : SReach sp s) (t : T) (hf : s.job t = .free) (m : M) :
    (s.inner m).rOwn ≠ some t ∧
    ((s.inner m).wOwn = some t ↔ ((s.stack t).reverse.find? fun e => e.1 = Kind.W).map Prod.snd = some m) := by
  have hd := DInv.reach hs
  have ha := (hd.thr t).at_ m
  rw [hf] at ha
  simp only [DOk] at ha
  rw [Ne, ← (hd.own m).w t, ← (hd.own m).r t]
  change _ ∧ (_ ↔ outerW (s.stack t) = some m)
  by_cases e : outerW (s.stack t) = some m
  · rw [if_pos e] at ha
    rw [phase_writing.1 ha, e]; simp [holdsR, holdsW]
  · rw [if_neg e] at ha
    obtain ⟨q1, q2⟩ := quiet_holds ha
    rw [q1, q2]; simp [e]

/-- C106: two threads never hold their outermost write locks on the same mutex (spurious wake-ups and nested locks of other
mutexes included). -/
theorem C106_outermost_writers {sp : Bool} (s : Sys M T) (hs : SReach sp s) (t u : T) (m : M)
    (htf : s.job t = .free) (huf : s.job u = .free)
    (ht : ((s.stack t).reverse.find? fun e => e.1 = Kind.W).map Prod.snd = some m)
    (hu : ((s.stack u).reverse.find? fun e => e.1 = Kind.W).map Prod.snd = some m) : t = u := by
  have h1 := (C106_user_code s hs t htf m).2.2 ht
  have h2 := (C106_user_code s hs u huf m).2.2 hu
  rw [h1] at h2; exact Option.some.inj h2

theorem takeWhile_all {A : Type} (p : A → Bool) (l : List A) (h : ∀ e ∈ l, p e = true) : l.takeWhile p = l := by
  induction l with
  | nil => rfl
  | cons a l ih => rw [List.takeWhile_cons, if_pos (h a (by simp)), ih fun e he => h e (by simp [he])]

theorem nW_countP (l : List (Kind × M)) : nW l = l.countP (fun e => e.1 = Kind.W) := by
  induction l with
  | nil => rfl
  | cons e l ih => obtain ⟨k, _⟩ := e; cases k <;> simp [nW, ih]

theorem nW_zero {l : List (Kind × M)} : nW l = 0 ↔ ∀ e ∈ l, e.1 = Kind.R := by
  induction l with
  | nil => simp [nW]
  | cons e l ih => obtain ⟨k, _⟩ := e; cases k <;> simp [nW, ih]

theorem takeWhile_append_stop {A : Type} (p : A → Bool) (l l' : List A) (h : ∃ e ∈ l, p e = false) :
    (l ++ l').takeWhile p = l.takeWhile p := by
  induction l with
  | nil => simp at h
  | cons a l ih =>
    rw [List.cons_append, List.takeWhile_cons, List.takeWhile_cons]
    cases hp : p a with
    | false => simp
    | true =>
      obtain ⟨e, he, h2⟩ := h
      rcases List.mem_cons.1 he with rfl | he
      · rw [hp] at h2; cases h2
      · simp [ih ⟨e, he, h2⟩]

theorem outerR_takeWhile (l : List (Kind × M)) : outerR l = (l.reverse.takeWhile (fun e => e.1 = Kind.R)).length := by
  induction l with
  | nil => rfl
  | cons e l ih =>
    obtain ⟨k, x⟩ := e
    rw [List.reverse_cons]
    by_cases hw : nW l = 0
    · have ha : ∀ e ∈ l.reverse, decide (e.1 = Kind.R) = true := fun e he => by
        simp [nW_zero.1 hw e (by simpa using he)]
      rw [List.takeWhile_append_of_pos ha]
      rw [takeWhile_all _ _ ha] at ih
      cases k with
      | W => simp [outerR, ih]
      | R => simp [outerR, ih, hw]
    · have : ∃ e ∈ l, e.1 ≠ Kind.R := by
        apply Classical.byContradiction
        intro hn
        exact hw (nW_zero.2 fun e he => Classical.byContradiction fun h => hn ⟨e, he, h⟩)
      obtain ⟨e, he, hk⟩ := this
      rw [takeWhile_append_stop _ _ _ ⟨e, by simpa using he, by simp [hk]⟩, ← ih]
      cases k <;> simp [outerR, hw]

/-- C106, counters (C42_counters for any number of mutexes and any nesting): the write counter of a thread is the number of
its write locks and the read counter the number of read locks taken before the outermost write lock. -/
theorem C106_counters {sp : Bool} (s : Sys M T) (hs : SReach sp s) (t : T) :
    s.lw t = (s.stack t).countP (fun e => e.1 = Kind.W) ∧
    s.lr t = ((s.stack t).reverse.takeWhile (fun e => e.1 = Kind.R)).length :=
  ⟨by rw [((DInv.reach hs).thr t).lw, nW_countP], by rw [((DInv.reach hs).thr t).lr, outerR_takeWhile]⟩

/-- C106, no underflow: when a thread releases a read lock its read counter is decremented only if it is positive, and
when it releases a write lock its write counter is positive. -/
theorem C106_no_underflow {sp : Bool} (s : Sys M T) (hs : SReach sp s) (t : T) (m : M) (rest : List (Kind × M)) :
    (s.stack t = (.R, m) :: rest → s.lw t = 0 → s.lr t > 0) ∧ (s.stack t = (.W, m) :: rest → s.lw t > 0) := by
  have ht := (DInv.reach hs).thr t
  refine ⟨fun h h0 => ?_, fun h => ?_⟩
  · have h1 := ht.lw; have h2 := ht.lr
    rw [h] at h1 h2
    simp only [nW] at h1
    simp only [outerR, ← h1, h0, if_true] at h2; omega
  · have h1 := ht.lw; rw [h] at h1; simp only [nW] at h1; omega

/-- A concrete case of all of these: thread `false` read-locks mutex `false`, then write-locks mutex `true` inside it (the
upgrade releases a read lock of mutex `true` that was never taken), then write-locks mutex `false` as well; meanwhile
thread `true` is about to lock `WriteMutex` of mutex `true`. -/
example : ∃ s : Sys Bool Bool, SReach false s ∧ s.job false = .free ∧
    s.stack false = [(.W, false), (.W, true), (.R, false)] ∧ (s.inner true).wOwn = some false ∧ (s.inner false).wOwn = none ∧
    (s.inner true).cnt = -1 ∧ locksWrite ((s.inner true).pc true) ∧ s.lw false = 2 ∧ s.lr false = 1 := by
  have h := SReach.init (M := Bool) (T := Bool) (sp := false)
  have h := SReach.step _ _ h (.readLockCall _ false false rfl rfl rfl)
  have h := SReach.step _ _ h (.inside _ _ false _ (.rl1 _ false rfl rfl))
  have h := SReach.step _ _ h (.inside _ _ false _ (.rl2 _ false rfl rfl))
  have h := SReach.step _ _ h (.inside _ _ false _ (.rl3 _ false rfl))
  have h := SReach.step _ _ h (.inside _ _ false _ (.rl4 _ false rfl))
  have h := SReach.step _ _ h (.inside _ _ false _ (.rl5 _ false rfl))
  have h := SReach.step _ _ h (.readLockDone _ false false rfl rfl)
  have h := SReach.step _ _ h (.writeLockUpgrade _ false true rfl rfl (by decide))
  have h := SReach.step _ _ h (.inside _ _ true _ (.ru1 _ false rfl rfl))
  have h := SReach.step _ _ h (.inside _ _ true _ (.ru2 _ false rfl))
  have h := SReach.step _ _ h (.inside _ _ true _ (.ru3 _ false rfl))
  have h := SReach.step _ _ h (.inside _ _ true _ (.ru6 _ false rfl))
  have h := SReach.step _ _ h (.writeLockUpgraded _ false true rfl rfl)
  have h := SReach.step _ _ h (.inside _ _ true _ (.wl1 _ false rfl rfl))
  have h := SReach.step _ _ h (.inside _ _ true _ (.wl2 _ false rfl))
  have h := SReach.step _ _ h (.inside _ _ true _ (.wl3 _ false rfl))
  have h := SReach.step _ _ h (.inside _ _ true _ (.wl6 _ false rfl))
  have h := SReach.step _ _ h (.writeLockDone _ false true rfl rfl)
  have h := SReach.step _ _ h (.writeLockFast _ false false rfl (by decide))
  have h := SReach.step _ _ h (.writeLockCall _ true true rfl rfl rfl)
  exact ⟨_, h, rfl, rfl, rfl, rfl, rfl, Or.inr rfl, rfl, rfl⟩

end MVault.Mtx
