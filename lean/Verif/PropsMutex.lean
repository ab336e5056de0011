import Verif.MutexProgress
/-!
Properties C41, C42, C43, C53: reader/writer locks.

Vocabulary. For a plain `ReadWriteMutex` a thread *holds the read lock* when its last `ReadLock` has returned and it has
not called `ReadUnlock` (`pc = reading`), and *holds the write lock* likewise (`pc = writing`). For the recursive mutex the
locks held by a thread are its `stack` (one entry per `ReadLock<>`/`WriteLock<>` object alive), and `job = free` says the
thread is executing user code, not the body of a lock or unlock call.
-/
namespace MVault.Mtx
variable {T : Type} [DecidableEq T] {M : Type} [DecidableEq M]

/-! ### C41 -/

/-- C41 (partial: `Cv.wait` must not wake spuriously, see `C41_refuted_spurious`). Any number of threads, any schedule:
while one thread holds the write lock no other thread holds a read or a write lock. -/
theorem C41_exclusion_partial (s : Inner T) (hs : Reach false s) (t u : T) (hne : u ≠ t) (ht : s.pc t = .writing) :
    s.pc u ≠ .reading ∧ s.pc u ≠ .writing := by
  obtain ⟨h1, h2, -, -⟩ := (Inv.reach hs).exclusion ht hne
  exact ⟨fun e => by rw [e] at h1; simp [registered] at h1, h2⟩

/-- A writer that had to wait for a reader: the hypotheses of `C41_exclusion_partial` are met after a real hand-over. -/
example : ∃ s : Inner Bool, Reach false s ∧ s.pc false = .writing ∧ s.pc true = .ru4 := by
  have h := Reach.init (T := Bool) (sp := false)
  have h := Reach.step _ _ h (.callRL _ true rfl)
  have h := Reach.step _ _ h (.inside _ _ _ (.rl1 _ true rfl rfl))
  have h := Reach.step _ _ h (.inside _ _ _ (.rl2 _ true rfl rfl))
  have h := Reach.step _ _ h (.inside _ _ _ (.rl3 _ true rfl))
  have h := Reach.step _ _ h (.inside _ _ _ (.rl4 _ true rfl))
  have h := Reach.step _ _ h (.inside _ _ _ (.rl5 _ true rfl))
  have h := Reach.step _ _ h (.callWL _ false rfl)
  have h := Reach.step _ _ h (.inside _ _ _ (.wl1 _ false rfl rfl))
  have h := Reach.step _ _ h (.inside _ _ _ (.wl2 _ false rfl))
  have h := Reach.step _ _ h (.inside _ _ _ (.wl3 _ false rfl))
  have h := Reach.step _ _ h (.inside _ _ _ (.wl4 _ false rfl))
  have h := Reach.step _ _ h (.callRU _ true rfl)
  have h := Reach.step _ _ h (.inside _ _ _ (.ru1 _ true rfl rfl))
  have h := Reach.step _ _ h (.inside _ _ _ (.ru2 _ true rfl))
  have h := Reach.step _ _ h (.inside _ _ _ (.ru3 _ true rfl))
  have h := Reach.step _ _ h (.inside _ _ _ (.ru4 _ true rfl))
  have h := Reach.step _ _ h (.inside _ _ _ (.ru5 _ true rfl))
  have h := Reach.step _ _ h (.inside _ _ _ (.wl6 _ false rfl))
  exact ⟨_, h, rfl, rfl⟩

/-- C41 is false with the wake-ups the C++ standard allows: `Cv.wait(lk)` on line 54 has no predicate, so after a spurious
wake-up a writer and a reader hold the lock together. -/
theorem C41_refuted_spurious : ∃ s : Inner Bool, Reach true s ∧ s.pc false = .writing ∧ s.pc true = .reading := by
  have h := Reach.init (T := Bool) (sp := true)
  have h := Reach.step _ _ h (.callRL _ true rfl)
  have h := Reach.step _ _ h (.inside _ _ _ (.rl1 _ true rfl rfl))
  have h := Reach.step _ _ h (.inside _ _ _ (.rl2 _ true rfl rfl))
  have h := Reach.step _ _ h (.inside _ _ _ (.rl3 _ true rfl))
  have h := Reach.step _ _ h (.inside _ _ _ (.rl4 _ true rfl))
  have h := Reach.step _ _ h (.inside _ _ _ (.rl5 _ true rfl))
  have h := Reach.step _ _ h (.callWL _ false rfl)
  have h := Reach.step _ _ h (.inside _ _ _ (.wl1 _ false rfl rfl))
  have h := Reach.step _ _ h (.inside _ _ _ (.wl2 _ false rfl))
  have h := Reach.step _ _ h (.inside _ _ _ (.wl3 _ false rfl))
  have h := Reach.step _ _ h (.inside _ _ _ (.wl4 _ false rfl))
  have h := Reach.step _ _ h (.inside _ _ _ (.spurious _ false rfl rfl))
  have h := Reach.step _ _ h (.inside _ _ _ (.wl6 _ false rfl))
  exact ⟨_, h, rfl, rfl⟩

/-- Two writers never hold the lock together, even with spurious wake-ups: this part of C41 is unconditional. -/
theorem C41_writers_exclusive (sp : Bool) (s : Inner T) (hs : Reach sp s) (t u : T) (ht : s.pc t = .writing)
    (hu : s.pc u = .writing) : u = t :=
  (Inv.reach hs).exclW (by rw [ht]; rfl) (by rw [hu]; rfl)

/-! ### C53 -/

/-- C53: no deadlock and no lost wake-up, for any finite set of threads and any reachable state, with or without spurious
wake-ups (`sp`): the lock and unlock
calls that are in progress can always be continued, by their own steps alone and without relying on spurious wake-ups, until somebody holds the lock or every call
has returned and the lock is free. -/
theorem C53_no_deadlock {sp : Bool} (ts : List T) (hts : ∀ t, t ∈ ts) (s : Inner T) (hs : Reach sp s) :
    ∃ s', IRun s s' ∧ ((∃ t, s'.pc t = .reading ∨ s'.pc t = .writing) ∨ ∀ t, s'.pc t = .idle) :=
  (Inv.reach hs).liveness ts hts

/-- A writer blocked in `Cv.wait` is never forgotten: whenever no reader is registered, some reader is still in the
notification loop of `ReadUnlock`. -/
theorem C53_no_lost_wakeup {sp : Bool} (s : Inner T) (hs : Reach sp s) (t : T) (ht : s.pc t = .wl5) (h0 : s.cnt = 0) :
    ∃ u, s.pc u = .ru3 ∨ s.pc u = .ru4 ∨ s.pc u = .ru5 :=
  (Inv.reach hs).wake t (Or.inr ht) h0

/-- A state where a writer sleeps in `Cv.wait` while the last reader has just left. -/
example : ∃ s : Inner Bool, Reach false s ∧ s.pc false = .wl5 ∧ s.cnt = 0 := by
  have h := Reach.init (T := Bool) (sp := false)
  have h := Reach.step _ _ h (.callRL _ true rfl)
  have h := Reach.step _ _ h (.inside _ _ _ (.rl1 _ true rfl rfl))
  have h := Reach.step _ _ h (.inside _ _ _ (.rl2 _ true rfl rfl))
  have h := Reach.step _ _ h (.inside _ _ _ (.rl3 _ true rfl))
  have h := Reach.step _ _ h (.inside _ _ _ (.rl4 _ true rfl))
  have h := Reach.step _ _ h (.inside _ _ _ (.rl5 _ true rfl))
  have h := Reach.step _ _ h (.callWL _ false rfl)
  have h := Reach.step _ _ h (.inside _ _ _ (.wl1 _ false rfl rfl))
  have h := Reach.step _ _ h (.inside _ _ _ (.wl2 _ false rfl))
  have h := Reach.step _ _ h (.inside _ _ _ (.wl3 _ false rfl))
  have h := Reach.step _ _ h (.callRU _ true rfl)
  have h := Reach.step _ _ h (.inside _ _ _ (.ru1 _ true rfl rfl))
  have h := Reach.step _ _ h (.inside _ _ _ (.ru2 _ true rfl))
  have h := Reach.step _ _ h (.inside _ _ _ (.wl4 _ false rfl))
  exact ⟨_, h, rfl, rfl⟩

/-! ### C42, C43 -/

/-- Reachable states of histories in which no thread ever works with two mutexes at once: at each moment all locks a thread
holds, and the call it is in, concern one mutex (another one may be used after all are released). -/
inductive SReachOne (sp : Bool) : Sys M T → Prop
  | init : SReachOne sp (Sys.init M T)
  | step (s s') : SReachOne sp s → SStep sp s s' →
      (∀ t, ∃ m, (∀ e ∈ s'.stack t, e.2 = m) ∧ ∀ m', (s'.job t).mtx = some m' → m' = m) → SReachOne sp s'

theorem SReachOne.inv [Nonempty M] {sp : Bool} {s : Sys M T} (h : SReachOne sp s) : SInv sp s := by
  induction h with
  | init => exact SInv.init
  | step s s' _ hs ho ih => exact ih.step hs ho

theorem SReachOne.of_unit {sp : Bool} {s : Sys Unit T} (h : SReach sp s) : SReachOne sp s := by
  induction h with
  | init => exact .init
  | step s s' _ hs ih => exact .step _ _ ih hs (fun t => ⟨(), fun _ _ => rfl, fun _ _ => rfl⟩)

/-- C43 (partial: each thread uses one mutex at a time; see `C43_refuted_nested`). Any number of mutexes and threads, any
nesting of read and write locks on the same mutex, any schedule: if a thread in user code holds a write lock on `m`, then no
other thread in user code holds any lock on `m`. -/
theorem C43_independent_partial (s : Sys M T) (hs : SReachOne false s) (t u : T) (hne : u ≠ t) (m : M)
    (htf : s.job t = .free) (huf : s.job u = .free) (ht : (Kind.W, m) ∈ s.stack t) (k : Kind) : (k, m) ∉ s.stack u := by
  intro hu
  have : Nonempty M := ⟨m⟩
  have hinv := hs.inv
  have nWpos : ∀ l : List (Kind × M), (Kind.W, m) ∈ l → nW l ≠ 0 := by
    intro l
    induction l with
    | nil => simp
    | cons e l ih =>
      obtain ⟨k, m'⟩ := e
      intro hm
      cases k with
      | W => simp [nW]
      | R => simp only [nW]; rcases List.mem_cons.1 hm with h | h; simp at h; exact ih h
  obtain ⟨m1, a1, a2, a3, a4, a5⟩ := hinv.thr t
  obtain ⟨m2, b1, b2, b3, b4, b5⟩ := hinv.thr u
  have e1 : m = m1 := a1 _ ht
  have e2 : m = m2 := b1 _ hu
  subst e1 e2
  rw [htf] at a5; rw [huf] at b5
  simp only [TOk, nWpos _ ht, if_false] at a5
  have hW := phase_writing.1 a5
  obtain ⟨c1, c2, -, -⟩ := (hinv.inner m).exclusion hW hne
  simp only [TOk] at b5
  by_cases hn : nW (s.stack u) = 0
  · by_cases ho : outerR (s.stack u) = 0
    · rw [stack_nil hn ho] at hu; simp at hu
    · simp only [hn, ho, if_true, if_false] at b5
      rw [phase_reading.1 b5] at c1; simp [registered] at c1
  · simp only [hn, if_false] at b5
    exact c2 (phase_writing.1 b5)

/-- C42 (partial only in that `Cv.wait` must not wake spuriously). One recursive mutex, any number of threads, any nesting
of read and write locks in each thread, any schedule: if a thread in user code holds a write lock (at any depth), then no
other thread in user code holds any lock. -/
theorem C42_recursive_exclusion_partial (s : Sys Unit T) (hs : SReach false s) (t u : T) (hne : u ≠ t)
    (htf : s.job t = .free) (huf : s.job u = .free) (ht : (Kind.W, ()) ∈ s.stack t) : s.stack u = [] := by
  cases hl : s.stack u with
  | nil => rfl
  | cons e l =>
    obtain ⟨k, ⟨⟩⟩ := e
    exact absurd (by rw [hl]; simp) (C43_independent_partial s (.of_unit hs) t u hne () htf huf ht k)

/-- Two threads in user code never both hold write locks, even with spurious wake-ups. -/
theorem C42_writers_exclusive {sp : Bool} (s : Sys Unit T) (hs : SReach sp s) (t u : T) (htf : s.job t = .free) (huf : s.job u = .free)
    (ht : (Kind.W, ()) ∈ s.stack t) (hu : (Kind.W, ()) ∈ s.stack u) : u = t := by
  have hinv := (SReachOne.of_unit hs).inv
  have nWpos : ∀ l : List (Kind × Unit), (Kind.W, ()) ∈ l → nW l ≠ 0 := by
    intro l
    induction l with
    | nil => simp
    | cons e l ih =>
      obtain ⟨k, m'⟩ := e
      intro hm
      cases k with
      | W => simp [nW]
      | R => simp only [nW]; rcases List.mem_cons.1 hm with h | h; simp at h; exact ih h
  obtain ⟨m1, a1, a2, a3, a4, a5⟩ := hinv.thr t
  obtain ⟨m2, b1, b2, b3, b4, b5⟩ := hinv.thr u
  rw [htf] at a5; rw [huf] at b5
  simp only [TOk, nWpos _ ht, if_false] at a5
  simp only [TOk, nWpos _ hu, if_false] at b5
  exact (hinv.inner ()).exclW (by rw [phase_writing.1 a5]; rfl) (by rw [phase_writing.1 b5]; rfl)

/-- C42, counters: the thread's write counter is the number of its write locks and its read counter the number of read
locks taken before the outermost write lock, so no unlock ever decrements a counter below zero. -/
theorem C42_counters {sp : Bool} (s : Sys Unit T) (hs : SReach sp s) (t : T) :
    s.lw t = (s.stack t).countP (fun e => e.1 = Kind.W) ∧
    s.lr t = ((s.stack t).reverse.takeWhile (fun e => e.1 = Kind.R)).length := by
  obtain ⟨m, -, -, h3, h4, -⟩ := (SReachOne.of_unit hs).inv.thr t
  have cW : ∀ l : List (Kind × Unit), nW l = l.countP (fun e => e.1 = Kind.W) := by
    intro l
    induction l with
    | nil => rfl
    | cons e l ih => obtain ⟨k, _⟩ := e; cases k <;> simp [nW, ih]
  have all0 : ∀ l : List (Kind × Unit), nW l = 0 → ∀ e ∈ l, e.1 = Kind.R := by
    intro l
    induction l with
    | nil => simp
    | cons e l ih =>
      obtain ⟨k, _⟩ := e
      cases k with
      | W => simp [nW]
      | R => intro h e he; rcases List.mem_cons.1 he with rfl | he; rfl; exact ih h e he
  have exW : ∀ l : List (Kind × Unit), nW l ≠ 0 → ∃ e ∈ l, ¬ e.1 = Kind.R := by
    intro l
    induction l with
    | nil => simp [nW]
    | cons e l ih =>
      obtain ⟨k, x⟩ := e
      cases k with
      | W => intro _; exact ⟨(.W, x), by simp, by simp⟩
      | R => intro h; obtain ⟨e, he, hk⟩ := ih h; exact ⟨e, by simp [he], hk⟩
  have tw : ∀ (l l' : List (Kind × Unit)), (∃ e ∈ l, ¬ e.1 = Kind.R) →
      (l ++ l').takeWhile (fun e => decide (e.1 = Kind.R)) = l.takeWhile (fun e => decide (e.1 = Kind.R)) := by
    intro l l'
    induction l with
    | nil => simp
    | cons e l ih =>
      intro ⟨x, hx, hk⟩
      simp only [List.cons_append, List.takeWhile_cons]
      by_cases h : e.1 = Kind.R
      · simp only [h, decide_true, if_true]
        congr 1
        apply ih
        rcases List.mem_cons.1 hx with rfl | hx
        · exact absurd h hk
        · exact ⟨x, hx, hk⟩
      · simp [h]
  have tall : ∀ (l : List (Kind × Unit)), (∀ e ∈ l, e.1 = Kind.R) →
      l.takeWhile (fun e => decide (e.1 = Kind.R)) = l := by
    intro l
    induction l with
    | nil => simp
    | cons e l ih => intro h; simp [h e (by simp), ih (fun e he => h e (by simp [he]))]
  have cR : ∀ l : List (Kind × Unit), outerR l = (l.reverse.takeWhile (fun e => e.1 = Kind.R)).length := by
    intro l
    induction l with
    | nil => rfl
    | cons e l ih =>
      obtain ⟨k, x⟩ := e
      rw [List.reverse_cons]
      by_cases hw : nW l = 0
      · have ha : ∀ e ∈ l.reverse, e.1 = Kind.R := fun e he => all0 l hw e (by simpa using he)
        cases k with
        | W =>
          simp only [outerR, ih]
          have e1 := tall _ ha
          have : ∀ l' : List (Kind × Unit), (∀ e ∈ l', e.1 = Kind.R) →
              (l' ++ [(Kind.W, x)]).takeWhile (fun e => decide (e.1 = Kind.R)) = l' := by
            intro l'
            induction l' with
            | nil => simp
            | cons e l' ih => intro h; simp [h e (by simp), ih (fun e he => h e (by simp [he]))]
          rw [this _ ha, e1]
        | R =>
          simp only [outerR, hw, if_true, ih]
          rw [tall _ ha, tall (l.reverse ++ [(Kind.R, x)])]
          · simp
          · intro e he
            rcases List.mem_append.1 he with he | he
            · exact ha e he
            · simp at he; rw [he]
      · obtain ⟨e, he, hk⟩ := exW l hw
        rw [tw _ _ ⟨e, by simpa using he, hk⟩, ← ih]
        cases k <;> simp [outerR, hw]
  exact ⟨by rw [h3, cW], by rw [h4, cR]⟩

/-- A concrete nested history: thread `false` read-locks, upgrades to a write lock and takes a read lock inside; the
hypotheses of C42 hold there. -/
example : ∃ s : Sys Unit Bool, SReach false s ∧ s.job false = .free ∧ s.job true = .free ∧
    s.stack false = [(.R, ()), (.W, ()), (.R, ())] := by
  have h := SReach.init (M := Unit) (T := Bool) (sp := false)
  have h := SReach.step _ _ h (.readLockCall _ false () rfl rfl rfl)
  have h := SReach.step _ _ h (.inside _ _ () _ (.rl1 _ false rfl rfl))
  have h := SReach.step _ _ h (.inside _ _ () _ (.rl2 _ false rfl rfl))
  have h := SReach.step _ _ h (.inside _ _ () _ (.rl3 _ false rfl))
  have h := SReach.step _ _ h (.inside _ _ () _ (.rl4 _ false rfl))
  have h := SReach.step _ _ h (.inside _ _ () _ (.rl5 _ false rfl))
  have h := SReach.step _ _ h (.readLockDone _ false () rfl rfl)
  have h := SReach.step _ _ h (.writeLockUpgrade _ false () rfl rfl (by decide))
  have h := SReach.step _ _ h (.inside _ _ () _ (.ru1 _ false rfl rfl))
  have h := SReach.step _ _ h (.inside _ _ () _ (.ru2 _ false rfl))
  have h := SReach.step _ _ h (.inside _ _ () _ (.ru3 _ false rfl))
  have h := SReach.step _ _ h (.inside _ _ () _ (.ru4 _ false rfl))
  have h := SReach.step _ _ h (.inside _ _ () _ (.ru6 _ false rfl))
  have h := SReach.step _ _ h (.writeLockUpgraded _ false () rfl rfl)
  have h := SReach.step _ _ h (.inside _ _ () _ (.wl1 _ false rfl rfl))
  have h := SReach.step _ _ h (.inside _ _ () _ (.wl2 _ false rfl))
  have h := SReach.step _ _ h (.inside _ _ () _ (.wl3 _ false rfl))
  have h := SReach.step _ _ h (.inside _ _ () _ (.wl6 _ false rfl))
  have h := SReach.step _ _ h (.writeLockDone _ false () rfl rfl)
  have h := SReach.step _ _ h (.readLockFast _ false () rfl (Or.inl (by decide)))
  exact ⟨_, h, rfl, rfl, rfl⟩

/-- C43 is false for nested locks: the counters of lines 68-69 are shared by all mutexes, so a thread that write-locks mutex
`A` (`false`) and then mutex `B` (`true`) does not lock `B` at all, and another thread can write-lock `B` meanwhile: two
threads in user code hold the write lock of the same mutex. -/
theorem C43_refuted_nested : ∃ s : Sys Bool Bool, SReach false s ∧ s.job false = .free ∧ s.job true = .free ∧
    (Kind.W, true) ∈ s.stack false ∧ (Kind.W, true) ∈ s.stack true := by
  have h := SReach.init (M := Bool) (T := Bool) (sp := false)
  have h := SReach.step _ _ h (.writeLockCall _ false false rfl rfl rfl)
  have h := SReach.step _ _ h (.inside _ _ false _ (.wl1 _ false rfl rfl))
  have h := SReach.step _ _ h (.inside _ _ false _ (.wl2 _ false rfl))
  have h := SReach.step _ _ h (.inside _ _ false _ (.wl3 _ false rfl))
  have h := SReach.step _ _ h (.inside _ _ false _ (.wl6 _ false rfl))
  have h := SReach.step _ _ h (.writeLockDone _ false false rfl rfl)
  have h := SReach.step _ _ h (.writeLockFast _ false true rfl (by decide))
  have h := SReach.step _ _ h (.writeLockCall _ true true rfl rfl rfl)
  have h := SReach.step _ _ h (.inside _ _ true _ (.wl1 _ true rfl rfl))
  have h := SReach.step _ _ h (.inside _ _ true _ (.wl2 _ true rfl))
  have h := SReach.step _ _ h (.inside _ _ true _ (.wl3 _ true rfl))
  have h := SReach.step _ _ h (.inside _ _ true _ (.wl6 _ true rfl))
  have h := SReach.step _ _ h (.writeLockDone _ true true rfl rfl)
  exact ⟨_, h, rfl, rfl, by decide, by decide⟩

/-- C42 refuted in general: one thread holds a read lock, a writer blocks in `Cv.wait`, wakes spuriously (the wait has no
predicate, ReadWriteMutex.cpp line 54) and holds the write lock beside the reader. -/
theorem C42_refuted_spurious : ∃ s : Sys Unit Bool, SReach true s ∧ s.job false = .free ∧ s.job true = .free ∧
    (Kind.W, ()) ∈ s.stack false ∧ (Kind.R, ()) ∈ s.stack true := by
  have h := SReach.init (M := Unit) (T := Bool) (sp := true)
  have h := SReach.step _ _ h (.readLockCall _ true () rfl rfl rfl)
  have h := SReach.step _ _ h (.inside _ _ () _ (.rl1 _ true rfl rfl))
  have h := SReach.step _ _ h (.inside _ _ () _ (.rl2 _ true rfl rfl))
  have h := SReach.step _ _ h (.inside _ _ () _ (.rl3 _ true rfl))
  have h := SReach.step _ _ h (.inside _ _ () _ (.rl4 _ true rfl))
  have h := SReach.step _ _ h (.inside _ _ () _ (.rl5 _ true rfl))
  have h := SReach.step _ _ h (.readLockDone _ true () rfl rfl)
  have h := SReach.step _ _ h (.writeLockCall _ false () rfl rfl rfl)
  have h := SReach.step _ _ h (.inside _ _ () _ (.wl1 _ false rfl rfl))
  have h := SReach.step _ _ h (.inside _ _ () _ (.wl2 _ false rfl))
  have h := SReach.step _ _ h (.inside _ _ () _ (.wl3 _ false rfl))
  have h := SReach.step _ _ h (.inside _ _ () _ (.wl4 _ false rfl))
  have h := SReach.step _ _ h (.inside _ _ () _ (.spurious _ false rfl rfl))
  have h := SReach.step _ _ h (.inside _ _ () _ (.wl6 _ false rfl))
  have h := SReach.step _ _ h (.writeLockDone _ false () rfl rfl)
  exact ⟨_, h, rfl, rfl, by decide, by decide⟩

/-- C43 refuted by the locks of a single library call: thread `false` runs a request on vault `false` into a set that is still attached to vault
`true`. It read-locks vault `false` (Vault.hpp line 281) and then, in `VaultRecordSet::Reset` (VaultRecordSet.cpp line 250), write-locks vault
`true`; because the read counter is shared by all mutexes this first *unlocks* vault `true` for reading (ReadWriteMutex.cpp line 112), which it never
locked, and the write lock is granted while thread `true` is reading there. -/
theorem C43_refuted_upgrade : ∃ s : Sys Bool Bool, SReach false s ∧ s.job false = .free ∧ s.job true = .free ∧
    s.stack false = [(Kind.W, true), (Kind.R, false)] ∧ s.stack true = [(Kind.R, true)] := by
  have h := SReach.init (M := Bool) (T := Bool) (sp := false)
  have h := SReach.step _ _ h (.readLockCall _ true true rfl rfl rfl)
  have h := SReach.step _ _ h (.inside _ _ true _ (.rl1 _ true rfl rfl))
  have h := SReach.step _ _ h (.inside _ _ true _ (.rl2 _ true rfl rfl))
  have h := SReach.step _ _ h (.inside _ _ true _ (.rl3 _ true rfl))
  have h := SReach.step _ _ h (.inside _ _ true _ (.rl4 _ true rfl))
  have h := SReach.step _ _ h (.inside _ _ true _ (.rl5 _ true rfl))
  have h := SReach.step _ _ h (.readLockDone _ true true rfl rfl)
  have h := SReach.step _ _ h (.readLockCall _ false false rfl rfl rfl)
  have h := SReach.step _ _ h (.inside _ _ false _ (.rl1 _ false rfl rfl))
  have h := SReach.step _ _ h (.inside _ _ false _ (.rl2 _ false rfl rfl))
  have h := SReach.step _ _ h (.inside _ _ false _ (.rl3 _ false rfl))
  have h := SReach.step _ _ h (.inside _ _ false _ (.rl4 _ false rfl))
  have h := SReach.step _ _ h (.inside _ _ false _ (.rl5 _ false rfl))
  have h := SReach.step _ _ h (.readLockDone _ false false rfl rfl)
  have h := SReach.step _ _ h (.writeLockUpgrade _ false true rfl rfl (by decide))
  have h := SReach.step _ _ h (.inside _ _ true _ (.ru1 _ false rfl rfl))
  have h := SReach.step _ _ h (.inside _ _ true _ (.ru2 _ false rfl))
  have h := SReach.step _ _ h (.inside _ _ true _ (.ru3 _ false rfl))
  have h := SReach.step _ _ h (.inside _ _ true _ (.ru4 _ false rfl))
  have h := SReach.step _ _ h (.inside _ _ true _ (.ru6 _ false rfl))
  have h := SReach.step _ _ h (.writeLockUpgraded _ false true rfl rfl)
  have h := SReach.step _ _ h (.inside _ _ true _ (.wl1 _ false rfl rfl))
  have h := SReach.step _ _ h (.inside _ _ true _ (.wl2 _ false rfl))
  have h := SReach.step _ _ h (.inside _ _ true _ (.wl3 _ false rfl))
  have h := SReach.step _ _ h (.inside _ _ true _ (.wl6 _ false rfl))
  have h := SReach.step _ _ h (.writeLockDone _ false true rfl rfl)
  exact ⟨_, h, rfl, rfl, by decide, by decide⟩

/-- A history of two mutexes used one after the other meets the hypothesis of `C43_independent_partial`. -/
example : ∃ s : Sys Bool Bool, SReachOne false s ∧ s.job false = .free ∧ s.stack false = [(.W, false)] := by
  have h := SReachOne.init (M := Bool) (T := Bool) (sp := false)
  have h := SReachOne.step _ _ h (.writeLockCall _ false false rfl rfl rfl)
    (fun t => ⟨false, by cases t <;> simp [Sys.call, Sys.init], by cases t <;> simp [Sys.call, Sys.init, upd, Job.mtx]⟩)
  have h := SReachOne.step _ _ h (.inside _ _ false _ (.wl1 _ false rfl rfl))
    (fun t => ⟨false, by cases t <;> simp [Sys.call, Sys.init], by cases t <;> simp [Sys.call, Sys.init, upd, Job.mtx]⟩)
  have h := SReachOne.step _ _ h (.inside _ _ false _ (.wl2 _ false rfl))
    (fun t => ⟨false, by cases t <;> simp [Sys.call, Sys.init], by cases t <;> simp [Sys.call, Sys.init, upd, Job.mtx]⟩)
  have h := SReachOne.step _ _ h (.inside _ _ false _ (.wl3 _ false rfl))
    (fun t => ⟨false, by cases t <;> simp [Sys.call, Sys.init], by cases t <;> simp [Sys.call, Sys.init, upd, Job.mtx]⟩)
  have h := SReachOne.step _ _ h (.inside _ _ false _ (.wl6 _ false rfl))
    (fun t => ⟨false, by cases t <;> simp [Sys.call, Sys.init], by cases t <;> simp [Sys.call, Sys.init, upd, Job.mtx]⟩)
  have h := SReachOne.step _ _ h (.writeLockDone _ false false rfl rfl)
    (fun t => ⟨false, by cases t <;> simp [Sys.call, Sys.init, upd], by cases t <;> simp [Sys.call, Sys.init, upd, Job.mtx]⟩)
  exact ⟨_, h, rfl, rfl⟩

end MVault.Mtx
