import Verif.RecFairLemmas
/-
C97: who waits for the lock of a vault gets it.
-/
set_option linter.unusedSectionVars false
set_option linter.unusedSimpArgs false
set_option linter.unusedVariables false
namespace MVault.Mtx
variable {T : Type} [DecidableEq T] {M : Type} [DecidableEq M] {sp : Bool}

theorem phase_rl {p : Pc} (h : phase p = .rl) : p = .rl1 ∨ p = .rl2 ∨ p = .rl3 ∨ p = .rl4 ∨ p = .rl5 := by cases p <;> simp [phase] at h <;> simp
theorem phase_ru {p : Pc} (h : phase p = .ru) : p = .ru1 ∨ p = .ru2 ∨ p = .ru3 ∨ p = .ru4 ∨ p = .ru5 ∨ p = .ru6 := by cases p <;> simp [phase] at h <;> simp
theorem phase_wl {p : Pc} (h : phase p = .wl) : p = .wl1 ∨ p = .wl2 ∨ p = .wl3 ∨ p = .wl4 ∨ p = .wl5 ∨ p = .wl6 := by cases p <;> simp [phase] at h <;> simp
theorem phase_wu {p : Pc} (h : phase p = .wu) : p = .wu1 := by cases p <;> simp [phase] at h <;> simp

/-- What a thread in a call does in the inner mutex of the vault of the call. -/
theorem tok_at {s : Sys M T} {t : T} (h : ThreadOk s t) {m : M} (hb : (s.job t).mtx = some m) :
    TOk (s.stack t) (s.lr t) (s.lw t) m (s.job t) (phase ((s.inner m).pc t)) := by
  obtain ⟨m0, _, _, _, _, h5⟩ := h
  have : m0 = m := by
    cases hj : s.job t <;> rw [hj] at hb h5 <;> simp [Job.mtx] at hb <;> obtain ⟨q, _⟩ := h5 <;> rw [← q, hb]
  subst this; exact h5

theorem reads_in {e : Exec T sp} (hf : e.Fair) (hr : e.Releases) {t : T} {i : Nat} (hp : phase ((e.σ i).pc t) = .rl ∨ phase ((e.σ i).pc t) = .reading) :
    ∃ j ≥ i, (e.σ j).pc t = .reading := by
  rcases hp with hp | hp
  · rcases phase_rl hp with h | h | h | h | h
    · exact C94_read_lock_returns hf hr h
    all_goals
      obtain ⟨j, hj, q, _⟩ := C94_reader_enters hf.scheduled (t := t) (i := i) (by simp [h])
      exact ⟨j, hj, q⟩
  · exact ⟨i, Nat.le_refl _, phase_reading.1 hp⟩

theorem writes_in {e : Exec T sp} (hf : e.Fair) (hr : e.Releases) {t : T} {i : Nat} (hp : phase ((e.σ i).pc t) = .wl ∨ phase ((e.σ i).pc t) = .writing) :
    ∃ j ≥ i, (e.σ j).pc t = .writing := by
  rcases hp with hp | hp
  · rcases phase_wl hp with h | h | h | h | h | h
    · exact C94_write_lock_returns hf hr h
    all_goals exact C94_writer_enters hf.scheduled hr (t := t) (i := i) (by simp [h])
  · exact ⟨i, Nat.le_refl _, phase_writing.1 hp⟩

section
variable [Nonempty M] {e : RExec M T sp} (ho : e.OneVault) (hf : e.Fair) (hr : e.Releases) {t : T} {i : Nat} {m : M}
include ho hf hr

/-- **C97.** A thread that calls `ReadLock` of a vault gets the lock (the call returns, with one read lock more). -/
theorem C97_read_lock_returns (hj : (e.σ i).job t = .rl m) :
    ∃ j ≥ i, (e.σ j).job t = .free ∧ (e.σ j).stack t = (.R, m) :: (e.σ i).stack t := by
  obtain ⟨j, a, _, _, h⟩ := returns ho hf (J := .rl m) (m := m) rfl hj fun hall => by
    have := tok_at ((ho.inv i).thr t) (m := m) (by rw [hj]; rfl)
    rw [hj] at this
    obtain ⟨j, a, q⟩ := reads_in (at_fair ho hf m) (at_releases ho hf hr m) (t := t) (i := i) this.2.2
    exact ⟨j, a, [], _, _, by rw [show ((e.σ j).inner m).pc t = .reading from q]; exact .rl⟩
  refine ⟨j + 1, by omega, ?_⟩
  generalize ((e.σ j).inner m).pc t = P at h
  generalize (e.σ (j + 1)).job t = J at h ⊢
  generalize (e.σ (j + 1)).stack t = l at h ⊢
  cases h; exact ⟨rfl, rfl⟩

/-- **C97.** A thread that calls `WriteLock` of a vault, and holds no read lock (or has given it back), gets the lock. -/
theorem C97_write_lock_returns (hj : (e.σ i).job t = .wl m) :
    ∃ j ≥ i, (e.σ j).job t = .free ∧ (e.σ j).stack t = (.W, m) :: (e.σ i).stack t := by
  obtain ⟨j, a, _, _, h⟩ := returns ho hf (J := .wl m) (m := m) rfl hj fun hall => by
    have := tok_at ((ho.inv i).thr t) (m := m) (by rw [hj]; rfl)
    rw [hj] at this
    obtain ⟨j, a, q⟩ := writes_in (at_fair ho hf m) (at_releases ho hf hr m) (t := t) (i := i) this.2.2
    exact ⟨j, a, [], _, _, by rw [show ((e.σ j).inner m).pc t = .writing from q]; exact .wl⟩
  refine ⟨j + 1, by omega, ?_⟩
  generalize ((e.σ j).inner m).pc t = P at h
  generalize (e.σ (j + 1)).job t = J at h ⊢
  generalize (e.σ (j + 1)).stack t = l at h ⊢
  cases h; exact ⟨rfl, rfl⟩

theorem reacquired (hj : (e.σ i).job t = .wuReacquire m) :
    ∃ j ≥ i, (e.σ j).job t = .free ∧ (e.σ j).stack t = ((e.σ i).stack t).tail := by
  obtain ⟨j, a, _, _, h⟩ := returns ho hf (J := .wuReacquire m) (m := m) rfl hj fun hall => by
    have := tok_at ((ho.inv i).thr t) (m := m) (by rw [hj]; rfl)
    rw [hj] at this
    obtain ⟨j, a, q⟩ := reads_in (at_fair ho hf m) (at_releases ho hf hr m) (t := t) (i := i) this.2.2.2.2
    exact ⟨j, a, [], _, _, by rw [show ((e.σ j).inner m).pc t = .reading from q]; exact .wuR⟩
  refine ⟨j + 1, by omega, ?_⟩
  generalize ((e.σ j).inner m).pc t = P at h
  generalize (e.σ (j + 1)).job t = J at h ⊢
  generalize (e.σ (j + 1)).stack t = l at h ⊢
  cases h; exact ⟨rfl, rfl⟩

/-- **C97.** `WriteUnlock` returns, also when the thread held a read lock before it asked for the write lock and so waits for the read lock again. -/
theorem C97_write_unlock_returns (hj : (e.σ i).job t = .wuRelease m ∨ (e.σ i).job t = .wuReacquire m) :
    ∃ j ≥ i, (e.σ j).job t = .free ∧ (e.σ j).stack t = ((e.σ i).stack t).tail := by
  rcases hj with hj | hj
  · obtain ⟨j, a, _, hs, h⟩ := returns ho hf (J := .wuRelease m) (m := m) rfl hj fun hall => by
      have := tok_at ((ho.inv i).thr t) (m := m) (by rw [hj]; rfl)
      rw [hj] at this
      obtain ⟨_, _, _, q | q⟩ := this
      · obtain ⟨j, a, q⟩ := C94_write_unlock_returns (at_fair ho hf m).scheduled (t := t) (i := i) (phase_wu q)
        exact ⟨j, a, [], _, _, by rw [show ((e.σ j).inner m).pc t = .idle from q]; exact .wu⟩
      · exact ⟨i, Nat.le_refl _, [], _, _, by rw [phase_idle.1 q]; exact .wu⟩
    generalize ((e.σ j).inner m).pc t = P at h
    generalize hJ : (e.σ (j + 1)).job t = J at h
    generalize hl : (e.σ (j + 1)).stack t = l at h
    cases h with
    | wu => exact ⟨j + 1, by omega, hJ, hl⟩
    | again =>
      obtain ⟨k, b, q1, q2⟩ := reacquired ho hf hr hJ
      exact ⟨k, by omega, q1, by rw [q2, hl]⟩
  · exact reacquired ho hf hr hj

/-- The inner `ReadUnlock` ends. -/
theorem unlocks {J : Job M} (hb : J.mtx = some m) (hall : ∀ j ≥ i, (e.σ j).job t = J) (hJ : ∀ j ≥ i, phase (((e.σ j).inner m).pc t) = .ru ∨ phase (((e.σ j).inner m).pc t) = .idle)
    (hn : ∃ n, ∀ j ≥ n, ∀ u, u ≠ t → ((e.σ j).inner m).pc u ≠ .wl2) : ∃ j ≥ i, ((e.σ j).inner m).pc t = .idle := by
  obtain ⟨n, hn⟩ := hn
  rcases hJ (i + n) (by omega) with q | q
  · obtain ⟨j, a, q⟩ := C94_read_unlock_returns_if_writers_stop (e := e.at_ ho m) (at_fair ho hf m) (at_releases ho hf hr m) (t := t) (i := i + n) (by
      intro j hj u
      by_cases hu : u = t
      · subst hu
        intro hc
        have hc : ((e.σ j).inner m).pc u = .wl2 := hc
        rcases hJ j (by omega) with q | q <;> rw [hc] at q <;> simp [phase] at q
      · exact hn j (by omega) u hu) (phase_ru q)
    exact ⟨j, by omega, q⟩
  · exact ⟨i + n, by omega, phase_idle.1 q⟩

/-- **C97**, what is left of it for `ReadUnlock`: it returns if from some time on no `WriteLock` call of another thread gets the inner mutex (ReadWriteMutex.cpp line 50). -/
theorem C97_read_unlock_returns_if_writers_stop (hj : (e.σ i).job t = .ru m) (hn : ∃ n, ∀ j ≥ n, ∀ u, u ≠ t → ((e.σ j).inner m).pc u ≠ .wl2) :
    ∃ j ≥ i, (e.σ j).job t = .free ∧ (e.σ j).stack t = ((e.σ i).stack t).tail := by
  obtain ⟨j, a, _, _, h⟩ := returns ho hf (J := .ru m) (m := m) rfl hj fun hall => by
    obtain ⟨j, a, q⟩ := unlocks ho hf hr (J := .ru m) rfl hall (fun j hj' => by
      have := tok_at ((ho.inv j).thr t) (m := m) (by rw [hall j hj']; rfl)
      rw [hall j hj'] at this
      exact this.2.2) hn
    exact ⟨j, a, [], _, _, by rw [q]; exact .ru⟩
  refine ⟨j + 1, by omega, ?_⟩
  generalize ((e.σ j).inner m).pc t = P at h
  generalize (e.σ (j + 1)).job t = J at h ⊢
  generalize (e.σ (j + 1)).stack t = l at h ⊢
  cases h; exact ⟨rfl, rfl⟩

/-- **C97**, what is left of it for `WriteLock` of a thread that holds a read lock: it gives the read lock back and then gets the write lock, if from some time on no
`WriteLock` call of another thread gets the inner mutex. -/
theorem C97_upgrade_returns_if_writers_stop (hj : (e.σ i).job t = .wlRelease m) (hn : ∃ n, ∀ j ≥ n, ∀ u, u ≠ t → ((e.σ j).inner m).pc u ≠ .wl2) :
    ∃ j ≥ i, (e.σ j).job t = .free ∧ (e.σ j).stack t = (.W, m) :: (e.σ i).stack t := by
  obtain ⟨j, a, _, _, h⟩ := returns ho hf (J := .wlRelease m) (m := m) rfl hj fun hall => by
    obtain ⟨j, a, q⟩ := unlocks ho hf hr (J := .wlRelease m) rfl hall (fun j hj' => by
      have := tok_at ((ho.inv j).thr t) (m := m) (by rw [hall j hj']; rfl)
      rw [hall j hj'] at this
      exact this.2.2.2) hn
    exact ⟨j, a, [], _, _, by rw [q]; exact .upgrade⟩
  generalize ((e.σ j).inner m).pc t = P at h
  generalize hJ : (e.σ (j + 1)).job t = J at h
  generalize hl : (e.σ (j + 1)).stack t = l at h
  cases h
  obtain ⟨k, b, q1, q2⟩ := C97_write_lock_returns ho hf hr hJ
  exact ⟨k, by omega, q1, by rw [q2, hl]⟩

/-- **C97.** In short: every call on the locks of vaults returns, if from some time on no `WriteLock` call of another thread gets the inner mutex of the vault. -/
theorem C97_every_call_returns (hn : ∀ m, ∃ n, ∀ j ≥ n, ∀ u, u ≠ t → ((e.σ j).inner m).pc u ≠ .wl2) (i : Nat) : ∃ j ≥ i, (e.σ j).job t = .free := by
  cases hj : (e.σ i).job t with
  | free => exact ⟨i, Nat.le_refl _, hj⟩
  | rl m => obtain ⟨j, a, b, _⟩ := C97_read_lock_returns ho hf hr hj; exact ⟨j, a, b⟩
  | wl m => obtain ⟨j, a, b, _⟩ := C97_write_lock_returns ho hf hr hj; exact ⟨j, a, b⟩
  | ru m => obtain ⟨j, a, b, _⟩ := C97_read_unlock_returns_if_writers_stop ho hf hr hj (hn m); exact ⟨j, a, b⟩
  | wlRelease m => obtain ⟨j, a, b, _⟩ := C97_upgrade_returns_if_writers_stop ho hf hr hj (hn m); exact ⟨j, a, b⟩
  | wuRelease m => obtain ⟨j, a, b, _⟩ := C97_write_unlock_returns ho hf hr (.inl hj); exact ⟨j, a, b⟩
  | wuReacquire m => obtain ⟨j, a, b, _⟩ := C97_write_unlock_returns ho hf hr (.inr hj); exact ⟨j, a, b⟩

end

/-! ### Concrete infinite executions of two threads and one vault -/

/-- With one vault every thread works with one vault. -/
theorem oneVault_unit (e : RExec Unit T sp) : e.OneVault := fun _ _ => ⟨(), fun _ _ => rfl, fun _ _ => rfl⟩

/-- A state of two threads and one vault: the inner mutex, and for the threads `false`, `true` the call, the counters and the locks. -/
def row (s : Inner Bool) (jf jt : Job Unit) (rf rt wf wt : Nat) (lf lt : List (Kind × Unit)) : Sys Unit Bool :=
  ⟨fun _ => s, fun b => if b then rt else rf, fun b => if b then wt else wf, fun b => if b then jt else jf, fun b => if b then lt else lf⟩

theorem acts_row {s s' : Sys Unit Bool} {b : Bool} {i : Inner Bool} {jf jt : Job Unit} {rf rt wf wt : Nat} {lf lt : List (Kind × Unit)} (h : SActs sp s b s')
    (h0 : s'.inner () = i) (h1 : s'.job false = jf) (h2 : s'.job true = jt) (h3 : s'.lr false = rf) (h4 : s'.lr true = rt) (h5 : s'.lw false = wf) (h6 : s'.lw true = wt)
    (h7 : s'.stack false = lf) (h8 : s'.stack true = lt) : SActs sp s b (row i jf jt rf rt wf wt lf lt) := by
  have : s' = row i jf jt rf rt wf wt lf lt := by
    cases s'
    simp only [row, Sys.mk.injEq]
    simp only at h0 h1 h2 h3 h4 h5 h6 h7 h8
    refine ⟨?_, ?_, ?_, ?_, ?_⟩
    · funext u; exact h0
    all_goals funext b; cases b <;> assumption
  rw [← this]; exact h

theorem two_ext {s : Inner Bool} {f t : Pc} {w r : Option Bool} {c : Int} {g : Bool}
    (h1 : s.pc false = f) (h2 : s.pc true = t) (h3 : s.wOwn = w) (h4 : s.rOwn = r) (h5 : s.cnt = c) (h6 : s.flag = g) : s = two f t w r c g := by
  cases s
  simp only [two, Inner.mk.injEq]
  simp only at h1 h2 h3 h4 h5 h6
  refine ⟨?_, h3, h4, h5, h6⟩
  funext b; cases b
  · exact h1
  · exact h2

/-- One step of a concrete execution. -/
macro "ract" : tactic => `(tactic| first
  | exact acts_row (.readLockCall _ _ () rfl rfl rfl) (two_ext rfl rfl rfl rfl rfl rfl) rfl rfl rfl rfl rfl rfl rfl rfl
  | exact acts_row (.readLockDone _ _ () rfl rfl) rfl rfl rfl rfl rfl rfl rfl rfl rfl
  | exact acts_row (.readUnlockCall _ _ () _ rfl rfl rfl rfl) (two_ext rfl rfl rfl rfl rfl rfl) rfl rfl rfl rfl rfl rfl rfl rfl
  | exact acts_row (.readUnlockDone _ _ () rfl rfl) rfl rfl rfl rfl rfl rfl rfl rfl rfl
  | exact acts_row (.writeLockUpgrade _ _ () rfl rfl (by decide)) (two_ext rfl rfl rfl rfl rfl rfl) rfl rfl rfl rfl rfl rfl rfl rfl
  | exact acts_row (.writeLockUpgraded _ _ () rfl rfl) (two_ext rfl rfl rfl rfl rfl rfl) rfl rfl rfl rfl rfl rfl rfl rfl
  | exact acts_row (.writeLockCall _ _ () rfl rfl rfl) (two_ext rfl rfl rfl rfl rfl rfl) rfl rfl rfl rfl rfl rfl rfl rfl
  | exact acts_row (.writeLockDone _ _ () rfl rfl) rfl rfl rfl rfl rfl rfl rfl rfl rfl
  | exact acts_row (.writeUnlockCall _ _ () _ rfl rfl rfl) (two_ext rfl rfl rfl rfl rfl rfl) rfl rfl rfl rfl rfl rfl rfl rfl
  | exact acts_row (.writeUnlockDone _ _ () rfl rfl rfl) rfl rfl rfl rfl rfl rfl rfl rfl rfl
  | exact acts_row (.writeUnlockReacquire _ _ () rfl rfl (by decide)) (two_ext rfl rfl rfl rfl rfl rfl) rfl rfl rfl rfl rfl rfl rfl rfl
  | exact acts_row (.writeUnlockReacquired _ _ () rfl rfl) rfl rfl rfl rfl rfl rfl rfl rfl rfl
  | exact acts_row (.inside _ _ () _ (.rl1 _ _ rfl rfl)) (two_ext rfl rfl rfl rfl rfl rfl) rfl rfl rfl rfl rfl rfl rfl rfl
  | exact acts_row (.inside _ _ () _ (.rl2 _ _ rfl rfl)) (two_ext rfl rfl rfl rfl rfl rfl) rfl rfl rfl rfl rfl rfl rfl rfl
  | exact acts_row (.inside _ _ () _ (.rl3 _ _ rfl)) (two_ext rfl rfl rfl rfl rfl rfl) rfl rfl rfl rfl rfl rfl rfl rfl
  | exact acts_row (.inside _ _ () _ (.rl4 _ _ rfl)) (two_ext rfl rfl rfl rfl rfl rfl) rfl rfl rfl rfl rfl rfl rfl rfl
  | exact acts_row (.inside _ _ () _ (.rl5 _ _ rfl)) (two_ext rfl rfl rfl rfl rfl rfl) rfl rfl rfl rfl rfl rfl rfl rfl
  | exact acts_row (.inside _ _ () _ (.ru1 _ _ rfl rfl)) (two_ext rfl rfl rfl rfl rfl rfl) rfl rfl rfl rfl rfl rfl rfl rfl
  | exact acts_row (.inside _ _ () _ (.ru2 _ _ rfl)) (two_ext rfl rfl rfl rfl rfl rfl) rfl rfl rfl rfl rfl rfl rfl rfl
  | exact acts_row (.inside _ _ () _ (.ru3 _ _ rfl)) (two_ext rfl rfl rfl rfl rfl rfl) rfl rfl rfl rfl rfl rfl rfl rfl
  | exact acts_row (.inside _ _ () _ (.ru4 _ _ rfl)) (two_ext rfl rfl rfl rfl rfl rfl) rfl rfl rfl rfl rfl rfl rfl rfl
  | exact acts_row (.inside _ _ () _ (.ru5 _ _ rfl)) (two_ext rfl rfl rfl rfl rfl rfl) rfl rfl rfl rfl rfl rfl rfl rfl
  | exact acts_row (.inside _ _ () _ (.ru6 _ _ rfl)) (two_ext rfl rfl rfl rfl rfl rfl) rfl rfl rfl rfl rfl rfl rfl rfl
  | exact acts_row (.inside _ _ () _ (.wl1 _ _ rfl rfl)) (two_ext rfl rfl rfl rfl rfl rfl) rfl rfl rfl rfl rfl rfl rfl rfl
  | exact acts_row (.inside _ _ () _ (.wl2 _ _ rfl)) (two_ext rfl rfl rfl rfl rfl rfl) rfl rfl rfl rfl rfl rfl rfl rfl
  | exact acts_row (.inside _ _ () _ (.wl3 _ _ rfl)) (two_ext rfl rfl rfl rfl rfl rfl) rfl rfl rfl rfl rfl rfl rfl rfl
  | exact acts_row (.inside _ _ () _ (.wl4 _ _ rfl)) (two_ext rfl rfl rfl rfl rfl rfl) rfl rfl rfl rfl rfl rfl rfl rfl
  | exact acts_row (.inside _ _ () _ (.wl6 _ _ rfl)) (two_ext rfl rfl rfl rfl rfl rfl) rfl rfl rfl rfl rfl rfl rfl rfl
  | exact acts_row (.inside _ _ () _ (.wu1 _ _ rfl)) (two_ext rfl rfl rfl rfl rfl rfl) rfl rfl rfl rfl rfl rfl rfl rfl)

/-- The execution of a table. -/
def rlasso (tab : Nat → Sys Unit Bool × Bool) (a c : Nat) (hc : 0 < c) (h0 : (tab (around a c 0)).1 = Sys.init Unit Bool)
    (hs : ∀ n < a + c, SActs sp (tab n).1 (tab n).2 (tab (if n + 1 = a + c then a else n + 1)).1) : RExec Unit Bool sp where
  σ i := (tab (around a c i)).1
  who i := some (tab (around a c i)).2
  start := h0
  step i := by
    show SActs sp (tab (around a c i)).1 (tab (around a c i)).2 (tab (around a c (i + 1))).1
    rw [around_succ a c i hc]
    exact hs _ (around_lt a c i hc)

/-- Thread `true` locks for reading and unlocks; thread `false` locks and unlocks for writing for ever. -/
def rspinTab : Nat → Sys Unit Bool × Bool
  | 0 => (row (two .idle .idle none none 0 false) .free .free 0 0 0 0 [] [], true)
  | 1 => (row (two .idle .rl1 none none 0 false) .free (.rl ()) 0 0 0 0 [] [], true)
  | 2 => (row (two .idle .rl2 (some true) none 0 false) .free (.rl ()) 0 0 0 0 [] [], true)
  | 3 => (row (two .idle .rl3 (some true) (some true) 0 false) .free (.rl ()) 0 0 0 0 [] [], true)
  | 4 => (row (two .idle .rl4 (some true) (some true) 1 false) .free (.rl ()) 0 0 0 0 [] [], true)
  | 5 => (row (two .idle .rl5 (some true) none 1 false) .free (.rl ()) 0 0 0 0 [] [], true)
  | 6 => (row (two .idle .reading none none 1 false) .free (.rl ()) 0 0 0 0 [] [], true)
  | 7 => (row (two .idle .reading none none 1 false) .free .free 0 1 0 0 [] [(.R, ())], true)
  | 8 => (row (two .idle .ru1 none none 1 false) .free (.ru ()) 0 1 0 0 [] [(.R, ())], true)
  | 9 => (row (two .idle .ru2 none (some true) 1 false) .free (.ru ()) 0 1 0 0 [] [(.R, ())], true)
  | 10 => (row (two .idle .ru3 none (some true) 0 false) .free (.ru ()) 0 1 0 0 [] [(.R, ())], true)
  | 11 => (row (two .idle .ru4 none (some true) 0 false) .free (.ru ()) 0 1 0 0 [] [(.R, ())], false)
  | 12 => (row (two .wl1 .ru4 none (some true) 0 false) (.wl ()) (.ru ()) 0 1 0 0 [] [(.R, ())], false)
  | 13 => (row (two .wl2 .ru4 (some false) (some true) 0 false) (.wl ()) (.ru ()) 0 1 0 0 [] [(.R, ())], false)
  | 14 => (row (two .wl3 .ru4 (some false) (some true) 0 true) (.wl ()) (.ru ()) 0 1 0 0 [] [(.R, ())], true)
  | 15 => (row (two .wl3 .ru5 (some false) (some true) 0 true) (.wl ()) (.ru ()) 0 1 0 0 [] [(.R, ())], true)
  | 16 => (row (two .wl3 .ru4 (some false) (some true) 0 true) (.wl ()) (.ru ()) 0 1 0 0 [] [(.R, ())], false)
  | 17 => (row (two .wl6 .ru4 (some false) (some true) 0 true) (.wl ()) (.ru ()) 0 1 0 0 [] [(.R, ())], false)
  | 18 => (row (two .writing .ru4 (some false) (some true) 0 false) (.wl ()) (.ru ()) 0 1 0 0 [] [(.R, ())], false)
  | 19 => (row (two .writing .ru4 (some false) (some true) 0 false) .free (.ru ()) 0 1 1 0 [(.W, ())] [(.R, ())], false)
  | 20 => (row (two .wu1 .ru4 (some false) (some true) 0 false) (.wuRelease ()) (.ru ()) 0 1 1 0 [(.W, ())] [(.R, ())], false)
  | 21 => (row (two .idle .ru4 none (some true) 0 false) (.wuRelease ()) (.ru ()) 0 1 1 0 [(.W, ())] [(.R, ())], false)
  | 22 => (row (two .idle .ru4 none (some true) 0 false) .free (.ru ()) 0 1 0 0 [] [(.R, ())], false)
  | _ => (row (two .idle .idle none none 0 false) .free .free 0 0 0 0 [] [], true)

theorem row_init : row (two .idle .idle none none 0 false) .free .free 0 0 0 0 [] [] = Sys.init Unit Bool := by
  rw [two_idle]
  simp only [row, Sys.init, Sys.mk.injEq]
  exact ⟨trivial, (by funext b; cases b <;> rfl), (by funext b; cases b <;> rfl), (by funext b; cases b <;> rfl), (by funext b; cases b <;> rfl)⟩

/-- The infinite execution of `rspinTab`: after 12 steps the last 11 rows again and again. -/
def rspin : RExec Unit Bool false := rlasso rspinTab 12 11 (by omega) row_init (by
  intro n hn
  rcases n with _|_|_|_|_|_|_|_|_|_|_|_|_|_|_|_|_|_|_|_|_|_|_|n
  all_goals first | (exfalso; omega) | (simp only [Nat.reduceAdd, Nat.reduceEqDiff, if_true, if_false, Nat.zero_add, reduceIte, rspinTab]; ract))

theorem rspin_busy (t : Bool) (i : Nat) : ∃ j ≥ i, rspin.who j = some t := by
  cases t with
  | true =>
    obtain ⟨j, hj, h⟩ := around_hits 12 11 (by omega) 2 (by omega) i
    refine ⟨j, hj, ?_⟩
    show some (rspinTab (around 12 11 j)).2 = _
    rw [h]; rfl
  | false =>
    obtain ⟨j, hj, h⟩ := around_hits 12 11 (by omega) 0 (by omega) i
    refine ⟨j, hj, ?_⟩
    show some (rspinTab (around 12 11 j)).2 = _
    rw [h]; rfl

theorem rspin_row (j : Nat) (hj : j ≥ 12) : (rspin.σ j).job true = .ru () := by
  show (rspinTab (around 12 11 j)).1.job true = _
  have h1 := around_lt 12 11 j (by omega)
  have h2 : 12 ≤ around 12 11 j := by unfold around; rw [if_neg (by omega)]; omega
  generalize around 12 11 j = n at h1 h2
  rcases n with _|_|_|_|_|_|_|_|_|_|_|_|_|_|_|_|_|_|_|_|_|_|_|n
  all_goals first | (exfalso; omega) | rfl

theorem rspin_releases : rspin.Releases := by
  intro t i h
  cases t with
  | true =>
    exfalso
    have := h (i + 12) (by omega)
    rw [rspin_row (i + 12) (by omega)] at this
    cases this
  | false =>
    obtain ⟨j, hj, hr⟩ := around_hits 12 11 (by omega) 0 (by omega) i
    refine ⟨j, hj, ?_⟩
    show (rspinTab (around 12 11 j)).1.stack false = _
    rw [hr]; rfl

/-- **C97**, the failing side: a thread that gives back its read lock of a vault can be kept in `ReadUnlock` for ever by another thread that goes on working with the
vault, in a fair execution in which every thread that runs its own code gives back its locks, and although nobody waits for the read lock to be given back: no thread
ever sleeps in `WriteLock`. -/
theorem C97_read_unlock_refuted : ∃ (e : RExec Unit Bool false), e.OneVault ∧ e.Fair ∧ e.Releases ∧ ∃ (t : Bool) (i : Nat), (∀ j ≥ i, (e.σ j).job t = .ru ()) ∧
    (∀ j u, ((e.σ j).inner ()).pc u ≠ .wl5) ∧ ∀ k, ∃ j ≥ k, (e.σ j).stack (!t) = [(.W, ())] := by
  refine ⟨rspin, oneVault_unit _, fun t i _ => rspin_busy t i, rspin_releases, true, 12, rspin_row, ?_, ?_⟩
  · intro j u
    show (((rspinTab (around 12 11 j)).1).inner ()).pc u ≠ _
    generalize around 12 11 j = n
    rcases n with _|_|_|_|_|_|_|_|_|_|_|_|_|_|_|_|_|_|_|_|_|_|_|n <;> cases u <;> (intro h; cases h)
  · intro k
    obtain ⟨j, hj, hr⟩ := around_hits 12 11 (by omega) 7 (by omega) k
    refine ⟨j, hj, ?_⟩
    show (rspinTab (around 12 11 j)).1.stack false = _
    rw [hr]; rfl

/-- Non-vacuity of the first theorems: in `rspin` calls of all kinds are made. -/
example : rspin.OneVault ∧ rspin.Fair ∧ rspin.Releases ∧ (rspin.σ 1).job true = .rl () ∧ (rspin.σ 12).job false = .wl () ∧ (rspin.σ 20).job false = .wuRelease () :=
  ⟨oneVault_unit _, fun t i _ => rspin_busy t i, rspin_releases, rfl, rfl, rfl⟩

/-- Thread `true` locks for reading, then for writing, and unlocks both. -/
def ruseTab : Nat → Sys Unit Bool × Bool
  | 0 => (row (two .idle .idle none none 0 false) .free .free 0 0 0 0 [] [], true)
  | 1 => (row (two .idle .rl1 none none 0 false) .free (.rl ()) 0 0 0 0 [] [], true)
  | 2 => (row (two .idle .rl2 (some true) none 0 false) .free (.rl ()) 0 0 0 0 [] [], true)
  | 3 => (row (two .idle .rl3 (some true) (some true) 0 false) .free (.rl ()) 0 0 0 0 [] [], true)
  | 4 => (row (two .idle .rl4 (some true) (some true) 1 false) .free (.rl ()) 0 0 0 0 [] [], true)
  | 5 => (row (two .idle .rl5 (some true) none 1 false) .free (.rl ()) 0 0 0 0 [] [], true)
  | 6 => (row (two .idle .reading none none 1 false) .free (.rl ()) 0 0 0 0 [] [], true)
  | 7 => (row (two .idle .reading none none 1 false) .free .free 0 1 0 0 [] [(.R, ())], true)
  | 8 => (row (two .idle .ru1 none none 1 false) .free (.wlRelease ()) 0 1 0 0 [] [(.R, ())], true)
  | 9 => (row (two .idle .ru2 none (some true) 1 false) .free (.wlRelease ()) 0 1 0 0 [] [(.R, ())], true)
  | 10 => (row (two .idle .ru3 none (some true) 0 false) .free (.wlRelease ()) 0 1 0 0 [] [(.R, ())], true)
  | 11 => (row (two .idle .ru4 none (some true) 0 false) .free (.wlRelease ()) 0 1 0 0 [] [(.R, ())], true)
  | 12 => (row (two .idle .ru6 none (some true) 0 false) .free (.wlRelease ()) 0 1 0 0 [] [(.R, ())], true)
  | 13 => (row (two .idle .idle none none 0 false) .free (.wlRelease ()) 0 1 0 0 [] [(.R, ())], true)
  | 14 => (row (two .idle .wl1 none none 0 false) .free (.wl ()) 0 1 0 0 [] [(.R, ())], true)
  | 15 => (row (two .idle .wl2 (some true) none 0 false) .free (.wl ()) 0 1 0 0 [] [(.R, ())], true)
  | 16 => (row (two .idle .wl3 (some true) none 0 true) .free (.wl ()) 0 1 0 0 [] [(.R, ())], true)
  | 17 => (row (two .idle .wl6 (some true) none 0 true) .free (.wl ()) 0 1 0 0 [] [(.R, ())], true)
  | 18 => (row (two .idle .writing (some true) none 0 false) .free (.wl ()) 0 1 0 0 [] [(.R, ())], true)
  | 19 => (row (two .idle .writing (some true) none 0 false) .free .free 0 1 0 1 [] [(.W, ()), (.R, ())], true)
  | 20 => (row (two .idle .wu1 (some true) none 0 false) .free (.wuRelease ()) 0 1 0 1 [] [(.W, ()), (.R, ())], true)
  | 21 => (row (two .idle .idle none none 0 false) .free (.wuRelease ()) 0 1 0 1 [] [(.W, ()), (.R, ())], true)
  | 22 => (row (two .idle .rl1 none none 0 false) .free (.wuReacquire ()) 0 1 0 1 [] [(.W, ()), (.R, ())], true)
  | 23 => (row (two .idle .rl2 (some true) none 0 false) .free (.wuReacquire ()) 0 1 0 1 [] [(.W, ()), (.R, ())], true)
  | 24 => (row (two .idle .rl3 (some true) (some true) 0 false) .free (.wuReacquire ()) 0 1 0 1 [] [(.W, ()), (.R, ())], true)
  | 25 => (row (two .idle .rl4 (some true) (some true) 1 false) .free (.wuReacquire ()) 0 1 0 1 [] [(.W, ()), (.R, ())], true)
  | 26 => (row (two .idle .rl5 (some true) none 1 false) .free (.wuReacquire ()) 0 1 0 1 [] [(.W, ()), (.R, ())], true)
  | 27 => (row (two .idle .reading none none 1 false) .free (.wuReacquire ()) 0 1 0 1 [] [(.W, ()), (.R, ())], true)
  | 28 => (row (two .idle .reading none none 1 false) .free .free 0 1 0 0 [] [(.R, ())], true)
  | 29 => (row (two .idle .ru1 none none 1 false) .free (.ru ()) 0 1 0 0 [] [(.R, ())], true)
  | 30 => (row (two .idle .ru2 none (some true) 1 false) .free (.ru ()) 0 1 0 0 [] [(.R, ())], true)
  | 31 => (row (two .idle .ru3 none (some true) 0 false) .free (.ru ()) 0 1 0 0 [] [(.R, ())], true)
  | 32 => (row (two .idle .ru4 none (some true) 0 false) .free (.ru ()) 0 1 0 0 [] [(.R, ())], true)
  | 33 => (row (two .idle .ru6 none (some true) 0 false) .free (.ru ()) 0 1 0 0 [] [(.R, ())], true)
  | 34 => (row (two .idle .idle none none 0 false) .free (.ru ()) 0 1 0 0 [] [(.R, ())], true)
  | _ => (row (two .idle .idle none none 0 false) .free .free 0 0 0 0 [] [], true)

/-- The infinite execution of `ruseTab`. -/
def ruse : RExec Unit Bool false := rlasso ruseTab 0 35 (by omega) row_init (by
  intro n hn
  rcases n with _|_|_|_|_|_|_|_|_|_|_|_|_|_|_|_|_|_|_|_|_|_|_|_|_|_|_|_|_|_|_|_|_|_|_|n
  all_goals first | (exfalso; omega) | (simp only [Nat.reduceAdd, Nat.reduceEqDiff, if_true, if_false, Nat.zero_add, reduceIte, ruseTab]; ract))

/-- Non-vacuity of `C97_read_unlock_returns_if_writers_stop`, `C97_upgrade_returns_if_writers_stop`, `C97_write_unlock_returns` and `C97_every_call_returns`: a fair
execution with an upgrade, a `WriteUnlock` that takes the read lock again and a `ReadUnlock`, in which the other thread does not lock for writing. -/
example : ruse.OneVault ∧ ruse.Fair ∧ ruse.Releases ∧ (ruse.σ 8).job true = .wlRelease () ∧ (ruse.σ 22).job true = .wuReacquire () ∧ (ruse.σ 29).job true = .ru () ∧
    ∀ m, ∃ n, ∀ j ≥ n, ∀ u, u ≠ true → ((ruse.σ j).inner m).pc u ≠ .wl2 := by
  have hb : ∀ i, ruse.who i = some true := by
    intro i
    show some (ruseTab (around 0 35 i)).2 = _
    generalize around 0 35 i = n
    rcases n with _|_|_|_|_|_|_|_|_|_|_|_|_|_|_|_|_|_|_|_|_|_|_|_|_|_|_|_|_|_|_|_|_|_|_|n <;> rfl
  have hi : ∀ i, (ruse.σ i).job false = .free ∧ (ruse.σ i).stack false = [] ∧ ((ruse.σ i).inner ()).pc false = .idle := by
    intro i
    show (ruseTab (around 0 35 i)).1.job false = _ ∧ (ruseTab (around 0 35 i)).1.stack false = _ ∧ ((ruseTab (around 0 35 i)).1.inner ()).pc false = _
    generalize around 0 35 i = n
    rcases n with _|_|_|_|_|_|_|_|_|_|_|_|_|_|_|_|_|_|_|_|_|_|_|_|_|_|_|_|_|_|_|_|_|_|_|n <;> exact ⟨rfl, rfl, rfl⟩
  refine ⟨oneVault_unit _, ?_, ?_, rfl, rfl, rfl, fun m => ⟨0, fun j _ u hu => ?_⟩⟩
  · intro t i h
    cases t with
    | true => exact ⟨i, Nat.le_refl _, hb i⟩
    | false =>
      obtain ⟨k, _, h1, _⟩ := h i (Nat.le_refl _)
      exact absurd (hi k).1 h1
  · intro t i h
    cases t with
    | false => exact ⟨i, Nat.le_refl _, (hi i).2.1⟩
    | true =>
      obtain ⟨j, hj, q⟩ := around_hits 0 35 (by omega) 0 (by omega) i
      refine ⟨j, hj, ?_⟩
      show (ruseTab (around 0 35 j)).1.stack true = _
      rw [q]; rfl
  · cases u with
    | true => exact absurd rfl hu
    | false => rw [(hi j).2.2]; simp

end MVault.Mtx
