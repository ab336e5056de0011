import Verif.MutexLemmas
/-! Invariants of the recursive mutex and the progress argument of the plain one (helpers). -/
namespace MVault.Mtx
variable {T : Type} [DecidableEq T] {M : Type} [DecidableEq M] {sp : Bool}

/-- Which call a program counter belongs to. -/
inductive Phase | idle | rl | reading | ru | wl | writing | wu deriving DecidableEq

def phase : Pc → Phase
  | .idle => .idle
  | .rl1 | .rl2 | .rl3 | .rl4 | .rl5 => .rl
  | .reading => .reading
  | .ru1 | .ru2 | .ru3 | .ru4 | .ru5 | .ru6 => .ru
  | .wl1 | .wl2 | .wl3 | .wl4 | .wl5 | .wl6 => .wl
  | .writing => .writing
  | .wu1 => .wu

/-- Phase changes of the stepping thread. -/
inductive PhaseStep : Phase → Phase → Prop
  | rl : PhaseStep .rl .rl
  | rlDone : PhaseStep .rl .reading
  | ru : PhaseStep .ru .ru
  | ruDone : PhaseStep .ru .idle
  | wl : PhaseStep .wl .wl
  | wlDone : PhaseStep .wl .writing
  | wuDone : PhaseStep .wu .idle

theorem istep_phase {sp : Bool} {s s' : Inner T} {t : T} (hs : IStep sp s t s') :
    PhaseStep (phase (s.pc t)) (phase (s'.pc t)) ∧ ∀ u, u ≠ t → phase (s'.pc u) = phase (s.pc u) := by
  cases hs with
  | rl1 hp ho => refine ⟨?_, fun u hu => ?_⟩ <;> simp [Inner.goto, upd, *, phase]; constructor
  | rl2 hp ho => refine ⟨?_, fun u hu => ?_⟩ <;> simp [Inner.goto, upd, *, phase]; constructor
  | rl3 hp => refine ⟨?_, fun u hu => ?_⟩ <;> simp [Inner.goto, upd, *, phase]; constructor
  | rl4 hp => refine ⟨?_, fun u hu => ?_⟩ <;> simp [Inner.goto, upd, *, phase]; constructor
  | rl5 hp => refine ⟨?_, fun u hu => ?_⟩ <;> simp [Inner.goto, upd, *, phase]; constructor
  | ru1 hp ho => refine ⟨?_, fun u hu => ?_⟩ <;> simp [Inner.goto, upd, *, phase]; constructor
  | ru2 hp => refine ⟨?_, fun u hu => ?_⟩ <;> simp [Inner.goto, upd, *, phase]; constructor
  | ru3 hp =>
    refine ⟨?_, fun u hu => ?_⟩
    · by_cases h : s.cnt = 0 <;> simp [Inner.goto, upd, hp, h, phase] <;> constructor
    · simp [Inner.goto, upd, hu]
  | ru4 hp =>
    refine ⟨?_, fun u hu => ?_⟩
    · cases h : s.flag <;> simp [Inner.goto, upd, hp, phase] <;> constructor
    · simp [Inner.goto, upd, hu]
  | ru5 hp =>
    refine ⟨?_, fun u hu => ?_⟩
    · simp [Inner.goto, upd, hp, phase]; constructor
    · simp only [Inner.goto, upd, hu, Inner.notify, if_false]
      by_cases h : s.pc u = .wl5 <;> simp [h, phase]
  | ru6 hp => refine ⟨?_, fun u hu => ?_⟩ <;> simp [Inner.goto, upd, *, phase]; constructor
  | wl1 hp ho => refine ⟨?_, fun u hu => ?_⟩ <;> simp [Inner.goto, upd, *, phase]; constructor
  | wl2 hp => refine ⟨?_, fun u hu => ?_⟩ <;> simp [Inner.goto, upd, *, phase]; constructor
  | wl3 hp =>
    refine ⟨?_, fun u hu => ?_⟩
    · by_cases h : s.cnt > 0 <;> simp [Inner.goto, upd, hp, h, phase] <;> constructor
    · simp [Inner.goto, upd, hu]
  | wl4 hp => refine ⟨?_, fun u hu => ?_⟩ <;> simp [Inner.goto, upd, *, phase]; constructor
  | spurious hsp hp => refine ⟨?_, fun u hu => ?_⟩ <;> simp [Inner.goto, upd, *, phase]; constructor
  | wl6 hp => refine ⟨?_, fun u hu => ?_⟩ <;> simp [Inner.goto, upd, *, phase]; constructor
  | wu1 hp => refine ⟨?_, fun u hu => ?_⟩ <;> simp [Inner.goto, upd, *, phase]; constructor

theorem phase_idle {p : Pc} : phase p = .idle ↔ p = .idle := by cases p <;> simp [phase]
theorem phase_reading {p : Pc} : phase p = .reading ↔ p = .reading := by cases p <;> simp [phase]
theorem phase_writing {p : Pc} : phase p = .writing ↔ p = .writing := by cases p <;> simp [phase]

/-- Number of write locks in a lock stack. -/
def nW : List (Kind × M) → Nat
  | [] => 0
  | (.W, _) :: l => nW l + 1
  | (.R, _) :: l => nW l

/-- Number of read locks taken before the outermost write lock. -/
def outerR : List (Kind × M) → Nat
  | [] => 0
  | (.W, _) :: l => outerR l
  | (.R, _) :: l => if nW l = 0 then outerR l + 1 else outerR l

theorem stack_nil {l : List (Kind × M)} (h1 : nW l = 0) (h2 : outerR l = 0) : l = [] := by
  match l with
  | [] => rfl
  | (.W, _) :: l => simp [nW] at h1
  | (.R, _) :: l => simp only [nW] at h1; simp [outerR, h1] at h2

theorem stack_one {m : M} {l : List (Kind × M)} (h1 : nW ((.R, m) :: l) = 0) (h2 : outerR ((.R, m) :: l) = 1) : l = [] := by
  simp only [nW] at h1; simp [outerR, h1] at h2; exact stack_nil h1 h2

/-- The mutex a job is about. -/
def Job.mtx : Job M → Option M
  | .free => none
  | .rl m | .ru m | .wlRelease m | .wl m | .wuRelease m | .wuReacquire m => some m

/-- What the state of one thread looks like; `p` is its phase in the only mutex `m` it is using. -/
def TOk (l : List (Kind × M)) (lr lw : Nat) (m : M) : Job M → Phase → Prop
  | .free, p => p = if nW l = 0 then (if outerR l = 0 then .idle else .reading) else .writing
  | .rl m', p => m' = m ∧ l = [] ∧ (p = .rl ∨ p = .reading)
  | .ru m', p => m' = m ∧ l = [(.R, m)] ∧ (p = .ru ∨ p = .idle)
  | .wlRelease m', p => m' = m ∧ lw = 0 ∧ lr > 0 ∧ (p = .ru ∨ p = .idle)
  | .wl m', p => m' = m ∧ lw = 0 ∧ (p = .wl ∨ p = .writing)
  | .wuRelease m', p => m' = m ∧ lw = 1 ∧ (∃ r, l = (.W, m) :: r) ∧ (p = .wu ∨ p = .idle)
  | .wuReacquire m', p => m' = m ∧ lw = 1 ∧ lr > 0 ∧ (∃ r, l = (.W, m) :: r) ∧ (p = .rl ∨ p = .reading)

/-- The state of thread `t`. -/
def ThreadOk (s : Sys M T) (t : T) : Prop :=
  ∃ m, (∀ e ∈ s.stack t, e.2 = m) ∧ (∀ m', m' ≠ m → (s.inner m').pc t = .idle) ∧
    s.lw t = nW (s.stack t) ∧ s.lr t = outerR (s.stack t) ∧
    TOk (s.stack t) (s.lr t) (s.lw t) m (s.job t) (phase ((s.inner m).pc t))

structure SInv (sp : Bool) (s : Sys M T) : Prop where
  inner : ∀ m, Inv sp (s.inner m)
  thr : ∀ t, ThreadOk s t

/-- A thread is unaffected when none of its components changed. -/
theorem ThreadOk.frame {s s' : Sys M T} {u : T} (h : ThreadOk s u) (hs : s'.stack u = s.stack u) (hr : s'.lr u = s.lr u)
    (hw : s'.lw u = s.lw u) (hj : s'.job u = s.job u) (hp : ∀ m, phase ((s'.inner m).pc u) = phase ((s.inner m).pc u)) :
    ThreadOk s' u := by
  obtain ⟨m, h1, h2, h3, h4, h5⟩ := h
  refine ⟨m, by rw [hs]; exact h1, ?_, by rw [hw, hs]; exact h3, by rw [hr, hs]; exact h4, by rw [hs, hr, hw, hj, hp]; exact h5⟩
  intro m' hm'
  rw [← phase_idle, hp, phase_idle]; exact h2 m' hm'

/-- With no lock held, an idle thread may pick any mutex as the one it uses. -/
theorem ThreadOk.switch {s : Sys M T} {t : T} (h : ThreadOk s t) (hj : s.job t = .free) (m : M)
    (hm : ∀ e ∈ s.stack t, e.2 = m) :
    (∀ m', m' ≠ m → (s.inner m').pc t = .idle) ∧ s.lw t = nW (s.stack t) ∧ s.lr t = outerR (s.stack t) ∧
      TOk (s.stack t) (s.lr t) (s.lw t) m .free (phase ((s.inner m).pc t)) := by
  obtain ⟨m0, h1, h2, h3, h4, h5⟩ := h
  rw [hj] at h5
  cases hl : s.stack t with
  | nil =>
    rw [hl] at h5 h3 h4
    simp only [TOk, nW, outerR, if_true] at h5
    have hall : ∀ m', (s.inner m').pc t = .idle := by
      intro m'
      by_cases e : m' = m0
      · subst e; exact phase_idle.1 h5
      · exact h2 m' e
    refine ⟨fun m' _ => hall m', h3, h4, ?_⟩
    simp [TOk, nW, outerR, hall, phase]
  | cons e l =>
    have e1 : e.2 = m0 := h1 e (by rw [hl]; simp)
    have e2 : e.2 = m := hm e (by rw [hl]; simp)
    have : m0 = m := by rw [← e1, e2]
    subst this
    rw [hl] at h5 h3 h4
    exact ⟨h2, h3, h4, h5⟩

/-- Every thread uses at most one mutex at a time. -/
def OneMutex (s : Sys M T) : Prop :=
  ∀ t, ∃ m, (∀ e ∈ s.stack t, e.2 = m) ∧ ∀ m', (s.job t).mtx = some m' → m' = m

theorem call_inner (s : Sys M T) (t : T) (m : M) (p : Pc) (j : Job M) (m' : M) :
    ((s.call t m p j).inner m').pc t = if m' = m then p else (s.inner m').pc t := by
  by_cases h : m' = m
  · subst h; simp [Sys.call, upd, Inner.goto]
  · simp [Sys.call, upd, h]

theorem call_other (s : Sys M T) (t u : T) (hu : u ≠ t) (m : M) (p : Pc) (j : Job M) (h : ThreadOk s u) :
    ThreadOk (s.call t m p j) u := by
  refine h.frame rfl rfl rfl (by simp [Sys.call, upd, hu]) ?_
  intro m'
  by_cases e : m' = m
  · subst e; simp [Sys.call, upd, Inner.goto, hu]
  · simp [Sys.call, upd, e]

theorem SInv.init [Nonempty M] : SInv sp (Sys.init M T) where
  inner := fun _ => Inv.init
  thr := by
    intro t
    obtain ⟨m⟩ := ‹Nonempty M›
    exact ⟨m, by simp [Sys.init], by simp [Sys.init, Inner.init], rfl, rfl, by simp [Sys.init, Inner.init, TOk, nW, outerR, phase]⟩

theorem Inv.sys_call {s : Sys M T} (h : ∀ m, Inv sp (s.inner m)) (t : T) (m : M) (p : Pc) (j : Job M)
    (hq : ((s.inner m).pc t = .idle ∧ (p = .rl1 ∨ p = .wl1)) ∨ ((s.inner m).pc t = .reading ∧ p = .ru1) ∨
      ((s.inner m).pc t = .writing ∧ p = .wu1)) : ∀ m', Inv sp ((s.call t m p j).inner m') := by
  intro m'
  by_cases e : m' = m
  · subst e; simp only [Sys.call, upd_same]; exact (h m').call t p hq
  · simp only [Sys.call, upd_other _ _ _ _ e]; exact h m'

/-- One step of the system keeps the invariant as long as each thread uses one mutex at a time. -/
theorem SInv.step {s s' : Sys M T} (h : SInv sp s) (hs : SStep sp s s') (ho : OneMutex s') : SInv sp s' := by
  cases hs with
  | readLockFast t m hj hc =>
    refine ⟨h.inner, fun u => ?_⟩
    by_cases e : u = t
    · subst e
      obtain ⟨m0, hm, _⟩ := ho u
      simp only [upd_same] at hm
      have hm0 : m = m0 := hm (.R, m) (by simp)
      subst hm0
      obtain ⟨h2, h3, h4, h5⟩ := (h.thr u).switch hj m (fun e he => hm e (by simp [he]))
      refine ⟨m, by simpa only [upd_same] using hm, h2, ?_, ?_, ?_⟩
      · simp only [upd_same, nW]; exact h3
      · simp only [upd_same, outerR, ← h3]
        by_cases hw : s.lw u = 0
        · simp [hw, upd_same, h4]
        · simp [hw, h4]
      · simp only [upd_same, hj]
        simp only [TOk] at h5 ⊢
        rw [h5]
        simp only [nW, outerR, ← h3, ← h4]
        by_cases hw : s.lw u = 0
        · have : s.lr u ≠ 0 := by rcases hc with hc | hc; exact absurd hw hc; exact hc
          simp [hw, this]
        · simp [hw]
    · exact (h.thr u).frame (upd_other _ _ _ _ e) (by simp only; split <;> simp [upd, e]) rfl rfl (fun _ => rfl)
  | readLockCall t m hj hw hr =>
    obtain ⟨m0, h1, h2, h3, h4, h5⟩ := h.thr t
    have hl : s.stack t = [] := stack_nil (h3 ▸ hw) (h4 ▸ hr)
    obtain ⟨h2, h3, h4, h5⟩ := (h.thr t).switch hj m (by simp [hl])
    have hp : (s.inner m).pc t = .idle := by
      rw [hl] at h5; simp only [TOk, nW, outerR, if_true] at h5; exact phase_idle.1 h5
    refine ⟨Inv.sys_call h.inner t m _ _ (Or.inl ⟨hp, Or.inl rfl⟩), fun u => ?_⟩
    by_cases e : u = t
    · subst e
      refine ⟨m, by simp [Sys.call, hl], ?_, h3, h4, ?_⟩
      · intro m' hm'; rw [call_inner, if_neg hm']; exact h2 m' hm'
      · rw [call_inner, if_pos rfl]; simp [Sys.call, upd_same, TOk, hl, phase]
    · exact call_other s t u e m _ _ (h.thr u)
  | readLockDone t m hj hp =>
    refine ⟨h.inner, fun u => ?_⟩
    by_cases e : u = t
    · subst e
      obtain ⟨m0, h1, h2, h3, h4, h5⟩ := h.thr u
      rw [hj] at h5
      obtain ⟨rfl, hl, hph⟩ := h5
      rw [hl] at h3 h4
      refine ⟨m, by simp [upd_same, hl], h2, ?_, ?_, ?_⟩
      · simp [upd_same, hl, nW, h3]
      · simp [upd_same, hl, nW, outerR, h4]
      · simp [upd_same, hl, TOk, nW, outerR, hp, phase]
    · exact (h.thr u).frame (upd_other _ _ _ _ e) (upd_other _ _ _ _ e) rfl (upd_other _ _ _ _ e) (fun _ => rfl)
  | readUnlockFast t m rest hj hl hc =>
    refine ⟨h.inner, fun u => ?_⟩
    by_cases e : u = t
    · subst e
      obtain ⟨m0, h1, h2, h3, h4, h5⟩ := h.thr u
      rw [hj] at h5
      rw [hl] at h1 h3 h4 h5
      refine ⟨m0, ?_, h2, ?_, ?_, ?_⟩
      · simp only [upd_same]; intro e he; exact h1 e (by simp [he])
      · simp only [upd_same]; exact h3
      · simp only [nW] at h3
        simp only [upd_same, outerR, ← h3] at h4 ⊢
        by_cases hw : s.lw u = 0
        · simp [hw, upd_same] at h4 ⊢; omega
        · simp [hw] at h4 ⊢; exact h4
      · simp only [nW] at h3
        simp only [TOk, nW, outerR] at h5
        simp only [upd_same, hj, TOk]
        rw [h5]
        simp only [outerR, ← h3] at h4 ⊢
        by_cases hw : s.lw u = 0
        · have : s.lr u ≠ 1 := by rcases hc with hc | hc; exact absurd hw hc; exact hc
          simp [hw] at h4 ⊢
          have : outerR rest ≠ 0 := by omega
          simp [this]
        · simp [hw]
    · exact (h.thr u).frame (upd_other _ _ _ _ e) (by simp only; split <;> simp [upd, e]) rfl rfl (fun _ => rfl)
  | readUnlockCall t m rest hj hl hw hr =>
    obtain ⟨m0, h1, h2, h3, h4, h5⟩ := h.thr t
    rw [hj] at h5; rw [hl] at h1 h3 h4 h5
    have hm : m = m0 := h1 (.R, m) (by simp)
    subst hm
    have hrest : rest = [] := stack_one (h3 ▸ hw) (h4 ▸ hr)
    subst hrest
    have hp : (s.inner m).pc t = .reading := by
      simp [TOk, nW, outerR] at h5; exact phase_reading.1 h5
    refine ⟨Inv.sys_call h.inner t m _ _ (Or.inr (Or.inl ⟨hp, rfl⟩)), fun u => ?_⟩
    by_cases e : u = t
    · subst e
      refine ⟨m, by simp [Sys.call, hl], ?_, by simpa [Sys.call, hl] using h3, by simpa [Sys.call, hl] using h4, ?_⟩
      · intro m' hm'; rw [call_inner, if_neg hm']; exact h2 m' hm'
      · rw [call_inner, if_pos rfl]; simp [Sys.call, upd_same, TOk, hl, phase]
    · exact call_other s t u e m _ _ (h.thr u)
  | readUnlockDone t m hj hp =>
    refine ⟨h.inner, fun u => ?_⟩
    by_cases e : u = t
    · subst e
      obtain ⟨m0, h1, h2, h3, h4, h5⟩ := h.thr u
      rw [hj] at h5
      obtain ⟨rfl, hl, hph⟩ := h5
      rw [hl] at h3 h4
      refine ⟨m, by simp [upd_same, hl], h2, ?_, ?_, ?_⟩
      · simpa [upd_same, hl, nW] using h3
      · simp [upd_same, hl, nW, outerR] at h4 ⊢; omega
      · simp [upd_same, hl, TOk, nW, outerR, hp, phase]
    · exact (h.thr u).frame (upd_other _ _ _ _ e) (upd_other _ _ _ _ e) rfl (upd_other _ _ _ _ e) (fun _ => rfl)
  | writeLockFast t m hj hw =>
    refine ⟨h.inner, fun u => ?_⟩
    by_cases e : u = t
    · subst e
      obtain ⟨m0, hm, _⟩ := ho u
      simp only [upd_same] at hm
      have hm0 : m = m0 := hm (.W, m) (by simp)
      subst hm0
      obtain ⟨h2, h3, h4, h5⟩ := (h.thr u).switch hj m (fun e he => hm e (by simp [he]))
      refine ⟨m, by simpa only [upd_same] using hm, h2, ?_, ?_, ?_⟩
      · simp only [upd_same, nW]; omega
      · simp only [upd_same, outerR]; exact h4
      · simp only [upd_same, hj]
        simp only [TOk] at h5 ⊢
        rw [h5]
        simp only [nW, outerR, ← h3]
        simp [hw]
    · exact (h.thr u).frame (upd_other _ _ _ _ e) rfl (upd_other _ _ _ _ e) rfl (fun _ => rfl)
  | writeLockUpgrade t m hj hw hr =>
    obtain ⟨m0, hm, hjm⟩ := ho t
    simp only [Sys.call, upd_same, Job.mtx] at hjm hm
    have := hjm m rfl
    subst this
    obtain ⟨h2, h3, h4, h5⟩ := (h.thr t).switch hj m hm
    have hp : (s.inner m).pc t = .reading := by
      simp only [TOk, ← h3, ← h4, hw] at h5
      have : s.lr t ≠ 0 := by omega
      simp [this] at h5; exact phase_reading.1 h5
    refine ⟨Inv.sys_call h.inner t m _ _ (Or.inr (Or.inl ⟨hp, rfl⟩)), fun u => ?_⟩
    by_cases e : u = t
    · subst e
      refine ⟨m, hm, ?_, h3, h4, ?_⟩
      · intro m' hm'; rw [call_inner, if_neg hm']; exact h2 m' hm'
      · rw [call_inner, if_pos rfl]; simp [Sys.call, upd_same, TOk, phase, hw, hr]
    · exact call_other s t u e m _ _ (h.thr u)
  | writeLockUpgraded t m hj hp =>
    obtain ⟨m0, h1, h2, h3, h4, h5⟩ := h.thr t
    rw [hj] at h5
    obtain ⟨rfl, hw, hr, hph⟩ := h5
    refine ⟨Inv.sys_call h.inner t m _ _ (Or.inl ⟨hp, Or.inr rfl⟩), fun u => ?_⟩
    by_cases e : u = t
    · subst e
      refine ⟨m, h1, ?_, h3, h4, ?_⟩
      · intro m' hm'; rw [call_inner, if_neg hm']; exact h2 m' hm'
      · rw [call_inner, if_pos rfl]; simp [Sys.call, upd_same, TOk, phase, hw]
    · exact call_other s t u e m _ _ (h.thr u)
  | writeLockCall t m hj hw hr =>
    obtain ⟨m0, h1, h2, h3, h4, h5⟩ := h.thr t
    have hl : s.stack t = [] := stack_nil (h3 ▸ hw) (h4 ▸ hr)
    obtain ⟨h2, h3, h4, h5⟩ := (h.thr t).switch hj m (by simp [hl])
    have hp : (s.inner m).pc t = .idle := by
      rw [hl] at h5; simp only [TOk, nW, outerR, if_true] at h5; exact phase_idle.1 h5
    refine ⟨Inv.sys_call h.inner t m _ _ (Or.inl ⟨hp, Or.inr rfl⟩), fun u => ?_⟩
    by_cases e : u = t
    · subst e
      refine ⟨m, by simp [Sys.call, hl], ?_, h3, h4, ?_⟩
      · intro m' hm'; rw [call_inner, if_neg hm']; exact h2 m' hm'
      · rw [call_inner, if_pos rfl]; simp [Sys.call, upd_same, TOk, phase, hw]
    · exact call_other s t u e m _ _ (h.thr u)
  | writeLockDone t m hj hp =>
    refine ⟨h.inner, fun u => ?_⟩
    by_cases e : u = t
    · subst e
      obtain ⟨m0, h1, h2, h3, h4, h5⟩ := h.thr u
      rw [hj] at h5
      obtain ⟨rfl, hw, hph⟩ := h5
      refine ⟨m, ?_, h2, ?_, ?_, ?_⟩
      · simp only [upd_same]; intro e he; rcases List.mem_cons.1 he with rfl | he; rfl; exact h1 e he
      · simp [upd_same, nW, h3]
      · simp [upd_same, outerR, h4]
      · simp [upd_same, TOk, nW, hp, phase]
    · exact (h.thr u).frame (upd_other _ _ _ _ e) rfl (upd_other _ _ _ _ e) (upd_other _ _ _ _ e) (fun _ => rfl)
  | writeUnlockFast t m rest hj hl hc =>
    refine ⟨h.inner, fun u => ?_⟩
    by_cases e : u = t
    · subst e
      obtain ⟨m0, h1, h2, h3, h4, h5⟩ := h.thr u
      rw [hj] at h5
      rw [hl] at h1 h3 h4 h5
      simp only [nW] at h3
      refine ⟨m0, ?_, h2, ?_, ?_, ?_⟩
      · simp only [upd_same]; intro e he; exact h1 e (by simp [he])
      · simp only [upd_same]; omega
      · simp only [upd_same]; exact h4
      · simp only [TOk, nW] at h5
        simp only [upd_same, hj, TOk]
        rw [h5]
        have : nW rest ≠ 0 := by omega
        simp [this]
    · exact (h.thr u).frame (upd_other _ _ _ _ e) rfl (upd_other _ _ _ _ e) rfl (fun _ => rfl)
  | writeUnlockCall t m rest hj hl hw =>
    obtain ⟨m0, h1, h2, h3, h4, h5⟩ := h.thr t
    rw [hj] at h5; rw [hl] at h5
    have hm : m = m0 := h1 (.W, m) (by simp [hl])
    subst hm
    have hp : (s.inner m).pc t = .writing := by
      simp [TOk, nW] at h5; exact phase_writing.1 h5
    refine ⟨Inv.sys_call h.inner t m _ _ (Or.inr (Or.inr ⟨hp, rfl⟩)), fun u => ?_⟩
    by_cases e : u = t
    · subst e
      refine ⟨m, h1, ?_, h3, h4, ?_⟩
      · intro m' hm'; rw [call_inner, if_neg hm']; exact h2 m' hm'
      · rw [call_inner, if_pos rfl]; simp [Sys.call, upd_same, TOk, hl, phase, hw]
    · exact call_other s t u e m _ _ (h.thr u)
  | writeUnlockDone t m hj hp hr =>
    refine ⟨h.inner, fun u => ?_⟩
    by_cases e : u = t
    · subst e
      obtain ⟨m0, h1, h2, h3, h4, h5⟩ := h.thr u
      rw [hj] at h5
      obtain ⟨rfl, hw, ⟨r, hl⟩, hph⟩ := h5
      rw [hl] at h3 h4
      simp only [nW] at h3; simp only [outerR] at h4
      refine ⟨m, ?_, h2, ?_, ?_, ?_⟩
      · simp only [upd_same, hl, List.tail]; intro e he; exact h1 e (by simp [hl, he])
      · simp [upd_same, hl]; omega
      · simp [upd_same, hl]; exact h4
      · have e1 : nW r = 0 := by omega
        have e2 : outerR r = 0 := by omega
        simp [upd_same, hl, TOk, e1, e2, hp, phase]
    · exact (h.thr u).frame (upd_other _ _ _ _ e) rfl (upd_other _ _ _ _ e) (upd_other _ _ _ _ e) (fun _ => rfl)
  | writeUnlockReacquire t m hj hp hr =>
    obtain ⟨m0, h1, h2, h3, h4, h5⟩ := h.thr t
    rw [hj] at h5
    obtain ⟨rfl, hw, hl, hph⟩ := h5
    refine ⟨Inv.sys_call h.inner t m _ _ (Or.inl ⟨hp, Or.inl rfl⟩), fun u => ?_⟩
    by_cases e : u = t
    · subst e
      refine ⟨m, h1, ?_, h3, h4, ?_⟩
      · intro m' hm'; rw [call_inner, if_neg hm']; exact h2 m' hm'
      · rw [call_inner, if_pos rfl]; simp only [Sys.call, upd_same, TOk, phase]; exact ⟨trivial, hw, hr, hl, Or.inl trivial⟩
    · exact call_other s t u e m _ _ (h.thr u)
  | writeUnlockReacquired t m hj hp =>
    refine ⟨h.inner, fun u => ?_⟩
    by_cases e : u = t
    · subst e
      obtain ⟨m0, h1, h2, h3, h4, h5⟩ := h.thr u
      rw [hj] at h5
      obtain ⟨rfl, hw, hr, ⟨r, hl⟩, hph⟩ := h5
      rw [hl] at h3 h4
      simp only [nW] at h3; simp only [outerR] at h4
      refine ⟨m, ?_, h2, ?_, ?_, ?_⟩
      · simp only [upd_same, hl, List.tail]; intro e he; exact h1 e (by simp [hl, he])
      · simp [upd_same, hl]; omega
      · simp [upd_same, hl]; exact h4
      · have e1 : nW r = 0 := by omega
        have e2 : outerR r ≠ 0 := by omega
        simp [upd_same, hl, TOk, e1, e2, hp, phase]
    · exact (h.thr u).frame (upd_other _ _ _ _ e) rfl (upd_other _ _ _ _ e) (upd_other _ _ _ _ e) (fun _ => rfl)
  | inside t m i' hi =>
    obtain ⟨hph, hoth⟩ := istep_phase hi
    refine ⟨fun m' => ?_, fun u => ?_⟩
    · by_cases e : m' = m
      · subst e; simp only [upd_same]; exact (h.inner m').istep (fun e => e) hi
      · simp only [upd_other _ _ _ _ e]; exact h.inner m'
    · by_cases e : u = t
      · subst e
        obtain ⟨m0, h1, h2, h3, h4, h5⟩ := h.thr u
        have hm : m = m0 := by
          apply Classical.byContradiction; intro hne
          rw [h2 m hne] at hph
          generalize hq : phase (i'.pc u) = q at hph
          simp only [phase] at hph; cases hph
        subst hm
        refine ⟨m, h1, ?_, h3, h4, ?_⟩
        · intro m' hm'; simp only [upd_other _ _ _ _ hm']; exact h2 m' hm'
        · simp only [upd_same]
          generalize phase (i'.pc u) = q at hph
          generalize phase ((s.inner m).pc u) = p at hph h5
          cases hj : s.job u with
          | free =>
            rw [hj] at h5; simp only [TOk] at h5
            exfalso
            subst h5
            cases hn : decide (nW (s.stack u) = 0) <;> cases ho : decide (outerR (s.stack u) = 0) <;>
              simp at hn ho <;> simp [hn, ho] at hph <;> cases hph
          | rl => rw [hj] at h5; obtain ⟨a, b, rfl | rfl⟩ := h5 <;> cases hph <;> exact ⟨a, b, by simp⟩
          | ru => rw [hj] at h5; obtain ⟨a, b, rfl | rfl⟩ := h5 <;> cases hph <;> exact ⟨a, b, by simp⟩
          | wlRelease => rw [hj] at h5; obtain ⟨a, b, c, rfl | rfl⟩ := h5 <;> cases hph <;> exact ⟨a, b, c, by simp⟩
          | wl => rw [hj] at h5; obtain ⟨a, b, rfl | rfl⟩ := h5 <;> cases hph <;> exact ⟨a, b, by simp⟩
          | wuRelease => rw [hj] at h5; obtain ⟨a, b, c, rfl | rfl⟩ := h5 <;> cases hph <;> exact ⟨a, b, c, by simp⟩
          | wuReacquire => rw [hj] at h5; obtain ⟨a, b, c, d, rfl | rfl⟩ := h5 <;> cases hph <;> exact ⟨a, b, c, d, by simp⟩
      · refine (h.thr u).frame rfl rfl rfl rfl ?_
        intro m'
        by_cases e' : m' = m
        · subst e'; simp only [upd_same]; exact hoth u e
        · simp only [upd_other _ _ _ _ e']

end MVault.Mtx
