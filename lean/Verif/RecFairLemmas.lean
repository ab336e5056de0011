import Verif.RecFairModel
import Verif.MutexRecLemmas
import Verif.PropsFair
/-! Executions of recursive mutexes, seen at one of the inner mutexes (helpers of C97). -/
set_option linter.unusedSectionVars false
set_option linter.unusedSimpArgs false
set_option linter.unusedVariables false
namespace MVault.Mtx
variable {T : Type} [DecidableEq T] {M : Type} [DecidableEq M] {sp : Bool}

theorem SActs.toStep {s s' : Sys M T} {t : T} (h : SActs sp s t s') : SStep sp s s' := by
  cases h with
  | readLockFast m h1 h2 => exact .readLockFast _ _ _ h1 h2
  | readLockCall m h1 h2 h3 => exact .readLockCall _ _ _ h1 h2 h3
  | readLockDone m h1 h2 => exact .readLockDone _ _ _ h1 h2
  | readUnlockFast m r h1 h2 h3 => exact .readUnlockFast _ _ _ _ h1 h2 h3
  | readUnlockCall m r h1 h2 h3 h4 => exact .readUnlockCall _ _ _ _ h1 h2 h3 h4
  | readUnlockDone m h1 h2 => exact .readUnlockDone _ _ _ h1 h2
  | writeLockFast m h1 h2 => exact .writeLockFast _ _ _ h1 h2
  | writeLockUpgrade m h1 h2 h3 => exact .writeLockUpgrade _ _ _ h1 h2 h3
  | writeLockUpgraded m h1 h2 => exact .writeLockUpgraded _ _ _ h1 h2
  | writeLockCall m h1 h2 h3 => exact .writeLockCall _ _ _ h1 h2 h3
  | writeLockDone m h1 h2 => exact .writeLockDone _ _ _ h1 h2
  | writeUnlockFast m r h1 h2 h3 => exact .writeUnlockFast _ _ _ _ h1 h2 h3
  | writeUnlockCall m r h1 h2 h3 => exact .writeUnlockCall _ _ _ _ h1 h2 h3
  | writeUnlockDone m h1 h2 h3 => exact .writeUnlockDone _ _ _ h1 h2 h3
  | writeUnlockReacquire m h1 h2 h3 => exact .writeUnlockReacquire _ _ _ h1 h2 h3
  | writeUnlockReacquired m h1 h2 => exact .writeUnlockReacquired _ _ _ h1 h2
  | inside m i' h => exact .inside _ _ _ _ h

/-- `SActs` is `SStep` with the name of the thread. -/
theorem SStep.acts {s s' : Sys M T} (h : SStep sp s s') : ∃ t, SActs sp s t s' := by
  cases h with
  | readLockFast t m h1 h2 => exact ⟨_, .readLockFast _ _ _ h1 h2⟩
  | readLockCall t m h1 h2 h3 => exact ⟨_, .readLockCall _ _ _ h1 h2 h3⟩
  | readLockDone t m h1 h2 => exact ⟨_, .readLockDone _ _ _ h1 h2⟩
  | readUnlockFast t m r h1 h2 h3 => exact ⟨_, .readUnlockFast _ _ _ _ h1 h2 h3⟩
  | readUnlockCall t m r h1 h2 h3 h4 => exact ⟨_, .readUnlockCall _ _ _ _ h1 h2 h3 h4⟩
  | readUnlockDone t m h1 h2 => exact ⟨_, .readUnlockDone _ _ _ h1 h2⟩
  | writeLockFast t m h1 h2 => exact ⟨_, .writeLockFast _ _ _ h1 h2⟩
  | writeLockUpgrade t m h1 h2 h3 => exact ⟨_, .writeLockUpgrade _ _ _ h1 h2 h3⟩
  | writeLockUpgraded t m h1 h2 => exact ⟨_, .writeLockUpgraded _ _ _ h1 h2⟩
  | writeLockCall t m h1 h2 h3 => exact ⟨_, .writeLockCall _ _ _ h1 h2 h3⟩
  | writeLockDone t m h1 h2 => exact ⟨_, .writeLockDone _ _ _ h1 h2⟩
  | writeUnlockFast t m r h1 h2 h3 => exact ⟨_, .writeUnlockFast _ _ _ _ h1 h2 h3⟩
  | writeUnlockCall t m r h1 h2 h3 => exact ⟨_, .writeUnlockCall _ _ _ _ h1 h2 h3⟩
  | writeUnlockDone t m h1 h2 h3 => exact ⟨_, .writeUnlockDone _ _ _ h1 h2 h3⟩
  | writeUnlockReacquire t m h1 h2 h3 => exact ⟨_, .writeUnlockReacquire _ _ _ h1 h2 h3⟩
  | writeUnlockReacquired t m h1 h2 => exact ⟨_, .writeUnlockReacquired _ _ _ h1 h2⟩
  | inside t m i' h => exact ⟨_, .inside _ _ _ _ h⟩

/-- Inside a call. -/
def mid (p : Pc) : Prop := phase p = .rl ∨ phase p = .ru ∨ phase p = .wl ∨ phase p = .wu

theorem istep_mid {s s' : Inner T} {t : T} (h : IStep sp s t s') : mid (s.pc t) ∧ s'.pc t ≠ s.pc t := by
  cases h
  all_goals simp_all [mid, phase, goto_pc, Inner.goto, Inner.notify, upd]
  all_goals split <;> simp

theorem Acts.moved {s s' : Inner T} {t : T} (h : Acts sp s t s') : s'.pc t ≠ s.pc t := by
  cases h with
  | inside _ h => exact (istep_mid h).2
  | _ => simp_all [goto_pc]

theorem call_at (s : Sys M T) (t : T) (m m' : M) (p : Pc) (j : Job M) : (s.call t m p j).inner m' = if m' = m then (s.inner m).goto t p else s.inner m' := by
  by_cases h : m' = m
  · subst h; simp [Sys.call, upd]
  · simp [Sys.call, upd, h]

/-- A step of the system, seen at one inner mutex. -/
theorem SActs.seen {s s' : Sys M T} {t : T} (h : SInv sp s) (hs : SActs sp s t s') (h' : SInv sp s') (ho : OneMutex s') (m : M) :
    s'.inner m = s.inner m ∨ Acts sp (s.inner m) t (s'.inner m) := by
  cases hs with
  | readLockCall m0 hj hw hr =>
    rw [call_at]; split
    · rename_i e; subst e
      obtain ⟨_, h1, h2, h3, h4, h5⟩ := h.thr t
      have hl : s.stack t = [] := stack_nil (h3 ▸ hw) (h4 ▸ hr)
      obtain ⟨h2, h3, h4, h5⟩ := (h.thr t).switch hj m (by simp [hl])
      rw [hl] at h5; simp only [TOk, nW, outerR, if_true] at h5
      exact .inr (.callRL _ _ (phase_idle.1 h5))
    · exact .inl rfl
  | readUnlockCall m0 rest hj hl hw hr =>
    rw [call_at]; split
    · rename_i e; subst e
      obtain ⟨_, h1, h2, h3, h4, h5⟩ := h.thr t
      obtain ⟨h2, h3, h4, h5⟩ := (h.thr t).switch hj m (by
        intro e he; rw [h1 e he]; exact (h1 (.R, m) (by rw [hl]; simp)).symm)
      simp only [TOk, ← h3, ← h4, hw, hr] at h5
      simp at h5
      exact .inr (.callRU _ _ (phase_reading.1 h5))
    · exact .inl rfl
  | writeLockUpgrade m0 hj hw hr =>
    rw [call_at]; split
    · rename_i e; subst e
      obtain ⟨m0, hm, hjm⟩ := ho t
      simp only [Sys.call, upd_same, Job.mtx] at hjm hm
      have := hjm m rfl
      subst this
      obtain ⟨h2, h3, h4, h5⟩ := (h.thr t).switch hj m hm
      have : s.lr t ≠ 0 := by omega
      simp only [TOk, ← h3, ← h4, hw] at h5
      simp [this] at h5
      exact .inr (.callRU _ _ (phase_reading.1 h5))
    · exact .inl rfl
  | writeLockUpgraded m0 hj hp =>
    rw [call_at]; split
    · rename_i e; subst e; exact .inr (.callWL _ _ hp)
    · exact .inl rfl
  | writeLockCall m0 hj hw hr =>
    rw [call_at]; split
    · rename_i e; subst e
      obtain ⟨_, h1, h2, h3, h4, h5⟩ := h.thr t
      have hl : s.stack t = [] := stack_nil (h3 ▸ hw) (h4 ▸ hr)
      obtain ⟨h2, h3, h4, h5⟩ := (h.thr t).switch hj m (by simp [hl])
      rw [hl] at h5; simp only [TOk, nW, outerR, if_true] at h5
      exact .inr (.callWL _ _ (phase_idle.1 h5))
    · exact .inl rfl
  | writeUnlockCall m0 rest hj hl hw =>
    rw [call_at]; split
    · rename_i e; subst e
      obtain ⟨_, h1, h2, h3, h4, h5⟩ := h.thr t
      obtain ⟨h2, h3, h4, h5⟩ := (h.thr t).switch hj m (by
        intro e he; rw [h1 e he]; exact (h1 (.W, m) (by rw [hl]; simp)).symm)
      simp only [TOk, ← h3, hw] at h5
      simp at h5
      exact .inr (.callWU _ _ (phase_writing.1 h5))
    · exact .inl rfl
  | writeUnlockReacquire m0 hj hp hr =>
    rw [call_at]; split
    · rename_i e; subst e; exact .inr (.callRL _ _ hp)
    · exact .inl rfl
  | inside m0 i' hi =>
    by_cases e : m = m0
    · subst e; simp only [upd_same]; exact .inr (.inside _ _ _ hi)
    · exact .inl (upd_other _ _ _ _ e)
  | _ => exact .inl rfl

/-- The mutex in which a thread is not idle. -/
theorem ThreadOk.at_ {s : Sys M T} {t : T} (h : ThreadOk s t) {m : M} (hm : (s.inner m).pc t ≠ .idle) :
    (∀ e ∈ s.stack t, e.2 = m) ∧ (∀ m', m' ≠ m → (s.inner m').pc t = .idle) ∧ s.lw t = nW (s.stack t) ∧ s.lr t = outerR (s.stack t) ∧
    TOk (s.stack t) (s.lr t) (s.lw t) m (s.job t) (phase ((s.inner m).pc t)) := by
  obtain ⟨m0, h1, h2, h3, h4, h5⟩ := h
  have : m = m0 := by by_contra hc; exact hm (h2 m hc)
  subst this
  exact ⟨h1, h2, h3, h4, h5⟩

theorem mid_not_idle {p : Pc} (h : mid p) : p ≠ .idle := by rintro rfl; simp [mid, phase] at h

/-- A thread in an inner call is in a call. -/
theorem mid_busy {s : Sys M T} {t : T} (h : ThreadOk s t) {m : M} (hm : mid ((s.inner m).pc t)) : s.job t ≠ .free := by
  intro hj
  obtain ⟨_, _, _, _, h5⟩ := h.at_ (mid_not_idle hm)
  rw [hj] at h5
  simp only [TOk] at h5
  rcases hm with q | q | q | q <;> rw [q] at h5 <;> split at h5 <;> first | cases h5 | (split at h5 <;> cases h5)

/-- A thread in an inner call goes on in it. -/
theorem mid_acts {s s' : Sys M T} {t : T} (h : SInv sp s) (hs : SActs sp s t s') {m : M} (hm : mid ((s.inner m).pc t)) : s'.inner m ≠ s.inner m := by
  have hb := mid_busy (h.thr t) hm
  obtain ⟨_, h2, _, _, h5⟩ := (h.thr t).at_ (mid_not_idle hm)
  have hcall : ∀ (s0 : Sys M T) (m0 : M) (p : Pc) (j : Job M), (s0.call t m0 p j).inner m0 = (s0.inner m0).goto t p := fun s0 m0 p j => by rw [call_at, if_pos rfl]
  cases hs with
  | inside m0 i' hi =>
    have hm0 : m0 = m := by
      by_contra hc
      exact mid_not_idle (istep_mid hi).1 (h2 m0 hc)
    subst hm0
    simp only [upd_same]
    intro hc
    exact (istep_mid hi).2 (by rw [hc])
  | readLockDone m0 hj hp => rw [hj] at h5; obtain ⟨rfl, _⟩ := h5; rw [hp] at hm; simp [mid, phase] at hm
  | readUnlockDone m0 hj hp => rw [hj] at h5; obtain ⟨rfl, _⟩ := h5; rw [hp] at hm; simp [mid, phase] at hm
  | writeLockUpgraded m0 hj hp => rw [hj] at h5; obtain ⟨rfl, _⟩ := h5; rw [hp] at hm; simp [mid, phase] at hm
  | writeLockDone m0 hj hp => rw [hj] at h5; obtain ⟨rfl, _⟩ := h5; rw [hp] at hm; simp [mid, phase] at hm
  | writeUnlockDone m0 hj hp => rw [hj] at h5; obtain ⟨rfl, _⟩ := h5; rw [hp] at hm; simp [mid, phase] at hm
  | writeUnlockReacquire m0 hj hp => rw [hj] at h5; obtain ⟨rfl, _⟩ := h5; rw [hp] at hm; simp [mid, phase] at hm
  | writeUnlockReacquired m0 hj hp => rw [hj] at h5; obtain ⟨rfl, _⟩ := h5; rw [hp] at hm; simp [mid, phase] at hm
  | readLockFast _ hj => exact absurd hj hb
  | readLockCall _ hj => exact absurd hj hb
  | readUnlockFast _ _ hj => exact absurd hj hb
  | readUnlockCall _ _ hj => exact absurd hj hb
  | writeLockFast _ hj => exact absurd hj hb
  | writeLockUpgrade _ hj => exact absurd hj hb
  | writeLockCall _ hj => exact absurd hj hb
  | writeUnlockFast _ _ hj => exact absurd hj hb
  | writeUnlockCall _ _ hj => exact absurd hj hb

/-- What a completed call leaves: job, locks held, and what follows. -/
inductive Outcome (m : M) (l : List (Kind × M)) : Job M → Pc → Job M → List (Kind × M) → Prop
  | rl : Outcome m l (.rl m) .reading .free ((.R, m) :: l)
  | ru : Outcome m l (.ru m) .idle .free l.tail
  | upgrade : Outcome m l (.wlRelease m) .idle (.wl m) l
  | wl : Outcome m l (.wl m) .writing .free ((.W, m) :: l)
  | wu : Outcome m l (.wuRelease m) .idle .free l.tail
  | again : Outcome m l (.wuRelease m) .idle (.wuReacquire m) l
  | wuR : Outcome m l (.wuReacquire m) .reading .free l.tail

/-- A step of a thread in a call: inside the inner call, or its end. -/
theorem busy_acts {s s' : Sys M T} {t : T} (hs : SActs sp s t s') (hb : s.job t ≠ .free) :
    (s'.job t = s.job t ∧ s'.stack t = s.stack t ∧ ∃ m, mid ((s.inner m).pc t)) ∨
      ∃ m, Outcome m (s.stack t) (s.job t) ((s.inner m).pc t) (s'.job t) (s'.stack t) := by
  cases hs with
  | inside m0 i' hi => exact .inl ⟨rfl, rfl, m0, (istep_mid hi).1⟩
  | readLockDone m0 hj hp => refine .inr ⟨m0, ?_⟩; simp only [hj, hp, upd_same]; exact .rl
  | readUnlockDone m0 hj hp => refine .inr ⟨m0, ?_⟩; simp only [hj, hp, upd_same]; exact .ru
  | writeLockUpgraded m0 hj hp => refine .inr ⟨m0, ?_⟩; simp only [hj, hp, Sys.call, upd_same]; exact .upgrade
  | writeLockDone m0 hj hp => refine .inr ⟨m0, ?_⟩; simp only [hj, hp, upd_same]; exact .wl
  | writeUnlockDone m0 hj hp => refine .inr ⟨m0, ?_⟩; simp only [hj, hp, upd_same]; exact .wu
  | writeUnlockReacquire m0 hj hp => refine .inr ⟨m0, ?_⟩; simp only [hj, hp, Sys.call, upd_same]; exact .again
  | writeUnlockReacquired m0 hj hp => refine .inr ⟨m0, ?_⟩; simp only [hj, hp, upd_same]; exact .wuR
  | readLockFast _ hj => exact absurd hj hb
  | readLockCall _ hj => exact absurd hj hb
  | readUnlockFast _ _ hj => exact absurd hj hb
  | readUnlockCall _ _ hj => exact absurd hj hb
  | writeLockFast _ hj => exact absurd hj hb
  | writeLockUpgrade _ hj => exact absurd hj hb
  | writeLockCall _ hj => exact absurd hj hb
  | writeUnlockFast _ _ hj => exact absurd hj hb
  | writeUnlockCall _ _ hj => exact absurd hj hb

/-- A step of a thread in its own code: no call, or the beginning of an inner call. -/
theorem free_acts {s s' : Sys M T} {t : T} (hs : SActs sp s t s') (hb : s.job t = .free) : s'.job t = .free ∨ ∃ m, mid ((s'.inner m).pc t) := by
  cases hs with
  | inside m0 i' hi => exact .inl hb
  | readLockCall m0 hj => exact .inr ⟨m0, by rw [call_inner, if_pos rfl]; simp [mid, phase]⟩
  | readUnlockCall m0 _ hj => exact .inr ⟨m0, by rw [call_inner, if_pos rfl]; simp [mid, phase]⟩
  | writeLockUpgrade m0 hj => exact .inr ⟨m0, by rw [call_inner, if_pos rfl]; simp [mid, phase]⟩
  | writeLockCall m0 hj => exact .inr ⟨m0, by rw [call_inner, if_pos rfl]; simp [mid, phase]⟩
  | writeUnlockCall m0 _ hj => exact .inr ⟨m0, by rw [call_inner, if_pos rfl]; simp [mid, phase]⟩
  | readLockDone _ hj => rw [hb] at hj; cases hj
  | readUnlockDone _ hj => rw [hb] at hj; cases hj
  | writeLockUpgraded _ hj => rw [hb] at hj; cases hj
  | writeLockDone _ hj => rw [hb] at hj; cases hj
  | writeUnlockDone _ hj => rw [hb] at hj; cases hj
  | writeUnlockReacquire _ hj => rw [hb] at hj; cases hj
  | writeUnlockReacquired _ hj => rw [hb] at hj; cases hj
  | _ => exact .inl hb

/-- Other threads keep their place. -/
theorem acts_other {s s' : Sys M T} {t u : T} (hs : SActs sp s t s') (hne : u ≠ t) : s'.job u = s.job u ∧ s'.stack u = s.stack u := by
  cases hs <;> simp [Sys.call, upd, hne]

/-- The end of a call is possible. -/
theorem can_end {s : Sys M T} {t : T} {m : M} {l : List (Kind × M)} {j' : Job M} {l' : List (Kind × M)}
    (h : Outcome m l (s.job t) ((s.inner m).pc t) j' l') : rcan s t := by
  generalize hj : s.job t = J at h
  generalize hp : (s.inner m).pc t = P at h
  cases h with
  | rl => exact ⟨by rw [hj]; simp, _, .readLockDone _ _ _ hj hp⟩
  | ru => exact ⟨by rw [hj]; simp, _, .readUnlockDone _ _ _ hj hp⟩
  | upgrade => exact ⟨by rw [hj]; simp, _, .writeLockUpgraded _ _ _ hj hp⟩
  | wl => exact ⟨by rw [hj]; simp, _, .writeLockDone _ _ _ hj hp⟩
  | wu | again =>
    by_cases hr : s.lr t = 0
    · exact ⟨by rw [hj]; simp, _, .writeUnlockDone _ _ _ hj hp hr⟩
    · exact ⟨by rw [hj]; simp, _, .writeUnlockReacquire _ _ _ hj hp (by omega)⟩
  | wuR => exact ⟨by rw [hj]; simp, _, .writeUnlockReacquired _ _ _ hj hp⟩

/-! ### Executions -/

theorem RExec.acts (e : RExec M T sp) {i : Nat} {t : T} (h : e.who i = some t) : SActs sp (e.σ i) t (e.σ (i + 1)) := by
  have := e.step i; rw [h] at this; exact this

theorem RExec.idle (e : RExec M T sp) {i : Nat} (h : e.who i = none) : e.σ (i + 1) = e.σ i := by
  have := e.step i; rw [h] at this; exact this

theorem RExec.OneVault.one {e : RExec M T sp} (h : e.OneVault) (i : Nat) : OneMutex (e.σ i) := by
  intro t
  obtain ⟨m, h1, h2⟩ := h i t
  refine ⟨m, h1, fun m' hm' => h2 m' ?_⟩
  cases hj : (e.σ i).job t <;> rw [hj] at hm' <;> simp [Job.mtx] at hm' <;> simp [hm']

theorem RExec.OneVault.inv [Nonempty M] {e : RExec M T sp} (h : e.OneVault) : ∀ i, SInv sp (e.σ i)
  | 0 => by rw [e.start]; exact SInv.init
  | i + 1 => by
    cases hw : e.who i with
    | none => rw [e.idle hw]; exact h.inv i
    | some t => exact (h.inv i).step (e.acts hw).toStep (h.one (i + 1))

theorem RExec.other (e : RExec M T sp) {i : Nat} {u : T} (h : e.who i ≠ some u) : (e.σ (i + 1)).job u = (e.σ i).job u ∧ (e.σ (i + 1)).stack u = (e.σ i).stack u := by
  cases hw : e.who i with
  | none => rw [e.idle hw]; exact ⟨rfl, rfl⟩
  | some t => exact acts_other (e.acts hw) (fun hc => h (by rw [hw, hc]))

open Classical in
/-- The execution as the inner mutex of vault `m` sees it. -/
noncomputable def RExec.at_ [Nonempty M] (e : RExec M T sp) (ho : e.OneVault) (m : M) : Exec T sp where
  σ i := (e.σ i).inner m
  who i := if (e.σ (i + 1)).inner m = (e.σ i).inner m then none else e.who i
  start := by rw [e.start]; rfl
  step i := by
    by_cases h : (e.σ (i + 1)).inner m = (e.σ i).inner m
    · rw [if_pos h]; exact h
    · rw [if_neg h]
      cases hw : e.who i with
      | none => exact absurd (by rw [e.idle hw]) h
      | some t =>
        rcases SActs.seen (ho.inv i) (e.acts hw) (ho.inv (i + 1)) (ho.one (i + 1)) m with q | q
        · exact absurd q h
        · exact q

theorem RExec.at_who [Nonempty M] (e : RExec M T sp) (ho : e.OneVault) (m : M) {i : Nat} {t : T} :
    (e.at_ ho m).who i = some t ↔ e.who i = some t ∧ (e.σ (i + 1)).inner m ≠ (e.σ i).inner m := by
  simp only [RExec.at_]
  split <;> simp_all

section
variable [Nonempty M] {e : RExec M T sp} (ho : e.OneVault)
include ho

theorem at_fair (hf : e.Fair) (m : M) : (e.at_ ho m).Fair := by
  intro t i hc
  by_contra hno
  have hno : ∀ j ≥ i, (e.at_ ho m).who j ≠ some t := fun j hj h => hno ⟨j, hj, h⟩
  obtain ⟨k0, hk0, s0, hs0⟩ := hc i (Nat.le_refl _)
  have hm0 := (istep_mid hs0).1
  have h5 : ((e.at_ ho m).σ k0).pc t ≠ .wl5 := by
    intro h5
    cases hs0 <;> simp_all
  have hst := (e.at_ ho m).stays rfl h5
  have hst : ∀ j ≥ k0, ((e.σ j).inner m).pc t = ((e.σ k0).inner m).pc t := fun j hj => hst j hj fun k a _ => hno k (by omega)
  obtain ⟨j, hj, hw⟩ := hf t k0 fun j hj => by
    obtain ⟨k, hk, s', hs'⟩ := hc j (by omega)
    exact ⟨k, hk, mid_busy ((ho.inv k).thr t) (istep_mid hs').1, _, .inside _ _ m _ hs'⟩
  exact hno j (by omega) ((e.at_who ho m).2 ⟨hw, mid_acts (ho.inv j) (e.acts hw) (by rw [hst j hj]; exact hm0)⟩)

/-- A call that has done its inner part ends. -/
theorem ends (hf : e.Fair) {t : T} {i : Nat} {m : M} {J : Job M} (hb : J ≠ .free) (hJ : ∀ j ≥ i, (e.σ j).job t = J)
    (hp : ∀ j ≥ i, ∃ l j' l', Outcome m l ((e.σ j).job t) (((e.σ j).inner m).pc t) j' l') : False := by
  obtain ⟨j, hj, hw⟩ := hf t i fun j hj => by
    obtain ⟨l, j', l', h⟩ := hp j hj
    exact ⟨j, Nat.le_refl _, can_end h⟩
  rcases busy_acts (e.acts hw) (by rw [hJ j hj]; exact hb) with ⟨_, _, m', hm'⟩ | ⟨m', h'⟩
  · obtain ⟨l, j', l', h⟩ := hp j hj
    have hq := ((ho.inv j).thr t).at_ (mid_not_idle hm')
    obtain ⟨_, _, _, _, h5⟩ := hq
    generalize (e.σ j).job t = J' at h5 h
    generalize hP : ((e.σ j).inner m).pc t = P at h
    cases h <;> obtain ⟨rfl, _⟩ := h5 <;> rw [hP] at hm' <;> simp [mid, phase] at hm'
  · have e1 := hJ j hj
    have e2 := hJ (j + 1) (by omega)
    rw [e1, e2] at h'
    generalize ((e.σ j).inner m').pc t = P at h'
    generalize (e.σ j).stack t = l at h'
    generalize (e.σ (j + 1)).stack t = l' at h'
    revert h' hb
    generalize hJ2 : J = J2
    rintro hb h'
    clear hJ hp hw
    cases J2 <;> cases h' <;> simp at hb

theorem at_releases (hf : e.Fair) (hr : e.Releases) (m : M) : (e.at_ ho m).Releases := by
  intro t i hp
  by_contra hno
  have hno : ∀ j ≥ i, (e.at_ ho m).who j ≠ some t := fun j hj h => hno ⟨j, hj, h⟩
  have hp : ((e.σ i).inner m).pc t = .reading ∨ ((e.σ i).inner m).pc t = .writing := hp
  have h5 : ((e.at_ ho m).σ i).pc t ≠ .wl5 := by show ((e.σ i).inner m).pc t ≠ _; rcases hp with q | q <;> rw [q] <;> simp
  have hst : ∀ j ≥ i, ((e.σ j).inner m).pc t = ((e.σ i).inner m).pc t := fun j hj => (e.at_ ho m).stays rfl h5 j hj fun k a _ => hno k (by omega)
  have hni : ∀ j ≥ i, ((e.σ j).inner m).pc t ≠ .idle := fun j hj => by rw [hst j hj]; rcases hp with q | q <;> rw [q] <;> simp
  have hnm : ∀ j ≥ i, ∀ m', ¬ mid (((e.σ j).inner m').pc t) := by
    intro j hj m' hm'
    by_cases h : m' = m
    · subst h; rw [hst j hj] at hm'; rcases hp with q | q <;> rw [q] at hm' <;> simp [mid, phase] at hm'
    · exact mid_not_idle hm' ((((ho.inv j).thr t).at_ (hni j hj)).2.1 m' h)
  -- a busy thread ends its call
  have hfree : ∃ i1 ≥ i, (e.σ i1).job t = .free := by
    by_contra hc
    have hc : ∀ j ≥ i, (e.σ j).job t ≠ .free := fun j hj h => hc ⟨j, hj, h⟩
    have hout : ∀ j ≥ i, ∃ l j' l', Outcome m l ((e.σ j).job t) (((e.σ j).inner m).pc t) j' l' := by
      intro j hj
      obtain ⟨_, _, _, _, h5⟩ := ((ho.inv j).thr t).at_ (hni j hj)
      have hb := hc j hj
      have hpj := hst j hj
      generalize (e.σ j).job t = J at h5 hb
      rcases hp with q | q
      all_goals
        rw [q] at hpj; rw [hpj] at h5 ⊢
        cases J <;> simp only [TOk, phase, reduceCtorEq, or_self, and_false] at h5
      all_goals first
        | exact absurd rfl hb
        | (obtain ⟨rfl, _⟩ := h5
           first | exact ⟨[], _, _, .rl⟩ | exact ⟨[], _, _, .wl⟩ | exact ⟨[], _, _, .wuR⟩)
    have hcon : ∀ j ≥ i, (e.σ j).job t = (e.σ i).job t := by
      intro j hj
      induction j, hj using Nat.le_induction with
      | base => rfl
      | succ j hj ih =>
        by_cases hw : e.who j = some t
        · rcases busy_acts (e.acts hw) (hc j hj) with ⟨q, _⟩ | ⟨m', h'⟩
          · rw [q, ih]
          · exfalso
            have h2 := hc (j + 1) (by omega)
            have hpj := hst j hj
            obtain ⟨l, j', l', h⟩ := hout j hj
            generalize (e.σ j).job t = J at h' h
            generalize (e.σ (j + 1)).job t = J' at h' h2
            generalize (e.σ j).stack t = x at h'
            generalize (e.σ (j + 1)).stack t = x' at h'
            generalize ((e.σ j).inner m').pc t = P' at h'
            rw [hpj] at h
            generalize ((e.σ i).inner m).pc t = P at h hp
            cases h' <;> cases h <;> simp_all
        · rw [(e.other hw).1, ih]
    exact ends ho hf (hc i (Nat.le_refl _)) hcon hout
  obtain ⟨i1, hi1, hj1⟩ := hfree
  have hall : ∀ j ≥ i1, (e.σ j).job t = .free := by
    intro j hj
    induction j, hj using Nat.le_induction with
    | base => exact hj1
    | succ j hj ih =>
      by_cases hw : e.who j = some t
      · rcases free_acts (e.acts hw) ih with q | ⟨m', q⟩
        · exact q
        · exact absurd q (hnm (j + 1) (by omega) m')
      · rw [(e.other hw).1, ih]
  obtain ⟨j, hj, hs⟩ := hr t i1 hall
  obtain ⟨_, _, _, _, h5⟩ := ((ho.inv j).thr t).at_ (hni j (by omega))
  rw [hall j hj, hs] at h5
  simp only [TOk, nW, outerR, if_true] at h5
  exact hni j (by omega) (phase_idle.1 h5)

/-- A call ends when its inner part does. -/
theorem returns (hf : e.Fair) {t : T} {i : Nat} {m : M} {J : Job M} (hb : J.mtx = some m) (hj : (e.σ i).job t = J)
    (hin : (∀ j ≥ i, (e.σ j).job t = J) → ∃ j ≥ i, ∃ l j' l', Outcome m l J (((e.σ j).inner m).pc t) j' l') :
    ∃ j ≥ i, (e.σ j).job t = J ∧ (e.σ j).stack t = (e.σ i).stack t ∧ Outcome m ((e.σ i).stack t) J (((e.σ j).inner m).pc t) ((e.σ (j + 1)).job t) ((e.σ (j + 1)).stack t) := by
  have hbn : J ≠ .free := by rintro rfl; simp [Job.mtx] at hb
  classical
  -- the first time the job changes
  by_cases hch : ∃ d, (e.σ (i + d)).job t ≠ J
  · have h1 := Nat.find_spec hch
    have h2 : ∀ d, d < Nat.find hch → (e.σ (i + d)).job t = J := fun d hd => by simpa using Nat.find_min hch hd
    generalize Nat.find hch = n at h1 h2
    cases n with
    | zero => exact absurd hj h1
    | succ n =>
      have hk := h2 n (by omega)
      have hstk : ∀ d ≤ n, (e.σ (i + d)).stack t = (e.σ i).stack t := by
        intro d
        induction d with
        | zero => intro _; rfl
        | succ d ih =>
          intro hd
          by_cases hw : e.who (i + d) = some t
          · rcases busy_acts (e.acts hw) (by rw [h2 d (by omega)]; exact hbn) with ⟨_, q, _⟩ | ⟨m', h'⟩
            · rw [show i + (d + 1) = i + d + 1 from rfl, q, ih (by omega)]
            · exfalso
              have e2 : (e.σ (i + d + 1)).job t = J := h2 (d + 1) (by omega)
              rw [h2 d (by omega), e2] at h'
              generalize ((e.σ (i + d)).inner m').pc t = P at h'
              generalize (e.σ (i + d)).stack t = l at h'
              generalize (e.σ (i + d + 1)).stack t = l' at h'
              clear hin hj h2 hk h1 e2 hch ih
              cases J <;> cases h'
          · rw [show i + (d + 1) = i + d + 1 from rfl, (e.other hw).2, ih (by omega)]
      by_cases hw : e.who (i + n) = some t
      · rcases busy_acts (e.acts hw) (by rw [hk]; exact hbn) with ⟨q, _⟩ | ⟨m', h'⟩
        · exact absurd (q.trans hk) h1
        · rw [hk, hstk n (Nat.le_refl _)] at h'
          have hm' : m' = m := by
            clear hin hj h2 hk h1 hch
            generalize ((e.σ (i + n)).inner m').pc t = P at h'
            generalize (e.σ (i + n + 1)).stack t = l' at h'
            generalize (e.σ (i + n + 1)).job t = j' at h'
            cases h' <;> simpa [Job.mtx] using hb
          subst hm'
          exact ⟨i + n, by omega, hk, hstk n (Nat.le_refl _), h'⟩
      · exact absurd ((e.other hw).1.trans hk) h1
  · exfalso
    have hall : ∀ j ≥ i, (e.σ j).job t = J := fun j hj => by
      by_contra hc; exact hch ⟨j - i, by rw [Nat.add_sub_cancel' hj]; exact hc⟩
    obtain ⟨k, hk, l, j', l', h⟩ := hin hall
    have hstay : ∀ j ≥ k, ((e.σ j).inner m).pc t = ((e.σ k).inner m).pc t := by
      intro j hj
      induction j, hj using Nat.le_induction with
      | base => rfl
      | succ j hj ih =>
        by_cases hw : (e.at_ ho m).who j = some t
        · exfalso
          have ha : Acts sp ((e.σ j).inner m) t ((e.σ (j + 1)).inner m) := (e.at_ ho m).acts hw
          have hJ2 := hall (j + 1) (by omega)
          obtain ⟨m0, g1, g2, g3, g4, g5⟩ := (ho.inv (j + 1)).thr t
          rw [hJ2] at g5
          rw [← ih] at h
          have hm0 : m0 = m := by
            clear hin hall hch hj
            cases J <;> simp [Job.mtx] at hb <;> obtain ⟨q, _⟩ := g5 <;> rw [← q, hb]
          subst hm0
          clear hin hall hch
          generalize (e.σ (j + 1)).inner m0 = s' at ha g5
          generalize (e.σ j).inner m0 = s at ha h ih
          have hpc : ∃ P, s.pc t = P := ⟨_, rfl⟩
          obtain ⟨P, hP⟩ := hpc
          rw [hP] at h
          cases ha with
          | inside _ hi =>
            have := (istep_mid hi).1
            rw [hP] at this
            cases h <;> simp [mid, phase] at this
          | callRL hx => rw [hP] at hx; cases h <;> first | (exfalso; exact absurd hx (by decide)) | (simp [goto_pc, TOk, phase] at g5)
          | callRU hx => rw [hP] at hx; cases h <;> first | (exfalso; exact absurd hx (by decide)) | (simp [goto_pc, TOk, phase] at g5)
          | callWL hx => rw [hP] at hx; cases h <;> first | (exfalso; exact absurd hx (by decide)) | (simp [goto_pc, TOk, phase] at g5)
          | callWU hx => rw [hP] at hx; cases h <;> first | (exfalso; exact absurd hx (by decide)) | (simp [goto_pc, TOk, phase] at g5)
        · have h5 : ((e.at_ ho m).σ j).pc t ≠ .wl5 := by
            show ((e.σ j).inner m).pc t ≠ _
            rw [ih]; intro hc; rw [hc] at h; cases h
          have := (e.at_ ho m).stays (i := j) rfl h5 (j + 1) (by omega) (fun n a b => by rw [show n = j by omega]; exact hw)
          exact Eq.trans this ih
    exact ends ho hf hbn (i := k) (m := m) (fun j hj => hall j (by omega)) fun j hj => ⟨l, j', l', by rw [hall j (by omega), hstay j hj]; exact h⟩

end
end MVault.Mtx
