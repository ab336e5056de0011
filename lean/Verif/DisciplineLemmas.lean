import Verif.MutexRecLemmas
set_option linter.unusedSimpArgs false
set_option linter.unusedVariables false
/-! Who owns `WriteMutex` and `ReadMutex` in a system of recursive mutexes, with any nesting of locks of any number of
mutexes (helpers of PropsDiscipline). -/
namespace MVault.Mtx
variable {T : Type} [DecidableEq T] {M : Type} [DecidableEq M] {sp : Bool}

/-- Owners of the two `std::mutex` objects. -/
structure StdOwn (s : Inner T) : Prop where
  w : ∀ t, holdsW (s.pc t) = true ↔ s.wOwn = some t
  r : ∀ t, holdsR (s.pc t) = true ↔ s.rOwn = some t

theorem StdOwn.step {s s' : Inner T} {t : T} (h : StdOwn s) (hs : IStep sp s t s') : StdOwn s' := by
  cases hs with
  | rl1 hp ho =>
    exact ⟨own_step holdsW s.pc _ _ t _ h.w (by simp [holdsW, hp, ho]), own_step holdsR s.pc _ _ t _ h.r (by simp [holdsR, hp, Inner.goto])⟩
  | rl2 hp ho =>
    exact ⟨own_step holdsW s.pc _ _ t _ h.w (by simp [holdsW, hp, Inner.goto]), own_step holdsR s.pc _ _ t _ h.r (by simp [holdsR, hp, ho])⟩
  | rl3 hp =>
    exact ⟨own_step holdsW s.pc _ _ t _ h.w (by simp [holdsW, hp, Inner.goto]), own_step holdsR s.pc _ _ t _ h.r (by simp [holdsR, hp, Inner.goto])⟩
  | rl4 hp =>
    exact ⟨own_step holdsW s.pc _ _ t _ h.w (by simp [holdsW, hp, Inner.goto]), own_step holdsR s.pc _ _ t _ h.r (by simp [holdsR, hp])⟩
  | rl5 hp =>
    exact ⟨own_step holdsW s.pc _ _ t _ h.w (by simp [holdsW, hp]), own_step holdsR s.pc _ _ t _ h.r (by simp [holdsR, hp, Inner.goto])⟩
  | ru1 hp ho =>
    exact ⟨own_step holdsW s.pc _ _ t _ h.w (by simp [holdsW, hp, Inner.goto]), own_step holdsR s.pc _ _ t _ h.r (by simp [holdsR, hp, ho])⟩
  | ru2 hp =>
    exact ⟨own_step holdsW s.pc _ _ t _ h.w (by simp [holdsW, hp, Inner.goto]), own_step holdsR s.pc _ _ t _ h.r (by simp [holdsR, hp, Inner.goto])⟩
  | ru3 hp =>
    exact ⟨own_step holdsW s.pc _ _ t _ h.w (by by_cases e : s.cnt = 0 <;> simp [holdsW, hp, e, Inner.goto]),
      own_step holdsR s.pc _ _ t _ h.r (by by_cases e : s.cnt = 0 <;> simp [holdsR, hp, e, Inner.goto])⟩
  | ru4 hp =>
    exact ⟨own_step holdsW s.pc _ _ t _ h.w (by cases e : s.flag <;> simp [holdsW, hp, e, Inner.goto]),
      own_step holdsR s.pc _ _ t _ h.r (by cases e : s.flag <;> simp [holdsR, hp, e, Inner.goto])⟩
  | ru5 hp =>
    have hw : ∀ u, holdsW ((s.notify).pc u) = true ↔ s.wOwn = some u := by
      intro u; rw [← h.w u]; simp only [Inner.notify]
      by_cases e : s.pc u = .wl5 <;> simp [e, holdsW]
    have hr : ∀ u, holdsR ((s.notify).pc u) = true ↔ s.rOwn = some u := by
      intro u; rw [← h.r u]; simp only [Inner.notify]
      by_cases e : s.pc u = .wl5 <;> simp [e, holdsR]
    have hpn : s.notify.pc t = .ru5 := by simp [Inner.notify, hp]
    exact ⟨own_step holdsW s.notify.pc _ _ t _ hw (Or.inl ⟨by rw [hpn]; rfl, rfl⟩),
      own_step holdsR s.notify.pc _ _ t _ hr (Or.inl ⟨by rw [hpn]; rfl, rfl⟩)⟩
  | ru6 hp =>
    exact ⟨own_step holdsW s.pc _ _ t _ h.w (by simp [holdsW, hp, Inner.goto]), own_step holdsR s.pc _ _ t _ h.r (by simp [holdsR, hp])⟩
  | wl1 hp ho =>
    exact ⟨own_step holdsW s.pc _ _ t _ h.w (by simp [holdsW, hp, ho]), own_step holdsR s.pc _ _ t _ h.r (by simp [holdsR, hp, Inner.goto])⟩
  | wl2 hp =>
    exact ⟨own_step holdsW s.pc _ _ t _ h.w (by simp [holdsW, hp, Inner.goto]), own_step holdsR s.pc _ _ t _ h.r (by simp [holdsR, hp, Inner.goto])⟩
  | wl3 hp =>
    exact ⟨own_step holdsW s.pc _ _ t _ h.w (by by_cases e : s.cnt > 0 <;> simp [holdsW, hp, e, Inner.goto]),
      own_step holdsR s.pc _ _ t _ h.r (by by_cases e : s.cnt > 0 <;> simp [holdsR, hp, e, Inner.goto])⟩
  | wl4 hp =>
    exact ⟨own_step holdsW s.pc _ _ t _ h.w (by simp [holdsW, hp, Inner.goto]), own_step holdsR s.pc _ _ t _ h.r (by simp [holdsR, hp, Inner.goto])⟩
  | spurious hsp hp =>
    exact ⟨own_step holdsW s.pc _ _ t _ h.w (by simp [holdsW, hp, Inner.goto]), own_step holdsR s.pc _ _ t _ h.r (by simp [holdsR, hp, Inner.goto])⟩
  | wl6 hp =>
    exact ⟨own_step holdsW s.pc _ _ t _ h.w (by simp [holdsW, hp, Inner.goto]), own_step holdsR s.pc _ _ t _ h.r (by simp [holdsR, hp, Inner.goto])⟩
  | wu1 hp =>
    exact ⟨own_step holdsW s.pc _ _ t _ h.w (by simp [holdsW, hp]), own_step holdsR s.pc _ _ t _ h.r (by simp [holdsR, hp, Inner.goto])⟩

/-- The mutex of the outermost write lock of a lock stack (innermost lock first). -/
def outerW (l : List (Kind × M)) : Option M := (l.reverse.find? fun e => e.1 = Kind.W).map Prod.snd

theorem outerW_nil : outerW ([] : List (Kind × M)) = none := rfl
theorem outerW_R (m : M) (l : List (Kind × M)) : outerW ((.R, m) :: l) = outerW l := by
  simp [outerW, List.find?_append]
theorem outerW_W (m : M) (l : List (Kind × M)) : outerW ((.W, m) :: l) = (outerW l).or (some m) := by
  simp only [outerW, List.reverse_cons, List.find?_append]
  cases List.find? (fun e => decide (e.1 = Kind.W)) l.reverse <;> simp

theorem outerW_none {l : List (Kind × M)} : outerW l = none ↔ nW l = 0 := by
  induction l with
  | nil => simp [outerW_nil, nW]
  | cons e l ih =>
    obtain ⟨k, m⟩ := e
    cases k with
    | R => rw [outerW_R, ih]; rfl
    | W => rw [outerW_W]; cases outerW l <;> simp [nW]

/-- Not inside a call, and no write lock. -/
def Quiet (p : Phase) : Prop := p = .idle ∨ p = .reading

/-- Where a thread is in mutex `m`, by what it is doing and the locks it holds. -/
def DOk (l : List (Kind × M)) (m : M) : Job M → Phase → Prop
  | .free, p => if outerW l = some m then p = .writing else Quiet p
  | .rl m', p => if m' = m then p = .rl ∨ p = .reading else Quiet p
  | .ru m', p => if m' = m then p = .ru ∨ p = .idle else Quiet p
  | .wlRelease m', p => if m' = m then p = .ru ∨ p = .idle else Quiet p
  | .wl m', p => if m' = m then p = .wl ∨ p = .writing else Quiet p
  | .wuRelease m', p => if m' = m then p = .wu ∨ p = .idle else Quiet p
  | .wuReacquire m', p => if m' = m then p = .rl ∨ p = .reading else Quiet p

/-- What the locks of a thread look like in the middle of a call. -/
def JOk (l : List (Kind × M)) (lr : Nat) : Job M → Prop
  | .free => True
  | .rl _ => l = []
  | .ru m => l = [(.R, m)]
  | .wlRelease _ => nW l = 0
  | .wl _ => nW l = 0
  | .wuRelease m => ∃ r, l = (.W, m) :: r ∧ nW r = 0
  | .wuReacquire m => (∃ r, l = (.W, m) :: r ∧ nW r = 0) ∧ lr > 0

/-- The state of one thread. -/
structure DThread (s : Sys M T) (t : T) : Prop where
  lw : s.lw t = nW (s.stack t)
  lr : s.lr t = outerR (s.stack t)
  jb : JOk (s.stack t) (s.lr t) (s.job t)
  at_ : ∀ m, DOk (s.stack t) m (s.job t) (phase ((s.inner m).pc t))

structure DInv (s : Sys M T) : Prop where
  own : ∀ m, StdOwn (s.inner m)
  thr : ∀ t, DThread s t

theorem DThread.frame {s s' : Sys M T} {u : T} (h : DThread s u) (hs : s'.stack u = s.stack u) (hr : s'.lr u = s.lr u)
    (hw : s'.lw u = s.lw u) (hj : s'.job u = s.job u) (hp : ∀ m, phase ((s'.inner m).pc u) = phase ((s.inner m).pc u)) :
    DThread s' u :=
  ⟨by rw [hw, hs]; exact h.lw, by rw [hr, hs]; exact h.lr, by rw [hs, hr, hj]; exact h.jb,
   fun m => by rw [hs, hj, hp]; exact h.at_ m⟩

theorem DInv.init : DInv (Sys.init M T) where
  own := fun _ => ⟨by simp [Sys.init, Inner.init, holdsW], by simp [Sys.init, Inner.init, holdsR]⟩
  thr := fun t => ⟨rfl, rfl, trivial, fun m => by simp [Sys.init, Inner.init, DOk, outerW_nil, Quiet, phase]⟩

theorem dcall_other (s : Sys M T) (t u : T) (hu : u ≠ t) (m : M) (p : Pc) (j : Job M) (h : DThread s u) :
    DThread (s.call t m p j) u := by
  refine h.frame rfl rfl rfl (by simp [Sys.call, upd, hu]) ?_
  intro m'
  by_cases e : m' = m
  · subst e; simp [Sys.call, upd, Inner.goto, hu]
  · simp [Sys.call, upd, e]

/-- A call starts from outside of a call: the owners stay. -/
theorem StdOwn.call {s : Sys M T} (h : ∀ m, StdOwn (s.inner m)) (t : T) (m : M) (p : Pc) (j : Job M)
    (hw : holdsW p = holdsW ((s.inner m).pc t)) (hr : holdsR p = holdsR ((s.inner m).pc t)) :
    ∀ m', StdOwn ((s.call t m p j).inner m') := by
  intro m'
  by_cases e : m' = m
  · subst e; simp only [Sys.call, upd_same]
    exact ⟨own_step holdsW _ _ _ t p (h m').w (Or.inl ⟨hw, rfl⟩), own_step holdsR _ _ _ t p (h m').r (Or.inl ⟨hr, rfl⟩)⟩
  · simp only [Sys.call, upd_other _ _ _ _ e]; exact h m'

theorem quiet_holds {p : Pc} (h : Quiet (phase p)) : holdsW p = false ∧ holdsR p = false := by
  cases p <;> simp [Quiet, phase, holdsW, holdsR] at h ⊢

theorem DThread.free_quiet {s : Sys M T} {t : T} (h : DThread s t) (hj : s.job t = .free) (hw : s.lw t = 0) (m : M) :
    Quiet (phase ((s.inner m).pc t)) := by
  have h1 := h.at_ m
  rw [hj] at h1
  simp only [DOk, outerW_none.2 (h.lw ▸ hw)] at h1
  simpa using h1

/-- The thread that starts a call. -/
theorem DInv.call {s : Sys M T} (h : DInv s) (t : T) (m : M) (p : Pc) (j : Job M)
    (hw : holdsW p = holdsW ((s.inner m).pc t)) (hr : holdsR p = holdsR ((s.inner m).pc t))
    (hjb : JOk (s.stack t) (s.lr t) j)
    (hat : ∀ m', DOk (s.stack t) m' j (phase (if m' = m then p else (s.inner m').pc t))) : DInv (s.call t m p j) := by
  refine ⟨StdOwn.call h.own t m p j hw hr, fun u => ?_⟩
  by_cases e : u = t
  · subst e
    refine ⟨(h.thr u).lw, (h.thr u).lr, ?_, fun m' => ?_⟩
    · simpa only [Sys.call, upd_same] using hjb
    · rw [call_inner]; simpa only [Sys.call, upd_same] using hat m'
  · exact dcall_other s t u e m p j (h.thr u)

/-- A step that leaves the mutexes alone and changes only thread `t`. -/
theorem DInv.local {s s' : Sys M T} (h : DInv s) (t : T) (hi : s'.inner = s.inner)
    (ho : ∀ u, u ≠ t → s'.stack u = s.stack u ∧ s'.lr u = s.lr u ∧ s'.lw u = s.lw u ∧ s'.job u = s.job u)
    (ht : DThread s' t) : DInv s' := by
  refine ⟨fun m => by rw [hi]; exact h.own m, fun u => ?_⟩
  by_cases e : u = t
  · rw [e]; exact ht
  · obtain ⟨h1, h2, h3, h4⟩ := ho u e
    exact (h.thr u).frame h1 h2 h3 h4 (fun m => by rw [hi])

theorem DInv.step {s s' : Sys M T} (h : DInv s) (hs : SStep sp s s') : DInv s' := by
  cases hs with
  | readLockFast t m hj hc =>
    have ht := h.thr t
    refine h.local t rfl (fun u e => ⟨upd_other _ _ _ _ e, by simp only; split <;> simp [upd, e], rfl, rfl⟩) ⟨?_, ?_, ?_, fun m' => ?_⟩
    · simp only [upd_same, nW]; exact ht.lw
    · simp only [upd_same, outerR, ← ht.lw]
      by_cases hw : s.lw t = 0
      · simp [hw, upd_same, ht.lr]
      · simp [hw, ht.lr]
    · simp only [hj]; trivial
    · have := ht.at_ m'
      rw [hj] at this
      simp only [hj, upd_same, DOk, outerW_R] at this ⊢; exact this
  | readLockCall t m hj hw hr =>
    have ht := h.thr t
    have hl : s.stack t = [] := stack_nil (ht.lw ▸ hw) (ht.lr ▸ hr)
    obtain ⟨q1, q2⟩ := quiet_holds (ht.free_quiet hj hw m)
    refine h.call t m _ _ (by rw [q1]; rfl) (by rw [q2]; rfl) hl fun m' => ?_
    by_cases e : m' = m
    · subst e; simp [DOk, phase]
    · simp only [DOk, if_neg e, if_neg (Ne.symm e)]; exact ht.free_quiet hj hw m'
  | readLockDone t m hj hp =>
    have ht := h.thr t
    have hl : s.stack t = [] := by have := ht.jb; rw [hj] at this; exact this
    have h1 := ht.lw
    have h2 := ht.lr
    rw [hl] at h1 h2
    refine h.local t rfl (fun u e => ⟨upd_other _ _ _ _ e, upd_other _ _ _ _ e, rfl, upd_other _ _ _ _ e⟩) ⟨?_, ?_, ?_, fun m' => ?_⟩
    · simp [upd_same, hl, nW, h1]
    · simp [upd_same, hl, nW, outerR, h2]
    · simp only [upd_same]; trivial
    · have := ht.at_ m'
      rw [hj] at this
      simp only [upd_same, hl, DOk, outerW_R, outerW_nil] at this ⊢
      by_cases e : m = m'
      · subst e; simp [hp, phase, Quiet]
      · simpa [e] using this
  | readUnlockFast t m rest hj hl hc =>
    have ht := h.thr t
    have h1 := ht.lw
    have h2 := ht.lr
    rw [hl] at h1 h2
    simp only [nW] at h1
    simp only [outerR, ← h1] at h2
    refine h.local t rfl (fun u e => ⟨upd_other _ _ _ _ e, by simp only; split <;> simp [upd, e], rfl, rfl⟩) ⟨?_, ?_, ?_, fun m' => ?_⟩
    · simp only [upd_same]; exact h1
    · simp only [upd_same]
      by_cases hw : s.lw t = 0
      · simp [hw, upd_same] at h2 ⊢; omega
      · simp [hw] at h2 ⊢; exact h2
    · simp only [hj]; trivial
    · have := ht.at_ m'
      rw [hj, hl] at this
      simp only [hj, upd_same, DOk, outerW_R] at this ⊢; exact this
  | readUnlockCall t m rest hj hl hw hr =>
    have ht := h.thr t
    have h1 := ht.lw
    have h2 := ht.lr
    rw [hl] at h1 h2
    have hrest : rest = [] := stack_one (h1 ▸ hw) (h2 ▸ hr)
    subst hrest
    obtain ⟨q1, q2⟩ := quiet_holds (ht.free_quiet hj hw m)
    refine h.call t m _ _ (by rw [q1]; rfl) (by rw [q2]; rfl) hl fun m' => ?_
    by_cases e : m' = m
    · subst e; simp [DOk, phase]
    · simp only [DOk, if_neg e, if_neg (Ne.symm e)]; exact ht.free_quiet hj hw m'
  | readUnlockDone t m hj hp =>
    have ht := h.thr t
    have hl : s.stack t = [(.R, m)] := by have := ht.jb; rw [hj] at this; exact this
    have h1 := ht.lw
    have h2 := ht.lr
    rw [hl] at h1 h2
    refine h.local t rfl (fun u e => ⟨upd_other _ _ _ _ e, upd_other _ _ _ _ e, rfl, upd_other _ _ _ _ e⟩) ⟨?_, ?_, ?_, fun m' => ?_⟩
    · simpa [upd_same, hl, nW] using h1
    · simp [outerR, nW] at h2; simp [upd_same, hl, nW, outerR, h2]
    · simp only [upd_same]; trivial
    · have := ht.at_ m'
      rw [hj] at this
      simp only [upd_same, hl, DOk, List.tail, outerW_nil] at this ⊢
      by_cases e : m = m'
      · subst e; simp [hp, phase, Quiet]
      · simpa [e] using this
  | writeLockFast t m hj hw =>
    have ht := h.thr t
    refine h.local t rfl (fun u e => ⟨upd_other _ _ _ _ e, rfl, upd_other _ _ _ _ e, rfl⟩) ⟨?_, ?_, ?_, fun m' => ?_⟩
    · simp [upd_same, nW, ht.lw]
    · simp [upd_same, outerR, ht.lr]
    · simp only [hj]; trivial
    · have := ht.at_ m'
      rw [hj] at this
      cases ho : outerW (s.stack t) with
      | none => exact absurd (ht.lw.trans (outerW_none.1 ho)) hw
      | some m0 => simp only [hj, upd_same, DOk, outerW_W, ho, Option.or_some] at this ⊢; exact this
  | writeLockUpgrade t m hj hw hr =>
    have ht := h.thr t
    obtain ⟨q1, q2⟩ := quiet_holds (ht.free_quiet hj hw m)
    refine h.call t m _ _ (by rw [q1]; rfl) (by rw [q2]; rfl) (show nW (s.stack t) = 0 from ht.lw ▸ hw) fun m' => ?_
    by_cases e : m' = m
    · subst e; simp [DOk, phase]
    · simp only [DOk, if_neg e, if_neg (Ne.symm e)]; exact ht.free_quiet hj hw m'
  | writeLockUpgraded t m hj hp =>
    have ht := h.thr t
    have hl : nW (s.stack t) = 0 := by have := ht.jb; rw [hj] at this; exact this
    refine h.call t m _ _ (by rw [hp]; rfl) (by rw [hp]; rfl) hl fun m' => ?_
    have := ht.at_ m'
    rw [hj] at this
    by_cases e : m' = m
    · subst e; simp [DOk, phase]
    · simp only [DOk, if_neg e, if_neg (Ne.symm e)] at this ⊢; exact this
  | writeLockCall t m hj hw hr =>
    have ht := h.thr t
    obtain ⟨q1, q2⟩ := quiet_holds (ht.free_quiet hj hw m)
    refine h.call t m _ _ (by rw [q1]; rfl) (by rw [q2]; rfl) (show nW (s.stack t) = 0 from ht.lw ▸ hw) fun m' => ?_
    by_cases e : m' = m
    · subst e; simp [DOk, phase]
    · simp only [DOk, if_neg e, if_neg (Ne.symm e)]; exact ht.free_quiet hj hw m'
  | writeLockDone t m hj hp =>
    have ht := h.thr t
    have hl : nW (s.stack t) = 0 := by have := ht.jb; rw [hj] at this; exact this
    refine h.local t rfl (fun u e => ⟨upd_other _ _ _ _ e, rfl, upd_other _ _ _ _ e, upd_other _ _ _ _ e⟩) ⟨?_, ?_, ?_, fun m' => ?_⟩
    · simp [upd_same, nW, ht.lw]
    · simp [upd_same, outerR, ht.lr]
    · simp only [upd_same]; trivial
    · have := ht.at_ m'
      rw [hj] at this
      simp only [upd_same, DOk, outerW_W, outerW_none.2 hl, Option.none_or, Option.some.injEq] at this ⊢
      by_cases e : m = m'
      · subst e; simp [hp, phase]
      · simpa [e] using this
  | writeUnlockFast t m rest hj hl hw =>
    have ht := h.thr t
    have h1 := ht.lw
    have h2 := ht.lr
    rw [hl] at h1 h2
    simp only [nW] at h1
    simp only [outerR] at h2
    refine h.local t rfl (fun u e => ⟨upd_other _ _ _ _ e, rfl, upd_other _ _ _ _ e, rfl⟩) ⟨?_, ?_, ?_, fun m' => ?_⟩
    · simp only [upd_same]; omega
    · simp only [upd_same]; exact h2
    · simp only [hj]; trivial
    · have := ht.at_ m'
      rw [hj, hl] at this
      cases ho : outerW rest with
      | none => have := outerW_none.1 ho; omega
      | some m0 =>
        simp only [hj, upd_same, DOk, outerW_W, ho, Option.or_some] at this ⊢; exact this
  | writeUnlockCall t m rest hj hl hw =>
    have ht := h.thr t
    have h1 := ht.lw
    rw [hl] at h1
    simp only [nW] at h1
    have hr0 : nW rest = 0 := by omega
    have hat : ∀ m', DOk (s.stack t) m' .free (phase ((s.inner m').pc t)) := fun m' => hj ▸ ht.at_ m'
    simp only [hl, DOk, outerW_W, outerW_none.2 hr0, Option.none_or, Option.some.injEq] at hat
    have hp : (s.inner m).pc t = .writing := by have := hat m; simpa [phase_writing] using this
    refine h.call t m _ _ (by rw [hp]; rfl) (by rw [hp]; rfl) ⟨rest, hl, hr0⟩ fun m' => ?_
    have := hat m'
    by_cases e : m' = m
    · subst e; simp [DOk, phase]
    · simp only [DOk, if_neg e, if_neg (Ne.symm e)] at this ⊢; exact this
  | writeUnlockDone t m hj hp hr =>
    have ht := h.thr t
    obtain ⟨r, hl, hr0⟩ : ∃ r, s.stack t = (.W, m) :: r ∧ nW r = 0 := by have := ht.jb; rw [hj] at this; exact this
    have h1 := ht.lw
    have h2 := ht.lr
    rw [hl] at h1 h2
    simp only [nW, outerR] at h1 h2
    refine h.local t rfl (fun u e => ⟨upd_other _ _ _ _ e, rfl, upd_other _ _ _ _ e, upd_other _ _ _ _ e⟩) ⟨?_, ?_, ?_, fun m' => ?_⟩
    · simp [upd_same, hl, h1]
    · simp [upd_same, hl, h2]
    · simp only [upd_same]; trivial
    · have := ht.at_ m'
      rw [hj] at this
      simp only [upd_same, hl, DOk, List.tail, outerW_none.2 hr0] at this ⊢
      by_cases e : m = m'
      · subst e; simp [hp, phase, Quiet]
      · simpa [e] using this
  | writeUnlockReacquire t m hj hp hr =>
    have ht := h.thr t
    have hl := ht.jb
    rw [hj] at hl
    refine h.call t m _ _ (by rw [hp]; rfl) (by rw [hp]; rfl) ⟨hl, hr⟩ fun m' => ?_
    have := ht.at_ m'
    rw [hj] at this
    by_cases e : m' = m
    · subst e; simp [DOk, phase]
    · simp only [DOk, if_neg e, if_neg (Ne.symm e)] at this ⊢; exact this
  | writeUnlockReacquired t m hj hp =>
    have ht := h.thr t
    obtain ⟨⟨r, hl, hr0⟩, -⟩ : (∃ r, s.stack t = (.W, m) :: r ∧ nW r = 0) ∧ s.lr t > 0 := by have := ht.jb; rw [hj] at this; exact this
    have h1 := ht.lw
    have h2 := ht.lr
    rw [hl] at h1 h2
    simp only [nW, outerR] at h1 h2
    refine h.local t rfl (fun u e => ⟨upd_other _ _ _ _ e, rfl, upd_other _ _ _ _ e, upd_other _ _ _ _ e⟩) ⟨?_, ?_, ?_, fun m' => ?_⟩
    · simp [upd_same, hl, h1]
    · simp [upd_same, hl, h2]
    · simp only [upd_same]; trivial
    · have := ht.at_ m'
      rw [hj] at this
      simp only [upd_same, hl, DOk, List.tail, outerW_none.2 hr0] at this ⊢
      by_cases e : m = m'
      · subst e; simp [hp, phase, Quiet]
      · simpa [e] using this
  | inside t m i' hi =>
    obtain ⟨p1, p2⟩ := istep_phase hi
    refine ⟨fun m' => ?_, fun u => ?_⟩
    · by_cases e : m' = m
      · subst e; simp only [upd_same]; exact (h.own m').step hi
      · simp only [upd_other _ _ _ _ e]; exact h.own m'
    · by_cases e : u = t
      · subst e
        have hu := h.thr u
        refine ⟨hu.lw, hu.lr, hu.jb, fun m' => ?_⟩
        have ha := hu.at_ m'
        by_cases em : m' = m
        · subst em
          simp only [upd_same]
          revert ha p1
          generalize phase ((s.inner m').pc u) = a
          generalize phase (i'.pc u) = b
          intro ha p1
          cases hjj : s.job u <;> rw [hjj] at ha <;> simp only [DOk] at ha ⊢ <;> split at ha <;> rename_i hif <;>
            simp only [hif, if_true, if_false] <;> cases p1 <;> simp [Quiet] at ha ⊢
        · simp only [upd_other _ _ _ _ em]; exact ha
      · refine (h.thr u).frame rfl rfl rfl rfl fun m' => ?_
        by_cases em : m' = m
        · subst em; simp only [upd_same]; exact p2 u e
        · simp only [upd_other _ _ _ _ em]

theorem DInv.reach {s : Sys M T} (h : SReach sp s) : DInv s := by
  induction h with
  | init => exact DInv.init
  | step s s' _ hs ih => exact ih.step hs

end MVault.Mtx
