import Verif.PropsMutex2
/-
C74 for any number of mutexes: vaults do not block each other.
-/
set_option linter.unusedSectionVars false
set_option linter.unusedSimpArgs false
set_option linter.unusedVariables false
namespace MVault.Mtx
variable {T : Type} [DecidableEq T] {M : Type} [DecidableEq M]

/-! ### Specification -/

/-- One step, without spurious wake-ups, in which no thread asks for a new lock of any mutex: a thread in user code stays as it is, or has released its
innermost lock, or has begun to release it. -/
def ReleasesAny (s s' : Sys M T) : Prop :=
  SStep false s s' ∧ ∀ t, s.job t = .free →
    (s'.stack t = s.stack t ∧ (s'.job t = .free ∨ ∃ m, s'.job t = .ru m ∨ s'.job t = .wuRelease m)) ∨
    (s'.job t = .free ∧ s'.stack t = (s.stack t).tail)

/-- Any number of such steps. -/
inductive DrainAll : Sys M T → Sys M T → Prop
  | refl (s) : DrainAll s s
  | step (s s1 s2) : ReleasesAny s s1 → DrainAll s1 s2 → DrainAll s s2

theorem DrainAll.trans {a b c : Sys M T} (h1 : DrainAll a b) (h2 : DrainAll b c) : DrainAll a c := by
  induction h1 with
  | refl => exact h2
  | step s s1 s2 hs _ ih => exact .step _ _ _ hs (ih h2)

theorem SStep.mono' {sp : Bool} {s s' : Sys M T} (h : SStep false s s') : SStep sp s s' := by
  cases h with
  | inside t m i' hi => exact .inside _ t m i' hi.mono
  | readLockFast t m h1 h2 => exact .readLockFast _ t m h1 h2
  | readLockCall t m h1 h2 h3 => exact .readLockCall _ t m h1 h2 h3
  | readLockDone t m h1 h2 => exact .readLockDone _ t m h1 h2
  | readUnlockFast t m rest h1 h2 h3 => exact .readUnlockFast _ t m rest h1 h2 h3
  | readUnlockCall t m rest h1 h2 h3 h4 => exact .readUnlockCall _ t m rest h1 h2 h3 h4
  | readUnlockDone t m h1 h2 => exact .readUnlockDone _ t m h1 h2
  | writeLockFast t m h1 h2 => exact .writeLockFast _ t m h1 h2
  | writeLockUpgrade t m h1 h2 h3 => exact .writeLockUpgrade _ t m h1 h2 h3
  | writeLockUpgraded t m h1 h2 => exact .writeLockUpgraded _ t m h1 h2
  | writeLockCall t m h1 h2 h3 => exact .writeLockCall _ t m h1 h2 h3
  | writeLockDone t m h1 h2 => exact .writeLockDone _ t m h1 h2
  | writeUnlockFast t m rest h1 h2 h3 => exact .writeUnlockFast _ t m rest h1 h2 h3
  | writeUnlockCall t m rest h1 h2 h3 => exact .writeUnlockCall _ t m rest h1 h2 h3
  | writeUnlockDone t m h1 h2 h3 => exact .writeUnlockDone _ t m h1 h2 h3
  | writeUnlockReacquire t m h1 h2 h3 => exact .writeUnlockReacquire _ t m h1 h2 h3
  | writeUnlockReacquired t m h1 h2 => exact .writeUnlockReacquired _ t m h1 h2

/-- What a thread of a reachable state works with: one mutex. -/
theorem ThreadOk.one {s : Sys M T} {t : T} (h : ThreadOk s t) :
    ∃ m, (∀ e ∈ s.stack t, e.2 = m) ∧ ∀ m', (s.job t).mtx = some m' → m' = m := by
  obtain ⟨m, h1, _, _, _, h5⟩ := h
  refine ⟨m, h1, ?_⟩
  intro m' hm
  cases hj : s.job t with
  | free => rw [hj] at hm; cases hm
  | _ m'' => rw [hj] at hm h5; cases hm; exact h5.1

/-- Releasing locks keeps every thread at one mutex. -/
theorem ReleasesAny.reach [Nonempty M] {sp : Bool} {s s' : Sys M T} (h : ReleasesAny s s') (hs : SReachOne sp s) : SReachOne sp s' := by
  refine .step _ _ hs h.1.mono' ?_
  have hinv := hs.inv
  intro u
  obtain ⟨m, h1, h2⟩ := (hinv.thr u).one
  have hr := h.2 u
  have push : ∀ (k : Kind) (m0 : M), m0 = m → ∀ e ∈ (k, m0) :: s.stack u, e.2 = m := by
    intro k m0 e0 e he
    rcases List.mem_cons.1 he with x | x
    · subst x; exact e0
    · exact h1 e x
  have tail : ∀ e ∈ (s.stack u).tail, e.2 = m := fun e he => h1 e (List.mem_of_mem_tail he)
  obtain ⟨hst, -⟩ := h
  cases hst with
  | inside t m0 i' hi => exact ⟨m, h1, h2⟩
  | readLockFast t m0 a b =>
    by_cases e : u = t
    · subst e
      exfalso
      rcases hr a with ⟨x, _⟩ | ⟨_, x⟩
      · simp [upd] at x
      · have := congrArg List.length x; simp [upd] at this; omega
    · refine ⟨m, ?_, h2⟩; simpa [upd, e] using h1
  | readLockCall t m0 a b c =>
    by_cases e : u = t
    · subst e
      exfalso
      rcases hr a with ⟨_, x | ⟨_, x | x⟩⟩ | ⟨x, _⟩ <;> simp [Sys.call, upd] at x
    · refine ⟨m, h1, ?_⟩; simpa [Sys.call, upd, e] using h2
  | writeLockFast t m0 a b =>
    by_cases e : u = t
    · subst e
      exfalso
      rcases hr a with ⟨x, _⟩ | ⟨_, x⟩
      · simp [upd] at x
      · have := congrArg List.length x; simp [upd] at this; omega
    · refine ⟨m, ?_, h2⟩; simpa [upd, e] using h1
  | writeLockUpgrade t m0 a b c =>
    by_cases e : u = t
    · subst e
      exfalso
      rcases hr a with ⟨_, x | ⟨_, x | x⟩⟩ | ⟨x, _⟩ <;> simp [Sys.call, upd] at x
    · refine ⟨m, h1, ?_⟩; simpa [Sys.call, upd, e] using h2
  | writeLockCall t m0 a b c =>
    by_cases e : u = t
    · subst e
      exfalso
      rcases hr a with ⟨_, x | ⟨_, x | x⟩⟩ | ⟨x, _⟩ <;> simp [Sys.call, upd] at x
    · refine ⟨m, h1, ?_⟩; simpa [Sys.call, upd, e] using h2
  | readLockDone t m0 a b | writeLockDone t m0 a b =>
    by_cases e : u = t
    · subst e
      refine ⟨m, ?_, by simp [upd, Job.mtx]⟩
      simp only [upd_same]
      exact push _ m0 (h2 m0 (by rw [a]; rfl))
    · refine ⟨m, ?_, ?_⟩
      · simpa [upd, e] using h1
      · simpa [upd, e] using h2
  | readUnlockFast t m0 rest a b c | writeUnlockFast t m0 rest a b c =>
    by_cases e : u = t
    · subst e
      refine ⟨m, ?_, h2⟩
      simp only [upd_same]
      intro e he; exact h1 e (by rw [b]; exact List.mem_cons_of_mem _ he)
    · refine ⟨m, ?_, h2⟩; simpa [upd, e] using h1
  | readUnlockCall t m0 rest a b c d | writeUnlockCall t m0 rest a b c =>
    by_cases e : u = t
    · subst e
      refine ⟨m, h1, ?_⟩
      simp only [Sys.call, upd_same, Job.mtx, Option.some.injEq]
      intro m' hm; subst hm
      exact h1 (_, m0) (by rw [b]; exact List.mem_cons_self)
    · refine ⟨m, h1, ?_⟩; simpa [Sys.call, upd, e] using h2
  | readUnlockDone t m0 a b | writeUnlockDone t m0 a b c | writeUnlockReacquired t m0 a b =>
    by_cases e : u = t
    · subst e
      refine ⟨m, ?_, by simp [upd, Job.mtx]⟩
      simp only [upd_same]; exact tail
    · refine ⟨m, ?_, ?_⟩
      · simpa [upd, e] using h1
      · simpa [upd, e] using h2
  | writeLockUpgraded t m0 a b | writeUnlockReacquire t m0 a b c =>
    by_cases e : u = t
    · subst e
      refine ⟨m, h1, ?_⟩
      simp only [Sys.call, upd_same, Job.mtx, Option.some.injEq]
      intro m' hm; subst hm
      exact h2 m0 (by rw [a]; rfl)
    · refine ⟨m, h1, ?_⟩; simpa [Sys.call, upd, e] using h2

theorem DrainAll.reach [Nonempty M] {sp : Bool} {s s' : Sys M T} (h : DrainAll s s') (hs : SReachOne sp s) : SReachOne sp s' := by
  induction h with
  | refl => exact hs
  | step s s1 s2 h1 _ ih => exact ih (h1.reach hs)

/-- Running one inner mutex. -/
theorem drainAll_inner {i i' : Inner T} (h : IRun i i') (m : M) : ∀ s : Sys M T, s.inner m = i → DrainAll s { s with inner := upd s.inner m i' } := by
  induction h with
  | refl i =>
    intro s e
    rw [show ({ s with inner := upd s.inner m i } : Sys M T) = s by
      cases s; simp only [Sys.mk.injEq, and_true]; funext u; by_cases x : u = m
      · subst x; simp [upd]; exact e.symm
      · simp [upd, x]]
    exact .refl s
  | step i t i1 i2 hi _ ih =>
    intro s e
    subst e
    have := ih { s with inner := upd s.inner m i1 } (by simp [upd])
    rw [show ({ s with inner := upd (upd s.inner m i1) m i2 } : Sys M T) = { s with inner := upd s.inner m i2 } by
      simp only [Sys.mk.injEq, and_true]; funext u; by_cases x : u = m
      · subst x; simp [upd]
      · simp [upd, x]] at this
    exact .step _ _ _ ⟨.inside s t m i1 hi, fun t hj => .inl ⟨rfl, .inl hj⟩⟩ this

/-- Every inner mutex is run until somebody holds it or nobody is inside. -/
theorem drainAll_inners [Nonempty M] {sp : Bool} (ts : List T) (hts : ∀ t, t ∈ ts) : ∀ (ms : List M) (s : Sys M T), SReachOne sp s →
    ∃ s', DrainAll s s' ∧ s'.job = s.job ∧ s'.stack = s.stack ∧
      ((∃ m t, (s'.inner m).pc t = .reading ∨ (s'.inner m).pc t = .writing) ∨ ∀ m ∈ ms, ∀ t, (s'.inner m).pc t = .idle)
  | [], s, _ => ⟨s, .refl s, rfl, rfl, .inr (by simp)⟩
  | m :: ms, s, hs => by
    obtain ⟨s1, d1, j1, k1, h1⟩ := drainAll_inners ts hts ms s hs
    rcases h1 with h1 | h1
    · exact ⟨s1, d1, j1, k1, .inl h1⟩
    · obtain ⟨i', hrun, hi'⟩ := ((d1.reach hs).inv.inner m).liveness ts hts
      refine ⟨_, d1.trans (drainAll_inner hrun m s1 rfl), j1, k1, ?_⟩
      rcases hi' with ⟨t, ht⟩ | ht
      · exact .inl ⟨m, t, by simpa [upd] using ht⟩
      · refine .inr ?_
        intro m' hm' t
        by_cases e : m' = m
        · subst e; simpa [upd] using ht t
        · rcases List.mem_cons.1 hm' with x | x
          · exact absurd x e
          · simpa [upd, e] using h1 m' x t

/-- Work a thread has left until it has released everything. -/
def leftOf (j : Job M) (n : Nat) : Nat :=
  match j with
  | .free => 10 * n
  | .rl _ => 10 * n + 11
  | .ru _ => 10 * n - 1
  | .wlRelease _ => 10 * n + 13
  | .wl _ => 10 * n + 12
  | .wuRelease _ => 10 * n - 1
  | .wuReacquire _ => 10 * n - 2

def leftEvery (s : Sys M T) (ts : List T) : Nat := (ts.map fun t => leftOf (s.job t) (s.stack t).length).sum

theorem leftEvery_lt {s s' : Sys M T} (t : T) (ts : List T) (ht : t ∈ ts) (hj : ∀ u, u ≠ t → s'.job u = s.job u) (hst : ∀ u, u ≠ t → s'.stack u = s.stack u)
    (h : leftOf (s'.job t) (s'.stack t).length < leftOf (s.job t) (s.stack t).length) : leftEvery s' ts < leftEvery s ts := by
  refine sum_lt _ _ ts ?_ t ht h
  intro u
  by_cases e : u = t
  · subst e; exact Nat.le_of_lt h
  · rw [hj u e, hst u e]; exact Nat.le_refl _

theorem one_move {s s' : Sys M T} (t : T) (hs : SStep false s s') (hj : ∀ u, u ≠ t → s'.job u = s.job u) (hst : ∀ u, u ≠ t → s'.stack u = s.stack u)
    (hf : s.job t = .free → (s'.stack t = s.stack t ∧ (s'.job t = .free ∨ ∃ m, s'.job t = .ru m ∨ s'.job t = .wuRelease m)) ∨
      (s'.job t = .free ∧ s'.stack t = (s.stack t).tail))
    (h : leftOf (s'.job t) (s'.stack t).length < leftOf (s.job t) (s.stack t).length) (ts : List T) (ht : t ∈ ts) :
    ∃ s', DrainAll s s' ∧ leftEvery s' ts < leftEvery s ts := by
  refine ⟨s', .step _ _ _ ⟨hs, fun u hu => ?_⟩ (.refl _), leftEvery_lt t ts ht hj hst h⟩
  by_cases e : u = t
  · subst e; exact hf hu
  · exact .inl ⟨hst u e, .inl (by rw [hj u e]; exact hu)⟩

theorem rest_round [Nonempty M] {sp : Bool} (ts : List T) (hts : ∀ t, t ∈ ts) (s1 : Sys M T) (hs1 : SReachOne sp s1)
    (hi' : (∃ m t, (s1.inner m).pc t = .reading ∨ (s1.inner m).pc t = .writing) ∨ ∀ m t, (s1.inner m).pc t = .idle) :
    (∀ t, s1.job t = .free ∧ s1.stack t = [] ∧ ∀ m, (s1.inner m).pc t = .idle) ∨ ∃ s', DrainAll s1 s' ∧ leftEvery s' ts < leftEvery s1 ts := by
  have h1 := hs1.inv
  have uj : ∀ (t : T) (j : Job M), ∀ u, u ≠ t → upd s1.job t j u = s1.job u := fun t j u hu => upd_other _ _ _ _ hu
  have us : ∀ (t : T) (j : List (Kind × M)), ∀ u, u ≠ t → upd s1.stack t j u = s1.stack u := fun t j u hu => upd_other _ _ _ _ hu
  rcases hi' with ⟨m0, t, hr | hw⟩ | hidle
  · -- a reader
    obtain ⟨mt, a1, a2, a3, a4, a5⟩ := h1.thr t
    have hm0 : m0 = mt := by
      by_cases e : m0 = mt
      · exact e
      · rw [a2 m0 e] at hr; cases hr
    subst hm0
    rw [hr] at a5
    right
    cases hj : s1.job t with
    | free =>
      rw [hj] at a5
      simp only [TOk, phase] at a5
      cases hst : s1.stack t with
      | nil => rw [hst] at a5; simp [nW, outerR] at a5
      | cons e l =>
        obtain ⟨k, m1⟩ := e
        have hn : nW (s1.stack t) = 0 := by
          by_cases hn : nW (s1.stack t) = 0
          · exact hn
          · rw [if_neg hn] at a5; cases a5
        cases k with
        | W => rw [hst] at hn; simp [nW] at hn
        | R =>
          by_cases e : s1.lr t = 1
          · refine one_move t (.readUnlockCall s1 t m1 l hj hst (by rw [a3]; exact hn) e) (uj t _) (fun _ _ => rfl) (fun _ => .inl ⟨rfl, .inr ⟨_, .inl (upd_same _ _ _)⟩⟩) ?_ ts (hts t)
            simp only [Sys.call, upd_same, hj, hst, leftOf, List.length_cons]; omega
          · refine one_move t (.readUnlockFast s1 t m1 l hj hst (.inr e)) (fun _ _ => rfl) (us t _) (fun _ => .inr ⟨hj, by simp only [upd_same, hst, List.tail_cons]⟩) ?_ ts (hts t)
            simp only [upd_same, hj, hst, leftOf, List.length_cons]; omega
    | rl m =>
      rw [hj] at a5
      obtain ⟨rfl, _, _⟩ := a5
      refine one_move t (.readLockDone s1 t m hj hr) (uj t _) (us t _) (fun e => by rw [hj] at e; cases e) ?_ ts (hts t)
      simp only [upd_same, hj, leftOf, List.length_cons]; omega
    | wuReacquire m =>
      rw [hj] at a5
      obtain ⟨rfl, _, _, ⟨r, hst⟩, _⟩ := a5
      refine one_move t (.writeUnlockReacquired s1 t m hj hr) (uj t _) (us t _) (fun e => by rw [hj] at e; cases e) ?_ ts (hts t)
      simp only [upd_same, hj, hst, leftOf, List.length_cons, List.tail_cons]; omega
    | ru m => rw [hj] at a5; simp [TOk, phase] at a5
    | wlRelease m => rw [hj] at a5; simp [TOk, phase] at a5
    | wl m => rw [hj] at a5; simp [TOk, phase] at a5
    | wuRelease m => rw [hj] at a5; simp [TOk, phase] at a5
  · -- a writer
    obtain ⟨mt, a1, a2, a3, a4, a5⟩ := h1.thr t
    have hm0 : m0 = mt := by
      by_cases e : m0 = mt
      · exact e
      · rw [a2 m0 e] at hw; cases hw
    subst hm0
    rw [hw] at a5
    right
    cases hj : s1.job t with
    | free =>
      rw [hj] at a5
      simp only [TOk, phase] at a5
      have hn : nW (s1.stack t) ≠ 0 := by
        intro hn; rw [if_pos hn] at a5; split at a5 <;> cases a5
      cases hst : s1.stack t with
      | nil => rw [hst] at hn; simp [nW] at hn
      | cons e l =>
        obtain ⟨k, m1⟩ := e
        cases k with
        | W =>
          by_cases e : s1.lw t = 1
          · refine one_move t (.writeUnlockCall s1 t m1 l hj hst e) (uj t _) (fun _ _ => rfl) (fun _ => .inl ⟨rfl, .inr ⟨_, .inr (upd_same _ _ _)⟩⟩) ?_ ts (hts t)
            simp only [Sys.call, upd_same, hj, hst, leftOf, List.length_cons]; omega
          · refine one_move t (.writeUnlockFast s1 t m1 l hj hst e) (fun _ _ => rfl) (us t _) (fun _ => .inr ⟨hj, by simp only [upd_same, hst, List.tail_cons]⟩) ?_ ts (hts t)
            simp only [upd_same, hj, hst, leftOf, List.length_cons]; omega
        | R =>
          refine one_move t (.readUnlockFast s1 t m1 l hj hst (.inl (by rw [a3]; exact hn))) (fun _ _ => rfl) (us t _) (fun _ => .inr ⟨hj, by simp only [upd_same, hst, List.tail_cons]⟩) ?_ ts (hts t)
          simp only [upd_same, hj, hst, leftOf, List.length_cons]; omega
    | wl m =>
      rw [hj] at a5
      obtain ⟨rfl, _, _⟩ := a5
      refine one_move t (.writeLockDone s1 t m hj hw) (uj t _) (us t _) (fun e => by rw [hj] at e; cases e) ?_ ts (hts t)
      simp only [upd_same, hj, leftOf, List.length_cons]; omega
    | rl m => rw [hj] at a5; simp [TOk, phase] at a5
    | ru m => rw [hj] at a5; simp [TOk, phase] at a5
    | wlRelease m => rw [hj] at a5; simp [TOk, phase] at a5
    | wuRelease m => rw [hj] at a5; simp [TOk, phase] at a5
    | wuReacquire m => rw [hj] at a5; simp [TOk, phase] at a5
  · -- nobody is inside the inner mutex
    by_cases hall : ∀ t, s1.job t = .free
    · refine .inl fun t => ⟨hall t, ?_, fun m => hidle m t⟩
      obtain ⟨mt, a1, a2, a3, a4, a5⟩ := h1.thr t
      rw [hidle mt t, hall t] at a5
      simp only [TOk, phase] at a5
      by_cases hn : nW (s1.stack t) = 0
      · by_cases ho : outerR (s1.stack t) = 0
        · exact stack_nil hn ho
        · simp [hn, ho] at a5
      · simp [hn] at a5
    · right
      obtain ⟨t, hj0⟩ := Classical.not_forall.1 hall
      obtain ⟨mt, a1, a2, a3, a4, a5⟩ := h1.thr t
      rw [hidle mt t] at a5
      cases hj : s1.job t with
      | free => exact absurd hj hj0
      | ru m =>
        rw [hj] at a5
        obtain ⟨_, hst, _⟩ := a5
        refine one_move t (.readUnlockDone s1 t m hj (hidle _ t)) (uj t _) (us t _) (fun e => absurd e hj0) ?_ ts (hts t)
        simp only [upd_same, hj, hst, leftOf, List.length_cons, List.tail_cons]; simp
      | wlRelease m =>
        refine one_move t (.writeLockUpgraded s1 t m hj (hidle _ t)) (uj t _) (fun _ _ => rfl) (fun e => absurd e hj0) ?_ ts (hts t)
        simp only [Sys.call, upd_same, hj, leftOf]; omega
      | wuRelease m =>
        rw [hj] at a5
        obtain ⟨_, _, ⟨r, hst⟩, _⟩ := a5
        by_cases e : s1.lr t = 0
        · refine one_move t (.writeUnlockDone s1 t m hj (hidle _ t) e) (uj t _) (us t _) (fun e => absurd e hj0) ?_ ts (hts t)
          simp only [upd_same, hj, hst, leftOf, List.length_cons, List.tail_cons]; omega
        · refine one_move t (.writeUnlockReacquire s1 t m hj (hidle _ t) (Nat.pos_of_ne_zero e)) (uj t _) (fun _ _ => rfl) (fun e => absurd e hj0) ?_ ts (hts t)
          simp only [Sys.call, upd_same, hj, hst, leftOf, List.length_cons]; omega
      | rl m => rw [hj] at a5; simp [TOk, phase] at a5
      | wl m => rw [hj] at a5; simp [TOk, phase] at a5
      | wuReacquire m => rw [hj] at a5; simp [TOk, phase] at a5


/-! ### C74 -/

/-- C74 for any number of mutexes (each vault has one): if every thread works with one vault at a time, then from every reachable state - any number of threads
and vaults, any nesting of read and write locks of the same vault, any schedule, with or without spurious wake-ups so far - the threads can go on, taking no
new locks, until every call has returned and every lock of every vault has been released. (Threads that hold locks of two vaults at once break more than
progress, see `C43_refuted_nested`.) -/
theorem C74_many_vaults [Nonempty M] {sp : Bool} (ts : List T) (hts : ∀ t, t ∈ ts) (ms : List M) (hms : ∀ m, m ∈ ms) (s : Sys M T) (hs : SReachOne sp s) :
    ∃ s', DrainAll s s' ∧ ∀ t, s'.job t = .free ∧ s'.stack t = [] ∧ ∀ m, (s'.inner m).pc t = .idle := by
  obtain ⟨s1, d1, j1, k1, h1⟩ := drainAll_inners ts hts ms s hs
  have hl : leftEvery s1 ts = leftEvery s ts := by simp only [leftEvery, j1, k1]
  rcases rest_round ts hts s1 (d1.reach hs) (h1.imp id (fun h m t => h m (hms m) t)) with h | ⟨s2, d2, hlt⟩
  · exact ⟨s1, d1, h⟩
  · obtain ⟨s3, d3, h3⟩ := C74_many_vaults ts hts ms hms s2 (d2.reach (d1.reach hs))
    exact ⟨s3, d1.trans (d2.trans d3), h3⟩
termination_by leftEvery s ts
decreasing_by omega

/-- A case for `C74_many_vaults`: two vaults; thread `false` holds the write lock of one while thread `true` holds the read lock of the other. -/
example : ∃ s : Sys Bool Bool, SReachOne false s ∧ s.stack false = [(.W, true)] ∧ s.stack true = [(.R, false)] := by
  have one : ∀ (s : Sys Bool Bool), (∀ t, (∀ e ∈ s.stack t, e.2 = !t) ∧ ∀ m, (s.job t).mtx = some m → m = !t) →
      ∀ t, ∃ m, (∀ e ∈ s.stack t, e.2 = m) ∧ ∀ m', (s.job t).mtx = some m' → m' = m := fun s h t => ⟨!t, h t⟩
  have h := SReachOne.init (M := Bool) (T := Bool) (sp := false)
  have h := SReachOne.step _ _ h (.writeLockCall _ false true rfl rfl rfl) (one _ (by intro t; cases t <;> simp [Sys.init, Sys.call, upd, Job.mtx]))
  have h := SReachOne.step _ _ h (.inside _ false true _ (.wl1 _ false rfl rfl)) (one _ (by intro t; cases t <;> simp [Sys.init, Sys.call, upd, Job.mtx]))
  have h := SReachOne.step _ _ h (.inside _ false true _ (.wl2 _ false rfl)) (one _ (by intro t; cases t <;> simp [Sys.init, Sys.call, upd, Job.mtx]))
  have h := SReachOne.step _ _ h (.inside _ false true _ (.wl3 _ false rfl)) (one _ (by intro t; cases t <;> simp [Sys.init, Sys.call, upd, Job.mtx]))
  have h := SReachOne.step _ _ h (.inside _ false true _ (.wl6 _ false rfl)) (one _ (by intro t; cases t <;> simp [Sys.init, Sys.call, upd, Job.mtx]))
  have h := SReachOne.step _ _ h (.writeLockDone _ false true rfl rfl) (one _ (by intro t; cases t <;> simp [Sys.init, Sys.call, upd, Job.mtx]))
  have h := SReachOne.step _ _ h (.readLockCall _ true false rfl rfl rfl) (one _ (by intro t; cases t <;> simp [Sys.init, Sys.call, upd, Job.mtx]))
  have h := SReachOne.step _ _ h (.inside _ true false _ (.rl1 _ true rfl rfl)) (one _ (by intro t; cases t <;> simp [Sys.init, Sys.call, upd, Job.mtx]))
  have h := SReachOne.step _ _ h (.inside _ true false _ (.rl2 _ true rfl rfl)) (one _ (by intro t; cases t <;> simp [Sys.init, Sys.call, upd, Job.mtx]))
  have h := SReachOne.step _ _ h (.inside _ true false _ (.rl3 _ true rfl)) (one _ (by intro t; cases t <;> simp [Sys.init, Sys.call, upd, Job.mtx]))
  have h := SReachOne.step _ _ h (.inside _ true false _ (.rl4 _ true rfl)) (one _ (by intro t; cases t <;> simp [Sys.init, Sys.call, upd, Job.mtx]))
  have h := SReachOne.step _ _ h (.inside _ true false _ (.rl5 _ true rfl)) (one _ (by intro t; cases t <;> simp [Sys.init, Sys.call, upd, Job.mtx]))
  have h := SReachOne.step _ _ h (.readLockDone _ true false rfl rfl) (one _ (by intro t; cases t <;> simp [Sys.init, Sys.call, upd, Job.mtx]))
  exact ⟨_, h, rfl, rfl⟩

end MVault.Mtx
