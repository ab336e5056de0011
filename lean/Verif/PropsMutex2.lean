import Verif.PropsMutex
/-
C74: the recursive mutex cannot get stuck.
-/
set_option linter.unusedSectionVars false
namespace MVault.Mtx
variable {T : Type} [DecidableEq T]

/-! ### Specification -/

/-- One step, without spurious wake-ups, in which no thread asks for a new lock: a thread in user code stays as it is, or has released its
innermost lock, or has begun to release it (`ru`, `wuRelease` are the bodies of ReadUnlock and WriteUnlock). Threads inside lock and unlock calls go on. -/
def Releases (s s' : Sys Unit T) : Prop :=
  SStep false s s' ∧ ∀ t, s.job t = .free →
    (s'.stack t = s.stack t ∧ (s'.job t = .free ∨ s'.job t = .ru () ∨ s'.job t = .wuRelease ())) ∨
    (s'.job t = .free ∧ s'.stack t = (s.stack t).tail)

/-- Any number of such steps. -/
inductive Drain : Sys Unit T → Sys Unit T → Prop
  | refl (s) : Drain s s
  | step (s s1 s2) : Releases s s1 → Drain s1 s2 → Drain s s2

theorem Drain.trans {a b c : Sys Unit T} (h1 : Drain a b) (h2 : Drain b c) : Drain a c := by
  induction h1 with
  | refl => exact h2
  | step s s1 s2 hs _ ih => exact .step _ _ _ hs (ih h2)

/-! ### Steps without spurious wake-ups are steps -/

theorem IStep.mono {sp : Bool} {s s' : Inner T} {t : T} (h : IStep false s t s') : IStep sp s t s' := by
  cases h with
  | spurious h _ => cases h
  | _ => constructor <;> assumption

theorem SStep.mono {sp : Bool} {s s' : Sys Unit T} (h : SStep false s s') : SStep sp s s' := by
  cases h with
  | inside t m i' hi => exact .inside _ t m i' hi.mono
  | readLockFast t m h1 h2 => exact .readLockFast _ t m h1 h2
  | readLockCall t m h1 h2 h3 => exact .readLockCall _ t m h1 h2 h3
  | readLockDone t m h1 h2 => exact .readLockDone _ t m h1 h2
  | readUnlockFast t m rest h1 h2 h3 => exact .readUnlockFast _ t m rest h1 h2 h3
  | readUnlockCall t m rest h1 h2 h3 h4 => exact .readUnlockCall _ t m rest h1 h2 h3 h4
  | readUnlockDone t m h1 h2 => exact .readUnlockDone _ t m h1 h2
  | writeLockFast t m h1 h2 => exact .writeLockFast _ t m h1 h2
  | writeLockUpgrade t m h1 h2 h3 => exact .writeLockUpgrade _ t m h1 h2 h3
  | writeLockUpgraded t m h1 h2 => exact .writeLockUpgraded _ t m h1 h2
  | writeLockCall t m h1 h2 h3 => exact .writeLockCall _ t m h1 h2 h3
  | writeLockDone t m h1 h2 => exact .writeLockDone _ t m h1 h2
  | writeUnlockFast t m rest h1 h2 h3 => exact .writeUnlockFast _ t m rest h1 h2 h3
  | writeUnlockCall t m rest h1 h2 h3 => exact .writeUnlockCall _ t m rest h1 h2 h3
  | writeUnlockDone t m h1 h2 h3 => exact .writeUnlockDone _ t m h1 h2 h3
  | writeUnlockReacquire t m h1 h2 h3 => exact .writeUnlockReacquire _ t m h1 h2 h3
  | writeUnlockReacquired t m h1 h2 => exact .writeUnlockReacquired _ t m h1 h2

theorem Drain.reach {sp : Bool} {s s' : Sys Unit T} (h : Drain s s') (hs : SReach sp s) : SReach sp s' := by
  induction h with
  | refl => exact hs
  | step s s1 s2 h1 _ ih => exact ih (.step _ _ hs h1.1.mono)

/-- Running the inner mutex. -/
theorem drain_inner {i i' : Inner T} (h : IRun i i') : ∀ s : Sys Unit T, s.inner () = i → Drain s { s with inner := fun _ => i' } := by
  induction h with
  | refl i => intro s e; rw [show ({ s with inner := fun _ => i } : Sys Unit T) = s by cases s; simp only [Sys.mk.injEq, and_true]; funext u; exact e.symm]; exact .refl s
  | step i t i1 i2 hi _ ih =>
    intro s e
    subst e
    have e1 : ({ s with inner := upd s.inner () i1 } : Sys Unit T) = { s with inner := fun _ => i1 } := by
      simp only [Sys.mk.injEq, and_true]; funext u; simp [upd]
    have st : SStep false s { s with inner := fun _ => i1 } := by rw [← e1]; exact .inside s t () i1 hi
    exact .step _ _ _ ⟨st, fun t hj => .inl ⟨rfl, .inl hj⟩⟩ (ih { s with inner := fun _ => i1 } rfl)

/-! ### Work left -/

/-- Work a thread has left until it has released everything. -/
def left (j : Job Unit) (n : Nat) : Nat :=
  match j with
  | .free => 10 * n
  | .rl _ => 10 * n + 11
  | .ru _ => 10 * n - 1
  | .wlRelease _ => 10 * n + 13
  | .wl _ => 10 * n + 12
  | .wuRelease _ => 10 * n - 1
  | .wuReacquire _ => 10 * n - 2

def leftAll (s : Sys Unit T) (ts : List T) : Nat := (ts.map fun t => left (s.job t) (s.stack t).length).sum

theorem sum_le (f g : T → Nat) (ts : List T) (h : ∀ u, g u ≤ f u) : (ts.map g).sum ≤ (ts.map f).sum := by
  induction ts with
  | nil => simp
  | cons u l ih => simp only [List.map_cons, List.sum_cons]; have := h u; omega

theorem sum_lt (f g : T → Nat) (ts : List T) (h : ∀ u, g u ≤ f u) (t : T) (ht : t ∈ ts) (hlt : g t < f t) : (ts.map g).sum < (ts.map f).sum := by
  induction ts with
  | nil => cases ht
  | cons u l ih =>
    simp only [List.map_cons, List.sum_cons]
    have := h u
    rcases List.mem_cons.1 ht with rfl | ht
    · have := sum_le f g l h; omega
    · have := ih ht; omega

/-- Only thread `t` changes, and it has less to do. -/
theorem leftAll_lt {s s' : Sys Unit T} (t : T) (ts : List T) (ht : t ∈ ts) (hj : ∀ u, u ≠ t → s'.job u = s.job u) (hst : ∀ u, u ≠ t → s'.stack u = s.stack u)
    (h : left (s'.job t) (s'.stack t).length < left (s.job t) (s.stack t).length) : leftAll s' ts < leftAll s ts := by
  refine sum_lt _ _ ts ?_ t ht h
  intro u
  by_cases e : u = t
  · subst e; exact Nat.le_of_lt h
  · rw [hj u e, hst u e]; exact Nat.le_refl _

/-- A thread that can be continued, or can release its innermost lock. -/
theorem one_step {s s' : Sys Unit T} (t : T) (hs : SStep false s s') (hj : ∀ u, u ≠ t → s'.job u = s.job u) (hst : ∀ u, u ≠ t → s'.stack u = s.stack u)
    (hf : s.job t = .free → (s'.stack t = s.stack t ∧ (s'.job t = .free ∨ s'.job t = .ru () ∨ s'.job t = .wuRelease ())) ∨
      (s'.job t = .free ∧ s'.stack t = (s.stack t).tail))
    (h : left (s'.job t) (s'.stack t).length < left (s.job t) (s.stack t).length) (ts : List T) (ht : t ∈ ts) :
    ∃ s', Drain s s' ∧ leftAll s' ts < leftAll s ts := by
  refine ⟨s', .step _ _ _ ⟨hs, fun u hu => ?_⟩ (.refl _), leftAll_lt t ts ht hj hst h⟩
  by_cases e : u = t
  · subst e; exact hf hu
  · exact .inl ⟨hst u e, .inl (by rw [hj u e]; exact hu)⟩

theorem drain_round {sp : Bool} (ts : List T) (hts : ∀ t, t ∈ ts) {s : Sys Unit T} (hs : SReach sp s) :
    (∃ s', Drain s s' ∧ ∀ t, s'.job t = .free ∧ s'.stack t = [] ∧ (s'.inner ()).pc t = .idle) ∨ ∃ s', Drain s s' ∧ leftAll s' ts < leftAll s ts := by
  have hinv := (SReachOne.of_unit hs).inv
  obtain ⟨i', hrun, hi'⟩ := (hinv.inner ()).liveness ts hts
  have d1 := drain_inner hrun s rfl
  have hs1 := d1.reach hs
  have h1 := (SReachOne.of_unit hs1).inv
  have hl : leftAll ({ s with inner := fun _ => i' } : Sys Unit T) ts = leftAll s ts := rfl
  generalize hg : ({ s with inner := fun _ => i' } : Sys Unit T) = s1 at d1 hs1 h1 hl
  have hpc : s1.inner () = i' := by rw [← hg]
  suffices H : (∀ t, s1.job t = .free ∧ s1.stack t = [] ∧ (s1.inner ()).pc t = .idle) ∨ ∃ s', Drain s1 s' ∧ leftAll s' ts < leftAll s1 ts by
    rcases H with H | ⟨s', d2, h2⟩
    · exact .inl ⟨s1, d1, H⟩
    · exact .inr ⟨s', d1.trans d2, by rw [← hl]; exact h2⟩
  have uj : ∀ (t : T) (j : Job Unit), ∀ u, u ≠ t → upd s1.job t j u = s1.job u := fun t j u hu => upd_other _ _ _ _ hu
  have us : ∀ (t : T) (j : List (Kind × Unit)), ∀ u, u ≠ t → upd s1.stack t j u = s1.stack u := fun t j u hu => upd_other _ _ _ _ hu
  rcases hi' with ⟨t, hr | hw⟩ | hidle
  · -- a reader
    rw [← hpc] at hr
    obtain ⟨⟨⟩, a1, a2, a3, a4, a5⟩ := h1.thr t
    rw [hr] at a5
    right
    cases hj : s1.job t with
    | free =>
      rw [hj] at a5
      simp only [TOk, phase] at a5
      cases hst : s1.stack t with
      | nil => rw [hst] at a5; simp [nW, outerR] at a5
      | cons e l =>
        obtain ⟨k, ⟨⟩⟩ := e
        have hn : nW (s1.stack t) = 0 := by
          by_cases hn : nW (s1.stack t) = 0
          · exact hn
          · rw [if_neg hn] at a5; cases a5
        cases k with
        | W => rw [hst] at hn; simp [nW] at hn
        | R =>
          by_cases e : s1.lr t = 1
          · refine one_step t (.readUnlockCall s1 t () l hj hst (by rw [a3]; exact hn) e) (uj t _) (fun _ _ => rfl) (fun _ => .inl ⟨rfl, .inr (.inl (upd_same _ _ _))⟩) ?_ ts (hts t)
            simp only [Sys.call, upd_same, hj, hst, left, List.length_cons]; omega
          · refine one_step t (.readUnlockFast s1 t () l hj hst (.inr e)) (fun _ _ => rfl) (us t _) (fun _ => .inr ⟨hj, by simp only [upd_same, hst, List.tail_cons]⟩) ?_ ts (hts t)
            simp only [upd_same, hj, hst, left, List.length_cons]; omega
    | rl m =>
      refine one_step t (.readLockDone s1 t m hj hr) (uj t _) (us t _) (fun e => by rw [hj] at e; cases e) ?_ ts (hts t)
      simp only [upd_same, hj, left, List.length_cons]; omega
    | wuReacquire m =>
      rw [hj] at a5
      obtain ⟨_, _, _, ⟨r, hst⟩, _⟩ := a5
      refine one_step t (.writeUnlockReacquired s1 t m hj hr) (uj t _) (us t _) (fun e => by rw [hj] at e; cases e) ?_ ts (hts t)
      simp only [upd_same, hj, hst, left, List.length_cons, List.tail_cons]; omega
    | ru m => rw [hj] at a5; simp [TOk, phase] at a5
    | wlRelease m => rw [hj] at a5; simp [TOk, phase] at a5
    | wl m => rw [hj] at a5; simp [TOk, phase] at a5
    | wuRelease m => rw [hj] at a5; simp [TOk, phase] at a5
  · -- a writer
    rw [← hpc] at hw
    obtain ⟨⟨⟩, a1, a2, a3, a4, a5⟩ := h1.thr t
    rw [hw] at a5
    right
    cases hj : s1.job t with
    | free =>
      rw [hj] at a5
      simp only [TOk, phase] at a5
      have hn : nW (s1.stack t) ≠ 0 := by
        intro hn; rw [if_pos hn] at a5; split at a5 <;> cases a5
      cases hst : s1.stack t with
      | nil => rw [hst] at hn; simp [nW] at hn
      | cons e l =>
        obtain ⟨k, ⟨⟩⟩ := e
        cases k with
        | W =>
          by_cases e : s1.lw t = 1
          · refine one_step t (.writeUnlockCall s1 t () l hj hst e) (uj t _) (fun _ _ => rfl) (fun _ => .inl ⟨rfl, .inr (.inr (upd_same _ _ _))⟩) ?_ ts (hts t)
            simp only [Sys.call, upd_same, hj, hst, left, List.length_cons]; omega
          · refine one_step t (.writeUnlockFast s1 t () l hj hst e) (fun _ _ => rfl) (us t _) (fun _ => .inr ⟨hj, by simp only [upd_same, hst, List.tail_cons]⟩) ?_ ts (hts t)
            simp only [upd_same, hj, hst, left, List.length_cons]; omega
        | R =>
          refine one_step t (.readUnlockFast s1 t () l hj hst (.inl (by rw [a3]; exact hn))) (fun _ _ => rfl) (us t _) (fun _ => .inr ⟨hj, by simp only [upd_same, hst, List.tail_cons]⟩) ?_ ts (hts t)
          simp only [upd_same, hj, hst, left, List.length_cons]; omega
    | wl m =>
      refine one_step t (.writeLockDone s1 t m hj hw) (uj t _) (us t _) (fun e => by rw [hj] at e; cases e) ?_ ts (hts t)
      simp only [upd_same, hj, left, List.length_cons]; omega
    | rl m => rw [hj] at a5; simp [TOk, phase] at a5
    | ru m => rw [hj] at a5; simp [TOk, phase] at a5
    | wlRelease m => rw [hj] at a5; simp [TOk, phase] at a5
    | wuRelease m => rw [hj] at a5; simp [TOk, phase] at a5
    | wuReacquire m => rw [hj] at a5; simp [TOk, phase] at a5
  · -- nobody is inside the inner mutex
    by_cases hall : ∀ t, s1.job t = .free
    · refine .inl fun t => ⟨hall t, ?_, by rw [hpc]; exact hidle t⟩
      obtain ⟨⟨⟩, a1, a2, a3, a4, a5⟩ := h1.thr t
      rw [hpc, hidle t, hall t] at a5
      simp only [TOk, phase] at a5
      by_cases hn : nW (s1.stack t) = 0
      · by_cases ho : outerR (s1.stack t) = 0
        · exact stack_nil hn ho
        · simp [hn, ho] at a5
      · simp [hn] at a5
    · right
      obtain ⟨t, hj0⟩ := Classical.not_forall.1 hall
      have hp : (s1.inner ()).pc t = .idle := by rw [hpc]; exact hidle t
      obtain ⟨⟨⟩, a1, a2, a3, a4, a5⟩ := h1.thr t
      rw [hp] at a5
      cases hj : s1.job t with
      | free => exact absurd hj hj0
      | ru m =>
        rw [hj] at a5
        obtain ⟨_, hst, _⟩ := a5
        refine one_step t (.readUnlockDone s1 t m hj hp) (uj t _) (us t _) (fun e => absurd e hj0) ?_ ts (hts t)
        simp only [upd_same, hj, hst, left, List.length_cons, List.tail_cons]; simp
      | wlRelease m =>
        refine one_step t (.writeLockUpgraded s1 t m hj hp) (uj t _) (fun _ _ => rfl) (fun e => absurd e hj0) ?_ ts (hts t)
        simp only [Sys.call, upd_same, hj, left]; omega
      | wuRelease m =>
        rw [hj] at a5
        obtain ⟨_, _, ⟨r, hst⟩, _⟩ := a5
        by_cases e : s1.lr t = 0
        · refine one_step t (.writeUnlockDone s1 t m hj hp e) (uj t _) (us t _) (fun e => absurd e hj0) ?_ ts (hts t)
          simp only [upd_same, hj, hst, left, List.length_cons, List.tail_cons]; omega
        · refine one_step t (.writeUnlockReacquire s1 t m hj hp (Nat.pos_of_ne_zero e)) (uj t _) (fun _ _ => rfl) (fun e => absurd e hj0) ?_ ts (hts t)
          simp only [Sys.call, upd_same, hj, hst, left, List.length_cons]; omega
      | rl m => rw [hj] at a5; simp [TOk, phase] at a5
      | wl m => rw [hj] at a5; simp [TOk, phase] at a5
      | wuReacquire m => rw [hj] at a5; simp [TOk, phase] at a5

/-! ### C74 -/

/-- C74: from every reachable state of a recursive mutex - any number of threads, any nesting of read and write locks, upgrades from
reading to writing included, any schedule, with or without spurious wake-ups so far - the threads can go on, taking no new locks, until every call has returned and
every lock has been released. So no reachable state is a deadlock. -/
theorem C74_never_stuck {sp : Bool} (ts : List T) (hts : ∀ t, t ∈ ts) (s : Sys Unit T) (hs : SReach sp s) :
    ∃ s', Drain s s' ∧ ∀ t, s'.job t = .free ∧ s'.stack t = [] ∧ (s'.inner ()).pc t = .idle := by
  rcases drain_round ts hts hs with h | ⟨s1, d, hlt⟩
  · exact h
  · obtain ⟨s2, d2, h2⟩ := C74_never_stuck ts hts s1 (d.reach hs)
    exact ⟨s2, d.trans d2, h2⟩
termination_by leftAll s ts

/-- What a thread inside a lock call does next. -/
theorem waiting_step {s s' : Sys Unit T} (h : SStep false s s') (t : T) :
    (s.job t = .rl () → (s'.job t = .rl () ∧ s'.stack t = s.stack t) ∨ (s'.job t = .free ∧ s'.stack t = (.R, ()) :: s.stack t)) ∧
    (s.job t = .wl () → (s'.job t = .wl () ∧ s'.stack t = s.stack t) ∨ (s'.job t = .free ∧ s'.stack t = (.W, ()) :: s.stack t)) ∧
    (s.job t = .wlRelease () → (s'.job t = .wlRelease () ∨ s'.job t = .wl ()) ∧ s'.stack t = s.stack t) := by
  cases h with
  | inside t' m i' hi => exact ⟨fun h => .inl ⟨h, rfl⟩, fun h => .inl ⟨h, rfl⟩, fun h => ⟨.inl h, rfl⟩⟩
  | readLockFast t' m h1 h2 | readLockCall t' m h1 h2 h3 | readLockDone t' m h1 h2 | readUnlockFast t' m rest h1 h2 h3 | readUnlockCall t' m rest h1 h2 h3 h4
  | readUnlockDone t' m h1 h2 | writeLockFast t' m h1 h2 | writeLockUpgrade t' m h1 h2 h3 | writeLockUpgraded t' m h1 h2 | writeLockCall t' m h1 h2 h3
  | writeLockDone t' m h1 h2 | writeUnlockFast t' m rest h1 h2 h3 | writeUnlockCall t' m rest h1 h2 h3 | writeUnlockDone t' m h1 h2 h3
  | writeUnlockReacquire t' m h1 h2 h3 | writeUnlockReacquired t' m h1 h2 =>
    by_cases e : t = t'
    · subst e; simp [Sys.call, upd, h1]
    · simp [Sys.call, upd, e]; exact .inl

theorem granted {s s' : Sys Unit T} (h : Drain s s') (t : T) (hf : s'.job t = .free) :
    (s.job t = .rl () → ∃ s1, Drain s s1 ∧ s1.job t = .free ∧ s1.stack t = (.R, ()) :: s.stack t) ∧
    (s.job t = .wl () ∨ s.job t = .wlRelease () → ∃ s1, Drain s s1 ∧ s1.job t = .free ∧ s1.stack t = (.W, ()) :: s.stack t) := by
  induction h with
  | refl s =>
    constructor
    · intro e; rw [hf] at e; cases e
    · intro e; rw [hf] at e; rcases e with e | e <;> cases e
  | step s s1 s2 h1 _ ih =>
    obtain ⟨ih1, ih2⟩ := ih hf
    obtain ⟨w1, w2, w3⟩ := waiting_step h1.1 t
    refine ⟨fun e => ?_, fun e => ?_⟩
    · rcases w1 e with ⟨a, b⟩ | ⟨a, b⟩
      · obtain ⟨s3, d, c1, c2⟩ := ih1 a
        exact ⟨s3, .step _ _ _ h1 d, c1, by rw [c2, b]⟩
      · exact ⟨s1, .step _ _ _ h1 (.refl _), a, b⟩
    · rcases e with e | e
      · rcases w2 e with ⟨a, b⟩ | ⟨a, b⟩
        · obtain ⟨s3, d, c1, c2⟩ := ih2 (.inl a)
          exact ⟨s3, .step _ _ _ h1 d, c1, by rw [c2, b]⟩
        · exact ⟨s1, .step _ _ _ h1 (.refl _), a, b⟩
      · obtain ⟨a, b⟩ := w3 e
        obtain ⟨s3, d, c1, c2⟩ := ih2 (by rcases a with a | a; exact .inr a; exact .inl a)
        exact ⟨s3, .step _ _ _ h1 d, c1, by rw [c2, b]⟩

/-- C74: nobody waits in vain. From every reachable state, a thread that is waiting in ReadLock or WriteLock (also in the middle of an upgrade) can be
granted the lock: there is a continuation, in which nobody asks for further locks, at whose end its call has returned with the lock held. -/
theorem C74_lock_granted {sp : Bool} (ts : List T) (hts : ∀ t, t ∈ ts) (s : Sys Unit T) (hs : SReach sp s) (t : T) :
    (s.job t = .rl () → ∃ s', Drain s s' ∧ s'.job t = .free ∧ s'.stack t = (.R, ()) :: s.stack t) ∧
    (s.job t = .wl () ∨ s.job t = .wlRelease () → ∃ s', Drain s s' ∧ s'.job t = .free ∧ s'.stack t = (.W, ()) :: s.stack t) := by
  obtain ⟨s', d, h⟩ := C74_never_stuck ts hts s hs
  exact granted d t (h t).1

/-- Two readers that both want to become writers: each has given up its read lock or is about to, none holds the lock. (With upgrades that keep the read lock
this state would be a deadlock.) -/
theorem upgrading : ∃ s : Sys Unit Bool, SReach false s ∧ s.job false = .wlRelease () ∧ s.job true = .wlRelease () ∧ s.stack false = [(.R, ())] ∧
    s.stack true = [(.R, ())] := by
  have h := SReach.init (M := Unit) (T := Bool) (sp := false)
  have h := SReach.step _ _ h (.readLockCall _ false () rfl rfl rfl)
  have h := SReach.step _ _ h (.inside _ false () _ (.rl1 _ false rfl rfl))
  have h := SReach.step _ _ h (.inside _ false () _ (.rl2 _ false rfl rfl))
  have h := SReach.step _ _ h (.inside _ false () _ (.rl3 _ false rfl))
  have h := SReach.step _ _ h (.inside _ false () _ (.rl4 _ false rfl))
  have h := SReach.step _ _ h (.inside _ false () _ (.rl5 _ false rfl))
  have h := SReach.step _ _ h (.readLockDone _ false () rfl rfl)
  have h := SReach.step _ _ h (.readLockCall _ true () rfl rfl rfl)
  have h := SReach.step _ _ h (.inside _ true () _ (.rl1 _ true rfl rfl))
  have h := SReach.step _ _ h (.inside _ true () _ (.rl2 _ true rfl rfl))
  have h := SReach.step _ _ h (.inside _ true () _ (.rl3 _ true rfl))
  have h := SReach.step _ _ h (.inside _ true () _ (.rl4 _ true rfl))
  have h := SReach.step _ _ h (.inside _ true () _ (.rl5 _ true rfl))
  have h := SReach.step _ _ h (.readLockDone _ true () rfl rfl)
  have h := SReach.step _ _ h (.writeLockUpgrade _ false () rfl rfl (by decide))
  have h := SReach.step _ _ h (.writeLockUpgrade _ true () rfl rfl (by decide))
  exact ⟨_, h, rfl, rfl, rfl, rfl⟩

end MVault.Mtx
