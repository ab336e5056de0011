import Verif.PropsMutex
/-
C41, C42, C43 with spurious wake-ups: what is left of exclusion when `Cv.wait` (ReadWriteMutex.cpp line 54, without a predicate) may wake up for no reason.
-/
set_option linter.unusedSectionVars false
set_option linter.unusedSimpArgs false
set_option linter.unusedVariables false
namespace MVault.Mtx
variable {T : Type} [DecidableEq T] {M : Type} [DecidableEq M]

/-! ### Specification -/

/-- A run of a plain mutex during which thread `t` holds the write lock all the time. -/
inductive WritingRun (sp : Bool) (t : T) : Inner T → Inner T → Prop
  | refl (s) : s.pc t = .writing → WritingRun sp t s s
  | step (s s1 s2) : WritingRun sp t s s1 → Step sp s1 s2 → s2.pc t = .writing → WritingRun sp t s s2

/-- The thread holds no lock and is in no call, or it is still at the first statement of a lock call, waiting. -/
def outside (p : Pc) : Prop := p = .idle ∨ p = .rl1 ∨ p = .wl1

/-- A run of recursive mutexes, each thread using one at a time, during which thread `t` holds a write lock of mutex `m` and is in user code all the time. -/
inductive HoldingRun (sp : Bool) (t : T) (m : M) : Sys M T → Sys M T → Prop
  | refl (s) : s.job t = .free → (Kind.W, m) ∈ s.stack t → HoldingRun sp t m s s
  | step (s s1 s2) : HoldingRun sp t m s s1 → SStep sp s1 s2 →
      (∀ u, ∃ m, (∀ e ∈ s2.stack u, e.2 = m) ∧ ∀ m', (s2.job u).mtx = some m' → m' = m) →
      s2.job t = .free → (Kind.W, m) ∈ s2.stack t → HoldingRun sp t m s s2

/-! ### Proof -/

theorem istep_outside {sp : Bool} {i i' : Inner T} {t u v : T} (h : IStep sp i v i') (hw : i.wOwn = some t) (hne : u ≠ t) (ho : outside (i.pc u)) :
    outside (i'.pc u) := by
  by_cases e : u = v
  · subst e
    rcases ho with ho | ho | ho <;> cases h <;> simp_all only [reduceCtorEq]
  · cases h with
    | ru5 _ => 
      simp only [Inner.goto, Inner.notify, upd, if_neg e]
      rcases ho with ho | ho | ho <;> simp [ho, outside]
    | _ => simpa only [Inner.goto, upd, if_neg e] using ho

theorem writing_owns {sp : Bool} {s : Inner T} (h : Inv sp s) {t : T} (ht : s.pc t = .writing) : s.wOwn = some t := (h.w t).1 (by rw [ht]; rfl)

/-! ### C41 -/

/-- C41, with spurious wake-ups too: while a thread holds the write lock, no other thread gets a lock. Whoever had no lock when the writer got in, or was still waiting for one, has
none as long as the writer is in. So where exclusion fails (`C41_refuted_spurious`), it fails for readers that were there before the writer, never for later ones. -/
theorem C41_later_locks_wait {sp : Bool} (s s' : Inner T) (hs : Reach sp s) (t u : T) (h : WritingRun sp t s s') (hne : u ≠ t) (hu : outside (s.pc u)) :
    outside (s'.pc u) := by
  have key : Reach sp s' ∧ s'.pc t = .writing ∧ outside (s'.pc u) := by
    induction h with
    | refl ht => exact ⟨hs, ht, hu⟩
    | step s1 s2 _ hst ht ih =>
      obtain ⟨h1, h2, h3⟩ := ih
      refine ⟨.step _ _ h1 hst, ht, ?_⟩
      have hw := writing_owns (Inv.reach h1) h2
      cases hst with
      | inside v _ hi => exact istep_outside hi hw hne h3
      | callRL v hv =>
        by_cases e : u = v
        · subst e; simp [Inner.goto, upd, outside]
        · simpa only [Inner.goto, upd, if_neg e] using h3
      | callRU v hv =>
        by_cases e : u = v
        · subst e; rw [hv] at h3; rcases h3 with h3 | h3 | h3 <;> cases h3
        · simpa only [Inner.goto, upd, if_neg e] using h3
      | callWL v hv =>
        by_cases e : u = v
        · subst e; simp [Inner.goto, upd, outside]
        · simpa only [Inner.goto, upd, if_neg e] using h3
      | callWU v hv =>
        by_cases e : u = v
        · subst e; rw [hv] at h3; rcases h3 with h3 | h3 | h3 <;> cases h3
        · simpa only [Inner.goto, upd, if_neg e] using h3
  exact key.2.2

/-! ### C42, C43 -/

theorem holder_writing [Nonempty M] {sp : Bool} {s : Sys M T} (h : SInv sp s) {t : T} {m : M} (hf : s.job t = .free) (ht : (Kind.W, m) ∈ s.stack t) :
    (s.inner m).wOwn = some t := by
  have nWpos : ∀ l : List (Kind × M), (Kind.W, m) ∈ l → nW l ≠ 0 := by
    intro l
    induction l with
    | nil => simp
    | cons e l ih =>
      obtain ⟨k, m'⟩ := e
      intro hm
      cases k with
      | W => simp [nW]
      | R => simp only [nW]; rcases List.mem_cons.1 hm with h | h; simp at h; exact ih h
  obtain ⟨m1, a1, a2, a3, a4, a5⟩ := h.thr t
  have e1 : m = m1 := a1 _ ht
  subst e1
  rw [hf] at a5
  simp only [TOk, nWpos _ ht, if_false] at a5
  exact writing_owns (h.inner m) (phase_writing.1 a5)

/-- The thread has no lock of `m` and is in no call about it except at the beginning of a lock call. -/
def Out (s : Sys M T) (m : M) (u : T) : Prop := (∀ k, (k, m) ∉ s.stack u) ∧ outside ((s.inner m).pc u)

theorem out_step [Nonempty M] {sp : Bool} {s s' : Sys M T} (hi : SInv sp s) (hst : SStep sp s s')
    (one : ∀ u, ∃ m, (∀ e ∈ s'.stack u, e.2 = m) ∧ ∀ m', (s'.job u).mtx = some m' → m' = m)
    {t u : T} {m : M} (hne : u ≠ t) (hf : s.job t = .free) (ht : (Kind.W, m) ∈ s.stack t) (ho : Out s m u) : Out s' m u := by
  obtain ⟨ho1, ho2⟩ := ho
  have hw := holder_writing hi hf ht
  -- nothing of `u` changed
  have same : ∀ {s2 : Sys M T}, s2.stack u = s.stack u → (s2.inner m).pc u = (s.inner m).pc u → Out s2 m u := fun h1 h2 => ⟨by rw [h1]; exact ho1, by rw [h2]; exact ho2⟩
  have ncall : ∀ (v : T) (m' : M) (p : Pc) (j : Job M), v ≠ u ∨ m' ≠ m → Out (s.call v m' p j) m u := by
    intro v m' p j h
    refine same rfl ?_
    simp only [Sys.call, upd, Inner.goto]
    split
    · next e => 
      subst e
      rcases h with h | h
      · simp [upd, Ne.symm h]
      · exact absurd rfl h
    · rfl
  have start : ∀ (m' : M) (p : Pc) (j : Job M), outside p → Out (s.call u m' p j) m u := by
    intro m' p j hp
    refine ⟨ho1, ?_⟩
    simp only [Sys.call, upd, Inner.goto]
    split
    · simpa [upd] using hp
    · exact ho2
  have nil : ∀ {l : List (Kind × M)}, (∀ e ∈ l, e.2 = m) → (∀ k, (k, m) ∉ l) → l = [] := by
    intro l h1 h2
    cases l with
    | nil => rfl
    | cons e l => obtain ⟨k, m'⟩ := e; have := h1 _ (List.mem_cons_self ..); simp only at this; subst this; exact absurd (List.mem_cons_self ..) (h2 k)
  have pushed : ∀ {s2 : Sys M T} (k : Kind) (m' : M), s2.stack u = (k, m') :: s.stack u → (s2.inner m).pc u = (s.inner m).pc u → m' ≠ m → Out s2 m u := by
    intro s2 k m' h1 h2 h3
    refine ⟨fun k' hk => ?_, by rw [h2]; exact ho2⟩
    rw [h1] at hk
    rcases List.mem_cons.1 hk with e | e
    · exact h3 (congrArg Prod.snd e).symm
    · exact ho1 k' e
  have popped : ∀ {s2 : Sys M T}, (∀ e ∈ s2.stack u, e ∈ s.stack u) → (s2.inner m).pc u = (s.inner m).pc u → Out s2 m u := 
    fun h1 h2 => ⟨fun k hk => ho1 k (h1 _ hk), by rw [h2]; exact ho2⟩
  have ok := hi.thr u
  obtain ⟨m0, a1, a2, a3, a4, a5⟩ := ok
  -- a thread with a counter above zero holds a lock of its mutex, which is not `m`
  have counted : (s.lw u ≠ 0 ∨ s.lr u ≠ 0) → s.stack u ≠ [] := by
    intro h e
    rw [e] at a3 a4
    simp only [nW, outerR] at a3 a4
    omega
  have fast : ∀ {s2 : Sys M T} (k : Kind) (m' : M), s2.stack u = (k, m') :: s.stack u → s.stack u ≠ [] → 
      (∃ m1, (∀ e ∈ s2.stack u, e.2 = m1)) → m' ≠ m := by
    rintro s2 k m' h1 h2 ⟨m1, h3⟩ rfl
    rw [h1] at h3
    have e1 : m' = m1 := h3 _ (List.mem_cons_self ..)
    subst e1
    exact h2 (nil (fun e he => h3 e (List.mem_cons_of_mem _ he)) ho1)
  cases hst with
  | inside v m' i' hI =>
    refine ⟨ho1, ?_⟩
    by_cases e : m' = m
    · subst e
      simp only [upd, if_true]
      exact istep_outside hI hw hne ho2
    · simpa only [upd, if_neg (Ne.symm e)] using ho2
  | readLockFast v m' h1 h2 =>
    by_cases e : v = u
    · subst e
      obtain ⟨m1, hm1, -⟩ := one v
      exact pushed .R m' (by simp [upd]) rfl (fast .R m' (by simp [upd]) (counted h2) ⟨m1, hm1⟩)
    · exact same (by simp [upd, Ne.symm e]) rfl
  | readLockCall v m' h1 h2 h3 =>
    by_cases e : v = u
    · subst e; exact start m' _ _ (.inr (.inl rfl))
    · exact ncall v m' _ _ (.inl e)
  | readLockDone v m' h1 h2 =>
    by_cases e : v = u
    · subst e
      refine pushed .R m' (by simp [upd]) rfl ?_
      rintro rfl
      rw [h2] at ho2
      rcases ho2 with h | h | h <;> cases h
    · exact same (by simp [upd, Ne.symm e]) rfl
  | readUnlockFast v m' rest h1 h2 h3 =>
    by_cases e : v = u
    · subst e; exact popped (by simp [upd, h2]; exact fun _ _ h => .inr h) rfl
    · exact same (by simp [upd, Ne.symm e]) rfl
  | readUnlockCall v m' rest h1 h2 h3 h4 =>
    by_cases e : v = u
    · subst e; exact ncall v m' _ _ (.inr (by rintro rfl; exact ho1 .R (by rw [h2]; exact List.mem_cons_self ..)))
    · exact ncall v m' _ _ (.inl e)
  | readUnlockDone v m' h1 h2 =>
    by_cases e : v = u
    · subst e; exact popped (by intro x hx; simp only [upd, if_true] at hx; exact List.mem_of_mem_tail hx) rfl
    · exact same (by simp [upd, Ne.symm e]) rfl
  | writeLockFast v m' h1 h2 =>
    by_cases e : v = u
    · subst e
      obtain ⟨m1, hm1, -⟩ := one v
      exact pushed .W m' (by simp [upd]) rfl (fast .W m' (by simp [upd]) (counted (.inl h2)) ⟨m1, hm1⟩)
    · exact same (by simp [upd, Ne.symm e]) rfl
  | writeLockUpgrade v m' h1 h2 h3 =>
    by_cases e : v = u
    · subst e
      refine ncall v m' _ _ (.inr ?_)
      rintro rfl
      obtain ⟨m1, hm1, hm2⟩ := one v
      have e1 := hm2 m' (by simp [Sys.call, upd, Job.mtx])
      subst e1
      exact counted (.inr (by omega)) (nil hm1 ho1)
    · exact ncall v m' _ _ (.inl e)
  | writeLockUpgraded v m' h1 h2 =>
    by_cases e : v = u
    · subst e; exact start m' _ _ (.inr (.inr rfl))
    · exact ncall v m' _ _ (.inl e)
  | writeLockCall v m' h1 h2 h3 =>
    by_cases e : v = u
    · subst e; exact start m' _ _ (.inr (.inr rfl))
    · exact ncall v m' _ _ (.inl e)
  | writeLockDone v m' h1 h2 =>
    by_cases e : v = u
    · subst e
      refine pushed .W m' (by simp [upd]) rfl ?_
      rintro rfl
      rw [h2] at ho2
      rcases ho2 with h | h | h <;> cases h
    · exact same (by simp [upd, Ne.symm e]) rfl
  | writeUnlockFast v m' rest h1 h2 h3 =>
    by_cases e : v = u
    · subst e; exact popped (by simp [upd, h2]; exact fun _ _ h => .inr h) rfl
    · exact same (by simp [upd, Ne.symm e]) rfl
  | writeUnlockCall v m' rest h1 h2 h3 =>
    by_cases e : v = u
    · subst e; exact ncall v m' _ _ (.inr (by rintro rfl; exact ho1 .W (by rw [h2]; exact List.mem_cons_self ..)))
    · exact ncall v m' _ _ (.inl e)
  | writeUnlockDone v m' h1 h2 h3 =>
    by_cases e : v = u
    · subst e; exact popped (by intro x hx; simp only [upd, if_true] at hx; exact List.mem_of_mem_tail hx) rfl
    · exact same (by simp [upd, Ne.symm e]) rfl
  | writeUnlockReacquire v m' h1 h2 h3 =>
    by_cases e : v = u
    · subst e; exact start m' _ _ (.inr (.inl rfl))
    · exact ncall v m' _ _ (.inl e)
  | writeUnlockReacquired v m' h1 h2 =>
    by_cases e : v = u
    · subst e; exact popped (by intro x hx; simp only [upd, if_true] at hx; exact List.mem_of_mem_tail hx) rfl
    · exact same (by simp [upd, Ne.symm e]) rfl

/-- C42, C43, with spurious wake-ups too, for any number of mutexes (each thread using one at a time) and any nesting: while a thread holds a write lock of `m`, no thread that had none
gets a lock of `m`. -/
theorem C43_later_locks_wait {sp : Bool} (s s' : Sys M T) (hs : SReachOne sp s) (t u : T) (m : M) (h : HoldingRun sp t m s s') (hne : u ≠ t)
    (hj : s.job u = .free) (hu : ∀ k, (k, m) ∉ s.stack u) (k : Kind) : (k, m) ∉ s'.stack u := by
  have : Nonempty M := ⟨m⟩
  have hout : Out s m u := by
    refine ⟨hu, ?_⟩
    obtain ⟨m0, a1, a2, a3, a4, a5⟩ := hs.inv.thr u
    by_cases e : m = m0
    · subst e
      rw [hj] at a5
      cases hst : s.stack u with
      | nil => 
        rw [hst] at a5
        simp only [TOk, nW, outerR, if_true] at a5
        exact .inl (phase_idle.1 a5)
      | cons e l =>
        obtain ⟨k', m'⟩ := e
        have := a1 (k', m') (by rw [hst]; exact List.mem_cons_self ..)
        simp only at this; subst this
        exact absurd (by rw [hst]; exact List.mem_cons_self ..) (hu k')
    · exact .inl (a2 m e)
  have key : SReachOne sp s' ∧ (s'.job t = .free ∧ (Kind.W, m) ∈ s'.stack t) ∧ Out s' m u := by
    clear hj hu
    induction h with
    | refl h1 h2 => exact ⟨hs, ⟨h1, h2⟩, hout⟩
    | step s1 s2 _ hst one h1 h2 ih =>
      obtain ⟨i1, i2, i3⟩ := ih
      exact ⟨.step _ _ i1 hst one, ⟨h1, h2⟩, out_step i1.inv hst one hne i2.1 i2.2 i3⟩
  exact key.2.2.1 k

/-- C42: the same for one mutex, in the words of C42. -/
theorem C42_later_locks_wait {sp : Bool} (s s' : Sys Unit T) (hs : SReach sp s) (t u : T) (h : HoldingRun sp t () s s') (hne : u ≠ t)
    (hj : s.job u = .free) (hu : s.stack u = []) : s'.stack u = [] := by
  have := C43_later_locks_wait s s' (SReachOne.of_unit hs) t u () h hne hj (by simp [hu])
  cases h' : s'.stack u with
  | nil => rfl
  | cons e l => obtain ⟨k, ⟨⟩⟩ := e; exact absurd (by rw [h']; exact List.mem_cons_self ..) (this k)

/-! ### Cases -/

/-- A case for `C41_later_locks_wait`: a run during which another thread asks for the read lock and has to wait. -/
example : ∃ s s' : Inner Bool, Reach true s ∧ WritingRun true false s s' ∧ outside (s.pc true) ∧ s.pc true = .idle ∧ s'.pc true = .rl1 := by
  have h := Reach.init (T := Bool) (sp := true)
  have h := Reach.step _ _ h (.callWL _ false rfl)
  have h := Reach.step _ _ h (.inside _ _ _ (.wl1 _ false rfl rfl))
  have h := Reach.step _ _ h (.inside _ _ _ (.wl2 _ false rfl))
  have h := Reach.step _ _ h (.inside _ _ _ (.wl3 _ false rfl))
  have h := Reach.step _ _ h (.inside _ _ _ (.wl6 _ false rfl))
  exact ⟨_, _, h, .step _ _ _ (.refl _ rfl) (.callRL _ true rfl) rfl, .inl rfl, rfl, rfl⟩

/-- A case for `C42_later_locks_wait` and `C43_later_locks_wait`: the writer takes the write lock again while another thread calls `ReadLock`. -/
example : ∃ s s' : Sys Unit Bool, SReach true s ∧ HoldingRun true false () s s' ∧ s.job true = .free ∧ s.stack true = [] ∧ s'.job true = .rl () ∧
    s'.stack false = [(.W, ()), (.W, ())] := by
  have h := SReach.init (M := Unit) (T := Bool) (sp := true)
  have h := SReach.step _ _ h (.writeLockCall _ false () rfl rfl rfl)
  have h := SReach.step _ _ h (.inside _ false () _ (.wl1 _ false rfl rfl))
  have h := SReach.step _ _ h (.inside _ false () _ (.wl2 _ false rfl))
  have h := SReach.step _ _ h (.inside _ false () _ (.wl3 _ false rfl))
  have h := SReach.step _ _ h (.inside _ false () _ (.wl6 _ false rfl))
  have h := SReach.step _ _ h (.writeLockDone _ false () rfl rfl)
  refine ⟨_, _, h, .step _ _ _ (.step _ _ _ (.refl _ rfl ?_) (.readLockCall _ true () rfl rfl rfl) (fun u => ⟨(), fun _ _ => rfl, fun _ _ => rfl⟩) rfl ?_)
    (.writeLockFast _ false () rfl ?_) (fun u => ⟨(), fun _ _ => rfl, fun _ _ => rfl⟩) rfl ?_, rfl, rfl, rfl, rfl⟩ <;> simp [Sys.call, upd, Sys.init]

end MVault.Mtx
