import Verif.CopyLockStep
/-!
C104. Copying and moving vaults while other threads work with them: the locks that are, and are not, held.
-/
set_option linter.unusedSectionVars false
set_option linter.unusedSimpArgs false
set_option linter.unusedVariables false
namespace MVault.Mtx
variable {T : Type} [DecidableEq T] {M : Type} [DecidableEq M]

/-! ### The calls of the library keep the rules -/

theorem held_append (a b : List (LockOp M)) (l : List (Kind × M)) : held (a ++ b) l = held b (held a l) := by
  induction a generalizing l with
  | nil => rfl
  | cons x a ih => cases x <;> simp [held, ih]

theorem held_keyCopies (p : M) (n : Nat) (l : List (Kind × M)) : held (keyCopies p n) l = l := by
  induction n with
  | zero => rfl
  | succ n ih =>
    have : keyCopies p (n + 1) = [.lock .W p, .unlock] ++ keyCopies p n := by simp [keyCopies, List.replicate_succ]
    rw [this, held_append]; exact ih

/-- Every lock a program asks for is allowed, and what is held at each moment satisfies `Q`. -/
def Keeps (own : M → Own T) (t : T) (Q : List (Kind × M) → Prop) : List (LockOp M) → List (Kind × M) → Prop
  | [], l => Q l
  | .lock k m :: r, l => Q l ∧ May own t l k m ∧ Keeps own t Q r ((k, m) :: l)
  | .unlock :: r, l => Q l ∧ Keeps own t Q r l.tail

theorem Keeps.may {own : M → Own T} {t : T} {Q : List (Kind × M) → Prop} {prog : List (LockOp M)} {l : List (Kind × M)} (h : Keeps own t Q prog l) :
    ∀ pre k m post, prog = pre ++ .lock k m :: post → May own t (held pre l) k m := by
  induction prog generalizing l with
  | nil => intro pre k m post e; simp at e
  | cons x r ih =>
    intro pre k m post e
    cases pre with
    | nil => simp at e; obtain ⟨rfl, rfl⟩ := e; exact h.2.1
    | cons y pre =>
      simp only [List.cons_append, List.cons.injEq] at e
      obtain ⟨rfl, e⟩ := e
      cases x with
      | lock k' m' => exact ih h.2.2 pre k m post e
      | unlock => exact ih h.2 pre k m post e

theorem Keeps.all {own : M → Own T} {t : T} {Q : List (Kind × M) → Prop} {prog : List (LockOp M)} {l : List (Kind × M)} (h : Keeps own t Q prog l) :
    ∀ pre post, prog = pre ++ post → Q (held pre l) := by
  induction prog generalizing l with
  | nil => intro pre post e; simp at e; obtain ⟨rfl, rfl⟩ := e; exact h
  | cons x r ih =>
    intro pre post e
    cases pre with
    | nil => cases x <;> exact h.1
    | cons y pre =>
      simp only [List.cons_append, List.cons.injEq] at e
      obtain ⟨rfl, e⟩ := e
      cases x with
      | lock k' m' => exact ih h.2.2 pre post e
      | unlock => exact ih h.2 pre post e

theorem Keeps.append {own : M → Own T} {t : T} {Q : List (Kind × M) → Prop} {a b : List (LockOp M)} {l : List (Kind × M)} (ha : Keeps own t Q a l)
    (hb : Keeps own t Q b (held a l)) : Keeps own t Q (a ++ b) l := by
  induction a generalizing l with
  | nil => exact hb
  | cons x a ih =>
    cases x with
    | lock k m => exact ⟨ha.1, ha.2.1, ih ha.2.2 hb⟩
    | unlock => exact ⟨ha.1, ih ha.2 hb⟩

theorem keeps_keyCopies (own : M → Own T) (t : T) (Q : List (Kind × M) → Prop) (p : M) (n : Nat) (l : List (Kind × M)) (h1 : Q l) (h2 : Q ((.W, p) :: l))
    (h3 : May own t l .W p) : Keeps own t Q (keyCopies p n) l := by
  induction n with
  | zero => exact h1
  | succ n ih =>
    have : keyCopies p (n + 1) = [.lock .W p, .unlock] ++ keyCopies p n := by simp [keyCopies, List.replicate_succ]
    rw [this]
    exact Keeps.append ⟨h1, h3, h2, h1⟩ ih

theorem keeps_copyNew (own : M → Own T) (t : T) (h p : M) (n : Nat) (hh : own h = .shared) (hp : own p = .of t) :
    Keeps own t (fun l => l = [] ∨ l = [(.R, h)] ∨ l = [(.W, p), (.R, h)]) (copyNew h p n) [] := by
  refine Keeps.append (Keeps.append ⟨by simp, by simp [May, hh], by simp [Keeps]⟩ ?_) ?_
  · exact keeps_keyCopies own t _ p n _ (by simp [held]) (by simp [held]) (by simp [held, May, hp])
  · rw [held_append, held_keyCopies]; simp [held, Keeps]

theorem keeps_copyAssign (own : M → Own T) (t : T) (a b : M) (n : Nat) (ha : own a = .shared) :
    Keeps own t (fun _ => True) (copyAssign a b n) [] := by
  refine Keeps.append (Keeps.append ?_ ?_) ?_
  · simp [Keeps, May, ha]
  · exact keeps_keyCopies own t _ a n _ trivial trivial (by simp [held, May])
  · rw [held_append, held_keyCopies]; simp [held, Keeps]

/-- C104. The calls keep the rules of the model: whatever thread runs `Vault p(h)`, `a = b`, `Vault p(std::move(h))` or `a = std::move(b)` with vaults that all threads can reach
(`p` is the vault being constructed), every lock it asks for on the way is one the rules allow, and at the end it holds nothing. -/
theorem C104_calls_keep_the_rules (own : M → Own T) (t : T) (h p a b : M) (n : Nat) (hh : own h = .shared) (hp : own p = .of t) (ha : own a = .shared)
    (hb : own b = .shared) (prog : List (LockOp M)) (hprog : prog = copyNew h p n ∨ prog = copyAssign a b n ∨ prog = moveNew h ∨ prog = moveAssign a b) :
    (∀ pre k m post, prog = pre ++ .lock k m :: post → May own t (held pre []) k m) ∧ held prog [] = [] := by
  have hk : ∃ Q, Keeps own t Q prog [] := by
    rcases hprog with rfl | rfl | rfl | rfl
    · exact ⟨_, keeps_copyNew own t h p n hh hp⟩
    · exact ⟨_, keeps_copyAssign own t a b n ha⟩
    · exact ⟨fun _ => True, by simp [moveNew, Keeps, May, hh]⟩
    · exact ⟨fun _ => True, by simp [moveAssign, Keeps, May, ha, hb]⟩
  obtain ⟨Q, hk⟩ := hk
  refine ⟨hk.may, ?_⟩
  rcases hprog with rfl | rfl | rfl | rfl
  · simp only [copyNew, held_append, held_keyCopies]; rfl
  · simp only [copyAssign, held_append, held_keyCopies]; rfl
  · rfl
  · rfl

/-! ### While a vault is copied into a new one -/

theorem nWpos {l : List (Kind × M)} {m : M} (h : (Kind.W, m) ∈ l) : nW l ≠ 0 := nW_ne.2 ⟨_, h, rfl⟩

theorem rootW_split {a b : List (Kind × M)} {m : M} (hb : ∀ e ∈ b, e.1 = Kind.R) : rootW (a ++ (.W, m) :: b) = some m := by
  have hb0 : nW b = 0 := by
    refine Decidable.byContradiction fun h => ?_
    obtain ⟨e, he, hk⟩ := nW_ne.1 h
    rw [hb e he] at hk; cases hk
  induction a with
  | nil => simp [rootW, rootW_none.2 hb0]
  | cons e a ih => obtain ⟨k, x⟩ := e; simp only [List.cons_append, rootW, ih]

/-- C104 (as C41, without spurious wake-ups). Any number of threads and vaults, any schedule, threads that keep the rules, also copying and moving vaults: if the first lock a thread `t` took, and still
holds, is of the vault `h`, and it is running code of its own or is in a lock call on a vault it is constructing, then no other thread running code of its own holds a write lock of
`h` (one it was granted as its first write lock, and not merely counted, because it held a write lock before). -/
theorem C104_first_lock_excludes_writers (c : CSys M T) (hc : CReach false c) (t u : T) (hne : u ≠ t) (h : M) (hh : c.own h = .shared) (k : Kind)
    (ht : (c.sys.stack t).getLast? = some (k, h)) (hj : c.sys.job t = .free ∨ ∃ p, c.own p = .of t ∧ (c.sys.job t).mtx = some p) (huf : c.sys.job u = .free) :
    ¬ ∃ a b, c.sys.stack u = a ++ (.W, h) :: b ∧ ∀ e ∈ b, e.1 = Kind.R := by
  rintro ⟨a, b, hu, hb⟩
  have : Nonempty M := ⟨h⟩
  obtain ⟨s0, hr, he⟩ := hc.era
  have hrw : rootW (c.sys.stack u) = some h := by rw [hu]; exact rootW_split hb
  -- thread `u` in the reduced system
  have hu0 : s0.job u = .free ∧ (Kind.W, h) ∈ s0.stack u := by
    cases he.thr u with
    | home g h1 h2 h3 h4 h5 h6 h7 =>
      have hg := rootW_rooted h2 hrw
      subst hg
      refine ⟨by rw [h5, huf], ?_⟩
      rw [h1, hu]; simp
    | fresh g q pr base h1 h2 h3 h4 h5 h6 h7 h8 h9 h10 h11 h12 =>
      rw [huf] at h12
      have hpr : pr.getLast? = some (.W, q) := by simpa using h12
      rw [h6, rootW_append _ _ h4, rootW_last hpr] at hrw
      simp only [Option.some.injEq] at hrw; subst hrw
      rw [h2] at hh; cases hh
  have ht0 : s0.job t = .free ∧ ∃ k', (k', h) ∈ s0.stack t := by
    cases he.thr t with
    | home g h1 h2 h3 h4 h5 h6 h7 =>
      have hg : h = g := h2.last (by rw [ht]; rfl)
      subst hg
      refine ⟨?_, k, by rw [h1]; exact List.mem_map.2 ⟨(k, h), List.mem_of_getLast? ht, rfl⟩⟩
      rw [h5]
      rcases hj with hj | ⟨p, hp, hj⟩
      · exact hj
      · have := h6 p hj
        subst this
        rw [hp] at hh; cases hh
    | fresh g q pr base h1 h2 h3 h4 h5 h6 h7 h8 h9 h10 h11 h12 =>
      have hlast : base.getLast? = some (k, h) := by
        rw [h6, List.getLast?_append] at ht
        cases hb : base.getLast? with
        | none => exact absurd (List.getLast?_eq_none_iff.1 hb) h3
        | some x => rw [hb] at ht; simpa using ht
      have hg : h = g := h5.last (by rw [hlast]; rfl)
      subst hg
      exact ⟨h11, k, by rw [h7]; exact List.mem_map.2 ⟨(k, h), List.mem_of_getLast? hlast, rfl⟩⟩
  obtain ⟨k', hk'⟩ := ht0.2
  exact C43_independent_partial s0 hr u t (fun e => hne e.symm) h hu0.1 ht0.1 hu0.2 k' hk'

/-- C104, `Vault p(h)`: from the moment the constructor has got its first lock until it gives it back, also while it adds the keys to the new vault, no other thread (in code of its own)
holds a write lock of `h`: what is copied does not change while it is copied. -/
theorem C104_copy_new_is_a_snapshot (c : CSys M T) (hc : CReach false c) (t : T) (h p : M) (n : Nat) (hh : c.own h = .shared) (hp : c.own p = .of t)
    (pre post : List (LockOp M)) (hprog : copyNew h p n = pre ++ post) (hpre : pre ≠ []) (hpost : post ≠ []) (hst : c.sys.stack t = held pre [])
    (hj : c.sys.job t = .free ∨ (c.sys.job t).mtx = some p) (u : T) (hne : u ≠ t) (huf : c.sys.job u = .free) :
    ¬ ∃ a b, c.sys.stack u = a ++ (.W, h) :: b ∧ ∀ e ∈ b, e.1 = Kind.R := by
  have hQ : held pre [] ≠ [] := by
    obtain ⟨x, pre', rfl⟩ := List.exists_cons_of_ne_nil hpre
    have e1 : copyNew h p n = .lock .R h :: (keyCopies p n ++ [.unlock]) := by simp [copyNew]
    rw [e1] at hprog
    simp only [List.cons_append, List.cons.injEq] at hprog
    obtain ⟨rfl, hprog⟩ := hprog
    have hk : Keeps c.own t (fun l => l ≠ []) (keyCopies p n) [(.R, h)] :=
      keeps_keyCopies c.own t _ p n _ (by simp) (by simp) (by simp [May, hp])
    obtain ⟨post', y, rfl⟩ : ∃ post' y, post = post' ++ [y] := ⟨_, _, (List.dropLast_concat_getLast hpost).symm⟩
    rw [← List.append_assoc] at hprog
    have := List.append_inj_left' hprog rfl
    exact hk.all pre' post' this
  have hlast : (c.sys.stack t).getLast? = some (.R, h) := by
    rw [hst]
    rcases (keeps_copyNew c.own t h p n hh hp).all pre post hprog with e | e | e
    · exact absurd e hQ
    · rw [e]; rfl
    · rw [e]; rfl
  exact C104_first_lock_excludes_writers c hc t u hne h hh .R hlast (hj.imp id (fun e => ⟨p, hp, e⟩)) huf

/-- C104. A thread that constructs a vault never waits for the lock of the new vault: whatever the other threads do (spurious wake-ups allowed), whenever it is in a call on that lock it
can take a step. -/
theorem C104_new_vault_never_waits {sp : Bool} (c : CSys M T) (hc : CReach sp c) (t : T) (p : M) (hp : c.own p = .of t) (hj : (c.sys.job t).mtx = some p) :
    ∃ s', SActs false c.sys t s' := by
  have : Nonempty M := ⟨p⟩
  obtain ⟨s0, hr, he⟩ := hc.era
  obtain ⟨e1, e2⟩ := hr.inv.counts t
  have hpv := he.priv t p hp
  cases he.thr t with
  | home g h1 h2 h3 h4 h5 h6 h7 =>
    have := h6 p hj
    subst this
    have := h7 (Or.inr (by intro e; rw [e] at hj; simp [Job.mtx] at hj))
    rw [this] at hp; cases hp
  | fresh g q pr base h1 h2 h3 h4 h5 h6 h7 h8 h9 h10 h11 h12 =>
    have hlr : c.sys.lr t > 0 := by rw [← h8, e2, h7, outerR_map]; exact outerR_pos h4 h3
    rcases h12 with ⟨h12, -⟩ | ⟨h12, -⟩ | ⟨h12, -⟩ | ⟨h12, -⟩ | ⟨h12, -⟩ <;> rw [h12] at hj <;> simp [Job.mtx] at hj <;> subst hj <;> rw [h12] at hpv
    · have hst : stageOf (.wlRelease q) (c.sys.stack t) q = .rel := by simp [stageOf]
      rw [hst] at hpv
      rcases hpv.go (by simp) with ⟨i', hi⟩ | h' | h' | h'
      · exact ⟨_, .inside _ t q i' hi⟩
      · exact ⟨_, .writeLockUpgraded _ t q h12 h'⟩
      · have := hpv.1; rw [h'] at this; simp [want] at this
      · have := hpv.1; rw [h'] at this; simp [want] at this
    · have hst : stageOf (.wl q) (c.sys.stack t) q = .wl := by simp [stageOf]
      rw [hst] at hpv
      rcases hpv.go (by simp) with ⟨i', hi⟩ | h' | h' | h'
      · exact ⟨_, .inside _ t q i' hi⟩
      · have := hpv.1; rw [h'] at this; simp [want] at this
      · exact ⟨_, .writeLockDone _ t q h12 h'⟩
      · have := hpv.1; rw [h'] at this; simp [want] at this
    · have hst : stageOf (.wuRelease q) (c.sys.stack t) q = .wu := by simp [stageOf]
      rw [hst] at hpv
      rcases hpv.go (by simp) with ⟨i', hi⟩ | h' | h' | h'
      · exact ⟨_, .inside _ t q i' hi⟩
      · exact ⟨_, .writeUnlockReacquire _ t q h12 h' hlr⟩
      · have := hpv.1; rw [h'] at this; simp [want] at this
      · have := hpv.1; rw [h'] at this; simp [want] at this
    · have hst : stageOf (.wuReacquire q) (c.sys.stack t) q = .re := by simp [stageOf]
      rw [hst] at hpv
      rcases hpv.go (by simp) with ⟨i', hi⟩ | h' | h' | h'
      · exact ⟨_, .inside _ t q i' hi⟩
      · have := hpv.1; rw [h'] at this; simp [want] at this
      · have := hpv.1; rw [h'] at this; simp [want] at this
      · exact ⟨_, .writeUnlockReacquired _ t q h12 h'⟩

/-- C104. When the construction has ended the lock of the new vault is as new: nobody owns its inner mutexes, its reader count is zero (during the construction it was
negative) and no writer is announced. -/
theorem C104_new_vault_lock_is_new {sp : Bool} (c : CSys M T) (hc : CReach sp c) (t : T) (p : M) (hp : c.own p = .of t) (hj : c.sys.job t = .free)
    (hs : ∀ e ∈ c.sys.stack t, e.2 ≠ p) :
    (c.sys.inner p).wOwn = (Inner.init T).wOwn ∧ (c.sys.inner p).rOwn = (Inner.init T).rOwn ∧ (c.sys.inner p).cnt = (Inner.init T).cnt ∧
      (c.sys.inner p).flag = (Inner.init T).flag := by
  have : Nonempty M := ⟨p⟩
  obtain ⟨s0, hr, he⟩ := hc.era
  exact he.fresh_rest_state t p hp hj hs

/-! ### Histories -/

/-- A step of thread `t` alone: only `t` can ask for a lock in it. -/
theorem CReach.act' {sp : Bool} {c : CSys M T} (hc : CReach sp c) (t : T) {s' : Sys M T} (hs : SStep sp c.sys s') (o : OnlyT t c.sys s')
    (hm : ∀ k m, Asks c.sys s' t k m → May c.own t (c.sys.stack t) k m) : CReach sp { c with sys := s' } := by
  refine .step _ _ hc (.act c s' hs (fun u k m ha => ?_))
  by_cases e : u = t
  · subst e; exact hm k m ha
  · obtain ⟨hf, ha⟩ := ha
    rw [o.stack u e, o.job u e, hf] at ha
    rcases ha with ha | ⟨-, ha⟩ | ⟨-, ha | ha⟩
    · exact absurd ha (by intro e; have := congrArg List.length e; simp at this)
    · cases ha
    · cases ha
    · cases ha

theorem CReach.inside {sp : Bool} {c : CSys M T} (hc : CReach sp c) (t : T) (m : M) {i' : Inner T} (hi : IStep sp (c.sys.inner m) t i') :
    CReach sp { c with sys := { c.sys with inner := upd c.sys.inner m i' } } := by
  refine hc.act' t (.inside _ t m i' hi) ⟨fun _ _ => rfl, fun _ _ => rfl, fun _ _ => rfl, fun _ _ => rfl⟩ ?_
  rintro k x ⟨hf, ha⟩
  simp only [hf] at ha
  rcases ha with ha | ⟨-, ha⟩ | ⟨-, ha | ha⟩
  · exact absurd ha (by intro e; have := congrArg List.length e; simp at this)
  · cases ha
  · cases ha
  · cases ha

theorem CReach.busy {sp : Bool} {c : CSys M T} (hc : CReach sp c) (t : T) {s' : Sys M T} (hs : SStep sp c.sys s') (o : OnlyT t c.sys s')
    (hj : c.sys.job t ≠ .free) : CReach sp { c with sys := s' } :=
  hc.act' t hs o (fun _ _ ha => absurd ha.1 hj)

theorem CReach.readCall {sp : Bool} {c : CSys M T} (hc : CReach sp c) (t : T) (m : M) (h1 : c.sys.job t = .free) (h2 : c.sys.lw t = 0) (h3 : c.sys.lr t = 0)
    (h4 : c.sys.stack t = []) (h5 : c.own m = .shared) : CReach sp { c with sys := c.sys.call t m .rl1 (.rl m) } := by
  refine hc.act' t (.readLockCall _ t m h1 h2 h3) (by only_t) ?_
  rintro k x ⟨hf, ha⟩
  simp [Sys.call, upd, h4] at ha
  obtain ⟨rfl, rfl⟩ := ha
  simp [May, h4, h5]

theorem CReach.writeCall {sp : Bool} {c : CSys M T} (hc : CReach sp c) (t : T) (m : M) (h1 : c.sys.job t = .free) (h2 : c.sys.lw t = 0) (h3 : c.sys.lr t = 0)
    (h4 : c.sys.stack t = []) (h5 : c.own m = .shared) : CReach sp { c with sys := c.sys.call t m .wl1 (.wl m) } := by
  refine hc.act' t (.writeLockCall _ t m h1 h2 h3) (by only_t) ?_
  rintro k x ⟨hf, ha⟩
  simp [Sys.call, upd, h4] at ha
  obtain ⟨rfl, rfl⟩ := ha
  simp [May, h4, h5]

theorem CReach.upgrade {sp : Bool} {c : CSys M T} (hc : CReach sp c) (t : T) (m : M) (h1 : c.sys.job t = .free) (h2 : c.sys.lw t = 0) (h3 : c.sys.lr t > 0)
    (h5 : May c.own t (c.sys.stack t) .W m) : CReach sp { c with sys := c.sys.call t m .ru1 (.wlRelease m) } := by
  refine hc.act' t (.writeLockUpgrade _ t m h1 h2 h3) (by only_t) ?_
  rintro k x ⟨hf, ha⟩
  simp [Sys.call, upd] at ha
  obtain ⟨rfl, rfl⟩ := ha
  exact h5

theorem CReach.readFast {sp : Bool} {c : CSys M T} (hc : CReach sp c) (t : T) (m : M) (h1 : c.sys.job t = .free) (h2 : c.sys.lw t ≠ 0 ∨ c.sys.lr t ≠ 0)
    (h4 : c.sys.stack t ≠ []) : CReach sp { c with sys := { c.sys with
      lr := if c.sys.lw t = 0 then upd c.sys.lr t (c.sys.lr t + 1) else c.sys.lr, stack := upd c.sys.stack t ((.R, m) :: c.sys.stack t) } } := by
  refine hc.act' t (.readLockFast _ t m h1 h2) (by only_t) ?_
  rintro k x ⟨hf, ha⟩
  simp [upd, h1] at ha
  obtain ⟨rfl, rfl⟩ := ha
  simp [May, h4]

/-- Unlocking asks for nothing. -/
theorem noask_wu (c : CSys M T) (t : T) (m : M) : ∀ k x, Asks c.sys (c.sys.call t m .wu1 (.wuRelease m)) t k x → May c.own t (c.sys.stack t) k x := by
  rintro k x ⟨hf, ha⟩
  simp [Sys.call, upd] at ha

/-- C104 fails for `a = b`: the read lock of `b` is only counted, because the thread holds the read lock of `a`. Thread `false` is copying (the vault `true` into the vault `false`, all its
locks are the first ones of `copyAssign`), and thread `true` holds the write lock of the vault that is being copied. -/
theorem C104_assign_source_refuted : ∃ c : CSys Bool Bool, CReach false c ∧ c.sys.job false = .free ∧ c.sys.job true = .free ∧
    (∃ post, copyAssign false true 1 = [.lock .W false, .unlock, .lock .R false, .lock .R true] ++ post ∧
      c.sys.stack false = held [.lock .W false, .unlock, .lock .R false, .lock .R true] []) ∧ c.sys.stack true = [(.W, true)] := by
  have h := CReach.init (M := Bool) (T := Bool) (sp := false) (fun _ => .shared) (by simp)
  have h := h.writeCall false false rfl rfl rfl rfl rfl
  have h := h.inside false false (.wl1 _ false rfl rfl)
  have h := h.inside false false (.wl2 _ false rfl)
  have h := h.inside false false (.wl3 _ false rfl)
  have h := h.inside false false (.wl6 _ false rfl)
  have h := h.busy false (.writeLockDone _ false false rfl rfl) (by only_t) (by simp [Sys.call, upd])
  have h := h.act' false (.writeUnlockCall _ false false _ rfl rfl rfl) (by only_t) (noask_wu _ _ _)
  have h := h.inside false false (.wu1 _ false rfl)
  have h := h.busy false (.writeUnlockDone _ false false rfl rfl rfl) (by only_t) (by simp [Sys.call, upd])
  have h := h.readCall false false rfl rfl rfl rfl rfl
  have h := h.inside false false (.rl1 _ false rfl rfl)
  have h := h.inside false false (.rl2 _ false rfl rfl)
  have h := h.inside false false (.rl3 _ false rfl)
  have h := h.inside false false (.rl4 _ false rfl)
  have h := h.inside false false (.rl5 _ false rfl)
  have h := h.busy false (.readLockDone _ false false rfl rfl) (by only_t) (by simp [Sys.call, upd])
  have h := h.readFast false true rfl (Or.inr (by decide)) (by simp [upd])
  have h := h.writeCall true true rfl rfl rfl rfl rfl
  have h := h.inside true true (.wl1 _ true rfl rfl)
  have h := h.inside true true (.wl2 _ true rfl)
  have h := h.inside true true (.wl3 _ true rfl)
  have h := h.inside true true (.wl6 _ true rfl)
  have h := h.busy true (.writeLockDone _ true true rfl rfl) (by only_t) (by simp [Sys.call, upd])
  exact ⟨_, h, rfl, rfl, ⟨_, rfl, rfl⟩, rfl⟩

/-- C104 fails for the vault that is assigned to, too: its records are written while only a read lock of it is held, so a reader gets in. Thread `false` is assigning to the vault `false`, thread `true`
is reading the same vault. -/
theorem C104_assign_target_refuted : ∃ c : CSys Bool Bool, CReach false c ∧ c.sys.job false = .free ∧ c.sys.job true = .free ∧
    (∃ post, copyAssign false true 1 = [.lock .W false, .unlock, .lock .R false, .lock .R true] ++ post ∧
      c.sys.stack false = held [.lock .W false, .unlock, .lock .R false, .lock .R true] []) ∧ c.sys.stack true = [(.R, false)] := by
  have h := CReach.init (M := Bool) (T := Bool) (sp := false) (fun _ => .shared) (by simp)
  have h := h.writeCall false false rfl rfl rfl rfl rfl
  have h := h.inside false false (.wl1 _ false rfl rfl)
  have h := h.inside false false (.wl2 _ false rfl)
  have h := h.inside false false (.wl3 _ false rfl)
  have h := h.inside false false (.wl6 _ false rfl)
  have h := h.busy false (.writeLockDone _ false false rfl rfl) (by only_t) (by simp [Sys.call, upd])
  have h := h.act' false (.writeUnlockCall _ false false _ rfl rfl rfl) (by only_t) (noask_wu _ _ _)
  have h := h.inside false false (.wu1 _ false rfl)
  have h := h.busy false (.writeUnlockDone _ false false rfl rfl rfl) (by only_t) (by simp [Sys.call, upd])
  have h := h.readCall false false rfl rfl rfl rfl rfl
  have h := h.inside false false (.rl1 _ false rfl rfl)
  have h := h.inside false false (.rl2 _ false rfl rfl)
  have h := h.inside false false (.rl3 _ false rfl)
  have h := h.inside false false (.rl4 _ false rfl)
  have h := h.inside false false (.rl5 _ false rfl)
  have h := h.busy false (.readLockDone _ false false rfl rfl) (by only_t) (by simp [Sys.call, upd])
  have h := h.readFast false true rfl (Or.inr (by decide)) (by simp [upd])
  have h := h.readCall true false rfl rfl rfl rfl rfl
  have h := h.inside true false (.rl1 _ true rfl rfl)
  have h := h.inside true false (.rl2 _ true rfl rfl)
  have h := h.inside true false (.rl3 _ true rfl)
  have h := h.inside true false (.rl4 _ true rfl)
  have h := h.inside true false (.rl5 _ true rfl)
  have h := h.busy true (.readLockDone _ true false rfl rfl) (by only_t) (by simp [Sys.call, upd])
  exact ⟨_, h, rfl, rfl, ⟨_, rfl, rfl⟩, rfl⟩

/-- C104, the vault that is assigned to: between two keys the lock is given up (the upgrade from reading to writing), and another thread can write there. Thread `false` has dropped the old content of the
vault `false` and is about to add a key, thread `true` holds the write lock of the vault `false`. -/
theorem C104_assign_gap_refuted : ∃ c : CSys Bool Bool, CReach false c ∧ c.sys.job false = .wl false ∧ c.sys.job true = .free ∧
    (∃ post, copyAssign false true 1 = [.lock .W false, .unlock, .lock .R false, .lock .R true] ++ post ∧
      c.sys.stack false = held [.lock .W false, .unlock, .lock .R false, .lock .R true] []) ∧ c.sys.stack true = [(.W, false)] := by
  have h := CReach.init (M := Bool) (T := Bool) (sp := false) (fun _ => .shared) (by simp)
  have h := h.writeCall false false rfl rfl rfl rfl rfl
  have h := h.inside false false (.wl1 _ false rfl rfl)
  have h := h.inside false false (.wl2 _ false rfl)
  have h := h.inside false false (.wl3 _ false rfl)
  have h := h.inside false false (.wl6 _ false rfl)
  have h := h.busy false (.writeLockDone _ false false rfl rfl) (by only_t) (by simp [Sys.call, upd])
  have h := h.act' false (.writeUnlockCall _ false false _ rfl rfl rfl) (by only_t) (noask_wu _ _ _)
  have h := h.inside false false (.wu1 _ false rfl)
  have h := h.busy false (.writeUnlockDone _ false false rfl rfl rfl) (by only_t) (by simp [Sys.call, upd])
  have h := h.readCall false false rfl rfl rfl rfl rfl
  have h := h.inside false false (.rl1 _ false rfl rfl)
  have h := h.inside false false (.rl2 _ false rfl rfl)
  have h := h.inside false false (.rl3 _ false rfl)
  have h := h.inside false false (.rl4 _ false rfl)
  have h := h.inside false false (.rl5 _ false rfl)
  have h := h.busy false (.readLockDone _ false false rfl rfl) (by only_t) (by simp [Sys.call, upd])
  have h := h.readFast false true rfl (Or.inr (by decide)) (by simp [upd])
  have h := h.upgrade false false rfl rfl (by decide) (Or.inr (Or.inr (Or.inr (Or.inl ⟨rfl, rfl⟩))))
  have h := h.inside false false (.ru1 _ false rfl rfl)
  have h := h.inside false false (.ru2 _ false rfl)
  have h := h.inside false false (.ru3 _ false rfl)
  have h := h.inside false false (.ru4 _ false rfl)
  have h := h.inside false false (.ru6 _ false rfl)
  have h := h.busy false (.writeLockUpgraded _ false false rfl rfl) (by only_t) (by simp [Sys.call, upd])
  have h := h.writeCall true false rfl rfl rfl rfl rfl
  have h := h.inside true false (.wl1 _ true rfl rfl)
  have h := h.inside true false (.wl2 _ true rfl)
  have h := h.inside true false (.wl3 _ true rfl)
  have h := h.inside true false (.wl6 _ true rfl)
  have h := h.busy true (.writeLockDone _ true false rfl rfl) (by only_t) (by simp [Sys.call, upd])
  exact ⟨_, h, rfl, rfl, ⟨_, rfl, rfl⟩, rfl⟩

/-- C104, moves: the source of a move is emptied under a read lock of it, so a reader gets in. Thread `false` is moving the vault `true` away, thread `true` is reading it. -/
theorem C104_move_source_refuted : ∃ c : CSys Bool Bool, CReach false c ∧ c.sys.job false = .free ∧ c.sys.job true = .free ∧
    (∃ post, moveNew true = [.lock .R true] ++ post ∧ c.sys.stack false = held [.lock .R true] []) ∧ c.sys.stack true = [(.R, true)] := by
  have h := CReach.init (M := Bool) (T := Bool) (sp := false) (fun _ => .shared) (by simp)
  have h := h.readCall false true rfl rfl rfl rfl rfl
  have h := h.inside false true (.rl1 _ false rfl rfl)
  have h := h.inside false true (.rl2 _ false rfl rfl)
  have h := h.inside false true (.rl3 _ false rfl)
  have h := h.inside false true (.rl4 _ false rfl)
  have h := h.inside false true (.rl5 _ false rfl)
  have h := h.busy false (.readLockDone _ false true rfl rfl) (by only_t) (by simp [Sys.call, upd])
  have h := h.readCall true true rfl rfl rfl rfl rfl
  have h := h.inside true true (.rl1 _ true rfl rfl)
  have h := h.inside true true (.rl2 _ true rfl rfl)
  have h := h.inside true true (.rl3 _ true rfl)
  have h := h.inside true true (.rl4 _ true rfl)
  have h := h.inside true true (.rl5 _ true rfl)
  have h := h.busy true (.readLockDone _ true true rfl rfl) (by only_t) (by simp [Sys.call, upd])
  exact ⟨_, h, rfl, rfl, ⟨_, rfl, rfl⟩, rfl⟩

/-- A copy under construction: thread `false` copies the vault `false` into the new vault `true`; it has added a first key and is adding another one (the reader count of the new vault is -1), while
thread `true` is reading the vault `false`. The hypotheses of the theorems above hold here. -/
example : ∃ c : CSys Bool Bool, CReach false c ∧ c.own false = .shared ∧ c.own true = .of false ∧ c.sys.job false = .wl true ∧ (c.sys.inner true).cnt = -1 ∧
    c.sys.stack true = [(.R, false)] ∧ (∃ post, copyNew false true 2 = [.lock .R false, .lock .W true, .unlock] ++ post ∧ post ≠ [] ∧
      c.sys.stack false = held [.lock .R false, .lock .W true, .unlock] []) := by
  have h := CReach.init (M := Bool) (T := Bool) (sp := false) (fun m => if m then .unborn else .shared) (by intro m t; cases m <;> simp)
  have h := CReach.step _ _ h (.start _ false true rfl)
  have h := h.readCall false false rfl rfl rfl rfl rfl
  have h := h.inside false false (.rl1 _ false rfl rfl)
  have h := h.inside false false (.rl2 _ false rfl rfl)
  have h := h.inside false false (.rl3 _ false rfl)
  have h := h.inside false false (.rl4 _ false rfl)
  have h := h.inside false false (.rl5 _ false rfl)
  have h := h.busy false (.readLockDone _ false false rfl rfl) (by only_t) (by simp [Sys.call, upd])
  have h := h.upgrade false true rfl rfl (by decide) (Or.inr (Or.inr (Or.inr (Or.inr ⟨rfl, List.cons_ne_nil _ _, rfl⟩))))
  have h := h.inside false true (.ru1 _ false rfl rfl)
  have h := h.inside false true (.ru2 _ false rfl)
  have h := h.inside false true (.ru3 _ false rfl)
  have h := h.inside false true (.ru6 _ false rfl)
  have h := h.busy false (.writeLockUpgraded _ false true rfl rfl) (by only_t) (by simp [Sys.call, upd])
  have h := h.inside false true (.wl1 _ false rfl rfl)
  have h := h.inside false true (.wl2 _ false rfl)
  have h := h.inside false true (.wl3 _ false rfl)
  have h := h.inside false true (.wl6 _ false rfl)
  have h := h.busy false (.writeLockDone _ false true rfl rfl) (by only_t) (by simp [Sys.call, upd])
  have h := h.act' false (.writeUnlockCall _ false true _ rfl rfl rfl) (by only_t) (noask_wu _ _ _)
  have h := h.inside false true (.wu1 _ false rfl)
  have h := h.busy false (.writeUnlockReacquire _ false true rfl rfl (by decide)) (by only_t) (by simp [Sys.call, upd])
  have h := h.inside false true (.rl1 _ false rfl rfl)
  have h := h.inside false true (.rl2 _ false rfl rfl)
  have h := h.inside false true (.rl3 _ false rfl)
  have h := h.inside false true (.rl4 _ false rfl)
  have h := h.inside false true (.rl5 _ false rfl)
  have h := h.busy false (.writeUnlockReacquired _ false true rfl rfl) (by only_t) (by simp [Sys.call, upd])
  have h := h.readCall true false rfl rfl rfl rfl rfl
  have h := h.inside true false (.rl1 _ true rfl rfl)
  have h := h.inside true false (.rl2 _ true rfl rfl)
  have h := h.inside true false (.rl3 _ true rfl)
  have h := h.inside true false (.rl4 _ true rfl)
  have h := h.inside true false (.rl5 _ true rfl)
  have h := h.busy true (.readLockDone _ true false rfl rfl) (by only_t) (by simp [Sys.call, upd])
  have h := h.upgrade false true rfl rfl (by decide) (Or.inr (Or.inr (Or.inr (Or.inr ⟨rfl, List.cons_ne_nil _ _, rfl⟩))))
  have h := h.inside false true (.ru1 _ false rfl rfl)
  have h := h.inside false true (.ru2 _ false rfl)
  have h := h.inside false true (.ru3 _ false rfl)
  have h := h.inside false true (.ru6 _ false rfl)
  have h := h.busy false (.writeLockUpgraded _ false true rfl rfl) (by only_t) (by simp [Sys.call, upd])
  exact ⟨_, h, rfl, rfl, rfl, rfl, rfl, ⟨_, rfl, by simp, rfl⟩⟩

/-- And a finished one: the new vault can be given to all threads, and another thread writes to it. -/
example : ∃ c : CSys Bool Bool, CReach false c ∧ c.own true = .shared ∧ c.sys.stack false = [] ∧ c.sys.stack true = [(.W, true)] := by
  have h := CReach.init (M := Bool) (T := Bool) (sp := false) (fun m => if m then .unborn else .shared) (by intro m t; cases m <;> simp)
  have h := CReach.step _ _ h (.start _ false true rfl)
  have h := h.readCall false false rfl rfl rfl rfl rfl
  have h := h.inside false false (.rl1 _ false rfl rfl)
  have h := h.inside false false (.rl2 _ false rfl rfl)
  have h := h.inside false false (.rl3 _ false rfl)
  have h := h.inside false false (.rl4 _ false rfl)
  have h := h.inside false false (.rl5 _ false rfl)
  have h := h.busy false (.readLockDone _ false false rfl rfl) (by only_t) (by simp [Sys.call, upd])
  have h := h.upgrade false true rfl rfl (by decide) (Or.inr (Or.inr (Or.inr (Or.inr ⟨rfl, List.cons_ne_nil _ _, rfl⟩))))
  have h := h.inside false true (.ru1 _ false rfl rfl)
  have h := h.inside false true (.ru2 _ false rfl)
  have h := h.inside false true (.ru3 _ false rfl)
  have h := h.inside false true (.ru6 _ false rfl)
  have h := h.busy false (.writeLockUpgraded _ false true rfl rfl) (by only_t) (by simp [Sys.call, upd])
  have h := h.inside false true (.wl1 _ false rfl rfl)
  have h := h.inside false true (.wl2 _ false rfl)
  have h := h.inside false true (.wl3 _ false rfl)
  have h := h.inside false true (.wl6 _ false rfl)
  have h := h.busy false (.writeLockDone _ false true rfl rfl) (by only_t) (by simp [Sys.call, upd])
  have h := h.act' false (.writeUnlockCall _ false true _ rfl rfl rfl) (by only_t) (noask_wu _ _ _)
  have h := h.inside false true (.wu1 _ false rfl)
  have h := h.busy false (.writeUnlockReacquire _ false true rfl rfl (by decide)) (by only_t) (by simp [Sys.call, upd])
  have h := h.inside false true (.rl1 _ false rfl rfl)
  have h := h.inside false true (.rl2 _ false rfl rfl)
  have h := h.inside false true (.rl3 _ false rfl)
  have h := h.inside false true (.rl4 _ false rfl)
  have h := h.inside false true (.rl5 _ false rfl)
  have h := h.busy false (.writeUnlockReacquired _ false true rfl rfl) (by only_t) (by simp [Sys.call, upd])
  have h := h.act' false (.readUnlockCall _ false false _ rfl rfl rfl rfl) (by only_t) (by rintro k x ⟨_, ha⟩; simp [Sys.call, upd] at ha)
  have h := h.inside false false (.ru1 _ false rfl rfl)
  have h := h.inside false false (.ru2 _ false rfl)
  have h := h.inside false false (.ru3 _ false rfl)
  have h := h.inside false false (.ru4 _ false rfl)
  have h := h.inside false false (.ru6 _ false rfl)
  have h := h.busy false (.readUnlockDone _ false false rfl rfl) (by only_t) (by simp [Sys.call, upd])
  have h := CReach.step _ _ h (.finish _ false true rfl rfl (fun e he => absurd he List.not_mem_nil))
  have h := h.writeCall true true rfl rfl rfl rfl rfl
  have h := h.inside true true (.wl1 _ true rfl rfl)
  have h := h.inside true true (.wl2 _ true rfl)
  have h := h.inside true true (.wl3 _ true rfl)
  have h := h.inside true true (.wl6 _ true rfl)
  have h := h.busy true (.writeLockDone _ true true rfl rfl) (by only_t) (by simp [Sys.call, upd])
  exact ⟨_, h, rfl, rfl, rfl⟩

end MVault.Mtx
