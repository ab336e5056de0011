import Verif.CopyLockModel
import Verif.PropsMutex
/-! Helpers for `PropsCopyLock.lean`: the copying system seen as the one-vault-at-a-time system of `PropsMutex.lean`, with the vaults under construction left out. -/
set_option linter.unusedSectionVars false
set_option linter.unusedSimpArgs false
set_option linter.unusedVariables false
namespace MVault.Mtx
variable {T : Type} [DecidableEq T] {M : Type} [DecidableEq M] {sp : Bool}

/-- The first lock taken, and the first write lock taken, are of `h`. -/
def Rooted (h : M) : List (Kind × M) → Prop
  | [] => True
  | (k, m) :: l => Rooted h l ∧ ((l = [] ∨ (k = .W ∧ nW l = 0)) → m = h)

/-- What a thread is doing with a vault it is constructing. -/
inductive Stage | rest | rel | wl | got | wu | re deriving DecidableEq

/-- The fields of the mutex of a vault that only `t` can reach, as a function of what `t` is doing with it. -/
def want (t : T) : Stage → Pc → Option (Option T × Option T × Int × Bool)
  | .rest, .idle => some (none, none, 0, false)
  | .rest, .reading => some (none, none, 0, false)
  | .rel, .ru1 => some (none, none, 0, false)
  | .rel, .ru2 => some (none, some t, 0, false)
  | .rel, .ru3 => some (none, some t, -1, false)
  | .rel, .ru6 => some (none, some t, -1, false)
  | .rel, .idle => some (none, none, -1, false)
  | .wl, .wl1 => some (none, none, -1, false)
  | .wl, .wl2 => some (some t, none, -1, false)
  | .wl, .wl3 => some (some t, none, -1, true)
  | .wl, .wl6 => some (some t, none, -1, true)
  | .wl, .writing => some (some t, none, -1, false)
  | .got, .writing => some (some t, none, -1, false)
  | .wu, .wu1 => some (some t, none, -1, false)
  | .wu, .idle => some (none, none, -1, false)
  | .re, .rl1 => some (none, none, -1, false)
  | .re, .rl2 => some (some t, none, -1, false)
  | .re, .rl3 => some (some t, some t, -1, false)
  | .re, .rl4 => some (some t, some t, 0, false)
  | .re, .rl5 => some (some t, none, 0, false)
  | .re, .reading => some (none, none, 0, false)
  | _, _ => none

/-- The mutex of the first write lock taken. -/
def rootW : List (Kind × M) → Option M
  | [] => none
  | (k, m) :: l => match rootW l with
    | some x => some x
    | none => if k = .W then some m else none

def stageOf (j : Job M) (l : List (Kind × M)) (p : M) : Stage :=
  if j = .wlRelease p then .rel else if j = .wl p then .wl else if j = .wuRelease p then .wu else if j = .wuReacquire p then .re
  else if rootW l = some p then .got else .rest

def PrivOk (i : Inner T) (t : T) (g : Stage) : Prop :=
  want t g (i.pc t) = some (i.wOwn, i.rOwn, i.cnt, i.flag) ∧ ∀ u, u ≠ t → i.pc u = .idle

theorem PrivOk.istep {i i' : Inner T} {t u : T} {g : Stage} (h : PrivOk i t g) (hi : IStep sp i u i') : u = t ∧ PrivOk i' t g := by
  have hu : u = t := by
    refine Decidable.byContradiction fun hne => ?_
    have h2 := h.2 u hne
    cases hi <;> simp_all
  subst hu
  refine ⟨rfl, ?_⟩
  obtain ⟨h1, h2⟩ := h
  cases hi <;> rename_i hp <;> (try rename_i hp' ) <;> cases g <;> simp_all [want, PrivOk, Inner.goto, upd, Inner.notify]
  · exact ⟨by rw [← h1.1, ← h1.2.1], by omega⟩
  · omega
  · rw [if_neg (by omega)]
  · rw [if_neg (by omega)]

/-- A thread that is doing something with a vault under construction does not have to wait. -/
theorem PrivOk.go {i : Inner T} {t : T} {g : Stage} (h : PrivOk i t g) (hg : g ≠ .rest ∧ g ≠ .got) :
    (∃ i', IStep false i t i') ∨ i.pc t = .idle ∨ i.pc t = .writing ∨ i.pc t = .reading := by
  obtain ⟨h1, -⟩ := h
  cases hp : i.pc t with
  | idle => simp
  | reading => simp
  | writing => simp
  | rl1 => left; exact ⟨_, .rl1 _ _ hp (by cases g <;> simp_all [want])⟩
  | rl2 => left; exact ⟨_, .rl2 _ _ hp (by cases g <;> simp_all [want])⟩
  | rl3 => left; exact ⟨_, .rl3 _ _ hp⟩
  | rl4 => left; exact ⟨_, .rl4 _ _ hp⟩
  | rl5 => left; exact ⟨_, .rl5 _ _ hp⟩
  | ru1 => left; exact ⟨_, .ru1 _ _ hp (by rw [hp] at h1; cases g <;> simp [want] at h1; exact h1.2.1.symm)⟩
  | ru2 => left; exact ⟨_, .ru2 _ _ hp⟩
  | ru3 => left; exact ⟨_, .ru3 _ _ hp⟩
  | ru4 => left; exact ⟨_, .ru4 _ _ hp⟩
  | ru5 => left; exact ⟨_, .ru5 _ _ hp⟩
  | ru6 => left; exact ⟨_, .ru6 _ _ hp⟩
  | wl1 => left; exact ⟨_, .wl1 _ _ hp (by cases g <;> simp_all [want])⟩
  | wl2 => left; exact ⟨_, .wl2 _ _ hp⟩
  | wl3 => left; exact ⟨_, .wl3 _ _ hp⟩
  | wl4 => cases g <;> simp_all [want]
  | wl5 => cases g <;> simp_all [want]
  | wl6 => left; exact ⟨_, .wl6 _ _ hp⟩
  | wu1 => left; exact ⟨_, .wu1 _ _ hp⟩

/-- How thread `t` of the copying system `s` looks in the system `s0` without the vaults under construction. -/
inductive TEra (s s0 : Sys M T) (own : M → Own T) (t : T) : Prop
  | home (h : M) : s0.stack t = (s.stack t).map (fun e => (e.1, h)) → Rooted h (s.stack t) → s0.lr t = s.lr t → s0.lw t = s.lw t →
      s0.job t = s.job t → (∀ m, (s.job t).mtx = some m → m = h) → (s.stack t ≠ [] ∨ s.job t ≠ .free → own h = .shared) → TEra s s0 own t
  | fresh (h p : M) (pr base : List (Kind × M)) : own h = .shared → own p = .of t → base ≠ [] → nW base = 0 → Rooted h base →
      s.stack t = pr ++ base → s0.stack t = base.map (fun e => (e.1, h)) → s0.lr t = s.lr t → s0.lw t = 0 → s.lw t = nW pr → s0.job t = .free →
      ((s.job t = .wlRelease p ∧ pr = []) ∨ (s.job t = .wl p ∧ pr = []) ∨ (s.job t = .free ∧ pr.getLast? = some (.W, p)) ∨
        (s.job t = .wuRelease p ∧ pr = [(.W, p)]) ∨ (s.job t = .wuReacquire p ∧ pr = [(.W, p)])) → TEra s s0 own t

structure Era (c : CSys M T) (s0 : Sys M T) : Prop where
  inn : ∀ m, c.own m = .shared → s0.inner m = c.sys.inner m
  inn0 : ∀ m, c.own m ≠ .shared → s0.inner m = Inner.init T
  unborn : ∀ m, c.own m = .unborn → c.sys.inner m = Inner.init T
  thr : ∀ t, TEra c.sys s0 c.own t
  priv : ∀ t p, c.own p = .of t → PrivOk (c.sys.inner p) t (stageOf (c.sys.job t) (c.sys.stack t) p)

theorem Era.one [Nonempty M] {c : CSys M T} {s0 : Sys M T} (h : Era c s0) : OneMutex s0 := by
  intro t
  obtain ⟨m0⟩ := ‹Nonempty M›
  cases h.thr t with
  | home h h1 h2 h3 h4 h5 h6 h7 =>
    refine ⟨h, ?_, ?_⟩
    · rw [h1]; intro e he; obtain ⟨x, _, rfl⟩ := List.mem_map.1 he; rfl
    · rw [h5]; exact h6
  | fresh h p pr base h1 h2 h3 h4 h5 h6 h7 h8 h9 h10 h11 h12 =>
    refine ⟨h, ?_, ?_⟩
    · rw [h7]; intro e he; obtain ⟨x, _, rfl⟩ := List.mem_map.1 he; rfl
    · rw [h11]; simp [Job.mtx]

theorem nW_map (h : M) (l : List (Kind × M)) : nW (l.map (fun e => (e.1, h))) = nW l := by
  induction l with
  | nil => rfl
  | cons e l ih => obtain ⟨k, m⟩ := e; cases k <;> simp [nW, ih]

theorem outerR_map (h : M) (l : List (Kind × M)) : outerR (l.map (fun e => (e.1, h))) = outerR l := by
  induction l with
  | nil => rfl
  | cons e l ih => obtain ⟨k, m⟩ := e; cases k <;> simp [outerR, ih, nW_map]

theorem nW_append (a b : List (Kind × M)) : nW (a ++ b) = nW a + nW b := by
  induction a with
  | nil => simp [nW]
  | cons e l ih => obtain ⟨k, m⟩ := e; cases k <;> simp [nW, ih]; omega

theorem outerR_pos {l : List (Kind × M)} (h : nW l = 0) (hl : l ≠ []) : outerR l > 0 := by
  rcases Nat.eq_zero_or_pos (outerR l) with h0 | h0
  · exact absurd (stack_nil h h0) hl
  · exact h0

theorem nW_ne {l : List (Kind × M)} : nW l ≠ 0 ↔ ∃ e ∈ l, e.1 = .W := by
  induction l with
  | nil => simp [nW]
  | cons e l ih => obtain ⟨k, m⟩ := e; cases k <;> simp [nW]; simpa using ih

theorem rootW_none {l : List (Kind × M)} : rootW l = none ↔ nW l = 0 := by
  induction l with
  | nil => simp [rootW, nW]
  | cons e l ih =>
    obtain ⟨k, m⟩ := e
    cases k <;> simp only [rootW, nW] <;> cases hr : rootW l <;> simp_all

theorem rootW_append (a b : List (Kind × M)) (h : nW b = 0) : rootW (a ++ b) = rootW a := by
  induction a with
  | nil => simpa [rootW] using rootW_none.2 h
  | cons e l ih => obtain ⟨k, m⟩ := e; simp only [List.cons_append, rootW, ih]

theorem rootW_rooted {h : M} {l : List (Kind × M)} (hr : Rooted h l) {p : M} (hp : rootW l = some p) : p = h := by
  induction l with
  | nil => simp [rootW] at hp
  | cons e l ih =>
    obtain ⟨k, m⟩ := e
    simp only [Rooted] at hr
    simp only [rootW] at hp
    cases hl : rootW l with
    | some x => rw [hl] at hp; simp at hp; subst hp; exact ih hr.1 hl
    | none =>
      rw [hl] at hp
      cases k with
      | R => simp at hp
      | W => simp at hp; subst hp; exact hr.2 (Or.inr ⟨rfl, rootW_none.1 hl⟩)

theorem Rooted.last {h : M} {l : List (Kind × M)} (hr : Rooted h l) {x : M} (hx : l.getLast?.map Prod.snd = some x) : x = h := by
  induction l with
  | nil => simp at hx
  | cons e l ih =>
    obtain ⟨k, m⟩ := e
    cases l with
    | nil => simp at hx; subst hx; exact hr.2 (Or.inl rfl)
    | cons e' l' => rw [List.getLast?_cons_cons] at hx; exact ih hr.1 hx

theorem rootW_last {pr : List (Kind × M)} {p : M} (h : pr.getLast? = some (.W, p)) : rootW pr = some p := by
  induction pr with
  | nil => simp at h
  | cons e l ih =>
    obtain ⟨k, m⟩ := e
    cases l with
    | nil => simp at h; obtain ⟨rfl, rfl⟩ := h; simp [rootW]
    | cons e' l' => rw [List.getLast?_cons_cons] at h; rw [rootW, ih h]

theorem home_rest {own : M → Own T} {h p : M} {l : List (Kind × M)} {j : Job M} (hr : Rooted h l) (hj : ∀ m, j.mtx = some m → m = h)
    (ho : l ≠ [] ∨ j ≠ .free → own h = .shared) (hp : own p ≠ .shared) : stageOf j l p = .rest := by
  have hjp : j.mtx ≠ some p := by
    intro e
    have := hj p e
    subst this
    exact hp (ho (Or.inr (by rintro rfl; simp [Job.mtx] at e)))
  have hrp : rootW l ≠ some p := by
    intro e
    have := rootW_rooted hr e
    subst this
    exact hp (ho (Or.inl (by rintro rfl; simp [rootW] at e)))
  unfold stageOf
  rw [if_neg (by rintro rfl; simp [Job.mtx] at hjp), if_neg (by rintro rfl; simp [Job.mtx] at hjp), if_neg (by rintro rfl; simp [Job.mtx] at hjp),
    if_neg (by rintro rfl; simp [Job.mtx] at hjp), if_neg hrp]

theorem fresh_rest {p q : M} (hq : q ≠ p) {pr base : List (Kind × M)} {j : Job M} (hb : nW base = 0)
    (hj : (j = .wlRelease p ∧ pr = []) ∨ (j = .wl p ∧ pr = []) ∨ (j = .free ∧ pr.getLast? = some (.W, p)) ∨ (j = .wuRelease p ∧ pr = [(.W, p)]) ∨
      (j = .wuReacquire p ∧ pr = [(.W, p)])) : stageOf j (pr ++ base) q = .rest := by
  have hq' : p ≠ q := fun e => hq e.symm
  have hr : rootW (pr ++ base) ≠ some q := by
    rw [rootW_append _ _ hb]
    rcases hj with ⟨-, rfl⟩ | ⟨-, rfl⟩ | ⟨-, h⟩ | ⟨-, rfl⟩ | ⟨-, rfl⟩
    · simp [rootW]
    · simp [rootW]
    · rw [rootW_last h]; simpa using hq'
    · simpa [rootW] using hq'
    · simpa [rootW] using hq'
  unfold stageOf
  rcases hj with ⟨rfl, _⟩ | ⟨rfl, _⟩ | ⟨rfl, _⟩ | ⟨rfl, _⟩ | ⟨rfl, _⟩ <;> simp [hq', hr]

/-- A thread whose own components did not change looks the same. -/
theorem TEra.frame {s s' s0 s0' : Sys M T} {own : M → Own T} {u : T} (h : TEra s s0 own u) (a1 : s'.stack u = s.stack u) (a2 : s'.lr u = s.lr u)
    (a3 : s'.lw u = s.lw u) (a4 : s'.job u = s.job u) (b1 : s0'.stack u = s0.stack u) (b2 : s0'.lr u = s0.lr u) (b3 : s0'.lw u = s0.lw u)
    (b4 : s0'.job u = s0.job u) : TEra s' s0' own u := by
  cases h with
  | home h h1 h2 h3 h4 h5 h6 h7 =>
    exact .home h (by rw [a1, b1]; exact h1) (by rw [a1]; exact h2) (by rw [a2, b2]; exact h3) (by rw [a3, b3]; exact h4) (by rw [a4, b4]; exact h5)
      (by rw [a4]; exact h6) (by rw [a1, a4]; exact h7)
  | fresh h p pr base h1 h2 h3 h4 h5 h6 h7 h8 h9 h10 h11 h12 =>
    exact .fresh h p pr base h1 h2 h3 h4 h5 (by rw [a1]; exact h6) (by rw [b1]; exact h7) (by rw [a2, b2]; exact h8) (by rw [b3]; exact h9)
      (by rw [a3]; exact h10) (by rw [b4]; exact h11) (by rw [a4]; exact h12)

/-- Only thread `t` changed. -/
structure OnlyT (t : T) (s s' : Sys M T) : Prop where
  stack : ∀ u, u ≠ t → s'.stack u = s.stack u
  lr : ∀ u, u ≠ t → s'.lr u = s.lr u
  lw : ∀ u, u ≠ t → s'.lw u = s.lw u
  job : ∀ u, u ≠ t → s'.job u = s.job u

theorem OnlyT.refl (t : T) (s : Sys M T) : OnlyT t s s := ⟨fun _ _ => rfl, fun _ _ => rfl, fun _ _ => rfl, fun _ _ => rfl⟩

theorem era_home {c : CSys M T} {s0 s' s0' : Sys M T} (h : Era c s0) (t : T) (o : OnlyT t c.sys s') (o0 : OnlyT t s0 s0')
    (hr : ∀ p, c.own p ≠ .shared → stageOf (c.sys.job t) (c.sys.stack t) p = .rest)
    (hr' : ∀ p, c.own p ≠ .shared → stageOf (s'.job t) (s'.stack t) p = .rest)
    (hin : ∀ m, c.own m ≠ .shared → s'.inner m = c.sys.inner m) (hin0 : ∀ m, c.own m ≠ .shared → s0'.inner m = s0.inner m)
    (heq : ∀ m, c.own m = .shared → s0'.inner m = s'.inner m) (ht : TEra s' s0' c.own t) : Era { c with sys := s' } s0' where
  inn := heq
  inn0 := fun m hm => by rw [hin0 m hm]; exact h.inn0 m hm
  unborn := fun m hm => by
    show s'.inner m = _
    rw [hin m (by rw [hm]; simp)]; exact h.unborn m hm
  thr := fun u => by
    by_cases e : u = t
    · subst e; exact ht
    · exact (h.thr u).frame (o.stack u e) (o.lr u e) (o.lw u e) (o.job u e) (o0.stack u e) (o0.lr u e) (o0.lw u e) (o0.job u e)
  priv := fun u p hp => by
    have hns : c.own p ≠ .shared := by rw [show c.own p = .of u from hp]; simp
    show PrivOk (s'.inner p) u (stageOf (s'.job u) (s'.stack u) p)
    rw [hin p hns]
    have := h.priv u p hp
    by_cases e : u = t
    · subst e; rw [hr' p hns]; rwa [hr p hns] at this
    · rw [o.stack u e, o.job u e]; exact this

theorem era_fresh {c : CSys M T} {s0 s' : Sys M T} (h : Era c s0) (t : T) (p : M) (hp : c.own p = .of t) (o : OnlyT t c.sys s')
    (hr : ∀ q, q ≠ p → c.own q ≠ .shared → stageOf (c.sys.job t) (c.sys.stack t) q = .rest)
    (hr' : ∀ q, q ≠ p → c.own q ≠ .shared → stageOf (s'.job t) (s'.stack t) q = .rest)
    (hin : ∀ m, m ≠ p → s'.inner m = c.sys.inner m) (hpv : PrivOk (s'.inner p) t (stageOf (s'.job t) (s'.stack t) p))
    (ht : TEra s' s0 c.own t) : Era { c with sys := s' } s0 where
  inn := fun m hm => by
    show s0.inner m = s'.inner m
    rw [hin m (by rintro rfl; rw [show c.own m = .shared from hm] at hp; simp at hp)]; exact h.inn m hm
  inn0 := h.inn0
  unborn := fun m hm => by
    show s'.inner m = _
    rw [hin m (by rintro rfl; rw [show c.own m = .unborn from hm] at hp; simp at hp)]; exact h.unborn m hm
  thr := fun u => by
    by_cases e : u = t
    · subst e; exact ht
    · exact (h.thr u).frame (o.stack u e) (o.lr u e) (o.lw u e) (o.job u e) rfl rfl rfl rfl
  priv := fun u q hq => by
    have hns : c.own q ≠ .shared := by rw [show c.own q = .of u from hq]; simp
    show PrivOk (s'.inner q) u (stageOf (s'.job u) (s'.stack u) q)
    by_cases eq : q = p
    · subst eq
      have : u = t := by rw [show c.own q = .of u from hq] at hp; simpa using hp
      subst this; exact hpv
    · rw [hin q eq]
      have := h.priv u q hq
      by_cases e : u = t
      · subst e; rw [hr' q eq hns]; rwa [hr q eq hns] at this
      · rw [o.stack u e, o.job u e]; exact this

end MVault.Mtx
