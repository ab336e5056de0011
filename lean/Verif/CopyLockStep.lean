import Verif.CopyLockLemmas
/-! Helpers for `PropsCopyLock.lean`: every step of the copying system is a step, or none, of the system without the vaults under construction. -/
set_option linter.unusedSectionVars false
set_option linter.unusedSimpArgs false
set_option linter.unusedVariables false
namespace MVault.Mtx
variable {T : Type} [DecidableEq T] {M : Type} [DecidableEq M] {sp : Bool}

theorem SInv.counts {s0 : Sys M T} (hi : SInv sp s0) (t : T) : s0.lw t = nW (s0.stack t) ∧ s0.lr t = outerR (s0.stack t) := by
  obtain ⟨m, -, -, h3, h4, -⟩ := hi.thr t
  exact ⟨h3, h4⟩

macro "only_t" : tactic => `(tactic| (constructor <;> intro u e <;> (try simp only []) <;> (try split) <;> simp [Sys.call, upd, e]))

theorem nW_last {pr : List (Kind × M)} {p : M} (h : pr.getLast? = some (.W, p)) : nW pr ≠ 0 := by
  rw [nW_ne]; exact ⟨_, List.mem_of_getLast? h, rfl⟩

/-- Starting a call on a shared mutex in both systems. -/
theorem call_pair {c : CSys M T} {s0 : Sys M T} (h : Era c s0) (t : T) (m : M) (hm : c.own m = .shared) (q : Pc) (j : Job M) :
    (∀ x, c.own x ≠ .shared → (c.sys.call t m q j).inner x = c.sys.inner x) ∧ (∀ x, c.own x ≠ .shared → (s0.call t m q j).inner x = s0.inner x) ∧
      (∀ x, c.own x = .shared → (s0.call t m q j).inner x = (c.sys.call t m q j).inner x) := by
  refine ⟨fun x hx => ?_, fun x hx => ?_, fun x hx => ?_⟩
  · have : x ≠ m := by rintro rfl; exact hx hm
    simp [Sys.call, upd, this]
  · have : x ≠ m := by rintro rfl; exact hx hm
    simp [Sys.call, upd, this]
  · by_cases e : x = m
    · subst e; simp [Sys.call, upd, h.inn x hx]
    · simp [Sys.call, upd, e, h.inn x hx]

/-- The same call in both systems by a thread that is at home in `m`. -/
theorem home_call {c : CSys M T} {s0 : Sys M T} (h : Era c s0) (t : T) (m : M) (hm : c.own m = .shared) (q : Pc) (j : Job M) (hj : j.mtx = some m)
    (hr : ∀ p, c.own p ≠ .shared → stageOf (c.sys.job t) (c.sys.stack t) p = .rest)
    (h1 : s0.stack t = (c.sys.stack t).map (fun e => (e.1, m))) (h2 : Rooted m (c.sys.stack t)) (h3 : s0.lr t = c.sys.lr t) (h4 : s0.lw t = c.sys.lw t) :
    Era { c with sys := c.sys.call t m q j } (s0.call t m q j) := by
  obtain ⟨i1, i2, i3⟩ := call_pair h t m hm q j
  have hmt : ∀ x, ((c.sys.call t m q j).job t).mtx = some x → x = m := by
    intro x hx; simp only [Sys.call, upd_same, hj] at hx; simpa using hx.symm
  refine era_home h t (by only_t) (by only_t) hr (fun p hp => home_rest h2 hmt (fun _ => hm) hp) i1 i2 i3 ?_
  exact .home m h1 h2 h3 h4 (by simp [Sys.call, upd]) hmt (fun _ => hm)

theorem map_cons {h : M} {k : Kind} {m : M} {l : List (Kind × M)} :
    ((k, m) :: l).map (fun e => (e.1, h)) = (k, h) :: l.map (fun e => (e.1, h)) := rfl

/-- Counting locks above a write lock of a vault under construction changes nothing else. -/
theorem fresh_free {c : CSys M T} {s0 s' : Sys M T} (h : Era c s0) (t : T) (g p : M) (pr pr' base : List (Kind × M)) (h1 : c.own g = .shared) (h2 : c.own p = .of t)
    (h3 : base ≠ []) (h4 : nW base = 0) (h5 : Rooted g base) (h6 : c.sys.stack t = pr ++ base) (h7 : s0.stack t = base.map (fun e => (e.1, g)))
    (h8 : s0.lr t = c.sys.lr t) (h9 : s0.lw t = 0) (h11 : s0.job t = .free) (hj : c.sys.job t = .free) (hpr : pr.getLast? = some (.W, p))
    (hpr' : pr'.getLast? = some (.W, p)) (o : OnlyT t c.sys s') (hin : s'.inner = c.sys.inner) (hst : s'.stack t = pr' ++ base) (hlr : s'.lr t = c.sys.lr t)
    (hlw : s'.lw t = nW pr') (hjj : s'.job t = .free) : Era { c with sys := s' } s0 := by
  refine era_fresh h t p h2 o (fun q hq _ => by rw [h6]; exact fresh_rest hq h4 (Or.inr (Or.inr (Or.inl ⟨hj, hpr⟩)))) (fun q hq _ => ?_) (fun _ _ => by rw [hin]) ?_ ?_
  · rw [hst]; exact fresh_rest hq h4 (Or.inr (Or.inr (Or.inl ⟨hjj, hpr'⟩)))
  · have := h.priv t p h2
    rw [hin, hjj, hst]
    rw [hj, h6] at this
    simp only [stageOf] at this ⊢
    rw [rootW_append _ _ h4, rootW_last hpr] at this
    rw [rootW_append _ _ h4, rootW_last hpr']; exact this
  · exact .fresh g p pr' base h1 h2 h3 h4 h5 hst h7 (by rw [hlr]; exact h8) h9 hlw h11 (Or.inr (Or.inr (Or.inl ⟨hjj, hpr'⟩)))

/-- A step at home that leaves the inner mutexes alone. -/
theorem home_same {c : CSys M T} {s0 s' s0' : Sys M T} (h : Era c s0) (t : T) (g : M) (o : OnlyT t c.sys s') (o0 : OnlyT t s0 s0')
    (h2 : Rooted g (c.sys.stack t)) (h6 : ∀ m, (c.sys.job t).mtx = some m → m = g) (h7 : c.sys.stack t ≠ [] ∨ c.sys.job t ≠ .free → c.own g = .shared)
    (hin : s'.inner = c.sys.inner) (hin0 : s0'.inner = s0.inner)
    (k1 : s0'.stack t = (s'.stack t).map (fun e => (e.1, g))) (k2 : Rooted g (s'.stack t)) (k3 : s0'.lr t = s'.lr t) (k4 : s0'.lw t = s'.lw t)
    (k5 : s0'.job t = s'.job t) (k6 : ∀ m, (s'.job t).mtx = some m → m = g) (k7 : s'.stack t ≠ [] ∨ s'.job t ≠ .free → c.own g = .shared) :
    Era { c with sys := s' } s0' :=
  era_home h t o o0 (fun p hp => home_rest h2 h6 h7 hp) (fun p hp => home_rest k2 k6 k7 hp) (fun _ _ => by rw [hin]) (fun _ _ => by rw [hin0])
    (fun x hx => by rw [hin, hin0]; exact h.inn x hx) (.home g k1 k2 k3 k4 k5 k6 k7)

/-- A call on the mutex of a vault under construction. -/
theorem fresh_call {c : CSys M T} {s0 : Sys M T} (h : Era c s0) (t : T) (g p : M) (pr base : List (Kind × M)) (q : Pc) (j : Job M) (h1 : c.own g = .shared)
    (h2 : c.own p = .of t) (h3 : base ≠ []) (h4 : nW base = 0) (h5 : Rooted g base) (h6 : c.sys.stack t = pr ++ base)
    (h7 : s0.stack t = base.map (fun e => (e.1, g))) (h8 : s0.lr t = c.sys.lr t) (h9 : s0.lw t = 0) (h10 : c.sys.lw t = nW pr) (h11 : s0.job t = .free)
    (hr : ∀ q, q ≠ p → c.own q ≠ .shared → stageOf (c.sys.job t) (c.sys.stack t) q = .rest)
    (h12 : (j = .wlRelease p ∧ pr = []) ∨ (j = .wl p ∧ pr = []) ∨ (j = .wuRelease p ∧ pr = [(.W, p)]) ∨ (j = .wuReacquire p ∧ pr = [(.W, p)]))
    (hw : want t (stageOf j (c.sys.stack t) p) q = want t (stageOf (c.sys.job t) (c.sys.stack t) p) ((c.sys.inner p).pc t)) :
    Era { c with sys := c.sys.call t p q j } s0 := by
  have hj : (j = .wlRelease p ∧ pr = []) ∨ (j = .wl p ∧ pr = []) ∨ (j = .free ∧ pr.getLast? = some (.W, p)) ∨ (j = .wuRelease p ∧ pr = [(.W, p)]) ∨
      (j = .wuReacquire p ∧ pr = [(.W, p)]) := by
    rcases h12 with a | a | a | a
    · exact Or.inl a
    · exact Or.inr (Or.inl a)
    · exact Or.inr (Or.inr (Or.inr (Or.inl a)))
    · exact Or.inr (Or.inr (Or.inr (Or.inr a)))
  refine era_fresh h t p h2 (by only_t) hr (fun x hx _ => ?_) (fun x hx => by simp [Sys.call, upd, hx]) ?_ ?_
  · simp only [Sys.call, upd_same, h6]; exact fresh_rest hx h4 hj
  · obtain ⟨a, b⟩ := h.priv t p h2
    simp only [Sys.call, upd_same]
    refine ⟨?_, fun u hu => by simp [Inner.goto, upd, hu, b u hu]⟩
    simp only [Inner.goto, upd_same]
    rw [hw]; exact a
  · exact .fresh g p pr base h1 h2 h3 h4 h5 h6 h7 h8 h9 h10 h11 (by simpa only [Sys.call, upd_same] using hj)

theorem last_cons {e : Kind × M} {pr : List (Kind × M)} {p : M} (hpr : pr.getLast? = some (.W, p)) : (e :: pr).getLast? = some (.W, p) := by
  cases pr with
  | nil => simp at hpr
  | cons a b => rw [List.getLast?_cons_cons]; exact hpr

theorem Rooted.tail {g : M} {l : List (Kind × M)} (h : Rooted g l) : Rooted g l.tail := by
  cases l with
  | nil => trivial
  | cons e l => exact h.1

theorem Era.act [Nonempty M] {c : CSys M T} {s0 s' : Sys M T} (h : Era c s0) (hi : SInv sp s0) (hs : SStep sp c.sys s')
    (hm : ∀ t k m, Asks c.sys s' t k m → May c.own t (c.sys.stack t) k m) :
    ∃ s0', (s0' = s0 ∨ SStep sp s0 s0') ∧ Era { c with sys := s' } s0' := by
  cases hs with
  | readLockFast t m hj hc =>
    obtain ⟨e1, e2⟩ := hi.counts t
    cases h.thr t with
    | home g h1 h2 h3 h4 h5 h6 h7 =>
      rw [h1, nW_map] at e1; rw [h1, outerR_map] at e2
      have hl : c.sys.stack t ≠ [] := by
        intro hl; rw [hl] at e1 e2; simp [nW, outerR] at e1 e2; rw [← h4, ← h3, e1, e2] at hc; simp at hc
      have hR : Rooted g ((Kind.R, m) :: c.sys.stack t) := ⟨h2, by simp [hl]⟩
      refine ⟨_, Or.inr (.readLockFast s0 t g (by rw [h5]; exact hj) (by rw [h3, h4]; exact hc)), ?_⟩
      refine home_same h t g (by only_t) (by only_t) h2 h6 h7 rfl rfl (by simp [upd_same, h1]) (by simpa only [upd_same] using hR) ?_ h4 h5 h6
        (fun _ => h7 (Or.inl hl))
      simp only [h3, h4]; split <;> simp [upd, h3]
    | fresh g p pr base h1 h2 h3 h4 h5 h6 h7 h8 h9 h10 h11 h12 =>
      have hpr : pr.getLast? = some (.W, p) := by rw [hj] at h12; simpa using h12
      have hlw : c.sys.lw t ≠ 0 := by rw [h10]; exact nW_last hpr
      refine ⟨s0, Or.inl rfl, fresh_free h t g p pr ((.R, m) :: pr) base h1 h2 h3 h4 h5 h6 h7 h8 h9 h11 hj hpr (last_cons hpr) (by only_t) rfl
        (by simp [upd_same, h6]) (by simp only [if_neg hlw]) (by simp only [nW]; exact h10) hj⟩
  | readLockCall t m hj hw hr =>
    obtain ⟨e1, e2⟩ := hi.counts t
    cases h.thr t with
    | home g h1 h2 h3 h4 h5 h6 h7 =>
      rw [h1, nW_map] at e1; rw [h1, outerR_map] at e2
      have hl : c.sys.stack t = [] := stack_nil (by rw [← e1, h4, hw]) (by rw [← e2, h3, hr])
      have hsh : c.own m = .shared := by
        have := hm t .R m ⟨hj, Or.inr (Or.inl ⟨rfl, by simp [Sys.call, upd]⟩)⟩
        rw [hl] at this; simpa [May] using this
      refine ⟨_, Or.inr (.readLockCall s0 t m (by rw [h5]; exact hj) (by rw [h4]; exact hw) (by rw [h3]; exact hr)), ?_⟩
      exact home_call h t m hsh _ _ rfl (fun p hp => home_rest h2 h6 h7 hp) (by rw [h1, hl]; rfl) (by rw [hl]; trivial) h3 h4
    | fresh g p pr base h1 h2 h3 h4 h5 h6 h7 h8 h9 h10 h11 h12 =>
      rw [hj] at h12
      have hpr : pr.getLast? = some (.W, p) := by simpa using h12
      exact absurd (h10 ▸ hw) (nW_last hpr)
  | readLockDone t m hj hp =>
    cases h.thr t with
    | home g h1 h2 h3 h4 h5 h6 h7 =>
      have hg : m = g := h6 m (by rw [hj]; rfl)
      subst hg
      have hsh := h7 (Or.inr (by rw [hj]; simp))
      refine ⟨_, Or.inr (.readLockDone s0 t m (by rw [h5]; exact hj) (by rw [h.inn m hsh]; exact hp)), ?_⟩
      exact home_same h t m (by only_t) (by only_t) h2 h6 h7 rfl rfl (by simp [upd_same, h1]) (by simp only [upd_same]; exact ⟨h2, fun _ => rfl⟩)
        (by simp [upd_same, h3]) h4 (by simp [upd_same]) (by simp [upd_same, Job.mtx]) (fun _ => hsh)
    | fresh g p pr base h1 h2 h3 h4 h5 h6 h7 h8 h9 h10 h11 h12 => rw [hj] at h12; simp at h12
  | readUnlockFast t m rest hj hl hc =>
    cases h.thr t with
    | home g h1 h2 h3 h4 h5 h6 h7 =>
      rw [hl] at h1
      refine ⟨_, Or.inr (.readUnlockFast s0 t g _ (by rw [h5]; exact hj) h1 (by rw [h3, h4]; exact hc)), ?_⟩
      refine home_same h t g (by only_t) (by only_t) h2 h6 h7 rfl rfl (by simp [upd_same]) (by simp only [upd_same]; rw [hl] at h2; exact h2.1) ?_ h4 h5 h6
        (fun _ => h7 (Or.inl (by rw [hl]; simp)))
      simp only [h3, h4]; split <;> simp [upd, h3]
    | fresh g p pr base h1 h2 h3 h4 h5 h6 h7 h8 h9 h10 h11 h12 =>
      have hpr : pr.getLast? = some (.W, p) := by rw [hj] at h12; simpa using h12
      have hlw : c.sys.lw t ≠ 0 := by rw [h10]; exact nW_last hpr
      cases pr with
      | nil => simp at hpr
      | cons e pr' =>
        rw [h6] at hl
        simp only [List.cons_append, List.cons.injEq] at hl
        obtain ⟨rfl, rfl⟩ := hl
        have hpr' : pr'.getLast? = some (.W, p) := by
          cases pr' with
          | nil => simp at hpr
          | cons a b => rw [List.getLast?_cons_cons] at hpr; exact hpr
        refine ⟨s0, Or.inl rfl, fresh_free h t g p _ pr' base h1 h2 h3 h4 h5 h6 h7 h8 h9 h11 hj hpr hpr' (by only_t) rfl
          (by simp [upd_same]) (by simp only [if_neg hlw]) (by rw [h10]; rfl) hj⟩
  | readUnlockCall t m rest hj hl hw hr =>
    obtain ⟨e1, e2⟩ := hi.counts t
    cases h.thr t with
    | home g h1 h2 h3 h4 h5 h6 h7 =>
      rw [h1, nW_map, h4, hw, hl] at e1; rw [h1, outerR_map, h3, hr, hl] at e2
      have hrest : rest = [] := stack_one e1.symm e2.symm
      subst hrest
      have hg : m = g := by rw [hl] at h2; exact h2.2 (Or.inl rfl)
      subst hg
      have hsh := h7 (Or.inl (by rw [hl]; simp))
      refine ⟨_, Or.inr (.readUnlockCall s0 t m [] (by rw [h5]; exact hj) (by rw [h1, hl]; rfl) (by rw [h4]; exact hw) (by rw [h3]; exact hr)), ?_⟩
      exact home_call h t m hsh _ _ rfl (fun p hp => home_rest h2 h6 h7 hp) h1 h2 h3 h4
    | fresh g p pr base h1 h2 h3 h4 h5 h6 h7 h8 h9 h10 h11 h12 =>
      rw [hj] at h12
      have hpr : pr.getLast? = some (.W, p) := by simpa using h12
      exact absurd (h10 ▸ hw) (nW_last hpr)
  | readUnlockDone t m hj hp =>
    cases h.thr t with
    | home g h1 h2 h3 h4 h5 h6 h7 =>
      have hg : m = g := h6 m (by rw [hj]; rfl)
      subst hg
      have hsh := h7 (Or.inr (by rw [hj]; simp))
      refine ⟨_, Or.inr (.readUnlockDone s0 t m (by rw [h5]; exact hj) (by rw [h.inn m hsh]; exact hp)), ?_⟩
      exact home_same h t m (by only_t) (by only_t) h2 h6 h7 rfl rfl (by simp [upd_same, h1]) (by simp only [upd_same]; exact h2.tail)
        (by simp [upd_same, h3]) h4 (by simp [upd_same]) (by simp [upd_same, Job.mtx]) (fun _ => hsh)
    | fresh g p pr base h1 h2 h3 h4 h5 h6 h7 h8 h9 h10 h11 h12 => rw [hj] at h12; simp at h12
  | writeLockFast t m hj hw =>
    obtain ⟨e1, e2⟩ := hi.counts t
    cases h.thr t with
    | home g h1 h2 h3 h4 h5 h6 h7 =>
      rw [h1, nW_map, h4] at e1
      have hl : c.sys.stack t ≠ [] := by intro hl; rw [hl] at e1; exact hw e1
      refine ⟨_, Or.inr (.writeLockFast s0 t g (by rw [h5]; exact hj) (by rw [h4]; exact hw)), ?_⟩
      exact home_same h t g (by only_t) (by only_t) h2 h6 h7 rfl rfl (by simp [upd_same, h1])
        (by simp only [upd_same]; exact ⟨h2, by rintro (a | ⟨-, a⟩); exact absurd a hl; exact absurd (e1.trans a) hw⟩) h3 (by simp [upd_same, h4]) h5 h6
        (fun _ => h7 (Or.inl hl))
    | fresh g p pr base h1 h2 h3 h4 h5 h6 h7 h8 h9 h10 h11 h12 =>
      have hpr : pr.getLast? = some (.W, p) := by rw [hj] at h12; simpa using h12
      exact ⟨s0, Or.inl rfl, fresh_free h t g p pr ((.W, m) :: pr) base h1 h2 h3 h4 h5 h6 h7 h8 h9 h11 hj hpr (last_cons hpr) (by only_t) rfl
        (by simp [upd_same, h6]) rfl (by simp [upd_same, nW, h10]) hj⟩
  | writeLockUpgrade t m hj hw hr =>
    obtain ⟨e1, e2⟩ := hi.counts t
    cases h.thr t with
    | home g h1 h2 h3 h4 h5 h6 h7 =>
      rw [h1, nW_map, h4, hw] at e1; rw [h1, outerR_map, h3] at e2
      have hl : c.sys.stack t ≠ [] := by intro hl; rw [hl] at e2; simp [outerR] at e2; omega
      have hsh := h7 (Or.inl hl)
      have hnw : ¬ ∃ e ∈ c.sys.stack t, e.1 = Kind.W := by rw [← nW_ne]; simp [← e1]
      have hmay := hm t .W m ⟨hj, Or.inr (Or.inr ⟨rfl, Or.inr (by simp [Sys.call, upd])⟩)⟩
      rcases hmay with a | ⟨-, a⟩ | ⟨a, -⟩ | ⟨-, a⟩ | ⟨-, -, a⟩
      · exact absurd a hnw
      · cases a
      · exact absurd a hl
      · have hg := h2.last a
        subst hg
        refine ⟨_, Or.inr (.writeLockUpgrade s0 t m (by rw [h5]; exact hj) (by rw [h4]; exact hw) (by rw [h3]; exact hr)), ?_⟩
        exact home_call h t m hsh _ _ rfl (fun p hp => home_rest h2 h6 h7 hp) h1 h2 h3 h4
      · refine ⟨s0, Or.inl rfl, fresh_call h t g m [] (c.sys.stack t) _ _ hsh a hl e1.symm h2 rfl h1 h3 (by rw [h4]; exact hw) hw (by rw [h5]; exact hj)
          (fun q _ hq => home_rest h2 h6 h7 hq) (Or.inl ⟨rfl, rfl⟩) ?_⟩
        have hrest := home_rest h2 h6 h7 (p := m) (by rw [a]; simp)
        have hpv := (h.priv t m a).1
        rw [hrest] at hpv ⊢
        have hst : stageOf (.wlRelease m) (c.sys.stack t) m = .rel := by simp [stageOf]
        rw [hst]
        cases hpc : (c.sys.inner m).pc t <;> rw [hpc] at hpv <;> simp [want] at hpv ⊢
    | fresh g p pr base h1 h2 h3 h4 h5 h6 h7 h8 h9 h10 h11 h12 =>
      rw [hj] at h12
      have hpr : pr.getLast? = some (.W, p) := by simpa using h12
      exact absurd (h10 ▸ hw) (nW_last hpr)
  | writeLockUpgraded t m hj hp =>
    cases h.thr t with
    | home g h1 h2 h3 h4 h5 h6 h7 =>
      have hg : m = g := h6 m (by rw [hj]; rfl)
      subst hg
      have hsh := h7 (Or.inr (by rw [hj]; simp))
      refine ⟨_, Or.inr (.writeLockUpgraded s0 t m (by rw [h5]; exact hj) (by rw [h.inn m hsh]; exact hp)), ?_⟩
      exact home_call h t m hsh _ _ rfl (fun p hp => home_rest h2 h6 h7 hp) h1 h2 h3 h4
    | fresh g p pr base h1 h2 h3 h4 h5 h6 h7 h8 h9 h10 h11 h12 =>
      have h12' := h12
      rw [hj] at h12'
      simp at h12'
      obtain ⟨rfl, rfl⟩ := h12'
      refine ⟨s0, Or.inl rfl, fresh_call h t g m [] base _ _ h1 h2 h3 h4 h5 h6 h7 h8 h9 h10 h11 (fun q hq _ => by rw [h6]; exact fresh_rest hq h4 h12)
        (Or.inr (Or.inl ⟨rfl, rfl⟩)) ?_⟩
      rw [hj, hp]; simp [stageOf, want]
  | writeLockCall t m hj hw hr =>
    obtain ⟨e1, e2⟩ := hi.counts t
    cases h.thr t with
    | home g h1 h2 h3 h4 h5 h6 h7 =>
      rw [h1, nW_map] at e1; rw [h1, outerR_map] at e2
      have hl : c.sys.stack t = [] := stack_nil (by rw [← e1, h4, hw]) (by rw [← e2, h3, hr])
      have hsh : c.own m = .shared := by
        have := hm t .W m ⟨hj, Or.inr (Or.inr ⟨rfl, Or.inl (by simp [Sys.call, upd])⟩)⟩
        rw [hl] at this; simpa [May] using this
      refine ⟨_, Or.inr (.writeLockCall s0 t m (by rw [h5]; exact hj) (by rw [h4]; exact hw) (by rw [h3]; exact hr)), ?_⟩
      exact home_call h t m hsh _ _ rfl (fun p hp => home_rest h2 h6 h7 hp) (by rw [h1, hl]; rfl) (by rw [hl]; trivial) h3 h4
    | fresh g p pr base h1 h2 h3 h4 h5 h6 h7 h8 h9 h10 h11 h12 =>
      rw [hj] at h12
      have hpr : pr.getLast? = some (.W, p) := by simpa using h12
      exact absurd (h10 ▸ hw) (nW_last hpr)
  | writeLockDone t m hj hp =>
    cases h.thr t with
    | home g h1 h2 h3 h4 h5 h6 h7 =>
      have hg : m = g := h6 m (by rw [hj]; rfl)
      subst hg
      have hsh := h7 (Or.inr (by rw [hj]; simp))
      refine ⟨_, Or.inr (.writeLockDone s0 t m (by rw [h5]; exact hj) (by rw [h.inn m hsh]; exact hp)), ?_⟩
      exact home_same h t m (by only_t) (by only_t) h2 h6 h7 rfl rfl (by simp [upd_same, h1]) (by simp only [upd_same]; exact ⟨h2, fun _ => rfl⟩)
        h3 (by simp [upd_same, h4]) (by simp [upd_same]) (by simp [upd_same, Job.mtx]) (fun _ => hsh)
    | fresh g p pr base h1 h2 h3 h4 h5 h6 h7 h8 h9 h10 h11 h12 =>
      have h12' := h12
      rw [hj] at h12'
      simp at h12'
      obtain ⟨rfl, rfl⟩ := h12'
      have hd : ∀ (j : Job M), j = .free → (j = .wlRelease m ∧ [((Kind.W, m) : Kind × M)] = []) ∨ (j = .wl m ∧ [((Kind.W, m) : Kind × M)] = []) ∨
          (j = .free ∧ [((Kind.W, m) : Kind × M)].getLast? = some (.W, m)) ∨ (j = .wuRelease m ∧ [((Kind.W, m) : Kind × M)] = [(.W, m)]) ∨
          (j = .wuReacquire m ∧ [((Kind.W, m) : Kind × M)] = [(.W, m)]) := fun j e => Or.inr (Or.inr (Or.inl ⟨e, rfl⟩))
      refine ⟨s0, Or.inl rfl, era_fresh h t m h2 (by only_t) (fun q hq _ => by rw [h6]; exact fresh_rest hq h4 h12) (fun q hq _ => ?_) (fun _ _ => rfl) ?_ ?_⟩
      · simp only [upd_same]; rw [h6]; exact fresh_rest hq h4 (hd _ rfl)
      · have := h.priv t m h2
        simp only [upd_same]
        rw [hj] at this
        have e1 : stageOf (.wl m) (c.sys.stack t) m = .wl := by simp [stageOf]
        have e2 : stageOf .free ((Kind.W, m) :: c.sys.stack t) m = .got := by
          rw [h6]; simp [stageOf, rootW, rootW_none.2 h4]
        rw [e1] at this; rw [e2]
        refine ⟨?_, this.2⟩
        have := this.1
        rw [hp] at this ⊢; exact this
      · exact .fresh g m [(.W, m)] base h1 h2 h3 h4 h5 (by simp [upd_same, h6]) h7 h8 h9 (by simp [upd_same, nW, h10]) h11 (hd _ (by simp [upd_same]))
  | writeUnlockFast t m rest hj hl hc =>
    cases h.thr t with
    | home g h1 h2 h3 h4 h5 h6 h7 =>
      rw [hl] at h1
      refine ⟨_, Or.inr (.writeUnlockFast s0 t g _ (by rw [h5]; exact hj) h1 (by rw [h4]; exact hc)), ?_⟩
      exact home_same h t g (by only_t) (by only_t) h2 h6 h7 rfl rfl (by simp [upd_same]) (by simp only [upd_same]; rw [hl] at h2; exact h2.1) h3
        (by simp [upd_same, h4]) h5 h6 (fun _ => h7 (Or.inl (by rw [hl]; simp)))
    | fresh g p pr base h1 h2 h3 h4 h5 h6 h7 h8 h9 h10 h11 h12 =>
      have hpr : pr.getLast? = some (.W, p) := by rw [hj] at h12; simpa using h12
      cases pr with
      | nil => simp at hpr
      | cons e pr' =>
        rw [h6] at hl
        simp only [List.cons_append, List.cons.injEq] at hl
        obtain ⟨rfl, rfl⟩ := hl
        have hpr' : pr'.getLast? = some (.W, p) := by
          cases pr' with
          | nil => simp [nW] at h10; exact absurd h10 hc
          | cons a b => rw [List.getLast?_cons_cons] at hpr; exact hpr
        exact ⟨s0, Or.inl rfl, fresh_free h t g p _ pr' base h1 h2 h3 h4 h5 h6 h7 h8 h9 h11 hj hpr hpr' (by only_t) rfl
          (by simp [upd_same]) rfl (by simp [upd_same, h10, nW]) hj⟩
  | writeUnlockCall t m rest hj hl hw =>
    obtain ⟨e1, e2⟩ := hi.counts t
    cases h.thr t with
    | home g h1 h2 h3 h4 h5 h6 h7 =>
      rw [h1, nW_map, h4, hw, hl] at e1
      simp only [nW] at e1
      have hg : m = g := by rw [hl] at h2; exact h2.2 (Or.inr ⟨rfl, by omega⟩)
      subst hg
      have hsh := h7 (Or.inl (by rw [hl]; simp))
      refine ⟨_, Or.inr (.writeUnlockCall s0 t m _ (by rw [h5]; exact hj) (by rw [h1, hl]; rfl) (by rw [h4]; exact hw)), ?_⟩
      exact home_call h t m hsh _ _ rfl (fun p hp => home_rest h2 h6 h7 hp) h1 h2 h3 h4
    | fresh g p pr base h1 h2 h3 h4 h5 h6 h7 h8 h9 h10 h11 h12 =>
      have hpr : pr.getLast? = some (.W, p) := by rw [hj] at h12; simpa using h12
      cases pr with
      | nil => simp at hpr
      | cons e pr' =>
        have hl0 := hl
        rw [h6] at hl
        simp only [List.cons_append, List.cons.injEq] at hl
        obtain ⟨rfl, rfl⟩ := hl
        have hpr' : pr' = [] := by
          cases pr' with
          | nil => rfl
          | cons a b =>
            rw [List.getLast?_cons_cons] at hpr
            rw [hw] at h10
            have := nW_last hpr
            simp only [nW] at h10 this; omega
        subst hpr'
        simp at hpr
        subst hpr
        refine ⟨s0, Or.inl rfl, fresh_call h t g m [(.W, m)] base _ _ h1 h2 h3 h4 h5 h6 h7 h8 h9 h10 h11
          (fun q hq _ => by rw [h6]; exact fresh_rest hq h4 h12) (Or.inr (Or.inr (Or.inl ⟨rfl, rfl⟩))) ?_⟩
        have hpv := (h.priv t m h2).1
        have hst : stageOf (c.sys.job t) (c.sys.stack t) m = .got := by rw [hj, h6]; simp [stageOf, rootW, rootW_none.2 h4]
        rw [hst] at hpv ⊢
        have hst' : stageOf (.wuRelease m) (c.sys.stack t) m = .wu := by simp [stageOf]
        rw [hst']
        cases hpc : (c.sys.inner m).pc t <;> rw [hpc] at hpv <;> simp [want] at hpv ⊢
  | writeUnlockDone t m hj hp hr =>
    obtain ⟨e1, e2⟩ := hi.counts t
    cases h.thr t with
    | home g h1 h2 h3 h4 h5 h6 h7 =>
      have hg : m = g := h6 m (by rw [hj]; rfl)
      subst hg
      have hsh := h7 (Or.inr (by rw [hj]; simp))
      refine ⟨_, Or.inr (.writeUnlockDone s0 t m (by rw [h5]; exact hj) (by rw [h.inn m hsh]; exact hp) (by rw [h3]; exact hr)), ?_⟩
      exact home_same h t m (by only_t) (by only_t) h2 h6 h7 rfl rfl (by simp [upd_same, h1]) (by simp only [upd_same]; exact h2.tail)
        h3 (by simp [upd_same, h4]) (by simp [upd_same]) (by simp [upd_same, Job.mtx]) (fun _ => hsh)
    | fresh g p pr base h1 h2 h3 h4 h5 h6 h7 h8 h9 h10 h11 h12 =>
      rw [h7, outerR_map, h8, hr] at e2
      have := outerR_pos h4 h3
      omega
  | writeUnlockReacquire t m hj hp hr =>
    cases h.thr t with
    | home g h1 h2 h3 h4 h5 h6 h7 =>
      have hg : m = g := h6 m (by rw [hj]; rfl)
      subst hg
      have hsh := h7 (Or.inr (by rw [hj]; simp))
      refine ⟨_, Or.inr (.writeUnlockReacquire s0 t m (by rw [h5]; exact hj) (by rw [h.inn m hsh]; exact hp) (by rw [h3]; exact hr)), ?_⟩
      exact home_call h t m hsh _ _ rfl (fun p hp => home_rest h2 h6 h7 hp) h1 h2 h3 h4
    | fresh g p pr base h1 h2 h3 h4 h5 h6 h7 h8 h9 h10 h11 h12 =>
      have h12' := h12
      rw [hj] at h12'
      simp at h12'
      obtain ⟨rfl, rfl⟩ := h12'
      refine ⟨s0, Or.inl rfl, fresh_call h t g m [(.W, m)] base _ _ h1 h2 h3 h4 h5 h6 h7 h8 h9 h10 h11
        (fun q hq _ => by rw [h6]; exact fresh_rest hq h4 h12) (Or.inr (Or.inr (Or.inr ⟨rfl, rfl⟩))) ?_⟩
      rw [hj, hp]; simp [stageOf, want]
  | writeUnlockReacquired t m hj hp =>
    cases h.thr t with
    | home g h1 h2 h3 h4 h5 h6 h7 =>
      have hg : m = g := h6 m (by rw [hj]; rfl)
      subst hg
      have hsh := h7 (Or.inr (by rw [hj]; simp))
      refine ⟨_, Or.inr (.writeUnlockReacquired s0 t m (by rw [h5]; exact hj) (by rw [h.inn m hsh]; exact hp)), ?_⟩
      exact home_same h t m (by only_t) (by only_t) h2 h6 h7 rfl rfl (by simp [upd_same, h1]) (by simp only [upd_same]; exact h2.tail)
        h3 (by simp [upd_same, h4]) (by simp [upd_same]) (by simp [upd_same, Job.mtx]) (fun _ => hsh)
    | fresh g p pr base h1 h2 h3 h4 h5 h6 h7 h8 h9 h10 h11 h12 =>
      have h12' := h12
      rw [hj] at h12'
      simp at h12'
      obtain ⟨rfl, rfl⟩ := h12'
      have hR : ∀ q, c.own q ≠ .shared → stageOf .free base q = .rest := fun q hq =>
        home_rest h5 (by simp [Job.mtx]) (fun _ => h1) hq
      refine ⟨s0, Or.inl rfl, era_fresh h t m h2 (by only_t) (fun q hq _ => by rw [h6]; exact fresh_rest hq h4 h12) (fun q hq hq' => ?_) (fun _ _ => rfl) ?_ ?_⟩
      · simp only [upd_same, h6]; exact hR q hq'
      · have := h.priv t m h2
        simp only [upd_same, h6]
        rw [hj] at this
        have e1 : stageOf (.wuReacquire m) (c.sys.stack t) m = .re := by simp [stageOf]
        rw [e1] at this
        show PrivOk _ _ (stageOf .free base m)
        rw [hR m (by rw [h2]; simp)]
        refine ⟨?_, this.2⟩
        have := this.1
        rw [hp] at this ⊢; exact this
      · exact .home g (by simp [upd_same, h6, h7]) (by simpa [upd_same, h6] using h5) h8 (by simp [upd_same, h10, nW, h9]) (by simp [upd_same, h11])
          (by simp [upd_same, Job.mtx]) (fun _ => h1)
  | inside t m i' hi' =>
    cases ho : c.own m with
    | shared =>
      refine ⟨_, Or.inr (.inside s0 t m i' (by rw [h.inn m ho]; exact hi')), ?_⟩
      refine ⟨fun x hx => ?_, fun x hx => ?_, fun x hx => ?_, fun u => (h.thr u).frame rfl rfl rfl rfl rfl rfl rfl rfl, fun u p hp => ?_⟩
      · by_cases e : x = m
        · subst e; simp [upd_same]
        · simp only [upd_other _ _ _ _ e]; exact h.inn x hx
      · have e : x ≠ m := by rintro rfl; exact hx ho
        simp only [upd_other _ _ _ _ e]; exact h.inn0 x hx
      · have e : x ≠ m := by rintro rfl; rw [show c.own x = .unborn from hx] at ho; cases ho
        simp only [upd_other _ _ _ _ e]; exact h.unborn x hx
      · have e : p ≠ m := by rintro rfl; rw [show c.own p = .of u from hp] at ho; cases ho
        simp only [upd_other _ _ _ _ e]; exact h.priv u p hp
    | unborn =>
      have := h.unborn m ho
      rw [this] at hi'
      cases hi' <;> simp_all [Inner.init]
    | of v =>
      obtain ⟨rfl, hpv⟩ := (h.priv v m ho).istep hi'
      refine ⟨s0, Or.inl rfl, ?_⟩
      refine ⟨fun x hx => ?_, h.inn0, fun x hx => ?_, fun u => (h.thr u).frame rfl rfl rfl rfl rfl rfl rfl rfl, fun u p hp => ?_⟩
      · have e : x ≠ m := by rintro rfl; rw [show c.own x = .shared from hx] at ho; cases ho
        simp only [upd_other _ _ _ _ e]; exact h.inn x hx
      · have e : x ≠ m := by rintro rfl; rw [show c.own x = .unborn from hx] at ho; cases ho
        simp only [upd_other _ _ _ _ e]; exact h.unborn x hx
      · by_cases e : p = m
        · subst e
          have : u = t := by rw [show c.own p = .of u from hp] at ho; simpa using ho
          subst this
          simp only [upd_same]; exact hpv
        · simp only [upd_other _ _ _ _ e]; exact h.priv u p hp

theorem mem_rootW {l : List (Kind × M)} {p : M} (h : rootW l = some p) : (Kind.W, p) ∈ l := by
  induction l with
  | nil => simp [rootW] at h
  | cons e l ih =>
    obtain ⟨k, m⟩ := e
    simp only [rootW] at h
    cases hl : rootW l with
    | some x => rw [hl] at h; simp at h; subst h; simp [ih hl]
    | none => rw [hl] at h; cases k <;> simp at h; subst h; simp

/-- A thread of the copying system has nothing to do with a vault that is neither shared nor its own. -/
theorem TEra.rest {s s0 : Sys M T} {own : M → Own T} {t : T} (h : TEra s s0 own t) {p : M} (hp : own p ≠ .shared) (hp' : own p ≠ .of t) :
    stageOf (s.job t) (s.stack t) p = .rest := by
  cases h with
  | home g h1 h2 h3 h4 h5 h6 h7 => exact home_rest h2 h6 h7 hp
  | fresh g q pr base h1 h2 h3 h4 h5 h6 h7 h8 h9 h10 h11 h12 =>
    rw [h6]; exact fresh_rest (by rintro rfl; exact hp' h2) h4 h12

theorem Era.start {c : CSys M T} {s0 : Sys M T} (h : Era c s0) (t : T) (p : M) (hp : c.own p = .unborn) :
    Era { c with own := upd c.own p (.of t) } s0 where
  inn := fun m hm => by
    by_cases e : m = p
    · subst e; simp [upd_same] at hm
    · simp only [upd_other _ _ _ _ e] at hm; exact h.inn m hm
  inn0 := fun m hm => by
    by_cases e : m = p
    · subst e; exact h.inn0 m (by rw [hp]; simp)
    · simp only [upd_other _ _ _ _ e] at hm; exact h.inn0 m hm
  unborn := fun m hm => by
    by_cases e : m = p
    · subst e; exact h.unborn m hp
    · simp only [upd_other _ _ _ _ e] at hm; exact h.unborn m hm
  thr := fun u => by
    have ne : ∀ x, c.own x ≠ .unborn → upd c.own p (.of t) x = c.own x := by
      intro x hx; exact upd_other _ _ _ _ (by rintro rfl; exact hx hp)
    cases h.thr u with
    | home g h1 h2 h3 h4 h5 h6 h7 => exact .home g h1 h2 h3 h4 h5 h6 (fun a => by have := h7 a; simp only [ne g (by rw [this]; simp)]; exact this)
    | fresh g q pr base h1 h2 h3 h4 h5 h6 h7 h8 h9 h10 h11 h12 =>
      exact .fresh g q pr base (by simp only [ne g (by rw [h1]; simp)]; exact h1) (by simp only [ne q (by rw [h2]; simp)]; exact h2) h3 h4 h5 h6 h7 h8 h9 h10 h11 h12
  priv := fun u q hq => by
    by_cases e : q = p
    · subst e
      simp only [upd_same, Own.of.injEq] at hq
      subst hq
      show PrivOk (c.sys.inner q) t _
      rw [h.unborn q hp, (h.thr t).rest (by rw [hp]; simp) (by rw [hp]; simp)]
      exact ⟨rfl, fun _ _ => rfl⟩
    · simp only [upd_other _ _ _ _ e] at hq; exact h.priv u q hq

/-- A vault whose construction has ended has a mutex like a new one. -/
theorem Era.fresh_rest_state {c : CSys M T} {s0 : Sys M T} (h : Era c s0) (t : T) (p : M) (hp : c.own p = .of t) (hj : c.sys.job t = .free)
    (hs : ∀ e ∈ c.sys.stack t, e.2 ≠ p) :
    (c.sys.inner p).wOwn = none ∧ (c.sys.inner p).rOwn = none ∧ (c.sys.inner p).cnt = 0 ∧ (c.sys.inner p).flag = false := by
  have := (h.priv t p hp).1
  have hst : stageOf (c.sys.job t) (c.sys.stack t) p = .rest := by
    rw [hj]; simp only [stageOf]
    rw [if_neg (by simp), if_neg (by simp), if_neg (by simp), if_neg (by simp), if_neg]
    intro e; exact hs _ (mem_rootW e) rfl
  rw [hst] at this
  cases hpc : (c.sys.inner p).pc t <;> rw [hpc] at this <;> simp [want] at this
  · exact ⟨this.1.symm, this.2.1.symm, this.2.2.1.symm, this.2.2.2⟩
  · exact ⟨this.1.symm, this.2.1.symm, this.2.2.1.symm, this.2.2.2⟩

theorem Era.finish {c : CSys M T} {s0 : Sys M T} (h : Era c s0) (t : T) (p : M) (hp : c.own p = .of t) (hj : c.sys.job t = .free)
    (hs : ∀ e ∈ c.sys.stack t, e.2 ≠ p) :
    Era { sys := { c.sys with inner := upd c.sys.inner p { c.sys.inner p with pc := fun _ => .idle } }, own := upd c.own p .shared } s0 where
  inn := fun m hm => by
    by_cases e : m = p
    · subst e
      obtain ⟨a, b, c', d⟩ := h.fresh_rest_state t m hp hj hs
      simp only [upd_same]
      rw [h.inn0 m (by rw [hp]; simp), a, b, c', d]; rfl
    · simp only [upd_other _ _ _ _ e] at hm ⊢; exact h.inn m hm
  inn0 := fun m hm => by
    by_cases e : m = p
    · subst e; simp [upd_same] at hm
    · simp only [upd_other _ _ _ _ e] at hm; exact h.inn0 m hm
  unborn := fun m hm => by
    by_cases e : m = p
    · subst e; simp [upd_same] at hm
    · simp only [upd_other _ _ _ _ e] at hm ⊢; exact h.unborn m hm
  thr := fun u => by
    have sh : ∀ x, c.own x = .shared → upd c.own p .shared x = .shared := by
      intro x hx; by_cases e : x = p
      · subst e; simp [upd]
      · rw [upd_other _ _ _ _ e]; exact hx
    cases h.thr u with
    | home g h1 h2 h3 h4 h5 h6 h7 => exact .home g h1 h2 h3 h4 h5 h6 (fun a => sh g (h7 a))
    | fresh g q pr base h1 h2 h3 h4 h5 h6 h7 h8 h9 h10 h11 h12 =>
      refine .fresh g q pr base (sh g h1) ?_ h3 h4 h5 h6 h7 h8 h9 h10 h11 h12
      have : q ≠ p := by
        rintro rfl
        have hu : u = t := by rw [h2] at hp; simpa using hp
        subst hu
        rw [hj] at h12
        have hl : pr.getLast? = some (.W, q) := by simpa using h12
        exact hs (.W, q) (by rw [h6]; exact List.mem_append_left _ (List.mem_of_getLast? hl)) rfl
      simp only [upd_other _ _ _ _ this]; exact h2
  priv := fun u q hq => by
    by_cases e : q = p
    · subst e; simp [upd_same] at hq
    · simp only [upd_other _ _ _ _ e] at hq ⊢; exact h.priv u q hq

theorem CReach.era [Nonempty M] {c : CSys M T} (hc : CReach sp c) : ∃ s0, SReachOne sp s0 ∧ Era c s0 := by
  induction hc with
  | init own ho =>
    refine ⟨Sys.init M T, .init, fun _ _ => rfl, fun _ _ => rfl, fun _ _ => rfl, fun t => ?_, fun t p hp => absurd hp (ho p t)⟩
    obtain ⟨m⟩ := ‹Nonempty M›
    exact .home m rfl trivial rfl rfl rfl (by simp [Sys.init, Job.mtx]) (by simp [Sys.init])
  | step c c' _ hs ih =>
    obtain ⟨s0, hr, he⟩ := ih
    cases hs with
    | act s' h1 h2 =>
      obtain ⟨s0', h | h, he'⟩ := he.act hr.inv h1 h2
      · subst h; exact ⟨s0', hr, he'⟩
      · exact ⟨s0', .step _ _ hr h he'.one, he'⟩
    | start t p hp => exact ⟨s0, hr, he.start t p hp⟩
    | finish t p hp hj hs => exact ⟨s0, hr, he.finish t p hp hj hs⟩

end MVault.Mtx
