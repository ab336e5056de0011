import Verif.FairModel
import Verif.MutexLemmas
import Mathlib.Data.Nat.Find
/-
C94: who waits for a lock gets it.
-/
set_option linter.unusedSectionVars false
set_option linter.unusedSimpArgs false
set_option linter.unusedVariables false
namespace MVault.Mtx
variable {T : Type} [DecidableEq T] {sp : Bool}

/-! ### Lemmas -/

theorem Acts.step {s s' : Inner T} {t : T} (h : Acts sp s t s') : Step sp s s' := by
  cases h with
  | callRL h => exact .callRL _ _ h
  | callRU h => exact .callRU _ _ h
  | callWL h => exact .callWL _ _ h
  | callWU h => exact .callWU _ _ h
  | inside _ h => exact .inside _ _ _ h

theorem Exec.reach (e : Exec T sp) : ∀ i, Reach sp (e.σ i)
  | 0 => by rw [e.start]; exact .init
  | i + 1 => by
    have h := e.step i
    cases hw : e.who i with
    | none => rw [hw] at h; simp only [] at h; rw [h]; exact e.reach i
    | some t => rw [hw] at h; exact .step _ _ (e.reach i) h.step

theorem Exec.inv (e : Exec T sp) (i : Nat) : Inv sp (e.σ i) := Inv.reach (e.reach i)

theorem Exec.acts (e : Exec T sp) {i : Nat} {t : T} (h : e.who i = some t) : Acts sp (e.σ i) t (e.σ (i + 1)) := by
  have := e.step i; rw [h] at this; exact this

/-- A thread that does not act stays where it is, except for waking up. -/
theorem Acts.other {s s' : Inner T} {t u : T} (h : Acts sp s t s') (hne : u ≠ t) : s'.pc u = s.pc u ∨ (s.pc u = .wl5 ∧ s'.pc u = .wl6) := by
  cases h with
  | inside _ h =>
    cases h
    case ru5 =>
      simp only [goto_pc, if_neg hne, Inner.notify]
      split
      · exact .inr ⟨by assumption, rfl⟩
      · exact .inl rfl
    all_goals simp [goto_pc, hne, Inner.goto, upd]
  | _ => exact .inl (by simp [goto_pc, hne])

theorem Exec.other (e : Exec T sp) {i : Nat} {u : T} (h : e.who i ≠ some u) : (e.σ (i + 1)).pc u = (e.σ i).pc u ∨ ((e.σ i).pc u = .wl5 ∧ (e.σ (i + 1)).pc u = .wl6) := by
  have := e.step i
  cases hw : e.who i with
  | none => rw [hw] at this; simp only [] at this; rw [this]; exact .inl rfl
  | some t =>
    rw [hw] at this
    exact Acts.other this (fun hc => h (by rw [hw, hc]))

/-- Until a thread acts it stays where it is (unless it sleeps). -/
theorem Exec.stays (e : Exec T sp) {i : Nat} {t : T} {p : Pc} (hp : (e.σ i).pc t = p) (hne : p ≠ .wl5) : ∀ j ≥ i, (∀ k, i ≤ k → k < j → e.who k ≠ some t) → (e.σ j).pc t = p := by
  intro j hj
  induction j, hj using Nat.le_induction with
  | base => exact fun _ => hp
  | succ j hj ih =>
    intro hk
    have h1 := ih (fun k a b => hk k a (by omega))
    rcases e.other (hk j hj (by omega)) with h | ⟨h, _⟩
    · rw [h, h1]
    · rw [h1] at h; exact absurd h hne

/-- If a thread acts at some time, there is a first time. -/
theorem Exec.first (e : Exec T sp) {i : Nat} {t : T} {p : Pc} (hp : (e.σ i).pc t = p) (hne : p ≠ .wl5) (h : ∃ j ≥ i, e.who j = some t) :
    ∃ j ≥ i, e.who j = some t ∧ (e.σ j).pc t = p ∧ ∀ k, i ≤ k → k < j → e.who k ≠ some t := by
  classical
  have hex : ∃ d, e.who (i + d) = some t := by obtain ⟨j, hj, h⟩ := h; exact ⟨j - i, by rw [Nat.add_sub_cancel' hj]; exact h⟩
  have h1 := Nat.find_spec hex
  have h2 : ∀ k, i ≤ k → k < i + Nat.find hex → e.who k ≠ some t := by
    intro k a b hc
    exact Nat.find_min hex (m := k - i) (by omega) (by rw [Nat.add_sub_cancel' a]; exact hc)
  exact ⟨_, by omega, h1, e.stays hp hne _ (by omega) h2, h2⟩

/-- Places from which the next step is always possible. -/
def free : Pc → Bool
  | .rl3 | .rl4 | .rl5 | .ru2 | .ru3 | .ru4 | .ru5 | .ru6 | .wl2 | .wl3 | .wl4 | .wl6 | .wu1 => true
  | _ => false

theorem can_free {s : Inner T} {t : T} (h : free (s.pc t) = true) : can s t := by
  cases hp : s.pc t <;> rw [hp] at h <;> simp only [free, Bool.false_eq_true] at h
  · exact ⟨_, .rl3 _ _ hp⟩
  · exact ⟨_, .rl4 _ _ hp⟩
  · exact ⟨_, .rl5 _ _ hp⟩
  · exact ⟨_, .ru2 _ _ hp⟩
  · exact ⟨_, .ru3 _ _ hp⟩
  · exact ⟨_, .ru4 _ _ hp⟩
  · exact ⟨_, .ru5 _ _ hp⟩
  · exact ⟨_, .ru6 _ _ hp⟩
  · exact ⟨_, .wl2 _ _ hp⟩
  · exact ⟨_, .wl3 _ _ hp⟩
  · exact ⟨_, .wl4 _ _ hp⟩
  · exact ⟨_, .wl6 _ _ hp⟩
  · exact ⟨_, .wu1 _ _ hp⟩

/-- A thread at such a place moves on. -/
theorem Exec.moves (e : Exec T sp) (hf : e.Scheduled) {i : Nat} {t : T} {p : Pc} (hp : (e.σ i).pc t = p) (hfr : free p = true) :
    ∃ j ≥ i, e.who j = some t ∧ (e.σ j).pc t = p := by
  have hne : p ≠ .wl5 := by rintro rfl; cases hfr
  by_cases h : ∃ j ≥ i, e.who j = some t
  · obtain ⟨j, a, b, c, _⟩ := e.first hp hne h; exact ⟨j, a, b, c⟩
  · have hno : ∀ k, i ≤ k → e.who k ≠ some t := fun k hk hc => h ⟨k, hk, hc⟩
    exact absurd (hf t i fun j hj => can_free (by rw [e.stays hp hne j hj fun k a _ => hno k a]; exact hfr)) h

/-- The first step of a thread from its place. -/
theorem Acts.next {s s' : Inner T} {t : T} (h : Acts sp s t s') :
    (s.pc t = .rl2 → s'.pc t = .rl3) ∧ (s.pc t = .rl3 → s'.pc t = .rl4) ∧ (s.pc t = .rl4 → s'.pc t = .rl5) ∧ (s.pc t = .rl5 → s'.pc t = .reading ∧ s'.wOwn = none) ∧
    (s.pc t = .reading → s'.pc t = .ru1) ∧ (s.pc t = .ru1 → s'.pc t = .ru2) ∧ (s.pc t = .ru2 → s'.pc t = .ru3 ∧ s'.cnt = s.cnt - 1) ∧
    (s.pc t = .ru3 → s'.pc t = if s.cnt = 0 then .ru4 else .ru6) ∧ (s.pc t = .ru4 → s'.pc t = if s.flag = true then .ru5 else .ru6) ∧
    (s.pc t = .ru5 → s'.pc t = .ru4 ∧ ∀ u, s.pc u = .wl5 → s'.pc u = .wl6) ∧ (s.pc t = .ru6 → s'.pc t = .idle ∧ s'.rOwn = none) ∧
    (s.pc t = .wl2 → s'.pc t = .wl3) ∧ (s.pc t = .wl3 → s'.pc t = .wl4 ∨ s'.pc t = .wl6) ∧ (s.pc t = .wl4 → s'.pc t = .wl5) ∧ (s.pc t = .wl5 → s'.pc t = .wl6) ∧
    (s.pc t = .wl6 → s'.pc t = .writing) ∧ (s.pc t = .writing → s'.pc t = .wu1) ∧ (s.pc t = .wu1 → s'.pc t = .idle ∧ s'.wOwn = none) ∧
    (s.pc t = .rl1 → s'.pc t = .rl2) ∧ (s.pc t = .wl1 → s'.pc t = .wl2) := by
  cases h with
  | inside _ h =>
    cases h
    case ru5 h =>
      simp only [h, reduceCtorEq, false_implies, true_and, and_true, forall_const]
      refine ⟨by simp [goto_pc], fun u hu => ?_⟩
      have hut : u ≠ t := by rintro rfl; rw [h] at hu; cases hu
      simp [goto_pc, hut, Inner.notify, hu]
    all_goals simp_all [goto_pc, Inner.goto, upd]
    all_goals first | (split <;> simp) | omega
  | _ => simp_all [goto_pc]

/-- What the others can do while thread `t` holds the write mutex. -/
theorem Acts.held {s s' : Inner T} {t u : T} (hi : Inv sp s) (ht : holdsW (s.pc t) = true) (h : Acts sp s u s') (hne : u ≠ t) :
    s'.wOwn = s.wOwn ∧ s'.flag = s.flag ∧ s'.cnt ≤ s.cnt ∧ (s'.rOwn = s.rOwn ∨ (s.rOwn = none ∧ s'.pc u = .ru2) ∨ s.pc u = .ru6) ∧ holdsW (s.pc u) = false := by
  have hu : holdsW (s.pc u) = false := by
    by_contra hc
    exact hne (hi.exclW ht (by simpa using hc))
  have hw : s.wOwn = some t := (hi.w t).1 ht
  refine ⟨?_, ?_, ?_, ?_, hu⟩
  all_goals
    cases h with
    | inside _ h => cases h <;> simp_all [goto_pc, Inner.goto, Inner.notify, upd, holdsW] <;> omega
    | _ => simp_all [goto_pc, Inner.goto, upd, holdsW]

/-- From `i` on thread `t` holds the write mutex and does not act. -/
def Sits (e : Exec T sp) (t : T) (i : Nat) : Prop := ∀ j ≥ i, holdsW ((e.σ j).pc t) = true ∧ e.who j ≠ some t

theorem Sits.held {e : Exec T sp} {t : T} {i : Nat} (h : Sits e t i) {j : Nat} (hj : j ≥ i) :
    (e.σ (j + 1)).flag = (e.σ j).flag ∧ (e.σ (j + 1)).cnt ≤ (e.σ j).cnt ∧
      ((e.σ (j + 1)).rOwn = (e.σ j).rOwn ∨ ((e.σ j).rOwn = none ∧ ∃ u, (e.σ (j + 1)).pc u = .ru2) ∨ ∃ u, (e.σ j).pc u = .ru6) := by
  have hs := e.step j
  cases hw : e.who j with
  | none => rw [hw] at hs; simp only [] at hs; rw [hs]; exact ⟨rfl, Int.le_refl _, .inl rfl⟩
  | some u =>
    rw [hw] at hs
    have hne : u ≠ t := fun hc => (h j hj).2 (by rw [hw, hc])
    obtain ⟨_, h2, h3, h4, _⟩ := Acts.held (e.inv j) (h j hj).1 hs hne
    refine ⟨h2, h3, ?_⟩
    rcases h4 with q | ⟨q1, q2⟩ | q
    · exact .inl q
    · exact .inr (.inl ⟨q1, u, q2⟩)
    · exact .inr (.inr ⟨u, q⟩)

theorem Sits.mono {e : Exec T sp} {t : T} {i : Nat} (h : Sits e t i) {j : Nat} (hj : j ≥ i) : Sits e t j := fun k hk => h k (by omega)

theorem Sits.cnt_le {e : Exec T sp} {t : T} {i : Nat} (h : Sits e t i) : ∀ d, (e.σ (i + d)).cnt ≤ (e.σ i).cnt
  | 0 => Int.le_refl _
  | d + 1 => Int.le_trans (h.held (j := i + d) (by omega)).2.1 (h.cnt_le d)

/-- At some time the number of readers does not change any more. -/
theorem Sits.calm {e : Exec T sp} {t : T} {i : Nat} (h : Sits e t i) : ∃ i' ≥ i, ∀ j ≥ i', (e.σ j).cnt = (e.σ i').cnt := by
  classical
  have hex : ∃ n : Nat, ∃ j ≥ i, (e.σ j).cnt = (n : Int) := ⟨(e.σ i).cnt.toNat, i, le_refl _, (Int.toNat_of_nonneg (e.inv i).nonneg).symm⟩
  obtain ⟨i', h1, h2⟩ := Nat.find_spec hex
  refine ⟨i', h1, fun j hj => ?_⟩
  have hle : (e.σ j).cnt ≤ (e.σ i').cnt := by
    have := (h.mono h1).cnt_le (j - i')
    rwa [Nat.add_sub_cancel' hj] at this
  by_contra hne
  have hlt : (e.σ j).cnt.toNat < Nat.find hex := by
    have := (e.inv j).nonneg
    omega
  exact Nat.find_min hex hlt ⟨j, by omega, (Int.toNat_of_nonneg (e.inv j).nonneg).symm⟩

theorem calm_no_ru2 {e : Exec T sp} (hf : e.Scheduled) {t : T} {i : Nat} (h : Sits e t i) (hc : ∀ j ≥ i, (e.σ j).cnt = (e.σ i).cnt) {j : Nat} (hj : j ≥ i) (u : T) : (e.σ j).pc u ≠ .ru2 := by
  intro hp
  obtain ⟨k, hk, hw, hpk⟩ := e.moves hf hp rfl
  have := ((Acts.next (e.acts hw)).2.2.2.2.2.2.1 hpk).2
  have h1 := hc k (by omega)
  have h2 := hc (k + 1) (by omega)
  omega

/-- A free read mutex stays free. -/
theorem calm_free {e : Exec T sp} (hf : e.Scheduled) {t : T} {i : Nat} (h : Sits e t i) (hc : ∀ j ≥ i, (e.σ j).cnt = (e.σ i).cnt) {j : Nat} (hj : j ≥ i) (hr : (e.σ j).rOwn = none) :
    ∀ k ≥ j, (e.σ k).rOwn = none := by
  intro k hk
  obtain ⟨d, rfl⟩ := Nat.exists_eq_add_of_le hk
  clear hk
  induction d with
  | zero => exact hr
  | succ d ih =>
    rcases (h.held (j := j + d) (by omega)).2.2 with q | ⟨_, u, q⟩ | ⟨u, q⟩
    · rw [show j + (d + 1) = j + d + 1 from rfl, q, ih]
    · exact absurd q (calm_no_ru2 hf h hc (by omega) u)
    · have := ((e.inv (j + d)).r u).1 (by rw [q]; rfl)
      rw [ih] at this; cases this

/-- The thread that holds the read mutex. -/
theorem Sits.holder {e : Exec T sp} {t : T} {i : Nat} (h : Sits e t i) {j : Nat} (hj : j ≥ i) (ht : holdsR ((e.σ j).pc t) = false) {v : T} (hv : (e.σ j).rOwn = some v) :
    (e.σ j).pc v = .ru2 ∨ (e.σ j).pc v = .ru3 ∨ (e.σ j).pc v = .ru4 ∨ (e.σ j).pc v = .ru5 ∨ (e.σ j).pc v = .ru6 := by
  have h1 := ((e.inv j).r v).2 hv
  have hne : v ≠ t := by rintro rfl; rw [h1] at ht; cases ht
  have h2 : holdsW ((e.σ j).pc v) = false := by
    by_contra hc
    exact hne ((e.inv j).exclW (h j hj).1 (by simpa using hc))
  cases hp : (e.σ j).pc v <;> rw [hp] at h1 h2 <;> simp_all [holdsR, holdsW]

theorem ru6_frees {e : Exec T sp} (hf : e.Scheduled) {j : Nat} {v : T} (hp : (e.σ j).pc v = .ru6) : ∃ k ≥ j, (e.σ k).rOwn = none := by
  obtain ⟨k, hk, hw, hpk⟩ := e.moves hf hp rfl
  exact ⟨k + 1, by omega, ((Acts.next (e.acts hw)).2.2.2.2.2.2.2.2.2.2.1 hpk).2⟩

/-! ### Lock calls that have the write mutex -/

theorem wakes {e : Exec T sp} (hf : e.Scheduled) (hr : e.Releases) {t : T} {i : Nat} (hp : (e.σ i).pc t = .wl5) : ∃ j ≥ i, (e.σ j).pc t = .wl6 := by
  by_contra hno
  have hno : ∀ j ≥ i, (e.σ j).pc t ≠ .wl6 := fun j hj hc => hno ⟨j, hj, hc⟩
  have hst : ∀ d, (e.σ (i + d)).pc t = .wl5 := by
    intro d
    induction d with
    | zero => exact hp
    | succ d ih =>
      by_cases hw : e.who (i + d) = some t
      · exact absurd ((Acts.next (e.acts hw)).2.2.2.2.2.2.2.2.2.2.2.2.2.2.1 ih) (hno _ (by omega))
      · rcases e.other hw with q | ⟨_, q⟩
        · rw [show i + (d + 1) = i + d + 1 from rfl, q, ih]
        · exact absurd q (hno _ (by omega))
  have hst : ∀ j ≥ i, (e.σ j).pc t = .wl5 := fun j hj => by have := hst (j - i); rwa [Nat.add_sub_cancel' hj] at this
  have hs : Sits e t i := fun j hj => ⟨by rw [hst j hj]; rfl, fun hw => hno (j + 1) (by omega) ((Acts.next (e.acts hw)).2.2.2.2.2.2.2.2.2.2.2.2.2.2.1 (hst j hj))⟩
  obtain ⟨i', hi', hc⟩ := hs.calm
  have hs' := hs.mono hi'
  have hno2 : ∀ j ≥ i', ∀ u, (e.σ j).pc u ≠ .ru2 := fun j hj u => calm_no_ru2 hf hs' hc hj u
  have hfl : ∀ j ≥ i', (e.σ j).flag = true := fun j hj => (e.inv j).f t (by rw [hst j (by omega)]; rfl)
  have h5 : ∀ j ≥ i', ∀ u, (e.σ j).pc u ≠ .ru5 := by
    intro j hj u hu
    obtain ⟨k, hk, hw, hpk⟩ := e.moves hf hu rfl
    exact hno (k + 1) (by omega) (((Acts.next (e.acts hw)).2.2.2.2.2.2.2.2.2.1 hpk).2 t (hst k (by omega)))
  have h4 : ∀ j ≥ i', ∀ u, (e.σ j).pc u ≠ .ru4 := by
    intro j hj u hu
    obtain ⟨k, hk, hw, hpk⟩ := e.moves hf hu rfl
    have := (Acts.next (e.acts hw)).2.2.2.2.2.2.2.2.1 hpk
    rw [hfl k (by omega)] at this
    exact h5 (k + 1) (by omega) u this
  by_cases h0 : (e.σ i').cnt = 0
  · obtain ⟨u, hu | hu | hu⟩ := (e.inv i').wake t (.inr (hst i' hi')) h0
    · obtain ⟨k, hk, hw, hpk⟩ := e.moves hf hu rfl
      have := (Acts.next (e.acts hw)).2.2.2.2.2.2.2.1 hpk
      rw [if_pos ((hc k hk).trans h0)] at this
      exact h4 (k + 1) (by omega) u this
    · exact h4 i' (le_refl _) u hu
    · exact h5 i' (le_refl _) u hu
  · obtain ⟨regs, _, h2, h3⟩ := (e.inv i').c
    cases regs with
    | nil => simp at h3; exact h0 h3
    | cons u regs =>
      have hu := (h2 u).1 (by simp)
      have hne : u ≠ t := by rintro rfl; rw [hst i' hi'] at hu; cases hu
      have huw : holdsW ((e.σ i').pc u) = false := by
        by_contra hcon
        exact hne ((e.inv i').exclW (hs i' hi').1 (by simpa using hcon))
      have h1 : ∃ j ≥ i', (e.σ j).pc u = .ru1 := by
        cases hpu : (e.σ i').pc u <;> rw [hpu] at hu huw <;> simp only [registered, holdsW, Bool.false_eq_true, Bool.true_eq_false] at hu huw
        · obtain ⟨j, hj, hw, hpj, _⟩ := e.first hpu (by simp) (hr u i' (.inl hpu))
          exact ⟨j + 1, by omega, (Acts.next (e.acts hw)).2.2.2.2.1 hpj⟩
        · exact ⟨i', le_refl _, hpu⟩
        · exact absurd hpu (hno2 i' (le_refl _) u)
      obtain ⟨j, hj, hpj⟩ := h1
      have hfr : ∃ k ≥ j, (e.σ k).rOwn = none := by
        cases hro : (e.σ j).rOwn with
        | none => exact ⟨j, le_refl _, hro⟩
        | some v =>
          rcases hs'.holder hj (by rw [hst j (by omega)]; rfl) hro with q | q | q | q | q
          · exact absurd q (hno2 j hj v)
          · obtain ⟨k, hk, hw, hpk⟩ := e.moves hf q rfl
            have := (Acts.next (e.acts hw)).2.2.2.2.2.2.2.1 hpk
            rw [if_neg (by rw [hc k (by omega)]; exact h0)] at this
            obtain ⟨k', hk', q'⟩ := ru6_frees hf this
            exact ⟨k', by omega, q'⟩
          · exact absurd q (h4 j hj v)
          · exact absurd q (h5 j hj v)
          · exact ru6_frees hf q
      obtain ⟨k, hk, hrk⟩ := hfr
      have hnone := calm_free hf hs' hc (by omega) hrk
      have hnact : ∀ m ≥ j, e.who m ≠ some u := by
        intro m hm hw
        obtain ⟨m', hm', hw', hp', _⟩ := e.first hpj (by simp) ⟨m, hm, hw⟩
        exact hno2 (m' + 1) (by omega) u ((Acts.next (e.acts hw')).2.2.2.2.2.1 hp')
      have hst1 : ∀ m ≥ j, (e.σ m).pc u = .ru1 := fun m hm => e.stays hpj (by simp) m hm fun k a _ => hnact k a
      obtain ⟨m, hm, hw⟩ := hf u k fun m hm => ⟨_, .ru1 _ _ (hst1 m (by omega)) (hnone m hm)⟩
      exact hnact m (by omega) hw

/-- **C94.** A `WriteLock` that has the inner mutex (it is past line 50) returns, whatever the other threads do, if threads are scheduled and readers leave. -/
theorem C94_writer_enters {e : Exec T sp} (hf : e.Scheduled) (hr : e.Releases) {t : T} {i : Nat}
    (hp : (e.σ i).pc t = .wl2 ∨ (e.σ i).pc t = .wl3 ∨ (e.σ i).pc t = .wl4 ∨ (e.σ i).pc t = .wl5 ∨ (e.σ i).pc t = .wl6) : ∃ j ≥ i, (e.σ j).pc t = .writing := by
  have h6 : ∀ i, (e.σ i).pc t = .wl6 → ∃ j ≥ i, (e.σ j).pc t = .writing := by
    intro i hp
    obtain ⟨k, hk, hw, hpk⟩ := e.moves hf hp rfl
    exact ⟨k + 1, by omega, (Acts.next (e.acts hw)).2.2.2.2.2.2.2.2.2.2.2.2.2.2.2.1 hpk⟩
  have h5 : ∀ i, (e.σ i).pc t = .wl5 → ∃ j ≥ i, (e.σ j).pc t = .writing := by
    intro i hp
    obtain ⟨k, hk, hpk⟩ := wakes hf hr hp
    obtain ⟨j, hj, h⟩ := h6 k hpk
    exact ⟨j, by omega, h⟩
  have h4 : ∀ i, (e.σ i).pc t = .wl4 → ∃ j ≥ i, (e.σ j).pc t = .writing := by
    intro i hp
    obtain ⟨k, hk, hw, hpk⟩ := e.moves hf hp rfl
    obtain ⟨j, hj, h⟩ := h5 (k + 1) ((Acts.next (e.acts hw)).2.2.2.2.2.2.2.2.2.2.2.2.2.1 hpk)
    exact ⟨j, by omega, h⟩
  have h3 : ∀ i, (e.σ i).pc t = .wl3 → ∃ j ≥ i, (e.σ j).pc t = .writing := by
    intro i hp
    obtain ⟨k, hk, hw, hpk⟩ := e.moves hf hp rfl
    rcases (Acts.next (e.acts hw)).2.2.2.2.2.2.2.2.2.2.2.2.1 hpk with q | q
    · obtain ⟨j, hj, h⟩ := h4 (k + 1) q; exact ⟨j, by omega, h⟩
    · obtain ⟨j, hj, h⟩ := h6 (k + 1) q; exact ⟨j, by omega, h⟩
  rcases hp with hp | hp | hp | hp | hp
  · obtain ⟨k, hk, hw, hpk⟩ := e.moves hf hp rfl
    obtain ⟨j, hj, h⟩ := h3 (k + 1) ((Acts.next (e.acts hw)).2.2.2.2.2.2.2.2.2.2.2.1 hpk)
    exact ⟨j, by omega, h⟩
  · exact h3 i hp
  · exact h4 i hp
  · exact h5 i hp
  · exact h6 i hp

/-- **C94.** A `ReadLock` that has the inner mutex (it is past line 20) returns, whatever the other threads do, if threads are scheduled. -/
theorem C94_reader_enters {e : Exec T sp} (hf : e.Scheduled) {t : T} {i : Nat}
    (hp : (e.σ i).pc t = .rl2 ∨ (e.σ i).pc t = .rl3 ∨ (e.σ i).pc t = .rl4 ∨ (e.σ i).pc t = .rl5) : ∃ j ≥ i, (e.σ j).pc t = .reading ∧ (e.σ j).wOwn = none := by
  have h5 : ∀ i, (e.σ i).pc t = .rl5 → ∃ j ≥ i, (e.σ j).pc t = .reading ∧ (e.σ j).wOwn = none := by
    intro i hp
    obtain ⟨k, hk, hw, hpk⟩ := e.moves hf hp rfl
    exact ⟨k + 1, by omega, (Acts.next (e.acts hw)).2.2.2.1 hpk⟩
  have h4 : ∀ i, (e.σ i).pc t = .rl4 → ∃ j ≥ i, (e.σ j).pc t = .reading ∧ (e.σ j).wOwn = none := by
    intro i hp
    obtain ⟨k, hk, hw, hpk⟩ := e.moves hf hp rfl
    obtain ⟨j, hj, h⟩ := h5 (k + 1) ((Acts.next (e.acts hw)).2.2.1 hpk)
    exact ⟨j, by omega, h⟩
  have h3 : ∀ i, (e.σ i).pc t = .rl3 → ∃ j ≥ i, (e.σ j).pc t = .reading ∧ (e.σ j).wOwn = none := by
    intro i hp
    obtain ⟨k, hk, hw, hpk⟩ := e.moves hf hp rfl
    obtain ⟨j, hj, h⟩ := h4 (k + 1) ((Acts.next (e.acts hw)).2.1 hpk)
    exact ⟨j, by omega, h⟩
  rcases hp with hp | hp | hp | hp
  · by_cases hact : ∃ j ≥ i, e.who j = some t
    · obtain ⟨k, hk, hw, hpk, _⟩ := e.first hp (by simp) hact
      obtain ⟨j, hj, h⟩ := h3 (k + 1) ((Acts.next (e.acts hw)).1 hpk)
      exact ⟨j, by omega, h⟩
    · exfalso
      have hact : ∀ j ≥ i, e.who j ≠ some t := fun j hj hc => hact ⟨j, hj, hc⟩
      have hst : ∀ j ≥ i, (e.σ j).pc t = .rl2 := fun j hj => e.stays hp (by simp) j hj fun k a _ => hact k a
      have hs : Sits e t i := fun j hj => ⟨by rw [hst j hj]; rfl, hact j hj⟩
      obtain ⟨i', hi', hc⟩ := hs.calm
      have hs' := hs.mono hi'
      have hfl : ∀ j ≥ i', (e.σ j).flag = false := by
        intro j hj
        by_contra hcon
        obtain ⟨u, hu⟩ := (e.inv j).f' (by simpa using hcon)
        have := (e.inv j).exclW (hs' j hj).1 (flagged_holdsW hu)
        rw [this, hst j (by omega)] at hu; cases hu
      have h4' : ∀ j ≥ i', ∀ v, (e.σ j).pc v = .ru4 → ∃ k ≥ j, (e.σ k).rOwn = none := by
        intro j hj v hv
        obtain ⟨k, hk, hw, hpk⟩ := e.moves hf hv rfl
        have := (Acts.next (e.acts hw)).2.2.2.2.2.2.2.2.1 hpk
        rw [hfl k (by omega)] at this
        obtain ⟨m, hm, q⟩ := ru6_frees hf (v := v) (j := k + 1) (by simpa using this)
        exact ⟨m, by omega, q⟩
      have hfr : ∃ k ≥ i', (e.σ k).rOwn = none := by
        cases hro : (e.σ i').rOwn with
        | none => exact ⟨i', by omega, hro⟩
        | some v =>
          rcases hs'.holder (le_refl i') (by rw [hst i' hi']; rfl) hro with q | q | q | q | q
          · exact absurd q (calm_no_ru2 hf hs' hc (le_refl i') v)
          · obtain ⟨k, hk, hw, hpk⟩ := e.moves hf q rfl
            have := (Acts.next (e.acts hw)).2.2.2.2.2.2.2.1 hpk
            by_cases h0 : (e.σ k).cnt = 0
            · rw [if_pos h0] at this
              obtain ⟨m, hm, q⟩ := h4' (k + 1) (by omega) v this
              exact ⟨m, by omega, q⟩
            · rw [if_neg h0] at this
              obtain ⟨m, hm, q⟩ := ru6_frees hf this
              exact ⟨m, by omega, q⟩
          · exact h4' i' (le_refl _) v q
          · obtain ⟨k, hk, hw, hpk⟩ := e.moves hf q rfl
            have := ((Acts.next (e.acts hw)).2.2.2.2.2.2.2.2.2.1 hpk).1
            obtain ⟨m, hm, q⟩ := h4' (k + 1) (by omega) v this
            exact ⟨m, by omega, q⟩
          · exact ru6_frees hf q
      obtain ⟨k, hk, hrk⟩ := hfr
      have hnone := calm_free hf hs' hc hk hrk
      obtain ⟨m, hm, hw⟩ := hf t k fun m hm => ⟨_, .rl2 _ _ (hst m (by omega)) (hnone m hm)⟩
      exact hact m (by omega) hw
  · exact h3 i hp
  · exact h4 i hp
  · exact h5 i hp

/-! ### No overtaking -/

/-- **C94.** While a thread is inside `WriteLock` past the inner mutex, holds the write lock or is releasing it, no other lock call returns: a thread that reads at the next moment
was reading, and nobody else writes. -/
theorem C94_no_overtaking {s s' : Inner T} (hs : Reach sp s) {t u v : T} (ht : holdsW (s.pc t) = true) (h : Acts sp s v s') (hv : v ≠ t) (hu : u ≠ t) :
    (s'.pc u = .reading → s.pc u = .reading) ∧ s'.pc u ≠ .writing ∧ holdsW (s'.pc t) = true := by
  have hi := Inv.reach hs
  have hvw : holdsW (s.pc v) = false := (Acts.held hi ht h hv).2.2.2.2
  have huw : holdsW (s.pc u) = false := by
    by_contra hc
    exact hu (hi.exclW ht (by simpa using hc))
  have hw : s.wOwn = some t := (hi.w t).1 ht
  refine ⟨?_, ?_, ?_⟩
  · by_cases e : u = v
    · subst e
      intro hr
      cases h with
      | inside _ h => cases h <;> simp_all [goto_pc, Inner.goto, Inner.notify, upd, holdsW] <;> split at hr <;> cases hr
      | _ => simp_all [goto_pc]
    · rcases h.other e with q | ⟨_, q⟩
      · rw [q]; exact id
      · rw [q]; intro hc; cases hc
  · by_cases e : u = v
    · subst e
      intro hr
      cases h with
      | inside _ h => cases h <;> simp_all [goto_pc, Inner.goto, Inner.notify, upd, holdsW] <;> split at hr <;> cases hr
      | _ => simp_all [goto_pc]
    · rcases h.other e with q | ⟨_, q⟩
      · rw [q]; intro hc; rw [hc] at huw; cases huw
      · rw [q]; intro hc; cases hc
  · rcases h.other (Ne.symm hv) with q | ⟨_, q⟩
    · rw [q]; exact ht
    · rw [q]; rfl

/-! ### Every lock call returns -/

theorem Exec.Fair.scheduled {e : Exec T sp} (h : e.Fair) : e.Scheduled := fun t i hc => h t i fun j hj => ⟨j, Nat.le_refl _, hc j hj⟩

/-- The write mutex is free again and again. -/
theorem frees {e : Exec T sp} (hf : e.Scheduled) (hr : e.Releases) (i : Nat) : ∃ j ≥ i, (e.σ j).wOwn = none := by
  have h1 : ∀ i u, (e.σ i).pc u = .wu1 → ∃ j ≥ i, (e.σ j).wOwn = none := by
    intro i u hp
    obtain ⟨k, hk, hw, hpk⟩ := e.moves hf hp rfl
    exact ⟨k + 1, by omega, ((Acts.next (e.acts hw)).2.2.2.2.2.2.2.2.2.2.2.2.2.2.2.2.2.1 hpk).2⟩
  have h2 : ∀ i u, (e.σ i).pc u = .writing → ∃ j ≥ i, (e.σ j).wOwn = none := by
    intro i u hp
    obtain ⟨k, hk, hw, hpk, _⟩ := e.first hp (by simp) (hr u i (.inr hp))
    obtain ⟨j, hj, h⟩ := h1 (k + 1) u ((Acts.next (e.acts hw)).2.2.2.2.2.2.2.2.2.2.2.2.2.2.2.2.1 hpk)
    exact ⟨j, by omega, h⟩
  have h3 : ∀ i u, ((e.σ i).pc u = .wl2 ∨ (e.σ i).pc u = .wl3 ∨ (e.σ i).pc u = .wl4 ∨ (e.σ i).pc u = .wl5 ∨ (e.σ i).pc u = .wl6) → ∃ j ≥ i, (e.σ j).wOwn = none := by
    intro i u hp
    obtain ⟨k, hk, h⟩ := C94_writer_enters hf hr hp
    obtain ⟨j, hj, h⟩ := h2 k u h
    exact ⟨j, by omega, h⟩
  have h4 : ∀ i u, ((e.σ i).pc u = .rl2 ∨ (e.σ i).pc u = .rl3 ∨ (e.σ i).pc u = .rl4 ∨ (e.σ i).pc u = .rl5) → ∃ j ≥ i, (e.σ j).wOwn = none := by
    intro i u hp
    obtain ⟨k, hk, _, h⟩ := C94_reader_enters hf hp
    exact ⟨k, hk, h⟩
  cases hw : (e.σ i).wOwn with
  | none => exact ⟨i, Nat.le_refl _, hw⟩
  | some u =>
    have hh := ((e.inv i).w u).2 hw
    cases hp : (e.σ i).pc u <;> rw [hp] at hh <;> simp only [holdsW, Bool.false_eq_true] at hh
    all_goals first
      | exact h1 i u hp
      | exact h2 i u hp
      | exact h3 i u (.inl hp)
      | exact h3 i u (.inr (.inl hp))
      | exact h3 i u (.inr (.inr (.inl hp)))
      | exact h3 i u (.inr (.inr (.inr (.inl hp))))
      | exact h3 i u (.inr (.inr (.inr (.inr hp))))
      | exact h4 i u (.inl hp)
      | exact h4 i u (.inr (.inl hp))
      | exact h4 i u (.inr (.inr (.inl hp)))
      | exact h4 i u (.inr (.inr (.inr hp)))

/-- **C94.** With a fair `std::mutex`, every `ReadLock` call returns, if readers and writers release their locks. -/
theorem C94_read_lock_returns {e : Exec T sp} (hf : e.Fair) (hr : e.Releases) {t : T} {i : Nat} (hp : (e.σ i).pc t = .rl1) : ∃ j ≥ i, (e.σ j).pc t = .reading := by
  have hact : ∃ j ≥ i, e.who j = some t := by
    by_contra hno
    have hno : ∀ j ≥ i, e.who j ≠ some t := fun j hj hc => hno ⟨j, hj, hc⟩
    obtain ⟨j, hj, hw⟩ := hf t i fun j hj => by
      obtain ⟨k, hk, hw⟩ := frees hf.scheduled hr j
      exact ⟨k, hk, _, .rl1 _ _ (e.stays hp (by simp) k (by omega) fun m a _ => hno m a) hw⟩
    exact hno j hj hw
  obtain ⟨k, hk, hw, hpk, _⟩ := e.first hp (by simp) hact
  obtain ⟨j, hj, h, _⟩ := C94_reader_enters hf.scheduled (i := k + 1) (t := t) (.inl ((Acts.next (e.acts hw)).2.2.2.2.2.2.2.2.2.2.2.2.2.2.2.2.2.2.1 hpk))
  exact ⟨j, by omega, h⟩

/-- **C94.** With a fair `std::mutex`, every `WriteLock` call returns, if readers and writers release their locks. -/
theorem C94_write_lock_returns {e : Exec T sp} (hf : e.Fair) (hr : e.Releases) {t : T} {i : Nat} (hp : (e.σ i).pc t = .wl1) : ∃ j ≥ i, (e.σ j).pc t = .writing := by
  have hact : ∃ j ≥ i, e.who j = some t := by
    by_contra hno
    have hno : ∀ j ≥ i, e.who j ≠ some t := fun j hj hc => hno ⟨j, hj, hc⟩
    obtain ⟨j, hj, hw⟩ := hf t i fun j hj => by
      obtain ⟨k, hk, hw⟩ := frees hf.scheduled hr j
      exact ⟨k, hk, _, .wl1 _ _ (e.stays hp (by simp) k (by omega) fun m a _ => hno m a) hw⟩
    exact hno j hj hw
  obtain ⟨k, hk, hw, hpk, _⟩ := e.first hp (by simp) hact
  obtain ⟨j, hj, h⟩ := C94_writer_enters hf.scheduled hr (i := k + 1) (t := t) (.inl ((Acts.next (e.acts hw)).2.2.2.2.2.2.2.2.2.2.2.2.2.2.2.2.2.2.2 hpk))
  exact ⟨j, by omega, h⟩

/-- **C94.** `WriteUnlock` returns. -/
theorem C94_write_unlock_returns {e : Exec T sp} (hf : e.Scheduled) {t : T} {i : Nat} (hp : (e.σ i).pc t = .wu1) : ∃ j ≥ i, (e.σ j).pc t = .idle := by
  obtain ⟨k, hk, hw, hpk⟩ := e.moves hf hp rfl
  exact ⟨k + 1, by omega, ((Acts.next (e.acts hw)).2.2.2.2.2.2.2.2.2.2.2.2.2.2.2.2.2.1 hpk).1⟩

/-! ### ReadUnlock -/

/-- The flag is raised only by line 52 of `WriteLock`. -/
theorem flag_stays {e : Exec T sp} {i : Nat} (hn : ∀ j ≥ i, ∀ u, (e.σ j).pc u ≠ .wl2) {j : Nat} (hj : j ≥ i) (hf : (e.σ j).flag = false) : ∀ k ≥ j, (e.σ k).flag = false := by
  intro k hk
  induction k, hk using Nat.le_induction with
  | base => exact hf
  | succ k hk ih =>
    by_contra hc
    have hs := e.step k
    cases hw : e.who k with
    | none => rw [hw] at hs; simp only [] at hs; rw [hs, ih] at hc; exact hc rfl
    | some u =>
      rw [hw] at hs
      have hu := hn k (by omega) u
      generalize e.σ (k + 1) = s' at hs hc
      cases hs with
      | inside _ h => cases h <;> simp_all [Inner.goto, Inner.notify]
      | _ => simp_all [Inner.goto]

/-- **C94**, what is left of it for `ReadUnlock`: it returns if from some time on no `WriteLock` call gets the inner mutex (line 50). -/
theorem C94_read_unlock_returns_if_writers_stop {e : Exec T sp} (hf : e.Fair) (hr : e.Releases) {t : T} {i : Nat}
    (hn : ∀ j ≥ i, ∀ u, (e.σ j).pc u ≠ .wl2)
    (hp : (e.σ i).pc t = .ru1 ∨ (e.σ i).pc t = .ru2 ∨ (e.σ i).pc t = .ru3 ∨ (e.σ i).pc t = .ru4 ∨ (e.σ i).pc t = .ru5 ∨ (e.σ i).pc t = .ru6) :
    ∃ j ≥ i, (e.σ j).pc t = .idle := by
  have hfs := hf.scheduled
  obtain ⟨z, hz, hzf⟩ : ∃ z ≥ i, (e.σ z).flag = false := by
    cases hfl : (e.σ i).flag with
    | false => exact ⟨i, le_refl _, hfl⟩
    | true =>
      obtain ⟨u, hu⟩ := (e.inv i).f' hfl
      have hu' : (e.σ i).pc u = .wl2 ∨ (e.σ i).pc u = .wl3 ∨ (e.σ i).pc u = .wl4 ∨ (e.σ i).pc u = .wl5 ∨ (e.σ i).pc u = .wl6 := by
        cases hpu : (e.σ i).pc u <;> rw [hpu] at hu <;> simp_all [flagged]
      obtain ⟨j, hj, hw⟩ := C94_writer_enters hfs hr hu'
      refine ⟨j, hj, ?_⟩
      by_contra hc
      obtain ⟨v, hv⟩ := (e.inv j).f' (by simpa using hc)
      have := (e.inv j).exclW (t := u) (u := v) (by rw [hw]; rfl) (flagged_holdsW hv)
      subst this
      rw [hw] at hv; cases hv
  have hfl := flag_stays hn hz hzf
  -- from `z` on
  have h6 : ∀ j ≥ z, ∀ v, (e.σ j).pc v = .ru6 → ∃ k ≥ j, (e.σ k).pc v = .idle ∧ (e.σ k).rOwn = none := by
    intro j hj v hv
    obtain ⟨k, hk, hw, hpk⟩ := e.moves hfs hv rfl
    exact ⟨k + 1, by omega, (Acts.next (e.acts hw)).2.2.2.2.2.2.2.2.2.2.1 hpk⟩
  have h4 : ∀ j ≥ z, ∀ v, (e.σ j).pc v = .ru4 → ∃ k ≥ j, (e.σ k).pc v = .idle ∧ (e.σ k).rOwn = none := by
    intro j hj v hv
    obtain ⟨k, hk, hw, hpk⟩ := e.moves hfs hv rfl
    have := (Acts.next (e.acts hw)).2.2.2.2.2.2.2.2.1 hpk
    rw [hfl k (by omega)] at this
    obtain ⟨m, hm, q⟩ := h6 (k + 1) (by omega) v (by simpa using this)
    exact ⟨m, by omega, q⟩
  have h5 : ∀ j ≥ z, ∀ v, (e.σ j).pc v = .ru5 → ∃ k ≥ j, (e.σ k).pc v = .idle ∧ (e.σ k).rOwn = none := by
    intro j hj v hv
    obtain ⟨k, hk, hw, hpk⟩ := e.moves hfs hv rfl
    obtain ⟨m, hm, q⟩ := h4 (k + 1) (by omega) v ((Acts.next (e.acts hw)).2.2.2.2.2.2.2.2.2.1 hpk).1
    exact ⟨m, by omega, q⟩
  have h3 : ∀ j ≥ z, ∀ v, (e.σ j).pc v = .ru3 → ∃ k ≥ j, (e.σ k).pc v = .idle ∧ (e.σ k).rOwn = none := by
    intro j hj v hv
    obtain ⟨k, hk, hw, hpk⟩ := e.moves hfs hv rfl
    have := (Acts.next (e.acts hw)).2.2.2.2.2.2.2.1 hpk
    split at this
    · obtain ⟨m, hm, q⟩ := h4 (k + 1) (by omega) v this
      exact ⟨m, by omega, q⟩
    · obtain ⟨m, hm, q⟩ := h6 (k + 1) (by omega) v this
      exact ⟨m, by omega, q⟩
  have h2 : ∀ j ≥ z, ∀ v, (e.σ j).pc v = .ru2 → ∃ k ≥ j, (e.σ k).pc v = .idle ∧ (e.σ k).rOwn = none := by
    intro j hj v hv
    obtain ⟨k, hk, hw, hpk⟩ := e.moves hfs hv rfl
    obtain ⟨m, hm, q⟩ := h3 (k + 1) (by omega) v ((Acts.next (e.acts hw)).2.2.2.2.2.2.1 hpk).1
    exact ⟨m, by omega, q⟩
  have hrl4 : ∀ j, ∀ v, (e.σ j).pc v = .rl4 → ∃ k ≥ j, (e.σ k).rOwn = none := by
    intro j v hv
    obtain ⟨k, hk, hw, hpk⟩ := e.moves hfs hv rfl
    refine ⟨k + 1, by omega, ?_⟩
    have ha := e.acts hw
    generalize e.σ (k + 1) = s' at ha
    cases ha with
    | inside _ h => cases h <;> simp_all [Inner.goto]
    | _ => simp_all
  have hrl3 : ∀ j, ∀ v, (e.σ j).pc v = .rl3 → ∃ k ≥ j, (e.σ k).rOwn = none := by
    intro j v hv
    obtain ⟨k, hk, hw, hpk⟩ := e.moves hfs hv rfl
    obtain ⟨m, hm, q⟩ := hrl4 (k + 1) v ((Acts.next (e.acts hw)).2.1 hpk)
    exact ⟨m, by omega, q⟩
  have hfree : ∀ j ≥ z, ∃ k ≥ j, (e.σ k).rOwn = none := by
    intro j hj
    have drop : ∀ {v}, (∃ k ≥ j, (e.σ k).pc v = .idle ∧ (e.σ k).rOwn = none) → ∃ k ≥ j, (e.σ k).rOwn = none := fun ⟨k, a, _, b⟩ => ⟨k, a, b⟩
    cases hro : (e.σ j).rOwn with
    | none => exact ⟨j, le_refl _, hro⟩
    | some v =>
      have hv := ((e.inv j).r v).2 hro
      cases hpv : (e.σ j).pc v <;> rw [hpv] at hv <;> simp only [holdsR, Bool.false_eq_true] at hv
      all_goals first
        | exact hrl3 j v hpv
        | exact hrl4 j v hpv
        | exact drop (h2 j hj v hpv)
        | exact drop (h3 j hj v hpv)
        | exact drop (h4 j hj v hpv)
        | exact drop (h5 j hj v hpv)
        | exact drop (h6 j hj v hpv)
  have h1 : ∀ j ≥ z, (e.σ j).pc t = .ru1 → ∃ k ≥ j, (e.σ k).pc t = .idle := by
    intro j hj hv
    have hact : ∃ k ≥ j, e.who k = some t := by
      by_contra hno
      have hno : ∀ k ≥ j, e.who k ≠ some t := fun k hk hc => hno ⟨k, hk, hc⟩
      obtain ⟨k, hk, hw⟩ := hf t j fun k hk => by
        obtain ⟨m, hm, hw⟩ := hfree k (by omega)
        exact ⟨m, hm, _, .ru1 _ _ (e.stays hv (by simp) m (by omega) fun m a _ => hno m a) hw⟩
      exact hno k hk hw
    obtain ⟨k, hk, hw, hpk, _⟩ := e.first hv (by simp) hact
    obtain ⟨m, hm, q, _⟩ := h2 (k + 1) (by omega) t ((Acts.next (e.acts hw)).2.2.2.2.2.1 hpk)
    exact ⟨m, by omega, q⟩
  -- before `z` the thread may have moved on inside the call or returned
  have hall : ∀ d, (∃ j ≥ i, (e.σ j).pc t = .idle) ∨ (e.σ (i + d)).pc t = .ru1 ∨ (e.σ (i + d)).pc t = .ru2 ∨ (e.σ (i + d)).pc t = .ru3 ∨ (e.σ (i + d)).pc t = .ru4 ∨ (e.σ (i + d)).pc t = .ru5 ∨ (e.σ (i + d)).pc t = .ru6 := by
    intro d
    induction d with
    | zero => exact .inr hp
    | succ d ih =>
      rcases ih with ih | ih
      · exact .inl ih
      · by_cases hw : e.who (i + d) = some t
        · have ha := e.acts hw
          by_cases hid : (e.σ (i + d + 1)).pc t = .idle
          · exact .inl ⟨_, by omega, hid⟩
          · right
            have hx := Acts.next ha
            rw [show i + (d + 1) = i + d + 1 from rfl]
            rcases ih with ih | ih | ih | ih | ih | ih
            · exact .inr (.inl (hx.2.2.2.2.2.1 ih))
            · exact .inr (.inr (.inl (hx.2.2.2.2.2.2.1 ih).1))
            · have := hx.2.2.2.2.2.2.2.1 ih
              split at this
              · exact .inr (.inr (.inr (.inl this)))
              · exact .inr (.inr (.inr (.inr (.inr this))))
            · have := hx.2.2.2.2.2.2.2.2.1 ih
              split at this
              · exact .inr (.inr (.inr (.inr (.inl this))))
              · exact .inr (.inr (.inr (.inr (.inr this))))
            · exact .inr (.inr (.inr (.inl (hx.2.2.2.2.2.2.2.2.2.1 ih).1)))
            · exact absurd (hx.2.2.2.2.2.2.2.2.2.2.1 ih).1 hid
        · right
          rcases e.other hw with q | ⟨q, _⟩
          · rw [show i + (d + 1) = i + d + 1 from rfl, q]; exact ih
          · rw [q] at ih; simp at ih
  rcases hall (z - i) with q | q
  · exact q
  · rw [Nat.add_sub_cancel' hz] at q
    have up : (∃ k ≥ z, (e.σ k).pc t = .idle ∧ (e.σ k).rOwn = none) → ∃ k ≥ i, (e.σ k).pc t = .idle := fun ⟨k, a, b, _⟩ => ⟨k, by omega, b⟩
    rcases q with q | q | q | q | q | q
    · obtain ⟨k, a, b⟩ := h1 z (le_refl _) q
      exact ⟨k, by omega, b⟩
    · exact up (h2 z (le_refl _) t q)
    · exact up (h3 z (le_refl _) t q)
    · exact up (h4 z (le_refl _) t q)
    · exact up (h5 z (le_refl _) t q)
    · exact up (h6 z (le_refl _) t q)

/-! ### Concrete infinite executions of two threads -/

/-- A state of two threads. -/
def two (f t : Pc) (w r : Option Bool) (c : Int) (g : Bool) : Inner Bool := ⟨fun b => if b then t else f, w, r, c, g⟩

theorem acts_two {s s' : Inner Bool} {b : Bool} {f t : Pc} {w r : Option Bool} {c : Int} {g : Bool} (h : Acts sp s b s')
    (h1 : s'.pc false = f) (h2 : s'.pc true = t) (h3 : s'.wOwn = w) (h4 : s'.rOwn = r) (h5 : s'.cnt = c) (h6 : s'.flag = g) : Acts sp s b (two f t w r c g) := by
  have : s' = two f t w r c g := by
    cases s'
    simp only [two, Inner.mk.injEq]
    simp only at h1 h2 h3 h4 h5 h6
    refine ⟨?_, h3, h4, h5, h6⟩
    funext b; cases b
    · exact h1
    · exact h2
  rw [← this]; exact h

/-- One step of a concrete execution. -/
macro "act" : tactic => `(tactic| first
  | exact acts_two (.callRL _ _ rfl) rfl rfl rfl rfl rfl rfl
  | exact acts_two (.callRU _ _ rfl) rfl rfl rfl rfl rfl rfl
  | exact acts_two (.callWL _ _ rfl) rfl rfl rfl rfl rfl rfl
  | exact acts_two (.callWU _ _ rfl) rfl rfl rfl rfl rfl rfl
  | exact acts_two (.inside _ _ _ (.rl1 _ _ rfl rfl)) rfl rfl rfl rfl rfl rfl
  | exact acts_two (.inside _ _ _ (.rl2 _ _ rfl rfl)) rfl rfl rfl rfl rfl rfl
  | exact acts_two (.inside _ _ _ (.rl3 _ _ rfl)) rfl rfl rfl rfl rfl rfl
  | exact acts_two (.inside _ _ _ (.rl4 _ _ rfl)) rfl rfl rfl rfl rfl rfl
  | exact acts_two (.inside _ _ _ (.rl5 _ _ rfl)) rfl rfl rfl rfl rfl rfl
  | exact acts_two (.inside _ _ _ (.ru1 _ _ rfl rfl)) rfl rfl rfl rfl rfl rfl
  | exact acts_two (.inside _ _ _ (.ru2 _ _ rfl)) rfl rfl rfl rfl rfl rfl
  | exact acts_two (.inside _ _ _ (.ru3 _ _ rfl)) rfl rfl rfl rfl rfl rfl
  | exact acts_two (.inside _ _ _ (.ru4 _ _ rfl)) rfl rfl rfl rfl rfl rfl
  | exact acts_two (.inside _ _ _ (.ru5 _ _ rfl)) rfl rfl rfl rfl rfl rfl
  | exact acts_two (.inside _ _ _ (.ru6 _ _ rfl)) rfl rfl rfl rfl rfl rfl
  | exact acts_two (.inside _ _ _ (.wl1 _ _ rfl rfl)) rfl rfl rfl rfl rfl rfl
  | exact acts_two (.inside _ _ _ (.wl2 _ _ rfl)) rfl rfl rfl rfl rfl rfl
  | exact acts_two (.inside _ _ _ (.wl3 _ _ rfl)) rfl rfl rfl rfl rfl rfl
  | exact acts_two (.inside _ _ _ (.wl4 _ _ rfl)) rfl rfl rfl rfl rfl rfl
  | exact acts_two (.inside _ _ _ (.wl6 _ _ rfl)) rfl rfl rfl rfl rfl rfl
  | exact acts_two (.inside _ _ _ (.wu1 _ _ rfl)) rfl rfl rfl rfl rfl rfl)

/-- A table of states and actors, of which the first `a` are run once and the following `c` again and again. -/
def around (a c i : Nat) : Nat := if i < a then i else a + (i - a) % c

theorem around_lt (a c i : Nat) (hc : 0 < c) : around a c i < a + c := by
  unfold around
  split
  · omega
  · have := Nat.mod_lt (i - a) hc; omega

theorem around_succ (a c i : Nat) (hc : 0 < c) : around a c (i + 1) = if around a c i + 1 = a + c then a else around a c i + 1 := by
  unfold around
  by_cases h : i < a
  · rw [if_pos h]
    by_cases h' : i + 1 < a
    · rw [if_pos h', if_neg (by omega)]
    · have : i + 1 = a := by omega
      subst this
      simp only [Nat.lt_irrefl, if_false, Nat.sub_self, Nat.zero_mod, Nat.add_zero]
      split <;> rfl
  · rw [if_neg h, if_neg (by omega : ¬ i + 1 < a), show i + 1 - a = (i - a) + 1 by omega, Nat.add_mod]
    have h1 := Nat.mod_lt (i - a) hc
    split
    · next q =>
      rcases Nat.lt_or_ge 1 c with h2 | h2
      · rw [Nat.mod_eq_of_lt h2, show (i - a) % c + 1 = c by omega, Nat.mod_self]; omega
      · have : c = 1 := by omega
        subst this; omega
    · next q =>
      have h2 : 1 < c := by omega
      rw [Nat.mod_eq_of_lt h2, Nat.mod_eq_of_lt (by omega)]; omega

/-- The execution of a table. -/
def lasso (tab : Nat → Inner Bool × Bool) (a c : Nat) (hc : 0 < c) (h0 : (tab (around a c 0)).1 = Inner.init Bool)
    (hs : ∀ n < a + c, Acts sp (tab n).1 (tab n).2 (tab (if n + 1 = a + c then a else n + 1)).1) : Exec Bool sp where
  σ i := (tab (around a c i)).1
  who i := some (tab (around a c i)).2
  start := h0
  step i := by
    show Acts sp (tab (around a c i)).1 (tab (around a c i)).2 (tab (around a c (i + 1))).1
    rw [around_succ a c i hc]
    exact hs _ (around_lt a c i hc)

theorem around_hits (a c : Nat) (hc : 0 < c) (n : Nat) (hn : n < c) (i : Nat) : ∃ j ≥ i, around a c j = a + n := by
  refine ⟨a + (n + c * i), ?_, ?_⟩
  · have : i ≤ c * i := Nat.le_mul_of_pos_left i hc
    omega
  · unfold around
    rw [if_neg (by omega), Nat.add_sub_cancel_left, Nat.add_mul_mod_self_left, Nat.mod_eq_of_lt hn]

/-- Thread `true` reads and releases; thread `false` locks and unlocks for writing for ever. -/
def spinTab : Nat → Inner Bool × Bool
  | 0 => (two .idle .idle none none 0 false, true)
  | 1 => (two .idle .rl1 none none 0 false, true)
  | 2 => (two .idle .rl2 (some true) none 0 false, true)
  | 3 => (two .idle .rl3 (some true) (some true) 0 false, true)
  | 4 => (two .idle .rl4 (some true) (some true) 1 false, true)
  | 5 => (two .idle .rl5 (some true) none 1 false, true)
  | 6 => (two .idle .reading none none 1 false, true)
  | 7 => (two .idle .ru1 none none 1 false, true)
  | 8 => (two .idle .ru2 none (some true) 1 false, true)
  | 9 => (two .idle .ru3 none (some true) 0 false, true)
  | 10 => (two .idle .ru4 none (some true) 0 false, false)
  | 11 => (two .wl1 .ru4 none (some true) 0 false, false)
  | 12 => (two .wl2 .ru4 (some false) (some true) 0 false, false)
  | 13 => (two .wl3 .ru4 (some false) (some true) 0 true, true)
  | 14 => (two .wl3 .ru5 (some false) (some true) 0 true, true)
  | 15 => (two .wl3 .ru4 (some false) (some true) 0 true, false)
  | 16 => (two .wl6 .ru4 (some false) (some true) 0 true, false)
  | 17 => (two .writing .ru4 (some false) (some true) 0 false, false)
  | 18 => (two .wu1 .ru4 (some false) (some true) 0 false, false)
  | 19 => (two .idle .ru4 none (some true) 0 false, false)
  | 20 => (two .wl1 .ru4 none (some true) 0 false, false)
  | 21 => (two .wl2 .ru4 (some false) (some true) 0 false, false)
  | _ => (two .idle .idle none none 0 false, true)

theorem two_idle : two .idle .idle none none 0 false = Inner.init Bool := by
  simp only [two, Inner.init, Inner.mk.injEq, and_true]
  funext b; cases b <;> rfl

/-- The infinite execution of `spinTab`. -/
def spin : Exec Bool false := lasso spinTab 13 9 (by omega) two_idle (by
  intro n hn
  rcases n with _|_|_|_|_|_|_|_|_|_|_|_|_|_|_|_|_|_|_|_|_|_|n
  all_goals first | (exfalso; omega) | (simp only [Nat.reduceAdd, Nat.reduceEqDiff, if_true, if_false, Nat.zero_add, reduceIte, spinTab]; act))

/-- Both threads act again and again. -/
theorem spin_busy (t : Bool) (i : Nat) : ∃ j ≥ i, spin.who j = some t := by
  cases t with
  | true =>
    obtain ⟨j, hj, h⟩ := around_hits 13 9 (by omega) 0 (by omega) i
    refine ⟨j, hj, ?_⟩
    show some (spinTab (around 13 9 j)).2 = _
    rw [h]; rfl
  | false =>
    obtain ⟨j, hj, h⟩ := around_hits 13 9 (by omega) 3 (by omega) i
    refine ⟨j, hj, ?_⟩
    show some (spinTab (around 13 9 j)).2 = _
    rw [h]; rfl

/-- **C94**, the failing side: `ReadUnlock` can run for ever, in a fair execution whose threads release what they hold: a reader that leaves spins in
`while (IsCondVarWaiting) Cv.notify_all()` (lines 36-37) while another thread locks and unlocks for writing, although no thread waits for the readers. -/
theorem C94_read_unlock_refuted : ∃ (e : Exec Bool false), e.Fair ∧ e.Releases ∧ ∃ (t : Bool) (i : Nat), ∀ j ≥ i, (e.σ j).pc t = .ru4 ∨ (e.σ j).pc t = .ru5 := by
  refine ⟨spin, fun t i _ => spin_busy t i, fun t i _ => spin_busy t i, true, 13, fun j hj => ?_⟩
  show (spinTab (around 13 9 j)).1.pc true = .ru4 ∨ (spinTab (around 13 9 j)).1.pc true = .ru5
  have h1 := around_lt 13 9 j (by omega)
  have h2 : 13 ≤ around 13 9 j := by unfold around; rw [if_neg (by omega)]; omega
  generalize around 13 9 j = n at h1 h2
  rcases n with _|_|_|_|_|_|_|_|_|_|_|_|_|_|_|_|_|_|_|_|_|_|n
  all_goals first | (exfalso; omega) | exact .inl rfl | exact .inr rfl

/-- Thread `true` waits for the lock in `p`; thread `false` locks and unlocks for writing for ever. -/
def starveTab (p : Pc) : Nat → Inner Bool × Bool
  | 0 => (two .idle .idle none none 0 false, true)
  | 1 => (two .idle p none none 0 false, false)
  | 2 => (two .wl1 p none none 0 false, false)
  | 3 => (two .wl2 p (some false) none 0 false, false)
  | 4 => (two .wl3 p (some false) none 0 true, false)
  | 5 => (two .wl6 p (some false) none 0 true, false)
  | 6 => (two .writing p (some false) none 0 false, false)
  | 7 => (two .wu1 p (some false) none 0 false, false)
  | _ => (two .idle .idle none none 0 false, true)

/-- The infinite execution of `starveTab`. -/
def starve (p : Pc) (hp : p = .rl1 ∨ p = .wl1) : Exec Bool false := lasso (starveTab p) 1 7 (by omega) two_idle (by
  intro n hn
  rcases hp with rfl | rfl
  all_goals rcases n with _|_|_|_|_|_|_|_|n
  all_goals first | (exfalso; omega) | (simp only [Nat.reduceAdd, Nat.reduceEqDiff, if_true, if_false, Nat.zero_add, reduceIte, starveTab]; act))

/-- **C94**, the failing side: if `std::mutex` is not fair a `ReadLock` or `WriteLock` call can wait for ever although every holder releases the lock. -/
theorem C94_starvation_refuted (p : Pc) (hp : p = .rl1 ∨ p = .wl1) :
    ∃ (e : Exec Bool false), e.Scheduled ∧ e.Releases ∧ ∃ (t : Bool) (i : Nat), ∀ j ≥ i, (e.σ j).pc t = p := by
  have hst : ∀ j ≥ 1, ((starve p hp).σ j).pc true = p := by
    intro j hj
    show (starveTab p (around 1 7 j)).1.pc true = p
    have h1 := around_lt 1 7 j (by omega)
    have h2 : 1 ≤ around 1 7 j := by unfold around; rw [if_neg (by omega)]; omega
    generalize around 1 7 j = n at h1 h2
    rcases n with _|_|_|_|_|_|_|_|n
    all_goals first | (exfalso; omega) | rfl
  have hbusy : ∀ i, ∃ j ≥ i, (starve p hp).who j = some false := by
    intro i
    obtain ⟨j, hj, h⟩ := around_hits 1 7 (by omega) 0 (by omega) i
    refine ⟨j, hj, ?_⟩
    show some (starveTab p (around 1 7 j)).2 = _
    rw [h]; rfl
  refine ⟨starve p hp, ?_, ?_, true, 1, hst⟩
  · intro t i hc
    cases t with
    | false => exact hbusy i
    | true =>
      exfalso
      obtain ⟨j, hj, h⟩ := around_hits 1 7 (by omega) 4 (by omega) (i + 1)
      obtain ⟨s', hs⟩ := hc j (by omega)
      have hw : ((starve p hp).σ j).wOwn = some false := by
        show (starveTab p (around 1 7 j)).1.wOwn = _
        rw [h]; rfl
      have hpc := hst j (by omega)
      rcases hp with rfl | rfl <;> cases hs <;> simp_all
  · intro t i h
    cases t with
    | false => exact hbusy i
    | true =>
      exfalso
      have : ∀ n, (starveTab p n).1.pc true ≠ .reading ∧ (starveTab p n).1.pc true ≠ .writing := by
        intro n
        rcases hp with rfl | rfl <;> rcases n with _|_|_|_|_|_|_|_|n <;> exact ⟨(by intro h; cases h), (by intro h; cases h)⟩
      rcases h with h | h
      · exact (this _).1 h
      · exact (this _).2 h

/-- Non-vacuity of the theorems above: in `spin`, which is fair and releases, thread `false` calls `WriteLock` again and again and thread `true` calls `ReadLock`. -/
example : spin.Fair ∧ spin.Releases ∧ (spin.σ 1).pc true = .rl1 ∧ (spin.σ 3).pc true = .rl3 ∧ (spin.σ 11).pc false = .wl1 ∧ (spin.σ 13).pc false = .wl3 ∧ (spin.σ 18).pc false = .wu1 ∧
    holdsW ((spin.σ 13).pc false) = true ∧ spin.who 13 = some true :=
  ⟨fun t i _ => spin_busy t i, fun t i _ => spin_busy t i, rfl, rfl, rfl, rfl, rfl, rfl, rfl⟩

/-- Thread `true` reads for ever. -/
def readTab : Nat → Inner Bool × Bool
  | 0 => (two .idle .idle none none 0 false, true)
  | 1 => (two .idle .rl1 none none 0 false, true)
  | 2 => (two .idle .rl2 (some true) none 0 false, true)
  | 3 => (two .idle .rl3 (some true) (some true) 0 false, true)
  | 4 => (two .idle .rl4 (some true) (some true) 1 false, true)
  | 5 => (two .idle .rl5 (some true) none 1 false, true)
  | 6 => (two .idle .reading none none 1 false, true)
  | 7 => (two .idle .ru1 none none 1 false, true)
  | 8 => (two .idle .ru2 none (some true) 1 false, true)
  | 9 => (two .idle .ru3 none (some true) 0 false, true)
  | 10 => (two .idle .ru4 none (some true) 0 false, true)
  | 11 => (two .idle .ru6 none (some true) 0 false, true)
  | _ => (two .idle .idle none none 0 false, true)

/-- The infinite execution of `readTab`. -/
def readLoop : Exec Bool false := lasso readTab 0 12 (by omega) two_idle (by
  intro n hn
  rcases n with _|_|_|_|_|_|_|_|_|_|_|_|n
  all_goals first | (exfalso; omega) | (simp only [Nat.reduceAdd, Nat.reduceEqDiff, if_true, if_false, Nat.zero_add, reduceIte, readTab]; act))

/-- Non-vacuity of `C94_read_unlock_returns_if_writers_stop`: a fair execution that releases, in which no `WriteLock` runs and `ReadUnlock` is called. -/
example : readLoop.Fair ∧ readLoop.Releases ∧ (readLoop.σ 7).pc true = .ru1 ∧ ∀ j ≥ 7, ∀ u, (readLoop.σ j).pc u ≠ .wl2 := by
  have hb : ∀ i, ∃ j ≥ i, readLoop.who j = some true := by
    intro i
    refine ⟨i, le_refl _, ?_⟩
    show some (readTab (around 0 12 i)).2 = _
    generalize around 0 12 i = n
    rcases n with _|_|_|_|_|_|_|_|_|_|_|_|n <;> rfl
  have hi : ∀ i, (readLoop.σ i).pc false = .idle := by
    intro i
    show (readTab (around 0 12 i)).1.pc false = _
    generalize around 0 12 i = n
    rcases n with _|_|_|_|_|_|_|_|_|_|_|_|n <;> rfl
  refine ⟨?_, ?_, rfl, ?_⟩
  · intro t i h
    cases t with
    | true => exact hb i
    | false =>
      obtain ⟨k, _, s', hs⟩ := h i (le_refl _)
      have := hi k
      cases hs <;> simp_all
  · intro t i h
    cases t with
    | true => exact hb i
    | false => rw [hi i] at h; simp at h
  · intro j _ u
    cases u with
    | false => rw [hi j]; simp
    | true =>
      show (readTab (around 0 12 j)).1.pc true ≠ _
      generalize around 0 12 j = n
      rcases n with _|_|_|_|_|_|_|_|_|_|_|_|n <;> (intro h; cases h)

end MVault.Mtx
