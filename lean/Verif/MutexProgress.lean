import Verif.MutexRecLemmas
/-! Progress argument for the plain mutex (helpers). -/
namespace MVault.Mtx
variable {T : Type} [DecidableEq T] {sp : Bool}

/-- Steps inside calls only. -/
inductive IRun : Inner T → Inner T → Prop
  | refl (s) : IRun s s
  | step (s t s' s'') : IStep false s t s' → IRun s' s'' → IRun s s''

def remaining : Pc → Nat
  | .idle | .reading | .writing => 0
  | .rl1 => 5 | .rl2 => 4 | .rl3 => 3 | .rl4 => 2 | .rl5 => 1
  | .ru1 => 5 | .ru2 => 4 | .ru3 => 3 | .ru4 => 2 | .ru5 => 2 | .ru6 => 1
  | .wl1 => 6 | .wl2 => 5 | .wl3 => 4 | .wl4 => 3 | .wl5 => 2 | .wl6 => 1
  | .wu1 => 1

def total (pc : T → Pc) (ts : List T) : Nat := (ts.map fun t => remaining (pc t)).sum

omit [DecidableEq T] in
theorem total_le (pc pc' : T → Pc) (ts : List T) (h : ∀ u, remaining (pc' u) ≤ remaining (pc u)) : total pc' ts ≤ total pc ts := by
  induction ts with
  | nil => simp [total]
  | cons a l ih => simp only [total, List.map_cons, List.sum_cons] at *; have := h a; omega

omit [DecidableEq T] in
theorem total_lt (pc pc' : T → Pc) (ts : List T) (h : ∀ u, remaining (pc' u) ≤ remaining (pc u)) (t : T) (ht : t ∈ ts)
    (hlt : remaining (pc' t) < remaining (pc t)) : total pc' ts < total pc ts := by
  induction ts with
  | nil => simp at ht
  | cons a l ih =>
    have hle := total_le pc pc' l h
    rcases List.mem_cons.1 ht with rfl | ht
    · simp only [total, List.map_cons, List.sum_cons] at *; omega
    · have := ih ht; have := h a
      simp only [total, List.map_cons, List.sum_cons] at *; omega

/-- A step of one thread to a point with less left. -/
theorem goto_lt (s : Inner T) (t : T) (q : Pc) (ts : List T) (ht : t ∈ ts) (h : remaining q < remaining (s.pc t)) :
    total (upd s.pc t q) ts < total s.pc ts := by
  refine total_lt _ _ _ ?_ t ht (by rw [upd_same]; exact h)
  intro u
  by_cases e : u = t
  · subst e; rw [upd_same]; omega
  · rw [upd_other _ _ _ _ e]; omega

/-- With no thread holding the lock, the calls in progress get closer to completion. -/
theorem Inv.progress {s : Inner T} (h : Inv sp s) (ts : List T) (hts : ∀ t, t ∈ ts)
    (hno : ∀ t, s.pc t ≠ .reading ∧ s.pc t ≠ .writing) (hbusy : ∃ t, s.pc t ≠ .idle) :
    ∃ s', IRun s s' ∧ total s'.pc ts < total s.pc ts := by
  have one : ∀ {t s'} (q), IStep false s t s' → s'.pc = upd s.pc t q → remaining q < remaining (s.pc t) →
      ∃ s', IRun s s' ∧ total s'.pc ts < total s.pc ts := by
    intro t s' q hs hq hlt
    refine ⟨s', .step _ _ _ _ hs (.refl _), ?_⟩
    rw [hq]; exact goto_lt s t q ts (hts t) hlt
  by_cases g : ∃ t, s.pc t = .rl3
  · obtain ⟨t, ht⟩ := g; exact one .rl4 (.rl3 s t ht) rfl (by rw [ht]; decide)
  have n1 := not_exists.1 g; clear g
  by_cases g : ∃ t, s.pc t = .rl4
  · obtain ⟨t, ht⟩ := g; exact one .rl5 (.rl4 s t ht) rfl (by rw [ht]; decide)
  have n2 := not_exists.1 g; clear g
  by_cases g : ∃ t, s.pc t = .rl5
  · obtain ⟨t, ht⟩ := g; exact one .reading (.rl5 s t ht) rfl (by rw [ht]; decide)
  have n3 := not_exists.1 g; clear g
  by_cases g : ∃ t, s.pc t = .ru2
  · obtain ⟨t, ht⟩ := g; exact one .ru3 (.ru2 s t ht) rfl (by rw [ht]; decide)
  have n4 := not_exists.1 g; clear g
  by_cases g : ∃ t, s.pc t = .ru3
  · obtain ⟨t, ht⟩ := g; exact one _ (.ru3 s t ht) rfl (by rw [ht]; split <;> decide)
  have n5 := not_exists.1 g; clear g
  by_cases g : ∃ t, s.pc t = .ru6
  · obtain ⟨t, ht⟩ := g; exact one .idle (.ru6 s t ht) rfl (by rw [ht]; decide)
  have n6 := not_exists.1 g; clear g
  by_cases g : ∃ t, s.pc t = .wl2
  · obtain ⟨t, ht⟩ := g; exact one .wl3 (.wl2 s t ht) rfl (by rw [ht]; decide)
  have n7 := not_exists.1 g; clear g
  by_cases g : ∃ t, s.pc t = .wl3
  · obtain ⟨t, ht⟩ := g; exact one _ (.wl3 s t ht) rfl (by rw [ht]; split <;> decide)
  have n8 := not_exists.1 g; clear g
  by_cases g : ∃ t, s.pc t = .wl4
  · obtain ⟨t, ht⟩ := g; exact one .wl5 (.wl4 s t ht) rfl (by rw [ht]; decide)
  have n9 := not_exists.1 g; clear g
  by_cases g : ∃ t, s.pc t = .wl6
  · obtain ⟨t, ht⟩ := g; exact one .writing (.wl6 s t ht) rfl (by rw [ht]; decide)
  have n10 := not_exists.1 g; clear g
  by_cases g : ∃ t, s.pc t = .wu1
  · obtain ⟨t, ht⟩ := g; exact one .idle (.wu1 s t ht) rfl (by rw [ht]; decide)
  have n11 := not_exists.1 g; clear g
  -- a raised flag now means a thread blocked in Cv.wait
  have hflag : s.flag = true → ∃ u, s.pc u = .wl5 := by
    intro hf
    obtain ⟨u, hu⟩ := h.f' hf
    refine ⟨u, ?_⟩
    have := n8 u; have := n9 u; have := n10 u
    cases hp : s.pc u <;> simp_all [flagged]
  -- notifying a blocked thread is progress
  have notif : ∀ (s0 : Inner T) (t w : T), s0.pc t = .ru5 → s0.pc w = .wl5 → total (s0.notify.goto t .ru4).pc ts < total s0.pc ts := by
    intro s0 t w ht hw
    have hne : w ≠ t := by intro e; rw [e, ht] at hw; simp at hw
    refine total_lt _ _ _ ?_ w (hts w) ?_
    · intro u
      by_cases e : u = t
      · subst e; simp [Inner.goto, upd, ht, remaining]
      · simp only [Inner.goto, upd, e, Inner.notify, if_false]
        by_cases e2 : s0.pc u = .wl5 <;> simp [e2, remaining]
    · simp [Inner.goto, upd, hne, Inner.notify, hw, remaining]
  by_cases g : ∃ t, s.pc t = .ru5
  · obtain ⟨t, ht⟩ := g
    by_cases hw : ∃ w, s.pc w = .wl5
    · obtain ⟨w, hw⟩ := hw
      exact ⟨_, .step _ _ _ _ (.ru5 s t ht) (.refl _), notif s t w ht hw⟩
    · have hf : s.flag = false := by
        cases hf : s.flag with
        | false => rfl
        | true => exact absurd (hflag hf) hw
      have hpc : s.notify.goto t .ru4 = s.goto t .ru4 := by
        simp only [Inner.notify, Inner.goto]
        congr 2
        funext u
        have := not_exists.1 hw u
        simp [this]
      refine ⟨_, .step _ _ _ _ (.ru5 s t ht) (.step _ _ _ _ (.ru4 _ t (by rw [hpc]; simp [Inner.goto, upd])) (.refl _)), ?_⟩
      rw [hpc]
      refine total_lt _ _ _ ?_ t (hts t) ?_
      · intro u
        by_cases e : u = t
        · subst e; simp [Inner.goto, upd, ht, hf, remaining]
        · simp [Inner.goto, upd, e]
      · simp [Inner.goto, upd, ht, hf, remaining]
  have n12 := not_exists.1 g; clear g
  by_cases g : ∃ t, s.pc t = .ru4
  · obtain ⟨t, ht⟩ := g
    cases hf : s.flag with
    | false => exact one .ru6 (.ru4 s t ht) (by simp [Inner.goto, hf]) (by rw [ht]; decide)
    | true =>
      obtain ⟨w, hw⟩ := hflag hf
      have hne : w ≠ t := by intro e; rw [e, ht] at hw; simp at hw
      have hst : IStep false s t (s.goto t .ru5) := by
        have := IStep.ru4 (sp := false) s t ht; simp only [hf, if_true] at this; exact this
      refine ⟨_, .step _ _ _ _ hst (.step _ _ _ _ (.ru5 _ t (by simp [Inner.goto, upd])) (.refl _)), ?_⟩
      have h1 := notif (s.goto t .ru5) t w (by simp [Inner.goto, upd]) (by simp [Inner.goto, upd, hne, hw])
      have h2 : total (s.goto t .ru5).pc ts ≤ total s.pc ts := by
        apply total_le; intro u
        by_cases e : u = t
        · subst e; simp [Inner.goto, upd, ht, remaining]
        · simp [Inner.goto, upd, e]
      omega
  have n13 := not_exists.1 g; clear g
  have hr : s.rOwn = none := by
    cases ho : s.rOwn with
    | none => rfl
    | some u =>
      have := (h.r u).2 ho
      have := n1 u; have := n2 u; have := n4 u; have := n5 u; have := n6 u; have := n12 u; have := n13 u
      cases hp : s.pc u <;> simp_all [holdsR]
  by_cases g : ∃ t, s.pc t = .ru1
  · obtain ⟨t, ht⟩ := g; exact one .ru2 (.ru1 s t ht hr) rfl (by rw [ht]; decide)
  have n14 := not_exists.1 g; clear g
  by_cases g : ∃ t, s.pc t = .rl2
  · obtain ⟨t, ht⟩ := g; exact one .rl3 (.rl2 s t ht hr) rfl (by rw [ht]; decide)
  have n15 := not_exists.1 g; clear g
  have n16 : ∀ t, s.pc t ≠ .wl5 := by
    intro t ht
    obtain ⟨regs, -, hm, hl⟩ := h.c
    have h0 : s.cnt = 0 := by
      cases regs with
      | nil => simpa using hl
      | cons u l =>
        have := (hm u).1 (by simp)
        have := n2 u; have := n3 u; have := n4 u; have := n14 u; have := (hno u).1
        cases hp : s.pc u <;> simp_all [registered]
    obtain ⟨u, hu⟩ := h.wake t (Or.inr ht) h0
    have := n5 u; have := n12 u; have := n13 u
    simp_all
  have hw : s.wOwn = none := by
    cases ho : s.wOwn with
    | none => rfl
    | some u =>
      have := (h.w u).2 ho
      have := n1 u; have := n2 u; have := n3 u; have := n7 u; have := n8 u; have := n9 u; have := n10 u
      have := n11 u; have := n15 u; have := n16 u; have := hno u
      cases hp : s.pc u <;> simp_all [holdsW]
  obtain ⟨t, ht⟩ := hbusy
  cases hp : s.pc t with
  | rl1 => exact one .rl2 (.rl1 s t hp hw) rfl (by rw [hp]; decide)
  | wl1 => exact one .wl2 (.wl1 s t hp hw) rfl (by rw [hp]; decide)
  | idle => exact absurd hp ht
  | rl2 => exact absurd hp (n15 t)
  | rl3 => exact absurd hp (n1 t)
  | rl4 => exact absurd hp (n2 t)
  | rl5 => exact absurd hp (n3 t)
  | reading => exact absurd hp (hno t).1
  | ru1 => exact absurd hp (n14 t)
  | ru2 => exact absurd hp (n4 t)
  | ru3 => exact absurd hp (n5 t)
  | ru4 => exact absurd hp (n13 t)
  | ru5 => exact absurd hp (n12 t)
  | ru6 => exact absurd hp (n6 t)
  | wl2 => exact absurd hp (n7 t)
  | wl3 => exact absurd hp (n8 t)
  | wl4 => exact absurd hp (n9 t)
  | wl5 => exact absurd hp (n16 t)
  | wl6 => exact absurd hp (n10 t)
  | writing => exact absurd hp (hno t).2
  | wu1 => exact absurd hp (n11 t)

theorem Inv.irun {s s' : Inner T} (h : Inv sp s) (hr : IRun s s') : Inv sp s' := by
  induction hr with
  | refl => exact h
  | step s t s1 s2 hs _ ih => exact ih (h.istep (by simp) hs)

theorem IRun.trans {a b c : Inner T} (h1 : IRun a b) (h2 : IRun b c) : IRun a c := by
  induction h1 with
  | refl => exact h2
  | step s t s1 s2 hs _ ih => exact .step _ _ _ _ hs (ih h2)

theorem Inv.liveness {s : Inner T} (h : Inv sp s) (ts : List T) (hts : ∀ t, t ∈ ts) :
    ∃ s', IRun s s' ∧ ((∃ t, s'.pc t = .reading ∨ s'.pc t = .writing) ∨ ∀ t, s'.pc t = .idle) := by
  by_cases h1 : ∃ t, s.pc t = .reading ∨ s.pc t = .writing
  · exact ⟨s, .refl s, Or.inl h1⟩
  by_cases h2 : ∀ t, s.pc t = .idle
  · exact ⟨s, .refl s, Or.inr h2⟩
  obtain ⟨s1, hr, hlt⟩ := h.progress ts hts
    (fun t => ⟨fun e => h1 ⟨t, Or.inl e⟩, fun e => h1 ⟨t, Or.inr e⟩⟩) (Classical.not_forall.1 h2)
  obtain ⟨s2, hr2, hd⟩ := (h.irun hr).liveness ts hts
  exact ⟨s2, hr.trans hr2, hd⟩
termination_by total s.pc ts

end MVault.Mtx
