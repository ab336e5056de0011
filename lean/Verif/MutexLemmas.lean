import Verif.MutexModel
namespace MVault.Mtx
variable {T : Type} [DecidableEq T] {sp : Bool}

def holdsW : Pc → Bool
  | .rl2 | .rl3 | .rl4 | .rl5 | .wl2 | .wl3 | .wl4 | .wl5 | .wl6 | .writing | .wu1 => true
  | _ => false

def holdsR : Pc → Bool
  | .rl3 | .rl4 | .ru2 | .ru3 | .ru4 | .ru5 | .ru6 => true
  | _ => false

def registered : Pc → Bool
  | .rl4 | .rl5 | .reading | .ru1 | .ru2 => true
  | _ => false

def needsZero (sp : Bool) : Pc → Bool
  | .ru4 | .ru5 => true
  | .wl6 | .writing | .wu1 => !sp
  | _ => false

def flagged : Pc → Bool
  | .wl3 | .wl4 | .wl5 | .wl6 => true
  | _ => false

structure Inv (sp : Bool) (s : Inner T) : Prop where
  w : ∀ t, holdsW (s.pc t) = true ↔ s.wOwn = some t
  r : ∀ t, holdsR (s.pc t) = true ↔ s.rOwn = some t
  c : ∃ regs : List T, regs.Nodup ∧ (∀ t, t ∈ regs ↔ registered (s.pc t) = true) ∧ s.cnt = (regs.length : Int)
  z : ∀ t, needsZero sp (s.pc t) = true → s.cnt = 0
  f : ∀ t, flagged (s.pc t) = true → s.flag = true
  f' : s.flag = true → ∃ t, flagged (s.pc t) = true
  wake : ∀ t, (s.pc t = .wl4 ∨ s.pc t = .wl5) → s.cnt = 0 → ∃ u, s.pc u = .ru3 ∨ s.pc u = .ru4 ∨ s.pc u = .ru5

theorem upd_same {A B : Type} [DecidableEq A] (f : A → B) (a : A) (b : B) : upd f a b a = b := by simp [upd]
theorem upd_other {A B : Type} [DecidableEq A] (f : A → B) (a : A) (b : B) (x : A) (h : x ≠ a) : upd f a b x = f x := by
  simp [upd, h]

theorem Inv.init : Inv sp (Inner.init T) where
  w := by simp [Inner.init, holdsW]
  r := by simp [Inner.init, holdsR]
  c := ⟨[], by simp [Inner.init, registered]⟩
  z := by simp [Inner.init, needsZero]
  f := by simp [Inner.init, flagged]
  f' := by simp [Inner.init]
  wake := by simp [Inner.init]

theorem goto_pc (s : Inner T) (t u : T) (p : Pc) : (s.goto t p).pc u = if u = t then p else s.pc u := rfl

/-- Ownership fields after a local step of `t` from `p` to `q`. -/
theorem own_step (h : Pc → Bool) (pc : T → Pc) (own own' : Option T) (t : T) (q : Pc)
    (hown : ∀ u, h (pc u) = true ↔ own = some u)
    (hcase : (h q = h (pc t) ∧ own' = own) ∨ (h q = true ∧ own = none ∧ own' = some t) ∨
      (h q = false ∧ h (pc t) = true ∧ own' = none)) :
    ∀ u, h ((upd pc t q) u) = true ↔ own' = some u := by
  intro u
  have ht := hown t
  have hu := hown u
  by_cases e : u = t
  · subst e; rw [upd_same]
    rcases hcase with ⟨h1, h2⟩ | ⟨h1, h2, h3⟩ | ⟨h1, h2, h3⟩
    · rw [h1, h2]; exact hu
    · simp [h1, h3]
    · simp [h1, h3]
  · rw [upd_other _ _ _ _ e]
    rcases hcase with ⟨h1, h2⟩ | ⟨h1, h2, h3⟩ | ⟨h1, h2, h3⟩
    · rw [h2]; exact hu
    · rw [h2] at hu; rw [h3]
      constructor
      · intro hh; have := hu.1 hh; simp at this
      · intro hh; injection hh with hh; exact absurd hh.symm e
    · have := ht.1 h2
      rw [this] at hu; rw [h3]
      constructor
      · intro hh; have := hu.1 hh; injection this with this; exact absurd this.symm e
      · intro hh; simp at hh

theorem cnt_step (pc : T → Pc) (cnt cnt' : Int) (t : T) (q : Pc)
    (hc : ∃ regs : List T, regs.Nodup ∧ (∀ t, t ∈ regs ↔ registered (pc t) = true) ∧ cnt = (regs.length : Int))
    (hcase : (registered q = registered (pc t) ∧ cnt' = cnt) ∨
      (registered q = true ∧ registered (pc t) = false ∧ cnt' = cnt + 1) ∨
      (registered q = false ∧ registered (pc t) = true ∧ cnt' = cnt - 1)) :
    ∃ regs : List T, regs.Nodup ∧ (∀ u, u ∈ regs ↔ registered ((upd pc t q) u) = true) ∧ cnt' = (regs.length : Int) := by
  obtain ⟨regs, hn, hm, hl⟩ := hc
  rcases hcase with ⟨h1, h2⟩ | ⟨h1, h2, h3⟩ | ⟨h1, h2, h3⟩
  · refine ⟨regs, hn, ?_, by omega⟩
    intro u
    by_cases e : u = t
    · subst e; rw [upd_same, h1]; exact hm u
    · rw [upd_other _ _ _ _ e]; exact hm u
  · refine ⟨t :: regs, ?_, ?_, by simp; omega⟩
    · rw [List.nodup_cons]; refine ⟨?_, hn⟩
      rw [hm, h2]; simp
    · intro u
      by_cases e : u = t
      · subst e; simp [upd_same, h1]
      · rw [upd_other _ _ _ _ e]; simp [e, hm]
  · refine ⟨regs.erase t, hn.erase t, ?_, ?_⟩
    · intro u
      rw [hn.mem_erase_iff]
      by_cases e : u = t
      · subst e; simp [upd_same, h1]
      · rw [upd_other _ _ _ _ e]; simp [e, hm]
    · have : t ∈ regs := (hm t).2 h2
      have hpos := List.length_pos_of_mem this
      rw [List.length_erase_of_mem this]; omega

/-- The counter is never negative. -/
theorem Inv.nonneg {s : Inner T} (h : Inv sp s) : 0 ≤ s.cnt := by
  obtain ⟨regs, -, -, e⟩ := h.c; omega

/-- The counter is positive while a thread is registered. -/
theorem Inv.pos {s : Inner T} (h : Inv sp s) {t : T} (ht : registered (s.pc t) = true) : 0 < s.cnt := by
  obtain ⟨regs, -, hm, e⟩ := h.c
  have := List.length_pos_of_mem ((hm t).2 ht); omega

/-- Local step without notification. -/
theorem Inv.local_step {s : Inner T} (h : Inv sp s) (t : T) (q : Pc) (s' : Inner T)
    (hpc : s'.pc = upd s.pc t q)
    (hw : (holdsW q = holdsW (s.pc t) ∧ s'.wOwn = s.wOwn) ∨ (holdsW q = true ∧ s.wOwn = none ∧ s'.wOwn = some t) ∨
      (holdsW q = false ∧ holdsW (s.pc t) = true ∧ s'.wOwn = none))
    (hr : (holdsR q = holdsR (s.pc t) ∧ s'.rOwn = s.rOwn) ∨ (holdsR q = true ∧ s.rOwn = none ∧ s'.rOwn = some t) ∨
      (holdsR q = false ∧ holdsR (s.pc t) = true ∧ s'.rOwn = none))
    (hc : (registered q = registered (s.pc t) ∧ s'.cnt = s.cnt) ∨
      (registered q = true ∧ registered (s.pc t) = false ∧ s'.cnt = s.cnt + 1) ∨
      (registered q = false ∧ registered (s.pc t) = true ∧ s'.cnt = s.cnt - 1))
    (hz : ∀ u, needsZero sp (upd s.pc t q u) = true → s'.cnt = 0)
    (hf : ∀ u, flagged (upd s.pc t q u) = true → s'.flag = true)
    (hf' : s'.flag = true → ∃ u, flagged (upd s.pc t q u) = true)
    (hwake : ∀ u, (upd s.pc t q u = .wl4 ∨ upd s.pc t q u = .wl5) → s'.cnt = 0 →
      ∃ v, upd s.pc t q v = .ru3 ∨ upd s.pc t q v = .ru4 ∨ upd s.pc t q v = .ru5) : Inv sp s' where
  w := by rw [hpc]; exact own_step holdsW s.pc s.wOwn s'.wOwn t q h.w hw
  r := by rw [hpc]; exact own_step holdsR s.pc s.rOwn s'.rOwn t q h.r hr
  c := by rw [hpc]; exact cnt_step s.pc s.cnt s'.cnt t q h.c hc
  z := by rw [hpc]; exact hz
  f := by rw [hpc]; exact hf
  f' := by rw [hpc]; exact hf'
  wake := by rw [hpc]; exact hwake

theorem Inv.exclW {s : Inner T} (h : Inv sp s) {t u : T} (ht : holdsW (s.pc t) = true) (hu : holdsW (s.pc u) = true) : u = t := by
  have h1 := (h.w t).1 ht
  have h2 := (h.w u).1 hu
  rw [h1] at h2; injection h2 with h2; exact h2.symm

theorem Inv.exclR {s : Inner T} (h : Inv sp s) {t u : T} (ht : holdsR (s.pc t) = true) (hu : holdsR (s.pc u) = true) : u = t := by
  have h1 := (h.r t).1 ht
  have h2 := (h.r u).1 hu
  rw [h1] at h2; injection h2 with h2; exact h2.symm

theorem flagged_holdsW {p : Pc} (h : flagged p = true) : holdsW p = true := by
  cases p <;> simp_all [flagged, holdsW]

theorem needsZero_holds {p : Pc} (h : needsZero sp p = true) : holdsW p = true ∨ holdsR p = true := by
  cases p <;> simp_all [needsZero, holdsW, holdsR]

/-- A local step between program points that only differ in bookkeeping-neutral ways. -/
theorem Inv.quiet {s : Inner T} (h : Inv sp s) (t : T) (q : Pc) (s' : Inner T)
    (hpc : s'.pc = upd s.pc t q)
    (hw : (holdsW q = holdsW (s.pc t) ∧ s'.wOwn = s.wOwn) ∨ (holdsW q = true ∧ s.wOwn = none ∧ s'.wOwn = some t) ∨
      (holdsW q = false ∧ holdsW (s.pc t) = true ∧ s'.wOwn = none))
    (hr : (holdsR q = holdsR (s.pc t) ∧ s'.rOwn = s.rOwn) ∨ (holdsR q = true ∧ s.rOwn = none ∧ s'.rOwn = some t) ∨
      (holdsR q = false ∧ holdsR (s.pc t) = true ∧ s'.rOwn = none))
    (hc : registered q = registered (s.pc t)) (hcnt : s'.cnt = s.cnt) (hflag : s'.flag = s.flag)
    (hz : needsZero sp q = true → s.cnt = 0)
    (hf : flagged q = flagged (s.pc t))
    (hwk : (q = .wl4 ∨ q = .wl5) → s.cnt = 0 → s.pc t = .wl4 ∨ s.pc t = .wl5)
    (hru : (s.pc t = .ru3 ∨ s.pc t = .ru4 ∨ s.pc t = .ru5) → s.cnt = 0 → (q = .ru3 ∨ q = .ru4 ∨ q = .ru5) ∨
      (∀ u, ¬ (s.pc u = .wl4 ∨ s.pc u = .wl5))) : Inv sp s' := by
  refine h.local_step t q s' hpc hw hr (Or.inl ⟨hc, hcnt⟩) ?_ ?_ ?_ ?_
  · intro u hu
    rw [hcnt]
    by_cases e : u = t
    · subst e; rw [upd_same] at hu; exact hz hu
    · rw [upd_other _ _ _ _ e] at hu; exact h.z u hu
  · intro u hu
    rw [hflag]
    by_cases e : u = t
    · subst e; rw [upd_same, hf] at hu; exact h.f u hu
    · rw [upd_other _ _ _ _ e] at hu; exact h.f u hu
  · intro hfl
    rw [hflag] at hfl
    obtain ⟨u, hu⟩ := h.f' hfl
    refine ⟨u, ?_⟩
    by_cases e : u = t
    · subst e; rw [upd_same, hf]; exact hu
    · rw [upd_other _ _ _ _ e]; exact hu
  · intro u hu h0
    rw [hcnt] at h0
    have hu' : s.pc u = .wl4 ∨ s.pc u = .wl5 := by
      by_cases e : u = t
      · subst e; rw [upd_same] at hu; exact hwk hu h0
      · rw [upd_other _ _ _ _ e] at hu; exact hu
    obtain ⟨v, hv⟩ := h.wake u hu' h0
    by_cases e : v = t
    · subst e
      rcases hru hv h0 with hq | hq
      · exact ⟨v, by rw [upd_same]; exact hq⟩
      · exact absurd hu' (hq u)
    · exact ⟨v, by rw [upd_other _ _ _ _ e]; exact hv⟩

theorem Inv.istep {s s' : Inner T} {t : T} (h : Inv sp s) {sp' : Bool} (hle : sp' = true → sp = true) (hs : IStep sp' s t s') : Inv sp s' := by
  cases hs with
  | rl1 hp ho =>
    exact h.quiet t .rl2 _ rfl (by simp [holdsW, ho]) (by simp [holdsR, hp, Inner.goto]) (by simp [registered, hp]) rfl rfl
      (by simp [needsZero]) (by simp [flagged, hp]) (by simp) (by simp [hp])
  | rl2 hp ho =>
    exact h.quiet t .rl3 _ rfl (by simp [holdsW, hp, Inner.goto]) (by simp [holdsR, ho]) (by simp [registered, hp]) rfl rfl
      (by simp [needsZero]) (by simp [flagged, hp]) (by simp) (by simp [hp])
  | rl3 hp =>
    have hW : holdsW (s.pc t) = true := by rw [hp]; rfl
    have hR : holdsR (s.pc t) = true := by rw [hp]; rfl
    refine h.local_step t .rl4 _ rfl (by simp [holdsW, hp, Inner.goto]) (by simp [holdsR, hp, Inner.goto])
      (Or.inr (Or.inl ⟨rfl, by rw [hp]; rfl, rfl⟩)) ?_ ?_ ?_ ?_
    · intro u hu
      by_cases e : u = t
      · subst e; rw [upd_same] at hu; simp [needsZero] at hu
      · rw [upd_other _ _ _ _ e] at hu
        rcases needsZero_holds hu with h1 | h1
        · exact absurd (h.exclW hW h1) e
        · exact absurd (h.exclR hR h1) e
    · intro u hu
      by_cases e : u = t
      · subst e; rw [upd_same] at hu; simp [flagged] at hu
      · rw [upd_other _ _ _ _ e] at hu; exact h.f u hu
    · intro hfl
      obtain ⟨u, hu⟩ := h.f' hfl
      refine ⟨u, ?_⟩
      by_cases e : u = t
      · subst e; rw [hp] at hu; simp [flagged] at hu
      · rw [upd_other _ _ _ _ e]; exact hu
    · intro u _ h0; have := h.nonneg; simp only at h0; omega
  | rl4 hp =>
    exact h.quiet t .rl5 _ rfl (by simp [holdsW, hp, Inner.goto]) (by simp [holdsR, hp]) (by simp [registered, hp]) rfl rfl
      (by simp [needsZero]) (by simp [flagged, hp]) (by simp) (by simp [hp])
  | rl5 hp =>
    exact h.quiet t .reading _ rfl (by simp [holdsW, hp]) (by simp [holdsR, hp, Inner.goto]) (by simp [registered, hp]) rfl rfl
      (by simp [needsZero]) (by simp [flagged, hp]) (by simp) (by simp [hp])
  | ru1 hp ho =>
    exact h.quiet t .ru2 _ rfl (by simp [holdsW, hp, Inner.goto]) (by simp [holdsR, ho]) (by simp [registered, hp]) rfl rfl
      (by simp [needsZero]) (by simp [flagged, hp]) (by simp) (by simp [hp])
  | ru2 hp =>
    refine h.local_step t .ru3 _ rfl (by simp [holdsW, hp, Inner.goto]) (by simp [holdsR, hp, Inner.goto])
      (Or.inr (Or.inr ⟨rfl, by rw [hp]; rfl, rfl⟩)) ?_ ?_ ?_ ?_
    · intro u hu
      by_cases e : u = t
      · subst e; rw [upd_same] at hu; simp [needsZero] at hu
      · rw [upd_other _ _ _ _ e] at hu
        have := h.z u hu
        have := h.pos (t := t) (by rw [hp]; rfl)
        omega
    · intro u hu
      by_cases e : u = t
      · subst e; rw [upd_same] at hu; simp [flagged] at hu
      · rw [upd_other _ _ _ _ e] at hu; exact h.f u hu
    · intro hfl
      obtain ⟨u, hu⟩ := h.f' hfl
      refine ⟨u, ?_⟩
      by_cases e : u = t
      · subst e; rw [hp] at hu; simp [flagged] at hu
      · rw [upd_other _ _ _ _ e]; exact hu
    · intro u _ h0; exact ⟨t, by rw [upd_same]; simp⟩
  | ru3 hp =>
    by_cases h0 : s.cnt = 0
    · simp only [h0, if_true]
      exact h.quiet t .ru4 _ rfl (by simp [holdsW, hp, Inner.goto]) (by simp [holdsR, hp, Inner.goto]) (by simp [registered, hp]) rfl rfl
        (by simp [h0]) (by simp [flagged, hp]) (by simp) (by simp)
    · simp only [h0, if_false]
      exact h.quiet t .ru6 _ rfl (by simp [holdsW, hp, Inner.goto]) (by simp [holdsR, hp, Inner.goto]) (by simp [registered, hp]) rfl rfl
        (by simp [needsZero]) (by simp [flagged, hp]) (by simp) (by intro _ h1; exact absurd h1 h0)
  | ru4 hp =>
    have h0 : s.cnt = 0 := h.z t (by rw [hp]; rfl)
    cases hfl : s.flag with
    | true =>
      simp only [if_true]
      exact h.quiet t .ru5 _ rfl (by simp [holdsW, hp, Inner.goto]) (by simp [holdsR, hp, Inner.goto]) (by simp [registered, hp]) rfl rfl
        (by simp [h0]) (by simp [flagged, hp]) (by simp) (by simp)
    | false =>
      simp only [Bool.false_eq_true, if_false]
      refine h.quiet t .ru6 _ rfl (by simp [holdsW, hp, Inner.goto]) (by simp [holdsR, hp, Inner.goto]) (by simp [registered, hp]) rfl rfl
        (by simp [needsZero]) (by simp [flagged, hp]) (by simp) (fun _ _ => Or.inr ?_)
      intro u hu
      have : s.flag = true := h.f u (by rcases hu with hu | hu <;> rw [hu] <;> rfl)
      rw [hfl] at this; simp at this
  | ru5 hp =>
    have h0 : s.cnt = 0 := h.z t (by rw [hp]; rfl)
    have hpc : ∀ u, (s.notify.goto t .ru4).pc u = if u = t then .ru4 else if s.pc u = .wl5 then .wl6 else s.pc u := by
      intro u; rfl
    have cls : ∀ (g : Pc → Bool), g .ru4 = g .ru5 → g .wl6 = g .wl5 → ∀ u, g ((s.notify.goto t .ru4).pc u) = g (s.pc u) := by
      intro g h1 h2 u
      rw [hpc]
      by_cases e : u = t
      · subst e; rw [if_pos rfl, hp, h1]
      · rw [if_neg e]
        by_cases e2 : s.pc u = .wl5
        · rw [if_pos e2, e2, h2]
        · rw [if_neg e2]
    refine ⟨?_, ?_, ?_, ?_, ?_, ?_, ?_⟩
    · intro u; rw [cls holdsW rfl rfl]; exact h.w u
    · intro u; rw [cls holdsR rfl rfl]; exact h.r u
    · obtain ⟨regs, a, b, c⟩ := h.c
      exact ⟨regs, a, fun u => by rw [cls registered rfl rfl]; exact b u, c⟩
    · intro u _; exact h0
    · intro u hu; rw [cls flagged rfl rfl] at hu; exact h.f u hu
    · intro hfl; obtain ⟨u, hu⟩ := h.f' hfl; exact ⟨u, by rw [cls flagged rfl rfl]; exact hu⟩
    · intro u _ _; exact ⟨t, by rw [hpc, if_pos rfl]; simp⟩
  | ru6 hp =>
    exact h.quiet t .idle _ rfl (by simp [holdsW, hp, Inner.goto]) (by simp [holdsR, hp]) (by simp [registered, hp]) rfl rfl
      (by simp [needsZero]) (by simp [flagged, hp]) (by simp) (by simp [hp])
  | wl1 hp ho =>
    exact h.quiet t .wl2 _ rfl (by simp [holdsW, ho]) (by simp [holdsR, hp, Inner.goto]) (by simp [registered, hp]) rfl rfl
      (by simp [needsZero]) (by simp [flagged, hp]) (by simp) (by simp [hp])
  | wl2 hp =>
    refine h.local_step t .wl3 _ rfl (by simp [holdsW, hp, Inner.goto]) (by simp [holdsR, hp, Inner.goto])
      (Or.inl ⟨by rw [hp]; rfl, rfl⟩) ?_ ?_ ?_ ?_
    · intro u hu
      by_cases e : u = t
      · subst e; rw [upd_same] at hu; simp [needsZero] at hu
      · rw [upd_other _ _ _ _ e] at hu; exact h.z u hu
    · intro u hu; rfl
    · intro _; exact ⟨t, by rw [upd_same]; rfl⟩
    · intro u hu h0
      by_cases e : u = t
      · subst e; rw [upd_same] at hu; simp at hu
      · rw [upd_other _ _ _ _ e] at hu
        exact absurd (h.exclW (t := t) (u := u) (by rw [hp]; rfl) (by rcases hu with hu | hu <;> rw [hu] <;> rfl)) e
  | wl3 hp =>
    by_cases h0 : s.cnt > 0
    · simp only [h0, if_true]
      refine h.quiet t .wl4 _ rfl (by simp [holdsW, hp, Inner.goto]) (by simp [holdsR, hp, Inner.goto]) (by simp [registered, hp]) rfl rfl
        (by simp [needsZero]) (by simp [flagged, hp]) (by intro _ h1; omega) (by intro _ h1; omega)
    · simp only [h0, if_false]
      exact h.quiet t .wl6 _ rfl (by simp [holdsW, hp, Inner.goto]) (by simp [holdsR, hp, Inner.goto]) (by simp [registered, hp]) rfl rfl
        (by intro _; have := h.nonneg; omega) (by simp [flagged, hp]) (by simp) (by simp [hp])
  | wl4 hp =>
    exact h.quiet t .wl5 _ rfl (by simp [holdsW, hp, Inner.goto]) (by simp [holdsR, hp, Inner.goto]) (by simp [registered, hp]) rfl rfl
      (by simp [needsZero]) (by simp [flagged, hp]) (by simp [hp]) (by simp [hp])
  | spurious hsp hp =>
    exact h.quiet t .wl6 _ rfl (by simp [holdsW, hp, Inner.goto]) (by simp [holdsR, hp, Inner.goto]) (by simp [registered, hp]) rfl rfl
      (by simp [needsZero, hle hsp]) (by simp [flagged, hp]) (by simp) (by simp [hp])
  | wl6 hp =>
    refine h.local_step t .writing _ rfl (by simp [holdsW, hp, Inner.goto]) (by simp [holdsR, hp, Inner.goto])
      (Or.inl ⟨by rw [hp]; rfl, rfl⟩) ?_ ?_ ?_ ?_
    · intro u hu
      by_cases e : u = t
      · subst e; rw [upd_same] at hu; exact h.z u (by rw [hp]; exact hu)
      · rw [upd_other _ _ _ _ e] at hu; exact h.z u hu
    · intro u hu
      by_cases e : u = t
      · subst e; rw [upd_same] at hu; simp [flagged] at hu
      · rw [upd_other _ _ _ _ e] at hu
        exact absurd (h.exclW (t := t) (by rw [hp]; rfl) (flagged_holdsW hu)) e
    · intro hh; simp at hh
    · intro u hu h1
      by_cases e : u = t
      · subst e; rw [upd_same] at hu; simp at hu
      · rw [upd_other _ _ _ _ e] at hu
        exact absurd (h.exclW (t := t) (u := u) (by rw [hp]; rfl) (by rcases hu with hu | hu <;> rw [hu] <;> rfl)) e
  | wu1 hp =>
    exact h.quiet t .idle _ rfl (by simp [holdsW, hp]) (by simp [holdsR, hp, Inner.goto]) (by simp [registered, hp]) rfl rfl
      (by simp [needsZero]) (by simp [flagged, hp]) (by simp) (by simp [hp])

/-- Starting a call from `p` to `q` keeps the invariant. -/
theorem Inv.call {s : Inner T} (h : Inv sp s) (t : T) (q : Pc)
    (hq : (s.pc t = .idle ∧ (q = .rl1 ∨ q = .wl1)) ∨ (s.pc t = .reading ∧ q = .ru1) ∨ (s.pc t = .writing ∧ q = .wu1)) :
    Inv sp (s.goto t q) := by
  rcases hq with ⟨hp, rfl | rfl⟩ | ⟨hp, rfl⟩ | ⟨hp, rfl⟩
  all_goals
    refine h.quiet t _ _ rfl (by simp [holdsW, hp, Inner.goto]) (by simp [holdsR, hp, Inner.goto]) (by simp [registered, hp]) rfl rfl
      ?_ (by simp [flagged, hp]) (by simp) (by simp [hp])
  · simp [needsZero]
  · simp [needsZero]
  · simp [needsZero]
  · intro hz; exact h.z t (by rw [hp]; exact hz)

theorem Inv.reach {s : Inner T} (h : Reach sp s) : Inv sp s := by
  induction h with
  | init => exact Inv.init
  | step s s' _ hs ih =>
    cases hs with
    | callRL t hp => exact ih.call t _ (by simp [hp])
    | callRU t hp => exact ih.call t _ (by simp [hp])
    | callWL t hp => exact ih.call t _ (by simp [hp])
    | callWU t hp => exact ih.call t _ (by simp [hp])
    | inside t _ hi => exact ih.istep (fun e => e) hi

/-- Mutual exclusion at the level of the invariant. -/
theorem Inv.exclusion {s : Inner T} (h : Inv false s) {t u : T} (ht : s.pc t = .writing) (hne : u ≠ t) :
    registered (s.pc u) = false ∧ s.pc u ≠ .writing ∧ s.pc u ≠ .wl6 ∧ s.pc u ≠ .wu1 := by
  have h0 : s.cnt = 0 := h.z t (by rw [ht]; rfl)
  obtain ⟨regs, -, hm, hl⟩ := h.c
  have hnil : regs = [] := by apply List.eq_nil_of_length_eq_zero; omega
  have hW : holdsW (s.pc t) = true := by rw [ht]; rfl
  refine ⟨?_, ?_, ?_, ?_⟩
  · have := hm u; rw [hnil] at this; simp at this; exact this
  · intro e; exact hne (h.exclW hW (by rw [e]; rfl))
  · intro e; exact hne (h.exclW hW (by rw [e]; rfl))
  · intro e; exact hne (h.exclW hW (by rw [e]; rfl))

end MVault.Mtx
