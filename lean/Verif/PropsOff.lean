import Verif.OffModel
import Verif.PropsRefuted
import Verif.PropsAny
/-
C112: the switched-off mutex of a record set.
-/
set_option linter.unusedSectionVars false
set_option linter.unusedSimpArgs false
set_option linter.unusedVariables false
namespace MVault.Mtx
variable {T : Type} [DecidableEq T] {M : Type} [DecidableEq M]

/-! ### Specification -/

/-- The same state with every lock object on a switched-off mutex crossed out: what there would be if those lock objects had never been made.
Specification, models no code. -/
def OSys.without (x : OSys M T) : Sys M T := { x.sys with stack := fun t => (x.sys.stack t).filter fun e => x.act e.2 }

/-- No thread works with two switched-on mutexes at once; with switched-off ones it may work as it likes. Specification, models no code. -/
def OneOn (x : OSys M T) : Prop :=
  ∀ t, ∃ m, (∀ e ∈ x.sys.stack t, x.act e.2 = true → e.2 = m) ∧ ∀ m', (x.sys.job t).mtx = some m' → m' = m

/-- Reachable in histories in which no thread ever works with two switched-on mutexes at once. Specification, models no code. -/
inductive OReachOne (sp : Bool) : OSys M T → Prop
  | init : OReachOne sp (OSys.init M T)
  | step (x x') : OReachOne sp x → OStep sp x x' → OneOn x' → OReachOne sp x'

/-- One step, without spurious wake-ups, in which no thread asks for a new lock and no mutex is switched off: a thread in user code stays as it is, or has released its
innermost lock (object), or has begun to release it. Specification, models no code. -/
def OReleases (x x' : OSys M T) : Prop :=
  OStep false x x' ∧ x'.act = x.act ∧ ∀ t, x.sys.job t = .free →
    (x'.sys.stack t = x.sys.stack t ∧ (x'.sys.job t = .free ∨ ∃ m, x'.sys.job t = .ru m ∨ x'.sys.job t = .wuRelease m)) ∨
    (x'.sys.job t = .free ∧ x'.sys.stack t = (x.sys.stack t).tail)

/-- Any number of such steps. Specification, models no code. -/
inductive ODrain : OSys M T → OSys M T → Prop
  | refl (x) : ODrain x x
  | step (x x1 x2) : OReleases x x1 → ODrain x1 x2 → ODrain x x2

/-- The mutex the pending call of a thread is about is switched on, and a call that releases a lock is about the innermost one. -/
def JobOk (x : OSys M T) (t : T) : Prop :=
  match x.sys.job t with
  | .free => True
  | .rl m | .wlRelease m | .wl m => x.act m = true
  | .ru m => x.act m = true ∧ ∃ rest, x.sys.stack t = (.R, m) :: rest
  | .wuRelease m | .wuReacquire m => x.act m = true ∧ ∃ rest, x.sys.stack t = (.W, m) :: rest

theorem OSys.init_without : (OSys.init M T).without = Sys.init M T := rfl

theorem SStepAt.step {sp : Bool} {m : M} {s s' : Sys M T} (h : SStepAt sp m s s') : SStep sp s s' := by
  cases h with
  | inside t i' hi => exact .inside _ t m i' hi
  | readLockFast t h1 h2 => exact .readLockFast _ t m h1 h2
  | readLockCall t h1 h2 h3 => exact .readLockCall _ t m h1 h2 h3
  | readLockDone t h1 h2 => exact .readLockDone _ t m h1 h2
  | readUnlockFast t rest h1 h2 h3 => exact .readUnlockFast _ t m rest h1 h2 h3
  | readUnlockCall t rest h1 h2 h3 h4 => exact .readUnlockCall _ t m rest h1 h2 h3 h4
  | readUnlockDone t h1 h2 => exact .readUnlockDone _ t m h1 h2
  | writeLockFast t h1 h2 => exact .writeLockFast _ t m h1 h2
  | writeLockUpgrade t h1 h2 h3 => exact .writeLockUpgrade _ t m h1 h2 h3
  | writeLockUpgraded t h1 h2 => exact .writeLockUpgraded _ t m h1 h2
  | writeLockCall t h1 h2 h3 => exact .writeLockCall _ t m h1 h2 h3
  | writeLockDone t h1 h2 => exact .writeLockDone _ t m h1 h2
  | writeUnlockFast t rest h1 h2 h3 => exact .writeUnlockFast _ t m rest h1 h2 h3
  | writeUnlockCall t rest h1 h2 h3 => exact .writeUnlockCall _ t m rest h1 h2 h3
  | writeUnlockDone t h1 h2 h3 => exact .writeUnlockDone _ t m h1 h2 h3
  | writeUnlockReacquire t h1 h2 h3 => exact .writeUnlockReacquire _ t m h1 h2 h3
  | writeUnlockReacquired t h1 h2 => exact .writeUnlockReacquired _ t m h1 h2

theorem SStep.at {sp : Bool} {s s' : Sys M T} (h : SStep sp s s') : ∃ m, SStepAt sp m s s' := by
  cases h with
  | inside t m i' hi => exact ⟨m, .inside _ t i' hi⟩
  | readLockFast t m h1 h2 => exact ⟨m, .readLockFast _ t h1 h2⟩
  | readLockCall t m h1 h2 h3 => exact ⟨m, .readLockCall _ t h1 h2 h3⟩
  | readLockDone t m h1 h2 => exact ⟨m, .readLockDone _ t h1 h2⟩
  | readUnlockFast t m rest h1 h2 h3 => exact ⟨m, .readUnlockFast _ t rest h1 h2 h3⟩
  | readUnlockCall t m rest h1 h2 h3 h4 => exact ⟨m, .readUnlockCall _ t rest h1 h2 h3 h4⟩
  | readUnlockDone t m h1 h2 => exact ⟨m, .readUnlockDone _ t h1 h2⟩
  | writeLockFast t m h1 h2 => exact ⟨m, .writeLockFast _ t h1 h2⟩
  | writeLockUpgrade t m h1 h2 h3 => exact ⟨m, .writeLockUpgrade _ t h1 h2 h3⟩
  | writeLockUpgraded t m h1 h2 => exact ⟨m, .writeLockUpgraded _ t h1 h2⟩
  | writeLockCall t m h1 h2 h3 => exact ⟨m, .writeLockCall _ t h1 h2 h3⟩
  | writeLockDone t m h1 h2 => exact ⟨m, .writeLockDone _ t h1 h2⟩
  | writeUnlockFast t m rest h1 h2 h3 => exact ⟨m, .writeUnlockFast _ t rest h1 h2 h3⟩
  | writeUnlockCall t m rest h1 h2 h3 => exact ⟨m, .writeUnlockCall _ t rest h1 h2 h3⟩
  | writeUnlockDone t m h1 h2 h3 => exact ⟨m, .writeUnlockDone _ t h1 h2 h3⟩
  | writeUnlockReacquire t m h1 h2 h3 => exact ⟨m, .writeUnlockReacquire _ t h1 h2 h3⟩
  | writeUnlockReacquired t m h1 h2 => exact ⟨m, .writeUnlockReacquired _ t h1 h2⟩

theorem without_stack (x : OSys M T) (t : T) : x.without.stack t = (x.sys.stack t).filter fun e => x.act e.2 := rfl

theorem filter_upd (x : OSys M T) (t : T) (l : List (Kind × M)) :
    (fun u => (upd x.sys.stack t l u).filter fun e => x.act e.2) = upd x.without.stack t (l.filter fun e => x.act e.2) := by
  funext u; by_cases h : u = t <;> simp [upd, h, OSys.without]

/-- A step on a switched-on mutex is the same step without the other lock objects. -/
theorem on_step {sp : Bool} {x : OSys M T} {m : M} {s' : Sys M T} (hm : x.act m = true) (hj : ∀ t, JobOk x t) (h : SStepAt sp m x.sys s') :
    SStepAt sp m x.without ({ x with sys := s' } : OSys M T).without ∧ ∀ t, JobOk ({ x with sys := s' } : OSys M T) t := by
  have keep : ∀ {s'' : Sys M T} (t : T), (∀ u, u ≠ t → s''.job u = x.sys.job u ∧ s''.stack u = x.sys.stack u) → JobOk ({ x with sys := s'' } : OSys M T) t →
      ∀ u, JobOk ({ x with sys := s'' } : OSys M T) u := by
    intro s'' t h1 h2 u
    by_cases hu : u = t
    · rw [hu]; exact h2
    · have := hj u
      simp only [JobOk, (h1 u hu).1, (h1 u hu).2] at this ⊢
      exact this
  have fl : ∀ (t : T) (k : Kind) (rest : List (Kind × M)), x.sys.stack t = (k, m) :: rest →
      x.without.stack t = (k, m) :: rest.filter fun e => x.act e.2 := by
    intro t k rest e; simp [OSys.without, e, hm]
  have tl : ∀ (t : T) (k : Kind), (∃ rest, x.sys.stack t = (k, m) :: rest) →
      (x.sys.stack t).tail.filter (fun e => x.act e.2) = (x.without.stack t).tail := by
    rintro t k ⟨rest, e⟩; rw [fl t k rest e, e]; rfl
  cases h with
  | inside t i' hi => exact ⟨.inside x.without t i' hi, hj⟩
  | readLockFast t h1 h2 =>
    refine ⟨?_, keep t (fun u hu => ⟨rfl, upd_other _ _ _ _ hu⟩) (by simp [JobOk, h1])⟩
    have := SStepAt.readLockFast (sp := sp) (m := m) x.without t h1 h2
    simp only [OSys.without, filter_upd, List.filter_cons, hm, if_true] at this ⊢
    exact this
  | readLockCall t h1 h2 h3 =>
    exact ⟨.readLockCall x.without t h1 h2 h3, keep t (fun u hu => ⟨upd_other _ _ _ _ hu, rfl⟩) (by simp [JobOk, Sys.call, upd_same, hm])⟩
  | readLockDone t h1 h2 =>
    refine ⟨?_, keep t (fun u hu => ⟨upd_other _ _ _ _ hu, upd_other _ _ _ _ hu⟩) (by simp [JobOk, upd_same])⟩
    have := SStepAt.readLockDone (sp := sp) (m := m) x.without t h1 h2
    simp only [OSys.without, filter_upd, List.filter_cons, hm, if_true] at this ⊢
    exact this
  | readUnlockFast t rest h1 h2 h3 =>
    refine ⟨?_, keep t (fun u hu => ⟨rfl, upd_other _ _ _ _ hu⟩) (by simp [JobOk, h1])⟩
    have := SStepAt.readUnlockFast (sp := sp) (m := m) x.without t _ h1 (fl t _ _ h2) h3
    simp only [OSys.without, filter_upd] at this ⊢
    exact this
  | readUnlockCall t rest h1 h2 h3 h4 =>
    exact ⟨.readUnlockCall x.without t _ h1 (fl t _ _ h2) h3 h4, keep t (fun u hu => ⟨upd_other _ _ _ _ hu, rfl⟩) (by simp [JobOk, Sys.call, upd_same, hm, h2])⟩
  | readUnlockDone t h1 h2 =>
    refine ⟨?_, keep t (fun u hu => ⟨upd_other _ _ _ _ hu, upd_other _ _ _ _ hu⟩) (by simp [JobOk, upd_same])⟩
    have hjt := hj t
    simp only [JobOk, h1] at hjt
    have := SStepAt.readUnlockDone (sp := sp) (m := m) x.without t h1 h2
    rw [← tl t _ hjt.2] at this
    simp only [OSys.without, filter_upd] at this ⊢
    exact this
  | writeLockFast t h1 h2 =>
    refine ⟨?_, keep t (fun u hu => ⟨rfl, upd_other _ _ _ _ hu⟩) (by simp [JobOk, h1])⟩
    have := SStepAt.writeLockFast (sp := sp) (m := m) x.without t h1 h2
    simp only [OSys.without, filter_upd, List.filter_cons, hm, if_true] at this ⊢
    exact this
  | writeLockUpgrade t h1 h2 h3 =>
    exact ⟨.writeLockUpgrade x.without t h1 h2 h3, keep t (fun u hu => ⟨upd_other _ _ _ _ hu, rfl⟩) (by simp [JobOk, Sys.call, upd_same, hm])⟩
  | writeLockUpgraded t h1 h2 =>
    exact ⟨.writeLockUpgraded x.without t h1 h2, keep t (fun u hu => ⟨upd_other _ _ _ _ hu, rfl⟩) (by simp [JobOk, Sys.call, upd_same, hm])⟩
  | writeLockCall t h1 h2 h3 =>
    exact ⟨.writeLockCall x.without t h1 h2 h3, keep t (fun u hu => ⟨upd_other _ _ _ _ hu, rfl⟩) (by simp [JobOk, Sys.call, upd_same, hm])⟩
  | writeLockDone t h1 h2 =>
    refine ⟨?_, keep t (fun u hu => ⟨upd_other _ _ _ _ hu, upd_other _ _ _ _ hu⟩) (by simp [JobOk, upd_same])⟩
    have := SStepAt.writeLockDone (sp := sp) (m := m) x.without t h1 h2
    simp only [OSys.without, filter_upd, List.filter_cons, hm, if_true] at this ⊢
    exact this
  | writeUnlockFast t rest h1 h2 h3 =>
    refine ⟨?_, keep t (fun u hu => ⟨rfl, upd_other _ _ _ _ hu⟩) (by simp [JobOk, h1])⟩
    have := SStepAt.writeUnlockFast (sp := sp) (m := m) x.without t _ h1 (fl t _ _ h2) h3
    simp only [OSys.without, filter_upd] at this ⊢
    exact this
  | writeUnlockCall t rest h1 h2 h3 =>
    exact ⟨.writeUnlockCall x.without t _ h1 (fl t _ _ h2) h3, keep t (fun u hu => ⟨upd_other _ _ _ _ hu, rfl⟩) (by simp [JobOk, Sys.call, upd_same, hm, h2])⟩
  | writeUnlockDone t h1 h2 h3 =>
    refine ⟨?_, keep t (fun u hu => ⟨upd_other _ _ _ _ hu, upd_other _ _ _ _ hu⟩) (by simp [JobOk, upd_same])⟩
    have hjt := hj t
    simp only [JobOk, h1] at hjt
    have := SStepAt.writeUnlockDone (sp := sp) (m := m) x.without t h1 h2 h3
    rw [← tl t _ hjt.2] at this
    simp only [OSys.without, filter_upd] at this ⊢
    exact this
  | writeUnlockReacquire t h1 h2 h3 =>
    have hjt := hj t
    simp only [JobOk, h1] at hjt
    exact ⟨.writeUnlockReacquire x.without t h1 h2 h3, keep t (fun u hu => ⟨upd_other _ _ _ _ hu, rfl⟩) (by simpa [JobOk, Sys.call, upd_same] using hjt)⟩
  | writeUnlockReacquired t h1 h2 =>
    refine ⟨?_, keep t (fun u hu => ⟨upd_other _ _ _ _ hu, upd_other _ _ _ _ hu⟩) (by simp [JobOk, upd_same])⟩
    have hjt := hj t
    simp only [JobOk, h1] at hjt
    have := SStepAt.writeUnlockReacquired (sp := sp) (m := m) x.without t h1 h2
    rw [← tl t _ hjt.2] at this
    simp only [OSys.without, filter_upd] at this ⊢
    exact this

theorem push_without (x : OSys M T) (t : T) (k : Kind) (m : M) (hm : x.act m = false) : (x.push t (k, m)).without = x.without := by
  simp only [OSys.without, OSys.push, filter_upd, List.filter_cons, hm]
  congr 1; funext u; by_cases h : u = t <;> simp [upd, h, OSys.without]

theorem pop_without (x : OSys M T) (t : T) (k : Kind) (m : M) (rest : List (Kind × M)) (hm : x.act m = false) (e : x.sys.stack t = (k, m) :: rest) :
    (x.pop t).without = x.without := by
  simp only [OSys.without, OSys.pop, filter_upd, e, List.tail_cons]
  congr 1; funext u; by_cases h : u = t <;> simp [upd, h, OSys.without, e, hm]

theorem disable_without (x : OSys M T) (m : M) (h : ∀ t k, (k, m) ∉ x.sys.stack t) : ({ x with act := upd x.act m false } : OSys M T).without = x.without := by
  simp only [OSys.without]
  congr 1; funext u
  refine List.filter_congr fun e he => ?_
  obtain ⟨k, m'⟩ := e
  rw [upd_other]
  rintro rfl; exact h u k he

/-- One step: nothing, or the same step, without the lock objects on switched-off mutexes. -/
theorem ostep_without {sp : Bool} {x x' : OSys M T} (hj : ∀ t, JobOk x t) (h : OStep sp x x') :
    (x'.without = x.without ∨ SStep sp x.without x'.without) ∧ ∀ t, JobOk x' t := by
  cases h with
  | on m s' hm hs => exact ⟨.inr (on_step hm hj hs).1.step, (on_step hm hj hs).2⟩
  | lockOff t k m hm hf =>
    refine ⟨.inl (push_without x t k m hm), fun u => ?_⟩
    by_cases hu : u = t
    · subst hu; simp [JobOk, OSys.push, hf]
    · have := hj u; simp only [JobOk, OSys.push, upd_other _ _ _ _ hu] at this ⊢; exact this
  | unlockOff t k m rest hm hf e =>
    refine ⟨.inl (pop_without x t k m rest hm e), fun u => ?_⟩
    by_cases hu : u = t
    · subst hu; simp [JobOk, OSys.pop, hf]
    · have := hj u; simp only [JobOk, OSys.pop, upd_other _ _ _ _ hu] at this ⊢; exact this
  | disable m h1 h2 =>
    refine ⟨.inl (disable_without x m h1), fun u => ?_⟩
    have := hj u
    have h3 := h2 u
    simp only [JobOk] at this ⊢
    cases e : x.sys.job u with
    | free => trivial
    | _ m' =>
      rw [e] at this h3
      have hne : m' ≠ m := fun e' => h3 (by rw [e']; rfl)
      simpa only [upd_other _ _ _ _ hne] using this

theorem OReach.both {sp : Bool} {x : OSys M T} (h : OReach sp x) : SReach sp x.without ∧ ∀ t, JobOk x t := by
  induction h with
  | init => exact ⟨.init, fun t => trivial⟩
  | step x x' _ hs ih =>
    obtain ⟨h1, h2⟩ := ostep_without ih.2 hs
    refine ⟨?_, h2⟩
    rcases h1 with e | h1
    · rw [e]; exact ih.1
    · exact .step _ _ ih.1 h1

theorem OneOn.without {x : OSys M T} (h : OneOn x) : ∀ t, ∃ m, (∀ e ∈ x.without.stack t, e.2 = m) ∧ ∀ m', (x.without.job t).mtx = some m' → m' = m := by
  intro t
  obtain ⟨m, h1, h2⟩ := h t
  exact ⟨m, fun e he => h1 e (List.mem_filter.1 he).1 (List.mem_filter.1 he).2, h2⟩

theorem OReachOne.both {sp : Bool} {x : OSys M T} (h : OReachOne sp x) : SReachOne sp x.without ∧ ∀ t, JobOk x t := by
  induction h with
  | init => exact ⟨.init, fun t => trivial⟩
  | step x x' _ hs ho ih =>
    obtain ⟨h1, h2⟩ := ostep_without ih.2 hs
    refine ⟨?_, h2⟩
    rcases h1 with e | h1
    · rw [e]; exact ih.1
    · exact .step _ _ ih.1 h1 ho.without

/-! ### Going on from a state with switched-off mutexes -/

theorem ODrain.trans {a b c : OSys M T} (h1 : ODrain a b) (h2 : ODrain b c) : ODrain a c := by
  induction h1 with
  | refl => exact h2
  | step s s1 s2 hs _ ih => exact .step _ _ _ hs (ih h2)

theorem ODrain.one {a b : OSys M T} (h : OReleases a b) : ODrain a b := .step _ _ _ h (.refl _)

theorem orel {x x' : OSys M T} (t : T) (h : OStep false x x') (ha : x'.act = x.act) (hj : ∀ u, u ≠ t → x'.sys.job u = x.sys.job u)
    (hs : ∀ u, u ≠ t → x'.sys.stack u = x.sys.stack u)
    (ht : x.sys.job t = .free → (x'.sys.stack t = x.sys.stack t ∧ (x'.sys.job t = .free ∨ ∃ m, x'.sys.job t = .ru m ∨ x'.sys.job t = .wuRelease m)) ∨
      (x'.sys.job t = .free ∧ x'.sys.stack t = (x.sys.stack t).tail)) : OReleases x x' := by
  refine ⟨h, ha, fun u hu => ?_⟩
  by_cases e : u = t
  · subst e; exact ht hu
  · exact .inl ⟨hs u e, .inl (by rw [hj u e]; exact hu)⟩

/-- The innermost lock objects of a thread that are on switched-off mutexes can be destroyed. -/
theorem popOffs (t : T) : ∀ (n : Nat) (x : OSys M T), (x.sys.stack t).length = n → x.sys.job t = .free → (∀ u, JobOk x u) →
    ∃ x', ODrain x x' ∧ x'.without = x.without ∧ (∀ u, JobOk x' u) ∧ x'.act = x.act ∧ x'.sys.job = x.sys.job ∧
      (∀ u, u ≠ t → x'.sys.stack u = x.sys.stack u) ∧ x'.sys.stack t <:+ x.sys.stack t ∧
      ∀ e rest, x'.sys.stack t = e :: rest → x.act e.2 = true := by
  intro n
  induction n with
  | zero => 
    intro x hn hf hj
    have : x.sys.stack t = [] := List.eq_nil_of_length_eq_zero hn
    exact ⟨x, .refl _, rfl, hj, rfl, rfl, fun _ _ => rfl, List.suffix_refl _, fun e rest h => by rw [this] at h; cases h⟩
  | succ n ih =>
    intro x hn hf hj
    cases hst : x.sys.stack t with
    | nil => rw [hst] at hn; cases hn
    | cons e rest =>
      obtain ⟨k, m⟩ := e
      cases hm : x.act m with
      | true => 
        refine ⟨x, .refl _, rfl, hj, rfl, rfl, fun _ _ => rfl, by rw [hst]; exact List.suffix_refl _, fun e rest' h => ?_⟩
        rw [hst] at h; cases h; exact hm
      | false =>
        have hs : OStep false x (x.pop t) := .unlockOff x t k m rest hm hf hst
        have hp : (x.pop t).sys.stack t = rest := by simp [OSys.pop, upd_same, hst]
        obtain ⟨x', d, h1, h2, h3, h4, h5, h6, h7⟩ := ih (x.pop t) (by rw [hp]; rw [hst] at hn; simpa using hn) hf (ostep_without hj hs).2
        refine ⟨x', .step _ _ _ (orel t hs rfl (fun _ _ => rfl) (fun u hu => by simp [OSys.pop, upd_other _ _ _ _ hu]) fun _ => .inr ⟨hf, by simp [OSys.pop, upd_same]⟩) d,
          h1.trans (pop_without x t k m rest hm hst), h2, h3, h4, fun u hu => by rw [h5 u hu]; simp [OSys.pop, upd_other _ _ _ _ hu],
          by rw [hp] at h6; exact h6.trans (List.suffix_cons _ _), h7⟩

/-- A thread that is inside a call of a mutex is doing so on a switched-on one. -/
theorem in_call_on {sp : Bool} {x : OSys M T} (hs : SInv sp x.without) (hj : ∀ t, JobOk x t) (t : T) (m : M) (hp : (x.sys.inner m).pc t ≠ .idle) : x.act m = true := by
  obtain ⟨m0, h1, h2, h3, h4, h5⟩ := hs.thr t
  have e : m = m0 := Classical.byContradiction fun hne => hp (h2 m hne)
  subst e
  have hjt := hj t
  cases hjob : x.sys.job t with
  | free =>
    have e : x.without.job t = .free := hjob
    rw [e] at h5
    cases hst : x.without.stack t with
    | nil =>
      rw [hst] at h5
      simp only [TOk, nW, outerR, if_true] at h5
      exact absurd (phase_idle.1 h5) hp
    | cons e rest =>
      have he : e ∈ x.without.stack t := by rw [hst]; exact List.mem_cons_self ..
      rw [← h1 e he]
      exact (List.mem_filter.1 he).2
  | _ m' =>
    have e : x.without.job t = _ := hjob
    rw [e] at h5
    obtain ⟨rfl, -⟩ := h5
    simp only [JobOk, hjob] at hjt
    first | exact hjt | exact hjt.1

theorem istep_busy {sp : Bool} {i i' : Inner T} {t : T} (h : IStep sp i t i') : i.pc t ≠ .idle := by
  intro e
  cases h <;> simp_all only [reduceCtorEq]

theorem call_without (x : OSys M T) (t : T) (m : M) (p : Pc) (j : Job M) : x.without.call t m p j = ({ x with sys := x.sys.call t m p j } : OSys M T).without := rfl

theorem pop_eq {x x1 : OSys M T} {t : T} {rest1 rest : List (Kind × M)} (e1 : x1.without = x.without) (e2 : x1.act = x.act)
    (e3 : rest1.filter (fun e => x.act e.2) = rest) :
    (fun u => (upd x1.sys.stack t rest1 u).filter fun e => x1.act e.2) = upd (fun u => (x.sys.stack u).filter fun e => x.act e.2) t rest := by
  rw [filter_upd, e1, e2, e3]; rfl

/-- A step of the switched-on mutexes alone, in which no new lock is asked for, can be made with the switched-off ones there: at most some lock objects on those have to
go first. -/
theorem lift_releases [Nonempty M] {sp : Bool} {x : OSys M T} {s' : Sys M T} (hs : SReachOne sp x.without) (hj : ∀ t, JobOk x t) (h : ReleasesAny x.without s') :
    ∃ x', ODrain x x' ∧ x'.without = s' ∧ x'.act = x.act ∧ ∀ t, JobOk x' t := by
  obtain ⟨hstep, hrel⟩ := h
  -- a step of a thread in a call
  have busy : ∀ (m : M) (t : T) (s1 : Sys M T), x.act m = true → SStepAt false m x.sys s1 → ({ x with sys := s1 } : OSys M T).without = s' →
      (∀ u, u ≠ t → s1.job u = x.sys.job u) → (∀ u, u ≠ t → s1.stack u = x.sys.stack u) → 
      (x.sys.job t = .free → s1.stack t = x.sys.stack t ∧ s1.job t = .free) → ∃ x', ODrain x x' ∧ x'.without = s' ∧ x'.act = x.act ∧ ∀ t, JobOk x' t := by
    intro m t s1 hm h1 h2 h3 h4 h5
    have := OStep.on x m s1 hm h1
    exact ⟨_, .one (orel t this rfl h3 h4 fun e => .inl ⟨(h5 e).1, .inl (h5 e).2⟩), h2, rfl, (ostep_without hj this).2⟩
  -- a thread in user code that begins to release, or releases, its innermost lock
  have start : ∀ (t : T) (k : Kind) (m : M) (rest : List (Kind × M)), x.sys.job t = .free → x.without.stack t = (k, m) :: rest →
      (∀ (x1 : OSys M T) (rest1 : List (Kind × M)), x1.without = x.without → x1.act = x.act → x1.sys.stack t = (k, m) :: rest1 →
        rest1.filter (fun e => x.act e.2) = rest →
        ∃ s1, SStepAt false m x1.sys s1 ∧ ({ x1 with sys := s1 } : OSys M T).without = s' ∧
          (∀ u, u ≠ t → s1.job u = x1.sys.job u) ∧ (∀ u, u ≠ t → s1.stack u = x1.sys.stack u) ∧
          ((s1.stack t = x1.sys.stack t ∧ (s1.job t = .free ∨ ∃ m, s1.job t = .ru m ∨ s1.job t = .wuRelease m)) ∨
            (s1.job t = .free ∧ s1.stack t = (x1.sys.stack t).tail))) → ∃ x', ODrain x x' ∧ x'.without = s' ∧ x'.act = x.act ∧ ∀ t, JobOk x' t := by
    intro t k m rest hf hst hgo
    obtain ⟨x1, d, h1, h2, h3, h4, h5, h6, h7⟩ := popOffs t _ x rfl hf hj
    have hst1 : x1.without.stack t = (k, m) :: rest := by rw [h1]; exact hst
    rw [without_stack] at hst1
    cases hx : x1.sys.stack t with
    | nil => rw [hx] at hst1; cases hst1
    | cons e rest1 =>
      have he := h7 e rest1 hx
      rw [hx, h3, List.filter_cons, if_pos he] at hst1
      simp only [List.cons.injEq] at hst1
      obtain ⟨rfl, hr⟩ := hst1
      obtain ⟨s1, g1, g2, g3, g4, g5⟩ := hgo x1 rest1 h1 h3 hx hr
      have := OStep.on x1 m s1 (by rw [h3]; exact he) g1
      exact ⟨_, d.trans (.one (orel t this rfl g3 g4 fun _ => g5)), g2, h3, (ostep_without h2 this).2⟩
  have uj : ∀ (s1 : Sys M T) (t : T) (v : Job M) (u : T), u ≠ t → upd s1.job t v u = s1.job u := fun s1 t v u hu => upd_other _ _ _ _ hu
  have us : ∀ (s1 : Sys M T) (t : T) (v : List (Kind × M)) (u : T), u ≠ t → upd s1.stack t v u = s1.stack u := fun s1 t v u hu => upd_other _ _ _ _ hu
  have tl : ∀ (t : T) (k : Kind) (m : M), x.act m = true → (∃ rest, x.sys.stack t = (k, m) :: rest) →
      (x.sys.stack t).tail.filter (fun e => x.act e.2) = (x.without.stack t).tail := by
    rintro t k m hm ⟨rest, e⟩
    simp [OSys.without, e, hm]
  have busyF : ∀ {t : T} {j : Job M}, x.sys.job t = j → j ≠ .free → ∀ {P : Prop}, x.sys.job t = .free → P := fun h1 h2 _ h3 => absurd (h1.symm.trans h3) h2
  have comp : ∀ {x1 : OSys M T}, x1.without = x.without → x1.sys.inner = x.sys.inner ∧ x1.sys.lr = x.sys.lr ∧ x1.sys.lw = x.sys.lw ∧ x1.sys.job = x.sys.job := by
    intro x1 e
    exact ⟨congrArg (·.inner) e, congrArg (·.lr) e, congrArg (·.lw) e, congrArg (·.job) e⟩
  cases hstep with
  | inside t m i' hi =>
    refine busy m t _ (in_call_on hs.inv hj t m ?_) (.inside x.sys t i' hi) rfl (fun _ _ => rfl) (fun _ _ => rfl) (fun e => ⟨rfl, e⟩)
    exact istep_busy hi
  | readLockFast t m h1 h2 =>
    rcases hrel t h1 with ⟨e, -⟩ | ⟨-, e⟩
    · simp [upd_same] at e
    · have := congrArg List.length e; simp [upd_same] at this; omega
  | readLockCall t m h1 h2 h3 =>
    rcases hrel t h1 with ⟨-, e⟩ | ⟨e, -⟩ <;> simp [Sys.call, upd_same] at e
  | readLockDone t m h1 h2 =>
    have hjt := hj t
    have h1' : x.sys.job t = .rl m := h1
    simp only [JobOk, h1'] at hjt
    refine busy m t _ hjt (.readLockDone x.sys t h1 h2) ?_ (uj _ t _) (us _ t _) (busyF h1' (by simp))
    simp only [OSys.without, filter_upd, List.filter_cons, hjt, if_true]
  | readUnlockFast t m rest h1 h2 h3 =>
    refine start t .R m rest h1 h2 fun x1 rest1 e1 e2 e3 e4 => ?_
    obtain ⟨c1, c2, c3, c4⟩ := comp e1
    refine ⟨_, .readUnlockFast x1.sys t rest1 (by rw [c4]; exact h1) e3 (by rw [c2, c3]; exact h3), ?_, fun _ _ => rfl, us _ t _, .inr ⟨by rw [← h1]; exact congrFun c4 t, by simp [upd_same, e3]⟩⟩
    simp only [OSys.without, pop_eq e1 e2 e4, c1, c2, c3, c4]
    rfl
  | readUnlockCall t m rest h1 h2 h3 h4 =>
    refine start t .R m rest h1 h2 fun x1 rest1 e1 e2 e3 e4 => ?_
    obtain ⟨c1, c2, c3, c4⟩ := comp e1
    refine ⟨_, .readUnlockCall x1.sys t rest1 (by rw [c4]; exact h1) e3 (by rw [c3]; exact h3) (by rw [c2]; exact h4), ?_, uj _ t _, fun _ _ => rfl,
      .inl ⟨rfl, .inr ⟨m, .inl (by simp [Sys.call, upd_same])⟩⟩⟩
    rw [← call_without, e1]
  | readUnlockDone t m h1 h2 =>
    have hjt := hj t
    have h1' : x.sys.job t = .ru m := h1
    simp only [JobOk, h1'] at hjt
    refine busy m t _ hjt.1 (.readUnlockDone x.sys t h1 h2) ?_ (uj _ t _) (us _ t _) (busyF h1' (by simp))
    simp only [OSys.without, filter_upd, tl t _ m hjt.1 hjt.2]
  | writeLockFast t m h1 h2 =>
    rcases hrel t h1 with ⟨e, -⟩ | ⟨-, e⟩
    · simp [upd_same] at e
    · have := congrArg List.length e; simp [upd_same] at this; omega
  | writeLockUpgrade t m h1 h2 h3 =>
    rcases hrel t h1 with ⟨-, e⟩ | ⟨e, -⟩ <;> simp [Sys.call, upd_same] at e
  | writeLockUpgraded t m h1 h2 =>
    have hjt := hj t
    have h1' : x.sys.job t = .wlRelease m := h1
    simp only [JobOk, h1'] at hjt
    exact busy m t _ hjt (.writeLockUpgraded x.sys t h1 h2) rfl (uj _ t _) (fun _ _ => rfl) (busyF h1' (by simp))
  | writeLockCall t m h1 h2 h3 =>
    rcases hrel t h1 with ⟨-, e⟩ | ⟨e, -⟩ <;> simp [Sys.call, upd_same] at e
  | writeLockDone t m h1 h2 =>
    have hjt := hj t
    have h1' : x.sys.job t = .wl m := h1
    simp only [JobOk, h1'] at hjt
    refine busy m t _ hjt (.writeLockDone x.sys t h1 h2) ?_ (uj _ t _) (us _ t _) (busyF h1' (by simp))
    simp only [OSys.without, filter_upd, List.filter_cons, hjt, if_true]
  | writeUnlockFast t m rest h1 h2 h3 =>
    refine start t .W m rest h1 h2 fun x1 rest1 e1 e2 e3 e4 => ?_
    obtain ⟨c1, c2, c3, c4⟩ := comp e1
    refine ⟨_, .writeUnlockFast x1.sys t rest1 (by rw [c4]; exact h1) e3 (by rw [c3]; exact h3), ?_, fun _ _ => rfl, us _ t _, .inr ⟨by rw [← h1]; exact congrFun c4 t, by simp [upd_same, e3]⟩⟩
    simp only [OSys.without, pop_eq e1 e2 e4, c1, c2, c3, c4]
  | writeUnlockCall t m rest h1 h2 h3 =>
    refine start t .W m rest h1 h2 fun x1 rest1 e1 e2 e3 e4 => ?_
    obtain ⟨c1, c2, c3, c4⟩ := comp e1
    refine ⟨_, .writeUnlockCall x1.sys t rest1 (by rw [c4]; exact h1) e3 (by rw [c3]; exact h3), ?_, uj _ t _, fun _ _ => rfl,
      .inl ⟨rfl, .inr ⟨m, .inr (by simp [Sys.call, upd_same])⟩⟩⟩
    rw [← call_without, e1]
  | writeUnlockDone t m h1 h2 h3 =>
    have hjt := hj t
    have h1' : x.sys.job t = .wuRelease m := h1
    simp only [JobOk, h1'] at hjt
    refine busy m t _ hjt.1 (.writeUnlockDone x.sys t h1 h2 h3) ?_ (uj _ t _) (us _ t _) (busyF h1' (by simp))
    simp only [OSys.without, filter_upd, tl t _ m hjt.1 hjt.2]
  | writeUnlockReacquire t m h1 h2 h3 =>
    have hjt := hj t
    have h1' : x.sys.job t = .wuRelease m := h1
    simp only [JobOk, h1'] at hjt
    exact busy m t _ hjt.1 (.writeUnlockReacquire x.sys t h1 h2 h3) rfl (uj _ t _) (fun _ _ => rfl) (busyF h1' (by simp))
  | writeUnlockReacquired t m h1 h2 =>
    have hjt := hj t
    have h1' : x.sys.job t = .wuReacquire m := h1
    simp only [JobOk, h1'] at hjt
    refine busy m t _ hjt.1 (.writeUnlockReacquired x.sys t h1 h2) ?_ (uj _ t _) (us _ t _) (busyF h1' (by simp))
    simp only [OSys.without, filter_upd, tl t _ m hjt.1 hjt.2]

theorem lift_drain [Nonempty M] {sp : Bool} {s s' : Sys M T} (h : DrainAll s s') : ∀ {x : OSys M T}, x.without = s → SReachOne sp s → (∀ t, JobOk x t) →
    ∃ x', ODrain x x' ∧ x'.without = s' ∧ x'.act = x.act ∧ ∀ t, JobOk x' t := by
  induction h with
  | refl s => intro x e hs hj; exact ⟨x, .refl _, e, rfl, hj⟩
  | step s s1 s2 hr _ ih =>
    intro x e hs hj
    subst e
    obtain ⟨x1, d1, e1, a1, j1⟩ := lift_releases hs hj hr
    obtain ⟨x2, d2, e2, a2, j2⟩ := ih e1 (hr.reach hs) j1
    exact ⟨x2, d1.trans d2, e2, a2.trans a1, j2⟩

/-- At the end the lock objects that are left, all of them on switched-off mutexes, can go. -/
theorem pop_all : ∀ (ts : List T) (x : OSys M T), (∀ t, JobOk x t) → (∀ t, x.sys.job t = .free) → (∀ t, x.without.stack t = []) →
    ∃ x', ODrain x x' ∧ x'.without = x.without ∧ x'.act = x.act ∧ x'.sys.job = x.sys.job ∧
      (∀ t, x.sys.stack t = [] → x'.sys.stack t = []) ∧ ∀ t ∈ ts, x'.sys.stack t = []
  | [], x, _, _, _ => ⟨x, .refl _, rfl, rfl, rfl, fun _ h => h, fun _ h => nomatch h⟩
  | t :: ts, x, hj, hf, he => by
    obtain ⟨x1, d1, e1, j1, a1, f1, u1, s1, h1⟩ := popOffs t _ x rfl (hf t) hj
    have ht : x1.sys.stack t = [] := by
      cases hx : x1.sys.stack t with
      | nil => rfl
      | cons e rest =>
        have hv : x1.without.stack t = [] := by rw [e1]; exact he t
        rw [without_stack, hx, a1, List.filter_cons, if_pos (h1 e rest hx)] at hv
        cases hv
    obtain ⟨x2, d2, e2, a2, f2, k2, g2⟩ := pop_all ts x1 j1 (fun u => by rw [f1]; exact hf u) (fun u => by rw [e1]; exact he u)
    refine ⟨x2, d1.trans d2, e2.trans e1, a2.trans a1, f2.trans f1, fun u hu => k2 u ?_, fun u hu => ?_⟩
    · by_cases e : u = t
      · rw [e]; exact ht
      · rw [u1 u e]; exact hu
    · rcases List.mem_cons.1 hu with rfl | hu
      · exact k2 _ ht
      · exact g2 u hu

/-! ### Theorems -/

/-- C112: whatever threads do with switched-off mutexes, in any nesting with others - the state is one that is reachable by working with the switched-on mutexes alone: the same
calls in progress, the same counters, the same locks on them. So everything proved of vaults alone (C42, C43, C53, C74) holds of vaults and sets together. -/
theorem C112_as_if_absent {sp : Bool} (x : OSys M T) (h : OReach sp x) : SReach sp x.without := h.both.1

/-- C112: so a write lock on a switched-on mutex excludes every other lock on it, however many lock objects on switched-off mutexes are made in between. -/
theorem C112_exclusion (x : OSys M T) (h : OReachOne false x) (t u : T) (hne : u ≠ t) (m : M) (hm : x.act m = true)
    (htf : x.sys.job t = .free) (huf : x.sys.job u = .free) (ht : (Kind.W, m) ∈ x.sys.stack t) (k : Kind) : (k, m) ∉ x.sys.stack u := fun hu =>
  C43_independent_partial x.without h.both.1 t u hne m htf huf (List.mem_filter.2 ⟨ht, hm⟩) k (List.mem_filter.2 ⟨hu, hm⟩)

/-- C112: switched-off mutexes never block anything. From every reachable state in which no thread works with two switched-on mutexes at once - any number of threads, of
vaults and of sets, lock objects of both kinds nested in any way, any schedule, with or without spurious wake-ups so far - the threads can go on, asking for no new lock, until every call
has returned and every lock object, of either kind, is gone. -/
theorem C112_never_stuck [Nonempty M] {sp : Bool} (ts : List T) (hts : ∀ t, t ∈ ts) (ms : List M) (hms : ∀ m, m ∈ ms) (x : OSys M T) (h : OReachOne sp x) :
    ∃ x', ODrain x x' ∧ x'.act = x.act ∧ ∀ t, x'.sys.job t = .free ∧ x'.sys.stack t = [] ∧ ∀ m, (x'.sys.inner m).pc t = .idle := by
  obtain ⟨s', d, hs'⟩ := C74_many_vaults ts hts ms hms x.without h.both.1
  obtain ⟨x1, d1, e1, a1, j1⟩ := lift_drain d rfl h.both.1 h.both.2
  subst e1
  obtain ⟨x2, d2, e2, a2, f2, -, g2⟩ := pop_all ts x1 j1 (fun t => (hs' t).1) (fun t => (hs' t).2.1)
  refine ⟨x2, d1.trans d2, a2.trans a1, fun t => ⟨by rw [f2]; exact (hs' t).1, g2 t (hts t), fun m => ?_⟩⟩
  rw [show x2.sys.inner = x1.sys.inner from congrArg (·.inner) e2]
  exact (hs' t).2.2 m

/-! ### Cases

Mutex `true` is the vault's, mutex `false` the set's, switched off. Thread `true` writes to the vault while thread `false` is in a set operation, waiting for the vault's lock
with the set's lock objects around it, as in `VaultRecordSet` operations and `RequestRecordsSet`. -/

theorem oneOn_of {x : OSys Bool Bool} (h : x.act false = false) (hj : ∀ t m', (x.sys.job t).mtx = some m' → m' = true) : OneOn x :=
  fun t => ⟨true, fun e _ he => by obtain ⟨k, m⟩ := e; cases m with
    | true => rfl
    | false => exact absurd he (by simp [h]), hj t⟩

/-- A case for `C112_as_if_absent`, `C112_exclusion` and `C112_never_stuck`: both threads hold the write lock of the switched-off mutex, one of them twice with the vault's
write lock in between, and the other one is about to wait for that. So the switched-off mutex by itself keeps nobody out. -/
theorem C112_case : ∃ x : OSys Bool Bool, OReachOne false x ∧ x.act = (fun m => m) ∧ x.sys.stack true = [(.W, false), (.W, true), (.W, false)] ∧
    x.sys.stack false = [(.W, false)] ∧ x.sys.job true = .free ∧ x.sys.job false = .rl true ∧ (x.sys.inner true).pc false = .rl1 := by
  have h := OReachOne.init (M := Bool) (T := Bool) (sp := false)
  have h := OReachOne.step _ _ h (.disable _ false (by intro t k; simp [OSys.init, Sys.init]) (by intro t; simp [OSys.init, Sys.init, Job.mtx])) (oneOn_of rfl (by intro t; simp [OSys.init, Sys.init, Job.mtx]))
  have h := OReachOne.step _ _ h (.lockOff _ true .W false rfl rfl) (oneOn_of rfl (by intro t; simp [OSys.push, OSys.init, Sys.init, Job.mtx]))
  have h := OReachOne.step _ _ h (.on _ true _ rfl (.writeLockCall _ true rfl rfl rfl)) (oneOn_of rfl (by intro t; cases t <;> simp [OSys.push, OSys.init, Sys.init, Sys.call, upd, Job.mtx]))
  have h := OReachOne.step _ _ h (.on _ true _ rfl (.inside _ true _ (.wl1 _ true rfl rfl))) (oneOn_of rfl (by intro t; cases t <;> simp [OSys.push, OSys.init, Sys.init, Sys.call, upd, Job.mtx]))
  have h := OReachOne.step _ _ h (.on _ true _ rfl (.inside _ true _ (.wl2 _ true rfl))) (oneOn_of rfl (by intro t; cases t <;> simp [OSys.push, OSys.init, Sys.init, Sys.call, upd, Job.mtx]))
  have h := OReachOne.step _ _ h (.on _ true _ rfl (.inside _ true _ (.wl3 _ true rfl))) (oneOn_of rfl (by intro t; cases t <;> simp [OSys.push, OSys.init, Sys.init, Sys.call, upd, Job.mtx]))
  have h := OReachOne.step _ _ h (.on _ true _ rfl (.inside _ true _ (.wl6 _ true rfl))) (oneOn_of rfl (by intro t; cases t <;> simp [OSys.push, OSys.init, Sys.init, Sys.call, upd, Job.mtx]))
  have h := OReachOne.step _ _ h (.on _ true _ rfl (.writeLockDone _ true rfl rfl)) (oneOn_of rfl (by intro t; cases t <;> simp [OSys.push, OSys.init, Sys.init, Sys.call, upd, Job.mtx]))
  have h := OReachOne.step _ _ h (.lockOff _ true .W false rfl rfl) (oneOn_of rfl (by intro t; cases t <;> simp [OSys.push, OSys.init, Sys.init, Sys.call, upd, Job.mtx]))
  have h := OReachOne.step _ _ h (.lockOff _ false .W false rfl rfl) (oneOn_of rfl (by intro t; cases t <;> simp [OSys.push, OSys.init, Sys.init, Sys.call, upd, Job.mtx]))
  have h := OReachOne.step _ _ h (.on _ true _ rfl (.readLockCall _ false rfl rfl rfl)) (oneOn_of rfl (by intro t; cases t <;> simp [OSys.push, OSys.init, Sys.init, Sys.call, upd, Job.mtx]))
  refine ⟨_, h, ?_, rfl, rfl, rfl, rfl, rfl⟩
  funext m; cases m <;> rfl

theorem OReachOne.reach {sp : Bool} {x : OSys M T} (h : OReachOne sp x) : OReach sp x := by
  induction h with
  | init => exact .init
  | step x x' _ hs _ ih => exact .step _ _ ih hs

/-- C112, the other side: a switched-off mutex by itself excludes nobody - two threads can both hold its write lock in user code. What protects a set is its vault's lock. -/
theorem C112_off_excludes_nobody : ∃ x : OSys Bool Bool, OReachOne false x ∧ x.sys.job true = .free ∧ x.sys.job false = .free ∧
    x.sys.stack true = [(.W, false)] ∧ x.sys.stack false = [(.W, false)] := by
  have h := OReachOne.init (M := Bool) (T := Bool) (sp := false)
  have h := OReachOne.step _ _ h (.disable _ false (by intro t k; simp [OSys.init, Sys.init]) (by intro t; simp [OSys.init, Sys.init, Job.mtx])) (oneOn_of rfl (by intro t; simp [OSys.init, Sys.init, Job.mtx]))
  have h := OReachOne.step _ _ h (.lockOff _ true .W false rfl rfl) (oneOn_of rfl (by intro t; simp [OSys.push, OSys.init, Sys.init, Job.mtx]))
  have h := OReachOne.step _ _ h (.lockOff _ false .W false rfl rfl) (oneOn_of rfl (by intro t; simp [OSys.push, OSys.init, Sys.init, Job.mtx]))
  exact ⟨_, h, rfl, rfl, rfl, rfl⟩

/-- A writer of the vault and a thread that has locked only the set at once: no exclusion between them is claimed, as the set's lock is not the vault's. -/
example : ∃ x : OSys Bool Bool, OReach false x ∧ (Kind.W, true) ∈ x.sys.stack true ∧ (Kind.W, false) ∈ x.sys.stack false := by
  obtain ⟨x, h, -, h1, h2, -⟩ := C112_case
  exact ⟨x, h.reach, by rw [h1]; decide, by rw [h2]; decide⟩

end MVault.Mtx

namespace MVault.W
variable {K V Ty : Type} [LinearOrder K] [LinearOrder V] [Typed V Ty] [DecidableEq Ty]

/-! ### Which mutexes are switched off

`Disable` is called in the three places of VaultRecordSet.cpp where `VaultDerivedClass` is set to `VaultRecordSetDerived` (lines 19 and 41, 52 and 74, 81-82) and nowhere else,
and neither is ever changed back; so the mutex of an object is on exactly if `isBase` (`VaultDerivedClass == VaultBase`) is. -/

/-- The mutex of the vault or set is switched on. VaultRecordSet.cpp lines 19, 41, 52, 74, 81, 82. -/
def mutexOn (w : World K V Ty) (o : Nat) : Prop := ∃ x, w.getObj o = some x ∧ x.isBase = true

/-- C112: in ordinary use every vault has its mutex switched on and every set has it switched off, whatever happened before. -/
theorem C112_which {home : Nat → Nat} {w : World K V Ty} (hw : HReach Ordinary home w) (o : Nat) :
    (isVault w o = true → mutexOn w o) ∧ (isSetObj w o = true → ¬ mutexOn w o) := by
  refine ⟨fun h => ?_, fun h => ?_⟩
  · obtain ⟨x, hx, hxs⟩ := isVault_iff.1 h
    exact ⟨x, hx, (((reach_ai hw.any).obj o x hx).vault hxs).1⟩
  · obtain ⟨x, hx, hxs⟩ := isSetObj_iff.1 h
    obtain ⟨own, hi⟩ := reach_inv hw
    rintro ⟨y, hy, hb⟩
    rw [hx] at hy; cases hy
    rw [(hi.s.sets o x hx hxs).base] at hb
    cases hb

/-- C112, outside ordinary use: the copy of a set without vault (VaultRecordSet.cpp lines 86-92) and the target of a move from one (114-120 do nothing for it when new) keep the mutex of
a vault switched on; a request into the copy makes it a set of vault 0 with its mutex on. -/
theorem C112_refuted_copy : ∃ w : DW, Reach (fun _ _ => True) w ∧ isSetObj w 2 = true ∧ mutexOn w 2 ∧ parentOf w 2 = some 0 := by
  refine ⟨_, anyRun_reach (l := [.newVault, .addKey 0 1 5, .newSet, .setCopyNew 1, .ask 0 1 (.gt 0) none (fun _ => true) 2]) rfl, by decide, ⟨_, rfl, by decide⟩, by decide⟩

/-- A case for `C112_which`. -/
example : ∃ w : DW, HReach Ordinary (fun _ => 0) w ∧ isVault w 0 = true ∧ isSetObj w 1 = true ∧ mutexOn w 0 ∧ ¬ mutexOn w 1 := by
  have h : HReach Ordinary (fun _ => 0) _ := demo_reach (l := joinOps) rfl
  exact ⟨_, h, by decide, by decide, (C112_which h 0).1 (by decide), (C112_which h 1).2 (by decide)⟩

end MVault.W
