import Verif.RaceModel
import Verif.PropsMutex
/-
C68: concurrent calls do not race.
-/
set_option linter.unusedSectionVars false
set_option linter.unusedSimpArgs false
set_option linter.unusedVariables false
namespace MVault.Race
open MVault.Mtx
variable {Z T : Type} [DecidableEq Z] [DecidableEq T]

/-! ### Specification -/

/-- Two accesses to the same location conflict: at least one of them writes. -/
def Conflict : Touch → Touch → Prop
  | .writes, .reads => True
  | .reads, .writes => True
  | .writes, .writes => True
  | _, _ => False

instance : (a b : Touch) → Decidable (Conflict a b)
  | .writes, .reads => .isTrue trivial
  | .reads, .writes => .isTrue trivial
  | .writes, .writes => .isTrue trivial
  | .no, _ => .isFalse (by simp [Conflict])
  | .reads, .no => .isFalse (by simp [Conflict])
  | .reads, .reads => .isFalse (by simp [Conflict])
  | .writes, .no => .isFalse (by simp [Conflict])

/-- A data race: two threads are at the same time in pieces of methods that access the same memory, one of them writing. -/
def RSt.race (c : RSt Z T) : Prop := ∃ t u x y l, t ≠ u ∧ c.at_ t = some x ∧ c.at_ u = some y ∧ Conflict (x.touch l) (y.touch l)

/-- The sets a method is called on. -/
def Meth.sets : Meth Z → List Z
  | .request z => [z]
  | .setAdd z => [z]
  | .setRemove z => [z]
  | .setRead z => [z]
  | .setClear z => [z]
  | .setReset z => [z]
  | .setCombine z a => [z, a]
  | .setCopy z a => [z, a]
  | .setMove z a => [z, a]
  | .setIntersection z a b => [z, a, b]
  | .setEq a b => [a, b]
  | _ => []

/-- The methods that may run concurrently, with every set used by one thread. Not among them: Request and its variants and Intersection (they write the vault's list
of sets under the read lock), VaultRecordSet::Clear, comparison of sets and GetErrorsInLastReadedFile (no lock), copying or moving into a vault, and moving from or assigning a
vault that others use (read lock or no lock), DropVault (it detaches sets that other threads look at without a lock). -/
def Meth.safe : Meth Z → Bool
  | .request _ => false
  | .setIntersection _ _ _ => false
  | .setClear _ => false
  | .setEq _ _ => false
  | .getErrors => false
  | .copyTo => false
  | .assignFrom => false
  | .moveFrom => false
  | .moveTo => false
  | .dropVault => false
  | _ => true

/-! ### Proof -/

/-- What a piece of a safe method may do, given who uses which set. -/
structure Tidy (owner : Z → T) (t : T) (x : Section Z) : Prop where
  global : ∀ l, (l = .index ∨ l = .cells ∨ l = .kids ∨ l = .errs) → (x.touch l = .no ∨ (x.touch l = .reads ∧ x.lock ≠ none) ∨ x.lock = some .W)
  set : ∀ z, x.touch (.set z) = .no ∨ (x.lock ≠ none ∧ owner z = t) ∨ x.lock = some .W
  parent : ∀ z, x.touch (.parent z) = .no ∨ owner z = t

theorem safe_tidy (owner : Z → T) (t : T) (m : Meth Z) (hs : m.safe = true) (ho : ∀ z ∈ m.sets, owner z = t) (x : Section Z) (hx : x ∈ m.sections) :
    Tidy owner t x := by
  constructor
  · rintro l (rfl | rfl | rfl | rfl) <;> cases m <;> simp only [Meth.safe, Bool.false_eq_true] at hs <;>
      simp only [Meth.sections, List.mem_cons, List.not_mem_nil, or_false] at hx <;>
      (first
        | (rcases hx with rfl | rfl | rfl <;> simp [checkParent])
        | (rcases hx with rfl | rfl <;> simp [checkParent])
        | (subst hx; simp))
  · intro z
    by_cases hz : x.touch (.set z) = .no
    · exact .inl hz
    · refine .inr ?_
      cases m <;> simp only [Meth.safe, Bool.false_eq_true] at hs <;>
        simp only [Meth.sections, List.mem_cons, List.not_mem_nil, or_false] at hx <;>
        simp only [Meth.sets, List.mem_cons, List.not_mem_nil, or_false, forall_eq_or_imp, forall_eq, false_imp_iff, implies_true] at ho <;>
        (first
          | (rcases hx with rfl | rfl | rfl <;> simp_all [checkParent])
          | (rcases hx with rfl | rfl <;> simp_all [checkParent])
          | (subst hx; simp_all))
      all_goals grind
  · intro z
    by_cases hz : x.touch (.parent z) = .no
    · exact .inl hz
    · refine .inr ?_
      cases m <;> simp only [Meth.safe, Bool.false_eq_true] at hs <;>
        simp only [Meth.sections, List.mem_cons, List.not_mem_nil, or_false] at hx <;>
        simp only [Meth.sets, List.mem_cons, List.not_mem_nil, or_false, forall_eq_or_imp, forall_eq, false_imp_iff, implies_true] at ho <;>
        (first
          | (rcases hx with rfl | rfl | rfl <;> simp_all [checkParent])
          | (rcases hx with rfl | rfl <;> simp_all [checkParent])
          | (subst hx; simp_all))
      all_goals (obtain ⟨h1, h2⟩ := ho; exact Classical.byContradiction fun hn => hn ((hz fun e => hn (e ▸ h1)) ▸ h2))

structure RInv (may : T → Meth Z → Prop) (c : RSt Z T) : Prop where
  sys : SReach false c.sys
  run : ∀ t x, c.at_ t = some x → has c.sys t x.lock ∧ ∃ m, may t m ∧ x ∈ m.sections

theorem has_keep {s s' : Sys Unit T} {t : T} {k : Option Kind} (h : has s t k) (hk : k ≠ none → s'.stack t = s.stack t ∧ s'.job t = s.job t) : has s' t k := by
  cases k with
  | none => trivial
  | some k =>
    obtain ⟨a, b⟩ := hk (by simp)
    cases k <;> simp only [has] at h ⊢ <;> rw [a, b] <;> exact h

theorem reach_rinv {may : T → Meth Z → Prop} {c : RSt Z T} (h : RReach may c) : RInv may c := by
  induction h with
  | init => exact ⟨.init, fun t x e => by cases e⟩
  | step c c' _ hs ih =>
    cases hs with
    | lock s' h1 h2 => exact ⟨.step _ _ ih.sys h1, fun t x e => ⟨has_keep (ih.run t x e).1 (h2 t x e), (ih.run t x e).2⟩⟩
    | enter t m x hm hx hn hh =>
      refine ⟨ih.sys, fun u y e => ?_⟩
      by_cases eu : u = t
      · subst eu; simp only [upd, if_true] at e; cases e; exact ⟨hh, m, hm, hx⟩
      · exact ih.run u y (by simpa [upd, eu] using e)
    | leave t =>
      refine ⟨ih.sys, fun u y e => ?_⟩
      by_cases eu : u = t
      · subst eu; simp [upd] at e
      · exact ih.run u y (by simpa [upd, eu] using e)

/-- A thread with a write lock and another one with a lock: impossible. -/
theorem RInv.excl {may : T → Meth Z → Prop} {c : RSt Z T} (h : RInv may c) {t u : T} {x y : Section Z} (hne : t ≠ u) (ht : c.at_ t = some x) (hu : c.at_ u = some y)
    (hx : x.lock = some .W) (hy : y.lock ≠ none) : False := by
  have h1 := (h.run t x ht).1
  have h2 := (h.run u y hu).1
  rw [hx] at h1
  have h3 : c.sys.job u = .free ∧ c.sys.stack u ≠ [] := by
    cases hk : y.lock with
    | none => exact absurd hk hy
    | some k =>
      rw [hk] at h2
      cases k with
      | R => exact h2
      | W => exact ⟨h2.1, List.ne_nil_of_mem h2.2⟩
  exact h3.2 (C42_recursive_exclusion_partial c.sys h.sys t u (Ne.symm hne) h1.1 h3.1 h1.2)

/-! ### C68 -/

/-- Any number of threads, any schedule, any of the safe methods, every set used by one thread (given by `owner`): no data race. (Without spurious wake-ups, C41.) -/
theorem C68_no_race_partial (owner : Z → T) {c : RSt Z T} (h : RReach (fun t (m : Meth Z) => m.safe = true ∧ ∀ z ∈ m.sets, owner z = t) c) : ¬ c.race := by
  rintro ⟨t, u, x, y, l, hne, ht, hu, hc⟩
  have hi := reach_rinv h
  obtain ⟨_, m1, ⟨s1, o1⟩, x1⟩ := hi.run t x ht
  obtain ⟨_, m2, ⟨s2, o2⟩, x2⟩ := hi.run u y hu
  have a := safe_tidy owner t m1 s1 o1 x x1
  have b := safe_tidy owner u m2 s2 o2 y x2
  have nx : x.touch l ≠ .no := by intro e; rw [e] at hc; cases hc
  have ny : y.touch l ≠ .no := by intro e; rw [e] at hc; cases hy : x.touch l <;> rw [hy] at hc <;> cases hc
  have glob : (l = .index ∨ l = .cells ∨ l = .kids ∨ l = .errs) → False := by
    intro hl
    rcases a.global l hl with e | ⟨e1, e2⟩ | e
    · exact nx e
    · rcases b.global l hl with f | ⟨f1, f2⟩ | f
      · exact ny f
      · rw [e1, f1] at hc; cases hc
      · exact hi.excl (Ne.symm hne) hu ht f e2
    · rcases b.global l hl with f | ⟨f1, f2⟩ | f
      · exact ny f
      · exact hi.excl hne ht hu e f2
      · exact hi.excl hne ht hu e (by rw [f]; simp)
  cases l with
  | index => exact glob (by simp)
  | cells => exact glob (by simp)
  | kids => exact glob (by simp)
  | errs => exact glob (by simp)
  | set z =>
    rcases a.set z with e | ⟨e1, e2⟩ | e
    · exact nx e
    · rcases b.set z with f | ⟨f1, f2⟩ | f
      · exact ny f
      · exact hne (e2.symm.trans f2)
      · exact hi.excl (Ne.symm hne) hu ht f e1
    · rcases b.set z with f | ⟨f1, f2⟩ | f
      · exact ny f
      · exact hi.excl hne ht hu e f1
      · exact hi.excl hne ht hu e (by rw [f]; simp)
  | parent z =>
    rcases a.parent z with e | e
    · exact nx e
    · rcases b.parent z with f | f
      · exact ny f
      · exact hne (e.symm.trans f)

/-! ### The methods of the vault itself -/

/-- Methods that are called on the vault or on a reference, not on a set. `DropVault` is one of them. -/
def Meth.ofVault : Meth Z → Bool
  | .addKey | .updateKey | .removeKey | .keyInfo | .createRecord | .readFile | .eraseRecord | .dropData | .dropVault | .lookup | .copyFrom | .refSetData | .refGetData => true
  | _ => false

/-- A vault that is used by any number of threads, in any schedule, through its own methods and its references, DropVault and ReadFile included, while one of the threads may also
send requests into sets: no data race. (Without spurious wake-ups, C41.) -/
theorem C68_vault_methods (r : T) {c : RSt Z T} (h : RReach (fun t (m : Meth Z) => m.ofVault = true ∨ (t = r ∧ ∃ z, m = .request z)) c) : ¬ c.race := by
  rintro ⟨t, u, x, y, l, hne, ht, hu, hc⟩
  have hi := reach_rinv h
  obtain ⟨_, m1, o1, x1⟩ := hi.run t x ht
  obtain ⟨_, m2, o2, x2⟩ := hi.run u y hu
  have key : ∀ (m : Meth Z) (x : Section Z), m.ofVault = true → x ∈ m.sections → x.lock = some .W ∨
      (x.lock = some .R ∧ ∀ l, x.touch l = .no ∨ (x.touch l = .reads ∧ (l = .index ∨ l = .cells))) := by
    intro m x hm hx
    cases m <;> simp only [Meth.ofVault, Bool.false_eq_true] at hm <;> simp only [Meth.sections, List.mem_singleton] at hx <;> subst hx <;>
      first
        | exact .inl rfl
        | exact .inr ⟨rfl, fun l => by cases l <;> simp⟩
  have req : ∀ (z : Z) (x : Section Z), x ∈ (Meth.request z).sections → x.lock = some .R ∧ ((x.touch .index = .reads ∧ x.touch .cells = .reads)) := by
    intro z x hx
    simp only [Meth.sections, List.mem_singleton] at hx
    subst hx; exact ⟨rfl, by simp⟩
  have lk : ∀ (v : T) (m : Meth Z) (x : Section Z), (m.ofVault = true ∨ (v = r ∧ ∃ z, m = .request z)) → x ∈ m.sections → x.lock ≠ none := by
    rintro v m x (o | ⟨_, z, rfl⟩) hx
    · rcases key m x o hx with e | ⟨e, _⟩ <;> rw [e] <;> simp
    · rw [(req z x hx).1]; simp
  have l1 := lk t m1 x o1 x1
  have l2 := lk u m2 y o2 x2
  have n1 : x.lock ≠ some .W := fun e => hi.excl hne ht hu e l2
  have n2 : y.lock ≠ some .W := fun e => hi.excl (Ne.symm hne) hu ht e l1
  rcases o1 with o1 | ⟨rfl, z, rfl⟩
  · rcases key m1 x o1 x1 with e | ⟨_, k1⟩
    · exact n1 e
    rcases k1 l with e | ⟨e, hl⟩
    · rw [e] at hc; cases hc
    rcases o2 with o2 | ⟨rfl, z, rfl⟩
    · rcases key m2 y o2 x2 with f | ⟨_, k2⟩
      · exact n2 f
      rcases k2 l with f | ⟨f, _⟩ <;> rw [e, f] at hc <;> cases hc
    · obtain ⟨_, f1, f2⟩ := req z y x2
      rcases hl with rfl | rfl
      · rw [e, f1] at hc; cases hc
      · rw [e, f2] at hc; cases hc
  · rcases o2 with o2 | ⟨e, _⟩
    · rcases key m2 y o2 x2 with f | ⟨_, k2⟩
      · exact n2 f
      rcases k2 l with f | ⟨f, hl⟩
      · rw [f] at hc; cases hx : x.touch l <;> rw [hx] at hc <;> cases hc
      · obtain ⟨_, f1, f2⟩ := req z x x1
        rcases hl with rfl | rfl
        · rw [f, f1] at hc; cases hc
        · rw [f, f2] at hc; cases hc
    · exact hne e.symm

/-! ### Exactly which calls race -/

/-- The vault's lock keeps two pieces of methods apart: one has the write lock and the other one a lock. -/
def KeptApart (a b : Option Kind) : Prop := (a = some .W ∧ b ≠ none) ∨ (b = some .W ∧ a ≠ none)

instance (a b : Option Kind) : Decidable (KeptApart a b) := by unfold KeptApart; infer_instance

theorem conflict_symm {a b : Touch} (h : Conflict a b) : Conflict b a := by cases a <;> cases b <;> first | exact h | cases h

theorem reach_of_sys {may : T → Meth Z → Prop} {s : Sys Unit T} (h : SReach false s) : RReach may (⟨s, fun _ => none⟩ : RSt Z T) := by
  induction h with
  | init => exact .init
  | step s s' _ hs ih => exact .step _ _ ih (.lock _ s' hs (fun t x e => by cases e))

theorem sys_R (t : Bool) : ∃ s : Sys Unit Bool, SReach false s ∧ has s t (some .R) := by
  cases t
  all_goals
    have h := SReach.init (sp := false) (M := Unit) (T := Bool)
  · have h := SReach.step _ _ h (.readLockCall _ false () rfl rfl rfl)
    have h := SReach.step _ _ h (.inside _ _ () _ (.rl1 _ false rfl rfl))
    have h := SReach.step _ _ h (.inside _ _ () _ (.rl2 _ false rfl rfl))
    have h := SReach.step _ _ h (.inside _ _ () _ (.rl3 _ false rfl))
    have h := SReach.step _ _ h (.inside _ _ () _ (.rl4 _ false rfl))
    have h := SReach.step _ _ h (.inside _ _ () _ (.rl5 _ false rfl))
    have h := SReach.step _ _ h (.readLockDone _ false () rfl rfl)
    exact ⟨_, h, rfl, by simp [upd]⟩
  · have h := SReach.step _ _ h (.readLockCall _ true () rfl rfl rfl)
    have h := SReach.step _ _ h (.inside _ _ () _ (.rl1 _ true rfl rfl))
    have h := SReach.step _ _ h (.inside _ _ () _ (.rl2 _ true rfl rfl))
    have h := SReach.step _ _ h (.inside _ _ () _ (.rl3 _ true rfl))
    have h := SReach.step _ _ h (.inside _ _ () _ (.rl4 _ true rfl))
    have h := SReach.step _ _ h (.inside _ _ () _ (.rl5 _ true rfl))
    have h := SReach.step _ _ h (.readLockDone _ true () rfl rfl)
    exact ⟨_, h, rfl, by simp [upd]⟩

theorem sys_W (t : Bool) : ∃ s : Sys Unit Bool, SReach false s ∧ has s t (some .W) := by
  cases t
  all_goals
    have h := SReach.init (sp := false) (M := Unit) (T := Bool)
  · have h := SReach.step _ _ h (.writeLockCall _ false () rfl rfl rfl)
    have h := SReach.step _ _ h (.inside _ _ () _ (.wl1 _ false rfl rfl))
    have h := SReach.step _ _ h (.inside _ _ () _ (.wl2 _ false rfl))
    have h := SReach.step _ _ h (.inside _ _ () _ (.wl3 _ false rfl))
    have h := SReach.step _ _ h (.inside _ _ () _ (.wl6 _ false rfl))
    have h := SReach.step _ _ h (.writeLockDone _ false () rfl rfl)
    exact ⟨_, h, rfl, by simp [upd]⟩
  · have h := SReach.step _ _ h (.writeLockCall _ true () rfl rfl rfl)
    have h := SReach.step _ _ h (.inside _ _ () _ (.wl1 _ true rfl rfl))
    have h := SReach.step _ _ h (.inside _ _ () _ (.wl2 _ true rfl))
    have h := SReach.step _ _ h (.inside _ _ () _ (.wl3 _ true rfl))
    have h := SReach.step _ _ h (.inside _ _ () _ (.wl6 _ true rfl))
    have h := SReach.step _ _ h (.writeLockDone _ true () rfl rfl)
    exact ⟨_, h, rfl, by simp [upd]⟩

theorem sys_RR : ∃ s : Sys Unit Bool, SReach false s ∧ has s true (some .R) ∧ has s false (some .R) := by
  have h := SReach.init (sp := false) (M := Unit) (T := Bool)
  have h := SReach.step _ _ h (.readLockCall _ true () rfl rfl rfl)
  have h := SReach.step _ _ h (.inside _ _ () _ (.rl1 _ true rfl rfl))
  have h := SReach.step _ _ h (.inside _ _ () _ (.rl2 _ true rfl rfl))
  have h := SReach.step _ _ h (.inside _ _ () _ (.rl3 _ true rfl))
  have h := SReach.step _ _ h (.inside _ _ () _ (.rl4 _ true rfl))
  have h := SReach.step _ _ h (.inside _ _ () _ (.rl5 _ true rfl))
  have h := SReach.step _ _ h (.readLockDone _ true () rfl rfl)
  have h := SReach.step _ _ h (.readLockCall _ false () rfl rfl rfl)
  have h := SReach.step _ _ h (.inside _ _ () _ (.rl1 _ false rfl rfl))
  have h := SReach.step _ _ h (.inside _ _ () _ (.rl2 _ false rfl rfl))
  have h := SReach.step _ _ h (.inside _ _ () _ (.rl3 _ false rfl))
  have h := SReach.step _ _ h (.inside _ _ () _ (.rl4 _ false rfl))
  have h := SReach.step _ _ h (.inside _ _ () _ (.rl5 _ false rfl))
  have h := SReach.step _ _ h (.readLockDone _ false () rfl rfl)
  exact ⟨_, h, ⟨rfl, List.cons_ne_nil _ _⟩, rfl, List.cons_ne_nil _ _⟩

theorem sys_pair (a b : Option Kind) (h : ¬ KeptApart a b) : ∃ s : Sys Unit Bool, SReach false s ∧ has s true a ∧ has s false b := by
  cases a with
  | none =>
    cases b with
    | none => exact ⟨_, .init, trivial, trivial⟩
    | some k =>
      cases k with
      | R => obtain ⟨s, h1, h2⟩ := sys_R false; exact ⟨s, h1, trivial, h2⟩
      | W => obtain ⟨s, h1, h2⟩ := sys_W false; exact ⟨s, h1, trivial, h2⟩
  | some k =>
    cases b with
    | none =>
      cases k with
      | R => obtain ⟨s, h1, h2⟩ := sys_R true; exact ⟨s, h1, h2, trivial⟩
      | W => obtain ⟨s, h1, h2⟩ := sys_W true; exact ⟨s, h1, h2, trivial⟩
    | some k' =>
      cases k <;> cases k' <;> first | exact sys_RR | exact absurd (by decide) h

/-- Two threads that call the methods `m` and `m'` can race exactly if the methods have pieces that access the same memory, one of them writing, and that the vault's
lock does not keep apart. -/
theorem C68_exact_pairs (m m' : Meth Z) :
    (∃ c : RSt Z Bool, RReach (fun t x => x = if t then m else m') c ∧ c.race) ↔
      ∃ x ∈ m.sections, ∃ y ∈ m'.sections, (∃ l, Conflict (x.touch l) (y.touch l)) ∧ ¬ KeptApart x.lock y.lock := by
  constructor
  · rintro ⟨c, hr, t, u, x, y, l, hne, ht, hu, hc⟩
    have hi := reach_rinv hr
    obtain ⟨_, m1, e1, x1⟩ := hi.run t x ht
    obtain ⟨_, m2, e2, x2⟩ := hi.run u y hu
    have ap : ¬ KeptApart x.lock y.lock := by
      rintro (⟨a, b⟩ | ⟨a, b⟩)
      · exact hi.excl hne ht hu a b
      · exact hi.excl (Ne.symm hne) hu ht a b
    subst e1 e2
    cases t <;> cases u
    · exact absurd rfl hne
    · exact ⟨y, by simpa using x2, x, by simpa using x1, ⟨l, conflict_symm hc⟩, fun h => ap (h.elim .inr .inl)⟩
    · exact ⟨x, by simpa using x1, y, by simpa using x2, ⟨l, hc⟩, ap⟩
    · exact absurd rfl hne
  · rintro ⟨x, hx, y, hy, ⟨l, hc⟩, ap⟩
    obtain ⟨s, h1, h2, h3⟩ := sys_pair _ _ ap
    have h := reach_of_sys (Z := Z) (may := fun t z => z = if t then m else m') h1
    have h := RReach.step _ _ h (.enter _ true m x rfl hx rfl h2)
    have h := RReach.step _ _ h (.enter _ false m' y rfl hy rfl h3)
    exact ⟨_, h, true, false, x, y, l, by simp, rfl, rfl, hc⟩

/-- Two threads that make requests into different sets: both insert into the vault's list of sets under the read lock. -/
theorem C68_refuted_request (z z' : Z) : ∃ c : RSt Z Bool, RReach (fun t x => x = if t then Meth.request z else .request z') c ∧ c.race :=
  (C68_exact_pairs _ _).2 ⟨_, List.mem_singleton.2 rfl, _, List.mem_singleton.2 rfl, ⟨.kids, by simp [Conflict]⟩, by simp [KeptApart, checkParent]⟩

/-- One thread clears its own set while another one changes a record of the vault. -/
theorem C68_refuted_clear (z : Z) : ∃ c : RSt Z Bool, RReach (fun t x => x = if t then Meth.setClear z else .refSetData) c ∧ c.race :=
  (C68_exact_pairs _ _).2 ⟨⟨none, fun l => if l = .set z then .writes else .no⟩, by simp [Meth.sections], _, List.mem_singleton.2 rfl,
    ⟨.set z, by simp [Conflict]⟩, by simp [KeptApart, checkParent]⟩

/-- One thread asks for the errors of the last file while another one reads a file. -/
theorem C68_refuted_errors : ∃ c : RSt Z Bool, RReach (fun t x => x = if t then (Meth.getErrors : Meth Z) else .readFile) c ∧ c.race :=
  (C68_exact_pairs _ _).2 ⟨_, List.mem_singleton.2 rfl, _, List.mem_singleton.2 rfl, ⟨.errs, trivial⟩, by simp [KeptApart, checkParent]⟩

/-- One thread assigns to a vault that another one looks into. -/
theorem C68_refuted_assign : ∃ c : RSt Z Bool, RReach (fun t x => x = if t then (Meth.copyTo : Meth Z) else .lookup) c ∧ c.race :=
  (C68_exact_pairs _ _).2 ⟨_, List.mem_cons_of_mem _ (List.mem_cons_of_mem _ (List.mem_singleton.2 rfl)), _, List.mem_singleton.2 rfl,
    ⟨.index, trivial⟩, by simp [KeptApart, checkParent]⟩

/-- One thread assigns a vault to another one while a second thread creates a record in it: the lock of the source is not taken. -/
theorem C68_refuted_assign_source : ∃ c : RSt Z Bool, RReach (fun t x => x = if t then (Meth.assignFrom : Meth Z) else .createRecord) c ∧ c.race :=
  (C68_exact_pairs _ _).2 ⟨_, List.mem_singleton.2 rfl, _, List.mem_singleton.2 rfl, ⟨.index, trivial⟩, by simp [KeptApart]⟩

/-- One thread looks at its own set while another one drops the vault. -/
theorem C68_refuted_drop (z : Z) : ∃ c : RSt Z Bool, RReach (fun t x => x = if t then Meth.setRead z else .dropVault) c ∧ c.race :=
  (C68_exact_pairs _ _).2 ⟨checkParent z, by simp [Meth.sections], _, List.mem_singleton.2 rfl, ⟨.parent z, by simp [Conflict, checkParent]⟩, by simp [KeptApart, checkParent]⟩

/-- One set, two threads: both change it under the read lock. -/
theorem C68_refuted_shared_set (z : Z) : ∃ c : RSt Z Bool, RReach (fun _ x => x = Meth.setAdd z) c ∧ c.race := by
  have := (C68_exact_pairs (.setAdd z) (.setAdd z)).2 ⟨⟨some .R, fun l => if l = .set z then .writes else if l = .cells then .reads else .no⟩, by simp [Meth.sections],
    ⟨some .R, fun l => if l = .set z then .writes else if l = .cells then .reads else .no⟩, by simp [Meth.sections], ⟨.set z, by simp [Conflict]⟩, by simp [KeptApart, checkParent]⟩
  simpa using this

/-- Two threads reading and writing the same vault concurrently, each with its own set: an instance of `C68_no_race_partial`, in a state where both are inside a method. -/
example : ∃ c : RSt Bool Bool, RReach (fun t (m : Meth Bool) => m.safe = true ∧ ∀ z ∈ m.sets, z = t) c ∧ c.at_ true ≠ none ∧ c.at_ false ≠ none ∧ ¬ c.race := by
  obtain ⟨s, h1, h2, h3⟩ := sys_RR
  have h := reach_of_sys (Z := Bool) (may := fun t (m : Meth Bool) => m.safe = true ∧ ∀ z ∈ m.sets, z = t) h1
  have h := RReach.step _ _ h (.enter _ true (.setAdd true) ⟨some .R, fun l => if l = .set true then .writes else if l = .cells then .reads else .no⟩
    ⟨rfl, by simp [Meth.sets]⟩ (by simp [Meth.sections]) rfl h2)
  have h := RReach.step _ _ h (.enter _ false .lookup _ ⟨rfl, by simp [Meth.sets]⟩ (List.mem_singleton.2 rfl) rfl h3)
  exact ⟨_, h, by simp [upd], by simp [upd], C68_no_race_partial (fun z => z) h⟩

/-- A thread inside DropVault while another one waits for the lock: an instance of `C68_vault_methods`. -/
example : ∃ c : RSt Bool Bool, RReach (fun t (m : Meth Bool) => m.ofVault = true ∨ (t = false ∧ ∃ z, m = .request z)) c ∧ c.at_ true ≠ none ∧ ¬ c.race := by
  obtain ⟨s, h1, h2⟩ := sys_W true
  have h := reach_of_sys (Z := Bool) (may := fun t (m : Meth Bool) => m.ofVault = true ∨ (t = false ∧ ∃ z, m = .request z)) h1
  have h := RReach.step _ _ h (.enter _ true .dropVault _ (.inl rfl) (List.mem_singleton.2 rfl) rfl h2)
  exact ⟨_, h, by simp [upd], C68_vault_methods false h⟩


end MVault.Race
