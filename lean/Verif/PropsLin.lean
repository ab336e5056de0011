import Verif.LinModel
import Verif.PropsMutex
import Verif.PropsAny
/-
C67: methods called by several threads take effect one after the other.
-/
set_option linter.unusedSectionVars false
set_option linter.unusedSimpArgs false
set_option linter.unusedVariables false
namespace MVault.Lin
open MVault.Mtx
variable {S L A T : Type} [DecidableEq T]

/-! ### Specification -/

/-- The list of completed bodies with their values is what one thread running them one after the other, without interruption, gets: from `s` they lead to
`s'` and return these values. -/
inductive Sequential : S → List (Prog S L A × A) → S → Prop
  | nil {s : S} : Sequential s [] s
  | snoc {s s' : S} {l : List (Prog S L A × A)} (p : Prog S L A) : Sequential s l s' →
      Sequential s (l ++ [(p, p.result (exec p.steps (s', p.start)).2)]) (exec p.steps (s', p.start)).1

/-- Bodies under a read lock do not change the shared data. -/
def ReadersRead (ok : Prog S L A → Prop) : Prop := ∀ p, ok p → p.kind = .R → ∀ f ∈ p.steps, ∀ x, (f x).1 = x.1

/-- No thread is inside a body that holds the write lock. -/
def St.noWriter (c : St S L A T) : Prop := ∀ t p rest l, c.th t = .run p rest l → p.kind = .R

/-! ### Proof -/

theorem exec_append (fs gs : List (S × L → S × L)) (x : S × L) : exec (fs ++ gs) x = exec gs (exec fs x) := by simp [exec]

structure LInv (ok : Prog S L A → Prop) (s0 : S) (c : St S L A T) (s : S) : Prop where
  sys : SReach false c.sys
  seq : Sequential s0 c.log s
  run : ∀ t p rest l, c.th t = .run p rest l → ok p ∧ holdsFor c.sys t p.kind ∧ ∃ pre, p.steps = pre ++ rest ∧ exec pre (s, p.start) = (c.data, l)
  quiet : c.noWriter → c.data = s

theorem holds_locked {s : Sys Unit T} {t : T} {k : Kind} (h : holdsFor s t k) : s.job t = .free ∧ s.stack t ≠ [] := by
  cases k with
  | R => exact h
  | W => exact ⟨h.1, List.ne_nil_of_mem h.2⟩

/-- While a body with the write lock runs, no other body runs. -/
theorem LInv.alone {ok : Prog S L A → Prop} {s0 s : S} {c : St S L A T} (h : LInv ok s0 c s) {t u : T} {p q : Prog S L A} {r1 r2 : List (S × L → S × L)} {l1 l2 : L}
    (ht : c.th t = .run p r1 l1) (hk : p.kind = .W) (hu : c.th u = .run q r2 l2) : u = t := by
  by_cases e : u = t
  · exact e
  · obtain ⟨_, h1, _⟩ := h.run t p r1 l1 ht
    obtain ⟨_, h2, _⟩ := h.run u q r2 l2 hu
    rw [hk] at h1
    obtain ⟨a, b⟩ := holds_locked h2
    exact absurd (C42_recursive_exclusion_partial c.sys h.sys t u e h1.1 a h1.2) b

theorem step_linv {ok : Prog S L A → Prop} (hr : ReadersRead ok) {s0 s : S} {c c' : St S L A T} (h : LInv ok s0 c s) (hs : LStep ok c c') :
    ∃ s', LInv ok s0 c' s' := by
  cases hs with
  | lock sys' hst hk =>
    refine ⟨s, .step _ _ h.sys hst, h.seq, ?_, h.quiet⟩
    intro t p rest l ht
    obtain ⟨a, b, d⟩ := h.run t p rest l ht
    obtain ⟨k1, k2⟩ := hk t p rest l ht
    refine ⟨a, ?_, d⟩
    cases hkd : p.kind <;> rw [hkd] at b <;> simp only [holdsFor] at b ⊢ <;> rw [k1, k2] <;> exact b
  | begin t p hok hid hh =>
    have hdata : c.data = s := by
      apply h.quiet
      intro u q rest l hu
      cases hk : q.kind with
      | R => rfl
      | W =>
        obtain ⟨_, h1, _⟩ := h.run u q rest l hu
        rw [hk] at h1
        obtain ⟨a, b⟩ := holds_locked hh
        have hne : t ≠ u := by rintro rfl; rw [hid] at hu; cases hu
        exact absurd (C42_recursive_exclusion_partial c.sys h.sys u t hne h1.1 a h1.2) b
    refine ⟨s, h.sys, h.seq, ?_, fun _ => hdata⟩
    intro u q rest l hu
    by_cases e : u = t
    · subst e
      simp only [upd, if_true] at hu
      cases hu
      exact ⟨hok, hh, [], rfl, by simp [exec, hdata]⟩
    · replace hu : c.th u = .run q rest l := by simpa [upd, e] using hu
      exact h.run u q rest l hu
  | exec t p f rest l ht =>
    obtain ⟨hok, hh, pre, hp, hx⟩ := h.run t p (f :: rest) l ht
    have hmem : f ∈ p.steps := by rw [hp]; simp
    have hstep : exec (pre ++ [f]) (s, p.start) = f (c.data, l) := by rw [exec_append, hx]; rfl
    cases hk : p.kind with
    | R =>
      have hsame : (f (c.data, l)).1 = c.data := hr p hok hk f hmem (c.data, l)
      refine ⟨s, h.sys, h.seq, ?_, ?_⟩
      · intro u q rest' l' hu
        by_cases e : u = t
        · subst e
          simp only [upd, if_true] at hu
          cases hu
          exact ⟨hok, hh, pre ++ [f], by rw [hp]; simp, hstep⟩
        · replace hu : c.th u = .run q rest' l' := by simpa [upd, e] using hu
          obtain ⟨a, b, pre', d1, d2⟩ := h.run u q rest' l' hu
          exact ⟨a, b, pre', d1, by rw [d2]; simp [hsame]⟩
      · intro hq
        show (f (c.data, l)).1 = s
        rw [hsame]
        apply h.quiet
        intro u q rest' l' hu
        by_cases e : u = t
        · subst e; rw [ht] at hu; cases hu; exact hk
        · exact hq u q rest' l' (by simp [upd, e, hu])
    | W =>
      refine ⟨s, h.sys, h.seq, ?_, ?_⟩
      · intro u q rest' l' hu
        by_cases e : u = t
        · subst e
          simp only [upd, if_true] at hu
          cases hu
          exact ⟨hok, hh, pre ++ [f], by rw [hp]; simp, hstep⟩
        · replace hu : c.th u = .run q rest' l' := by simpa [upd, e] using hu
          exact absurd (h.alone ht hk hu) e
      · intro hq
        have := hq t p rest (f (c.data, l)).2 (by simp [upd])
        rw [hk] at this; cases this
  | finish t p l ht =>
    obtain ⟨hok, hh, pre, hp, hx⟩ := h.run t p [] l ht
    rw [List.append_nil] at hp
    subst hp
    have hseq : Sequential s0 (c.log ++ [(p, p.result l)]) c.data := by
      have := Sequential.snoc p h.seq
      rw [hx] at this; exact this
    refine ⟨c.data, h.sys, hseq, ?_, fun _ => rfl⟩
    intro u q rest' l' hu
    by_cases e : u = t
    · subst e; simp [upd] at hu
    · replace hu : c.th u = .run q rest' l' := by simpa [upd, e] using hu
      have hpR : p.kind = .R := by
        cases hk : p.kind with
        | R => rfl
        | W => exact absurd (h.alone ht hk hu) e
      have hqR : q.kind = .R := by
        cases hk : q.kind with
        | R => rfl
        | W => exact absurd (h.alone hu hk ht).symm e
      have hdata : c.data = s := by
        apply h.quiet
        intro v r rest'' l'' hv
        cases hk : r.kind with
        | R => rfl
        | W =>
          have e1 := h.alone hv hk ht
          have e2 := h.alone hv hk hu
          exact absurd (e2.trans e1.symm) e
      rw [hdata]
      obtain ⟨a, b, pre', d1, d2⟩ := h.run u q rest' l' hu
      rw [hdata] at d2
      exact ⟨a, b, pre', d1, d2⟩

theorem run_linv {ok : Prog S L A → Prop} (hr : ReadersRead ok) {s0 : S} {c : St S L A T} (h : LRun ok (St.init s0) c) : ∃ s, LInv ok s0 c s := by
  induction h with
  | refl => exact ⟨s0, .init, .nil, (by intro t p rest l h; cases h), fun _ => rfl⟩
  | step c' c'' _ hs ih =>
    obtain ⟨s, hs'⟩ := ih
    exact step_linv hr hs' hs

/-! ### C67 -/

/-- Any threads, any schedule: at every moment the completed calls have returned exactly what they would have returned if they had run one after the other, in the
order of their completion, without interruption; and the shared data is the result of that sequential run whenever no writing call is in progress. -/
theorem C67_linearizable {ok : Prog S L A → Prop} (hr : ReadersRead ok) {s0 : S} {c : St S L A T} (h : LRun ok (St.init s0) c) :
    ∃ s, Sequential s0 c.log s ∧ (c.noWriter → c.data = s) := by
  obtain ⟨s, hi⟩ := run_linv hr h
  exact ⟨s, hi.seq, hi.quiet⟩

/-- The order is the order of the calls wherever they do not overlap: what has completed stays where it is in the sequential order, so a call that begins later
comes after it. -/
theorem C67_order {ok : Prog S L A → Prop} {c c' : St S L A T} (h : LRun ok c c') : ∃ later, c'.log = c.log ++ later := by
  induction h with
  | refl => exact ⟨[], by simp⟩
  | step c' c'' _ hs ih =>
    obtain ⟨l, hl⟩ := ih
    cases hs with
    | finish t p l' ht => exact ⟨l ++ [(p, p.result l')], by show c'.log ++ _ = _; rw [hl]; simp⟩
    | _ => exact ⟨l, hl⟩

/-- A call in progress that only reads sees one state of the sequential order during its whole body, namely the current one. -/
theorem C67_reader_sees_one_state {ok : Prog S L A → Prop} (hr : ReadersRead ok) {s0 : S} {c : St S L A T} (h : LRun ok (St.init s0) c) {t : T} {p : Prog S L A}
    {rest : List (S × L → S × L)} {l : L} (ht : c.th t = .run p rest l) (hk : p.kind = .R) :
    Sequential s0 c.log c.data ∧ ∃ pre, p.steps = pre ++ rest ∧ (exec pre (c.data, p.start)).2 = l := by
  obtain ⟨s, hi⟩ := run_linv hr h
  have hd : c.data = s := by
    apply hi.quiet
    intro u q rest' l' hu
    cases hq : q.kind with
    | R => rfl
    | W =>
      have e := hi.alone hu hq ht
      subst e
      rw [ht] at hu; cases hu; rw [hk] at hq; cases hq
  obtain ⟨_, _, pre, h1, h2⟩ := hi.run t p rest l ht
  rw [← hd] at h2
  exact ⟨by rw [hd]; exact hi.seq, pre, h1, by rw [h2]⟩

/-! ### The vault -/
section World
open MVault.W
variable {K V Ty : Type} [LinearOrder K] [LinearOrder V] [Typed V Ty] [DecidableEq Ty]

/-- The operations of the model whose whole body runs under the vault's write lock, with the line that takes it: UpdateKey (Vault.hpp line 587), AddKey and
AddUniqueKey (335), SetData (VaultRecordRef.hpp line 29, VaultRecordRef.cpp line 157), RemoveKey (Vault.cpp line 374), CreateRecord (443), the rows of ReadFile
(47), EraseRecord by value (Vault.hpp 952), EraseRecords (1022), EraseRecord by reference (Vault.cpp 632), DropVault (546), DropData (608). -/
def writeLocked : Op K V Ty → Bool
  | .updateKey .. => true
  | .addKey .. => true
  | .addUniqueKey .. => true
  | .refSetData .. => true
  | .refSetDataMany .. => true
  | .removeKey .. => true
  | .createRecord .. => true
  | .createRow .. => true
  | .eraseKV .. => true
  | .eraseManyKV .. => true
  | .eraseRef .. => true
  | .dropVault .. => true
  | .dropData .. => true
  | _ => false

/-- The body does what the operation does, in however many statements; undefined behaviour, if any, stays. -/
def Performs (p : Prog (Option (World K V Ty)) L A) (env : Env) (op : Op K V Ty) : Prop :=
  p.kind = .W ∧ ∀ w, (exec p.steps (w, p.start)).1 = w.bind fun w => step env w op

/-- What the threads do: operations under the write lock, and calls that only read under the read lock. -/
def VaultBodies (p : Prog (Option (World K V Ty)) L A) : Prop :=
  (∃ env op, writeLocked op = true ∧ Performs p env op) ∨ (p.kind = .R ∧ ∀ f ∈ p.steps, ∀ x, (f x).1 = x.1)

theorem exec_same {S L : Type} : ∀ {fs : List (S × L → S × L)}, (∀ f ∈ fs, ∀ x, (f x).1 = x.1) → ∀ x, (exec fs x).1 = x.1
  | [], _, x => rfl
  | f :: fs, h, x => by
    show (exec fs (f x)).1 = x.1
    rw [exec_same (fun g hg => h g (by simp [hg])) (f x), h f (by simp)]

theorem run_append (l1 l2 : List (Env × Op K V Ty)) : ∀ w : World K V Ty, run w (l1 ++ l2) = (run w l1).bind fun w' => run w' l2 := by
  induction l1 with
  | nil => intro w; rfl
  | cons a l ih =>
    intro w
    obtain ⟨env, op⟩ := a
    simp only [List.cons_append, run, Option.bind_eq_bind]
    cases hs : step env w op with
    | none => simp [hs]
    | some w' => simp [hs, ih]

/-- Concurrent use of a vault leads to states of sequential histories only: whenever no writing call is in progress, the data is what a list of the operations gives
when one thread performs them one after the other on the world the threads started from. So everything proved about all histories holds for concurrent ones. -/
theorem C67_vault (w0 : World K V Ty) {c : St (Option (World K V Ty)) L A T} (h : LRun VaultBodies (St.init (some w0)) c) (hq : c.noWriter) :
    ∃ ops : List (Env × Op K V Ty), (∀ o ∈ ops, writeLocked o.2 = true) ∧ c.data = run w0 ops := by
  obtain ⟨s, hi⟩ := run_linv (ok := VaultBodies) (by
    intro p hp hk
    rcases hp with ⟨env, op, _, hw, _⟩ | ⟨_, hp⟩
    · rw [hk] at hw; cases hw
    · exact hp) h
  rw [hi.quiet hq]
  have hlog : ∀ x ∈ c.log, VaultBodies x.1 := by
    clear hi hq
    have : (∀ x ∈ c.log, VaultBodies x.1) ∧ ∀ t p rest l, c.th t = .run p rest l → VaultBodies p := by
      induction h with
      | refl => exact ⟨(by intro x hx; cases hx), (by intro t p rest l h; cases h)⟩
      | step c' c'' _ hs ih =>
        obtain ⟨i1, i2⟩ := ih
        cases hs with
        | lock s' _ _ => exact ⟨i1, i2⟩
        | begin t p hok _ _ =>
          refine ⟨i1, fun u q rest l hu => ?_⟩
          by_cases e : u = t
          · subst e; simp only [upd, if_true] at hu; cases hu; exact hok
          · exact i2 u q rest l (by simpa [upd, e] using hu)
        | exec t p f rest l ht =>
          refine ⟨i1, fun u q rest' l' hu => ?_⟩
          by_cases e : u = t
          · subst e; simp only [upd, if_true] at hu; cases hu; exact i2 _ _ _ _ ht
          · exact i2 u q rest' l' (by simpa [upd, e] using hu)
        | finish t p l ht =>
          refine ⟨fun x hx => ?_, fun u q rest' l' hu => ?_⟩
          · rcases List.mem_append.1 hx with hx | hx
            · exact i1 x hx
            · rw [List.mem_singleton.1 hx]; exact i2 _ _ _ _ ht
          · by_cases e : u = t
            · subst e; simp [upd] at hu
            · exact i2 u q rest' l' (by simpa [upd, e] using hu)
    exact this.1
  have key : ∀ (s : Option (World K V Ty)) (log : List (Prog (Option (World K V Ty)) L A × A)), Sequential (some w0) log s → (∀ x ∈ log, VaultBodies x.1) →
      ∃ ops : List (Env × Op K V Ty), (∀ o ∈ ops, writeLocked o.2 = true) ∧ s = run w0 ops := by
    intro s log hseq
    induction hseq with
    | nil => intro _; exact ⟨[], by simp, rfl⟩
    | @snoc b l p hs ih =>
      intro hl
      obtain ⟨ops, h1, h2⟩ := ih (fun x hx => hl x (List.mem_append_left _ hx))
      rcases hl (p, _) (List.mem_append_right _ (List.mem_singleton.2 rfl)) with ⟨env, op, hw, hk, hp⟩ | ⟨_, hp⟩
      · refine ⟨ops ++ [(env, op)], ?_, ?_⟩
        · intro o ho
          rcases List.mem_append.1 ho with ho | ho
          · exact h1 o ho
          · rw [List.mem_singleton.1 ho]; exact hw
        · rw [hp, h2, run_append]
          cases hx : run w0 ops with
          | none => rfl
          | some w => 
            simp only [Option.bind_some, run, Option.bind_eq_bind]
            cases step env w op <;> rfl
      · refine ⟨ops, h1, ?_⟩
        rw [exec_same hp]; exact h2
  exact key _ _ hi.seq hlog

end World

/-! ### Concrete case -/

/-- A body in two statements that creates a record: the world is read into a local variable, then the new one is stored. -/
def demoBody : Prog (Option MVault.W.DW) (Option MVault.W.DW) Bool :=
  ⟨.W, none, [fun x => (x.1, x.1), fun x => (x.2.bind fun w => MVault.W.step MVault.W.Env.id w (.createRow 0 []), x.2)], fun l => l.isSome⟩

/-- A body that reads how many records the vault has, under the read lock. -/
def demoRead : Prog (Option MVault.W.DW) (Option MVault.W.DW) Bool := ⟨.R, none, [fun x => (x.1, x.1)], fun l => l.isSome⟩

theorem demoBody_ok : VaultBodies demoBody :=
  .inl ⟨MVault.W.Env.id, .createRow 0 [], rfl, rfl, fun _ => rfl⟩

theorem demoRead_ok : VaultBodies demoRead := .inr ⟨rfl, by
  intro f hf x
  simp only [demoRead, List.mem_singleton] at hf
  subst hf; rfl⟩

/-- A reachable state in which one thread is in the middle of the writing body and another waits for the lock. -/
example : ∃ c : St (Option MVault.W.DW) (Option MVault.W.DW) Bool Bool,
    LRun VaultBodies (St.init (some MVault.W.World.empty)) c ∧ c.sys.job false = .rl () ∧ ∃ rest l, c.th true = .run demoBody rest l ∧ rest.length = 1 := by
  have h := LRun.refl (ok := VaultBodies) (St.init (some MVault.W.World.empty) : St (Option MVault.W.DW) (Option MVault.W.DW) Bool Bool)
  have h := LRun.step _ _ _ h (.lock _ _ (.writeLockCall _ true () rfl rfl rfl) (fun t _ _ _ e => by cases t <;> cases e))
  have h := LRun.step _ _ _ h (.lock _ _ (.inside _ _ () _ (.wl1 _ true rfl rfl)) (fun t _ _ _ e => by cases t <;> cases e))
  have h := LRun.step _ _ _ h (.lock _ _ (.inside _ _ () _ (.wl2 _ true rfl)) (fun t _ _ _ e => by cases t <;> cases e))
  have h := LRun.step _ _ _ h (.lock _ _ (.inside _ _ () _ (.wl3 _ true rfl)) (fun t _ _ _ e => by cases t <;> cases e))
  have h := LRun.step _ _ _ h (.lock _ _ (.inside _ _ () _ (.wl6 _ true rfl)) (fun t _ _ _ e => by cases t <;> cases e))
  have h := LRun.step _ _ _ h (.lock _ _ (.writeLockDone _ true () rfl rfl) (fun t _ _ _ e => by cases t <;> cases e))
  have h := LRun.step _ _ _ h (.begin _ true demoBody demoBody_ok rfl ⟨rfl, by decide⟩)
  have h := LRun.step _ _ _ h (.exec _ true demoBody _ _ _ rfl)
  have h := LRun.step _ _ _ h (.lock _ _ (.readLockCall _ false () rfl rfl rfl) (fun t _ _ _ e => by
    cases t
    · cases e
    · exact ⟨rfl, rfl⟩))
  exact ⟨_, h, rfl, _, _, rfl, rfl⟩

end MVault.Lin
