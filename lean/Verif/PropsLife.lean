import Verif.LifeLemmas
/-
C65 and C66: a record used by several threads.
-/
set_option linter.unusedSectionVars false
set_option linter.unusedSimpArgs false
set_option linter.unusedVariables false
namespace MVault.Life
open MVault.Mtx
variable {T : Type} [DecidableEq T]

/-! ### Specification -/

/-- The next statement of a thread at this point reads, writes or deletes the record (specification). -/
def LPc.touches : LPc → Bool
  | .idle => false
  | .rr5 e => e
  | .iv5 e => e
  | _ => true

/-- No thread is inside a method of the record. -/
def Conc.quiet (c : Conc T) : Prop := ∀ t, c.life.pc t = .idle

/-! ### C65 -/

/-- Whatever the threads do and however they are scheduled: when a thread is about to touch the record, its memory has not been freed. In particular it is
never deleted twice. -/
theorem C65_no_use_after_free {c : Conc T} (h : CReach c) (t : T) (ht : (c.life.pc t).touches = true) : c.life.freed = false := by
  have hi := reach_linv h
  have hk := hi.thr t
  cases hf : c.life.freed with
  | false => rfl
  | true =>
    obtain ⟨a, b, d⟩ := hi.gone hf
    have hl := d t
    have hr : ¬ c.reaches t := by
      intro hr
      rcases hi.reach_live hr with x | x
      · exact x b
      · rw [x] at a; cases a
    cases hp : c.life.pc t with
    | idle => rw [hp] at ht; cases ht
    | rr3 => rw [hp] at hl; cases hl
    | iv3 => rw [hp] at hl; cases hl
    | rr4 e =>
      rw [hp] at hl hk
      cases e with
      | true => cases hl
      | false =>
        rcases hk with x | x
        · rw [x] at a; cases a
        · exact absurd b x
    | rr5 e => rw [hp] at hl ht; (cases e; cases ht; cases hl)
    | iv5 e => rw [hp] at hl ht; (cases e; cases ht; cases hl)
    | iv4 e =>
      rw [hp] at hl hk
      cases e with
      | true => cases hl
      | false => exact absurd b hk
    | iv1 => rw [hp] at hk; rw [hk.2.1] at a; cases a
    | iv2 => rw [hp] at hk; rw [hk.2.1] at a; cases a
    | _ =>
      rw [hp] at hk
      first
        | exact absurd hk hr
        | (simp only [TOk] at hk; rw [b] at hk; cases hk)

/-- The reference count is the number of references. -/
theorem C65_count {c : Conc T} (h : CReach c) : c.life.cnt = c.life.owners.length := (reach_linv h).cnt

/-- When no thread is inside a method of the record, its memory has been freed exactly if it has left the vault and there is no reference to it:
the record is not leaked. -/
theorem C65_freed_exactly {c : Conc T} (h : CReach c) (hm : c.life.made = true) (hq : c.quiet) :
    c.life.freed = true ↔ c.life.inVault = false ∧ c.life.owners = [] := by
  have hi := reach_linv h
  constructor
  · intro hf
    obtain ⟨a, b, _⟩ := hi.gone hf
    refine ⟨?_, b⟩
    cases hv : c.life.inVault with
    | false => rfl
    | true => rw [(hi.inV hv).1] at a; cases a
  · rintro ⟨hv, ho⟩
    cases hf : c.life.freed with
    | true => rfl
    | false =>
      cases ha : c.life.valid with
      | true =>
        obtain ⟨t, ht⟩ := hi.out hv hm ha
        rw [hq t] at ht; simp at ht
      | false =>
        obtain ⟨t, ht⟩ := hi.pend ha ho hf
        rw [hq t] at ht; cases ht

/-- `IsValid` is exact for every thread that is between its calls: when no thread is inside a method of the record, the record is valid exactly if it
is in the vault. -/
theorem C65_valid_exactly {c : Conc T} (h : CReach c) (hm : c.life.made = true) (hq : c.quiet) : c.life.valid = true ↔ c.life.inVault = true := by
  have hi := reach_linv h
  constructor
  · intro ha
    cases hv : c.life.inVault with
    | true => rfl
    | false =>
      obtain ⟨t, ht⟩ := hi.out hv hm ha
      rw [hq t] at ht; simp at ht
  · intro hv; exact (hi.inV hv).1

/-! ### C66 -/

/-- Steps of threads inside methods of the record only. -/
inductive RStep : Conc T → Conc T → Prop
  | mk (c c') (t : T) : CStep c c' → (c.life.pc t ≠ .idle) → (∀ u, u ≠ t → c'.life.pc u = c.life.pc u) → c'.sys = c.sys → RStep c c'

/-- Runs of such steps. -/
inductive RRun : Conc T → Conc T → Prop
  | refl (c) : RRun c c
  | step (c c' c'') : RStep c c' → RRun c' c'' → RRun c c''

/-- Number of statements left. -/
def LPc.left : LPc → Nat
  | .idle => 0
  | .ar1 => 3 | .ar2 => 2 | .ar3 => 1
  | .rr1 => 5 | .rr2 => 4 | .rr3 => 3 | .rr4 _ => 2 | .rr5 _ => 1
  | .iv1 => 5 | .iv2 => 4 | .iv3 => 3 | .iv4 _ => 2 | .iv5 _ => 1
  | .gv1 => 3 | .gv2 => 2 | .gv3 => 1
  | .us1 => 1
  | .tj1 => 3 | .tj2 => 2 | .tj3 => 1

/-- A thread inside a method of the record, not in `PrintRecord`, `ToJson`, `ToStrings`. -/
def LPc.plain : LPc → Bool
  | .tj1 => false | .tj2 => false | .tj3 => false
  | _ => true

theorem step_of {c : Conc T} {t : T} (hp : c.life.pc t ≠ .idle) (hpl : (c.life.pc t).plain = true) (hm : c.life.mtx = none ∨ (c.life.pc t).holds = true) :
    ∃ c', CStep c c' ∧ (c'.life.pc t).left < (c.life.pc t).left ∧ (c'.life.pc t).plain = true ∧ (∀ u, u ≠ t → c'.life.pc u = c.life.pc u) ∧ c'.sys = c.sys := by
  have key : ∀ (q : LPc) (c' : Conc T), CStep c c' → c'.life.pc = upd c.life.pc t q → c'.sys = c.sys → q.left < (c.life.pc t).left → q.plain = true →
      ∃ c', CStep c c' ∧ (c'.life.pc t).left < (c.life.pc t).left ∧ (c'.life.pc t).plain = true ∧ (∀ u, u ≠ t → c'.life.pc u = c.life.pc u) ∧ c'.sys = c.sys := by
    intro q c' hs hpc hsys hlt hpl
    refine ⟨c', hs, ?_, ?_, ?_, hsys⟩
    · rw [hpc]; simpa [upd] using hlt
    · rw [hpc]; simpa [upd] using hpl
    · intro u hu; rw [hpc]; simp [upd, hu]
  have free : (c.life.pc t).holds = false → c.life.mtx = none := by
    intro h; rcases hm with hm | hm
    · exact hm
    · rw [h] at hm; cases hm
  cases hq : c.life.pc t with
  | idle => exact absurd hq hp
  | ar1 => exact hq ▸ key .ar2 _ (.ar1 c t hq (free (by rw [hq]; rfl))) rfl rfl (by rw [hq]; decide) rfl
  | ar2 => exact hq ▸ key .ar3 _ (.ar2 c t hq) rfl rfl (by rw [hq]; decide) rfl
  | ar3 => exact hq ▸ key .idle _ (.ar3 c t hq) rfl rfl (by rw [hq]; decide) rfl
  | rr1 => exact hq ▸ key .rr2 _ (.rr1 c t hq (free (by rw [hq]; rfl))) rfl rfl (by rw [hq]; decide) rfl
  | rr2 => exact hq ▸ key .rr3 _ (.rr2 c t hq) rfl rfl (by rw [hq]; decide) rfl
  | rr3 => exact hq ▸ key _ _ (.rr3 c t hq) rfl rfl (by rw [hq]; simp [LPc.left]) rfl
  | rr4 e => exact hq ▸ key (.rr5 e) _ (.rr4 c t e hq) rfl rfl (by rw [hq]; simp [LPc.left]) rfl
  | rr5 e => exact hq ▸ key .idle _ (.rr5 c t e hq) rfl rfl (by rw [hq]; simp [LPc.left]) rfl
  | iv1 => exact hq ▸ key .iv2 _ (.iv1 c t hq (free (by rw [hq]; rfl))) rfl rfl (by rw [hq]; decide) rfl
  | iv2 => exact hq ▸ key .iv3 _ (.iv2 c t hq) rfl rfl (by rw [hq]; decide) rfl
  | iv3 => exact hq ▸ key _ _ (.iv3 c t hq) rfl rfl (by rw [hq]; simp [LPc.left]) rfl
  | iv4 e => exact hq ▸ key (.iv5 e) _ (.iv4 c t e hq) rfl rfl (by rw [hq]; simp [LPc.left]) rfl
  | iv5 e => exact hq ▸ key .idle _ (.iv5 c t e hq) rfl rfl (by rw [hq]; simp [LPc.left]) rfl
  | gv1 => exact hq ▸ key .gv2 _ (.gv1 c t hq (free (by rw [hq]; rfl))) rfl rfl (by rw [hq]; decide) rfl
  | gv2 => exact hq ▸ key .gv3 _ (.gv2 c t hq) rfl rfl (by rw [hq]; decide) rfl
  | gv3 => exact hq ▸ key .idle _ (.gv3 c t hq) rfl rfl (by rw [hq]; decide) rfl
  | us1 => exact hq ▸ key .idle _ (.us1 c t hq) rfl rfl (by rw [hq]; decide) rfl
  | tj1 => rw [hq] at hpl; cases hpl
  | tj2 => rw [hq] at hpl; cases hpl
  | tj3 => rw [hq] at hpl; cases hpl

/-- Statements left in all methods of the record. -/
def Conc.left (c : Conc T) (ts : List T) : Nat := (ts.map fun t => (c.life.pc t).left).sum

theorem left_lt {c c' : Conc T} {t : T} (h1 : (c'.life.pc t).left < (c.life.pc t).left) (h2 : ∀ u, u ≠ t → c'.life.pc u = c.life.pc u) :
    ∀ ts : List T, c'.left ts ≤ c.left ts ∧ (t ∈ ts → c'.left ts < c.left ts)
  | [] => by simp [Conc.left]
  | u :: ts => by
    obtain ⟨a, b⟩ := left_lt h1 h2 ts
    simp only [Conc.left, List.map_cons, List.sum_cons] at a b ⊢
    by_cases e : u = t
    · subst e; omega
    · rw [h2 u e]
      refine ⟨by omega, fun hm => ?_⟩
      rcases List.mem_cons.1 hm with hm | hm
      · exact absurd hm.symm e
      · have := b hm; omega

/-- As long as no thread is inside `PrintRecord`, `ToJson` or `ToStrings` of a reference, all calls in progress on the record can be finished by their own
steps, without any lock of the vault being taken or released: the record's mutex alone never blocks for ever. Missing for the full claim: those three
methods, see `C66_refuted`. -/
theorem C66_record_calls_finish_partial (ts : List T) (hts : ∀ t, t ∈ ts) {c : Conc T} (h : CReach c) (hp : ∀ t, (c.life.pc t).plain = true) :
    ∃ c', RRun c c' ∧ CReach c' ∧ c'.quiet ∧ c'.sys = c.sys := by
  generalize hn : c.left ts = n
  induction n using Nat.strongRecOn generalizing c with
  | ind n ih =>
    by_cases hq : c.quiet
    · exact ⟨c, .refl c, h, hq, rfl⟩
    · have hi := reach_linv h
      have hex : ∃ t, c.life.pc t ≠ .idle ∧ (c.life.mtx = none ∨ (c.life.pc t).holds = true) := by
        cases hm : c.life.mtx with
        | none =>
          have : ∃ t, c.life.pc t ≠ .idle := by
            by_cases hx : ∃ t, c.life.pc t ≠ .idle
            · exact hx
            · exact absurd (fun t => by
                by_cases e : c.life.pc t = .idle
                · exact e
                · exact absurd ⟨t, e⟩ hx) hq
          obtain ⟨t, ht⟩ := this
          exact ⟨t, ht, .inl rfl⟩
        | some t =>
          have := (hi.mtx t).1 hm
          refine ⟨t, ?_, .inr this⟩
          intro e; rw [e] at this; cases this
      obtain ⟨t, ht, hm⟩ := hex
      obtain ⟨c', hs, hlt, hpl, hoth, hsys⟩ := step_of ht (hp t) hm
      have hlt' := (left_lt hlt hoth ts).2 (hts t)
      obtain ⟨c'', hr, hc, hqq, hss⟩ := ih _ (by omega) (CReach.step _ _ h hs)
        (fun u => by
          by_cases e : u = t
          · subst e; exact hpl
          · rw [hoth u e]; exact hp u) rfl
      exact ⟨c'', .step _ _ _ (.mk c c' t hs ht hoth hsys) hr, hc, hqq, by rw [hss, hsys]⟩

/-- What the deadlock looks like: thread `false`, in `ToJson` of a reference, owns the record's mutex and waits for the vault's mutex; thread `true` erases
the record, owns the vault's mutex and waits for the record's mutex. Nothing can happen any more. -/
theorem stuck {c : Conc Bool} (h1 : c.life.pc false = .tj2) (h2 : c.life.pc true = .iv1) (h3 : c.life.mtx = some false) (h4 : c.sys.job false = .rl ())
    (h5 : (c.sys.inner ()).pc false = .rl1) (h6 : (c.sys.inner ()).pc true = .writing) (h7 : (c.sys.inner ()).wOwn = some true)
    (h8 : c.sys.job true = .free) (h9 : c.sys.stack true = [(.W, ())]) (h10 : c.sys.lw true = 1) (c' : Conc Bool) : ¬ CStep c c' := by
  intro hs
  have two : ∀ t : Bool, t = false ∨ t = true := by decide
  cases hs with
  | lock s' hst hk =>
    obtain ⟨k1, k2⟩ := hk true (by rw [h2]; rfl)
    cases hst with
    | inside t m i' hi =>
      obtain ⟨⟩ := m
      rcases two t with rfl | rfl
      · cases hi <;> simp_all
      · cases hi <;> simp_all
    | _ t =>
      rcases two t with rfl | rfl
      · simp_all
      · simp_all [upd, Sys.call]
  | handOver t u hp hp' => rcases two t with rfl | rfl <;> simp_all
  | _ t => rcases two t with rfl | rfl <;> simp_all

/-- The full claim is false: a thread that prints a record or turns it into JSON while another thread erases it can block both threads for ever. -/
theorem C66_refuted : ∃ c : Conc Bool, CReach c ∧ c.life.pc false = .tj2 ∧ c.life.pc true = .iv1 ∧ ∀ c', ¬ CStep c c' := by
  have h := CReach.init (T := Bool)
  -- thread `true` creates the record and hands a reference to thread `false`
  have h := CReach.step _ _ h (.lock _ _ (.writeLockCall _ true () rfl rfl rfl) (fun t => by cases t <;> simp [Conc.init, LPc.busy]))
  have h := CReach.step _ _ h (.lock _ _ (.inside _ _ () _ (.wl1 _ true rfl rfl)) (fun t => by cases t <;> simp [Conc.init, LPc.busy]))
  have h := CReach.step _ _ h (.lock _ _ (.inside _ _ () _ (.wl2 _ true rfl)) (fun t => by cases t <;> simp [Conc.init, LPc.busy]))
  have h := CReach.step _ _ h (.lock _ _ (.inside _ _ () _ (.wl3 _ true rfl)) (fun t => by cases t <;> simp [Conc.init, LPc.busy]))
  have h := CReach.step _ _ h (.lock _ _ (.inside _ _ () _ (.wl6 _ true rfl)) (fun t => by cases t <;> simp [Conc.init, LPc.busy]))
  have h := CReach.step _ _ h (.lock _ _ (.writeLockDone _ true () rfl rfl) (fun t => by cases t <;> simp [Conc.init, LPc.busy]))
  have h := CReach.step _ _ h (.create _ true rfl ⟨rfl, by decide⟩ rfl)
  have h := CReach.step _ _ h (.addRef _ true rfl (.inr ⟨⟨rfl, by decide⟩, rfl⟩))
  have h := CReach.step _ _ h (.ar1 _ true rfl rfl)
  have h := CReach.step _ _ h (.ar2 _ true rfl)
  have h := CReach.step _ _ h (.ar3 _ true rfl)
  have h := CReach.step _ _ h (.handOver _ true false rfl rfl (by decide))
  -- thread `true` begins to erase, thread `false` calls ToJson and locks the record first
  have h := CReach.step _ _ h (.toJson _ false rfl (by decide))
  have h := CReach.step _ _ h (.tj1 _ false rfl rfl)
  have h := CReach.step _ _ h (.erase _ true rfl ⟨rfl, by decide⟩ rfl)
  have h := CReach.step _ _ h (.lock _ _ (.readLockCall _ false () rfl rfl rfl) (fun t => by cases t <;> simp [Conc.init, LPc.busy, Sys.call, upd, Life.goto]))
  exact ⟨_, h, rfl, rfl, stuck rfl rfl rfl rfl rfl rfl rfl rfl rfl rfl⟩

/-! ### Concrete cases -/

/-- A record that is created, referred to by both threads, erased by one of them and then released by both: a state where the last reference is
about to be dropped, so the hypotheses of C65 hold. -/
example : ∃ c : Conc Bool, CReach c ∧ c.life.pc false = .rr5 true ∧ c.life.inVault = false ∧ (c.life.pc false).touches = true := by
  have h := CReach.init (T := Bool)
  have h := CReach.step _ _ h (.lock _ _ (.writeLockCall _ true () rfl rfl rfl) (fun t => by cases t <;> simp [Conc.init, LPc.busy]))
  have h := CReach.step _ _ h (.lock _ _ (.inside _ _ () _ (.wl1 _ true rfl rfl)) (fun t => by cases t <;> simp [Conc.init, LPc.busy]))
  have h := CReach.step _ _ h (.lock _ _ (.inside _ _ () _ (.wl2 _ true rfl)) (fun t => by cases t <;> simp [Conc.init, LPc.busy]))
  have h := CReach.step _ _ h (.lock _ _ (.inside _ _ () _ (.wl3 _ true rfl)) (fun t => by cases t <;> simp [Conc.init, LPc.busy]))
  have h := CReach.step _ _ h (.lock _ _ (.inside _ _ () _ (.wl6 _ true rfl)) (fun t => by cases t <;> simp [Conc.init, LPc.busy]))
  have h := CReach.step _ _ h (.lock _ _ (.writeLockDone _ true () rfl rfl) (fun t => by cases t <;> simp [Conc.init, LPc.busy]))
  have h := CReach.step _ _ h (.create _ true rfl ⟨rfl, by decide⟩ rfl)
  have h := CReach.step _ _ h (.addRef _ true rfl (.inr ⟨⟨rfl, by decide⟩, rfl⟩))
  have h := CReach.step _ _ h (.ar1 _ true rfl rfl)
  have h := CReach.step _ _ h (.ar2 _ true rfl)
  have h := CReach.step _ _ h (.ar3 _ true rfl)
  have h := CReach.step _ _ h (.handOver _ true false rfl rfl (by decide))
  have h := CReach.step _ _ h (.removeRef _ false rfl (by decide))
  have h := CReach.step _ _ h (.erase _ true rfl ⟨rfl, by decide⟩ rfl)
  have h := CReach.step _ _ h (.iv1 _ true rfl rfl)
  have h := CReach.step _ _ h (.iv2 _ true rfl)
  have h := CReach.step _ _ h (.iv3 _ true rfl)
  have h := CReach.step _ _ h (.iv4 _ true false rfl)
  have h := CReach.step _ _ h (.rr1 _ false rfl rfl)
  have h := CReach.step _ _ h (.rr2 _ false rfl)
  have h := CReach.step _ _ h (.rr3 _ false rfl)
  have h := CReach.step _ _ h (.rr4 _ false true rfl)
  exact ⟨_, h, rfl, rfl, rfl⟩

/-- A quiet state with a live record. -/
example : ∃ c : Conc Bool, CReach c ∧ c.quiet ∧ c.life.made = true ∧ c.life.owners = [true] := by
  have h := CReach.init (T := Bool)
  have h := CReach.step _ _ h (.lock _ _ (.writeLockCall _ true () rfl rfl rfl) (fun t => by cases t <;> simp [Conc.init, LPc.busy]))
  have h := CReach.step _ _ h (.lock _ _ (.inside _ _ () _ (.wl1 _ true rfl rfl)) (fun t => by cases t <;> simp [Conc.init, LPc.busy]))
  have h := CReach.step _ _ h (.lock _ _ (.inside _ _ () _ (.wl2 _ true rfl)) (fun t => by cases t <;> simp [Conc.init, LPc.busy]))
  have h := CReach.step _ _ h (.lock _ _ (.inside _ _ () _ (.wl3 _ true rfl)) (fun t => by cases t <;> simp [Conc.init, LPc.busy]))
  have h := CReach.step _ _ h (.lock _ _ (.inside _ _ () _ (.wl6 _ true rfl)) (fun t => by cases t <;> simp [Conc.init, LPc.busy]))
  have h := CReach.step _ _ h (.lock _ _ (.writeLockDone _ true () rfl rfl) (fun t => by cases t <;> simp [Conc.init, LPc.busy]))
  have h := CReach.step _ _ h (.create _ true rfl ⟨rfl, by decide⟩ rfl)
  have h := CReach.step _ _ h (.addRef _ true rfl (.inr ⟨⟨rfl, by decide⟩, rfl⟩))
  have h := CReach.step _ _ h (.ar1 _ true rfl rfl)
  have h := CReach.step _ _ h (.ar2 _ true rfl)
  have h := CReach.step _ _ h (.ar3 _ true rfl)
  exact ⟨_, h, by intro t; cases t <;> rfl, rfl, rfl⟩

end MVault.Life
