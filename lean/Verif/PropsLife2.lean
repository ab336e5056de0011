import Verif.ManyModel
import Verif.PropsLife
import Verif.PropsMutex2
/-
C65 and C66 for a vault with any number of records.
-/
set_option linter.unusedSectionVars false
set_option linter.unusedSimpArgs false
set_option linter.unusedVariables false
namespace MVault.Life
open MVault.Mtx
variable {R T : Type} [DecidableEq R] [DecidableEq T]

/-! ### Specification -/

/-- No thread is inside a method of any record. -/
def Many.quiet (c : Many R T) : Prop := ∀ r t, (c.recs r).pc t = .idle

/-- A step that only continues calls in progress: no thread begins a method of a record, and no thread asks for a new lock of the vault (`Releases`: threads in
user code may release their innermost lock). -/
def Continues (c c' : Many R T) : Prop :=
  MStep c c' ∧ (∀ r t, (c.recs r).pc t = .idle → (c'.recs r).pc t = .idle) ∧ (c'.sys = c.sys ∨ (Releases c.sys c'.sys ∧ c'.recs = c.recs))

/-- Any number of such steps. -/
inductive MDrain : Many R T → Many R T → Prop
  | refl (c) : MDrain c c
  | step (c c' c'') : Continues c c' → MDrain c' c'' → MDrain c c''

/-! ### Each record lives its own life -/

theorem MDrain.trans {a b c : Many R T} (h1 : MDrain a b) (h2 : MDrain b c) : MDrain a c := by
  induction h1 with
  | refl => exact h2
  | step s s1 s2 hs _ ih => exact .step _ _ _ hs (ih h2)

theorem MDrain.reach {c c' : Many R T} (h : MDrain c c') (hc : MReach c) : MReach c' := by
  induction h with
  | refl => exact hc
  | step c c' c'' h1 _ ih => exact ih (.step _ _ hc h1.1)

/-- Seen from one record, the others do not matter. -/
theorem view_reach {c : Many R T} (h : MReach c) (r : R) : CReach (c.view r) := by
  induction h with
  | init => exact .init
  | step c c' _ hs ih =>
    cases hs with
    | lock s' hst hk => exact .step _ _ ih (.lock _ _ hst (fun t ht => hk r t ht))
    | record r' l hst hb =>
      by_cases e : r = r'
      · subst e
        have : (Many.view ⟨c.sys, upd c.recs r l⟩ r : Conc T) = ⟨c.sys, l⟩ := by simp [Many.view, upd]
        rw [this]
        exact .step _ _ ih hst
      · have : (Many.view ⟨c.sys, upd c.recs r' l⟩ r : Conc T) = c.view r := by simp [Many.view, upd, e]
        rw [this]; exact ih

theorem sys_reach {c : Many R T} (h : MReach c) : SReach false c.sys := by
  induction h with
  | init => exact .init
  | step c c' _ hs ih =>
    cases hs with
    | lock s' hst hk => exact .step _ _ ih hst
    | record r l hst hb => exact ih

/-- C65 for all records of a vault at once: whatever the threads do with whichever records, a record about to be touched has not been freed; its count is the
number of references to it; and while no method of it runs, it has been freed exactly if it has left the vault and nobody refers to it, and is valid exactly if
it is in the vault. -/
theorem C65_many {c : Many R T} (h : MReach c) (r : R) :
    (∀ t, ((c.recs r).pc t).touches = true → (c.recs r).freed = false) ∧
    (c.recs r).cnt = (c.recs r).owners.length ∧
    ((c.recs r).made = true → (∀ t, (c.recs r).pc t = .idle) →
      ((c.recs r).freed = true ↔ (c.recs r).inVault = false ∧ (c.recs r).owners = []) ∧ ((c.recs r).valid = true ↔ (c.recs r).inVault = true)) := by
  have hv := view_reach h r
  exact ⟨fun t ht => C65_no_use_after_free hv t ht, C65_count hv, fun hm hq => ⟨C65_freed_exactly hv hm hq, C65_valid_exactly hv hm hq⟩⟩

/-! ### Finishing everything -/

/-- The calls on record `r` are finished, the other records stay as they are. -/
theorem finish_record (ts : List T) (hts : ∀ t, t ∈ ts) (r : R) {c : Many R T} (h : MReach c) (hp : ∀ t, ((c.recs r).pc t).plain = true) :
    ∃ c', MDrain c c' ∧ (∀ t, (c'.recs r).pc t = .idle) ∧ (∀ r', r' ≠ r → c'.recs r' = c.recs r') ∧ c'.sys = c.sys := by
  obtain ⟨d, hr, _, hq, hsys⟩ := C66_record_calls_finish_partial ts hts (view_reach h r) hp
  have key : ∀ (d0 d : Conc T), RRun d0 d → ∀ c : Many R T, c.view r = d0 → ∃ c', MDrain c c' ∧ c'.view r = d ∧ (∀ r', r' ≠ r → c'.recs r' = c.recs r') ∧ c'.sys = c.sys := by
    intro d0 d hr
    induction hr with
    | refl d => intro c hc; exact ⟨c, .refl c, hc, fun _ _ => rfl, rfl⟩
    | step d d1 d2 hs _ ih =>
      intro c hc
      obtain ⟨t, hst, ht, hoth, hsy⟩ := hs
      subst hc
      obtain ⟨s1, l1⟩ := d1
      have hs1 : s1 = c.sys := hsy
      subst hs1
      have idle : ∀ u, (c.recs r).pc u = .idle → l1.pc u = .idle := by
        intro u hu
        by_cases e : u = t
        · subst e; exact absurd hu ht
        · have := hoth u e
          exact this.trans hu
      obtain ⟨c', hd, hv, ho, hsy'⟩ := ih ⟨c.sys, upd c.recs r l1⟩ (by simp [Many.view, upd])
      refine ⟨c', .step _ _ _ ⟨.record c r l1 hst (fun u hu hne => absurd (idle u hu) hne), ?_, .inl rfl⟩ hd, hv, ?_, hsy'⟩
      · intro r' u hu
        by_cases e : r' = r
        · subst e; simpa [upd] using idle u hu
        · simpa [upd, e] using hu
      · intro r' e; rw [ho r' e]; simp [upd, e]
  obtain ⟨c', hd, hv, ho, hsy⟩ := key _ _ hr c rfl
  refine ⟨c', hd, fun t => ?_, ho, hsy⟩
  have : (c'.view r).life.pc t = .idle := by rw [hv]; exact hq t
  exact this

theorem finish_records (ts : List T) (hts : ∀ t, t ∈ ts) : ∀ (rs : List R) {c : Many R T}, MReach c → (∀ r t, ((c.recs r).pc t).plain = true) →
    ∃ c', MDrain c c' ∧ (∀ r ∈ rs, ∀ t, (c'.recs r).pc t = .idle) ∧ (∀ r t, ((c'.recs r).pc t).plain = true) ∧ c'.sys = c.sys
  | [], c, _, hp => ⟨c, .refl c, by simp, hp, rfl⟩
  | r :: rs, c, h, hp => by
    obtain ⟨c1, d1, q1, p1, s1⟩ := finish_records ts hts rs h hp
    obtain ⟨c2, d2, q2, o2, s2⟩ := finish_record ts hts r (d1.reach h) (p1 r)
    refine ⟨c2, d1.trans d2, ?_, ?_, s2.trans s1⟩
    · intro r' hr' t
      by_cases e : r' = r
      · subst e; exact q2 t
      · rw [o2 r' e]
        rcases List.mem_cons.1 hr' with x | x
        · exact absurd x e
        · exact q1 r' x t
    · intro r' t
      by_cases e : r' = r
      · subst e; rw [q2 t]; rfl
      · rw [o2 r' e]; exact p1 r' t

/-- C66 for a vault with any number of records (partial: no thread is inside `PrintRecord`, `ToJson` or `ToStrings` of a reference, see `C66_refuted`). From
every reachable state all calls in progress - on any records and on the vault's lock - can be completed by continuing them, with no new call begun, until no
thread is inside a method of a record, no thread waits for the vault's lock and every lock has been released. So there is no deadlock between the locks of
the records and the lock of the vault. -/
theorem C66_many_partial (ts : List T) (hts : ∀ t, t ∈ ts) (rs : List R) (hrs : ∀ r, r ∈ rs) {c : Many R T} (h : MReach c)
    (hp : ∀ r t, ((c.recs r).pc t).plain = true) :
    ∃ c', MDrain c c' ∧ c'.quiet ∧ ∀ t, c'.sys.job t = .free ∧ c'.sys.stack t = [] ∧ (c'.sys.inner ()).pc t = .idle := by
  obtain ⟨c1, d1, q1, _, s1⟩ := finish_records ts hts rs h hp
  obtain ⟨s', dr, hs'⟩ := C74_never_stuck ts hts c1.sys (sys_reach (d1.reach h))
  have key : ∀ (s s' : Sys Unit T), Drain s s' → ∀ c : Many R T, c.sys = s → c.quiet → MDrain c ⟨s', c.recs⟩ := by
    intro s s' dr
    induction dr with
    | refl s => intro c hc _; subst hc; exact .refl c
    | step s s1 s2 hr _ ih =>
      intro c hc hq
      subst hc
      refine .step _ ⟨s1, c.recs⟩ _ ⟨.lock c s1 hr.1 ?_, fun r t ht => ht, .inr ⟨hr, rfl⟩⟩ (ih ⟨s1, c.recs⟩ rfl hq)
      intro r t ht
      rw [hq r t] at ht; cases ht
  have hq1 : c1.quiet := fun r t => q1 r (hrs r) t
  exact ⟨⟨s', c1.recs⟩, d1.trans (key _ _ dr c1 rfl hq1), hq1, hs'⟩

/-! ### More deadlocks -/

/-- Thread `true` makes a record, takes a reference to it, gives thread `false` another one and releases the vault's lock. -/
theorem shared_record : ∃ c : Conc Bool, CReach c ∧ c = ⟨⟨fun _ => ⟨fun _ => .idle, none, none, 0, false⟩, fun _ => 0, fun _ => 0, fun _ => .free, fun _ => []⟩,
    ⟨fun _ => .idle, none, true, 2, true, true, false, [false, true]⟩⟩ := by
  have h := CReach.init (T := Bool)
  have h := CReach.step _ _ h (.lock _ _ (.writeLockCall _ true () rfl rfl rfl) (fun t => by cases t <;> simp [Conc.init, LPc.busy]))
  have h := CReach.step _ _ h (.lock _ _ (.inside _ _ () _ (.wl1 _ true rfl rfl)) (fun t => by cases t <;> simp [Conc.init, LPc.busy]))
  have h := CReach.step _ _ h (.lock _ _ (.inside _ _ () _ (.wl2 _ true rfl)) (fun t => by cases t <;> simp [Conc.init, LPc.busy]))
  have h := CReach.step _ _ h (.lock _ _ (.inside _ _ () _ (.wl3 _ true rfl)) (fun t => by cases t <;> simp [Conc.init, LPc.busy]))
  have h := CReach.step _ _ h (.lock _ _ (.inside _ _ () _ (.wl6 _ true rfl)) (fun t => by cases t <;> simp [Conc.init, LPc.busy]))
  have h := CReach.step _ _ h (.lock _ _ (.writeLockDone _ true () rfl rfl) (fun t => by cases t <;> simp [Conc.init, LPc.busy]))
  have h := CReach.step _ _ h (.create _ true rfl ⟨rfl, by decide⟩ rfl)
  have h := CReach.step _ _ h (.addRef _ true rfl (.inr ⟨⟨rfl, by decide⟩, rfl⟩))
  have h := CReach.step _ _ h (.ar1 _ true rfl rfl)
  have h := CReach.step _ _ h (.ar2 _ true rfl)
  have h := CReach.step _ _ h (.ar3 _ true rfl)
  have h := CReach.step _ _ h (.addRef _ true rfl (.inl (by decide)))
  have h := CReach.step _ _ h (.ar1 _ true rfl rfl)
  have h := CReach.step _ _ h (.ar2 _ true rfl)
  have h := CReach.step _ _ h (.ar3 _ true rfl)
  have h := CReach.step _ _ h (.handOver _ true false rfl rfl (by decide))
  have h := CReach.step _ _ h (.lock _ _ (.writeUnlockCall _ true () [] rfl rfl rfl) (fun t => by cases t <;> simp [Conc.init, LPc.busy, Life.goto, upd]))
  have h := CReach.step _ _ h (.lock _ _ (.inside _ _ () _ (.wu1 _ true rfl)) (fun t => by cases t <;> simp [Conc.init, LPc.busy, Life.goto, upd]))
  have h := CReach.step _ _ h (.lock _ _ (.writeUnlockDone _ true () rfl rfl rfl) (fun t => by cases t <;> simp [Conc.init, LPc.busy, Life.goto, upd]))
  refine ⟨_, h, ?_⟩
  simp only [Conc.init, Sys.init, Inner.init, Sys.call, Inner.goto, Life.goto, Conc.mk.injEq, Sys.mk.injEq, Life.mk.injEq]
  refine ⟨⟨?_, ?_, ?_, ?_, ?_⟩, ?_, ?_⟩
  · funext u; simp only [upd, if_true, Inner.mk.injEq]
    refine ⟨?_, ?_⟩
    · funext t; cases t <;> rfl
    · refine ⟨?_, ?_, ?_, ?_⟩ <;> first | rfl | trivial
  · first | rfl | trivial
  · funext t; cases t <;> rfl
  · funext t; cases t <;> rfl
  · funext t; cases t <;> rfl
  · funext t; cases t <;> rfl
  · refine ⟨?_, ?_, ?_, ?_, ?_, ?_, ?_⟩ <;> first | rfl | trivial

/-- Thread `true`, in `SetData` of a reference, owns the vault's lock and asks `GetIsValid` of the record, whose mutex thread `false`, in `ToJson`, owns. -/
theorem stuck_write {c : Conc Bool} (h1 : c.life.pc false = .tj2) (h2 : c.life.pc true = .gv1) (h3 : c.life.mtx = some false) (h4 : c.sys.job false = .rl ())
    (h5 : (c.sys.inner ()).pc false = .rl1) (h6 : (c.sys.inner ()).pc true = .writing) (h7 : (c.sys.inner ()).wOwn = some true)
    (h8 : c.sys.job true = .free) (h9 : c.sys.stack true = [(.W, ())]) (h10 : c.sys.lw true = 1) (c' : Conc Bool) : ¬ CStep c c' := by
  intro hs
  have two : ∀ t : Bool, t = false ∨ t = true := by decide
  cases hs with
  | lock s' hst hk =>
    obtain ⟨k1, k2⟩ := hk true (by rw [h2]; rfl)
    cases hst with
    | inside t m i' hi =>
      obtain ⟨⟩ := m
      rcases two t with rfl | rfl
      · cases hi <;> simp_all
      · cases hi <;> simp_all
    | _ t =>
      rcases two t with rfl | rfl
      · simp_all
      · simp_all [upd, Sys.call]
  | handOver t u hp hp' => rcases two t with rfl | rfl <;> simp_all
  | _ t => rcases two t with rfl | rfl <;> simp_all

/-- The full claim is also false without any erasing: a thread that changes a record with SetData (VaultRecordRef.hpp lines 29-32: write lock, then `GetIsValid`) while
another one turns the same record into JSON (VaultRecordRef.cpp lines 302-306: record's mutex, then read lock) can block both for ever. -/
theorem C66_refuted_setData : ∃ c : Conc Bool, CReach c ∧ c.life.pc false = .tj2 ∧ c.life.pc true = .gv1 ∧ c.life.valid = true ∧ c.life.inVault = true ∧
    c.sys.stack true = [(.W, ())] ∧ ∀ c', ¬ CStep c c' := by
  obtain ⟨c, h, rfl⟩ := shared_record
  -- thread `false` calls ToJson and locks the record
  have h := CReach.step _ _ h (.toJson _ false rfl (by decide))
  have h := CReach.step _ _ h (.tj1 _ false rfl rfl)
  -- thread `true` calls SetData and locks the vault
  have h := CReach.step _ _ h (.lock _ _ (.writeLockCall _ true () rfl rfl rfl) (fun t => by cases t <;> simp [LPc.busy, Life.goto, upd]))
  have h := CReach.step _ _ h (.lock _ _ (.inside _ _ () _ (.wl1 _ true rfl rfl)) (fun t => by cases t <;> simp [LPc.busy, Life.goto, upd]))
  have h := CReach.step _ _ h (.lock _ _ (.inside _ _ () _ (.wl2 _ true rfl)) (fun t => by cases t <;> simp [LPc.busy, Life.goto, upd]))
  have h := CReach.step _ _ h (.lock _ _ (.inside _ _ () _ (.wl3 _ true rfl)) (fun t => by cases t <;> simp [LPc.busy, Life.goto, upd]))
  have h := CReach.step _ _ h (.lock _ _ (.inside _ _ () _ (.wl6 _ true rfl)) (fun t => by cases t <;> simp [LPc.busy, Life.goto, upd]))
  have h := CReach.step _ _ h (.lock _ _ (.writeLockDone _ true () rfl rfl) (fun t => by cases t <;> simp [LPc.busy, Life.goto, upd]))
  have h := CReach.step _ _ h (.getIsValid _ true rfl (.inl (by decide)))
  -- thread `false` asks for the read lock
  have h := CReach.step _ _ h (.lock _ _ (.readLockCall _ false () rfl rfl rfl) (fun t => by cases t <;> simp [LPc.busy, Sys.call, upd, Life.goto]))
  exact ⟨_, h, rfl, rfl, rfl, rfl, rfl, stuck_write rfl rfl rfl rfl rfl rfl rfl rfl rfl rfl⟩

/-! ### Concrete cases -/

/-- Two threads in methods of two different records at the same time, one of which holds the vault's lock: the hypotheses of `C65_many` and `C66_many_partial` hold. -/
example : ∃ c : Many Bool Bool, MReach c ∧ (c.recs true).pc true = .ar2 ∧ (c.recs false).pc false = .gv1 ∧ c.sys.stack true = [(.W, ())] ∧
    (∀ r t, ((c.recs r).pc t).plain = true) := by
  have h := MReach.init (R := Bool) (T := Bool)
  have b : ∀ (s s' : Sys Unit Bool), ∀ r t, (((Many.init Bool Bool).recs r).pc t).busy = true → s'.stack t = s.stack t ∧ s'.job t = s.job t := by
    intro s s' r t ht; cases ht
  have h := MReach.step _ _ h (.lock _ _ (.writeLockCall _ true () rfl rfl rfl) (b _ _))
  have h := MReach.step _ _ h (.lock _ _ (.inside _ _ () _ (.wl1 _ true rfl rfl)) (b _ _))
  have h := MReach.step _ _ h (.lock _ _ (.inside _ _ () _ (.wl2 _ true rfl)) (b _ _))
  have h := MReach.step _ _ h (.lock _ _ (.inside _ _ () _ (.wl3 _ true rfl)) (b _ _))
  have h := MReach.step _ _ h (.lock _ _ (.inside _ _ () _ (.wl6 _ true rfl)) (b _ _))
  have h := MReach.step _ _ h (.lock _ _ (.writeLockDone _ true () rfl rfl) (b _ _))
  have idle : ∀ (t : Bool) (p : LPc), p = .idle → p ≠ .idle → ∀ r' : Bool, (LPc.idle : LPc) = .idle := fun _ _ a b => absurd a b
  have h := MReach.step _ _ h (.record _ false _ (.create _ true rfl ⟨rfl, by decide⟩ rfl) (by intro t _ hne; exact absurd rfl hne))
  have h := MReach.step _ _ h (.record _ false _ (.addRef _ true rfl (.inr ⟨⟨rfl, by decide⟩, rfl⟩)) (by intro t _ _ r'; cases r' <;> rfl))
  have h := MReach.step _ _ h (.record _ false _ (.ar1 _ true rfl rfl) (by intro t a b; cases t <;> first | exact absurd a (by decide) | exact absurd rfl b))
  have h := MReach.step _ _ h (.record _ false _ (.ar2 _ true rfl) (by intro t a b; cases t <;> first | exact absurd a (by decide) | exact absurd rfl b))
  have h := MReach.step _ _ h (.record _ false _ (.ar3 _ true rfl) (by intro t a b; cases t <;> first | exact absurd a (by decide) | exact absurd rfl b))
  have h := MReach.step _ _ h (.record _ false _ (.handOver _ true false rfl rfl (by decide)) (by intro t a b; exact absurd a b))
  have h := MReach.step _ _ h (.record _ true _ (.create _ true rfl ⟨rfl, by decide⟩ rfl) (by intro t _ hne; exact absurd rfl hne))
  have h := MReach.step _ _ h (.record _ true _ (.addRef _ true rfl (.inr ⟨⟨rfl, by decide⟩, rfl⟩)) (by intro t _ _ r'; cases r' <;> cases t <;> rfl))
  have h := MReach.step _ _ h (.record _ true _ (.ar1 _ true rfl rfl) (by intro t a b; cases t <;> first | exact absurd a (by decide) | exact absurd rfl b))
  have h := MReach.step _ _ h (.record _ false _ (.getIsValid _ false rfl (.inl (by decide))) (by
    intro t a b r'
    cases t
    · cases r' <;> rfl
    · exact absurd rfl b))
  refine ⟨_, h, rfl, rfl, rfl, ?_⟩
  intro r t; cases r <;> cases t <;> rfl

end MVault.Life
