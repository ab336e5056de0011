import Verif.PropsLin
import Verif.PropsTable
import Verif.PropsCareful
import Verif.WorldCount
/-
C92: a vault that several threads use at the same time is a table. The lock (C42), the order of the calls (C67), definedness (C50) and the table specification (C79) put
together: whatever the schedule, the completed calls with their answers are a run of TableSpec.
-/
set_option linter.unusedSectionVars false
set_option linter.unusedSimpArgs false
set_option linter.unusedVariables false
namespace MVault.Lin
open MVault.Mtx MVault.W
open MVault.Spec (Db Event)
variable {K V Ty L B T : Type} [LinearOrder K] [LinearOrder V] [Typed V Ty] [DecidableEq Ty] [DecidableEq T]

/-! ### What the threads do -/

/-- The writing calls: on the vaults `O`, through the references `F` (and `H` for `SetData` with several values). -/
def Uses (O F H : Nat → Prop) : Op K V Ty → Prop
  | .addKey o _ _ | .updateKey o _ _ | .removeKey o _ | .createRow o _ | .eraseKV o _ _ | .eraseManyKV o _ _ _ | .dropData o | .dropVault o => O o
  | .addUniqueKey o _ _ noFn f => O o ∧ (RecordOnly f ∨ noFn = true)
  | .createRecord o f _ | .eraseRef o f => O o ∧ F f
  | .refSetData f _ _ => F f
  | .refSetDataMany f _ => H f
  | _ => False

/-- The vaults live; the references exist and are null or were given out by one of the vaults. -/
structure Shared (O F H : Nat → Prop) (w : World K V Ty) : Prop where
  vaults : ∀ o, O o → isVault w o = true
  refs : ∀ f, F f → ∃ ref, w.refs[f]? = some ref ∧ (ref.ptr = none ∨ ∃ o, ref.vlt = some o ∧ O o)
  many : ∀ f, H f → ∃ ref o, w.refs[f]? = some ref ∧ ref.vlt = some o ∧ O o

/-- The body performs the writing call `op`, in however many statements, with any order of the hash tables: it leads to the world the call leads to and returns the
answer of the call. -/
def Writes (p : Prog (Option (World K V Ty)) L (Answer K ⊕ B)) (op : Op K V Ty) : Prop :=
  p.kind = .W ∧ ∀ w, ∃ env, match outcome env w op with
    | some (w', a) => (exec p.steps (some w, p.start)).1 = some w' ∧ p.result (exec p.steps (some w, p.start)).2 = .inl a
    | none => True

/-- The body reads: it changes nothing and returns something that `q` says about the tables. -/
def Reads (p : Prog (Option (World K V Ty)) L (Answer K ⊕ B)) (q : Db K V Ty → B → Prop) : Prop :=
  p.kind = .R ∧ (∀ f ∈ p.steps, ∀ x, (f x).1 = x.1) ∧
    ∀ w : World K V Ty, ∃ b, p.result (exec p.steps (some w, p.start)).2 = .inr b ∧ q (dbOf w) b

/-- All bodies. -/
def Bodies (O F H : Nat → Prop) (p : Prog (Option (World K V Ty)) L (Answer K ⊕ B)) : Prop :=
  (∃ op, Uses O F H op ∧ Writes p op) ∨ ∃ q, Reads p q

/-! ### What one thread would see -/

/-- One thread performs the bodies of a list one after the other, starting with `w0`: the writing ones give the events and answers `es` and lead to `w`, the reading ones
tell about the tables at their place in the order. -/
inductive Ran (O F H : Nat → Prop) (w0 : World K V Ty) :
    List (Prog (Option (World K V Ty)) L (Answer K ⊕ B) × (Answer K ⊕ B)) → List (Event K V Ty × Answer K) → World K V Ty → Prop
  | nil : Ran O F H w0 [] [] w0
  | write (log es w w' p env op a) : Ran O F H w0 log es w → Uses O F H op → Writes p op → outcome env w op = some (w', a) →
      Ran O F H w0 (log ++ [(p, .inl a)]) ((eventOf w op, a) :: es) w'
  | read (log es w p q b) : Ran O F H w0 log es w → Reads p q → q (dbOf w) b → Ran O F H w0 (log ++ [(p, .inr b)]) es w

/-! ### Proof -/

theorem Shared.careful {O F H : Nat → Prop} {home : Nat → Nat} {w : World K V Ty} (h : Shared O F H w) {op : Op K V Ty} (hu : Uses O F H op) : Careful home w op := by
  cases op <;> simp only [Uses] at hu <;> refine ⟨trivial, ?_⟩ <;> simp only [Allowed]
  case refSetData f k v =>
    obtain ⟨ref, h1, h2⟩ := h.refs f hu
    refine ⟨ref, h1, h2.imp id ?_⟩
    rintro ⟨o, h3, h4⟩; exact ⟨o, h3, h.vaults o h4⟩
  case refSetDataMany f ps => obtain ⟨ref, o, h1, h2, h3⟩ := h.many f hu; exact ⟨ref, o, h1, h2, h.vaults o h3⟩
  case addUniqueKey o k t noFn f => exact ⟨h.vaults o hu.1, hu.2.imp id .inl⟩
  case createRecord o f ps =>
    obtain ⟨ref, h1, _⟩ := h.refs f hu.2
    exact ⟨h.vaults o hu.1, (List.getElem?_eq_some_iff.mp h1).1⟩
  case eraseRef o f =>
    obtain ⟨ref, h1, _⟩ := h.refs f hu.2
    exact ⟨h.vaults o hu.1, (List.getElem?_eq_some_iff.mp h1).1⟩
  all_goals exact h.vaults _ hu

/-- What a writing call does to the references. -/
theorem uses_refs {O F H : Nat → Prop} {env : Env} {w w' : World K V Ty} {op : Op K V Ty} (hi : CI w) (hu : Uses O F H op) (h : step env w op = some w') :
    w'.refs = w.refs ∨ ∃ o f r, O o ∧ w'.refs = w.refs.set f ⟨some r, some o⟩ := by
  cases op <;> simp only [Uses] at hu <;> simp only [step] at h
  case createRecord o f ps =>
    obtain ⟨b, h⟩ := map1 (onV h)
    simp only [createRecord, Option.bind_eq_bind, Option.bind_eq_some_iff] at h
    obtain ⟨vo, hvo, h⟩ := h
    split at h
    · cases h; exact .inl rfl
    · simp only [Option.bind_eq_some_iff, Prod.exists] at h
      obtain ⟨w1, out, h1, h⟩ := h
      have s1 := (insertRecord_cs hi h1).1
      split at h
      · cases h; exact .inl s1.refs
      · simp only [Option.map_eq_some_iff, Prod.mk.injEq] at h
        obtain ⟨w2, h2, rfl, rfl⟩ := h
        have e := (setRecord_rf h2).2.1
        rw [s1.refs] at e
        exact .inr ⟨o, f, _, hu.1, e⟩
  case addKey => obtain ⟨b, h⟩ := map1 (onV h); exact .inl (addKey_cs hi h).refs
  case addUniqueKey => obtain ⟨b, h⟩ := map1 (onV h); exact .inl (addUniqueKey_cs hi h).refs
  case updateKey => obtain ⟨b, h⟩ := map1 (onV h); exact .inl (updateKey_cs hi h).refs
  case removeKey => obtain ⟨b, h⟩ := map1 (onV h); exact .inl (removeKey_cs hi h).refs
  case createRow => obtain ⟨b, h⟩ := map1 (onV h); exact .inl (createRow_cs hi h).refs
  case refSetData => obtain ⟨b, h⟩ := map1 h; exact .inl (refSetData_cs hi h).refs
  case refSetDataMany => obtain ⟨b, h⟩ := map1 h; exact .inl (refSetDataMany_cs hi h).refs
  case eraseRef => obtain ⟨b, h⟩ := map1 (onV h); exact .inl (eraseRef_cs hi h).refs
  case eraseKV => obtain ⟨b, h⟩ := map1 (onV h); exact .inl (eraseKV_cs hi h).refs
  case eraseManyKV => obtain ⟨b, h⟩ := map1 (onV h); exact .inl (eraseManyKV_cs hi h).refs
  case dropData => exact .inl (dropData_cs hi (onV h)).refs
  case dropVault => exact .inl (dropVault_cs hi (onV h)).refs

theorem Shared.step {O F H : Nat → Prop} {home : Nat → Nat} {w w' : World K V Ty} (hw : HReach Careful home w) (h : Shared O F H w) {env : Env} {op : Op K V Ty}
    {a : Answer K} (hu : Uses O F H op) (ho : outcome env w op = some (w', a)) : Shared O F H w' ∧ HReach Careful home w' := by
  have hc : Careful home w op := h.careful hu
  have hs : W.step env w op = some w' := by rw [← outcome_step, ho]; rfl
  have hor : HReach Ordinary home w := hw.mono fun _ _ _ g => g.1
  have href := uses_refs (reach_ci hw.any) hu hs
  refine ⟨⟨fun o hO => ?_, fun f hF => ?_, fun f hH => ?_⟩, .step _ _ _ _ hw hc hs⟩
  · have st := C79_refines hor hc.1 ho
    have hv : ∃ t, dbOf w o = some t := ⟨_, dbOf_vault (h.vaults o hO)⟩
    have hd : ∃ t, dbOf w' o = some t := by
      generalize he : eventOf w op = e at st
      cases e with
      | on o' c =>
        obtain ⟨t, t', _, _, e3⟩ := st
        rw [e3]
        by_cases e : o = o'
        · exact ⟨t', by simp [Db.put, e]⟩
        · simpa [Db.put, e] using hv
      | other => have st : dbOf w' = dbOf w := st; rw [st]; exact hv
      | _ => exfalso; revert he; cases op <;> simp only [Uses] at hu <;> simp only [eventOf] <;> (try split) <;> (try split) <;> intro he <;> cases he
    obtain ⟨t, ht⟩ := hd
    unfold dbOf at ht
    split at ht
    · assumption
    · cases ht
  · obtain ⟨ref, h1, h2⟩ := h.refs f hF
    rcases href with e | ⟨o, g, r, hO, e⟩
    · exact ⟨ref, by rw [e]; exact h1, h2⟩
    · rw [e]
      by_cases hg : g = f
      · subst hg
        exact ⟨⟨some r, some o⟩, List.getElem?_set_self (List.getElem?_eq_some_iff.mp h1).1, .inr ⟨o, rfl, hO⟩⟩
      · exact ⟨ref, by rw [List.getElem?_set_ne hg]; exact h1, h2⟩
  · obtain ⟨ref, o1, h1, h2, h3⟩ := h.many f hH
    rcases href with e | ⟨o, g, r, hO, e⟩
    · exact ⟨ref, o1, by rw [e]; exact h1, h2, h3⟩
    · rw [e]
      by_cases hg : g = f
      · subst hg
        exact ⟨⟨some r, some o⟩, o, List.getElem?_set_self (List.getElem?_eq_some_iff.mp h1).1, rfl, hO⟩
      · exact ⟨ref, o1, by rw [List.getElem?_set_ne hg]; exact h1, h2, h3⟩

theorem bodies_readers (O F H : Nat → Prop) : ReadersRead (Bodies (K := K) (V := V) (Ty := Ty) (L := L) (B := B) O F H) := by
  intro p hp hk
  rcases hp with ⟨op, _, hw, _⟩ | ⟨q, _, hp, _⟩
  · rw [hk] at hw; cases hw
  · exact hp

/-- Only bodies that were begun are completed. -/
theorem log_ok {S A : Type} {ok : Prog S L A → Prop} {s0 : S} {c : St S L A T} (h : LRun ok (St.init s0) c) : ∀ x ∈ c.log, ok x.1 := by
  have : (∀ x ∈ c.log, ok x.1) ∧ ∀ t p rest l, c.th t = .run p rest l → ok p := by
    induction h with
    | refl => exact ⟨(by intro x hx; cases hx), (by intro t p rest l h; cases h)⟩
    | step c' c'' _ hs ih =>
      obtain ⟨i1, i2⟩ := ih
      cases hs with
      | lock s' _ _ => exact ⟨i1, i2⟩
      | begin t p hok _ _ =>
        refine ⟨i1, fun u q rest l hu => ?_⟩
        by_cases e : u = t
        · subst e; simp only [upd, if_true] at hu; cases hu; exact hok
        · exact i2 u q rest l (by simpa [upd, e] using hu)
      | exec t p f rest l ht =>
        refine ⟨i1, fun u q rest' l' hu => ?_⟩
        by_cases e : u = t
        · subst e; simp only [upd, if_true] at hu; cases hu; exact i2 _ _ _ _ ht
        · exact i2 u q rest' l' (by simpa [upd, e] using hu)
      | finish t p l ht =>
        refine ⟨fun x hx => ?_, fun u q rest' l' hu => ?_⟩
        · rcases List.mem_append.1 hx with hx | hx
          · exact i1 x hx
          · rw [List.mem_singleton.1 hx]; exact i2 _ _ _ _ ht
        · by_cases e : u = t
          · subst e; simp [upd] at hu
          · exact i2 u q rest' l' (by simpa [upd, e] using hu)
  exact this.1

theorem ran_of_seq {O F H : Nat → Prop} {home : Nat → Nat} {w0 : World K V Ty} (hw : HReach Careful home w0) (h0 : Shared O F H w0)
    {s : Option (World K V Ty)} {log : List (Prog (Option (World K V Ty)) L (Answer K ⊕ B) × (Answer K ⊕ B))} (h : Sequential (some w0) log s)
    (hok : ∀ x ∈ log, Bodies O F H x.1) : ∃ es w, s = some w ∧ Ran O F H w0 log es w ∧ Shared O F H w ∧ HReach Careful home w := by
  induction h with
  | nil => exact ⟨[], w0, rfl, .nil, h0, hw⟩
  | @snoc s' l p hq ih =>
    obtain ⟨es, w, e, hr, hsh, hre⟩ := ih (fun x hx => hok x (List.mem_append_left _ hx))
    subst e
    rcases hok (p, _) (List.mem_append_right _ (List.mem_singleton.2 rfl)) with ⟨op, hu, hwr⟩ | ⟨q, hq⟩
    · obtain ⟨env, hp⟩ := hwr.2 w
      obtain ⟨w', hst⟩ := C50_careful_defined_partial (env := env) hre (hsh.careful hu)
      rw [← outcome_step] at hst
      obtain ⟨⟨w1, a⟩, h1, h2⟩ := Option.map_eq_some_iff.mp hst
      cases h2
      rw [h1] at hp
      obtain ⟨e1, e2⟩ := hp
      obtain ⟨g1, g2⟩ := hsh.step hre hu h1
      refine ⟨(eventOf w op, a) :: es, w1, e1, ?_, g1, g2⟩
      rw [e2]
      exact .write _ _ _ _ _ env op a hr hu hwr h1
    · obtain ⟨hk, hd, hb⟩ := hq
      obtain ⟨b, e1, e2⟩ := hb w
      refine ⟨es, w, exec_same hd _, ?_, hsh, hre⟩
      rw [e1]
      exact .read _ _ _ _ q b hr ⟨hk, hd, hb⟩ e2

/-! ### C92 -/

/-- A sequential run is a run of the specification of tables, from any point of any earlier run on. -/
theorem Ran.tables {O F H : Nat → Prop} {home : Nat → Nat} {w0 w : World K V Ty} (hw : HReach Careful home w0) (h0 : Shared O F H w0)
    {log : List (Prog (Option (World K V Ty)) L (Answer K ⊕ B) × (Answer K ⊕ B))} {es : List (Event K V Ty × Answer K)} (h : Ran O F H w0 log es w) :
    (Shared O F H w ∧ HReach Careful home w) ∧ ∀ l0, Db.Run l0 (dbOf w0) → Db.Run (es ++ l0) (dbOf w) := by
  induction h with
  | nil => exact ⟨⟨h0, hw⟩, fun l0 h => h⟩
  | write log es w w' p env op a _ hu _ ho ih =>
    obtain ⟨⟨i1, i2⟩, i3⟩ := ih
    refine ⟨i1.step i2 hu ho, fun l0 hl => ?_⟩
    exact .step _ _ _ _ _ (i3 l0 hl) (C79_refines (i2.mono fun _ _ _ g => g.1) (i1.careful (home := home) hu).1 ho)
  | read log es w p q b _ _ _ ih => exact ih

/-- **C92.** Any number of threads, any schedule, any calls on the vaults `O` through references the vaults gave out: at every moment the completed calls, in the order of
their completion, are what one thread would have seen that made them one after the other; their events and answers continue the run of the table specification that led
to the vaults the threads found; and whenever no writing call is in progress the vaults are the tables this run ends with. No call meets undefined behaviour. -/
theorem C92_tables {O F H : Nat → Prop} {home : Nat → Nat} {w0 : World K V Ty} (hw : HReach Careful home w0) (h0 : Shared O F H w0)
    {c : St (Option (World K V Ty)) L (Answer K ⊕ B) T} (h : LRun (Bodies O F H) (St.init (some w0)) c) :
    ∃ es w, Ran O F H w0 c.log es w ∧ (∃ l0, Db.Run l0 (dbOf w0) ∧ Db.Run (es ++ l0) (dbOf w)) ∧ (c.noWriter → c.data = some w) ∧
      HReach Careful home w ∧ Shared O F H w := by
  obtain ⟨s, h1, h2⟩ := C67_linearizable (bodies_readers O F H) h
  obtain ⟨es, w, rfl, h3, h4, h5⟩ := ran_of_seq hw h0 h1 (log_ok h)
  obtain ⟨l0, _, hl⟩ := C79_history_exists (hw.mono fun _ _ _ g => g.1)
  exact ⟨es, w, h3, ⟨l0, hl, (h3.tables hw h0).2 l0 hl⟩, h2, h5, h4⟩

/-- **C92.** A reading call in progress sees the tables of one moment in this order during its whole body. -/
theorem C92_reader {O F H : Nat → Prop} {home : Nat → Nat} {w0 : World K V Ty} (hw : HReach Careful home w0) (h0 : Shared O F H w0)
    {c : St (Option (World K V Ty)) L (Answer K ⊕ B) T} (h : LRun (Bodies O F H) (St.init (some w0)) c) {t : T} {p : Prog (Option (World K V Ty)) L (Answer K ⊕ B)}
    {rest : List (Option (World K V Ty) × L → Option (World K V Ty) × L)} {l : L} (ht : c.th t = .run p rest l) (hk : p.kind = .R) :
    ∃ es w, Ran O F H w0 c.log es w ∧ c.data = some w ∧ ∃ pre, p.steps = pre ++ rest ∧ (exec pre (some w, p.start)).2 = l := by
  obtain ⟨h1, h2⟩ := C67_reader_sees_one_state (bodies_readers O F H) h ht hk
  obtain ⟨es, w, e, h3, _, _⟩ := ran_of_seq hw h0 h1 (log_ok h)
  rw [e] at h2
  exact ⟨es, w, h3, e, h2⟩

/-! ### A concrete case -/

/-- A vault with the key 1, a record, and a reference to it (0) and a free one (1). -/
def sharedOps : List DO := [.newVault, .addKey 0 1 5, .newRef, .newRef, .createRecord 0 0 [(1, 7)]]
def sharedW : DW := (carefulRun sharedOps).getD World.empty

theorem sharedW_reach : HReach Careful (fun _ => 0) sharedW := by
  have : carefulRun sharedOps = some sharedW := rfl
  exact carefulRun_reach this

theorem sharedW_shared : Shared (· = 0) (fun f => f = 0 ∨ f = 1) (· = 0) sharedW where
  vaults := by rintro o rfl; rfl
  refs := by
    rintro f (rfl | rfl)
    · exact ⟨⟨some 0, some 0⟩, rfl, .inr ⟨0, rfl, rfl⟩⟩
    · exact ⟨⟨none, none⟩, rfl, .inl rfl⟩
  many := by rintro f rfl; exact ⟨⟨some 0, some 0⟩, 0, rfl, rfl, rfl⟩

abbrev Loc := Option DW × Option (Answer Nat)

/-- A body that erases the record of reference 0: the world is read into a local variable, then the new one is stored and the answer remembered. -/
def eraseBody : Prog (Option DW) Loc (Answer Nat ⊕ Prop) :=
  ⟨.W, (none, none), [fun x => (x.1, x.1, none), fun x => ((x.2.1.bind fun w => outcome Env.id w (.eraseRef 0 0)).map (·.1), x.2.1,
    (x.2.1.bind fun w => outcome Env.id w (.eraseRef 0 0)).map (·.2))], fun l => .inl (l.2.getD .unit)⟩

/-- A body that asks whether the vault has no rows. -/
noncomputable def emptyBody : Prog (Option DW) Loc (Answer Nat ⊕ Prop) :=
  ⟨.R, (none, none), [fun x => (x.1, x.1, none)], fun l => .inr (∀ r, ∀ w, l.1 = some w → ∀ t, dbOf w 0 = some t → ¬ t.row r)⟩

theorem eraseBody_ok : Bodies (· = 0) (fun f => f = 0 ∨ f = 1) (· = 0) eraseBody := by
  refine .inl ⟨.eraseRef 0 0, ⟨rfl, .inl rfl⟩, rfl, fun w => ⟨Env.id, ?_⟩⟩
  cases h : outcome Env.id w (.eraseRef 0 0) with
  | none => trivial
  | some x => simp [eraseBody, exec, h]

theorem emptyBody_ok : Bodies (· = 0) (fun f => f = 0 ∨ f = 1) (· = 0) emptyBody := by
  refine .inr ⟨fun db b => b ↔ ∀ r, ∀ t, db 0 = some t → ¬ t.row r, rfl, ?_, fun w => ⟨_, rfl, ?_⟩⟩
  · intro f hf x
    simp only [emptyBody, List.mem_singleton] at hf
    subst hf; rfl
  · simp [emptyBody, exec]

/-- One thread erases the record while another waits to read; C92 applies to the state reached. -/
example : ∃ c : St (Option DW) Loc (Answer Nat ⊕ Prop) Bool, LRun (Bodies (· = 0) (fun f => f = 0 ∨ f = 1) (· = 0)) (St.init (some sharedW)) c ∧
    c.sys.job false = .rl () ∧ c.log = [(eraseBody, .inl (.flag true))] ∧ ∃ w, c.data = some w ∧ members w 0 = [] := by
  have h := LRun.refl (ok := Bodies (· = 0) (fun f => f = 0 ∨ f = 1) (· = 0)) (St.init (some sharedW) : St (Option DW) Loc (Answer Nat ⊕ Prop) Bool)
  have h := LRun.step _ _ _ h (.lock _ _ (.writeLockCall _ true () rfl rfl rfl) (fun t _ _ _ e => by cases t <;> cases e))
  have h := LRun.step _ _ _ h (.lock _ _ (.inside _ _ () _ (.wl1 _ true rfl rfl)) (fun t _ _ _ e => by cases t <;> cases e))
  have h := LRun.step _ _ _ h (.lock _ _ (.inside _ _ () _ (.wl2 _ true rfl)) (fun t _ _ _ e => by cases t <;> cases e))
  have h := LRun.step _ _ _ h (.lock _ _ (.inside _ _ () _ (.wl3 _ true rfl)) (fun t _ _ _ e => by cases t <;> cases e))
  have h := LRun.step _ _ _ h (.lock _ _ (.inside _ _ () _ (.wl6 _ true rfl)) (fun t _ _ _ e => by cases t <;> cases e))
  have h := LRun.step _ _ _ h (.lock _ _ (.writeLockDone _ true () rfl rfl) (fun t _ _ _ e => by cases t <;> cases e))
  have h := LRun.step _ _ _ h (.begin _ true eraseBody eraseBody_ok rfl ⟨rfl, by decide⟩)
  have h := LRun.step _ _ _ h (.exec _ true eraseBody _ _ _ rfl)
  have h := LRun.step _ _ _ h (.lock _ _ (.readLockCall _ false () rfl rfl rfl) (fun t _ _ _ e => by
    cases t
    · cases e
    · exact ⟨rfl, rfl⟩))
  have h := LRun.step _ _ _ h (.exec _ true eraseBody _ _ _ rfl)
  have h := LRun.step _ _ _ h (.finish _ true eraseBody _ rfl)
  exact ⟨_, h, rfl, rfl, _, rfl, rfl⟩

end MVault.Lin
