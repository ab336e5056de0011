import Verif.TableTwin
import Verif.PropsTable2
import Mathlib.Data.List.Nodup
/-
C114: what a vault does depends on its contents only. Two vaults with the same contents, in the same program or in two programs, give the same answers to
the same calls and have the same contents afterwards, whatever their histories, the identities of their records and the orders of their hash tables are.
-/
set_option linter.unusedSectionVars false
set_option linter.unusedSimpArgs false
set_option linter.unusedVariables false
namespace MVault.W
open MVault.Spec (Table Db Event Cmd)
variable {K V Ty : Type} [LinearOrder K] [LinearOrder V] [Typed V Ty] [DecidableEq Ty]

/-- Specification, models no code: vault `o'` of `w'` has the contents of vault `o` of `w`; the record `r` of the one is the record `m r` of the other. -/
structure Twins (m : Nat → Nat) (w : World K V Ty) (o : Nat) (w' : World K V Ty) (o' : Nat) : Prop where
  /-- `GetKeys`: the same keys in the same order -/
  keys : getKeys w' o' = getKeys w o
  /-- `GetUniqueKeys` -/
  uniq : ∀ k, k ∈ getUniqueKeys w' o' ↔ k ∈ getUniqueKeys w o
  /-- `GetKeyType` -/
  types : ∀ k, getKeyType w' o' k = getKeyType w o k
  /-- the value a new record gets -/
  defaults : ∀ k, getDefault w' o' k = getDefault w o k
  /-- different records are different records, and there are no others -/
  inj : ∀ r ∈ members w o, ∀ s ∈ members w o, m r = m s → r = s
  records : ∀ r', r' ∈ members w' o' ↔ ∃ r, r ∈ members w o ∧ r' = m r
  /-- `GetData`: the same values -/
  values : ∀ r ∈ members w o, ∀ k, value w' (m r) k = value w r k
  /-- searches and sorting find the same records -/
  listed : ∀ r ∈ members w o, ∀ b k, Listed b w' o' k (m r) ↔ Listed b w o k r

theorem twins_iff {m : Nat → Nat} {w w' : World K V Ty} {o o' : Nat} : Twins m w o w' o' ↔ (asTable w o).Like m (asTable w' o') := by
  constructor
  · intro h
    refine ⟨h.keys, h.uniq, h.types, h.defaults, fun r s hr hs => h.inj r hr s hs, h.records, fun r hr k => ?_, h.listed⟩
    have hr : r ∈ members w o := hr
    rw [cell_in hr, cell_in ((h.records _).mpr ⟨r, hr, rfl⟩), h.values r hr]
  · intro h
    refine ⟨h.keys, h.uniq, h.ty, h.dflt, fun r hr s hs => h.inj r s hr hs, h.row, fun r hr k => ?_, h.seen⟩
    have := h.cell r hr k
    rwa [cell_in hr, cell_in (show m r ∈ members w' o' from (h.row _).mpr ⟨r, hr, rfl⟩)] at this

/-- Specification, models no code: the references point into the two vaults, at the same record, or neither at a record of its vault. -/
def SameTarget (m : Nat → Nat) (w : World K V Ty) (o : Nat) (w' : World K V Ty) (o' : Nat) (f f' : Nat) : Prop :=
  (∃ r, r ∈ members w o ∧ target w f = some r ∧ target w' f' = some (m r)) ∨
    ((∀ r, target w f = some r → r ∉ members w o) ∧ ∀ r, target w' f' = some r → r ∉ members w' o')

/-- Specification, models no code: the same call on vault `o` of `w` and on vault `o'` of `w'`. Keys, values and numbers are the same; a reference is one to the same
record; a function given to `AddUniqueKey` gives the same values for the same records, however often it has been called. -/
inductive SameCall (m : Nat → Nat) (w : World K V Ty) (o : Nat) (w' : World K V Ty) (o' : Nat) : Op K V Ty → Op K V Ty → Prop
  | addKey (k d) : SameCall m w o w' o' (.addKey o k d) (.addKey o' k d)
  | addUniqueKey (k t n f f') : (∀ r ∈ members w o, ∀ i j, f o i r = f' o' j (m r)) → SameCall m w o w' o' (.addUniqueKey o k t n f) (.addUniqueKey o' k t n f')
  | updateKey (k d) : SameCall m w o w' o' (.updateKey o k d) (.updateKey o' k d)
  | removeKey (k) : SameCall m w o w' o' (.removeKey o k) (.removeKey o' k)
  | createRecord (f f' ps) : SameCall m w o w' o' (.createRecord o f ps) (.createRecord o' f' ps)
  | createRow (ps) : SameCall m w o w' o' (.createRow o ps) (.createRow o' ps)
  | setData (f f' k v) : through w f = some o → through w' f' = some o' → SameTarget m w o w' o' f f' → SameCall m w o w' o' (.refSetData f k v) (.refSetData f' k v)
  | setDataMany (f f' ps) : through w f = some o → through w' f' = some o' → SameTarget m w o w' o' f f' →
      SameCall m w o w' o' (.refSetDataMany f ps) (.refSetDataMany f' ps)
  | eraseRef (f f') : SameTarget m w o w' o' f f' → SameCall m w o w' o' (.eraseRef o f) (.eraseRef o' f')
  | eraseKV (k v) : SameCall m w o w' o' (.eraseKV o k v) (.eraseKV o' k v)
  | eraseManyKV (k v n) : SameCall m w o w' o' (.eraseManyKV o k v n) (.eraseManyKV o' k v n)
  | getRecord (k v f f') : SameCall m w o w' o' (.getRecord o k v f) (.getRecord o' k v f')
  | getRecords (k v n) : SameCall m w o w' o' (.getRecords o k v n) (.getRecords o' k v n)
  | dropData : SameCall m w o w' o' (.dropData o) (.dropData o')
  | dropVault : SameCall m w o w' o' (.dropVault o) (.dropVault o')

theorem SameTarget.row {m : Nat → Nat} {w w' : World K V Ty} {o o' f f' : Nat} (h : SameTarget m w o w' o' f f') :
    MVault.Spec.SameRow m (asTable w o) (asTable w' o') (target w f) (target w' f') := h

/-- The call as the specification sees it. -/
theorem SameCall.event {m : Nat → Nat} {w w' : World K V Ty} {o o' : Nat} {op op' : Op K V Ty} (h : SameCall m w o w' o' op op') (ho : isVault w o = true)
    (ho' : isVault w' o' = true) (home home' : Nat → Nat) :
    ∃ c c', eventOf w op = .on o c ∧ eventOf w' op' = .on o' c' ∧ Cmd.Same m (asTable w o) (asTable w' o') c c' ∧ Ordinary home w op ∧ Ordinary home' w' op' ∧
      (¬ Chooses w op → c.NoChoice (asTable w o)) := by
  cases h with
  | setData f f' k v h1 h2 h3 =>
    exact ⟨_, _, by simp only [eventOf, h1, ho, if_true], by simp only [eventOf, h2, ho', if_true], .set (target w f) (target w' f') k v h3.row, trivial, trivial, fun _ => trivial⟩
  | setDataMany f f' ps h1 h2 h3 =>
    exact ⟨_, _, by simp only [eventOf, h1, ho, if_true], by simp only [eventOf, h2, ho', if_true], .setMany (target w f) (target w' f') ps h3.row, trivial, trivial, fun _ => trivial⟩
  | addUniqueKey k t n f f' h1 => exact ⟨_, _, rfl, rfl, .addUniqueKey _ _ _ _ _ h1, trivial, trivial, fun _ => trivial⟩
  | addKey k d => exact ⟨_, _, rfl, rfl, .addKey _ _, trivial, trivial, fun _ => trivial⟩
  | updateKey k d => exact ⟨_, _, rfl, rfl, .updateKey _ _, trivial, trivial, fun _ => trivial⟩
  | removeKey k => exact ⟨_, _, rfl, rfl, .removeKey _, trivial, trivial, fun _ => trivial⟩
  | createRecord f f' ps => exact ⟨_, _, rfl, rfl, .create _, trivial, trivial, fun _ => trivial⟩
  | createRow ps => exact ⟨_, _, rfl, rfl, .create _, trivial, trivial, fun _ => trivial⟩
  | eraseRef f f' h1 => exact ⟨_, _, rfl, rfl, .eraseRow _ _ h1.row, trivial, trivial, fun _ => trivial⟩
  | eraseKV k v =>
    refine ⟨_, _, rfl, rfl, .eraseOne _ _, trivial, trivial, fun hn r s hr hs => ?_⟩
    by_cases e : r = s
    · exact e
    · exact absurd ⟨r, s, e, hr, hs⟩ hn
  | eraseManyKV k v n =>
    exact ⟨_, _, rfl, rfl, .eraseMany _ _ _, trivial, trivial, fun hn => Classical.byContradiction hn⟩
  | getRecord k v f f' => exact ⟨_, _, rfl, rfl, .find _ _, trivial, trivial, fun _ => trivial⟩
  | getRecords k v n => exact ⟨_, _, rfl, rfl, .find _ _, trivial, trivial, fun _ => trivial⟩
  | dropData => exact ⟨_, _, rfl, rfl, .dropData, trivial, trivial, fun _ => trivial⟩
  | dropVault => exact ⟨_, _, rfl, rfl, .dropVault, trivial, trivial, fun _ => trivial⟩

/-! ### C114 -/

/-- The fresh identities of a call are those of no record of the vault. -/
theorem fresh_row {w : World K V Ty} {o : Nat} (ho : isVault w o = true) (r : Nat) (h : (dbOf w).fresh r) : ¬ (asTable w o).row r := h o _ (dbOf_vault ho)

/-- Two vaults with the same contents - in one program or in two, with different histories, records made in different places, hash tables in different orders -
give the same answer to the same call. -/
theorem C114_same_answer {home home' : Nat → Nat} {e e' : Env} {m : Nat → Nat} {w w' w1 w1' : World K V Ty} {o o' : Nat} {op op' : Op K V Ty} {a a' : Answer K}
    (hw : HReach Ordinary home w) (hw' : HReach Ordinary home' w') (ho : isVault w o = true) (ho' : isVault w' o' = true) (ht : Twins m w o w' o')
    (hc : SameCall m w o w' o' op op') (h : outcome e w op = some (w1, a)) (h' : outcome e' w' op' = some (w1', a')) : a' = a := by
  obtain ⟨c, c', p, p', hs, g, g', _⟩ := hc.event ho ho' home home'
  obtain ⟨_, _, s, _⟩ := on_step hw h g p
  obtain ⟨_, _, s', _⟩ := on_step hw' h' g' p'
  exact (Table.Step.twin (twins_iff.mp ht) hs s s' (fresh_row ho) (fresh_row ho') (C80_wellformed hw ho) (C80_wellformed hw' ho')).1

/-- Afterwards they have the same contents again, if the call did not leave a choice among matching records: the records that were there correspond as before, a
new record of the one to the new record of the other. -/
theorem C114_same_contents {home home' : Nat → Nat} {e e' : Env} {m : Nat → Nat} {w w' w1 w1' : World K V Ty} {o o' : Nat} {op op' : Op K V Ty} {a a' : Answer K}
    (hw : HReach Ordinary home w) (hw' : HReach Ordinary home' w') (ho : isVault w o = true) (ho' : isVault w' o' = true) (ht : Twins m w o w' o')
    (hc : SameCall m w o w' o' op op') (hn : ¬ Chooses w op) (h : outcome e w op = some (w1, a)) (h' : outcome e' w' op' = some (w1', a')) :
    ∃ m1, Twins m1 w1 o w1' o' ∧ ∀ r ∈ members w o, m1 r = m r := by
  obtain ⟨c, c', p, p', hs, g, g', hno⟩ := hc.event ho ho' home home'
  obtain ⟨_, _, s, _⟩ := on_step hw h g p
  obtain ⟨_, _, s', _⟩ := on_step hw' h' g' p'
  obtain ⟨m1, h1, h2⟩ := (Table.Step.twin (twins_iff.mp ht) hs s s' (fresh_row ho) (fresh_row ho') (C80_wellformed hw ho) (C80_wellformed hw' ho')).2 (hno hn)
  exact ⟨m1, twins_iff.mpr h1, h2⟩

/-- The correspondence afterwards is the only possible one: any that keeps the old records and takes a new record to a new record. -/
theorem C114_named {home home' : Nat → Nat} {e e' : Env} {m m1 : Nat → Nat} {w w' w1 w1' : World K V Ty} {o o' : Nat} {op op' : Op K V Ty} {a a' : Answer K}
    (hw : HReach Ordinary home w) (hw' : HReach Ordinary home' w') (ho : isVault w o = true) (ho' : isVault w' o' = true) (ht : Twins m w o w' o')
    (hc : SameCall m w o w' o' op op') (hn : ¬ Chooses w op) (h : outcome e w op = some (w1, a)) (h' : outcome e' w' op' = some (w1', a'))
    (hold : ∀ r ∈ members w o, m1 r = m r) (hnew : ∀ r ∈ members w1 o, r ∉ members w o → m1 r ∈ members w1' o' ∧ m1 r ∉ members w' o') :
    Twins m1 w1 o w1' o' := by
  obtain ⟨c, c', p, p', hs, g, g', hno⟩ := hc.event ho ho' home home'
  obtain ⟨_, _, s, _⟩ := on_step hw h g p
  obtain ⟨_, _, s', _⟩ := on_step hw' h' g' p'
  exact twins_iff.mpr (Table.Step.twin_named (twins_iff.mp ht) hs s s' (fresh_row ho) (fresh_row ho') (C80_wellformed hw ho) (C80_wellformed hw' ho') (hno hn) hold hnew)

/-! ### Whole runs -/

/-- Specification, models no code: the call is not one that writes to vault `o`, moves from it or destroys it (copying it, asking it and everything with other vaults,
with sets and with references is allowed). -/
def Elsewhere (w : World K V Ty) (o : Nat) (op : Op K V Ty) : Prop :=
  match eventOf w op with
  | .on x c => x ≠ o ∨ ∃ k v, c = .find k v
  | .gone x => x ≠ o
  | .assign x _ => x ≠ o
  | .moveNew _ a => a ≠ o
  | .moveAssign x a => x ≠ o ∧ a ≠ o
  | .new _ | .copyNew _ _ | .other => True

theorem db_vault {w : World K V Ty} {o : Nat} {t : Table K V Ty} (h : dbOf w o = some t) : isVault w o = true ∧ asTable w o = t := by
  unfold dbOf at h
  split at h
  · exact ⟨‹_›, Option.some.inj h⟩
  · cases h

theorem db_table' {w : World K V Ty} {o : Nat} {t : Table K V Ty} (h : dbOf w o = some t) : asTable w o = t := (db_vault h).2

theorem db_table {w w1 : World K V Ty} {o : Nat} (ho : isVault w o = true) (h : dbOf w1 o = dbOf w o) : asTable w1 o = asTable w o :=
  db_table' (h.trans (dbOf_vault ho))

theorem find_keeps {t t' : Table K V Ty} {fresh : Nat → Prop} {k : K} {v : V} {a : Answer K} (h : t.Step fresh (.find k v) a t') : t' = t := by
  simp only [Table.Step] at h
  first | exact h.2 | exact h.1

theorem elsewhere_kept {home : Nat → Nat} {e : Env} {w w1 : World K V Ty} {o : Nat} {op : Op K V Ty} {a : Answer K} (hw : HReach Ordinary home w) (ho : isVault w o = true)
    (hg : Ordinary home w op) (he : Elsewhere w o op) (h : outcome e w op = some (w1, a)) : isVault w1 o = true ∧ asTable w1 o = asTable w o := by
  suffices H : dbOf w1 o = dbOf w o by
    rw [dbOf_vault ho] at H
    exact ⟨(db_vault H).1, (db_vault H).2⟩
  have hs := C79_refines hw hg h
  have hv := dbOf_vault ho
  unfold Elsewhere at he
  have hput : ∀ (db : Db K V Ty) x t, x ≠ o → db.put x t o = db o := fun db x t hx => by unfold Db.put; rw [if_neg (Ne.symm hx)]
  have hne : ∀ x, dbOf w x = none → x ≠ o := fun x hx e => by rw [e, hv] at hx; cases hx
  generalize eventOf w op = ev at hs he
  cases ev with
  | on x c =>
    obtain ⟨t, t', h1, h2, h3⟩ := hs
    rcases he with he | ⟨k, v, rfl⟩
    · rw [h3, hput _ _ _ he]
    · rw [h3]
      by_cases e : x = o
      · subst e
        rw [Db.put_same, h1]
        exact congrArg some (find_keeps h2)
      · exact hput _ _ _ e
  | new x => rw [hs.2, hput _ _ _ (hne x hs.1)]
  | gone x => rw [hs.2, hput _ _ _ he]
  | copyNew x b =>
    obtain ⟨t, t', h1, h2, h3, h4⟩ := hs
    rw [h4, hput _ _ _ (hne x h1)]
  | assign x b =>
    rcases hs with ⟨_, h1⟩ | ⟨t, t', h1, h2, h3, h4, h5⟩
    · rw [h1]
    · rw [h5, hput _ _ _ he]
  | moveNew x b =>
    obtain ⟨t, h1, h2, h3⟩ := hs
    rw [h3, hput _ _ _ he, hput _ _ _ (hne x h1)]
  | moveAssign x b =>
    rcases hs with ⟨_, h1⟩ | ⟨t, h1, h2, h3, h4⟩
    · rw [h1]
    · rw [h4, hput _ _ _ he.2, hput _ _ _ he.1]
  | other => rw [show dbOf w1 = dbOf w from hs]

/-- Specification, models no code: two runs side by side. Each program makes calls that do not write to its vault as it likes; calls that write are made by both, the same
call in both, and leave no choice. `m` names the records of the one vault by those of the other; a new record is named by the new record. `l`: the answers to the
common calls, the last first. -/
inductive SideBySide (home home' : Nat → Nat) (o o' : Nat) (w w' : World K V Ty) (m : Nat → Nat) :
    World K V Ty → World K V Ty → (Nat → Nat) → List (Answer K × Answer K) → Prop
  | start : SideBySide home home' o o' w w' m w w' m []
  | left {v v' v1 m' l} (e : Env) (op : Op K V Ty) (a : Answer K) : SideBySide home home' o o' w w' m v v' m' l → Ordinary home v op → Elsewhere v o op →
      outcome e v op = some (v1, a) → SideBySide home home' o o' w w' m v1 v' m' l
  | right {v v' v1 m' l} (e : Env) (op : Op K V Ty) (a : Answer K) : SideBySide home home' o o' w w' m v v' m' l → Ordinary home' v' op → Elsewhere v' o' op →
      outcome e v' op = some (v1, a) → SideBySide home home' o o' w w' m v v1 m' l
  | both {v v' v1 v1' m' m1 l} (e e' : Env) (op op' : Op K V Ty) (a a' : Answer K) : SideBySide home home' o o' w w' m v v' m' l → SameCall m' v o v' o' op op' →
      ¬ Chooses v op → outcome e v op = some (v1, a) → outcome e' v' op' = some (v1', a') → (∀ r ∈ members v o, m1 r = m' r) →
      (∀ r ∈ members v1 o, r ∉ members v o → m1 r ∈ members v1' o' ∧ m1 r ∉ members v' o') → SideBySide home home' o o' w w' m v1 v1' m1 ((a, a') :: l)

theorem side_by_side {home home' : Nat → Nat} {m m' : Nat → Nat} {w w' v v' : World K V Ty} {o o' : Nat} {l : List (Answer K × Answer K)}
    (hw : HReach Ordinary home w) (hw' : HReach Ordinary home' w') (ho : isVault w o = true) (ho' : isVault w' o' = true) (ht : Twins m w o w' o')
    (h : SideBySide home home' o o' w w' m v v' m' l) : HReach Ordinary home v ∧ HReach Ordinary home' v' ∧ isVault v o = true ∧ isVault v' o' = true ∧
      Twins m' v o v' o' ∧ ∀ x ∈ l, x.2 = x.1 := by
  induction h with
  | start => exact ⟨hw, hw', ho, ho', ht, fun _ hx => by cases hx⟩
  | left e op a _ hg he hout ih =>
    obtain ⟨i1, i2, i3, i4, i5, i6⟩ := ih
    obtain ⟨k1, k2⟩ := elsewhere_kept i1 i3 hg he hout
    exact ⟨reach_outcome i1 hout hg, i2, k1, i4, twins_iff.mpr (k2 ▸ twins_iff.mp i5), i6⟩
  | right e op a _ hg he hout ih =>
    obtain ⟨i1, i2, i3, i4, i5, i6⟩ := ih
    obtain ⟨k1, k2⟩ := elsewhere_kept i2 i4 hg he hout
    exact ⟨i1, reach_outcome i2 hout hg, i3, k1, twins_iff.mpr (k2 ▸ twins_iff.mp i5), i6⟩
  | both e e' op op' a a' _ hc hn h1 h2 hold hnew ih =>
    obtain ⟨i1, i2, i3, i4, i5, i6⟩ := ih
    obtain ⟨c, c', p, p', _, g, g', _⟩ := hc.event i3 i4 home home'
    refine ⟨reach_outcome i1 h1 g, reach_outcome i2 h2 g', (on_step i1 h1 g p).2.1, (on_step i2 h2 g' p').2.1, C114_named i1 i2 i3 i4 i5 hc hn h1 h2 hold hnew, ?_⟩
    intro x hx
    rcases List.mem_cons.mp hx with rfl | hx
    · exact C114_same_answer i1 i2 i3 i4 i5 hc h1 h2
    · exact i6 x hx

/-- Whole runs: whatever else the two programs do, all common calls have the same answers, and at the end the vaults have the same contents. -/
theorem C114_runs {home home' : Nat → Nat} {m m' : Nat → Nat} {w w' v v' : World K V Ty} {o o' : Nat} {l : List (Answer K × Answer K)}
    (hw : HReach Ordinary home w) (hw' : HReach Ordinary home' w') (ho : isVault w o = true) (ho' : isVault w' o' = true) (ht : Twins m w o w' o')
    (h : SideBySide home home' o o' w w' m v v' m' l) : (∀ x ∈ l, x.2 = x.1) ∧ Twins m' v o v' o' := by
  obtain ⟨_, _, _, _, h1, h2⟩ := side_by_side hw hw' ho ho' ht h
  exact ⟨h2, h1⟩

/-! ### Requests and sorting -/

/-- The same request finds the same records. -/
theorem C114_request {home home' : Nat → Nat} {e e' : Env} {m : Nat → Nat} {w w' w1 w1' : World K V Ty} {o o' s s' : Nat} {k : K} {c : Cond V} {pred pred' : Nat → Bool}
    {res res' : Res K} (hw : HReach Ordinary home w) (hw' : HReach Ordinary home' w') (ho : isVault w o = true) (ho' : isVault w' o' = true) (ht : Twins m w o w' o')
    (hs : isSetObj w s = true) (hs' : isSetObj w' s' = true) (hh : home s = o) (hh' : home' s' = o') (hc : c.typed c.ty) (hty : getKeyType w o k = some c.ty)
    (hp : ∀ r ∈ members w o, pred' (m r) = pred r) (h : ask e w o k c none pred s = some (w1, res)) (h' : ask e' w' o' k c none pred' s' = some (w1', res')) :
    res' = res ∧ ∀ r', r' ∈ members w1' s' ↔ ∃ r, r ∈ members w1 s ∧ r' = m r := by
  have l := twins_iff.mp ht
  obtain ⟨r1, f1⟩ := C79_request hw ho hs hh hc hty h
  obtain ⟨r2, f2⟩ := C79_request hw' ho' hs' hh' hc (by rw [l.ty]; exact hty) h'
  refine ⟨by rw [r1, r2], fun r' => ?_⟩
  rw [f2]
  constructor
  · rintro ⟨h1, h2, h3, h4⟩
    obtain ⟨r, hr, rfl⟩ := (l.row r').mp h1
    exact ⟨r, (f1 r).mpr ⟨hr, by simpa only [l.cell r hr] using h2, by rw [← hp r hr]; exact h3, (l.seen r hr _ _).mp h4⟩, rfl⟩
  · rintro ⟨r, hr, rfl⟩
    obtain ⟨h1, h2, h3, h4⟩ := (f1 r).mp hr
    exact ⟨l.rowm h1, by simpa only [l.cell r h1] using h2, by rw [hp r h1]; exact h3, (l.seen r h1 _ _).mpr h4⟩

/-- Sorting gives the same values in the same order: the two lists of records agree as lists of values. -/
theorem C114_sorted {home home' : Nat → Nat} {m : Nat → Nat} {w w' w1 w1' : World K V Ty} {o o' : Nat} {k : K} {rev : Bool} (hw : HReach Ordinary home w)
    (hw' : HReach Ordinary home' w') (ho : isVault w o = true) (ho' : isVault w' o' = true) (ht : Twins m w o w' o')
    (h : getSorted w o k rev none = some w1) (h' : getSorted w' o' k rev none = some w1') :
    ∃ rs rs' : List Nat, w1.refs = w.refs ++ rs.map (fun r => ⟨some r, some o⟩) ∧ w1'.refs = w'.refs ++ rs'.map (fun r => ⟨some r, some o'⟩) ∧
      (∀ r ∈ rs, r ∈ members w o) ∧ rs'.map (fun r => value w' r k) = rs.map (fun r => value w r k) := by
  have lk := twins_iff.mp ht
  have hsn := C80_wellformed hw ho
  have hsn' := C80_wellformed hw' ho'
  obtain ⟨l, n1, n2, n3, n4⟩ := C79_sorted hw ho h
  obtain ⟨l', p1, p2, p3, p4⟩ := C79_sorted hw' ho' h'
  have hrow : ∀ r ∈ l, (asTable w o).row r ∧ k ∈ (asTable w o).keys := fun r hr => hsn.seen _ _ _ ((n2 r).mp hr)
  have hrow' : ∀ r ∈ l', (asTable w' o').row r := fun r hr => (hsn'.seen _ _ _ ((p2 r).mp hr)).1
  refine ⟨l, l', n3, p3, fun r hr => (hrow r hr).1, ?_⟩
  have e1 : l'.map (fun r => value w' r k) = l'.map (fun r => (asTable w' o').cell r k) := List.map_congr_left fun r hr => (cell_in (hrow' r hr) k).symm
  have e2 : l.map (fun r => value w r k) = l.map (fun r => (asTable w o).cell r k) := List.map_congr_left fun r hr => (cell_in (hrow r hr).1 k).symm
  rw [e1, e2]
  have perm : l'.Perm (l.map m) := by
    refine (List.perm_ext_iff_of_nodup p1 ?_).mpr fun r' => ?_
    · exact List.Nodup.map_on (fun x hx y hy => lk.inj x y (hrow x hx).1 (hrow y hy).1) n1
    · rw [p2, List.mem_map]
      constructor
      · intro hr'
        obtain ⟨r, hr, rfl⟩ := (lk.row r').mp (hsn'.seen _ _ _ hr').1
        exact ⟨r, (n2 r).mpr ((lk.seen r hr _ _).mp hr'), rfl⟩
      · rintro ⟨r, hr, rfl⟩
        exact (lk.seen r (hrow r hr).1 _ _).mpr ((n2 r).mp hr)
  have perm2 : (l'.map (fun r => (asTable w' o').cell r k)).Perm (l.map (fun r => (asTable w o).cell r k)) := by
    have := perm.map (fun r => (asTable w' o').cell r k)
    rw [List.map_map] at this
    rwa [List.map_congr_left (f := (fun r => (asTable w' o').cell r k) ∘ m) (g := fun r => (asTable w o).cell r k) (fun r hr => lk.cell r (hrow r hr).1 k)] at this
  refine List.Perm.eq_of_pairwise (le := fun (x y : Option V) => ∀ v v', x = some v → y = some v' → if rev = true then v' ≤ v else v ≤ v') ?_
    (p4.map _ fun _ _ hh => hh) (n4.map _ fun _ _ hh => hh) perm2
  intro x y hx hy h1 h2
  obtain ⟨r, hr, rfl⟩ := List.mem_map.mp hy
  obtain ⟨q, hq, rfl⟩ := List.mem_map.mp (perm2.mem_iff.mp hx)
  have some_of : ∀ r ∈ l, ∃ v, (asTable w o).cell r k = some v := fun r hr => by
    obtain ⟨g1, g2⟩ := hrow r hr
    obtain ⟨ty, g3⟩ := (hsn.typed k).mp g2
    obtain ⟨v, g4, _⟩ := hsn.cell r k ty g1 g3
    exact ⟨v, g4⟩
  obtain ⟨v, hv⟩ := some_of r hr
  obtain ⟨u, hu⟩ := some_of q hq
  have g1 := h1 u v hu hv
  have g2 := h2 v u hv hu
  show (asTable w o).cell q k = (asTable w o).cell r k
  rw [hv, hu]
  congr 1
  split at g1
  · rw [if_pos ‹_›] at g2; exact le_antisymm g2 g1
  · rw [if_neg ‹_›] at g2; exact le_antisymm g1 g2

/-! ### Copies and moved vaults -/

/-- A copy is a twin of its original, if no default was changed since its key was added and searches find every record (both can be missing: C37 and C26 say what
copying then does). -/
theorem C114_copy {home : Nat → Nat} {e : Env} {w w1 : World K V Ty} {o : Nat} {a : Answer K} (hw : HReach Ordinary home w) (ho : isVault w o = true)
    (hg : Ordinary home w (.vaultCopyNew o)) (hd : ∀ k, getDefault w o k = keyDefault w o k) (hl : ∀ r ∈ members w o, ∀ b k, Listed b w o k r ↔ k ∈ getKeys w o)
    (h : outcome e w (.vaultCopyNew o) = some (w1, a)) : ∃ m, Twins m w1 o w1 w.nextO ∧ ∀ r ∈ members w o, m r ∉ members w o := by
  obtain ⟨t, t', h1, h2, h3, h4⟩ := C79_refines hw hg h
  rw [dbOf_vault ho] at h2
  cases h2
  have hno : w.nextO ≠ o := fun e => by rw [e, dbOf_vault ho] at h1; cases h1
  have e1 : asTable w1 o = asTable w o ∧ asTable w1 w.nextO = t' := by
    refine ⟨db_table ho ?_, db_table' ?_⟩
    · rw [h4]; unfold Db.put; rw [if_neg (Ne.symm hno)]
    · rw [h4, Db.put_same]
  obtain ⟨m, g1, g2⟩ := h3.like (fun k => by show getDefault w o k = _; rw [hd]; exact (if_neg (h3.1 k)).symm) hl
  refine ⟨m, twins_iff.mpr (by rw [e1.1, e1.2]; exact g1), fun r hr => g2 r hr o _ (dbOf_vault ho)⟩

/-- A vault is, after a move, what the other was before: it behaves as if nothing had happened. -/
theorem C114_move {home : Nat → Nat} {e : Env} {w w1 : World K V Ty} {o : Nat} {a : Answer K} (hw : HReach Ordinary home w) (ho : isVault w o = true)
    (hg : Ordinary home w (.vaultMoveNew o)) (h : outcome e w (.vaultMoveNew o) = some (w1, a)) : Twins id w o w1 w.nextO := by
  obtain ⟨t, h1, h2, h3⟩ := C79_refines hw hg h
  rw [dbOf_vault ho] at h2
  cases h2
  have hno : w.nextO ≠ o := fun e => by rw [e, dbOf_vault ho] at h1; cases h1
  have e1 : asTable w1 w.nextO = asTable w o := by
    refine db_table' ?_
    rw [h3]; unfold Db.put; rw [if_neg hno, if_pos rfl]
  exact twins_iff.mpr (by rw [e1]; exact .refl _)

/-- Having the same contents is symmetric. -/
theorem C114_symm {m : Nat → Nat} {w w' : World K V Ty} {o o' : Nat} (h : Twins m w o w' o') : ∃ n, Twins n w' o' w o ∧ ∀ r ∈ members w o, n (m r) = r := by
  obtain ⟨n, h1, h2⟩ := (twins_iff.mp h).symm
  exact ⟨n, twins_iff.mpr h1, h2⟩

/-! ### A concrete case -/

/-- Another program: a second vault first, the records made in the other order, and one erased in between. -/
def twinOps : List (Op Nat Nat Bool) :=
  [.newVault, .newSet, .newVault, .addKey 2 1 5, .addUniqueKey 2 2 false true (fun _ _ _ => 0), .newRef, .newRef, .newRef,
   .createRecord 2 0 [(2, 3)], .createRecord 2 1 [(2, 8), (1, 6)], .eraseRef 2 0, .createRecord 2 2 [(1, 5), (2, 7)]]

/-- The world after `twinOps`. -/
def twinW : DW := (demo twinOps).getD World.empty

theorem twinW_reach : HReach Ordinary (fun _ => 0) twinW := demo_reach (l := twinOps) rfl

/-- Record 0 of `demoW` (values 5 and 7) is record 2 of `twinW`, record 1 (6 and 8) is record 1. -/
def twinMap (r : Nat) : Nat := if r = 0 then 2 else 1

/-- What is to be checked for two vaults to have the same contents: only the keys the vaults have and the records they have. -/
theorem twins_check {home home' : Nat → Nat} {m : Nat → Nat} {w w' : World K V Ty} {o o' : Nat} (hw : HReach Ordinary home w) (hw' : HReach Ordinary home' w')
    (ho : isVault w o = true) (ho' : isVault w' o' = true) (keys : getKeys w' o' = getKeys w o)
    (uniq : ∀ k ∈ getKeys w o, k ∈ getUniqueKeys w' o' ↔ k ∈ getUniqueKeys w o) (types : ∀ k ∈ getKeys w o, getKeyType w' o' k = getKeyType w o k)
    (defaults : ∀ k ∈ getKeys w o, getDefault w' o' k = getDefault w o k) (inj : ∀ r ∈ members w o, ∀ s ∈ members w o, m r = m s → r = s)
    (to1 : ∀ r' ∈ members w' o', ∃ r, r ∈ members w o ∧ r' = m r) (to2 : ∀ r ∈ members w o, m r ∈ members w' o')
    (values : ∀ r ∈ members w o, ∀ k ∈ getKeys w o, value w' (m r) k = value w r k)
    (listed : ∀ r ∈ members w o, ∀ b, ∀ k ∈ getKeys w o, Listed b w' o' k (m r) ↔ Listed b w o k r) : Twins m w o w' o' := by
  have s := C80_wellformed hw ho
  have s' := C80_wellformed hw' ho'
  have no : ∀ k, k ∉ getKeys w o → k ∉ (asTable w' o').keys := fun k hk h => hk (keys ▸ h)
  refine ⟨keys, fun k => ?_, fun k => ?_, fun k => ?_, inj, fun r' => ⟨to1 r', fun ⟨r, hr, e⟩ => e ▸ to2 r hr⟩, fun r hr k => ?_, fun r hr b k => ?_⟩ <;>
    by_cases hk : k ∈ getKeys w o
  · exact uniq k hk
  · exact ⟨fun h => absurd (s'.uniq k h) (no k hk), fun h => absurd (s.uniq k h) hk⟩
  · exact types k hk
  · exact (s'.ty_none (no k hk)).trans (s.ty_none (t := asTable w o) hk).symm
  · exact defaults k hk
  · exact (s'.dflt' k (no k hk)).trans (s.dflt' k hk).symm
  · exact values r hr k hk
  · rw [← cell_in hr, ← cell_in (to2 r hr), s'.cell' _ k (.inr (no k hk)), s.cell' _ k (.inr hk)]
  · exact listed r hr b k hk
  · exact ⟨fun h => absurd (s'.seen _ _ _ h).2 (no k hk), fun h => absurd (s.seen _ _ _ h).2 hk⟩

/-- Vault 0 of `demoW` and vault 2 of `twinW` have the same contents. -/
theorem demo_twins : Twins twinMap demoW 0 twinW 2 :=
  twins_check demoW_reach twinW_reach (by decide) (by decide) (by decide) (by decide) (by decide) (by decide) (by decide) (by decide) (by decide) (by decide) (by decide)

/-- The same calls: a refused record, a new record, a write to the corresponding record, an erasure by value. -/
example : ∃ w1 w1' : DW, outcome Env.id demoW (.createRecord 0 2 [(2, 8)]) = some (w1, .res (.bad .UniqueKeyValueAlredyInSet (some 2))) ∧
    outcome Env.rev twinW (.createRecord 2 0 [(2, 8)]) = some (w1', .res (.bad .UniqueKeyValueAlredyInSet (some 2))) ∧
    SameCall twinMap demoW 0 twinW 2 (.createRecord 0 2 [(2, 8)]) (.createRecord 2 0 [(2, 8)]) := ⟨_, _, rfl, rfl, .createRecord _ _ _⟩
example : ∃ w1 w1' : DW, outcome Env.id demoW (.refSetData 0 1 9) = some (w1, .res (.good (some 1))) ∧
    outcome Env.rev twinW (.refSetData 2 1 9) = some (w1', .res (.good (some 1))) ∧ value w1 0 1 = some 9 ∧ value w1' 2 1 = some 9 ∧
    SameCall twinMap demoW 0 twinW 2 (.refSetData 0 1 9) (.refSetData 2 1 9) :=
  ⟨_, _, rfl, rfl, by decide, by decide, .setData _ _ _ _ (by decide) (by decide) (.inl ⟨0, by decide, by decide, by decide⟩)⟩

theorem no_choice {w : World K V Ty} {o : Nat} {k : K} {v : V} (h : ∀ a ∈ members w o, ∀ b ∈ members w o, value w a k = some v → value w b k = some v → a = b) :
    ¬ Chooses w (.eraseKV o k v) := by
  rintro ⟨r, r', hn, h1, h2⟩
  exact hn (h r h1.1 r' h2.1 (by rw [← cell_in h1.1]; exact h1.2.1) (by rw [← cell_in h2.1]; exact h2.2.1))

/-- Two runs side by side: both make a record; the first program then looks around and makes another vault, the second asks its vault; both erase. -/
example : ∃ (v v' : DW) (m : Nat → Nat), SideBySide (fun _ => 0) (fun _ => 0) 0 2 demoW twinW twinMap v v' m
      [(.res (.good (some 2)), .res (.good (some 2))), (.res (.good (some 2)), .res (.good (some 2)))] ∧ Twins m v 0 v' 2 ∧ members v 0 = [0, 2] ∧ members v' 2 = [2, 3] := by
  have run : ∃ (v v' : DW) (m : Nat → Nat), SideBySide (fun _ => 0) (fun _ => 0) 0 2 demoW twinW twinMap v v' m
      [(.res (.good (some 2)), .res (.good (some 2))), (.res (.good (some 2)), .res (.good (some 2)))] ∧ members v 0 = [0, 2] ∧ members v' 2 = [2, 3] := by
    refine ⟨_, _, fun r => if r = 2 then 3 else twinMap r, .both Env.id Env.rev (.eraseKV 0 2 8) (.eraseKV 2 2 8) _ _
      (.right Env.id (.getRecord 2 2 8 1) _ (.left Env.id .newVault _ (.both Env.id Env.rev (.createRecord 0 2 [(2, 9)]) (.createRecord 2 0 [(2, 9)]) _ _ .start
        (.createRecord _ _ _) (fun h => h) rfl rfl ?_ ?_) trivial trivial rfl) trivial (.inr ⟨_, _, rfl⟩) rfl) (.eraseKV _ _) (no_choice ?_) rfl rfl (fun _ _ => rfl) ?_, ?_, ?_⟩
    all_goals decide
  obtain ⟨v, v', m, h1, h2, h3⟩ := run
  exact ⟨v, v', m, h1, (C114_runs demoW_reach twinW_reach (by decide) (by decide) demo_twins h1).2, h2, h3⟩

/-- A copy of a vault without unique keys, all of whose records are found. -/
def copyOps : List (Op Nat Nat Bool) := [.newVault, .addKey 0 1 5, .newRef, .createRecord 0 0 [], .createRecord 0 0 [(1, 8)]]
/-- The world after `copyOps`. -/
def copyW : DW := (demo copyOps).getD World.empty
theorem copyW_reach : HReach Ordinary (fun _ => 0) copyW := demo_reach (l := copyOps) rfl

example : ∃ (w1 : DW) (m : Nat → Nat), outcome Env.rev copyW (.vaultCopyNew 0) = some (w1, .unit) ∧ Twins m w1 0 w1 1 ∧ members w1 0 = [0, 1] ∧ members w1 1 = [2, 3] := by
  have hs := C80_wellformed copyW_reach (o := 0) (by decide)
  obtain ⟨w1, h1, h2, h3⟩ : ∃ w1 : DW, outcome Env.rev copyW (.vaultCopyNew 0) = some (w1, .unit) ∧ members w1 0 = [0, 1] ∧ members w1 1 = [2, 3] := ⟨_, rfl, by decide, by decide⟩
  obtain ⟨m, h4, _⟩ := C114_copy copyW_reach (by decide) (fun _ h => by cases h; rfl) (fun k => by
    by_cases hk : k ∈ getKeys copyW 0
    · exact (show ∀ k ∈ getKeys copyW 0, getDefault copyW 0 k = keyDefault copyW 0 k by decide) k hk
    · rw [show getDefault copyW 0 k = none from hs.dflt' k hk]
      have := hs.first' k (.inl hk)
      exact this.symm) (fun r hr b k => ⟨fun h => (hs.seen _ _ _ h).2, fun hk => (show ∀ r ∈ members copyW 0, ∀ b, ∀ k ∈ getKeys copyW 0, Listed b copyW 0 k r by decide) r hr b k hk⟩) h1
  exact ⟨w1, m, h1, h4, h2, h3⟩

example : ∃ w1 : DW, outcome Env.rev demoW (.vaultMoveNew 0) = some (w1, .unit) ∧ members w1 3 = [0, 1] := ⟨_, rfl, by decide⟩
example : ∃ w1 w1' : DW, ask Env.id demoW 0 1 (.ge 6) none (fun _ => true) 1 = some (w1, .good (some 1)) ∧ members w1 1 = [1] ∧
    ask Env.rev twinW 2 1 (.ge 6) none (fun _ => true) 1 = some (w1', .good (some 1)) ∧ members w1' 1 = [1] := ⟨_, _, rfl, by decide, rfl, by decide⟩
example : ∃ w1 w1' : DW, getSorted demoW 0 1 true none = some w1 ∧ getSorted twinW 2 1 true none = some w1' := ⟨_, _, rfl, rfl⟩

end MVault.W
