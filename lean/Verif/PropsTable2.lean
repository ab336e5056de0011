import Verif.PropsTable
import Verif.TableLaws
/-
C80 (tables are well-formed), C81 (what two calls in a row do) and C82 (answers do not depend on the order of the hash tables), for ordinary
use. All three are proved of the specification (TableFacts.lean, TableLaws.lean) and carried over to the model of the code by C79.
-/
set_option linter.unusedSectionVars false
set_option linter.unusedSimpArgs false
set_option linter.unusedVariables false
namespace MVault.W
open MVault.Spec (Table Db Event Cmd)
variable {K V Ty : Type} [LinearOrder K] [LinearOrder V] [Typed V Ty] [DecidableEq Ty]

/-! ### C80 -/

/-- In every state ordinary calls can reach every vault is a well-formed table: distinct keys; every key with one type and a default of that type;
every record with a value of the right type for every key and for nothing else; no two records with the same value of a unique key; searches find
only records of the vault, and under unique keys all of them. -/
theorem C80_wellformed {home : Nat → Nat} {w : World K V Ty} (hw : HReach Ordinary home w) {o : Nat} (ho : isVault w o = true) : (asTable w o).Sane := by
  obtain ⟨l, _, h⟩ := C79_history_exists hw
  exact h.sane.table o _ (dbOf_vault ho)

/-- No record is in two vaults. -/
theorem C80_apart {home : Nat → Nat} {w : World K V Ty} (hw : HReach Ordinary home w) {o o' : Nat} (ho : isVault w o = true) (ho' : isVault w o' = true)
    (hn : o ≠ o') {r : Nat} (hr : (asTable w o).row r) : ¬ (asTable w o').row r := by
  obtain ⟨l, _, h⟩ := C79_history_exists hw
  exact h.sane.apart o o' _ _ r hn (dbOf_vault ho) (dbOf_vault ho') hr

/-! ### One call on one vault -/

theorem on_step {home : Nat → Nat} {env : Env} {w w' : World K V Ty} {op : Op K V Ty} {a : Answer K} (hw : HReach Ordinary home w)
    (h : outcome env w op = some (w', a)) (hg : Ordinary home w op) {o : Nat} {c : Cmd K V Ty} (he : eventOf w op = .on o c) :
    isVault w o = true ∧ isVault w' o = true ∧ (asTable w o).Step (dbOf w).fresh c a (asTable w' o) ∧ dbOf w' = (dbOf w).put o (some (asTable w' o)) := by
  have h1 := C79_refines hw hg h
  rw [he] at h1
  obtain ⟨t, t', h2, h3, h4⟩ := h1
  have key : ∀ {u : World K V Ty} {x : Table K V Ty}, dbOf u o = some x → isVault u o = true ∧ asTable u o = x := by
    intro u x hx
    unfold dbOf at hx
    split at hx
    · cases hx; exact ⟨‹_›, rfl⟩
    · cases hx
  obtain ⟨k1, k2⟩ := key h2
  obtain ⟨k3, k4⟩ := key (u := w') (x := t') (by rw [h4, Db.put_same])
  exact ⟨k1, k3, by rw [k2, k4]; exact h3, by rw [h4, k4]⟩

theorem reach_outcome {home : Nat → Nat} {env : Env} {w w' : World K V Ty} {op : Op K V Ty} {a : Answer K} (hw : HReach Ordinary home w)
    (h : outcome env w op = some (w', a)) (hg : Ordinary home w op) : HReach Ordinary home w' :=
  .step _ _ env op hw hg (by rw [← outcome_step, h]; rfl)

/-! ### C81 -/

/-- `RemoveKey` undoes a successful `AddKey`: keys, types, defaults, records, values and everything searches find are as before. -/
theorem C81_addKey_removeKey {home : Nat → Nat} {e1 e2 : Env} {w w1 w2 : World K V Ty} {o : Nat} {k k' : K} {d : V} {a : Answer K} (hw : HReach Ordinary home w)
    (h1 : outcome e1 w (.addKey o k d) = some (w1, .res (.good (some k')))) (h2 : outcome e2 w1 (.removeKey o k) = some (w2, a)) :
    a = .flag true ∧ dbOf w2 = dbOf w := by
  obtain ⟨v1, v2, s1, p1⟩ := on_step hw h1 trivial rfl
  obtain ⟨_, v3, s2, p2⟩ := on_step (reach_outcome hw h1 trivial) h2 trivial rfl
  have hs := C80_wellformed hw v1
  rcases s1 with ⟨_, f, _⟩ | ⟨hk, _, ht⟩
  · cases f
  · rcases s2 with ⟨hk2, _, _⟩ | ⟨_, ha, ht2⟩
    · rw [ht] at hk2; simp [Table.addKey] at hk2
    · refine ⟨ha, ?_⟩
      rw [ht, Table.addKey_removeKey hs hk] at ht2
      rw [p2, p1, ht2]
      funext o'; unfold Db.put
      split
      · rename_i e; subst e; exact (dbOf_vault v1).symm
      · rfl

/-- `RemoveKey` undoes a successful `AddUniqueKey` too. -/
theorem C81_addUniqueKey_removeKey {home : Nat → Nat} {e1 e2 : Env} {w w1 w2 : World K V Ty} {o : Nat} {k k' : K} {t : Ty} {n : Bool} {f : Nat → Nat → Nat → V}
    {a : Answer K} (hw : HReach Ordinary home w) (h1 : outcome e1 w (.addUniqueKey o k t n f) = some (w1, .res (.good (some k'))))
    (h2 : outcome e2 w1 (.removeKey o k) = some (w2, a)) : a = .flag true ∧ dbOf w2 = dbOf w := by
  obtain ⟨v1, v2, s1, p1⟩ := on_step hw h1 trivial rfl
  obtain ⟨_, v3, s2, p2⟩ := on_step (reach_outcome hw h1 trivial) h2 trivial rfl
  have hs := C80_wellformed hw v1
  rcases s1 with ⟨_, f, _⟩ | ⟨_, _, _, f, _⟩ | ⟨hk, _, _, _, _, ⟨_, _, _, _, _, _, f, _⟩ | ⟨_, _, ht⟩⟩
  · cases f
  · cases f
  · cases f
  · rcases s2 with ⟨hk2, _, _⟩ | ⟨_, ha, ht2⟩
    · rw [ht] at hk2; simp [Table.addKey] at hk2
    · refine ⟨ha, ?_⟩
      rw [ht, Table.addKey_removeKey hs hk] at ht2
      rw [p2, p1, ht2]
      funext o'; unfold Db.put
      split
      · rename_i e; subst e; exact (dbOf_vault v1).symm
      · rfl

theorem put_same_db {w : World K V Ty} {o : Nat} (h : isVault w o = true) : (dbOf w).put o (some (asTable w o)) = dbOf w := by
  funext o'; unfold Db.put
  split
  · rename_i e; subst e; exact (dbOf_vault h).symm
  · rfl

theorem put_put (db : Db K V Ty) (o : Nat) (a b : Option (Table K V Ty)) : (db.put o a).put o b = db.put o b := by
  funext o'; unfold Db.put; split <;> rfl

/-- Erasing a record that was just created: keys, defaults, records, values and what searches for a value find are as before; range requests and sorting on a key
find what they found before except records whose value equals the one the created record had. In particular nothing changes at all if the created
record had values of its own. -/
theorem C81_create_erase {home : Nat → Nat} {e1 e2 : Env} {w w1 w2 : World K V Ty} {o f g : Nat} {ps : List (K × V)} {k' : Option K} {r : Nat} {a : Answer K}
    (hw : HReach Ordinary home w) (h1 : outcome e1 w (.createRecord o f ps) = some (w1, .res (.good k')))
    (hr : target w1 g = some r) (hr1 : r ∈ members w1 o) (hr0 : r ∉ members w o) (h2 : outcome e2 w1 (.eraseRef o g) = some (w2, a)) :
    a = .flag true ∧ (∀ o', o' ≠ o → dbOf w2 o' = dbOf w o') ∧
      asTable w2 o = { asTable w o with seen := fun b k r' => (asTable w o).seen b k r' ∧ (b = true → (asTable w o).cell r' k ≠ (asTable w o).newValue ps k) } ∧
      ((∀ k r', r' ∈ members w o → k ∈ getKeys w o → (asTable w o).cell r' k ≠ (asTable w o).newValue ps k) → dbOf w2 = dbOf w) := by
  obtain ⟨v1, v2, s1, p1⟩ := on_step hw h1 trivial rfl
  obtain ⟨_, v3, s2, p2⟩ := on_step (reach_outcome hw h1 trivial) h2 trivial rfl
  have hs := C80_wellformed hw v1
  have hnr : ¬ (asTable w o).row r := hr0
  simp only [Table.Step] at s1
  split at s1
  · exact absurd s1.1 (fun e => by cases e)
  rename_i hb
  rcases s1 with ⟨_, _, _, _, f, _⟩ | ⟨_, r0, hf0, _, ht⟩
  · cases f
  have hrr : r = r0 := by
    have : (asTable w1 o).row r := hr1
    rw [ht] at this
    exact this.resolve_left hnr
  subst hrr
  rw [hr] at s2
  rcases s2 with ⟨r', e, hr', ha, ht2⟩ | ⟨hn, _⟩
  · cases e
    rw [ht, Table.addRow_erase hs hnr] at ht2
    refine ⟨ha, fun o' hn => by rw [p2, p1, put_put, Db.put_other hn], ht2, fun hx => ?_⟩
    have hsame : asTable w2 o = asTable w o := by
      rw [ht2]
      ext1 <;> try rfl
      funext b k r'; simp only [eq_iff_iff]
      exact ⟨fun f => f.1, fun f => ⟨f, fun _ => hx k r' (hs.seen b k r' f).1 (hs.seen b k r' f).2⟩⟩
    rw [p2, p1, put_put, hsame, put_same_db v1]
  · exact absurd hr1 (hn r rfl)

/-- A successful `SetData` on a record of vault `o`, as a step on its table. -/
theorem set_step {home : Nat → Nat} {env : Env} {w w' : World K V Ty} {o f r : Nat} {k k' : K} {v : V} (hw : HReach Ordinary home w) (ht : through w f = some o)
    (hr : target w f = some r) (hv : isVault w o = true) (h : outcome env w (.refSetData f k v) = some (w', .res (.good (some k')))) :
    isVault w' o = true ∧ asTable w' o = (asTable w o).setCell r k v ∧ dbOf w' = (dbOf w).put o (some ((asTable w o).setCell r k v)) ∧ r ∈ members w o ∧
      (asTable w o).ty k = some (typeOf v) ∧ ¬ (asTable w o).uniq k := by
  obtain ⟨v1, v2, ⟨s1, s2⟩, p1⟩ := on_step hw h trivial (o := o) (c := .set (some r) k v) (by simp [eventOf, ht, hv, hr])
  unfold Table.set at s1 s2
  simp only at s1 s2
  by_cases c1 : (asTable w o).row r
  · simp only [c1, not_true, if_false] at s1 s2
    split at s1
    · cases s1
    · rename_i hb
      simp only [hb] at s2
      by_cases c2 : (asTable w o).uniq k
      · simp only [c2, if_true] at s1; cases s1
      · simp only [c2, if_false] at s2
        exact ⟨v2, s2, by rw [p1, s2], c1, Table.bad_none hb, c2⟩
  · simp only [c1, not_false_iff, if_true] at s1; cases s1

/-- Two successful writes to one cell: the value written last counts; and if no other record holds the value that was there in between, the first write
leaves no trace at all: the vault is as if only the second had been made. -/
theorem C81_set_set {home : Nat → Nat} {e1 e2 e3 : Env} {w w1 w2 w3 : World K V Ty} {o f r : Nat} {k k1 k2 k3 : K} {v v' : V} (hw : HReach Ordinary home w)
    (ht : through w f = some o) (hr : target w f = some r) (hv : isVault w o = true) (ht1 : through w1 f = some o) (hr1 : target w1 f = some r)
    (h1 : outcome e1 w (.refSetData f k v) = some (w1, .res (.good (some k1)))) (h2 : outcome e2 w1 (.refSetData f k v') = some (w2, .res (.good (some k2))))
    (h3 : outcome e3 w (.refSetData f k v') = some (w3, .res (.good (some k3)))) :
    (asTable w2 o).cell = (asTable w3 o).cell ∧ ((∀ r', r' ≠ r → r' ∈ members w o → (asTable w o).cell r' k ≠ some v) → dbOf w2 = dbOf w3) := by
  obtain ⟨a1, a2, a3, _⟩ := set_step hw ht hr hv h1
  obtain ⟨b1, b2, b3, _⟩ := set_step (reach_outcome hw h1 trivial) ht1 hr1 a1 h2
  obtain ⟨c1, c2, c3, _⟩ := set_step hw ht hr hv h3
  have hs := C80_wellformed hw hv
  refine ⟨by rw [b2, a2, c2, Table.setCell_twice_cell], fun hx => ?_⟩
  rw [b3, c3, a3, a2, put_put, Table.setCell_twice hs hx]

/-- Writing the old value back restores every value. -/
theorem C81_set_back {home : Nat → Nat} {e1 e2 : Env} {w w1 w2 : World K V Ty} {o f r : Nat} {k k1 k2 : K} {v v0 : V} (hw : HReach Ordinary home w)
    (ht : through w f = some o) (hr : target w f = some r) (hv : isVault w o = true) (ht1 : through w1 f = some o) (hr1 : target w1 f = some r)
    (h0 : (asTable w o).cell r k = some v0) (h1 : outcome e1 w (.refSetData f k v) = some (w1, .res (.good (some k1))))
    (h2 : outcome e2 w1 (.refSetData f k v0) = some (w2, .res (.good (some k2)))) :
    (asTable w2 o).cell = (asTable w o).cell ∧ (asTable w2 o).row = (asTable w o).row ∧ (asTable w2 o).keys = (asTable w o).keys := by
  obtain ⟨a1, a2, a3, _⟩ := set_step hw ht hr hv h1
  obtain ⟨b1, b2, b3, _⟩ := set_step (reach_outcome hw h1 trivial) ht1 hr1 a1 h2
  rw [b2, a2]
  exact ⟨Table.setCell_back _ h0, rfl, rfl⟩

/-- Writes to different keys commute completely; writes to different records commute as far as values are concerned. -/
theorem C81_set_comm {home : Nat → Nat} {e1 e2 e3 e4 : Env} {w w1 w2 w3 w4 : World K V Ty} {o f g r s : Nat} {k l k1 k2 k3 k4 : K} {v u : V}
    (hw : HReach Ordinary home w) (hv : isVault w o = true)
    (hf : through w f = some o) (hr : target w f = some r) (hg : through w g = some o) (hq : target w g = some s)
    (hf3 : through w3 f = some o) (hr3 : target w3 f = some r) (hg1 : through w1 g = some o) (hq1 : target w1 g = some s)
    (h1 : outcome e1 w (.refSetData f k v) = some (w1, .res (.good (some k1)))) (h2 : outcome e2 w1 (.refSetData g l u) = some (w2, .res (.good (some k2))))
    (h3 : outcome e3 w (.refSetData g l u) = some (w3, .res (.good (some k3)))) (h4 : outcome e4 w3 (.refSetData f k v) = some (w4, .res (.good (some k4)))) :
    (k ≠ l → dbOf w2 = dbOf w4) ∧ (r ≠ s → (asTable w2 o).cell = (asTable w4 o).cell) := by
  obtain ⟨a1, a2, a3, _⟩ := set_step hw hf hr hv h1
  obtain ⟨b1, b2, b3, _⟩ := set_step (reach_outcome hw h1 trivial) hg1 hq1 a1 h2
  obtain ⟨c1, c2, c3, _⟩ := set_step hw hg hq hv h3
  obtain ⟨d1, d2, d3, _⟩ := set_step (reach_outcome hw h3 trivial) hf3 hr3 c1 h4
  refine ⟨fun hn => ?_, fun hn => ?_⟩
  · rw [b3, d3, a3, c3, put_put, put_put, a2, c2, Table.setCell_comm _ hn]
  · rw [b2, d2, a2, c2, Table.setCell_comm_cell _ hn]

/-- A successful `EraseRecord`, as a step on the table. -/
theorem erase_step {home : Nat → Nat} {env : Env} {w w' : World K V Ty} {o f r : Nat} (hw : HReach Ordinary home w) (hr : target w f = some r)
    (h : outcome env w (.eraseRef o f) = some (w', .flag true)) :
    isVault w o = true ∧ isVault w' o = true ∧ asTable w' o = (asTable w o).erase (fun x => x = r) ∧ dbOf w' = (dbOf w).put o (some (asTable w' o)) := by
  obtain ⟨v1, v2, s, p⟩ := on_step hw h trivial (o := o) (c := .eraseRow (some r)) (by simp [eventOf, hr])
  rcases s with ⟨r', e, _, _, ht⟩ | ⟨_, f, _⟩
  · cases e; exact ⟨v1, v2, ht, p⟩
  · cases f

/-- The order in which two records are erased does not matter. -/
theorem C81_erase_comm {home : Nat → Nat} {e1 e2 e3 e4 : Env} {w w1 w2 w3 w4 : World K V Ty} {o f g r s : Nat} (hw : HReach Ordinary home w)
    (hr : target w f = some r) (hq : target w g = some s) (hr3 : target w3 f = some r) (hq1 : target w1 g = some s)
    (h1 : outcome e1 w (.eraseRef o f) = some (w1, .flag true)) (h2 : outcome e2 w1 (.eraseRef o g) = some (w2, .flag true))
    (h3 : outcome e3 w (.eraseRef o g) = some (w3, .flag true)) (h4 : outcome e4 w3 (.eraseRef o f) = some (w4, .flag true)) : dbOf w2 = dbOf w4 := by
  obtain ⟨_, _, a1, a2⟩ := erase_step hw hr h1
  obtain ⟨_, _, b1, b2⟩ := erase_step (reach_outcome hw h1 trivial) hq1 h2
  obtain ⟨_, _, c1, c2⟩ := erase_step hw hq h3
  obtain ⟨_, _, d1, d2⟩ := erase_step (reach_outcome hw h3 trivial) hr3 h4
  rw [b2, d2, a2, c2, put_put, put_put, b1, d1, a1, c1, Table.erase_comm]

/-- A second `EraseRecord` of the same record, through any reference, answers false and changes nothing. -/
theorem C81_erase_twice {home : Nat → Nat} {e1 e2 : Env} {w w1 w2 : World K V Ty} {o f g r : Nat} {a : Answer K} (hw : HReach Ordinary home w)
    (hr : target w f = some r) (hq1 : target w1 g = some r)
    (h1 : outcome e1 w (.eraseRef o f) = some (w1, .flag true)) (h2 : outcome e2 w1 (.eraseRef o g) = some (w2, a)) : a = .flag false ∧ dbOf w2 = dbOf w1 := by
  obtain ⟨_, v1, a1, a2⟩ := erase_step hw hr h1
  obtain ⟨v3, v4, s, p⟩ := on_step (reach_outcome hw h1 trivial) h2 trivial (o := o) (c := .eraseRow (some r)) (by simp [eventOf, hq1])
  rcases s with ⟨r', e, hrow, _, _⟩ | ⟨_, ha, ht⟩
  · cases e; rw [a1] at hrow; exact absurd rfl hrow.2
  · exact ⟨ha, by rw [p, ht, put_same_db v1]⟩

/-! ### C82 -/

/-- The call leaves a choice: the order in which a counting function visits the records, or which of several matching records to erase. -/
def Chooses (w : World K V Ty) : Op K V Ty → Prop
  | .addUniqueKey o _ _ _ f => ¬ ∀ i j r, f o i r = f o j r
  | .eraseKV o k v => ∃ r r', r ≠ r' ∧ (asTable w o).hits k v r ∧ (asTable w o).hits k v r'
  | .eraseManyKV o k v n => ¬ ∃ l : List Nat, l.length ≤ max n 1 ∧ ∀ r, (asTable w o).hits k v r → r ∈ l
  | _ => False

/-- Two orders of the hash tables give the same answer to the same call on a vault (for a new unique key: if its function does not count). -/
theorem C82_answer {home : Nat → Nat} {e1 e2 : Env} {w w1 w2 : World K V Ty} {op : Op K V Ty} {a1 a2 : Answer K} {o : Nat} {c : Cmd K V Ty}
    (hw : HReach Ordinary home w) (hg : Ordinary home w op) (h1 : outcome e1 w op = some (w1, a1)) (h2 : outcome e2 w op = some (w2, a2))
    (he : eventOf w op = .on o c) (hf : ∀ o k t n f, op = .addUniqueKey o k t n f → ∀ i j r, f o i r = f o j r) : a1 = a2 := by
  obtain ⟨_, _, s1, _⟩ := on_step hw h1 hg he
  obtain ⟨_, _, s2, _⟩ := on_step hw h2 hg he
  refine s1.answer s2 ?_
  rintro k ty n f rfl
  cases op <;> simp only [eventOf, Event.on.injEq, Cmd.addUniqueKey.injEq, reduceCtorEq, and_false] at he
  case addUniqueKey o' k' t' n' f' => obtain ⟨rfl, _, _, _, rfl⟩ := he; exact hf _ _ _ _ _ rfl
  all_goals (split at he <;> try split at he) <;> simp at he

/-- And, if the call leaves no choice, the same vaults. -/
theorem C82_vaults {home : Nat → Nat} {e1 e2 : Env} {w w1 w2 : World K V Ty} {op : Op K V Ty} {a1 a2 : Answer K} {o : Nat} {c : Cmd K V Ty}
    (hw : HReach Ordinary home w) (hg : Ordinary home w op) (h1 : outcome e1 w op = some (w1, a1)) (h2 : outcome e2 w op = some (w2, a2))
    (he : eventOf w op = .on o c) (hc : ¬ Chooses w op) : dbOf w1 = dbOf w2 := by
  obtain ⟨_, _, s1, p1⟩ := on_step hw h1 hg he
  obtain ⟨_, _, s2, p2⟩ := on_step hw h2 hg he
  suffices H : asTable w1 o = asTable w2 o by rw [p1, p2, H]
  by_cases hch : c.chooses
  · cases op <;> simp only [eventOf, Event.on.injEq, reduceCtorEq] at he
    case addUniqueKey o' k t n f =>
      obtain ⟨rfl, rfl⟩ := he
      have hf : ∀ i j r, f o' i r = f o' j r := Classical.byContradiction hc
      have hfe : f o' = fun _ r => f o' 0 r := funext fun i => funext fun r => hf i 0 r
      rw [hfe] at s1 s2
      rcases s1 with ⟨a, _, b1⟩ | ⟨a, a', a'', _, b1⟩ | ⟨a, a', _, _, _, ⟨r, r', g1, g2, g3, g4, _, b1⟩ | ⟨g, _, b1⟩⟩ <;>
        rcases s2 with ⟨b, _, b2⟩ | ⟨b, b', b'', _, b2⟩ | ⟨b, b', _, _, _, ⟨q, q', k1, k2, k3, k4, _, b2⟩ | ⟨e, _, b2⟩⟩
      all_goals first
        | exact b1.trans b2.symm
        | exact absurd a b
        | exact absurd b a
        | exact absurd a''.choose_spec (b' a' _)
        | exact absurd b''.choose_spec (a' b' _)
        | exact absurd g4 (e r r' g1 g2 g3)
        | exact absurd k4 (g q q' k1 k2 k3)
    case createRecord o' f ps =>
      have : (outcome e1 w (.createRecord o' f ps)) = outcome e2 w (.createRecord o' f ps) := rfl
      rw [this, h2] at h1; cases h1; rfl
    case createRow o' ps =>
      have : (outcome e1 w (.createRow o' ps)) = outcome e2 w (.createRow o' ps) := rfl
      rw [this, h2] at h1; cases h1; rfl
    case eraseKV o' k v =>
      obtain ⟨rfl, rfl⟩ := he
      simp only [Table.Step] at s1 s2
      split at s1
      · rename_i e; rw [e] at s2; rw [s1.2, s2.2]
      · rename_i e; rw [e] at s2
        rcases s1 with ⟨r, hr, _, b1⟩ | ⟨a, _, b1⟩ <;> rcases s2 with ⟨r', hr', _, b2⟩ | ⟨b, _, b2⟩
        · have : r = r' := Classical.byContradiction fun hn => hc ⟨r, r', hn, hr, hr'⟩
          rw [b1, b2, this]
        · exact absurd ⟨r, hr⟩ b
        · exact absurd ⟨r', hr'⟩ a
        · rw [b1, b2]
    case eraseManyKV o' k v n =>
      obtain ⟨rfl, rfl⟩ := he
      obtain ⟨full, hl, hfull⟩ := Classical.byContradiction hc
      simp only [Table.Step] at s1 s2
      split at s1
      · rename_i e; rw [e] at s2; rw [s1.2, s2.2]
      · rename_i e; rw [e] at s2
        have key : ∀ l : List Nat, l.Nodup → (∀ r ∈ l, (asTable w o').hits k v r) → (l.length = max n 1 ∨ ∀ r, (asTable w o').hits k v r → r ∈ l) →
            ∀ r, r ∈ l ↔ (asTable w o').hits k v r := by
          intro l hn hh ho r
          refine ⟨hh r, fun hr => ?_⟩
          rcases ho with ho | ho
          · have hsub : l ⊆ full := fun x hx => hfull x (hh x hx)
            have := List.subperm_of_subset hn hsub
            have hp := this.perm_of_length_le (by omega)
            exact hp.mem_iff.mpr (hfull r hr)
          · exact ho r hr
        rcases s1 with ⟨l, hl1, n1, m1, _, x1, _, b1⟩ | ⟨a, _, b1⟩ <;> rcases s2 with ⟨l', hl2, n2, m2, _, x2, _, b2⟩ | ⟨b, _, b2⟩
        · have : (· ∈ l) = (· ∈ l') := by funext r; exact propext ((key l n1 m1 x1 r).trans (key l' n2 m2 x2 r).symm)
          rw [b1, b2, this]
        · obtain ⟨r, hr⟩ := List.exists_mem_of_ne_nil l hl1; exact absurd ⟨r, m1 r hr⟩ b
        · obtain ⟨r, hr⟩ := List.exists_mem_of_ne_nil l' hl2; exact absurd ⟨r, m2 r hr⟩ a
        · rw [b1, b2]
    all_goals first
      | (obtain ⟨_, rfl⟩ := he; exact absurd hch (fun f => f))
      | ((split at he <;> try split at he) <;> first
          | (simp only [Event.on.injEq] at he; obtain ⟨_, rfl⟩ := he; exact absurd hch (fun f => f))
          | cases he)
  · exact s1.table s2 hch

/-! ### Concrete cases -/

/-- `demoW`: a vault with an ordinary and a unique key and records; two vaults side by side. -/
example : HReach Ordinary (fun _ => 0) demoW ∧ isVault demoW 0 = true ∧ (asTable demoW 0).keys = [1, 2] ∧ members demoW 0 = [0, 1] :=
  ⟨demoW_reach, by decide, by decide, by decide⟩
example : HReach Ordinary (fun _ => 0) demoTwo ∧ isVault demoTwo 0 = true ∧ isVault demoTwo 3 = true ∧ (asTable demoTwo 0).row 0 :=
  ⟨demo_reach (l := demoOps ++ [.newVault]) rfl, by decide, by decide, by show _ ∈ _; decide⟩

/-- A key added and removed again. -/
example : ∃ w1 w2 : DW, outcome Env.id demoW (.addKey 0 3 4) = some (w1, .res (.good (some 3))) ∧ outcome Env.rev w1 (.removeKey 0 3) = some (w2, .flag true) :=
  ⟨_, _, rfl, rfl⟩
example : ∃ w1 w2 : DW, outcome Env.id demoW (.addUniqueKey 0 3 false false (fun _ _ r => r + 1)) = some (w1, .res (.good (some 3))) ∧
    outcome Env.rev w1 (.removeKey 0 3) = some (w2, .flag true) := ⟨_, _, rfl, rfl⟩

/-- A record created and erased again in `seenW` (where record 0 has the value 8, and 1 and 2 have 5). -/
example : ∃ w1 w2 : DW, outcome Env.id seenW (.createRecord 0 1 [(1, 8)]) = some (w1, .res (.good (some 1))) ∧ target w1 1 = some 3 ∧ 3 ∈ members w1 0 ∧
    3 ∉ members seenW 0 ∧ outcome Env.rev w1 (.eraseRef 0 1) = some (w2, .flag true) ∧ Listed true seenW 0 1 0 ∧ ¬ Listed true w2 0 1 0 :=
  ⟨_, _, rfl, by decide, by decide, by decide, rfl, by decide, by decide⟩

/-- Writes: 8 is replaced by 7 and then by 6; by 7 and back; records 0 and 1 written in both orders. -/
example : ∃ w1 w2 w3 : DW, through seenW 0 = some 0 ∧ target seenW 0 = some 0 ∧ outcome Env.id seenW (.refSetData 0 1 7) = some (w1, .res (.good (some 1))) ∧
    through w1 0 = some 0 ∧ target w1 0 = some 0 ∧ outcome Env.rev w1 (.refSetData 0 1 6) = some (w2, .res (.good (some 1))) ∧
    outcome Env.id seenW (.refSetData 0 1 6) = some (w3, .res (.good (some 1))) ∧ value seenW 1 1 ≠ some 7 ∧ value seenW 2 1 ≠ some 7 :=
  ⟨_, _, _, by decide, by decide, rfl, by decide, by decide, rfl, rfl, by decide, by decide⟩
example : ∃ w1 w2 : DW, (asTable seenW 0).cell 0 1 = some 8 ∧ outcome Env.id seenW (.refSetData 0 1 7) = some (w1, .res (.good (some 1))) ∧
    outcome Env.rev w1 (.refSetData 0 1 8) = some (w2, .res (.good (some 1))) := ⟨_, _, by decide, rfl, rfl⟩
example : ∃ w1 w2 w3 w4 : DW, outcome Env.id seenW (.refSetData 0 1 5) = some (w1, .res (.good (some 1))) ∧
    outcome Env.rev w1 (.refSetData 1 1 6) = some (w2, .res (.good (some 1))) ∧ outcome Env.id seenW (.refSetData 1 1 6) = some (w3, .res (.good (some 1))) ∧
    outcome Env.id w3 (.refSetData 0 1 5) = some (w4, .res (.good (some 1))) ∧ target w3 0 = some 0 ∧ target w1 1 = some 1 := ⟨_, _, _, _, rfl, rfl, rfl, rfl, by decide, by decide⟩

/-- Records 0 and 1 erased in both orders; record 0 erased twice. -/
example : ∃ w1 w2 w3 w4 w5 : DW, outcome Env.id seenW (.eraseRef 0 0) = some (w1, .flag true) ∧ outcome Env.rev w1 (.eraseRef 0 1) = some (w2, .flag true) ∧
    outcome Env.id seenW (.eraseRef 0 1) = some (w3, .flag true) ∧ outcome Env.rev w3 (.eraseRef 0 0) = some (w4, .flag true) ∧
    target w1 0 = some 0 ∧ outcome Env.rev w1 (.eraseRef 0 0) = some (w5, .flag false) := ⟨_, _, _, _, _, rfl, rfl, rfl, rfl, by decide, rfl⟩

/-- Three records with the value 5: which one is erased depends on the order of the hash table, the answer does not. -/
example : ∃ w w1 w2 : DW, demo (seenOps.take 9) = some w ∧ outcome Env.id w (.eraseKV 0 1 5) = some (w1, .res (.good (some 1))) ∧
    outcome Env.rev w (.eraseKV 0 1 5) = some (w2, .res (.good (some 1))) ∧ members w1 0 ≠ members w2 0 := ⟨_, _, _, rfl, rfl, rfl, by decide⟩
/-- A unique value: nothing to choose. -/
example : ∃ w1 w2 : DW, outcome Env.id demoW (.eraseKV 0 2 7) = some (w1, .res (.good (some 2))) ∧ outcome Env.rev demoW (.eraseKV 0 2 7) = some (w2, .res (.good (some 2))) ∧
    ¬ Chooses demoW (.eraseKV 0 2 7) := by
  refine ⟨_, _, rfl, rfl, ?_⟩
  rintro ⟨r, r', hn, h1, h2⟩
  exact hn ((C80_wellformed demoW_reach (by decide)).inj 2 r r' (by show _ ∈ _; decide) h1.1 h2.1 (h1.2.1.trans h2.2.1.symm))

end MVault.W
