import Verif.WorldTable5
/-
C79: a vault is a table.

The specification is TableSpec.lean: what every call on a vault answers and what it does to the keys, defaults, rows, values and to what
searches find. Here: the model of the code refines it, call by call and over whole histories, and the calls that return rows return the rows
of the table.
-/
set_option linter.unusedSectionVars false
set_option linter.unusedSimpArgs false
set_option linter.unusedVariables false
namespace MVault.W
open MVault.Spec (Table Db Event Cmd)
variable {K V Ty : Type} [LinearOrder K] [LinearOrder V] [Typed V Ty] [DecidableEq Ty]

/-- Every ordinary call, in every state ordinary calls can reach, with every order of the hash tables, is a step of the specification: the
vaults before, the call, its answer, the vaults afterwards. -/
theorem C79_refines {home : Nat → Nat} {env : Env} {w w' : World K V Ty} {op : Op K V Ty} {ans : Answer K} (hw : HReach Ordinary home w)
    (hg : Ordinary home w op) (h : outcome env w op = some (w', ans)) : (dbOf w).Step (eventOf w op) ans (dbOf w') :=
  outcome_db hw hg h

/-- A history of ordinary calls with its events and answers, the last one first; a set that is not in use may change its vault. -/
inductive History : (Nat → Nat) → List (Event K V Ty × Answer K) → World K V Ty → Prop
  | init {home : Nat → Nat} : History home [] World.empty
  | reuse {home : Nat → Nat} (l : List (Event K V Ty × Answer K)) (w : World K V Ty) (s p : Nat) : History home l w → Unused w s → History (rehome home s p) l w
  | step {home : Nat → Nat} (l : List (Event K V Ty × Answer K)) (w w' : World K V Ty) (env : Env) (op : Op K V Ty) (ans : Answer K) :
      History home l w → Ordinary home w op → outcome env w op = some (w', ans) → History home ((eventOf w op, ans) :: l) w'

theorem History.reach {home : Nat → Nat} {l : List (Event K V Ty × Answer K)} {w : World K V Ty} (h : History home l w) : HReach Ordinary home w := by
  induction h with
  | init => exact .init
  | reuse l w s p _ hu ih => exact .reuse _ s p ih hu
  | step l w w' env op ans _ hg ho ih => exact .step _ _ env op ih hg (by rw [← outcome_step, ho]; rfl)

theorem dbOf_empty : dbOf (World.empty : World K V Ty) = Db.empty := by
  funext o; simp [dbOf, Db.empty, isVault, World.empty, World.getObj, mget]

/-- Whole histories: the events and answers of every history of ordinary calls are a run of the specification, which ends with the
tables the vaults are. -/
theorem C79_history {home : Nat → Nat} {l : List (Event K V Ty × Answer K)} {w : World K V Ty} (h : History home l w) : Db.Run l (dbOf w) := by
  induction h with
  | init => rw [dbOf_empty]; exact .init
  | reuse _ _ _ _ _ _ ih => exact ih
  | step l w w' env op ans hh hg ho ih => exact .step _ _ _ _ _ ih (C79_refines hh.reach hg ho)

/-- Every state ordinary calls can reach has such a history. -/
theorem C79_history_exists {home : Nat → Nat} {w : World K V Ty} (hw : HReach Ordinary home w) : ∃ l, History home l w ∧ Db.Run l (dbOf w) := by
  suffices H : ∃ l, History home l w by obtain ⟨l, h⟩ := H; exact ⟨l, h, C79_history h⟩
  induction hw with
  | init => exact ⟨_, .init⟩
  | step w w' env op _ hg hs ih =>
    obtain ⟨l, h⟩ := ih
    rw [← outcome_step] at hs
    obtain ⟨⟨w1, ans⟩, h1, h2⟩ := Option.map_eq_some_iff.mp hs
    cases h2
    exact ⟨_, .step _ _ _ env op ans h hg h1⟩
  | reuse w s p _ hu ih =>
    obtain ⟨l, h⟩ := ih
    exact ⟨l, .reuse l w s p h hu⟩

/-! ### The calls that return rows -/

theorem matches_table {home : Nat → Nat} {own : Nat → Nat} {w : World K V Ty} (hi : Inv own home w) {o : Nat} (ho : isVault w o = true) (k : K) (c : Cond V) (r : Nat) :
    Matches w o k c r ↔ (asTable w o).row r ∧ ∃ v, (asTable w o).cell r k = some v ∧ c.holds v := by
  obtain ⟨vo, hvo, hs⟩ := isVault_iff.mp ho
  constructor
  · rintro ⟨h1, _, v, h2, h3⟩; exact ⟨h1, v, by rw [cell_in h1]; exact h2, h3⟩
  · rintro ⟨h1, v, h2, h3⟩
    have h1 : r ∈ members w o := h1
    rw [cell_in h1] at h2
    exact ⟨h1, (hi.v.mem o vo hvo hs r (by rw [← members_eq hvo]; exact h1)).2, v, h2, h3⟩

theorem hits_table {home : Nat → Nat} {own : Nat → Nat} {w : World K V Ty} (hi : Inv own home w) {o : Nat} (ho : isVault w o = true) (k : K) (v : V) (r : Nat) :
    (Matches w o k (.eq v) r ∧ Listed false w o k r) ↔ (asTable w o).hits k v r := by
  rw [matches_table hi ho]
  constructor
  · rintro ⟨⟨h1, _, h2, rfl⟩, h3⟩; exact ⟨h1, h2, h3⟩
  · rintro ⟨h1, h2, h3⟩; exact ⟨⟨h1, v, h2, rfl⟩, h3⟩

/-- `GetRecord`: the reference points at a row of the table that the search finds. -/
theorem C79_getRecord {home : Nat → Nat} {w w' : World K V Ty} (hw : HReach Ordinary home w) {env : Env} {o f : Nat} {k : K} {v : V} {res : Res K}
    (ho : isVault w o = true) (hf : f < w.refs.length) (hty : (asTable w o).ty k = some (typeOf v)) (h : getRecord env w o k v f = some (w', res)) :
    (res.ok = true ↔ ∃ r, (asTable w o).hits k v r) ∧ (res.ok = true → ∃ r, target w' f = some r ∧ (asTable w o).hits k v r) := by
  obtain ⟨own, hi⟩ := reach_inv hw
  simpa only [hits_table hi ho] using C78_getRecord hw ho hf hty h

/-- `GetRecords`: the references point at rows that the search finds, at each at most once; all of them, or as many as asked for. -/
theorem C79_getRecords {home : Nat → Nat} {w w' : World K V Ty} (hw : HReach Ordinary home w) {env : Env} {o n : Nat} {k : K} {v : V} {res : Res K}
    (ho : isVault w o = true) (hty : (asTable w o).ty k = some (typeOf v)) (h : getRecords env w o k v n = some (w', res)) :
    ∃ out : List Nat, out.Nodup ∧ (∀ r ∈ out, (asTable w o).hits k v r) ∧ out.length ≤ max n 1 ∧ (out.length = max n 1 ∨ ∀ r, (asTable w o).hits k v r → r ∈ out) ∧
      w'.refs = w.refs ++ out.map (fun r => ⟨some r, some o⟩) := by
  obtain ⟨own, hi⟩ := reach_inv hw
  obtain ⟨all, out, h1, h2, h3, h4, h5, _⟩ := C78_getRecords hw ho hty h
  refine ⟨out, h3.sublist.nodup h1, fun r hr => (hits_table hi ho k v r).mp ((h2 r).mp (h3.mem hr)), by omega, ?_, h5⟩
  by_cases e : out.length = max n 1
  · exact .inl e
  · refine .inr fun r hr => ?_
    have : out = all := h3.eq_of_length (by omega)
    rw [this]; exact (h2 r).mpr ((hits_table hi ho k v r).mpr hr)

/-- Requests: the set gets exactly the rows whose value meets the condition, which the predicate accepts, and which are found. -/
theorem C79_request {home : Nat → Nat} {w w' : World K V Ty} (hw : HReach Ordinary home w) {env : Env} {o s : Nat} {k : K} {c : Cond V}
    {pred : Nat → Bool} {res : Res K} (ho : isVault w o = true) (hs : isSetObj w s = true) (hh : home s = o) (ht : c.typed c.ty)
    (hty : (asTable w o).ty k = some c.ty) (h : ask env w o k c none pred s = some (w', res)) :
    res = .good (some k) ∧ ∀ r, r ∈ members w' s ↔
      (asTable w o).row r ∧ (∃ v, (asTable w o).cell r k = some v ∧ c.holds v) ∧ pred r = true ∧ (asTable w o).seen c.ordered k r := by
  obtain ⟨own, hi⟩ := reach_inv hw
  obtain ⟨h1, h2⟩ := C78_request hw ho hs hh ht hty h
  refine ⟨h1, fun r => ?_⟩
  rw [h2, matches_table hi ho, and_assoc]; rfl

/-- Sorting: all rows that are found, each once, in the order of their values. -/
theorem C79_sorted {home : Nat → Nat} {w w' : World K V Ty} (hw : HReach Ordinary home w) {o : Nat} {k : K} {rev : Bool}
    (ho : isVault w o = true) (h : getSorted w o k rev none = some w') :
    ∃ l : List Nat, l.Nodup ∧ (∀ r, r ∈ l ↔ (asTable w o).seen true k r) ∧ w'.refs = w.refs ++ l.map (fun r => ⟨some r, some o⟩) ∧
      l.Pairwise (fun r r' => ∀ v v', (asTable w o).cell r k = some v → (asTable w o).cell r' k = some v' → if rev = true then v' ≤ v else v ≤ v') := by
  obtain ⟨own, hi⟩ := reach_inv hw
  obtain ⟨vo, hvo, hs⟩ := isVault_iff.mp ho
  obtain ⟨l, h1, h2, h3, h4⟩ := C78_sorted hw ho h
  refine ⟨l, h1, h3, h4, h2.imp fun {r r'} hh v v' e1 e2 => ?_⟩
  simp only [asTable] at e1 e2
  split at e1 <;> [skip; cases e1]
  split at e2 <;> [exact hh v v' e1 e2; cases e2]

/-! ### A concrete case -/

/-- The history behind `seenW` (one vault with three rows, one of which has been written) is a run of the specification. -/
example : ∃ l, History (fun _ => 0) l seenW ∧ Db.Run l (dbOf seenW) := C79_history_exists seenW_reach

/-- The table of `seenW`: three rows; row 0 was written and is found; rows 1 and 2 still hold 5 and are not found. -/
example : dbOf seenW 0 = some (asTable seenW 0) ∧ (asTable seenW 0).keys = [1] ∧ (asTable seenW 0).ty 1 = some false ∧ (asTable seenW 0).dflt 1 = some 5 ∧
    ¬ (asTable seenW 0).uniq 1 ∧ (asTable seenW 0).row 0 ∧ (asTable seenW 0).row 1 ∧ (asTable seenW 0).cell 0 1 = some 8 ∧ (asTable seenW 0).cell 1 1 = some 5 ∧
    (asTable seenW 0).seen true 1 0 ∧ ¬ (asTable seenW 0).seen true 1 1 :=
  ⟨dbOf_vault (by decide), by decide, by decide, by decide, by unfold asTable; decide, by show _ ∈ _; decide, by show _ ∈ _; decide, by decide, by decide,
    by show Listed _ _ _ _ _; decide, by show ¬ Listed _ _ _ _ _; decide⟩

/-- A refused value of a unique key, a row erased by value, a copy: calls `C79_refines` speaks about. -/
example : ∃ w1 w2 w3 : DW, outcome Env.id demoW (.createRecord 0 2 [(2, 7)]) = some (w1, .res (.bad .UniqueKeyValueAlredyInSet (some 2))) ∧
    eventOf demoW (.createRecord 0 2 [(2, 7)]) = .on 0 (.create [(2, 7)]) ∧
    outcome Env.rev seenW (.eraseKV 0 1 8) = some (w2, .res (.good (some 1))) ∧ members w2 0 = [1, 2] ∧
    outcome Env.rev seenW (.vaultCopyNew 0) = some (w3, .unit) ∧ members w3 2 = [3, 4, 5] ∧ eventOf seenW (.vaultCopyNew 0) = .copyNew 2 0 :=
  ⟨_, _, _, rfl, rfl, rfl, by decide, rfl, by decide, rfl⟩

example : ∃ w' : DW, getRecord Env.id seenW 0 1 8 0 = some (w', .good (some 1)) ∧ (asTable seenW 0).ty 1 = some (typeOf 8) ∧ target w' 0 = some 0 :=
  ⟨_, rfl, by decide, by decide⟩
example : ∃ w' : DW, getRecords Env.id seenW 0 1 5 4 = some (w', .bad .WrongValue (some 1)) ∧ (asTable seenW 0).ty 1 = some (typeOf 5) := ⟨_, rfl, by decide⟩
example : ∃ w' : DW, ask Env.id seenW 0 1 (.ge 5) none (fun _ => true) 1 = some (w', .good (some 1)) ∧ members w' 1 = [0] ∧ isSetObj seenW 1 = true :=
  ⟨_, rfl, by decide, by decide⟩
example : ∃ w' : DW, getSorted seenW 0 1 true none = some w' ∧ target w' 3 = some 0 := ⟨_, rfl, by decide⟩

end MVault.W
