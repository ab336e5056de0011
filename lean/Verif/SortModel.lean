import Verif.WorldObs
/-
`SortBy` and `GetSortedRecords` of a vault as the code runs them: a loop over the ordered index that calls a function and
stops when it answers false.
-/
set_option linter.unusedSectionVars false
set_option linter.unusedSimpArgs false
namespace MVault.W
variable {K V Ty : Type} [LinearOrder K] [LinearOrder V] [Typed V Ty] [DecidableEq Ty]

/-- The sorter of a key, Vault.hpp lines 503-517: `functionToSortedData` is called with the records of the ordered index, from the
front or (`isReverse`) from the back, until it answers false. `S` is whatever state the function captures. -/
def sorterLoop {S : Type} (func : S → Nat → S × Bool) : List Nat → S → S
  | [], s => s
  | r :: l, s => match func s r with
    | (s', true) => sorterLoop func l s'
    | (s', false) => s'

/-- The sorter of key `k`, Vault.hpp lines 503-517. -/
def sorter {S : Type} (vo : Obj K V Ty) (k : K) (rev : Bool) (func : S → Nat → S × Bool) (s : S) : S :=
  match mget vo.cols k with
  | none => s
  | some c => sorterLoop func ((if rev = true then c.ord.reverse else c.ord).map (·.2)) s

/-- `Vault::GetSortedRecords`, Vault.cpp lines 651-675: the captured state is `(counter, res)`. -/
def getSortedLoop (vo : Obj K V Ty) (k : K) (rev : Bool) (amount : Nat) : List Nat :=
  (sorter vo k rev (fun (s : Nat × List Nat) r => if s.1 ≥ amount then (s, false) else ((s.1 + 1, s.2 ++ [r]), true)) (0, [])).2

/-- What `SortBy` did: the state of the user's function and the calls made of it, with their answers. Vault.cpp lines 677-699. -/
structure SortRun (S : Type) where
  counter : Nat
  user : S
  calls : List (Nat × Bool)

/-- `Vault::SortBy`, Vault.cpp lines 677-699, in world `w` on vault `o` with a user function that has a state of its own. The
callback only reads the vault (SortBy holds the read lock). Calls are recorded. -/
def sortBy {S : Type} (w : World K V Ty) (o : Nat) (k : K) (func : S → Nat → S × Bool) (s : S) (rev : Bool) (amount : Nat) : Option (SortRun S) :=
  (w.getObj o).map fun vo => sorter vo k rev (fun (t : SortRun S) r =>
    if t.counter ≥ amount then (t, false)
    else
      let a := func t.user r
      if a.2 = false then (⟨t.counter, a.1, t.calls ++ [(r, false)]⟩, false)
      else (⟨t.counter + 1, a.1, t.calls ++ [(r, true)]⟩, true)) ⟨0, s, []⟩

/-! ### The loops -/

theorem getSorted_loop_eq (amount : Nat) (l : List Nat) : ∀ (c : Nat) (acc : List Nat),
    (sorterLoop (fun (s : Nat × List Nat) r => if s.1 ≥ amount then (s, false) else ((s.1 + 1, s.2 ++ [r]), true)) l (c, acc)).2 =
      acc ++ l.take (amount - c) := by
  induction l with
  | nil => intro c acc; simp [sorterLoop]
  | cons r l ih =>
    intro c acc
    simp only [sorterLoop]
    by_cases h : c ≥ amount
    · simp [h, Nat.sub_eq_zero_of_le h]
    · rw [if_neg h]
      dsimp only
      rw [ih]
      obtain ⟨m, hm⟩ : ∃ m, amount - c = m + 1 := ⟨amount - c - 1, by omega⟩
      rw [hm, List.take_succ_cons, show amount - (c + 1) = m by omega]
      simp

/-- The loop of the code gives the list the world model uses. -/
theorem getSortedLoop_eq (vo : Obj K V Ty) (k : K) (rev : Bool) (amount : Nat) : getSortedLoop vo k rev amount = sortedIds vo k rev (some amount) := by
  unfold getSortedLoop sorter sortedIds
  cases mget vo.cols k with
  | none => rfl
  | some c => dsimp only; rw [getSorted_loop_eq]; simp

/-- The calls of a run that began with `done` calls made, all answered true, and has `l` to go. Specification, models no code. Vault.cpp lines 677-699. -/
structure Ran (amount : Nat) (done : List (Nat × Bool)) (l : List Nat) (calls : List (Nat × Bool)) : Prop where
  pre : ∃ more, calls = done ++ more ∧ more.map (·.1) <+: l
  amt : calls.length ≤ max amount done.length
  stop : ∀ i, i + 1 < calls.length → ∀ e, calls[i]? = some e → e.2 = true
  fin : calls.map (·.1) = done.map (·.1) ++ l ∨ amount ≤ calls.length ∨ ∃ r, calls.getLast? = some (r, false)

theorem sortBy_ran {S : Type} (func : S → Nat → S × Bool) (amount : Nat) (l : List Nat) : ∀ (u : S) (done : List (Nat × Bool)), (∀ e ∈ done, e.2 = true) →
    Ran amount done l (sorterLoop (fun (t : SortRun S) r =>
      if t.counter ≥ amount then (t, false)
      else
        let a := func t.user r
        if a.2 = false then (⟨t.counter, a.1, t.calls ++ [(r, false)]⟩, false)
        else (⟨t.counter + 1, a.1, t.calls ++ [(r, true)]⟩, true)) l ⟨done.length, u, done⟩).calls := by
  induction l with
  | nil =>
    intro u done hd
    refine ⟨⟨[], by simp [sorterLoop], by simp⟩, by simp [sorterLoop]; omega, ?_, .inl (by simp [sorterLoop])⟩
    intro i _ e he
    exact hd e (List.mem_of_getElem? he)
  | cons r l ih =>
    intro u done hd
    simp only [sorterLoop]
    by_cases h : done.length ≥ amount
    · simp only [h, if_true]
      refine ⟨⟨[], by simp, by simp⟩, by omega, fun i _ e he => hd e (List.mem_of_getElem? he), .inr (.inl h)⟩
    · simp only [if_neg h]
      cases ha : (func u r).2 with
      | false =>
        simp only [ha, if_true]
        refine ⟨⟨[(r, false)], rfl, by simp⟩, by simp; omega, ?_, .inr (.inr ⟨r, by simp⟩)⟩
        intro i hi e he
        simp only [List.length_append, List.length_singleton] at hi
        rw [List.getElem?_append_left (by omega)] at he
        exact hd e (List.mem_of_getElem? he)
      | true =>
        simp only [ha, Bool.true_eq_false, if_false]
        have hlen : done.length + 1 = (done ++ [(r, true)]).length := by simp
        rw [hlen]
        obtain ⟨⟨more, e1, e2⟩, a, b, c⟩ := ih (func u r).1 (done ++ [(r, true)]) (by
          intro e he; rcases List.mem_append.mp he with he | he
          · exact hd e he
          · simp at he; rw [he])
        refine ⟨⟨(r, true) :: more, by rw [e1]; simp, by simpa using e2⟩, ?_, b, ?_⟩
        · refine a.trans ?_
          simp only [List.length_append, List.length_singleton]; omega
        · rcases c with c | c | c
          · exact .inl (by rw [c]; simp)
          · exact .inr (.inl c)
          · exact .inr (.inr c)

end MVault.W
