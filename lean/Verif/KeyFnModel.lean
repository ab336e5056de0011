import Mathlib.Data.List.Basic
import Mathlib.Data.List.Nodup
/-
`AddUniqueKey(key, function)` whose function changes the vault: it runs inside the write lock of its own thread (the lock is recursive), so it may erase and create records while
the loop goes over the very set of records. Only what the two loops touch is here: the set of records in its iteration order, the hash map of the new key, the cached values.
The other keys' maps do not matter to the loops.
-/
namespace MVault.Kf
variable {V : Type}

/-- `++it` for an iterator of `RecordsSet` (Vault.hpp lines 379 and 399, Vault.h line 110): `some none` is the end. The outer `none` is an iterator whose element is gone
(undefined behaviour). -/
def next : List Nat → Nat → Option (Option Nat)
  | [], _ => none
  | a :: l, r => if a = r then some l.head? else next l r

/-- What the loops have made so far. Vault.hpp lines 374-375, 353: the hash map of the new key, the vector with the values, and how often the function has been called (`counter`). -/
structure Made (V : Type) where
  hash : List (V × Nat)
  cached : List V
  counter : Nat

/-- The first loop, Vault.hpp lines 379-393, up to some turn in which nothing was refused. `Can i r x y`: in call `i`, for record `r`, the function may take the set of records
from `x` to `y`. `calls` are the records the function was called with and its answers; then come the set of records now and the iterator now (`none` is the end).
`Emplace` of a value that the hash map does not have succeeds (Map.h lines 319-332); the iterator goes on after the call. Simplification: the iteration order of the
`unordered_set` is kept unless the function changes it, and a rehash (which makes the iterator invalid, so that nothing after it is defined) does not happen. -/
inductive Asks (Can : Nat → Nat → List Nat → List Nat → Prop) (recs0 : List Nat) : List (Nat × V) → Made V → List Nat → Option Nat → Prop
  | start : Asks Can recs0 [] ⟨[], [], 0⟩ recs0 recs0.head?
  | turn (calls m recs r v recs' n) : Asks Can recs0 calls m recs (some r) → Can m.counter r recs recs' → v ∉ m.hash.map Prod.fst → next recs' r = some n →
      Asks Can recs0 (calls ++ [(r, v)]) ⟨m.hash ++ [(v, r)], m.cached ++ [v], m.counter + 1⟩ recs' n

/-- The call that ends the first loop: the answer `v` is already in the hash map. Vault.hpp lines 386-390. -/
def Refuses (Can : Nat → Nat → List Nat → List Nat → Prop) (m : Made V) (recs : List Nat) (r : Nat) (v : V) (recs' : List Nat) : Prop :=
  Can m.counter r recs recs' ∧ v ∈ m.hash.map Prod.fst

/-- The second loop, Vault.hpp lines 398-406, from the value of `counter` on: what it writes into the records and into the ordered map. `cachedData[counter]` behind the end of
the vector is undefined (`none`). -/
def fill (cached : List V) : Nat → List Nat → Option (List (Nat × V))
  | _, [] => some []
  | i, r :: l => match cached[i]?, fill cached (i + 1) l with
    | some v, some t => some ((r, v) :: t)
    | _, _ => none

/-- A function that changes nothing. Vault.hpp line 381. -/
def Leaves (_ _ : Nat) (x y : List Nat) : Prop := y = x

/-- A function that only erases records, not the one it is called with. Vault.hpp line 381, Vault.cpp lines 9-38. -/
def Erases (_ r : Nat) (x y : List Nat) : Prop := y.Sublist x ∧ r ∈ y

/-- A function that may create records as well (Vault.hpp line 381, Vault.cpp lines 436-539): the records that stay keep their order, the new ones are anywhere. -/
def Edits (_ r : Nat) (x y : List Nat) : Prop := (y.filter (· ∈ x)).Sublist x ∧ y.Nodup ∧ r ∈ y

end MVault.Kf
