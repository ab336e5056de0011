import Verif.WorldOps
/-
The loops that run over an `std::unordered_set` with iterators, some of which erase from the set while they run: `Vault::DropVault`, `Vault::DropData`,
`VaultRecordSet::Clear`, `Join`, `Exclude`, `Intersect`, `VaultRecord::RemoveFromDependentSets`. The world of `WorldBase` says only what a set contains; here the
order of the elements and the position of the iterator are part of the state. An iterator is `some x` (at the element `x`) or `none` (`end()`).
Erasing an element leaves the order of the others and the iterators to them alone; inserting one can rehash, after which every iterator is invalid.
Dereferencing or advancing an invalid iterator is undefined behaviour: the result `none`.
-/
namespace MVault.Lp
open MVault.W

variable {K V Ty : Type} [LinearOrder K] [LinearOrder V] [Typed V Ty] [DecidableEq Ty]

/-- `++it` for an iterator at `x`: undefined if `x` has been erased. `std::unordered_set`, Vault.cpp line 552, VaultRecordSet.cpp line 478. -/
def incr (l : List Nat) (x : Nat) : Option (Option Nat) :=
  match l with
  | [] => none
  | y :: t => if y = x then some t.head? else incr t x

/-- The order of the elements after a piece of code that ran while iterators were alive; `now` is what the set contains afterwards. Undefined after an insertion (rehash).
`std::unordered_set`, Vault.h lines 110, 113, VaultRecord.h line 30. -/
def after (l now : List Nat) : Option (List Nat) := if ∀ x ∈ now, x ∈ l then some (l.filter (· ∈ now)) else none

/-- Position in a loop: the order of the elements, the iterator, and the world. The loops of Vault.cpp lines 549-556, VaultRecordSet.cpp lines 471-480, 523-530. -/
structure Pos (W : Type) where
  order : List Nat
  it : Option Nat
  w : W

/-- One round of a range-based loop `for (x : set) body(x)`, `set` read by `obs`: the iterator is advanced after the body.
Vault.cpp lines 609-611, VaultRecordSet.cpp lines 265-268, 420-429, VaultRecord.cpp lines 117-119. -/
def rangeRound {W : Type} (obs : W → Option (List Nat)) (body : W → Nat → Option W) (p : Pos W) (x : Nat) : Option (Pos W) := do
  if x ∉ p.order then none else
  let w' ← body p.w x
  let l' ← after p.order (← obs w')
  let it' ← incr l' x
  some ⟨l', it', w'⟩

/-- One round of the loop of `DropVault`: the iterator is saved and advanced before the body. Vault.cpp lines 549-554. -/
def savedRound {W : Type} (obs : W → Option (List Nat)) (body : W → Nat → Option W) (p : Pos W) (x : Nat) : Option (Pos W) := do
  if x ∉ p.order then none else
  let it' ← incr p.order x
  let w' ← body p.w x
  let l' ← after p.order (← obs w')
  some ⟨l', it', w'⟩

/-- One round of the loops of `Exclude` and `Intersect`: `RemoveRecord(*it)` returns the iterator behind the erased element, otherwise `++it`; `RemoveRecord` returns `end()`
for a record it does not find. VaultRecordSet.cpp lines 472-479, 522-529, Vault.cpp lines 9-38. -/
def eraseRound (cond : World K V Ty → Nat → Option Bool) (env : Env) (s : Nat) (p : Pos (World K V Ty)) (x : Nat) : Option (Pos (World K V Ty)) := do
  if x ∉ p.order then none else
  if (← cond p.w x) = true then do
    let r ← removeRecord env p.w s x
    let so ← r.1.getObj s
    let l' ← after p.order so.recs
    let it' ← if r.2 = true then incr p.order x else some none
    some ⟨l', it', r.1⟩
  else do
    let it' ← incr p.order x
    some ⟨p.order, it', p.w⟩

/-- A whole loop: rounds until the iterator is `end()`; `none` when a round is undefined. All the loops above, for example VaultRecordSet.cpp lines 471-480. -/
inductive Run {W : Type} (round : Pos W → Nat → Option (Pos W)) : Pos W → Option (Pos W) → Prop
  | done (p : Pos W) : p.it = none → Run round p (some p)
  | bad (p : Pos W) (x : Nat) : p.it = some x → round p x = none → Run round p none
  | go (p p' : Pos W) (x : Nat) (res : Option (Pos W)) : p.it = some x → round p x = some p' → Run round p' res → Run round p res

/-- `it = set.begin()`. Vault.cpp line 549, VaultRecordSet.cpp lines 472, 522. -/
def start {W : Type} (l : List Nat) (w : W) : Pos W := ⟨l, l.head?, w⟩

/-- `RecordSetsSet` of an object, Vault.h line 113. -/
def kidsOf (o : Nat) (w : World K V Ty) : Option (List Nat) := (w.getObj o).map (·.sets)
/-- `RecordsSet` of an object, Vault.h line 110. -/
def recsOf (o : Nat) (w : World K V Ty) : Option (List Nat) := (w.getObj o).map (·.recs)
/-- `dependentVaultRecordSets` of a record, VaultRecord.h line 30. -/
def depsOf (r : Nat) (w : World K V Ty) : Option (List Nat) := (w.getRec r).map (·.deps)

/-- Is the record in the set `a`? `a.RecordsSet.find(*it) != a.RecordsSet.end()`, VaultRecordSet.cpp line 475. -/
def inSet (a : Nat) (w : World K V Ty) (r : Nat) : Option Bool := (w.getObj a).map fun ao => decide (r ∈ ao.recs)
/-- Is it not there? VaultRecordSet.cpp line 525. -/
def notInSet (a : Nat) (w : World K V Ty) (r : Nat) : Option Bool := (w.getObj a).map fun ao => decide (r ∉ ao.recs)

end MVault.Lp
