import Verif.IndexModel
/-
`SortBy` whose function changes the vault while the loop is running: the loops of the sorter with the calls of the function in between. The function runs inside the
recursive lock of the same thread, so its calls of `CreateRecord`, `SetData`, `EraseRecord` change the very map that the loop goes through.
-/
namespace MVault.Rn
open MVault.Mp MVault.Ix
variable {V : Type} [LinearOrder V]

/-- What a function called from the loop may do to the ordered map of the key (Map.h lines 320-422): any operations, in any number. -/
inductive Changes : PMap V Nat → PMap V Nat → Prop
  | refl (x) : Changes x x
  | step (x y z op) : Changes x y → y.step (ordStl 0) op = some z → Changes x z

/-- A call of the function: the map at that moment, the iterator in it, the entry given to the function. Vault.hpp lines 503-517. -/
structure Visit (V : Type) where
  map : PMap V Nat
  it : It
  entry : V × Nat

/-- The loop `for (const auto& it : *map) if (!function(it.second)) break;`, Vault.hpp lines 505-510, up to some turn (the one in which the function stops it, or any
earlier one): `x0` is the map at the start, `x` the map now, `a` the iterator now. The end is computed once, `++` runs after the function. -/
inductive Turns (x0 : PMap V Nat) : List (Visit V) → PMap V Nat → It → Prop
  | start : Turns x0 [] x0 x0.begin_
  | turn (tr x a e x' a') : Turns x0 tr x a → differ x a x0.end_ = some true → x.deref a = some e → Changes x x' → x'.incr a = some a' →
      Turns x0 (tr ++ [⟨x, a, e⟩]) x' a'

/-- The loop `for (auto it = map->Rbegin(); it != map->Rend(); ++it) if (!function((*it).second)) break;`, Vault.hpp lines 511-516, up to some turn. A
`std::reverse_iterator` (Map.h lines 220-224) holds the iterator `a` behind its entry: `*it` goes one back and reads, `++it` goes one back, `Rbegin` holds the end, and `Rend`
(computed in each turn) holds the beginning. -/
inductive RTurns (x0 : PMap V Nat) : List (Visit V) → PMap V Nat → It → Prop
  | start : RTurns x0 [] x0 x0.end_
  | turn (tr x a t e x' a') : RTurns x0 tr x a → differ x a x.begin_ = some true → x.decr a = some t → x.deref t = some e → Changes x x' → x'.decr a = some a' →
      RTurns x0 (tr ++ [⟨x, t, e⟩]) x' a'

/-- The same loop, Vault.hpp lines 511-516, with a function that does not change the map: the records given to it until it answers false (`s` are those seen before). -/
inductive RLoop (x : PMap V Nat) (f : List Nat → Nat → Bool) : It → List Nat → List Nat → Prop
  | done (a s) : differ x a x.begin_ = some false → RLoop x f a s []
  | stop (a s t e) : differ x a x.begin_ = some true → x.decr a = some t → x.deref t = some e → f s e.2 = false → RLoop x f a s [e.2]
  | next (a s t e a' l) : differ x a x.begin_ = some true → x.decr a = some t → x.deref t = some e → f s e.2 = true → x.decr a = some a' →
      RLoop x f a' (e.2 :: s) l → RLoop x f a s (e.2 :: l)

/-- What a predicate may do to the hash map of the key without adding anything to it (Map.h lines 377-422): any erasures, in any number. -/
inductive Erasures : PMap V Nat → PMap V Nat → Prop
  | refl (x) : Erasures x x
  | key (x y k) : Erasures x y → Erasures x (y.eraseKey k).1
  | elem (x y a z) : Erasures x y → y.eraseAt a = some z → Erasures x z.1
  | clear (x y) : Erasures x y → Erasures x y.clear

/-- The loop of a request with a predicate, Vault.hpp lines 168-185 and 243-258, up to some turn:
`for (it = start; it != stop; ++it) { if (counter >= amount) break; if (predicate(*it)) records.emplace((*it).second); ++counter; }`.
`stop` is computed before the loop and never again. `Can x x'` is what the predicate may do to the map; `got` are the records collected so far; the entry is read again
after the predicate has answered yes. The loop over the hash map (Equal) and the one over the ordered map are the same. -/
inductive Asked (Can : PMap V Nat → PMap V Nat → Prop) (x0 : PMap V Nat) (start stop : It) (n : Option Nat) : List (Visit V) → List Nat → PMap V Nat → It → Prop
  | start : Asked Can x0 start stop n [] [] x0 start
  | yes (tr got x a e x' e' a') : Asked Can x0 start stop n tr got x a → differ x a stop = some true → atLimit n tr.length = false → x.deref a = some e → Can x x' →
      x'.deref a = some e' → x'.incr a = some a' → Asked Can x0 start stop n (tr ++ [⟨x, a, e⟩]) (got ++ [e'.2]) x' a'
  | no (tr got x a e x' a') : Asked Can x0 start stop n tr got x a → differ x a stop = some true → atLimit n tr.length = false → x.deref a = some e → Can x x' →
      x'.incr a = some a' → Asked Can x0 start stop n (tr ++ [⟨x, a, e⟩]) got x' a'

/-- The loop is over: the iterator has reached `stop`, or the amount is used up. Vault.hpp lines 168-172, 243-246. -/
def Over (stop : It) (n : Option Nat) (tr : List (Visit V)) (x : PMap V Nat) (a : It) : Prop := differ x a stop = some false ∨ (differ x a stop = some true ∧ atLimit n tr.length = true)

end MVault.Rn
