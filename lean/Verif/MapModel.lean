import Mathlib.Order.Defs.LinearOrder
import Mathlib.Data.List.Basic
/-
`Map.h` at the level of nodes and iterators: the wrappers `ParentMap`, `Map`, `UnorderedMap` around two standard containers, one with
unique and one with repeated keys, and the wrapper `AllMapIterator` around a pair of iterators. The standard containers are modelled
as the standard describes them; use of an invalid or past-the-end iterator is undefined (`none`).
-/
namespace MVault.Mp

/-- An element of a standard associative container. `id` stands for the address of the element. Standard library, used by Map.h lines 239-528. -/
structure Node (A B : Type) where
  id : Nat
  key : A
  val : B

/-- The contents of a standard container in iteration order. `gen` counts the operations that may have invalidated all iterators
(insertion into a hash container may rehash). Standard library, used by Map.h lines 239-528. -/
structure Seq (A B : Type) where
  nodes : List (Node A B)
  gen : Nat

/-- An iterator of a standard container: an element, or `none` for the end. Standard library, used by Map.h lines 23-27. -/
structure Ptr where
  pos : Option Nat
  gen : Nat
  deriving DecidableEq

section
variable {A B : Type} [LinearOrder A]

/-- The identity of the first element. Standard library, used by Map.h lines 239-528. -/
def headId (l : List (Node A B)) : Option Nat := l.head?.map (·.id)

/-- The element after the one with identity `i`; `none` if there is no such element. Standard library, used by Map.h lines 239-528. -/
def afterIn : List (Node A B) → Nat → Option (Option Nat)
  | [], _ => none
  | n :: l, i => if n.id = i then some (headId l) else afterIn l i

/-- `begin()` of a standard container. Standard library, used by Map.h lines 239-528. -/
def Seq.first (s : Seq A B) : Ptr := ⟨headId s.nodes, s.gen⟩
/-- `end()` of a standard container. Standard library, used by Map.h lines 239-528. -/
def Seq.last (s : Seq A B) : Ptr := ⟨none, s.gen⟩
/-- `++it`: undefined for the end and for an iterator whose element is gone. Used by Map.h lines 145-152. -/
def Seq.incr (s : Seq A B) (p : Ptr) : Option Ptr :=
  if p.gen ≠ s.gen then none else p.pos.bind fun i => (afterIn s.nodes i).map (⟨·, s.gen⟩)
/-- `--it`: undefined for the beginning and for an iterator whose element is gone. Used by Map.h lines 159-166. -/
def Seq.decr (s : Seq A B) (p : Ptr) : Option Ptr :=
  if p.gen ≠ s.gen then none else match p.pos with
    | none => (headId s.nodes.reverse).map fun i => ⟨some i, s.gen⟩
    | some i => ((afterIn s.nodes.reverse i).bind id).map fun j => ⟨some j, s.gen⟩
/-- `*it`. Used by Map.h lines 173-179. -/
def Seq.deref (s : Seq A B) (p : Ptr) : Option (A × B) :=
  if p.gen ≠ s.gen then none else p.pos.bind fun i => (s.nodes.find? (·.id = i)).map fun n => (n.key, n.val)
/-- The sequence that `reverse_iterator`s go through (simplification: a reverse iterator is an iterator of the reversed sequence; `ReentModel` has the real ones and `C93_reverse` shows that they agree). Used by Map.h lines 491-508. -/
def Seq.rev (s : Seq A B) : Seq A B := ⟨s.nodes.reverse, s.gen⟩
/-- `lower_bound(k)`: the first element whose key is not less than `k`. Used by Map.h lines 464-469. -/
def Seq.lowerBound (s : Seq A B) (k : A) : Ptr := ⟨headId (s.nodes.dropWhile fun n => decide (n.key < k)), s.gen⟩
/-- `upper_bound(k)`: the first element whose key is greater than `k`. Used by Map.h lines 479-484. -/
def Seq.upperBound (s : Seq A B) (k : A) : Ptr := ⟨headId (s.nodes.dropWhile fun n => decide (n.key ≤ k)), s.gen⟩

/-- Elements in the order of their keys (`std::map`, `std::multimap`). Standard library, used by Map.h lines 239-528. -/
def Sorted (l : List (Node A B)) : Prop := l.Pairwise fun a b => a.key ≤ b.key
/-- Elements with equal keys are adjacent (`std::unordered_map`, `std::unordered_multimap`). Standard library, used by Map.h lines 239-528. -/
def Grouped (l : List (Node A B)) : Prop := ∀ k, ∃ pre mid post, l = pre ++ (mid ++ post) ∧ (∀ n ∈ mid, n.key = k) ∧ (∀ n ∈ pre, n.key ≠ k) ∧ ∀ n ∈ post, n.key ≠ k

/-- What the standard leaves open or does differently for the two kinds of containers: where a new element goes, whether insertion may
invalidate iterators, the two iterators of `equal_range`, and which element `find` returns when there are several. Standard library, used by Map.h lines 239-528. -/
structure Stl (good : List (Node A B) → Prop) where
  ins : List (Node A B) → Node A B → List (Node A B)
  moves : Bool
  eqr : List (Node A B) → A → Option Nat × Option Nat
  pick : Nat
  perm : ∀ l n, (ins l n).Perm (n :: l)
  good_ins : ∀ l n, good l → good (ins l n)
  good_sub : ∀ l' l, l'.Sublist l → good l → good l'
  good_nil : good []
  eqr_spec : ∀ l k, good l → ∃ pre mid post, l = pre ++ (mid ++ post) ∧ (∀ n ∈ mid, n.key = k) ∧ (∀ n ∈ pre, n.key ≠ k) ∧ (∀ n ∈ post, n.key ≠ k) ∧
    eqr l k = (headId (mid ++ post), headId post)

/-- `emplace` of a multi container. Used by Map.h lines 319-332. -/
def Seq.put {good : List (Node A B) → Prop} (S : Stl good) (s : Seq A B) (n : Node A B) : Seq A B := ⟨S.ins s.nodes n, if S.moves = true then s.gen + 1 else s.gen⟩

/-- `AllMapIterator`, Map.h lines 17-28. -/
structure It where
  isMulti : Bool
  m : Ptr
  s : Ptr
  deriving DecidableEq

/-- `ParentMap`, Map.h lines 240-251. `next` is the identity of the next new element. -/
structure PMap (A B : Type) where
  isMulti : Bool
  multi : Seq A B
  single : Seq A B
  next : Nat

/-- `Map(isMultiMap)`, `UnorderedMap(isMultiMap)`, Map.h lines 451-454, 524-527. -/
def PMap.empty (isMulti : Bool) : PMap A B := ⟨isMulti, ⟨[], 0⟩, ⟨[], 0⟩, 0⟩

/-- `operator==` of iterators, Map.h lines 132-138. -/
def It.eq (a b : It) : Bool := if a.isMulti = true then decide (a.m.pos = b.m.pos) else decide (a.s.pos = b.s.pos)
/-- `operator!=` of iterators, Map.h lines 117-123. -/
def It.ne (a b : It) : Bool := if a.isMulti = true then decide (a.m.pos ≠ b.m.pos) else decide (a.s.pos ≠ b.s.pos)
/-- `operator++`, Map.h lines 145-152. -/
def PMap.incr (x : PMap A B) (a : It) : Option It :=
  if a.isMulti = true then (x.multi.incr a.m).map fun p => { a with m := p } else (x.single.incr a.s).map fun p => { a with s := p }
/-- `operator--`, Map.h lines 159-166. -/
def PMap.decr (x : PMap A B) (a : It) : Option It :=
  if a.isMulti = true then (x.multi.decr a.m).map fun p => { a with m := p } else (x.single.decr a.s).map fun p => { a with s := p }
/-- `operator*`, Map.h lines 173-179. -/
def PMap.deref (x : PMap A B) (a : It) : Option (A × B) := if a.isMulti = true then x.multi.deref a.m else x.single.deref a.s

/-- `begin`, `Begin`, Map.h lines 260-263, 282-285. -/
def PMap.begin_ (x : PMap A B) : It := ⟨x.isMulti, x.multi.first, x.single.first⟩
/-- `end`, `End`, Map.h lines 272-275, 292-295. -/
def PMap.end_ (x : PMap A B) : It := ⟨x.isMulti, x.multi.last, x.single.last⟩

/-- `Emplace`, Map.h lines 320-332. -/
def PMap.emplace {good : List (Node A B) → Prop} (S : Stl good) (x : PMap A B) (k : A) (v : B) : PMap A B × It × Bool :=
  if x.isMulti = true then
    let c := x.multi.put S ⟨x.next, k, v⟩
    ({ x with multi := c, next := x.next + 1 }, ⟨true, ⟨some x.next, c.gen⟩, x.single.last⟩, true)
  else match x.single.nodes.find? (·.key = k) with
    | some n => (x, ⟨false, x.multi.last, ⟨some n.id, x.single.gen⟩⟩, false)
    | none =>
      let c := x.single.put S ⟨x.next, k, v⟩
      ({ x with single := c, next := x.next + 1 }, ⟨false, x.multi.last, ⟨some x.next, c.gen⟩⟩, true)

/-- `EqualRange`, Map.h lines 341-353. -/
def PMap.equalRange {good : List (Node A B) → Prop} (S : Stl good) (x : PMap A B) (k : A) : It × It :=
  if x.isMulti = true then
    let r := S.eqr x.multi.nodes k
    (⟨true, ⟨r.1, x.multi.gen⟩, x.single.last⟩, ⟨true, ⟨r.2, x.multi.gen⟩, x.single.last⟩)
  else
    let r := S.eqr x.single.nodes k
    (⟨false, x.multi.last, ⟨r.1, x.single.gen⟩⟩, ⟨false, x.multi.last, ⟨r.2, x.single.gen⟩⟩)

/-- `find` of a standard container: an element with the key, the end if there is none. Used by Map.h lines 362-374. -/
def Seq.find {good : List (Node A B) → Prop} (S : Stl good) (s : Seq A B) (k : A) : Ptr :=
  let l := s.nodes.filter fun n => decide (n.key = k)
  ⟨(l[S.pick % l.length]?).map (·.id), s.gen⟩

/-- `Find`, Map.h lines 362-374. -/
def PMap.find {good : List (Node A B) → Prop} (S : Stl good) (x : PMap A B) (k : A) : It :=
  if x.isMulti = true then ⟨true, x.multi.find S k, x.single.last⟩ else ⟨false, x.multi.last, x.single.find S k⟩

/-- `erase(key)` of a standard container. Used by Map.h lines 383-392. -/
def Seq.eraseKey (s : Seq A B) (k : A) : Seq A B × Nat :=
  (⟨s.nodes.filter fun n => decide (n.key ≠ k), s.gen⟩, (s.nodes.filter fun n => decide (n.key = k)).length)

/-- `Erase(key)`, Map.h lines 383-392. -/
def PMap.eraseKey (x : PMap A B) (k : A) : PMap A B × Nat :=
  if x.isMulti = true then ({ x with multi := (x.multi.eraseKey k).1 }, (x.multi.eraseKey k).2)
  else ({ x with single := (x.single.eraseKey k).1 }, (x.single.eraseKey k).2)

/-- `erase(it)` of a standard container: the next element. Used by Map.h lines 401-413. -/
def Seq.eraseAt (s : Seq A B) (p : Ptr) : Option (Seq A B × Ptr) :=
  if p.gen ≠ s.gen then none else p.pos.bind fun i => (afterIn s.nodes i).map fun j => (⟨s.nodes.filter fun n => decide (n.id ≠ i), s.gen⟩, ⟨j, s.gen⟩)

/-- `Erase(iterator)`, Map.h lines 401-413. -/
def PMap.eraseAt (x : PMap A B) (a : It) : Option (PMap A B × It) :=
  if x.isMulti = true then (x.multi.eraseAt a.m).map fun r => ({ x with multi := r.1 }, ⟨true, r.2, x.single.last⟩)
  else (x.single.eraseAt a.s).map fun r => ({ x with single := r.1 }, ⟨false, x.multi.last, r.2⟩)

/-- `Clear`, Map.h lines 416-422. -/
def PMap.clear (x : PMap A B) : PMap A B :=
  if x.isMulti = true then { x with multi := ⟨[], x.multi.gen⟩ } else { x with single := ⟨[], x.single.gen⟩ }

/-- `Size`, Map.h lines 429-435. -/
def PMap.size (x : PMap A B) : Nat := if x.isMulti = true then x.multi.nodes.length else x.single.nodes.length

/-- `LowerBound`, Map.h lines 464-469. -/
def PMap.lowerBound (x : PMap A B) (k : A) : It := ⟨x.isMulti, x.multi.lowerBound k, x.single.lowerBound k⟩
/-- `UpperBound`, Map.h lines 479-484. -/
def PMap.upperBound (x : PMap A B) (k : A) : It := ⟨x.isMulti, x.multi.upperBound k, x.single.upperBound k⟩
/-- The map that the reverse iterators of `Rbegin` and `Rend` go through, see `Seq.rev`. Map.h lines 486-508. -/
def PMap.rev (x : PMap A B) : PMap A B := { x with multi := x.multi.rev, single := x.single.rev }
/-- `Rbegin`, Map.h lines 491-496. -/
def PMap.rbegin (x : PMap A B) : It := ⟨x.isMulti, x.multi.rev.first, x.single.rev.first⟩
/-- `Rend`, Map.h lines 503-508. -/
def PMap.rend (x : PMap A B) : It := ⟨x.isMulti, x.multi.rev.last, x.single.rev.last⟩

/-- The loop `for (it = a; it != b; ++it) use(*it)`: it ends without undefined behaviour after using exactly these entries. Specification, models no code. Such loops: Vault.hpp lines 503-517. -/
inductive Visits (x : PMap A B) : It → It → List (A × B) → Prop
  | done (a b) : a.ne b = false → Visits x a b []
  | next (a b a' e l) : a.ne b = true → x.deref a = some e → x.incr a = some a' → Visits x a' b l → Visits x a b (e :: l)

/-- Insertion into `std::map` / `std::multimap`: at the upper bound of the key. Standard library, used by Map.h lines 239-528. -/
def ordPut : List (Node A B) → Node A B → List (Node A B)
  | [], n => [n]
  | m :: l, n => if n.key < m.key then n :: m :: l else m :: ordPut l n

/-- Operations that change a map; the standard library makes its choices anew for each one. Map.h lines 319-332, 383-422. -/
inductive MOp (A B : Type)
  | emplace (k : A) (v : B)
  | eraseKey (k : A)
  | eraseAt (a : It)
  | clear

/-- One operation. Map.h lines 319-332, 383-422. -/
def PMap.step {good : List (Node A B) → Prop} (S : Stl good) (x : PMap A B) : MOp A B → Option (PMap A B)
  | .emplace k v => some (x.emplace S k v).1
  | .eraseKey k => some (x.eraseKey k).1
  | .eraseAt a => (x.eraseAt a).map (·.1)
  | .clear => some x.clear

/-- Maps that a program can produce. History of calls, models no single function: Map.h lines 319-332, 383-422. -/
inductive PMap.Reach (good : List (Node A B) → Prop) : PMap A B → Prop
  | init (b) : Reach good (.empty b)
  | step (S : Stl good) (x x' op) : Reach good x → x.step S op = some x' → Reach good x'

end
end MVault.Mp
