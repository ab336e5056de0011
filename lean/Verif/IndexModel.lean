import Verif.PropsMap
/-
The two maps that a vault or a set keeps for one key (hash map and ordered map from values to records) and the loops over them in
`Vault.hpp`, statement by statement at the level of iterators. A loop is a big-step relation: it has a derivation only if it ends and
no statement of it is undefined (use of an iterator that is invalid, past the end, or of another map).
-/
namespace MVault.Ix
open MVault.Mp
variable {K V : Type} [LinearOrder V]

/-- `UnorderedMap<T, VaultRecord*>` and `Map<T, VaultRecord*>` of one key, Vault.hpp lines 347-361. Records are numbers. -/
structure Idx (V : Type) where
  hash : PMap V Nat
  ord : PMap V Nat

/-- The choices of a hash container: where elements go, which of several `find` returns; `equal_range` of a missing value is the pair (end, end). Map.h lines 511-528. -/
structure Hash (V : Type) [LinearOrder V] where
  stl : Stl (Grouped : List (Node V Nat) → Prop)
  miss : ∀ l k, (∀ n ∈ l, n.key ≠ k) → stl.eqr l k = (none, none)

/-- New maps, Vault.hpp lines 347-361. -/
def Idx.empty (multi : Bool) : Idx V := ⟨.empty multi, .empty multi⟩

/-- May the iterator be compared, that is: does it belong to the map and point to an element or to the end? Map.h lines 117-143. -/
def usable (x : PMap V Nat) (a : It) : Bool :=
  decide (a.isMulti = x.isMulti) && decide (a.act.gen = x.act.gen) &&
    (match a.act.pos with | none => true | some i => x.act.nodes.any fun n => decide (n.id = i))

/-- `a != b` (Map.h lines 117-123): undefined for iterators that may not be compared. -/
def differ (x : PMap V Nat) (a b : It) : Option Bool := if usable x a = true ∧ usable x b = true then some (a.ne b) else none

/-- Is the counter of a loop at its limit? `none` is the default amount, the greatest `size_t` (simplification: never reached). Vault.h line 160, Vault.hpp lines 128-269. -/
def atLimit (n : Option Nat) (counter : Nat) : Bool := match n with | none => false | some n => decide (counter ≥ n)

/-- The adder, Vault.hpp lines 442-459, for the value read from the record. -/
def Idx.add (S : Hash V) (x : Idx V) (v : V) (r : Nat) : Idx V × Bool :=
  let e := x.hash.emplace S.stl v r
  if e.2.2 = false then ({ x with hash := e.1 }, false) else (⟨e.1, (x.ord.emplace (ordStl 0) v r).1⟩, true)

/-- The clearer, Vault.hpp lines 462-467. -/
def Idx.clear (x : Idx V) : Idx V := ⟨x.hash.clear, x.ord.clear⟩

/-- The loop `for (it = a; it != b; ++it) if ((*it).second == record) { Erase(it); break; }`, Vault.hpp lines 479-487. -/
inductive EraseIt (x : PMap V Nat) (r : Nat) : It → It → PMap V Nat → Prop
  | done (a b) : differ x a b = some false → EraseIt x r a b x
  | hit (a b e y) : differ x a b = some true → x.deref a = some e → e.2 = r → x.eraseAt a = some y → EraseIt x r a b y.1
  | next (a b e a' y) : differ x a b = some true → x.deref a = some e → e.2 ≠ r → x.incr a = some a' → EraseIt x r a' b y → EraseIt x r a b y

/-- The loop `for (it = a; it != b; ++it) if ((*it).second == record) { Erase((*it).first); break; }`, Vault.hpp lines 75-84, 96-105, 491-499. -/
inductive EraseKeyOf (x : PMap V Nat) (r : Nat) : It → It → PMap V Nat → Prop
  | done (a b) : differ x a b = some false → EraseKeyOf x r a b x
  | hit (a b e) : differ x a b = some true → x.deref a = some e → e.2 = r → EraseKeyOf x r a b (x.eraseKey e.1).1
  | next (a b e a' y) : differ x a b = some true → x.deref a = some e → e.2 ≠ r → x.incr a = some a' → EraseKeyOf x r a' b y → EraseKeyOf x r a b y

/-- The eraser, Vault.hpp lines 470-501, for the value read from the record. -/
inductive Idx.Erase (S : Hash V) (x : Idx V) (v : V) (r : Nat) : Idx V → Prop
  | run (h o) : EraseIt x.hash r (x.hash.equalRange S.stl v).1 (x.hash.equalRange S.stl v).2 h →
      EraseKeyOf x.ord r (x.ord.equalRange (ordStl 0) v).1 (x.ord.equalRange (ordStl 0) v).2 o → Idx.Erase S x v r ⟨h, o⟩

/-- The index part of `SetDataToRecord`, Vault.hpp lines 56-110: `none` is the refusal of lines 66-72. -/
inductive Idx.Set (S : Hash V) (x : Idx V) (old new : V) (r : Nat) : Option (Idx V) → Prop
  | refused : x.hash.isMulti = false → differ x.hash (x.hash.equalRange S.stl old).1 x.hash.end_ = some true → Idx.Set S x old new r none
  | run (h o) : (x.hash.isMulti = true ∨ differ x.hash (x.hash.equalRange S.stl old).1 x.hash.end_ = some false) →
      EraseKeyOf x.hash r (x.hash.equalRange S.stl old).1 (x.hash.equalRange S.stl old).2 h →
      EraseKeyOf x.ord r (x.ord.equalRange (ordStl 0) old).1 (x.ord.equalRange (ordStl 0) old).2 o →
      Idx.Set S x old new r (some ⟨(h.emplace S.stl new r).1, (o.emplace (ordStl 0) new r).1⟩)

/-- The loop of a request: entries used, with the counter compared before each one. Vault.hpp lines 168-185, 243-258. -/
inductive Scan (x : PMap V Nat) (n : Option Nat) : It → It → Nat → List (V × Nat) → Prop
  | done (a b i) : differ x a b = some false → Scan x n a b i []
  | full (a b i) : differ x a b = some true → atLimit n i = true → Scan x n a b i []
  | next (a b i e a' l) : differ x a b = some true → atLimit n i = false → x.deref a = some e → x.incr a = some a' → Scan x n a' b (i + 1) l → Scan x n a b i (e :: l)

/-- Kinds of simple requests, VaultRequest.h. -/
inductive Kind | Equal | Greater | GreaterOrEqual | Less | LessOrEqual | Interval deriving DecidableEq

/-- The two iterators between which a request other than `Equal` runs, Vault.hpp lines 196-240. For `Equal` the code is another branch. -/
def Idx.bounds (x : Idx V) (t : Kind) (a b : V) (ia ib : Bool) : It × It :=
  match t with
  | .GreaterOrEqual => (x.ord.lowerBound a, x.ord.end_)
  | .Greater => (x.ord.upperBound a, x.ord.end_)
  | .Less => (x.ord.begin_, x.ord.lowerBound b)
  | .LessOrEqual => (x.ord.begin_, x.ord.upperBound a)
  | .Interval =>
    if b < a ∨ (a = b ∧ (ia = false ∨ ib = false)) then (x.ord.end_, x.ord.end_)
    else (if ia = true then x.ord.lowerBound a else x.ord.upperBound a, if ib = true then x.ord.upperBound b else x.ord.lowerBound b)
  | .Equal => (x.ord.end_, x.ord.end_)

/-- Entries visited by `RequestRecordsSet`, Vault.hpp lines 157-259. -/
inductive Idx.Request (S : Hash V) (x : Idx V) (t : Kind) (a b : V) (ia ib : Bool) (n : Option Nat) : List (V × Nat) → Prop
  | eqNone : t = .Equal → differ x.hash (x.hash.equalRange S.stl a).1 x.hash.end_ = some false → Idx.Request S x t a b ia ib n []
  | eq (l) : t = .Equal → differ x.hash (x.hash.equalRange S.stl a).1 x.hash.end_ = some true →
      Scan x.hash n (x.hash.equalRange S.stl a).1 (x.hash.equalRange S.stl a).2 0 l → Idx.Request S x t a b ia ib n l
  | ord (l) : t ≠ .Equal → Scan x.ord n (x.bounds t a b ia ib).1 (x.bounds t a b ia ib).2 0 l → Idx.Request S x t a b ia ib n l

/-- The record found by `GetRecord` and `EraseRecord`, Vault.hpp lines 708-723, 974-1002: `none` is WrongValue. -/
inductive Idx.GetOne (S : Hash V) (x : Idx V) (v : V) : Option Nat → Prop
  | found (e) : differ x.hash (x.hash.find S.stl v) x.hash.end_ = some true → x.hash.deref (x.hash.find S.stl v) = some e → Idx.GetOne S x v (some e.2)
  | none : differ x.hash (x.hash.find S.stl v) x.hash.end_ = some false → Idx.GetOne S x v none

/-- The loop of `GetRecords`, Vault.hpp lines 769-776: the counter is compared after each entry. -/
inductive Collect (x : PMap V Nat) (n : Nat) : It → It → Nat → List Nat → Prop
  | done (a b i) : differ x a b = some false → Collect x n a b i []
  | full (a b i e) : differ x a b = some true → x.deref a = some e → i + 1 ≥ n → Collect x n a b i [e.2]
  | next (a b i e a' l) : differ x a b = some true → x.deref a = some e → i + 1 < n → x.incr a = some a' → Collect x n a' b (i + 1) l → Collect x n a b i (e.2 :: l)

/-- `GetRecords`, Vault.hpp lines 764-788: `none` is WrongValue. -/
inductive Idx.GetMany (S : Hash V) (x : Idx V) (v : V) (n : Nat) : Option (List Nat) → Prop
  | found (l) : differ x.hash (x.hash.equalRange S.stl v).1 x.hash.end_ = some true →
      Collect x.hash n (x.hash.equalRange S.stl v).1 (x.hash.equalRange S.stl v).2 0 l → Idx.GetMany S x v n (some l)
  | none : differ x.hash (x.hash.equalRange S.stl v).1 x.hash.end_ = some false → Idx.GetMany S x v n none

/-- The loop of a sorter, Vault.hpp lines 503-517: records given to the callback, until it answers false. The callback may depend on the
records it has seen (`seen`, the last one first). `x` is the map, or the reversed one. -/
inductive SortLoop (x : PMap V Nat) (f : List Nat → Nat → Bool) : It → It → List Nat → List Nat → Prop
  | done (a b s) : differ x a b = some false → SortLoop x f a b s []
  | stop (a b s e) : differ x a b = some true → x.deref a = some e → f s e.2 = false → SortLoop x f a b s [e.2]
  | next (a b s e a' l) : differ x a b = some true → x.deref a = some e → f s e.2 = true → x.incr a = some a' → SortLoop x f a' b (e.2 :: s) l → SortLoop x f a b s (e.2 :: l)

/-- All erasers for one record (Vault.hpp lines 986-987, 1061-1062, Vault.cpp lines 15-16); `val k` is the value of key `k` in the record. -/
inductive EraseAll (S : Hash V) (val : K → V) (r : Nat) : List (K × Idx V) → List (K × Idx V) → Prop
  | nil : EraseAll S val r [] []
  | cons (k x x' l l') : x.Erase S (val k) r x' → EraseAll S val r l l' → EraseAll S val r ((k, x) :: l) ((k, x') :: l')

/-- The maps of a key. Vault.h lines 49, 61. -/
def look [DecidableEq K] : List (K × Idx V) → K → Option (Idx V)
  | [], _ => none
  | (k', x) :: l, k => if k' = k then some x else look l k

/-- The loop of `EraseRecords`, Vault.hpp lines 1046-1078, over the equal range in the hash map of key `k`; each record found is erased from
the maps of all keys. The list holds the records erased, in order. `val r` are the values of record `r`. -/
inductive EraseMany [DecidableEq K] (S : Hash V) (val : Nat → K → V) (k : K) (n : Nat) :
    List (K × Idx V) → It → It → Nat → List Nat → List (K × Idx V) → Prop
  | done (m x a b i) : look m k = some x → differ x.hash a b = some false → EraseMany S val k n m a b i [] m
  | full (m m' x a b i e a') : look m k = some x → differ x.hash a b = some true → x.hash.incr a = some a' → x.hash.deref a = some e →
      EraseAll S (val e.2) e.2 m m' → i + 1 ≥ n → EraseMany S val k n m a b i [e.2] m'
  | next (m m' m'' x a b i e a' l) : look m k = some x → differ x.hash a b = some true → x.hash.incr a = some a' → x.hash.deref a = some e →
      EraseAll S (val e.2) e.2 m m' → i + 1 < n → EraseMany S val k n m' a' b (i + 1) l m'' → EraseMany S val k n m a b i (e.2 :: l) m''

/-- Operations that change the two maps of a key. Vault.hpp lines 56-110, 442-501. -/
inductive IOp (V : Type)
  | add (v : V) (r : Nat) | erase (v : V) (r : Nat) | set (old new : V) (r : Nat) | clear

/-- One operation. Vault.hpp lines 56-110, 442-501. -/
inductive IStep (S : Hash V) (x : Idx V) : IOp V → Idx V → Prop
  | add (v r) : IStep S x (.add v r) (x.add S v r).1
  | erase (v r x') : x.Erase S v r x' → IStep S x (.erase v r) x'
  | set (old new r x') : x.Set S old new r (some x') → IStep S x (.set old new r) x'
  | refused (old new r) : x.Set S old new r none → IStep S x (.set old new r) x
  | clear : IStep S x .clear x.clear

/-- Maps of a key after any operations with any values and records; the hash map chooses its order anew each time. History of calls, models no single function: Vault.hpp lines 56-110, 442-501. -/
inductive IReach (multi : Bool) : Idx V → Prop
  | init : IReach multi (.empty multi)
  | step (S : Hash V) (x op x') : IReach multi x → IStep S x op x' → IReach multi x'

/-- Two maps that a program can produce, each by any operations of its own, both of the same kind (more general than `IReach`). Map.h lines 239-251. -/
structure Maps (multi : Bool) (x : Idx V) : Prop where
  hash : PMap.Reach Grouped x.hash
  ord : PMap.Reach Sorted x.ord
  kindH : x.hash.isMulti = multi
  kindO : x.ord.isMulti = multi

end MVault.Ix
