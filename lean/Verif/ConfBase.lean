import Verif.WorldTypes
import Mathlib.Order.Nat
/-
Validation of the world model against the unit tests of the project (/repo/Tests/UnitTests/*.cpp): a small script language into which
`conformance/gen.py` translates the tests; the translated tests are in `Conf1.lean` and following. These are tests of the model, not proofs of
properties.
-/
namespace MVault.Conf
open MVault.W

/-- Values in the translated tests: `8 * code + type`. Codes are numbers that `gen.py` gives to the values of a test in their order. -/
def TV := Nat
instance : LinearOrder TV := inferInstanceAs (LinearOrder Nat)
instance (n : Nat) : OfNat TV n := ⟨n⟩

/-- Types: 0 `int`, 1 `std::string`, 2 `std::size_t`, 3 `bool`, 4 `int64_t`, 5 `float`, 6 others. The number `n` has code `1000 + n`, booleans and strings have codes 0, 1, …. -/
instance : Typed TV (Fin 8) where
  typeOf v := ⟨(show Nat from v) % 8, Nat.mod_lt _ (by decide)⟩
  zero t := (if t = 1 ∨ t = 3 then t.val else 8000 + t.val : Nat)
  zero_ty t := by
    have : ∀ t : Fin 8, (⟨(if t = 1 ∨ t = 3 then t.val else 8000 + t.val : Nat) % 8, Nat.mod_lt _ (by decide)⟩ : Fin 8) = t := by decide
    exact this t

/-- Worlds and operations of the tests. -/
abbrev TW := World Nat TV (Fin 8)
abbrev TO := Op Nat TV (Fin 8)

/-- A statement of a test: `none` when the model says undefined behaviour or an assertion fails. -/
abbrev Stmt := Env → TW → Option TW

/-- A call whose result the test does not look at. -/
def op (o : TO) : Stmt := fun env w => step env w o
/-- A call that depends on the state (its predicate reads the records). -/
def opW (o : TW → TO) : Stmt := fun env w => step env w (o w)
/-- A call and the five fields of its result. -/
def resW (o : TW → TO) (ok : Bool) (code : Code) (key : Option Nat) (req saved : Option (Fin 8)) : Stmt := fun env w =>
  match outcome env w (o w) with
  | some (w', .res r) => if r = ⟨ok, code, key⟩ ∧ typesOf env w (o w) = ⟨req, saved⟩ then some w' else none
  | _ => none
/-- A call and the five fields of its result. -/
def res (o : TO) (ok : Bool) (code : Code) (key : Option Nat) (req saved : Option (Fin 8)) : Stmt := resW (fun _ => o) ok code key req saved
/-- A call and whether it succeeded (`bool` or the conversion of the result to `bool`). -/
def flag (o : TO) (b : Bool) : Stmt := fun env w =>
  match outcome env w o with
  | some (w', .res r) => if r.ok = b then some w' else none
  | some (w', .flag b') => if b' = b then some w' else none
  | _ => none
/-- An assertion. -/
def chk (p : TW → Bool) : Stmt := fun _ w => if p w then some w else none

/-- The object. -/
def obj (w : TW) (o : Nat) (f : Obj Nat TV (Fin 8) → Bool) : Bool := match w.getObj o with | some x => f x | none => false
/-- `Size() == n`. -/
def size (o n : Nat) : Stmt := chk fun w => obj w o fun x => x.recs.length == n
/-- `GetKeys() == l`; a detached set answers the empty list. -/
def keys (o : Nat) (l : List Nat) : Stmt := chk fun w => obj w o fun x => x.keysOrder == l
/-- `GetKeys().size() == n`. -/
def keysN (o n : Nat) : Stmt := chk fun w => obj w o fun x => x.keysOrder.length == n
/-- `GetUniqueKeys()` has `n` elements. -/
def uniqN (o n : Nat) : Stmt := chk fun w => obj w o fun x => x.uniq.length == n
/-- `GetUniqueKeys()` has exactly the elements `l`. -/
def uniq (o : Nat) (l : List Nat) : Stmt := chk fun w => obj w o fun x => x.uniq.isPerm l
/-- `IsKeyExist(k) == b`. -/
def keyExists (o k : Nat) (b : Bool) : Stmt := chk fun w => obj w o fun x => mhas x.cols k == b
/-- `GetIsParentVaultValid() == b`. -/
def parentValid (o : Nat) (b : Bool) : Stmt := chk fun w => obj w o fun x => x.parent.isSome == b

/-- The cell as `ToStrings` reads it. -/
def cell (w : TW) (r k : Nat) : Option TV := (w.getRec r).bind fun x => mget x.data k
/-- Insertion sort by key. -/
def ins {A : Type} (e : Nat × A) : List (Nat × A) → List (Nat × A)
  | [] => [e]
  | x :: l => if e.1 ≤ x.1 then e :: x :: l else x :: ins e l
/-- Insertion sort by key. -/
def srt {A : Type} (l : List (Nat × A)) : List (Nat × A) := l.foldr ins []
/-- The row of a record of an object, sorted by key. -/
def row (w : TW) (x : Obj Nat TV (Fin 8)) (r : Nat) : List (Nat × Option Nat) :=
  srt (x.keysOrder.map fun k => (k, (cell w r k : Option Nat)))
/-- `COMPARE_VAULT`. -/
def rows (o : Nat) (l : List (List (Nat × Nat))) : Stmt :=
  chk fun w => obj w o fun x => (x.recs.map (row w x)).isPerm (l.map fun r => srt (r.map fun e => (e.1, some e.2)))
/-- `COMPARE_REF`, reading through `GetData`. -/
def refRow (f : Nat) (l : List (Nat × Nat)) : Stmt := chk fun w => l.all fun e =>
  match refGetData w f e.1 (typeOf (show TV from e.2)) with
  | some (r, some v) => r.ok && decide (v = (show TV from e.2))
  | _ => false
/-- `IsValid() == b`. -/
def valid (f : Nat) (b : Bool) : Stmt := chk fun w => refIsValid w f == some b
/-- `(f == g) == b`. -/
def refsEq (f g : Nat) (b : Bool) : Stmt := chk fun w => refEq w f g == some b
/-- `(f != g) == b`. -/
def refsNe (f g : Nat) (b : Bool) : Stmt := chk fun w => refNe w f g == some b
/-- `GetRecordUniqueId() == "null"` is `b`. -/
def idNull (f : Nat) (b : Bool) : Stmt := chk fun w => (refId w f).map (·.isNone) == some b
/-- `(a == b) == e` of sets. -/
def setsEq (a b : Nat) (e : Bool) : Stmt := chk fun w => setEq w a b == some e
/-- `GetData` and its result; the value read. -/
def getData (f k : Nat) (t : Fin 8) (ok : Bool) (code : Code) (saved : Option (Fin 8)) (v : Option Nat) : Stmt := chk fun w =>
  match refGetData w f k t with
  | some (r, v') => decide (r = ⟨ok, code, some k⟩) && (match v with | none => true | some v => v' == some (show TV from v)) &&
      decide ((match w.refs[f]? with
        | some ⟨some r, some o⟩ => (match w.getRec r with | some x => if x.valid = false then none else keyTy w o k | none => none)
        | _ => none) = saved)
  | none => false
/-- `GetKeyValue` and its result; the value read. -/
def keyValue (o k : Nat) (t : Fin 8) (ok : Bool) (code : Code) (saved : Option (Fin 8)) (v : Option Nat) : Stmt := chk fun w =>
  match getKeyValue w o k t with
  | some (r, v') => decide (r = ⟨ok, code, some k⟩) && (match v with | none => true | some v => v' == some (show TV from v)) && decide (keyTy w o k = saved)
  | none => false
/-- `CheckRecord(ref) == b`, VaultRecordSet.cpp lines 231-242. -/
def has (o f : Nat) (b : Bool) : Stmt := chk fun w => obj w o fun x => match w.refs[f]? with
  | some ⟨some r, _⟩ => decide (r ∈ x.recs) == b
  | _ => b == false
/-- The last `n` reference variables are those that the call made; they are valid and their rows are `l` (in this order if `ord`). -/
def made (l : List (List (Nat × Nat))) (start : Nat) (ord : Bool) : Stmt := chk fun w =>
  let got := (w.refs.drop start).map fun f => match f.ptr with
    | some r => match l with
      | [] => []
      | e :: _ => e.map fun kv => (kv.1, ((cell w r kv.1).getD 0 : Nat))
    | none => []
  if ord then got == l else got.isPerm l

/-- What the program reads: the value written by the call, or the value the variable had. -/
def readIs (f : TW → Option (Res Nat × Option TV)) (init v : Nat) : Stmt := chk fun w => match f w with
  | some (_, some x) => x == (show TV from v)
  | some (_, none) => init == v
  | none => false
/-- The vector of references made by the last call has `n` elements. -/
def vecSize (start n : Nat) : Stmt := chk fun w => w.refs.length == start + n
/-- `GetKeyType(k, type) == b` with `type == t`. -/
def keyType (o k : Nat) (t : Option (Fin 8)) : Stmt := chk fun w => keyTy w o k == t
/-- The records `SortBy` shows to a function that always answers true have these values under `k`. -/
def sorted (o k : Nat) (rev : Bool) (n : Option Nat) (j : Nat) (l : List Nat) : Stmt := chk fun w =>
  obj w o fun x => (sortByCalls (fun _ => true) (sortedIds x k rev none) n).map (fun r => (cell w r j : Option Nat)) == l.map some

/-- A table: the functions given to `AddUniqueKey` in the tests. -/
def look2 (l : List (TV × TV)) (x : Option TV) : TV := ((l.find? fun e => some e.1 == x).map (·.2)).getD 0
/-- A table with a counter. -/
def look3 (l : List (TV × Nat × TV)) (x : Option TV) (c : Nat) : TV := ((l.find? fun e => some e.1 == x && e.2.1 == c).map (·.2.2)).getD 0

/-- Run a test. -/
def runT (env : Env) (l : List Stmt) : Bool := (l.foldl (fun w s => w.bind (s env)) (some World.empty)).isSome

end MVault.Conf
