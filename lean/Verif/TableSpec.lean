import Verif.WorldOut
import Verif.WorldCreate
/-
What a vault is to its user: a table. This file is a specification and models no code; nothing here mentions records' memory, indices,
sets or references. The state of the specification is one table per live vault variable, and every call of the library on a vault is one
step on its table, with the answer the call returns. `C79_refines` (PropsTable.lean) proves that the model of the code does only such steps.
-/
set_option linter.unusedSectionVars false
namespace MVault.Spec
open MVault.W (Res Code Answer Typed typeOf zero castTo lastParam)
open Classical
variable {K V Ty : Type} [LinearOrder K] [LinearOrder V] [Typed V Ty] [DecidableEq Ty]

/-- One vault. `seen false k r`: searches for a value of key `k` (GetRecord, GetRecords, EraseRecord, EraseRecords, RequestEqual) find row `r`;
`seen true k r`: range requests and sorting on key `k` find row `r`. (A perfect library would find every row. This one loses some, and
`setCell` and `erase` say exactly which.) -/
@[ext] structure Table (K V Ty : Type) where
  /-- the keys in the order `GetKeys` gives -/
  keys : List K
  /-- unique keys -/
  uniq : K → Prop
  /-- the types of the keys -/
  ty : K → Option Ty
  /-- the values new rows get -/
  dflt : K → Option V
  /-- for keys that are not unique: the default they were added with (a copy of the vault starts with it again) -/
  first : K → Option V
  /-- the rows, each with its identity -/
  row : Nat → Prop
  /-- the value of a row for a key -/
  cell : Nat → K → Option V
  seen : Bool → K → Nat → Prop

namespace Table

/-- A vault without keys and rows. -/
def empty : Table K V Ty :=
  ⟨[], fun _ => False, fun _ => none, fun _ => none, fun _ => none, fun _ => False, fun _ _ => none, fun _ _ _ => False⟩

/-- Why a value given for a key is refused, if it is. -/
def bad (t : Table K V Ty) (k : K) (v : V) : Option Code :=
  match t.ty k with
  | none => some .WrongKey
  | some ty => if ty = typeOf v then none else some .WrongType

/-- A new key: last in the list; row `r` gets the value `val r`; all rows are found. -/
noncomputable def addKey (t : Table K V Ty) (k : K) (unique : Bool) (ty : Ty) (d : V) (val : Nat → V) : Table K V Ty where
  keys := t.keys ++ [k]
  uniq k' := t.uniq k' ∨ (k' = k ∧ unique = true)
  ty k' := if k' = k then some ty else t.ty k'
  dflt k' := if k' = k then some d else t.dflt k'
  first k' := if k' = k then (if unique = true then none else some d) else t.first k'
  row := t.row
  cell r k' := if k' = k then (if t.row r then some (val r) else none) else t.cell r k'
  seen b k' r := if k' = k then t.row r else t.seen b k' r

/-- A new default for a key. -/
def setDefault (t : Table K V Ty) (k : K) (d : V) : Table K V Ty := { t with dflt := fun k' => if k' = k then some d else t.dflt k' }

/-- A key less. -/
def removeKey (t : Table K V Ty) (k : K) : Table K V Ty where
  keys := t.keys.erase k
  uniq k' := t.uniq k' ∧ k' ≠ k
  ty k' := if k' = k then none else t.ty k'
  dflt k' := if k' = k then none else t.dflt k'
  first k' := if k' = k then none else t.first k'
  row := t.row
  cell r k' := if k' = k then none else t.cell r k'
  seen b k' r := k' ≠ k ∧ t.seen b k' r

/-- The value a new row gets: the last one given, otherwise the default. -/
def newValue (t : Table K V Ty) (ps : List (K × V)) (k : K) : Option V :=
  match lastParam ps k with
  | some v => some v
  | none => t.dflt k

/-- A new row `r`; it is found under every key. -/
noncomputable def addRow (t : Table K V Ty) (r : Nat) (ps : List (K × V)) : Table K V Ty where
  keys := t.keys
  uniq := t.uniq
  ty := t.ty
  dflt := t.dflt
  first := t.first
  row r' := t.row r' ∨ r' = r
  cell r' k := if r' = r then t.newValue ps k else t.cell r' k
  seen b k r' := t.seen b k r' ∨ (r' = r ∧ k ∈ t.keys)

/-- The first refused parameter. -/
def firstBad (t : Table K V Ty) (ps : List (K × V)) : Option (Code × K) := ps.findSome? fun p => (t.bad p.1 p.2).map fun c => (c, p.1)

/-- Some row already holds the value the new row would get. -/
def clash (t : Table K V Ty) (ps : List (K × V)) (k : K) : Prop := ∃ r, t.row r ∧ t.cell r k = t.newValue ps k

/-- A new value in one cell. The written row is found under the key from now on; but if it was found before, the other rows that hold its
old value are lost. -/
noncomputable def setCell (t : Table K V Ty) (r : Nat) (k : K) (v : V) : Table K V Ty :=
  { t with
    cell := fun r' k' => if r' = r ∧ k' = k then some v else t.cell r' k'
    seen := fun b k' r' => if k' = k then r' = r ∨ (t.seen b k r' ∧ ¬ (t.seen b k r ∧ t.cell r' k = t.cell r k)) else t.seen b k' r' }

/-- The rows `l` are gone. Searches for a value still find what they found; range requests and sorting lose the rows that
share their value with a row that was erased and found. -/
noncomputable def erase (t : Table K V Ty) (l : Nat → Prop) : Table K V Ty :=
  { t with
    row := fun r => t.row r ∧ ¬ l r
    cell := fun r k => if l r then none else t.cell r k
    seen := fun b k r => ¬ l r ∧ t.seen b k r ∧ (b = true → ∀ r0, l r0 → t.cell r0 k = t.cell r k → ¬ t.seen true k r0) }

/-- `SetData` on a row (`none`: a reference to no row): answer and table afterwards. Values of unique keys are never changed. -/
noncomputable def set (t : Table K V Ty) (r : Option Nat) (k : K) (v : V) : Res K × Table K V Ty :=
  match r with
  | none => (.bad .DataRecordNotValid (some k), t)
  | some r =>
    if ¬ t.row r then (.bad .DataRecordNotValid (some k), t)
    else match t.bad k v with
      | some c => (.bad c (some k), t)
      | none => if t.uniq k then (.bad .UniqueKeyValueAlredyInSet (some k), t) else (.good (some k), t.setCell r k v)

/-- `SetData` with several values: one after the other, up to the first that is refused. -/
noncomputable def setMany (r : Option Nat) : List (K × V) → Res K → Table K V Ty → Res K × Table K V Ty
  | [], res, t => (res, t)
  | p :: ps, _, t => if (t.set r p.1 p.2).1.ok = false then t.set r p.1 p.2 else setMany r ps (t.set r p.1 p.2).1 (t.set r p.1 p.2).2

/-- What searches for value `v` of key `k` find. -/
def hits (t : Table K V Ty) (k : K) (v : V) (r : Nat) : Prop := t.row r ∧ t.cell r k = some v ∧ t.seen false k r

/-- `t'` is a copy of `t`, which has no unique keys, with new rows: the same keys; the defaults are the ones the keys were added with; every row
of `t` has one copy with the same values; everything is found. -/
def Copy (fresh : Nat → Prop) (t t' : Table K V Ty) : Prop :=
  (∀ k, ¬ t.uniq k) ∧ ∃ m : Nat → Nat, (∀ r, t.row r → fresh (m r)) ∧ (∀ r r', t.row r → t.row r' → m r = m r' → r = r') ∧
    t'.keys = t.keys ∧ t'.uniq = t.uniq ∧ t'.ty = t.ty ∧ t'.dflt = t.first ∧ t'.first = t.first ∧
    (∀ r', t'.row r' ↔ ∃ r, t.row r ∧ r' = m r) ∧ (∀ r, t.row r → ∀ k, t'.cell (m r) k = t.cell r k) ∧
    (∀ r', ¬ t'.row r' → ∀ k, t'.cell r' k = none) ∧ ∀ b k r', t'.seen b k r' ↔ k ∈ t.keys ∧ t'.row r'

end Table

/-- The calls on one vault. -/
inductive Cmd (K V Ty : Type)
  | addKey (k : K) (d : V)
  | addUniqueKey (k : K) (ty : Ty) (noFn : Bool) (f : Nat → Nat → V)
  | updateKey (k : K) (d : V)
  | removeKey (k : K)
  | create (ps : List (K × V))
  | set (r : Option Nat) (k : K) (v : V)
  | setMany (r : Option Nat) (ps : List (K × V))
  | find (k : K) (v : V)
  | eraseRow (r : Option Nat)
  | eraseOne (k : K) (v : V)
  | eraseMany (k : K) (v : V) (n : Nat)
  | dropData
  | dropVault

/-- One call on a vault: table before, call, answer, table afterwards. `fresh`: identities no row of any vault has. -/
def Table.Step (fresh : Nat → Prop) (t : Table K V Ty) : Cmd K V Ty → Answer K → Table K V Ty → Prop
  | .addKey k d, a, t' =>
    (k ∈ t.keys ∧ a = .res (.bad .DuplicateKey (some k)) ∧ t' = t) ∨
    (k ∉ t.keys ∧ a = .res (.good (some k)) ∧ t' = t.addKey k false (typeOf d) d (fun _ => d))
  | .addUniqueKey k ty noFn f, a, t' =>
    (k ∈ t.keys ∧ a = .res (.bad .DuplicateKey (some k)) ∧ t' = t) ∨
    (k ∉ t.keys ∧ noFn = true ∧ (∃ r, t.row r) ∧ a = .res (.bad .TryToAddUniqueKeyInNonEmptyVaultWithoutLambda (some k)) ∧ t' = t) ∨
    (k ∉ t.keys ∧ (noFn = true → ∀ r, ¬ t.row r) ∧ ∃ order : List Nat, order.Nodup ∧ (∀ r, r ∈ order ↔ t.row r) ∧
      ((∃ r r', t.row r ∧ t.row r' ∧ r ≠ r' ∧ castTo ty (f (order.idxOf r) r) = castTo ty (f (order.idxOf r') r') ∧
        a = .res (.bad .UniqueKeyValueAlredyInSet (some k)) ∧ t' = t) ∨
       ((∀ r r', t.row r → t.row r' → r ≠ r' → castTo ty (f (order.idxOf r) r) ≠ castTo ty (f (order.idxOf r') r')) ∧
        a = .res (.good (some k)) ∧ t' = t.addKey k true ty (zero ty) (fun r => castTo ty (f (order.idxOf r) r)))))
  | .updateKey k d, a, t' =>
    match t.bad k d with
    | some c => a = .res (.bad c (some k)) ∧ t' = t
    | none => (t.uniq k ∧ a = .res (.bad .UniqueKey (some k)) ∧ t' = t) ∨ (¬ t.uniq k ∧ a = .res (.good (some k)) ∧ t' = t.setDefault k d)
  | .removeKey k, a, t' => (k ∉ t.keys ∧ a = .flag false ∧ t' = t) ∨ (k ∈ t.keys ∧ a = .flag true ∧ t' = t.removeKey k)
  | .create ps, a, t' =>
    match t.firstBad ps with
    | some (c, k) => a = .res (.bad c (some k)) ∧ t' = t
    | none =>
      (∃ k, t.uniq k ∧ t.clash ps k ∧ (∀ k', t.uniq k' → k' < k → ¬ t.clash ps k') ∧
        a = .res (.bad .UniqueKeyValueAlredyInSet (some k)) ∧ t' = t) ∨
      ((∀ k, t.uniq k → ¬ t.clash ps k) ∧ ∃ r, fresh r ∧ a = .res (.good (ps.getLast?.map (·.1))) ∧ t' = t.addRow r ps)
  | .set r k v, a, t' => a = .res (t.set r k v).1 ∧ t' = (t.set r k v).2
  | .setMany r ps, a, t' => a = .res (Table.setMany r ps ⟨true, .Idle, none⟩ t).1 ∧ t' = (Table.setMany r ps ⟨true, .Idle, none⟩ t).2
  | .find k v, a, t' => t' = t ∧
    match t.bad k v with
    | some c => a = .res (.bad c (some k))
    | none => ((∃ r, t.hits k v r) ∧ a = .res (.good (some k))) ∨ ((¬ ∃ r, t.hits k v r) ∧ a = .res (.bad .WrongValue (some k)))
  | .eraseRow r, a, t' =>
    (∃ r', r = some r' ∧ t.row r' ∧ a = .flag true ∧ t' = t.erase (fun r => r = r')) ∨
    ((∀ r', r = some r' → ¬ t.row r') ∧ a = .flag false ∧ t' = t)
  | .eraseOne k v, a, t' =>
    match t.bad k v with
    | some c => a = .res (.bad c (some k)) ∧ t' = t
    | none => (∃ r, t.hits k v r ∧ a = .res (.good (some k)) ∧ t' = t.erase (fun r' => r' = r)) ∨
      ((¬ ∃ r, t.hits k v r) ∧ a = .res (.bad .WrongValue (some k)) ∧ t' = t)
  | .eraseMany k v n, a, t' =>
    match t.bad k v with
    | some c => a = .res (.bad c (some k)) ∧ t' = t
    | none => (∃ l : List Nat, l ≠ [] ∧ l.Nodup ∧ (∀ r ∈ l, t.hits k v r) ∧ l.length ≤ max n 1 ∧ (l.length = max n 1 ∨ ∀ r, t.hits k v r → r ∈ l) ∧
        a = .res (.good (some k)) ∧ t' = t.erase (· ∈ l)) ∨
      ((¬ ∃ r, t.hits k v r) ∧ a = .res (.bad .WrongValue (some k)) ∧ t' = t)
  | .dropData, a, t' => a = .unit ∧ t' = t.erase t.row
  | .dropVault, a, t' => a = .unit ∧ t' = .empty

/-- All live vault variables. -/
abbrev Db (K V Ty : Type) := Nat → Option (Table K V Ty)

/-- No vault. -/
def Db.empty : Db K V Ty := fun _ => none

/-- Vault variable `o` holds `t`. -/
def Db.put (db : Db K V Ty) (o : Nat) (t : Option (Table K V Ty)) : Db K V Ty := fun o' => if o' = o then t else db o'

/-- No row of any vault has this identity. -/
def Db.fresh (db : Db K V Ty) (r : Nat) : Prop := ∀ o t, db o = some t → ¬ t.row r

/-- The calls, as far as they concern vaults. -/
inductive Event (K V Ty : Type)
  /-- a call on one vault -/
  | on (o : Nat) (c : Cmd K V Ty)
  /-- constructor and destructor -/
  | new (o : Nat) | gone (o : Nat)
  /-- copy constructor and copy assignment (to `o`, from `a`) -/
  | copyNew (o a : Nat) | assign (o a : Nat)
  /-- move constructor and move assignment (to `o`, from `a`) -/
  | moveNew (o a : Nat) | moveAssign (o a : Nat)
  /-- anything else: sets, references, requests -/
  | other

/-- One call: vaults before, call, answer, vaults afterwards. -/
def Db.Step (db : Db K V Ty) : Event K V Ty → Answer K → Db K V Ty → Prop
  | .on o c, a, db' => ∃ t t', db o = some t ∧ t.Step db.fresh c a t' ∧ db' = db.put o (some t')
  | .new o, _, db' => db o = none ∧ db' = db.put o (some .empty)
  | .gone o, _, db' => (∃ t, db o = some t) ∧ db' = db.put o none
  | .copyNew o a, _, db' => ∃ t t', db o = none ∧ db a = some t ∧ t.Copy db.fresh t' ∧ db' = db.put o (some t')
  | .assign o a, _, db' => (o = a ∧ db' = db) ∨
      ∃ t t', o ≠ a ∧ (∃ old, db o = some old) ∧ db a = some t ∧ t.Copy db.fresh t' ∧ db' = db.put o (some t')
  | .moveNew o a, _, db' => ∃ t, db o = none ∧ db a = some t ∧ db' = (db.put o (some t)).put a (some .empty)
  | .moveAssign o a, _, db' => (o = a ∧ db' = db) ∨
      ∃ t, o ≠ a ∧ (∃ old, db o = some old) ∧ db a = some t ∧ db' = (db.put o (some t)).put a (some .empty)
  | .other, _, db' => db' = db

/-- A whole run, last call first: the calls with their answers, and the vaults at the end. -/
inductive Db.Run : List (Event K V Ty × Answer K) → Db K V Ty → Prop
  | init : Db.Run [] Db.empty
  | step (l : List (Event K V Ty × Answer K)) (db db' : Db K V Ty) (e : Event K V Ty) (a : Answer K) :
      Db.Run l db → Db.Step db e a db' → Db.Run ((e, a) :: l) db'

end MVault.Spec
