import Verif.TableSpec
import Verif.WorldAsk
/-
What a set is to its user: a window on the table of its vault. This file is a specification and models no code. A set variable belongs to
no vault, or to one vault; then it shows some rows of that vault, with the keys, types and values of the vault. Like a vault, a set may fail
to find some of its rows. Every call of the library is one step on the vaults and the sets together. `C83_refines` (PropsWindow.lean) proves
that the model of the code does only such steps, in careful use.
-/
set_option linter.unusedSectionVars false
namespace MVault.Spec
open MVault.W (Res Code Answer Typed typeOf zero castTo Cond Req leafCond)
open Classical
variable {K V Ty : Type} [LinearOrder K] [LinearOrder V] [Typed V Ty] [DecidableEq Ty]

/-- The rows `row` of a table, seen through indices of their own. -/
noncomputable def Table.window (t : Table K V Ty) (row : Nat → Prop) (seen : Bool → K → Nat → Prop) : Table K V Ty where
  keys := t.keys
  uniq := t.uniq
  ty := t.ty
  dflt _ := none
  first _ := none
  row := row
  cell r k := if row r then t.cell r k else none
  seen := seen

/-- A set variable. -/
@[ext] structure SetVar (K : Type) where
  /-- the vault it belongs to -/
  vault : Option Nat
  /-- the rows it shows -/
  row : Nat → Prop
  /-- under key `k` row `r` is found: as in `Table.seen` -/
  seen : Bool → K → Nat → Prop

namespace SetVar

/-- A set that belongs to no vault. -/
def free : SetVar K := ⟨none, fun _ => False, fun _ _ _ => False⟩

/-- What the set shows when its vault is `t`. -/
noncomputable def on (s : SetVar K) (t : Table K V Ty) : Table K V Ty := t.window s.row s.seen

/-- The set that shows the rows of `t`, and finds what is found in `t`. -/
def take (s : SetVar K) (t : Table K V Ty) : SetVar K := ⟨s.vault, t.row, t.seen⟩

/-- A set of vault `p`, which is `t`, that shows the rows `row` and finds all of them. -/
def fill (p : Nat) (t : Table K V Ty) (row : Nat → Prop) : SetVar K := ⟨some p, row, fun _ k r => k ∈ t.keys ∧ row r⟩

/-- What a call on its vault makes of the set: the same as of the vault, restricted to the rows of the set. `t`, `t'`: the vault before and
afterwards. -/
noncomputable def after (s : SetVar K) (t t' : Table K V Ty) : Cmd K V Ty → SetVar K
  | .addKey k d => if k ∈ t.keys then s else s.take ((s.on t).addKey k false (typeOf d) d (fun _ => d))
  | .addUniqueKey k ty _ _ => if k ∈ t.keys ∨ k ∉ t'.keys then s else s.take ((s.on t).addKey k true ty (zero ty) (fun _ => zero ty))
  | .removeKey k => s.take ((s.on t).removeKey k)
  | .set r k v => s.take ((s.on t).set r k v).2
  | .setMany r ps => s.take (Table.setMany r ps ⟨true, .Idle, none⟩ (s.on t)).2
  | .eraseRow _ | .eraseOne _ _ | .eraseMany _ _ _ | .dropData => s.take ((s.on t).erase fun r => t.row r ∧ ¬ t'.row r)
  | .dropVault => free
  | .updateKey _ _ | .create _ | .find _ _ => s

/-- What a call on the vaults makes of the set. -/
noncomputable def follow (s : SetVar K) (db db' : Db K V Ty) : Event K V Ty → SetVar K
  | .on p c => match db p, db' p with
    | some t, some t' => if s.vault = some p then s.after t t' c else s
    | _, _ => s
  | .gone p => if s.vault = some p then free else s
  | .assign p a | .moveAssign p a => if s.vault = some p ∧ p ≠ a then free else s
  | _ => s

end SetVar

/-- All live vault and set variables. -/
@[ext] structure State (K V Ty : Type) where
  vaults : Db K V Ty
  sets : Nat → Option (SetVar K)

namespace State

/-- No vault and no set. -/
def empty : State K V Ty := ⟨Db.empty, fun _ => none⟩

/-- Set variable `s` is `x`. -/
def put (st : State K V Ty) (s : Nat) (x : Option (SetVar K)) : State K V Ty := ⟨st.vaults, fun s' => if s' = s then x else st.sets s'⟩

/-- What can be searched under the variable `o`: a vault, or what a set shows of its vault; with the vault. -/
noncomputable def source (st : State K V Ty) (o : Nat) : Option (Nat × Table K V Ty) :=
  match st.vaults o with
  | some t => some (o, t)
  | none => match st.sets o with
    | some s => s.vault.bind fun p => (st.vaults p).map fun t => (p, s.on t)
    | none => none

/-- The row is in some vault. -/
def alive (st : State K V Ty) (r : Nat) : Prop := ∃ o t, st.vaults o = some t ∧ t.row r

end State

/-- A row the simple request finds. -/
def Table.finds (t : Table K V Ty) (k : K) (c : Cond V) (r : Nat) : Prop :=
  t.row r ∧ (∃ v, t.cell r k = some v ∧ c.holds v) ∧ t.seen c.ordered k r

/-- A row a request tree finds. -/
def Table.meets (t : Table K V Ty) : Req K V → Nat → Prop
  | .leaf ty k v pred, r => t.finds k (leafCond ty v) r ∧ pred r = true
  | .and a b, r => t.meets a r ∧ t.meets b r
  | .or a b, r => t.meets a r ∨ t.meets b r

/-- The keys and values of a request tree, from left to right. -/
def leaves : Req K V → List (K × V)
  | .leaf _ k v _ => [(k, v)]
  | .and a b => leaves a ++ leaves b
  | .or a b => leaves a ++ leaves b

/-- The first value of a condition: it says which type is meant. -/
def arg : Cond V → V
  | .eq v | .gt v | .ge v | .lt v | .le v | .between v _ _ _ => v

/-- At most `n` of the rows `p` (all, when there is no bound). -/
def UpTo (n : Option Nat) (p : Nat → Prop) (l : List Nat) : Prop :=
  l.Nodup ∧ (∀ r ∈ l, p r) ∧ match n with
    | none => ∀ r, p r → r ∈ l
    | some n => l.length ≤ n ∧ (l.length = n ∨ ∀ r, p r → r ∈ l)

/-- The calls. -/
inductive Call (K V Ty : Type)
  /-- a call on vaults, or on references, or a search that changes nothing -/
  | vault (e : Event K V Ty)
  /-- constructor and destructor of a set -/
  | new (s : Nat) | gone (s : Nat)
  /-- `Request...`: the rows of `o` whose value for `k` satisfies `c`, at most `n`, and of these the ones with `pred`, into the set `s` -/
  | ask (o : Nat) (k : K) (c : Cond V) (n : Option Nat) (pred : Nat → Bool) (s : Nat)
  /-- `Request` with a tree -/
  | tree (o : Nat) (q : Req K V) (s : Nat)
  /-- `AddRecord` with a reference that works through `p` and points at `r` -/
  | add (s : Nat) (p r : Option Nat)
  | clear (s : Nat) | reset (s : Nat)
  /-- copy constructor and copy assignment (to `s`, from `a`) -/
  | copyNew (s a : Nat) | assign (s a : Nat)
  /-- `GetRecord` and `GetRecords` on a set -/
  | find (s : Nat) (k : K) (v : V)

/-- One call: vaults and sets before, call, answer, vaults and sets afterwards. -/
def State.Step (st : State K V Ty) : Call K V Ty → Answer K → State K V Ty → Prop
  | .vault e, a, st' => st.vaults.Step e a st'.vaults ∧ ∀ s, st'.sets s = (st.sets s).map fun x => x.follow st.vaults st'.vaults e
  | .new s, a, st' => st.sets s = none ∧ a = .unit ∧ st' = st.put s (some .free)
  | .gone s, a, st' => (∃ x, st.sets s = some x) ∧ a = .unit ∧ st' = st.put s none
  | .ask o k c n pred s, a, st' => (∃ x, st.sets s = some x) ∧
    match st.source o with
    | none => a = .res (.bad .ParentVaultNotValid (some k)) ∧ st' = st
    | some (p, t) =>
      if o = s then a = .res (.bad .SameVaultRecordSet (some k)) ∧ st' = st
      else match t.bad k (arg c) with
        | some code => a = .res (.bad code (some k)) ∧ st' = st.put s (some (.fill p t fun _ => False))
        | none => ∃ l, UpTo n (t.finds k c) l ∧ a = .res (.good (some k)) ∧ st' = st.put s (some (.fill p t fun r => r ∈ l ∧ pred r = true))
  | .tree o q s, a, st' => (∃ x, st.sets s = some x) ∧
    match st.source o with
    | none => a = .res (.bad .ParentVaultNotValid none) ∧ st' = st
    | some (p, t) =>
      if o = s then a = .res (.bad .SameVaultRecordSet none) ∧ st' = st
      else match t.firstBad (leaves q) with
        | some (code, k) => a = .res (.bad code (some k)) ∧ st' = st.put s (some (.fill p t fun _ => False))
        | none => a = .res (.good none) ∧ st' = st.put s (some (.fill p t (t.meets q)))
  | .add s p r, a, st' => ∃ x, st.sets s = some x ∧
    ((x.vault = none ∧ a = .res (.bad .ParentVaultNotValid none) ∧ st' = st) ∨
     (x.vault ≠ none ∧ (∀ r', r = some r' → ¬ st.alive r') ∧ a = .res (.bad .DataRecordNotValid none) ∧ st' = st) ∨
     (x.vault ≠ none ∧ (∃ r', r = some r' ∧ st.alive r') ∧ p ≠ x.vault ∧ a = .res (.bad .ParentVaultNotMatch none) ∧ st' = st) ∨
     (∃ r', r = some r' ∧ st.alive r' ∧ p = x.vault ∧ x.vault ≠ none ∧ x.row r' ∧ a = .res (.bad .RecordAlredyInSet none) ∧ st' = st) ∨
     (∃ r' q t, r = some r' ∧ p = some q ∧ x.vault = some q ∧ st.vaults q = some t ∧ t.row r' ∧ ¬ x.row r' ∧ a = .res (.good none) ∧
       st' = st.put s (some ⟨some q, fun r => x.row r ∨ r = r', fun b k r => x.seen b k r ∨ (k ∈ t.keys ∧ r = r')⟩)))
  | .clear s, a, st' => ∃ x, st.sets s = some x ∧ a = .unit ∧ st' = st.put s (some ⟨x.vault, fun _ => False, fun _ _ _ => False⟩)
  | .reset s, a, st' => (∃ x, st.sets s = some x) ∧ a = .unit ∧ st' = st.put s (some .free)
  | .copyNew s b, a, st' => st.sets s = none ∧ a = .unit ∧ ∃ x p t, st.sets b = some x ∧ x.vault = some p ∧ st.vaults p = some t ∧
      st' = st.put s (some (.fill p t x.row))
  | .assign s b, a, st' => (∃ y, st.sets s = some y) ∧ a = .unit ∧ ∃ x, st.sets b = some x ∧
      ((s = b ∧ st' = st) ∨ (s ≠ b ∧ x.vault = none ∧ st' = st.put s (some .free)) ∨
       (s ≠ b ∧ ∃ p t, x.vault = some p ∧ st.vaults p = some t ∧ st' = st.put s (some (.fill p t x.row))))
  | .find s k v, a, st' => (∃ x, st.sets s = some x) ∧ st' = st ∧
    match st.source s with
    | none => a = .res (.bad .ParentVaultNotValid (some k))
    | some (_, t) => match t.bad k v with
      | some c => a = .res (.bad c (some k))
      | none => ((∃ r, t.hits k v r) ∧ a = .res (.good (some k))) ∨ ((¬ ∃ r, t.hits k v r) ∧ a = .res (.bad .WrongValue (some k)))

/-- A whole run, last call first. -/
inductive State.Run : List (Call K V Ty × Answer K) → State K V Ty → Prop
  | init : State.Run [] State.empty
  | step (l : List (Call K V Ty × Answer K)) (st st' : State K V Ty) (e : Call K V Ty) (a : Answer K) :
      State.Run l st → State.Step st e a st' → State.Run ((e, a) :: l) st'

end MVault.Spec
