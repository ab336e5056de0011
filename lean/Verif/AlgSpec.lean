import Verif.SetSpec
/-
The algebra of sets, as its user sees it. This file is a specification and models no code. `Join`, `Exclude` and `Intersect` change a set by another one,
`Union` and `Intersection` fill a third set, `RemoveRecord` and `RemoveRecords` take records out of a set: the vault and all other sets stay as they
are. `C86_refines` (PropsGentle.lean) proves that the model of the code does only such steps, in gentle use.
-/
set_option linter.unusedSectionVars false
namespace MVault.Spec
open MVault.W (Res Code Answer Typed typeOf zero castTo Cond Req leafCond)
open Classical
variable {K V Ty : Type} [LinearOrder K] [LinearOrder V] [Typed V Ty] [DecidableEq Ty]

/-- The calls. -/
inductive GCall (K V Ty : Type)
  /-- the calls of SetSpec.lean -/
  | base (c : Call K V Ty)
  /-- `s.Join(a)`, `s.Exclude(a)`, `s.Intersect(a)` -/
  | join (s a : Nat) | exclude (s a : Nat) | intersect (s a : Nat)
  /-- `Union(a, b, s)`, `Intersection(a, b, s)` -/
  | union (a b s : Nat) | inter (a b s : Nat)
  /-- `RemoveRecord` with a reference that points at `r`, `RemoveRecord` and `RemoveRecords` with key and value -/
  | removeRow (s : Nat) (r : Option Nat) | removeOne (s : Nat) (k : K) (v : V) | removeMany (s : Nat) (k : K) (v : V) (n : Nat)

/-- What is wrong with the vaults of two sets. -/
noncomputable def SetVar.mismatch (x y : SetVar K) : Option Code :=
  match x.vault, y.vault with
  | none, _ => some .ParentVaultNotValid
  | some _, none => some .OtherParentVaultNotValid
  | some p, some q => if p = q then none else some .ParentVaultNotMatch

/-- The set, of vault `t`, with the rows `row` as well: the new ones are all found. -/
def SetVar.plus (x : SetVar K) (t : Table K V Ty) (row : Nat → Prop) : SetVar K :=
  ⟨x.vault, fun r => x.row r ∨ row r, fun b k r => x.seen b k r ∨ (k ∈ t.keys ∧ row r ∧ ¬ x.row r)⟩

/-- The set, of vault `t`, without the rows `row`. -/
noncomputable def SetVar.minus (x : SetVar K) (t : Table K V Ty) (row : Nat → Prop) : SetVar K := x.take ((x.on t).erase row)

/-- `s` is changed by `a`: `f` makes of the vault and of the two sets what becomes of `s`. -/
def State.change (st : State K V Ty) (s a : Nat) (f : Table K V Ty → SetVar K → SetVar K → SetVar K) (ans : Answer K) (st' : State K V Ty) : Prop :=
  ∃ x y, st.sets s = some x ∧ st.sets a = some y ∧
    match x.mismatch y with
    | some c => ans = .res (.bad c none) ∧ st' = st
    | none =>
      if s = a then ans = .res (.bad .SameVaultRecordSet none) ∧ st' = st
      else ∃ p t, x.vault = some p ∧ st.vaults p = some t ∧ ans = .res (.good none) ∧ st' = st.put s (some (f t x y))

/-- `s` becomes a set with the rows `f` makes of the rows of `a` and `b`. -/
def State.combine (st : State K V Ty) (a b s : Nat) (f : Prop → Prop → Prop) (ans : Answer K) (st' : State K V Ty) : Prop :=
  ∃ x y z, st.sets a = some x ∧ st.sets b = some y ∧ st.sets s = some z ∧
    if a = b ∨ a = s ∨ b = s then ans = .res (.bad .SameVaultRecordSet none) ∧ st' = st
    else match x.mismatch y with
      | some c => ans = .res (.bad c none) ∧ st' = st
      | none => ∃ p t, x.vault = some p ∧ st.vaults p = some t ∧ ans = .res (.good none) ∧ st' = st.put s (some (.fill p t fun r => f (x.row r) (y.row r)))

/-- Rows are taken out of `s` as if the set were a vault: `c` is the call, `none` the answer when the set belongs to no vault. -/
def State.remove (st : State K V Ty) (s : Nat) (c : Cmd K V Ty) (none : Answer K) (ans : Answer K) (st' : State K V Ty) : Prop :=
  ∃ x, st.sets s = some x ∧
    match st.source s with
    | .none => ans = none ∧ st' = st
    | some (_, t) => ∃ t', t.Step (fun _ => False) c ans t' ∧ st' = st.put s (some (x.take t'))

/-- One call: vaults and sets before, call, answer, vaults and sets afterwards. -/
def State.Does (st : State K V Ty) : GCall K V Ty → Answer K → State K V Ty → Prop
  | .base c, a, st' => st.Step c a st'
  | .join s b, a, st' => st.change s b (fun t x y => x.plus t y.row) a st'
  | .exclude s b, a, st' => st.change s b (fun t x y => x.minus t y.row) a st'
  | .intersect s b, a, st' => st.change s b (fun t x y => x.minus t fun r => ¬ y.row r) a st'
  | .union b c s, a, st' => st.combine b c s (· ∨ ·) a st'
  | .inter b c s, a, st' => st.combine b c s (· ∧ ·) a st'
  | .removeRow s r, a, st' => st.remove s (.eraseRow r) (.flag false) a st'
  | .removeOne s k v, a, st' => st.remove s (.eraseOne k v) (.res (.bad .ParentVaultNotValid (some k))) a st'
  | .removeMany s k v n, a, st' => st.remove s (.eraseMany k v n) (.res (.bad .ParentVaultNotValid (some k))) a st'

/-- A whole run, last call first. -/
inductive State.Runs : List (GCall K V Ty × Answer K) → State K V Ty → Prop
  | init : State.Runs [] State.empty
  | step (l : List (GCall K V Ty × Answer K)) (st st' : State K V Ty) (e : GCall K V Ty) (a : Answer K) :
      State.Runs l st → State.Does st e a st' → State.Runs ((e, a) :: l) st'

end MVault.Spec
