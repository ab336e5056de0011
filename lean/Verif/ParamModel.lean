import Verif.WorldOps
/-
Parameters of CreateRecord and SetData as the closures they are in the code: VaultParamInput.
-/
set_option linter.unusedSectionVars false
set_option linter.unusedVariables false
namespace MVault.W
variable {K V Ty : Type} [LinearOrder K] [LinearOrder V] [Typed V Ty] [DecidableEq Ty]

/-- The variables of the program that uses the library: what each of them holds at this moment. VaultParamInput.hpp line 10 takes one of them by
reference (`const T& data`); a closure that kept the reference would see later assignments. -/
abbrev Vars (V : Type) := Nat → V

/-- `VaultParamInput`, VaultParamInput.h lines 41-51: a type and two closures. The closures get the variables of the program at the time of the call, so
that a closure that kept a reference to a variable could be expressed. -/
structure PInput (K V Ty : Type) [LinearOrder K] where
  /-- VaultParamInput.h line 45 -/
  ty : Ty
  /-- VaultParamInput.h line 48 -/
  toRef : Vars V → Env → World K V Ty → Nat → K → Option (World K V Ty × Res K)
  /-- VaultParamInput.h line 51; the record is given by its container -/
  toRec : Vars V → K → List (K × V) → List (K × V)

/-- The constructor from a variable, VaultParamInput.hpp lines 9-25: both closures capture `data` with `[=]`, that is a copy of what the variable holds
now. `VaultRecord::SetData` is the assignment of the container entry, DataContainer.hpp lines 11-27 (`mput`). -/
def PInput.ofVar (σ : Vars V) (x : Nat) : PInput K V Ty where
  ty := typeOf (σ x)
  toRef := fun _ env w f k => refSetData env w f k (σ x)
  toRec := fun _ k data => mput data k (σ x)

/-- `VaultParamInput::GetDataType`, VaultParamInput.cpp lines 19-24. -/
def PInput.getDataType (p : PInput K V Ty) : Ty := p.ty

/-- `VaultParamInput::SetDataToRef`, VaultParamInput.cpp lines 5-10. -/
def PInput.setDataToRef (p : PInput K V Ty) (σ : Vars V) (env : Env) (w : World K V Ty) (f : Nat) (k : K) : Option (World K V Ty × Res K) := p.toRef σ env w f k

/-- `VaultParamInput::SetDataToRecord`, VaultParamInput.cpp lines 12-17. -/
def PInput.setDataToRecord (p : PInput K V Ty) (σ : Vars V) (k : K) (data : List (K × V)) : List (K × V) := p.toRec σ k data

/-- The parameter loop of `CreateRecord`, Vault.cpp lines 449-483, over parameters as they are. -/
def applyInputs (σ : Vars V) : List (K × PInput K V Ty) → List (K × V) → Except (Res K) (List (K × V))
  | [], data => .ok data
  | (k, p) :: l, data => match mget data k with
    | none => .error (.bad .WrongKey (some k))
    | some v0 => if typeOf v0 = p.getDataType then applyInputs σ l (p.setDataToRecord σ k data) else .error (.bad .WrongType (some k))

/-- `Vault::CreateRecord(ref, params)`, Vault.cpp lines 436-539, over parameters as they are. -/
def createRecordIn (σ : Vars V) (w : World K V Ty) (o f : Nat) (ps : List (K × PInput K V Ty)) : Option (World K V Ty × Res K) := do
  let vo ← w.getObj o
  match applyInputs σ ps vo.tmpl with
  | .error e => some (w, e)
  | .ok data => do
    let (w1, out) ← insertRecord w o data
    match out with
    | .error k => some (w1, .bad .UniqueKeyValueAlredyInSet (some k))
    | .ok r => (setRecord w1 f (some r) o).map (·, .good (ps.getLast?.map (·.1)))

/-- `Vault::CreateRecord(params)`, Vault.cpp lines 428-434, over parameters as they are; the temporary reference as in `createRow`. -/
def createRowIn (σ : Vars V) (w : World K V Ty) (o : Nat) (ps : List (K × PInput K V Ty)) : Option (World K V Ty × Res K) := do
  let vo ← w.getObj o
  match applyInputs σ ps vo.tmpl with
  | .error e => some (w, e)
  | .ok data => do
    let (w1, out) ← insertRecord w o data
    match out with
    | .error k => some (w1, .bad .UniqueKeyValueAlredyInSet (some k))
    | .ok _ => some (w1, .good (ps.getLast?.map (·.1)))

/-- The loop of `VaultRecordRef::SetData(params)`, VaultRecordRef.cpp lines 159-164, over parameters as they are. -/
def setInputsLoop (σ : Vars V) (env : Env) (f : Nat) : List (K × PInput K V Ty) → World K V Ty → Res K → Option (World K V Ty × Res K)
  | [], w, res => some (w, res)
  | (k, p) :: l, w, _ => do
    let (w1, res1) ← p.setDataToRef σ env w f k
    if res1.ok = false then some (w1, res1) else setInputsLoop σ env f l w1 res1

/-- `VaultRecordRef::SetData(params)`, VaultRecordRef.cpp lines 151-167, over parameters as they are. -/
def setInputs (σ : Vars V) (env : Env) (w : World K V Ty) (f : Nat) (ps : List (K × PInput K V Ty)) : Option (World K V Ty × Res K) := do
  let ref ← w.refs[f]?
  let o ← ref.vlt
  let _ ← w.getObj o
  setInputsLoop σ env f ps w ⟨true, .Idle, none⟩

/-- What a program does with variables, parameter lists and the library: assign a variable, append the pair of a key and a variable to a parameter list
(VaultParamInput.h line 86: the conversion is implicit), empty or copy a parameter list (the implicitly defined copies of VaultParamInput, VaultParamInput.h lines
41-94), call one of the three functions that take parameters (Vault.cpp lines 428 and 436, VaultRecordRef.cpp line 151). -/
inductive PStmt (K V : Type)
  | assign (x : Nat) (v : V)
  | push (l : Nat) (k : K) (x : Nat)
  | clear (l : Nat)
  | copy (l l' : Nat)
  | create (o f l : Nat)
  | createRow (o l : Nat)
  | setMany (f l : Nat)

/-- The state of such a program; `P` is what stands for a parameter, `out` the results of the calls so far. VaultParamInput.h lines 41-94. -/
structure PState (P K V Ty : Type) [LinearOrder K] where
  vars : Vars V
  lists : Nat → List (K × P)
  w : World K V Ty
  out : List (Res K)

/-- One statement, with the code's parameters. VaultParamInput.hpp lines 9-25, Vault.cpp lines 428-539, VaultRecordRef.cpp lines 151-167. `none`: the call
has undefined behaviour (an unbound reference). -/
def PState.step (env : Env) (s : PState (PInput K V Ty) K V Ty) : PStmt K V → Option (PState (PInput K V Ty) K V Ty)
  | .assign x v => some { s with vars := fun y => if y = x then v else s.vars y }
  | .push l k x => some { s with lists := fun m => if m = l then s.lists l ++ [(k, .ofVar s.vars x)] else s.lists m }
  | .clear l => some { s with lists := fun m => if m = l then [] else s.lists m }
  | .copy l l' => some { s with lists := fun m => if m = l' then s.lists l else s.lists m }
  | .create o f l => (createRecordIn s.vars s.w o f (s.lists l)).map fun r => { s with w := r.1, out := s.out ++ [r.2] }
  | .createRow o l => (createRowIn s.vars s.w o (s.lists l)).map fun r => { s with w := r.1, out := s.out ++ [r.2] }
  | .setMany f l => (setInputs s.vars env s.w f (s.lists l)).map fun r => { s with w := r.1, out := s.out ++ [r.2] }

/-- A whole program. VaultParamInput.hpp lines 9-25, Vault.cpp lines 428-539, VaultRecordRef.cpp lines 151-167. -/
def PState.run (env : Env) : List (PStmt K V) → PState (PInput K V Ty) K V Ty → Option (PState (PInput K V Ty) K V Ty)
  | [], s => some s
  | c :: p, s => (s.step env c).bind (PState.run env p)

end MVault.W
