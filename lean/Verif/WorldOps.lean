import Verif.WorldBase
/-
World layer, part 2: the operations of `Vault`, `VaultRecordRef` and `VaultRecordSet`.
Every operation returns `none` for undefined behaviour (access to a deleted record or destroyed object).
Liveness of the objects involved is checked at the start of each step, so undefined behaviour is, if anything, reported for
slightly more executions than the code has. `f` numbers reference variables, `o`, `s` objects, `r` records.
Locks are modelled separately (MutexModel); here operations are atomic.
-/
namespace MVault.W
variable {K V Ty : Type} [LinearOrder K] [LinearOrder V] [Typed V Ty] [DecidableEq Ty]

/-! ### Records and references -/

/-- `VaultRecord::AddRef`, VaultRecord.cpp lines 67-74. -/
def addRef (w : World K V Ty) (r : Nat) : Option (World K V Ty) :=
  (w.getRec r).map fun x => w.putRec r { x with refs := x.refs + 1 }

/-- `VaultRecord::RemoveRef`, VaultRecord.cpp lines 76-87. -/
def removeRef (w : World K V Ty) (r : Nat) : Option (World K V Ty) :=
  (w.getRec r).map fun x =>
    if x.valid = false ∧ x.refs - 1 = 0 then w.freeRec r else w.putRec r { x with refs := x.refs - 1 }

/-- `VaultRecord::Invalidate`, VaultRecord.cpp lines 89-100. -/
def invalidate (w : World K V Ty) (r : Nat) : Option (World K V Ty) :=
  (w.getRec r).map fun x => if x.refs = 0 then w.freeRec r else w.putRec r { x with valid := false }

/-- Apply to a pointer that may be null. Null checks as in VaultRecordRef.cpp lines 9-60. -/
def optStep (f : World K V Ty → Nat → Option (World K V Ty)) (w : World K V Ty) : Option Nat → Option (World K V Ty)
  | none => some w
  | some r => f w r

/-- `VaultRecordRef::SetRecord`, VaultRecordRef.cpp lines 7-20, on reference variable `f`. -/
def setRecord (w : World K V Ty) (f : Nat) (r : Option Nat) (o : Nat) : Option (World K V Ty) := do
  let _ ← w.getObj o
  let old ← w.refs[f]?
  let w1 ← optStep addRef w r
  let w2 ← optStep removeRef w1 old.ptr
  some { w2 with refs := w2.refs.set f ⟨r, some o⟩ }

/-- Default constructor of `VaultRecordRef`, lines 22-25: a new reference variable. -/
def newRef (w : World K V Ty) : World K V Ty := { w with refs := w.refs ++ [⟨none, none⟩] }

/-- Constructor `VaultRecordRef(record, vault)`, lines 27-32: a new reference variable (also an element of a returned
vector). -/
def newRefTo (w : World K V Ty) (r : Nat) (o : Nat) : Option (World K V Ty) :=
  setRecord (newRef w) w.refs.length (some r) o

/-- Copy assignment, lines 48-71 (copy construction is a new variable followed by assignment). -/
def refCopy (w : World K V Ty) (f g : Nat) : Option (World K V Ty) := do
  let old ← w.refs[f]?
  let src ← w.refs[g]?
  if f = g then some w else do
    let w1 ← optStep removeRef w old.ptr
    let w2 ← optStep addRef w1 src.ptr
    some { w2 with refs := w2.refs.set f (match src.ptr with | some r => ⟨some r, src.vlt⟩ | none => ⟨none, none⟩) }

/-- Move assignment, lines 73-97. -/
def refMove (w : World K V Ty) (f g : Nat) : Option (World K V Ty) := do
  let old ← w.refs[f]?
  let src ← w.refs[g]?
  if f = g then some w else do
    let w1 ← optStep removeRef w old.ptr
    match src.ptr with
    | some r => some { w1 with refs := (w1.refs.set f ⟨some r, src.vlt⟩).set g ⟨none, none⟩ }
    | none => some { w1 with refs := w1.refs.set f ⟨none, none⟩ }

/-- `Reset`, lines 281-290, and the destructor, lines 369-374: the variable becomes null. -/
def refReset (w : World K V Ty) (f : Nat) : Option (World K V Ty) := do
  let old ← w.refs[f]?
  let w1 ← optStep removeRef w old.ptr
  some { w1 with refs := w1.refs.set f ⟨none, none⟩ }

/-- `IsValid`, lines 211-220. -/
def refIsValid (w : World K V Ty) (f : Nat) : Option Bool := do
  let ref ← w.refs[f]?
  match ref.ptr with
  | none => some false
  | some r => (w.getRec r).map (·.valid)

/-- `operator==`, lines 99-116. -/
def refEq (w : World K V Ty) (f g : Nat) : Option Bool := do
  let a ← w.refs[f]?
  let b ← w.refs[g]?
  let va ← refIsValid w f
  if va then some (decide (a.ptr = b.ptr)) else (refIsValid w g).map (!·)

/-- `operator!=`, lines 118-135. -/
def refNe (w : World K V Ty) (f g : Nat) : Option Bool := do
  let a ← w.refs[f]?
  let b ← w.refs[g]?
  let va ← refIsValid w f
  if va then some (decide (a.ptr ≠ b.ptr)) else refIsValid w g

/-- `GetRecordUniqueId`, lines 137-149: the address, or "null" (`none`). -/
def refId (w : World K V Ty) (f : Nat) : Option (Option Nat) := do
  let a ← w.refs[f]?
  let va ← refIsValid w f
  some (if va then a.ptr else none)

/-- `GetData<T>`, VaultRecordRef.hpp lines 40-90, with `T = t`: result and the value written to the output (`none`: output
untouched). Line 84 ignores whether the container holds the key, then the output keeps its old value. -/
def refGetData (w : World K V Ty) (f : Nat) (k : K) (t : Ty) : Option (Res K × Option V) := do
  let ref ← w.refs[f]?
  match ref.ptr with
  | none => some (.bad .DataRecordNotValid (some k), none)
  | some r => do
    let o ← ref.vlt
    let vo ← w.getObj o
    let x ← w.getRec r
    if x.valid = false then some (.bad .DataRecordNotValid (some k), none)
    else match mget vo.cols k with
      | none => some (.bad .WrongKey (some k), none)
      | some c =>
        if c.ty ≠ t then some (.bad .WrongType (some k), none)
        else some (.good (some k), match mget x.data k with | some v => if typeOf v = t then some v else none | none => none)

/-! ### SetData -/

/-- The index part of `Vault::SetDataToRecord` on object `o`, Vault.hpp lines 12-110: checks and index update. -/
def setDataIndex (w : World K V Ty) (o r : Nat) (k : K) (v : V) : Option (World K V Ty × Res K) := do
  let vo ← w.getObj o
  let x ← w.getRec r
  if x.valid = false then some (w, .bad .DataRecordNotValid (some k))
  else match mget vo.cols k with
    | none => some (w, .bad .WrongKey (some k))
    | some c =>
      if c.ty ≠ typeOf v then some (w, .bad .WrongType (some k))
      else match c.setVal (c.oldVal x.data k) v r with
        | none => some (w, .bad .UniqueKeyValueAlredyInSet (some k))
        | some c' => some (w.putObj o { vo with cols := mput vo.cols k c' }, .good (some k))

/-- `VaultRecord::UpdateDependentSets`, VaultRecord.hpp lines 9-20; results are ignored. For a set whose
`VaultDerivedClass` is `VaultBase` (see `setCopyNew`) the code recurses without end (stack overflow), hence undefined. -/
def updateDeps (env : Env) (w : World K V Ty) (r : Nat) (k : K) (v : V) : Option (World K V Ty) := do
  let x ← w.getRec r
  loop (fun w s => do
    let so ← w.getObj s
    if so.isBase = true then none else (setDataIndex w s r k v).map (·.1)) (env.perm x.deps) w

/-- `Vault::SetDataToRecord`, Vault.hpp lines 12-126. -/
def setDataToRecord (env : Env) (w : World K V Ty) (o r : Nat) (k : K) (v : V) : Option (World K V Ty × Res K) := do
  let vo ← w.getObj o
  let (w1, res) ← setDataIndex w o r k v
  if res.ok = false then some (w1, res)
  else if vo.isBase = true then do
    let w2 ← updateDeps env w1 r k v
    let x ← w2.getRec r
    some (w2.putRec r { x with data := mput x.data k v }, res)
  else some (w1, res)

/-- `VaultRecordRef::SetData`, VaultRecordRef.hpp lines 9-38. -/
def refSetData (env : Env) (w : World K V Ty) (f : Nat) (k : K) (v : V) : Option (World K V Ty × Res K) := do
  let ref ← w.refs[f]?
  match ref.ptr with
  | none => some (w, .bad .DataRecordNotValid (some k))
  | some r => do
    let o ← ref.vlt
    let _ ← w.getObj o
    let x ← w.getRec r
    if x.valid = false then some (w, .bad .DataRecordNotValid (some k)) else setDataToRecord env w o r k v

/-- The loop of `VaultRecordRef::SetData(params)`, VaultRecordRef.cpp lines 159-164; `res` is the result so far. -/
def refSetDataLoop (env : Env) (f : Nat) : List (K × V) → World K V Ty → Res K → Option (World K V Ty × Res K)
  | [], w, res => some (w, res)
  | (k, v) :: l, w, _ => do
    let (w1, res1) ← refSetData env w f k v
    if res1.ok = false then some (w1, res1) else refSetDataLoop env f l w1 res1

/-- `VaultRecordRef::SetData(params)`, VaultRecordRef.cpp lines 151-167. Line 157 dereferences `Vlt` unconditionally. -/
def refSetDataMany (env : Env) (w : World K V Ty) (f : Nat) (ps : List (K × V)) : Option (World K V Ty × Res K) := do
  let ref ← w.refs[f]?
  let o ← ref.vlt
  let _ ← w.getObj o
  refSetDataLoop env f ps w ⟨true, .Idle, none⟩

/-! ### Set objects: Clear, Reset -/

/-- `VaultRecord::EraseDependentSet`, VaultRecord.cpp lines 133-140. -/
def eraseDep (s : Nat) (w : World K V Ty) (r : Nat) : Option (World K V Ty) :=
  (w.getRec r).map fun x => w.putRec r { x with deps := x.deps.filter (· ≠ s) }

/-- `VaultRecord::AddToDependentSets`, VaultRecord.cpp lines 124-131. -/
def addDep (s : Nat) (w : World K V Ty) (r : Nat) : Option (World K V Ty) :=
  (w.getRec r).map fun x => w.putRec r { x with deps := setIns x.deps s }

/-- `VaultRecordSet::Clear`, VaultRecordSet.cpp lines 259-276. -/
def setClear (env : Env) (w : World K V Ty) (s : Nat) : Option (World K V Ty) := do
  let so ← w.getObj s
  if so.parent = none then some w else do
    let w1 ← loop (eraseDep s) (env.perm so.recs) w
    some (w1.putObj s { so with cols := clearCols so.cols, recs := [] })

/-- Body of `Vault::DropVault` after the reset of the dependent sets, Vault.cpp lines 553-600. -/
def dropCore (env : Env) (w : World K V Ty) (o : Nat) : Option (World K V Ty) := do
  let vo ← w.getObj o
  let w1 ← loop invalidate (env.perm vo.recs) w
  some (w1.putObj o { vo with tmpl := [], cols := [], keysOrder := [], uniq := [], recs := [], sets := [] })

/-- `VaultRecordSet::Reset`, VaultRecordSet.cpp lines 244-257 (the `DropVault` inside acts on the set's own, empty,
`RecordSetsSet`). -/
def setReset (env : Env) (w : World K V Ty) (s : Nat) : Option (World K V Ty) := do
  let so ← w.getObj s
  match so.parent with
  | none => some w
  | some p => do
    let _ ← w.getObj p
    let w1 ← setClear env w s
    let w2 ← dropCore env w1 s
    let po ← w2.getObj p
    let w3 := w2.putObj p { po with sets := po.sets.filter (· ≠ s) }
    let so ← w3.getObj s
    some (w3.putObj s { so with parent := none })

/-! ### Erasing records -/

/-- All erasers of object `o` for record `r`, and removal from `RecordsSet`: Vault.cpp lines 23-27. -/
def eraseLocal (w : World K V Ty) (o r : Nat) : Option (World K V Ty) := do
  let vo ← w.getObj o
  let x ← w.getRec r
  some (w.putObj o { vo with cols := eraseCols vo.cols x.data r, recs := vo.recs.filter (· ≠ r) })

/-- `VaultRecord::RemoveFromDependentSets`, VaultRecord.cpp lines 113-122, calling `VaultRecordSet::RemoveRecord(record)`
(VaultRecordSet.cpp lines 6-11, Vault.cpp lines 9-38). A set flagged `VaultBase` would invalidate the record here a first
time; this is reported as undefined (it is a double delete when no reference is left). -/
def removeFromDeps (env : Env) (w : World K V Ty) (r : Nat) : Option (World K V Ty) := do
  let x ← w.getRec r
  loop (fun w s => do
    let so ← w.getObj s
    if r ∉ so.recs then some w else if so.isBase = true then none else eraseLocal w s r) (env.perm x.deps) w

/-- Common end of all erasing functions: erasers, `RecordsSet.erase`, and for a vault also removal from the dependent sets
and `Invalidate`. Vault.cpp lines 23-34, Vault.hpp lines 979-991 and 1062-1075. -/
def eraseOne (env : Env) (w : World K V Ty) (o r : Nat) : Option (World K V Ty) := do
  let vo ← w.getObj o
  let w1 ← eraseLocal w o r
  if vo.isBase = true then do
    let w2 ← removeFromDeps env w1 r
    invalidate w2 r
  else some w1

/-- `Vault::RemoveRecord`, Vault.cpp lines 9-38. -/
def removeRecord (env : Env) (w : World K V Ty) (o r : Nat) : Option (World K V Ty × Bool) := do
  let vo ← w.getObj o
  if r ∉ vo.recs then some (w, false) else (eraseOne env w o r).map (·, true)

/-- `Vault::EraseRecord(ref)`, Vault.cpp lines 626-637. -/
def eraseRef (env : Env) (w : World K V Ty) (o f : Nat) : Option (World K V Ty × Bool) := do
  let ref ← w.refs[f]?
  match ref.ptr with
  | none => (w.getObj o).map fun _ => (w, false)
  | some r => removeRecord env w o r

/-- Records in the equal range of a value in the hash map, in container order. Map.h lines 341-353. -/
def equalRange (env : Env) (c : Col V Ty) (v : V) : List Nat := env.perm ((c.hash.filter (fun e => e.1 = v)).map (·.2))

/-- Key and type checks shared by the look-up functions, e.g. Vault.hpp lines 687-701. -/
def checkKey (vo : Obj K V Ty) (k : K) (t : Ty) : Except (Res K) (Col V Ty) :=
  match mget vo.cols k with
  | none => .error (.bad .WrongKey (some k))
  | some c => if c.ty ≠ t then .error (.bad .WrongType (some k)) else .ok c

/-- `Vault::EraseRecord(key, value)`, Vault.hpp lines 937-1005. -/
def eraseKV (env : Env) (w : World K V Ty) (o : Nat) (k : K) (v : V) : Option (World K V Ty × Res K) := do
  let vo ← w.getObj o
  match checkKey vo k (typeOf v) with
  | .error e => some (w, e)
  | .ok c => match equalRange env c v with
    | [] => some (w, .bad .WrongValue (some k))
    | r :: _ => (eraseOne env w o r).map (·, .good (some k))

/-- `Vault::EraseRecords(key, value, amount)`, Vault.hpp lines 1007-1088: the amount is compared after each erasure. -/
def eraseManyKV (env : Env) (w : World K V Ty) (o : Nat) (k : K) (v : V) (n : Nat) : Option (World K V Ty × Res K) := do
  let vo ← w.getObj o
  match checkKey vo k (typeOf v) with
  | .error e => some (w, e)
  | .ok c => match equalRange env c v with
    | [] => some (w, .bad .WrongValue (some k))
    | l => (loop (fun w r => eraseOne env w o r) (l.take (max n 1)) w).map (·, .good (some k))

/-- `Vault::DropData`, Vault.cpp lines 603-624. -/
def dropData (env : Env) (w : World K V Ty) (o : Nat) : Option (World K V Ty) := do
  let vo ← w.getObj o
  let w1 ← loop (setClear env) (env.perm vo.sets) w
  let w2 ← loop invalidate (env.perm vo.recs) w1
  let vo ← w2.getObj o
  some (w2.putObj o { vo with cols := clearCols vo.cols, recs := [] })

/-- `Vault::DropVault`, Vault.cpp lines 541-601. -/
def dropVault (env : Env) (w : World K V Ty) (o : Nat) : Option (World K V Ty) := do
  let vo ← w.getObj o
  let w1 ← loop (setReset env) (env.perm vo.sets) w
  dropCore env w1 o

/-! ### Keys -/

/-- `SetData(key, value)` on one record's container. DataContainer.h lines 124-140. -/
def writeCell (k : K) (w : World K V Ty) (p : Nat × V) : Option (World K V Ty) :=
  (w.getRec p.1).map fun x => w.putRec p.1 { x with data := mput x.data k p.2 }

/-- Insert into `std::set<std::string>`. Vault.h line 90. -/
def uniqIns (l : List K) (k : K) : List K := match l with
  | [] => [k]
  | a :: t => if k < a then k :: a :: t else if a = k then a :: t else a :: uniqIns t k

/-- The object after a key has been added, Vault.hpp lines 417-522. -/
def Obj.withKey (vo : Obj K V Ty) (k : K) (d : V) (unique : Bool) (c : Col V Ty) : Obj K V Ty :=
  { vo with
    keysOrder := if vo.isBase = true then vo.keysOrder ++ [k] else vo.keysOrder
    tmpl := mput vo.tmpl k d
    uniq := if unique = true then uniqIns vo.uniq k else vo.uniq
    cols := mput vo.cols k c }

/-- `Vault::AddKey` on one object, not unique, without the propagation to sets: Vault.hpp lines 324-522. Line 412 writes the
records also when the object is a set. -/
def addKeyLocal (env : Env) (w : World K V Ty) (o : Nat) (k : K) (d : V) : Option (World K V Ty × Res K) := do
  let vo ← w.getObj o
  if mhas vo.cols k = true then some (w, .bad .DuplicateKey (some k)) else do
    let rs := env.perm vo.recs
    let w1 ← loop (writeCell k) (rs.map (·, d)) w
    let c := rs.foldl (fun c r => (c.add d r).1) (⟨typeOf d, true, d, [], [], false, false⟩ : Col V Ty)
    some (w1.putObj o (vo.withKey k d false c), .good (some k))

/-- The values computed by the unique-key function, in iteration order, Vault.hpp lines 380-396. -/
def fnValues (t : Ty) (f : Nat → Nat → V) : Nat → List Nat → List (Nat × V)
  | _, [] => []
  | i, r :: l => (r, castTo t (f i r)) :: fnValues t f (i + 1) l

/-- Emplacing the computed values, Vault.hpp lines 380-407; `none` when one is refused. -/
def fnCol : List (Nat × V) → Col V Ty → Option (Col V Ty)
  | [], c => some c
  | (r, v) :: l, c => match c.add v r with
    | (c', true) => fnCol l c'
    | (_, false) => none

/-- `Vault::AddKey` on one object for a unique key with a function, without the propagation: Vault.hpp lines 324-522,
542-571. `noFn` is `isUniqueKeyWithoutLambda`. The function may depend on the object it is run for, the counter and the
record. -/
def addUniqueLocal (env : Env) (w : World K V Ty) (o : Nat) (k : K) (t : Ty) (noFn : Bool) (f : Nat → Nat → V) :
    Option (World K V Ty × Res K) := do
  let vo ← w.getObj o
  if mhas vo.cols k = true then some (w, .bad .DuplicateKey (some k))
  else if noFn = true ∧ vo.recs ≠ [] then some (w, .bad .TryToAddUniqueKeyInNonEmptyVaultWithoutLambda (some k))
  else
    let vals := fnValues t f 0 (env.perm vo.recs)
    match fnCol vals (⟨t, false, zero t, [], [], false, false⟩ : Col V Ty) with
    | none => some (w, .bad .UniqueKeyValueAlredyInSet (some k))
    | some c => do
      let w1 ← if vo.isBase = true then loop (writeCell k) vals w else some w
      some (w1.putObj o (vo.withKey k (zero t) true c), .good (some k))

/-- `set->KeysOrder.emplace_back(key)`, Vault.hpp line 532. -/
def pushKey (k : K) (w : World K V Ty) (s : Nat) : Option (World K V Ty) :=
  (w.getObj s).map fun so => w.putObj s { so with keysOrder := so.keysOrder ++ [k] }

/-- `Vault::AddKey(key, default)`, Vault.hpp lines 541-551 and 524-534. -/
def addKey (env : Env) (w : World K V Ty) (o : Nat) (k : K) (d : V) : Option (World K V Ty × Res K) := do
  let vo ← w.getObj o
  let (w1, res) ← addKeyLocal env w o k d
  if res.ok = false then some (w1, res) else do
    let w2 ← loop (fun w s => do
      let (w', _) ← addKeyLocal env w s k d
      pushKey k w' s) (env.perm vo.sets) w1
    some (w2, res)

/-- `Vault::AddUniqueKey`, Vault.hpp lines 553-571 and 524-534; `f` is indexed by the object it is run for. Simplification: a set of a vault without
records can only have records after Join (`C31_refuted`); the call without function for such a set would call an empty `std::function`, here it goes on with `f`. -/
def addUniqueKey (env : Env) (w : World K V Ty) (o : Nat) (k : K) (t : Ty) (noFn : Bool) (f : Nat → Nat → Nat → V) :
    Option (World K V Ty × Res K) := do
  let vo ← w.getObj o
  let (w1, res) ← addUniqueLocal env w o k t noFn (f o)
  if res.ok = false then some (w1, res) else do
    let w2 ← loop (fun w s => do
      let (w', _) ← addUniqueLocal env w s k t false (f s)
      pushKey k w' s) (env.perm vo.sets) w1
    some (w2, res)

/-- `Vault::UpdateKey`, Vault.hpp lines 573-622. -/
def updateKey (w : World K V Ty) (o : Nat) (k : K) (d : V) : Option (World K V Ty × Res K) := do
  let vo ← w.getObj o
  match checkKey vo k (typeOf d) with
  | .error e => some (w, e)
  | .ok _ =>
    if k ∈ vo.uniq then some (w, .bad .UniqueKey (some k))
    else some (w.putObj o { vo with tmpl := mput vo.tmpl k d }, .good (some k))

/-- `Vault::GetKeyValue`, Vault.hpp lines 624-669, and `VaultRecordSet::GetKeyValue`, VaultRecordSet.hpp lines 66-88 (a set without a vault
answers `ParentVaultNotValid`): result and the value written. -/
def getKeyValue (w : World K V Ty) (o : Nat) (k : K) (t : Ty) : Option (Res K × Option V) := do
  let vo ← w.getObj o
  if vo.isSet = true ∧ vo.parent = none then some (.bad .ParentVaultNotValid (some k), none)
  else match checkKey vo k t with
  | .error e => some (e, none)
  | .ok _ =>
    if k ∈ vo.uniq then some (.bad .UniqueKey (some k), none)
    else some (.good (some k), mget vo.tmpl k)

/-- `EraseData(key)` on one record's container. DataContainer.h lines 255-262. -/
def dropCell (k : K) (w : World K V Ty) (r : Nat) : Option (World K V Ty) :=
  (w.getRec r).map fun x => w.putRec r { x with data := mdel x.data k }

/-- The object without the key, Vault.cpp lines 383-417. -/
def Obj.withoutKey (vo : Obj K V Ty) (k : K) : Obj K V Ty :=
  { vo with uniq := vo.uniq.filter (· ≠ k), keysOrder := vo.keysOrder.erase k, tmpl := mdel vo.tmpl k, cols := mdel vo.cols k }

/-- `RemoveKey` on a set, Vault.cpp lines 370-426 with `VaultDerivedClass` set (a `VaultBase`-flagged set additionally
erases the data of its records; they are records of the vault, which does that anyway). -/
def removeKeyLocal (k : K) (w : World K V Ty) (s : Nat) : Option (World K V Ty) :=
  (w.getObj s).map fun so => if mhas so.cols k = true then w.putObj s (so.withoutKey k) else w

/-- `Vault::RemoveKey`, Vault.cpp lines 370-426. -/
def removeKey (env : Env) (w : World K V Ty) (o : Nat) (k : K) : Option (World K V Ty × Bool) := do
  let vo ← w.getObj o
  if mhas vo.cols k = false then some (w, false) else do
    let w1 := w.putObj o (vo.withoutKey k)
    let w2 ← loop (dropCell k) (env.perm vo.recs) w1
    let w3 ← loop (removeKeyLocal k) (env.perm vo.sets) w2
    some (w3, true)

/-! ### Creating records -/

/-- The parameter loop of `CreateRecord`, Vault.cpp lines 449-483. -/
def applyParams (vo : Obj K V Ty) : List (K × V) → List (K × V) → Except (Res K) (List (K × V))
  | [], data => .ok data
  | (k, v) :: l, data => match mget data k with
    | none => .error (.bad .WrongKey (some k))
    | some v0 => if typeOf v0 = typeOf v then applyParams vo l (mput data k v) else .error (.bad .WrongType (some k))

/-- The loop over the unique keys, Vault.cpp lines 492-503: columns after it, or the clashing key together with the columns
and the keys added so far. A missing column (line 495 dereferences `find`) is undefined. -/
def addUniques (data : List (K × V)) (r : Nat) :
    List K → List (K × Col V Ty) → List K → Option (List (K × Col V Ty) × Option (K × List K))
  | [], cols, _ => some (cols, none)
  | k :: l, cols, done => match mget cols k with
    | none => none
    | some c => match c.add (c.addVal data k) r with
      | (c', true) => addUniques data r l (mput cols k c') (done ++ [k])
      | (_, false) => some (cols, some (k, done))

/-- The roll-back, Vault.cpp lines 509-510. -/
def eraseKeys (data : List (K × V)) (r : Nat) : List K → List (K × Col V Ty) → List (K × Col V Ty)
  | [], cols => cols
  | k :: l, cols => match mget cols k with
    | none => eraseKeys data r l cols
    | some c => eraseKeys data r l (mput cols k (c.erase (c.oldVal data k) r))

/-- Insertion of a complete new record, Vault.cpp lines 486-535 and 143-174. -/
def insertRecord (w : World K V Ty) (o : Nat) (data : List (K × V)) : Option (World K V Ty × Except K Nat) := do
  let vo ← w.getObj o
  let r := w.nextR
  let (cols, clash) ← addUniques data r vo.uniq vo.cols []
  match clash with
  | some (k, done) => some (w.putObj o { vo with cols := eraseKeys data r done cols }, .error k)
  | none =>
    let w1 : World K V Ty := { w with recs := mput w.recs r ⟨data, true, 0, []⟩, nextR := r + 1 }
    some (w1.putObj o { vo with cols := addCols cols data r, recs := vo.recs ++ [r] }, .ok r)

/-- `Vault::CreateRecord(ref, params)`, Vault.cpp lines 436-539. Key reported on success: that of the last parameter. -/
def createRecord (w : World K V Ty) (o f : Nat) (ps : List (K × V)) : Option (World K V Ty × Res K) := do
  let vo ← w.getObj o
  match applyParams vo ps vo.tmpl with
  | .error e => some (w, e)
  | .ok data => do
    let (w1, out) ← insertRecord w o data
    match out with
    | .error k => some (w1, .bad .UniqueKeyValueAlredyInSet (some k))
    | .ok r => (setRecord w1 f (some r) o).map (·, .good (ps.getLast?.map (·.1)))

/-- `Vault::CreateRecord(params)`, Vault.cpp lines 428-434, which calls the function above with a temporary reference. Also
one accepted row of a file, Vault.cpp lines 143-174. Simplification: the temporary reference is not a variable of its own (it
adds one to the counter of the new record and its destructor takes it away again). -/
def createRow (w : World K V Ty) (o : Nat) (ps : List (K × V)) : Option (World K V Ty × Res K) := do
  let vo ← w.getObj o
  match applyParams vo ps vo.tmpl with
  | .error e => some (w, e)
  | .ok data => do
    let (w1, out) ← insertRecord w o data
    match out with
    | .error k => some (w1, .bad .UniqueKeyValueAlredyInSet (some k))
    | .ok _ => some (w1, .good (ps.getLast?.map (·.1)))

/-! ### Look-ups and requests -/

/-- `Vault::GetRecord`, Vault.hpp lines 671-726. For a set (VaultRecordSet.hpp lines 90-112) the reference is afterwards
pointed at the parent vault (line 102), also when the look-up failed. -/
def getRecord (env : Env) (w : World K V Ty) (o : Nat) (k : K) (v : V) (f : Nat) : Option (World K V Ty × Res K) := do
  let vo ← w.getObj o
  match checkKey vo k (typeOf v) with
  | .error e => some (w, e)
  | .ok c => match equalRange env c v with
    | [] => (setRecord w f none o).map (·, .bad .WrongValue (some k))
    | r :: _ => (setRecord w f (some r) o).map (·, .good (some k))

/-- `Vault::GetRecords`, Vault.hpp lines 728-791: new reference variables (simplification: the elements of the passed vector
are destroyed by separate reset operations). The amount is compared after each addition. -/
def getRecords (env : Env) (w : World K V Ty) (o : Nat) (k : K) (v : V) (n : Nat) : Option (World K V Ty × Res K) := do
  let vo ← w.getObj o
  match checkKey vo k (typeOf v) with
  | .error e => some (w, e)
  | .ok c => match equalRange env c v with
    | [] => some (w, .bad .WrongValue (some k))
    | l => (loop (fun w r => newRefTo w r o) (l.take (max n 1)) w).map (·, .good (some k))

/-- VaultRequest.h: kinds of simple requests. -/
inductive ReqType | Equal | Greater | GreaterOrEqual | Less | LessOrEqual | Interval deriving DecidableEq

/-- Number of entries before `LowerBound(v)`, Map.h line 464. -/
def lowerIdx (l : List (V × Nat)) (v : V) : Nat := (l.takeWhile (fun e => decide (e.1 < v))).length
/-- Number of entries before `UpperBound(v)`, Map.h line 479. -/
def upperIdx (l : List (V × Nat)) (v : V) : Nat := (l.takeWhile (fun e => decide (e.1 ≤ v))).length

/-- Iteration from position `i` to position `j`; running past the end is undefined. Vault.hpp lines 180-262. -/
def iterRange (l : List (V × Nat)) (i j : Nat) : Option (List Nat) :=
  if i ≤ j then some (((l.drop i).take (j - i)).map (·.2)) else none

/-- The records visited by `RequestRecordsSet`, Vault.hpp lines 157-243. -/
def visited (env : Env) (c : Col V Ty) (t : ReqType) (a b : V) (ia ib : Bool) : Option (List Nat) :=
  match t with
  | .Equal => some (equalRange env c a)
  | .GreaterOrEqual => iterRange c.ord (lowerIdx c.ord a) c.ord.length
  | .Greater => iterRange c.ord (upperIdx c.ord a) c.ord.length
  | .Less => iterRange c.ord 0 (lowerIdx c.ord b)
  | .LessOrEqual => iterRange c.ord 0 (upperIdx c.ord a)
  | .Interval =>
    if b < a ∨ (a = b ∧ (ia = false ∨ ib = false)) then iterRange c.ord c.ord.length c.ord.length
    else iterRange c.ord (if ia = true then lowerIdx c.ord a else upperIdx c.ord a)
      (if ib = true then upperIdx c.ord b else lowerIdx c.ord b)

/-- `Vault::RequestRecordsSet`, Vault.hpp lines 128-269: records added to the passed `std::unordered_set` `acc`. The counter
counts visited records, also those refused by the predicate. -/
def requestSet (env : Env) (vo : Obj K V Ty) (t : ReqType) (k : K) (a b : V) (ia ib : Bool) (n : Option Nat) (pred : Nat → Bool)
    (acc : List Nat) : Option (Except (Res K) (List Nat)) :=
  match checkKey vo k (typeOf a) with
  | .error e => some (.error e)
  | .ok c => (visited env c t a (castTo (typeOf a) b) ia ib).map fun l =>
      .ok (((match n with | none => l | some n => l.take n).filter pred).foldl setIns acc)

/-- A `VaultRequest` tree, VaultRequest.h / VaultRequest.hpp lines 8-41 (leaves) and 43-113 (`And`, `Or`). -/
inductive Req (K V : Type)
  | leaf (t : ReqType) (k : K) (v : V) (pred : Nat → Bool)
  | and (a b : Req K V)
  | or (a b : Req K V)

/-- `VaultRequest::Request`, VaultRequest.hpp lines 52-132: the union, the intersection and the interval fast path of
lines 75-87. The fast path reads the second value as the type of the first one (undefined when they differ). An error is the
thrown `VaultOperationResult`. Leaves are never of kind Interval (the constructors Less, LessOrEqual, Equal, GreaterOrEqual,
Greater exist only). -/
def evalReq (env : Env) (vo : Obj K V Ty) : Req K V → Option (Except (Res K) (List Nat))
  | .leaf t k v pred => requestSet env vo t k v v false false none pred []
  | .or a b => do
    let ra ← evalReq env vo a
    match ra with
    | .error e => some (.error e)
    | .ok la => do
      let rb ← evalReq env vo b
      match rb with
      | .error e => some (.error e)
      | .ok lb => some (.ok ((la ++ lb).foldl setIns []))
  | .and a b =>
    match a, b with
    | .leaf t1 k1 v1 p1, .leaf t2 k2 v2 p2 =>
      if k1 = k2 ∧ (t1 = .Greater ∨ t1 = .GreaterOrEqual) ∧ (t2 = .Less ∨ t1 = .LessOrEqual) then
        if typeOf v1 ≠ typeOf v2 then none
        else requestSet env vo .Interval k1 v1 v2 (decide (t1 = .GreaterOrEqual)) (decide (t2 = .LessOrEqual)) none
          (fun r => p1 r && p2 r) []
      else do
        let ra ← requestSet env vo t1 k1 v1 v1 false false none p1 []
        match ra with
        | .error e => some (.error e)
        | .ok la => do
          let rb ← requestSet env vo t2 k2 v2 v2 false false none p2 []
          match rb with
          | .error e => some (.error e)
          | .ok lb => some (.ok (la.filter (· ∈ lb)))
    | a, b => do
      let ra ← evalReq env vo a
      match ra with
      | .error e => some (.error e)
      | .ok la => do
        let rb ← evalReq env vo b
        match rb with
        | .error e => some (.error e)
        | .ok lb => some (.ok (la.filter (· ∈ lb)))

/-- Key copiers, Vault.hpp lines 519-522: `AddKey(key, default)` on object `s` for every key of `src`. -/
def copyKeys (env : Env) (src : Obj K V Ty) (w : World K V Ty) (s : Nat) : Option (World K V Ty) :=
  loop (fun w (kc : K × Col V Ty) => (addKeyLocal env w s kc.1 kc.2.dflt).map (·.1)) src.cols w

/-- Preparing the target set `s` of a request on object `o` with vault `p`: Vault.hpp lines 284-308 (`o = p`) and
VaultRecordSet.hpp lines 26-47. -/
def prepTarget (env : Env) (w : World K V Ty) (o p s : Nat) : Option (World K V Ty) := do
  let po ← w.getObj p
  let w1 := w.putObj p { po with sets := setIns po.sets s }
  let so ← w1.getObj s
  if so.parent = some p then setClear env w1 s else do
    let w2 ← setReset env w1 s
    let so ← w2.getObj s
    let w3 := w2.putObj s { so with parent := some p }
    let oo ← w3.getObj o
    let w4 ← copyKeys env oo w3 s
    let so ← w4.getObj s
    some (w4.putObj s { so with keysOrder := oo.keysOrder, uniq := oo.uniq })

/-- Adding a record to a set: adders and `AddToDependentSets`, Vault.hpp lines 312-319. -/
def attach (s : Nat) (w : World K V Ty) (r : Nat) : Option (World K V Ty) := do
  let so ← w.getObj s
  let x ← w.getRec r
  addDep s (w.putObj s { so with cols := addCols so.cols x.data r }) r

/-- Putting the found records into the target set, Vault.hpp lines 310-321. -/
def fillTarget (env : Env) (w : World K V Ty) (s : Nat) (l : List Nat) : Option (World K V Ty) := do
  let so ← w.getObj s
  let rs := l.foldl setIns so.recs
  let w1 := w.putObj s { so with recs := rs }
  loop (attach s) (env.perm rs) w1

/-- `Vault::RequestRecords` (`o` a vault), Vault.hpp lines 271-322, and `VaultRecordSet::RequestRecords` (`o` a set),
VaultRecordSet.hpp lines 8-64. -/
def request (env : Env) (w : World K V Ty) (o : Nat) (t : ReqType) (k : K) (a b : V) (ia ib : Bool) (n : Option Nat)
    (pred : Nat → Bool) (s : Nat) : Option (World K V Ty × Res K) := do
  let oo ← w.getObj o
  match (if oo.isSet = true then oo.parent else some o) with
  | none => some (w, .bad .ParentVaultNotValid (some k))
  | some p =>
    if o = s then some (w, .bad .SameVaultRecordSet (some k)) else do
    let w1 ← prepTarget env w o p s
    let oo ← w1.getObj o
    let out ← requestSet env oo t k a b ia ib n pred []
    match out with
    | .error e => some (w1, e)
    | .ok l => (fillTarget env w1 s l).map (·, .good (some k))

/-- `Vault::Request`, Vault.hpp lines 874-935, and `VaultRecordSet::Request`, VaultRecordSet.hpp lines 199-250. -/
def requestTree (env : Env) (w : World K V Ty) (o : Nat) (q : Req K V) (s : Nat) : Option (World K V Ty × Res K) := do
  let oo ← w.getObj o
  match (if oo.isSet = true then oo.parent else some o) with
  | none => some (w, .bad .ParentVaultNotValid none)
  | some p =>
    if o = s then some (w, .bad .SameVaultRecordSet none) else do
    let w1 ← prepTarget env w o p s
    let oo ← w1.getObj o
    let out ← evalReq env oo q
    match out with
    | .error e => (setClear env w1 s).map (·, e)
    | .ok l => (fillTarget env w1 s l).map (·, .good none)

/-- `Vault::GetSortedRecords`, Vault.cpp lines 651-675 with the sorter of Vault.hpp lines 503-517; for a set
VaultRecordSet.cpp lines 327-340 (the references then point to the set object itself): new reference variables. An unknown
key, or a set without parent, gives none. -/
def sortedIds (vo : Obj K V Ty) (k : K) (rev : Bool) (n : Option Nat) : List Nat :=
  match mget vo.cols k with
  | none => []
  | some c =>
    let l := (if rev = true then c.ord.reverse else c.ord).map (·.2)
    match n with | none => l | some n => l.take n

/-- See `sortedIds`. Vault.cpp lines 651-675. -/
def getSorted (w : World K V Ty) (o : Nat) (k : K) (rev : Bool) (n : Option Nat) : Option (World K V Ty) := do
  let vo ← w.getObj o
  if vo.isSet = true ∧ vo.parent = none then some w
  else loop (fun w r => newRefTo w r o) (sortedIds vo k rev n) w

/-- The callback calls made by `Vault::SortBy`, Vault.cpp lines 677-699: records passed to the callback, in order. The
callback is called while fewer than `n` calls have answered true, and stops the iteration by answering false. -/
def sortByCalls (f : Nat → Bool) : List Nat → Option Nat → List Nat
  | [], _ => []
  | _ :: _, some 0 => []
  | r :: l, n => if f r = true then r :: sortByCalls f l (n.map (· - 1)) else [r]

/-! ### Record sets -/

/-- `VaultRecordSet::AddRecord`, VaultRecordSet.cpp lines 179-229. -/
def setAddRecord (w : World K V Ty) (s f : Nat) : Option (World K V Ty × Res K) := do
  let so ← w.getObj s
  match so.parent with
  | none => some (w, .bad .ParentVaultNotValid none)
  | some p => do
    let ref ← w.refs[f]?
    let val ← refIsValid w f
    if val = false then some (w, .bad .DataRecordNotValid none)
    else if ref.vlt ≠ some p then some (w, .bad .ParentVaultNotMatch none)
    else match ref.ptr with
      | none => none
      | some r =>
        if r ∈ so.recs then some (w, .bad .RecordAlredyInSet none)
        else (attach s (w.putObj s { so with recs := so.recs ++ [r] }) r).map (·, .good none)

/-- `VaultRecordSet::RemoveRecord(ref)`, VaultRecordSet.cpp lines 278-286. -/
def setRemoveRef (env : Env) (w : World K V Ty) (s f : Nat) : Option (World K V Ty × Bool) := do
  let so ← w.getObj s
  if so.parent = none then some (w, false) else eraseRef env w s f

/-- `VaultRecordSet::RemoveRecord(key, value)`, VaultRecordSet.hpp lines 253-278. -/
def setRemoveKV (env : Env) (w : World K V Ty) (s : Nat) (k : K) (v : V) : Option (World K V Ty × Res K) := do
  let so ← w.getObj s
  if so.parent = none then some (w, .bad .ParentVaultNotValid (some k)) else eraseKV env w s k v

/-- `VaultRecordSet::RemoveRecords`, VaultRecordSet.hpp lines 280-305. -/
def setRemoveManyKV (env : Env) (w : World K V Ty) (s : Nat) (k : K) (v : V) (n : Nat) : Option (World K V Ty × Res K) := do
  let so ← w.getObj s
  if so.parent = none then some (w, .bad .ParentVaultNotValid (some k)) else eraseManyKV env w s k v n

/-- `VaultRecordSet::GetRecord`, VaultRecordSet.hpp lines 90-112. -/
def setGetRecord (env : Env) (w : World K V Ty) (s : Nat) (k : K) (v : V) (f : Nat) : Option (World K V Ty × Res K) := do
  let so ← w.getObj s
  match so.parent with
  | none => some (w, .bad .ParentVaultNotValid (some k))
  | some p => do
    let (w1, res) ← getRecord env w s k v f
    let ref ← w1.refs[f]?
    some ({ w1 with refs := w1.refs.set f ⟨ref.ptr, some p⟩ }, res)

/-- `VaultRecordSet::GetRecords`, VaultRecordSet.hpp lines 114-138. -/
def setGetRecords (env : Env) (w : World K V Ty) (s : Nat) (k : K) (v : V) (n : Nat) : Option (World K V Ty × Res K) := do
  let so ← w.getObj s
  match so.parent with
  | none => some (w, .bad .ParentVaultNotValid (some k))
  | some p => do
    let _ ← w.getObj p
    match checkKey so k (typeOf v) with
    | .error e => some (w, e)
    | .ok c => match equalRange env c v with
      | [] => some (w, .bad .WrongValue (some k))
      | l => (loop (fun w r => newRefTo w r p) (l.take (max n 1)) w).map (·, .good (some k))

/-- Error checks of `Join`, `Exclude`, `Intersect`, VaultRecordSet.cpp lines 391-414. -/
def setOpCheck (so ao : Obj K V Ty) (s a : Nat) : Option Code :=
  if so.parent = none then some .ParentVaultNotValid
  else if ao.parent = none then some .OtherParentVaultNotValid
  else if ao.parent ≠ so.parent then some .ParentVaultNotMatch
  else if s = a then some .SameVaultRecordSet
  else none

/-- Adders only: the records are not told about the set (VaultRecordSet.cpp lines 420-429, 664-690). -/
def addOnly (s : Nat) (w : World K V Ty) (r : Nat) : Option (World K V Ty) := do
  let so ← w.getObj s
  if r ∈ so.recs then some w else do
    let x ← w.getRec r
    some (w.putObj s { so with recs := so.recs ++ [r], cols := addCols so.cols x.data r })

/-- `VaultRecordSet::Join`, VaultRecordSet.cpp lines 383-433. -/
def setJoin (env : Env) (w : World K V Ty) (s a : Nat) : Option (World K V Ty × Res K) := do
  let so ← w.getObj s
  let ao ← w.getObj a
  match setOpCheck so ao s a with
  | some c => some (w, .bad c none)
  | none => (loop (addOnly s) (env.perm ao.recs) w).map (·, .good none)

/-- `VaultRecordSet::Exclude`, VaultRecordSet.cpp lines 435-483. -/
def setExclude (env : Env) (w : World K V Ty) (s a : Nat) : Option (World K V Ty × Res K) := do
  let so ← w.getObj s
  let ao ← w.getObj a
  match setOpCheck so ao s a with
  | some c => some (w, .bad c none)
  | none => (loop (fun w r => (removeRecord env w s r).map (·.1)) ((env.perm so.recs).filter (· ∈ ao.recs)) w).map (·, .good none)

/-- `VaultRecordSet::Intersect`, VaultRecordSet.cpp lines 485-533. -/
def setIntersect (env : Env) (w : World K V Ty) (s a : Nat) : Option (World K V Ty × Res K) := do
  let so ← w.getObj s
  let ao ← w.getObj a
  match setOpCheck so ao s a with
  | some c => some (w, .bad c none)
  | none => (loop (fun w r => (removeRecord env w s r).map (·.1)) ((env.perm so.recs).filter (· ∉ ao.recs)) w).map (·, .good none)

/-- `VaultRecordSet::CopySet`, VaultRecordSet.cpp lines 13-42, `s` receiving from `a`. -/
def copySet (env : Env) (w : World K V Ty) (s a : Nat) : Option (World K V Ty) := do
  let ao ← w.getObj a
  let p ← ao.parent
  let _ ← w.getObj p
  let so ← w.getObj s
  let w1 := w.putObj s { so with isBase := false, parent := some p }
  let w2 ← copyKeys env ao w1 s
  let so ← w2.getObj s
  let w3 := w2.putObj s { so with keysOrder := ao.keysOrder, uniq := ao.uniq }
  let po ← w3.getObj p
  let w4 := w3.putObj p { po with sets := setIns po.sets s }
  loop (fun w r => do
    let so ← w.getObj s
    attach s (w.putObj s { so with recs := setIns so.recs r }) r) (env.perm ao.recs) w4

/-- Copy constructor, VaultRecordSet.cpp lines 86-92: `Vault()` sets `VaultDerivedClass` to `VaultBase` and `CopySet` is
skipped when the source has no parent, so such a copy stays flagged `VaultBase`. -/
def setCopyNew (env : Env) (w : World K V Ty) (a : Nat) : Option (World K V Ty) := do
  let ao ← w.getObj a
  let s := w.nextO
  let w1 : World K V Ty := { w with objs := mput w.objs s { Obj.newSet with isBase := true }, nextO := s + 1 }
  if ao.parent = none then some w1 else copySet env w1 s a

/-- Copy assignment, VaultRecordSet.cpp lines 94-106. -/
def setAssign (env : Env) (w : World K V Ty) (s a : Nat) : Option (World K V Ty) := do
  let _ ← w.getObj s
  let ao ← w.getObj a
  if s = a then some w else do
    let w1 ← setReset env w s
    if ao.parent = none then some w1 else copySet env w1 s a

/-- `EraseDependentSet(&other); AddToDependentSets(this)`, VaultRecordSet.cpp lines 53-57. -/
def moveDep (s a : Nat) (w : World K V Ty) (r : Nat) : Option (World K V Ty) := do
  let w1 ← eraseDep a w r
  addDep s w1 r

/-- `VaultRecordSet::MoveSet`, VaultRecordSet.cpp lines 45-75, `s` receiving from `a`. The indices of `a` are not moved. -/
def moveSet (env : Env) (w : World K V Ty) (s a : Nat) : Option (World K V Ty) := do
  let ao ← w.getObj a
  let p ← ao.parent
  let _ ← w.getObj p
  let w1 ← loop (moveDep s a) (env.perm ao.recs) w
  let so ← w1.getObj s
  let w2 := w1.putObj s { so with isBase := false, parent := some p }
  let w3 := w2.putObj a { ao with parent := none, recs := [], keysOrder := [], uniq := [] }
  let w4 ← copyKeys env ao w3 s
  let so ← w4.getObj s
  let w5 := w4.putObj s { so with keysOrder := ao.keysOrder, uniq := ao.uniq, recs := ao.recs }
  let po ← w5.getObj p
  some (w5.putObj p { po with sets := setIns (po.sets.filter (· ≠ a)) s })

/-- Move constructor, VaultRecordSet.cpp lines 108-114. -/
def setMoveNew (env : Env) (w : World K V Ty) (a : Nat) : Option (World K V Ty) := do
  let ao ← w.getObj a
  let s := w.nextO
  let w1 : World K V Ty := { w with objs := mput w.objs s { Obj.newSet with isBase := true }, nextO := s + 1 }
  if ao.parent = none then some w1 else moveSet env w1 s a

/-- Move assignment, VaultRecordSet.cpp lines 116-129: no `Reset` of the target before `MoveSet`. -/
def setMoveAssign (env : Env) (w : World K V Ty) (s a : Nat) : Option (World K V Ty) := do
  let _ ← w.getObj s
  let ao ← w.getObj a
  if s = a then some w
  else if ao.parent = none then setReset env w s else moveSet env w s a

/-- `Union`, VaultRecordSet.cpp lines 581-614. -/
def setUnion (env : Env) (w : World K V Ty) (a b s : Nat) : Option (World K V Ty × Res K) := do
  let ao ← w.getObj a
  let bo ← w.getObj b
  let _ ← w.getObj s
  if a = b ∨ a = s ∨ b = s then some (w, .bad .SameVaultRecordSet none)
  else if ao.parent = none then some (w, .bad .ParentVaultNotValid none)
  else if bo.parent = none then some (w, .bad .OtherParentVaultNotValid none)
  else if ao.parent ≠ bo.parent then some (w, .bad .ParentVaultNotMatch none)
  else do
    let w1 ← setAssign env w s a
    setJoin env w1 s b

/-- `Intersection`, VaultRecordSet.cpp lines 616-700. -/
def setIntersection (env : Env) (w : World K V Ty) (a b s : Nat) : Option (World K V Ty × Res K) := do
  let ao ← w.getObj a
  let bo ← w.getObj b
  let _ ← w.getObj s
  if a = b ∨ a = s ∨ b = s then some (w, .bad .SameVaultRecordSet none)
  else match ao.parent with
  | none => some (w, .bad .ParentVaultNotValid none)
  | some p =>
    if bo.parent = none then some (w, .bad .OtherParentVaultNotValid none)
    else if bo.parent ≠ some p then some (w, .bad .ParentVaultNotMatch none)
    else do
      let w1 ← setReset env w s
      let so ← w1.getObj s
      let w2 := w1.putObj s { so with parent := some p }
      let w3 ← copyKeys env ao w2 s
      let so ← w3.getObj s
      let w4 := w3.putObj s { so with keysOrder := ao.keysOrder, uniq := ao.uniq }
      let po ← w4.getObj p
      let w5 := w4.putObj p { po with sets := setIns po.sets s }
      (loop (addOnly s) (if ao.recs.length < bo.recs.length then (env.perm ao.recs).filter (· ∈ bo.recs)
        else (env.perm bo.recs).filter (· ∈ ao.recs)) w5).map (·, .good none)

/-- `operator==` of sets, VaultRecordSet.cpp lines 557-567 (`std::unordered_set` comparison). -/
def setEq (w : World K V Ty) (a b : Nat) : Option Bool := do
  let ao ← w.getObj a
  let bo ← w.getObj b
  some (decide (ao.parent = bo.parent ∧ ao.recs.length = bo.recs.length ∧ ∀ r ∈ ao.recs, r ∈ bo.recs))

/-! ### Vault and set life time -/

/-- `Vault::Vault()`, Vault.cpp lines 182-187. -/
def newVault (w : World K V Ty) : World K V Ty := { w with objs := mput w.objs w.nextO Obj.newVault, nextO := w.nextO + 1 }

/-- `VaultRecordSet::VaultRecordSet()`, VaultRecordSet.cpp lines 77-83. -/
def newSet (w : World K V Ty) : World K V Ty := { w with objs := mput w.objs w.nextO Obj.newSet, nextO := w.nextO + 1 }

/-- `Vault::~Vault`, Vault.cpp lines 1055-1060. -/
def destroyVault (env : Env) (w : World K V Ty) (o : Nat) : Option (World K V Ty) := do
  let w1 ← dropVault env w o
  some { w1 with objs := mdel w1.objs o }

/-- `VaultRecordSet::~VaultRecordSet`, VaultRecordSet.cpp lines 550-555, followed by `Vault::~Vault`. -/
def destroySet (env : Env) (w : World K V Ty) (s : Nat) : Option (World K V Ty) := do
  let w1 ← setReset env w s
  let w2 ← dropVault env w1 s
  some { w2 with objs := mdel w2.objs s }

/-- Copying one record into a copied vault, Vault.cpp lines 207-218: a new record with the same data; all adders. -/
def copyOne (o : Nat) (w : World K V Ty) (r : Nat) : Option (World K V Ty) := do
  let x ← w.getRec r
  let vo ← w.getObj o
  let n := w.nextR
  let w1 : World K V Ty := { w with recs := mput w.recs n ⟨x.data, true, 0, []⟩, nextR := n + 1 }
  some (w1.putObj o { vo with recs := vo.recs ++ [n], cols := addCols vo.cols x.data n })

/-- Common part of copy construction and copy assignment, Vault.cpp lines 197-218 and 236-255: vault `o` receives from `a`.
The key copiers create multi containers with the defaults given to AddKey, also for unique keys. -/
def copyInto (env : Env) (w : World K V Ty) (o a : Nat) : Option (World K V Ty) := do
  let ao ← w.getObj a
  let w1 ← copyKeys env ao w o
  let vo ← w1.getObj o
  let w2 := w1.putObj o { vo with keysOrder := ao.keysOrder, uniq := ao.uniq }
  loop (copyOne o) (env.perm ao.recs) w2

/-- Copy constructor, Vault.cpp lines 189-219. -/
def vaultCopyNew (env : Env) (w : World K V Ty) (a : Nat) : Option (World K V Ty) := copyInto env (newVault w) w.nextO a

/-- Copy assignment, Vault.cpp lines 221-259. -/
def vaultAssign (env : Env) (w : World K V Ty) (o a : Nat) : Option (World K V Ty) :=
  if o = a then some w else do
    let w1 ← dropVault env w o
    copyInto env w1 o a

/-- Moving the members, Vault.cpp lines 269-282: the parents of the sets and the vaults of the references stay `a`. -/
def moveInto (w : World K V Ty) (o a : Nat) : Option (World K V Ty) := do
  let ao ← w.getObj a
  let vo ← w.getObj o
  let w1 := w.putObj o { vo with tmpl := ao.tmpl, cols := ao.cols, keysOrder := ao.keysOrder, uniq := ao.uniq, recs := ao.recs, sets := ao.sets }
  some (w1.putObj a { ao with tmpl := [], cols := [], keysOrder := [], uniq := [], recs := [], sets := [] })

/-- Move constructor, Vault.cpp lines 261-283. -/
def vaultMoveNew (w : World K V Ty) (a : Nat) : Option (World K V Ty) := moveInto (newVault w) w.nextO a

/-- Move assignment, Vault.cpp lines 285-314. -/
def vaultMoveAssign (env : Env) (w : World K V Ty) (o a : Nat) : Option (World K V Ty) :=
  if o = a then some w else do
    let w1 ← dropVault env w o
    moveInto w1 o a

/-! ### Histories -/

/-- All operations that change the world. The non-const functions of Vault.h, VaultRecordSet.h, VaultRecordRef.h; the lines are given with the functions above. -/
inductive Op (K V Ty : Type)
  | newVault | newSet | newRef
  | destroyVault (o : Nat) | destroySet (s : Nat)
  | refCopy (f g : Nat) | refMove (f g : Nat) | refReset (f : Nat)
  | refSetData (f : Nat) (k : K) (v : V) | refSetDataMany (f : Nat) (ps : List (K × V))
  | addKey (o : Nat) (k : K) (d : V)
  | addUniqueKey (o : Nat) (k : K) (t : Ty) (noFn : Bool) (f : Nat → Nat → Nat → V)
  | updateKey (o : Nat) (k : K) (d : V) | removeKey (o : Nat) (k : K)
  | createRecord (o f : Nat) (ps : List (K × V)) | createRow (o : Nat) (ps : List (K × V))
  | eraseRef (o f : Nat) | eraseKV (o : Nat) (k : K) (v : V) | eraseManyKV (o : Nat) (k : K) (v : V) (n : Nat)
  | dropData (o : Nat) | dropVault (o : Nat)
  | getRecord (o : Nat) (k : K) (v : V) (f : Nat) | getRecords (o : Nat) (k : K) (v : V) (n : Nat)
  | getSorted (o : Nat) (k : K) (rev : Bool) (n : Option Nat)
  | request (o : Nat) (t : ReqType) (k : K) (a b : V) (ia ib : Bool) (n : Option Nat) (pred : Nat → Bool) (s : Nat)
  | requestTree (o : Nat) (q : Req K V) (s : Nat)
  | setAddRecord (s f : Nat) | setRemoveRef (s f : Nat) | setRemoveKV (s : Nat) (k : K) (v : V)
  | setRemoveManyKV (s : Nat) (k : K) (v : V) (n : Nat) | setClear (s : Nat) | setReset (s : Nat)
  | setGetRecord (s : Nat) (k : K) (v : V) (f : Nat) | setGetRecords (s : Nat) (k : K) (v : V) (n : Nat)
  | setJoin (s a : Nat) | setExclude (s a : Nat) | setIntersect (s a : Nat)
  | setUnion (a b s : Nat) | setIntersection (a b s : Nat)
  | setCopyNew (a : Nat) | setAssign (s a : Nat) | setMoveNew (a : Nat) | setMoveAssign (s a : Nat)
  | vaultCopyNew (a : Nat) | vaultAssign (o a : Nat) | vaultMoveNew (a : Nat) | vaultMoveAssign (o a : Nat)

/-- Is object `o` a live vault? C++ typing: vault functions are called on vaults. Class of the object, Vault.h. -/
def isVault (w : World K V Ty) (o : Nat) : Bool := match w.getObj o with | some x => !x.isSet | none => false
/-- Is object `o` a live set? C++ typing: set functions are called on sets. Class of the object, VaultRecordSet.h. -/
def isSetObj (w : World K V Ty) (o : Nat) : Bool := match w.getObj o with | some x => x.isSet | none => false

/-- Run a vault function on a vault only; a wrong class is impossible in C++, a destroyed object is undefined. Vault.h. -/
def onVault {A : Type} (w : World K V Ty) (o : Nat) (x : Option A) : Option A := if isVault w o = true then x else none
/-- Run a set function on a set only. VaultRecordSet.h. -/
def onSet {A : Type} (w : World K V Ty) (o : Nat) (x : Option A) : Option A := if isSetObj w o = true then x else none

/-- One operation; `none` is undefined behaviour. The lines are given with the functions it calls. -/
def step (env : Env) (w : World K V Ty) : Op K V Ty → Option (World K V Ty)
  | .newVault => some (newVault w)
  | .newSet => some (newSet w)
  | .newRef => some (newRef w)
  | .destroyVault o => onVault w o (destroyVault env w o)
  | .destroySet s => onSet w s (destroySet env w s)
  | .refCopy f g => refCopy w f g
  | .refMove f g => refMove w f g
  | .refReset f => refReset w f
  | .refSetData f k v => (refSetData env w f k v).map (·.1)
  | .refSetDataMany f ps => (refSetDataMany env w f ps).map (·.1)
  | .addKey o k d => onVault w o ((addKey env w o k d).map (·.1))
  | .addUniqueKey o k t noFn f => onVault w o ((addUniqueKey env w o k t noFn f).map (·.1))
  | .updateKey o k d => onVault w o ((updateKey w o k d).map (·.1))
  | .removeKey o k => onVault w o ((removeKey env w o k).map (·.1))
  | .createRecord o f ps => onVault w o ((createRecord w o f ps).map (·.1))
  | .createRow o ps => onVault w o ((createRow w o ps).map (·.1))
  | .eraseRef o f => onVault w o ((eraseRef env w o f).map (·.1))
  | .eraseKV o k v => onVault w o ((eraseKV env w o k v).map (·.1))
  | .eraseManyKV o k v n => onVault w o ((eraseManyKV env w o k v n).map (·.1))
  | .dropData o => onVault w o (dropData env w o)
  | .dropVault o => onVault w o (dropVault env w o)
  | .getRecord o k v f => onVault w o ((getRecord env w o k v f).map (·.1))
  | .getRecords o k v n => onVault w o ((getRecords env w o k v n).map (·.1))
  | .getSorted o k rev n => getSorted w o k rev n
  | .request o t k a b ia ib n pred s => onSet w s ((request env w o t k a b ia ib n pred s).map (·.1))
  | .requestTree o q s => onSet w s ((requestTree env w o q s).map (·.1))
  | .setAddRecord s f => onSet w s ((setAddRecord w s f).map (·.1))
  | .setRemoveRef s f => onSet w s ((setRemoveRef env w s f).map (·.1))
  | .setRemoveKV s k v => onSet w s ((setRemoveKV env w s k v).map (·.1))
  | .setRemoveManyKV s k v n => onSet w s ((setRemoveManyKV env w s k v n).map (·.1))
  | .setClear s => onSet w s (setClear env w s)
  | .setReset s => onSet w s (setReset env w s)
  | .setGetRecord s k v f => onSet w s ((setGetRecord env w s k v f).map (·.1))
  | .setGetRecords s k v n => onSet w s ((setGetRecords env w s k v n).map (·.1))
  | .setJoin s a => onSet w s (onSet w a ((setJoin env w s a).map (·.1)))
  | .setExclude s a => onSet w s (onSet w a ((setExclude env w s a).map (·.1)))
  | .setIntersect s a => onSet w s (onSet w a ((setIntersect env w s a).map (·.1)))
  | .setUnion a b s => onSet w s (onSet w a (onSet w b ((setUnion env w a b s).map (·.1))))
  | .setIntersection a b s => onSet w s (onSet w a (onSet w b ((setIntersection env w a b s).map (·.1))))
  | .setCopyNew a => onSet w a (setCopyNew env w a)
  | .setAssign s a => onSet w s (onSet w a (setAssign env w s a))
  | .setMoveNew a => onSet w a (setMoveNew env w a)
  | .setMoveAssign s a => onSet w s (onSet w a (setMoveAssign env w s a))
  | .vaultCopyNew a => onVault w a (vaultCopyNew env w a)
  | .vaultAssign o a => onVault w o (onVault w a (vaultAssign env w o a))
  | .vaultMoveNew a => onVault w a (vaultMoveNew w a)
  | .vaultMoveAssign o a => onVault w o (onVault w a (vaultMoveAssign env w o a))

/-- A history: operations with the iteration orders they met. History of calls, models no single function: the functions of `step`. -/
def run (w : World K V Ty) : List (Env × Op K V Ty) → Option (World K V Ty)
  | [] => some w
  | (env, op) :: l => (step env w op).bind (fun w' => run w' l)

/-- Worlds reached from the empty world by operations that each satisfy `G`, without undefined behaviour on the way. History of calls, models no single function: the functions of `step` (lines given there). -/
inductive Reach (G : World K V Ty → Op K V Ty → Prop) : World K V Ty → Prop
  | init : Reach G World.empty
  | step (w w' : World K V Ty) (env : Env) (op : Op K V Ty) : Reach G w → G w op → step env w op = some w' → Reach G w'

end MVault.W
