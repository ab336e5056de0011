/-
Model of `Source/DataSaver.h`, `Source/DataSaver.cpp` and `Source/DataContainer.h` (single-valued containers
`DataHashMap`, `DataMap`).

`V` is the universe of storable values, `τ : V → Ty` their dynamic type (`typeid`). A `T` variable in client code is
modelled by its type and its current value.
-/
namespace MVault.Cont

section
variable {V Ty : Type} [DecidableEq Ty]

/-- `DataSaver`, DataSaver.h lines 20-45. `ptr` is the heap copy behind `Ptr` (`none` = nullptr), `dataType` the
`std::type_index` (`none` = `typeid(void)`), `funs` the type for which the function pointers `CopyFunc`, `DeleteFunc`,
`ToStringFunc`, `SetDataFromStringFunc` were instantiated (`none` = nullptr), `custom` the custom delete function. -/
structure Saver (V Ty : Type) where
  ptr : Option V
  dataType : Option Ty
  funs : Option Ty
  custom : Option Nat

/-- Default constructor, DataSaver.cpp line 5. -/
def Saver.empty : Saver V Ty := ⟨none, none, none, none⟩

/-- `SetData(data, customDeleteFunc)`, DataSaver.h lines 118-163. -/
def Saver.setData (τ : V → Ty) (_ : Saver V Ty) (data : V) (custom : Option Nat) : Saver V Ty :=
  ⟨some data, some (τ data), some (τ data), custom⟩

/-- `operator=`, DataSaver.cpp lines 13-52, for two different objects (self-assignment is the identity). Assigning
from an empty object only clears the pointer. -/
def Saver.assign (s other : Saver V Ty) : Saver V Ty :=
  match other.ptr with
  | some v => ⟨some v, other.dataType, other.funs, other.custom⟩
  | none => { s with ptr := none }

/-- Copy constructor, DataSaver.cpp lines 7-11. -/
def Saver.copy (other : Saver V Ty) : Saver V Ty := Saver.assign Saver.empty other

/-- `GetData<T>(T& data)`, DataSaver.h lines 174-192: answer and new content of `data`. -/
def Saver.getData (s : Saver V Ty) (T : Ty) (data : V) : Bool × V :=
  if s.dataType ≠ some T then (false, data)
  else match s.ptr with
    | none => (false, data)
    | some v => (true, v)

/-- `ResetData`, DataSaver.cpp lines 59-78; the second component is the custom delete function that gets called. -/
def Saver.resetData (s : Saver V Ty) : Saver V Ty × Option Nat :=
  (⟨none, none, none, none⟩, s.custom)

/-- `Swap`, DataSaver.cpp lines 80-85, for two different objects. Returns `(this, other)`. -/
def Saver.swap (s other : Saver V Ty) : Saver V Ty × Saver V Ty :=
  let tmp := Saver.copy other
  let other' := Saver.assign other s
  (Saver.assign s tmp, other')

/-- `Str`, DataSaver.cpp lines 87-90: `none` = call through a null function pointer (undefined behaviour). With
`funs = some T` and a null `Ptr` the function dereferences null, also undefined. -/
def Saver.str (toStr : V → List Char) (s : Saver V Ty) : Option (List Char) :=
  match s.funs, s.ptr with
  | some _, some v => some (toStr v)
  | _, _ => none

/-- `SetDataFromString`, DataSaver.cpp lines 54-57: parse with the type of the stored value; `none` = undefined
behaviour. `fromStr T s` is `FromString<T>`: `none` = returns false, value left unchanged. -/
def Saver.setDataFromString (fromStr : Ty → List Char → Option V) (s : Saver V Ty) (str : List Char) :
    Option (Bool × Saver V Ty) :=
  match s.funs, s.ptr with
  | some T, some _ =>
    match fromStr T str with
    | some v => some (true, { s with ptr := some v })
    | none => some (false, s)
  | _, _ => none

/-! ### DataContainer -/

variable {K : Type} [DecidableEq K]

/-- `DataContainer<C>`, DataContainer.h lines 26-34, for a map `C` with unique keys, as an association list. -/
abbrev Box (K V Ty : Type) := List (K × Saver V Ty)

/-- `Container.find(key)`. DataContainer.h lines 127, 147, 167, 190. -/
def Box.find (b : Box K V Ty) (k : K) : Option (Saver V Ty) := (List.find? (fun p => p.1 = k) b).map Prod.snd

/-- `findResIt->second = s`. DataContainer.h lines 124-160. -/
def Box.put (b : Box K V Ty) (k : K) (s : Saver V Ty) : Box K V Ty := List.map (fun p => if p.1 = k then (k, s) else p) b

/-- `AddData` / `AddDataFromDataSaver`, DataContainer.h lines 60-90: `emplace`, no effect when the key exists. -/
def Box.add (b : Box K V Ty) (k : K) (s : Saver V Ty) : Box K V Ty :=
  if b.find k = none then (k, s) :: b else b

/-- `SetData(key, data, deleteFunc)`, DataContainer.h lines 116-128. -/
def Box.setData (τ : V → Ty) (b : Box K V Ty) (k : K) (data : V) (custom : Option Nat) : Box K V Ty :=
  match b.find k with
  | none => b.add k (Saver.setData τ Saver.empty data custom)
  | some s => b.put k (s.setData τ data custom)

/-- `SetDataFromDataSaver`, DataContainer.h lines 138-149. -/
def Box.setSaver (b : Box K V Ty) (k : K) (d : Saver V Ty) : Box K V Ty :=
  match b.find k with
  | none => b.add k (Saver.copy d)
  | some s => b.put k (s.assign d)

/-- `GetData<T>(key, data)`, DataContainer.h lines 186-195. The answer of `DataSaver::GetData` is ignored. -/
def Box.getData (b : Box K V Ty) (k : K) (T : Ty) (data : V) : Bool × V :=
  match b.find k with
  | none => (false, data)
  | some s => (true, (s.getData T data).2)

/-- `IsData`, DataContainer.h lines 243-246. -/
def Box.isData (b : Box K V Ty) (k : K) : Bool := (b.find k).isSome

/-- `EraseData`, DataContainer.h lines 254-262. -/
def Box.erase (b : Box K V Ty) (k : K) : Box K V Ty := List.filter (fun p => p.1 ≠ k) b

/-- `Clear`, DataContainer.h lines 269-272. -/
def Box.clear (_ : Box K V Ty) : Box K V Ty := []

/-- `Size`, DataContainer.h lines 279-282. -/
def Box.size (b : Box K V Ty) : Nat := List.length b

/-- `SetDataFromString(key, str)`, DataContainer.h lines 160-171; `none` = undefined behaviour. -/
def Box.setFromString (fromStr : Ty → List Char → Option V) (b : Box K V Ty) (k : K) (str : List Char) :
    Option (Bool × Box K V Ty) :=
  match b.find k with
  | none => some (false, b)
  | some s => (s.setDataFromString fromStr str).map (fun r => (r.1, b.put k r.2))

/-- One mutating call of a container: `AddData`, `SetData`, `AddDataFromDataSaver`, `SetDataFromDataSaver`, `EraseData` and `Clear`, DataContainer.h lines 60-149
and 254-272. The savers given to the third and fourth hold `v`; `c` is the custom delete function. -/
inductive BoxOp (K V : Type)
  | add (k : K) (v : V) (c : Option Nat)
  | set (k : K) (v : V) (c : Option Nat)
  | addSaver (k : K) (v : V) (c : Option Nat)
  | setSaver (k : K) (v : V) (c : Option Nat)
  | erase (k : K)
  | clear

/-- Effect of one mutating call, DataContainer.h lines 60-149 and 254-272. -/
def Box.step (τ : V → Ty) (b : Box K V Ty) : BoxOp K V → Box K V Ty
  | .add k v c => b.add k (Saver.setData τ Saver.empty v c)
  | .set k v c => b.setData τ k v c
  | .addSaver k v c => b.add k (Saver.copy (Saver.setData τ Saver.empty v c))
  | .setSaver k v c => b.setSaver k (Saver.setData τ Saver.empty v c)
  | .erase k => b.erase k
  | .clear => b.clear

end
end MVault.Cont
