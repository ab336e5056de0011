import Verif.ContainerModel
/-
Model of the memory behind `DataSaver` objects (Source/DataSaver.h, DataSaver.cpp): a heap of values, any number of `DataSaver` variables, and every operation on
them with the allocations and deletions it makes. Undefined behaviour (`none`): a call through a null function pointer, use or deletion of memory that is not
allocated, use or deletion of a value as another type than its own, dereferencing null.
-/
namespace MVault.Cont
section
variable {V Ty : Type} [DecidableEq Ty]

/-- A `DataSaver` variable, DataSaver.h lines 21-45: `ptr` is an address (`none` = nullptr), a function pointer is the type it was instantiated for (`none` = nullptr). -/
structure Sv (Ty : Type) where
  ptr : Option Nat
  dataType : Option Ty
  copyF : Option Ty
  delF : Option Ty
  strF : Option Ty
  fromF : Option Ty
  custom : Option Nat

/-- The heap (`cells p = none`: nothing is allocated at `p`), the next unused address, the variables (`none`: destroyed or not yet there), their number, and the calls
of custom delete functions so far with the address they got. -/
structure Hp (V Ty : Type) where
  cells : Nat → Option V
  next : Nat
  vars : Nat → Option (Sv Ty)
  nvars : Nat
  calls : List (Nat × Option Nat)

/-- Nothing yet. -/
def Hp.init : Hp V Ty := ⟨fun _ => none, 0, fun _ => none, 0, []⟩

/-- Store variable `i`. -/
def Hp.put (h : Hp V Ty) (i : Nat) (s : Option (Sv Ty)) : Hp V Ty := { h with vars := fun j => if j = i then s else h.vars j }

/-- `new T(v)`. -/
def Hp.alloc (h : Hp V Ty) (v : V) : Hp V Ty × Nat := ({ h with cells := fun p => if p = h.next then some v else h.cells p, next := h.next + 1 }, h.next)

/-- `delete static_cast<T*>(p)`, DataSaver.h lines 143-146. -/
def Hp.del (τ : V → Ty) (h : Hp V Ty) (f : Option Ty) (p : Nat) : Option (Hp V Ty) :=
  match f, h.cells p with
  | some T, some v => if τ v = T then some { h with cells := fun q => if q = p then none else h.cells q } else none
  | _, _ => none

/-- `if (Ptr != nullptr) DeleteFunc(Ptr);`, DataSaver.h lines 122-124, DataSaver.cpp lines 19-20, 66-68, 97-98. -/
def Hp.delOld (τ : V → Ty) (h : Hp V Ty) (s : Sv Ty) : Option (Hp V Ty) :=
  match s.ptr with
  | none => some h
  | some p => h.del τ s.delF p

/-- `new T(*reinterpret_cast<T*>(src))`, DataSaver.h lines 134-140. -/
def Hp.copyOf (τ : V → Ty) (h : Hp V Ty) (f : Option Ty) (p : Nat) : Option (Hp V Ty × Nat) :=
  match f, h.cells p with
  | some T, some v => if τ v = T then some (h.alloc v) else none
  | _, _ => none

/-- An empty variable, DataSaver.cpp line 5 and DataSaver.h lines 25-45. -/
def Sv.empty : Sv Ty := ⟨none, none, none, none, none, none, none⟩

/-- `SetData(data, customDeleteFunc)` on variable `i`, DataSaver.h lines 118-163. -/
def Hp.setData (τ : V → Ty) (h : Hp V Ty) (i : Nat) (v : V) (custom : Option Nat) : Option (Hp V Ty) := do
  let s ← h.vars i
  let h1 ← h.delOld τ s
  let (h2, p) := h1.alloc v
  let T := some (τ v)
  some (h2.put i (some ⟨some p, T, T, T, T, T, custom⟩))

/-- `operator=` of variables `i` and `j`, DataSaver.cpp lines 13-52. -/
def Hp.assign (τ : V → Ty) (h : Hp V Ty) (i j : Nat) : Option (Hp V Ty) := do
  let s ← h.vars i
  let o ← h.vars j
  if i = j then some h else do
    let h1 ← h.delOld τ s
    match o.ptr with
    | some q => do
      let (h2, p) ← h1.copyOf τ o.copyF q
      some (h2.put i (some ⟨some p, o.dataType, o.copyF, o.delF, o.strF, o.fromF, o.custom⟩))
    | none => some (h1.put i (some { s with ptr := none }))

/-- `if (CustomDeleteFunc != nullptr) CustomDeleteFunc(Ptr);`, DataSaver.cpp lines 61-65. The function gets the address of the value, which may be null. -/
def Hp.callCustom (h : Hp V Ty) (s : Sv Ty) : Hp V Ty :=
  match s.custom with
  | some f => { h with calls := h.calls ++ [(f, s.ptr)] }
  | none => h

/-- `ResetData`, DataSaver.cpp lines 59-78. -/
def Hp.reset (τ : V → Ty) (h : Hp V Ty) (i : Nat) : Option (Hp V Ty) := do
  let s ← h.vars i
  let h1 ← (h.callCustom s).delOld τ s
  some (h1.put i (some ⟨none, none, none, s.delF, none, none, none⟩))

/-- A new empty variable. -/
def Hp.newVar (h : Hp V Ty) : Hp V Ty := { h.put h.nvars (some .empty) with nvars := h.nvars + 1 }

/-- Destructor, DataSaver.cpp lines 96-100. -/
def Hp.destroy (τ : V → Ty) (h : Hp V Ty) (i : Nat) : Option (Hp V Ty) := do
  let s ← h.vars i
  let h1 ← h.delOld τ s
  some (h1.put i none)

/-- `Swap`, DataSaver.cpp lines 80-85: a copy of the other one, two assignments, and the destructor of the copy. -/
def Hp.swap (τ : V → Ty) (h : Hp V Ty) (i j : Nat) : Option (Hp V Ty) := do
  let _ ← h.vars i
  let _ ← h.vars j
  let t := h.nvars
  let h1 ← h.newVar.assign τ t j
  let h2 ← h1.assign τ j i
  let h3 ← h2.assign τ i t
  h3.destroy τ t

/-- `SetDataFromString`, DataSaver.cpp lines 54-57 and DataSaver.h lines 157-162. `fromStr T str`: what FromString makes of the text, `none` = not accepted. -/
def Hp.setStr (τ : V → Ty) (fromStr : Ty → List Char → Option V) (h : Hp V Ty) (i : Nat) (str : List Char) : Option (Hp V Ty) := do
  let s ← h.vars i
  let p ← s.ptr
  let T ← s.fromF
  let v ← h.cells p
  if τ v = T then
    match fromStr T str with
    | some v' => some { h with cells := fun q => if q = p then some v' else h.cells q }
    | none => some h
  else none

/-- `Str`, DataSaver.cpp lines 87-90 and DataSaver.h lines 148-152. -/
def Hp.str (τ : V → Ty) (toStr : V → List Char) (h : Hp V Ty) (i : Nat) : Option (List Char) := do
  let s ← h.vars i
  let p ← s.ptr
  let T ← s.strF
  let v ← h.cells p
  if τ v = T then some (toStr v) else none

/-- Operations of a program on its variables. The constructors are a new empty variable followed by SetData (DataSaver.h lines 74-94) or by an assignment
(DataSaver.cpp lines 7-11). `str` only reads. -/
inductive SvOp (V : Type)
  | new | newFrom (v : V) (custom : Option Nat) | newCopy (j : Nat)
  | setData (i : Nat) (v : V) (custom : Option Nat) | assign (i j : Nat) | reset (i : Nat) | swap (i j : Nat) | setStr (i : Nat) (str : List Char) | str (i : Nat)
  | destroy (i : Nat)

/-- One operation. -/
def Hp.step (τ : V → Ty) (fromStr : Ty → List Char → Option V) (toStr : V → List Char) (h : Hp V Ty) : SvOp V → Option (Hp V Ty)
  | .new => some h.newVar
  | .newFrom v c => h.newVar.setData τ h.nvars v c
  | .newCopy j => (h.vars j).bind fun _ => h.newVar.assign τ h.nvars j
  | .setData i v c => h.setData τ i v c
  | .assign i j => h.assign τ i j
  | .reset i => h.reset τ i
  | .swap i j => h.swap τ i j
  | .setStr i str => h.setStr τ fromStr i str
  | .str i => (h.str τ toStr i).map fun _ => h
  | .destroy i => h.destroy τ i

/-- States a program can reach without undefined behaviour. -/
inductive Hp.Reach (τ : V → Ty) (fromStr : Ty → List Char → Option V) (toStr : V → List Char) : Hp V Ty → Prop
  | init : Reach τ fromStr toStr .init
  | step (h h' : Hp V Ty) (op : SvOp V) : Reach τ fromStr toStr h → h.step τ fromStr toStr op = some h' → Reach τ fromStr toStr h'

end
end MVault.Cont
