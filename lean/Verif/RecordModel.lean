import Verif.ContainerModel
/-
Model of one `VaultRecord` as an object: its data (a `DataHashMap`), the mark `IsValid`, the counter of references and the sets it
belongs to; construction, copying, moving and assignment (Source/VaultRecord.cpp lines 6-59), which `LifeModel` leaves out.
One thread; the mutexes are left out.
-/
namespace MVault.Cont
section
variable {K V Ty : Type} [DecidableEq K] [DecidableEq Ty]

/-- `VaultRecord`, VaultRecord.h lines 20-30. `refs` is a `std::size_t`: it counts modulo 2^64. `sets` are the dependent sets. -/
structure Rec (K V Ty : Type) where
  box : Box K V Ty
  valid : Bool
  refs : Nat
  sets : List Nat

/-- Number of values of `std::size_t`, VaultRecord.h line 24 (64 bits assumed). -/
def sizeT : Nat := 2 ^ 64

/-- Default constructor, VaultRecord.cpp lines 6-9 with the initial values of VaultRecord.h lines 20-30. -/
def Rec.fresh : Rec K V Ty := ⟨[], true, 0, []⟩

/-- The copying loop, VaultRecord.cpp lines 17-18 and 34-35: `Container.emplace(containerIt)` into an empty container, in the order
`order` in which the hash table of the other record is walked. -/
def copyData (order : Box K V Ty) : Box K V Ty := order.foldl (fun b p => b.add p.1 p.2.copy) []

/-- Copy constructor, VaultRecord.cpp lines 12-20. -/
def Rec.copyNew (order : Box K V Ty) : Rec K V Ty := { (Rec.fresh : Rec K V Ty) with box := copyData order }

/-- `operator=(const VaultRecord&)`, VaultRecord.cpp lines 22-39, for two different objects (`self = false`) or one. -/
def Rec.assign (self : Bool) (order : Box K V Ty) (r : Rec K V Ty) : Rec K V Ty :=
  if self = true then r else { r with valid := true, refs := 0, box := copyData order }

/-- Move constructor, VaultRecord.cpp lines 41-48: the new record and the other one, which is left with `left` (the standard leaves
this open; the standard libraries leave it empty). -/
def Rec.moveNew (left : Box K V Ty) (other : Rec K V Ty) : Rec K V Ty × Rec K V Ty :=
  ({ (Rec.fresh : Rec K V Ty) with box := other.box }, { other with box := left })

/-- `operator=(VaultRecord&&)`, VaultRecord.cpp lines 50-64, for two different objects; an object moved to itself is left alone. -/
def Rec.moveAssign (left : Box K V Ty) (r other : Rec K V Ty) : Rec K V Ty × Rec K V Ty :=
  ({ r with valid := true, refs := 0, box := other.box }, { other with box := left })

/-- Calls that decide the life of a record, VaultRecord.cpp lines 66-98. -/
inductive RefCall
  | addRef
  | removeRef
  | invalidate

/-- `AddRef`, `RemoveRef`, `Invalidate`, VaultRecord.cpp lines 66-98; `none`: the record deletes itself. -/
def Rec.call (r : Rec K V Ty) : RefCall → Option (Rec K V Ty)
  | .addRef => some { r with refs := (r.refs + 1) % sizeT }
  | .removeRef =>
    let n := (r.refs + sizeT - 1) % sizeT
    if r.valid = false ∧ n = 0 then none else some { r with refs := n }
  | .invalidate => if r.refs = 0 then none else some { r with valid := false }

/-- A run of such calls; `none`: the record has deleted itself. VaultRecord.cpp lines 66-98. -/
def Rec.calls (r : Rec K V Ty) : List RefCall → Option (Rec K V Ty)
  | [] => some r
  | c :: l => (r.call c).bind fun r' => r'.calls l

end
end MVault.Cont
