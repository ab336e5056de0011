import Verif.WorldOps
/-
Model of the memory behind `VaultRequest` objects (Source/VaultRequest.h, VaultRequest.hpp): a comparison owns a heap copy of its value (`DataPtr`), the objects made
by `&&` and `||` keep references to the two requests they were made from, copy construction and assignment are the compiler's defaults. Undefined behaviour (`none`):
use of a destroyed object, use or deletion of freed memory. Default-constructed requests are not modelled. Evaluation is taken to look at both operands of `&&` and
`||`; in the code the second one is not looked at if the first one reports an error.
-/
namespace MVault.W
variable {K V : Type}

/-- A `VaultRequest` object, VaultRequest.h lines 14-38: a comparison with the address of its value, or a combination with the addresses of its operands
(the lambdas of VaultRequest.hpp lines 56-115 capture them by reference). -/
inductive RObj (K : Type)
  | leaf (t : ReqType) (k : K) (cell : Nat) (pred : Nat → Bool)
  | node (isAnd : Bool) (a b : Nat)

/-- Heap of values, next address, objects (`none`: destroyed or not there yet), number of objects so far. -/
structure RHeap (K V : Type) where
  cells : Nat → Option V
  next : Nat
  objs : Nat → Option (RObj K)
  nobj : Nat

/-- Nothing yet. -/
def RHeap.init : RHeap K V := ⟨fun _ => none, 0, fun _ => none, 0⟩

/-- A new object. -/
def RHeap.push (h : RHeap K V) (o : RObj K) : RHeap K V := { h with objs := fun j => if j = h.nobj then some o else h.objs j, nobj := h.nobj + 1 }

/-- Constructor of a comparison, VaultRequest.hpp lines 9-43. -/
def RHeap.leaf (h : RHeap K V) (t : ReqType) (k : K) (v : V) (pred : Nat → Bool) : RHeap K V :=
  { h with cells := fun p => if p = h.next then some v else h.cells p, next := h.next + 1 }.push (.leaf t k h.next pred)

/-- Constructor of a combination, VaultRequest.hpp lines 45-118, 138-156. -/
def RHeap.node (h : RHeap K V) (isAnd : Bool) (a b : Nat) : Option (RHeap K V) := do
  let _ ← h.objs a
  let _ ← h.objs b
  some (h.push (.node isAnd a b))

/-- Copy constructor, VaultRequest.h line 52: member by member, the address of the value included. -/
def RHeap.copy (h : RHeap K V) (i : Nat) : Option (RHeap K V) := (h.objs i).map h.push

/-- Assignment, VaultRequest.h line 66: member by member. -/
def RHeap.assign (h : RHeap K V) (i j : Nat) : Option (RHeap K V) := do
  let _ ← h.objs i
  let o ← h.objs j
  some { h with objs := fun l => if l = i then some o else h.objs l }

/-- Destructor, VaultRequest.hpp lines 128-135. -/
def RHeap.destroy (h : RHeap K V) (i : Nat) : Option (RHeap K V) :=
  match h.objs i with
  | none => none
  | some (.node _ _ _) => some { h with objs := fun l => if l = i then none else h.objs l }
  | some (.leaf _ _ c _) =>
    match h.cells c with
    | none => none
    | some _ => some { h with cells := fun p => if p = c then none else h.cells p, objs := fun l => if l = i then none else h.objs l }

/-- The request that evaluating object `i` carries out, VaultRequest.hpp lines 120-126; `n` bounds the depth (operands are older objects, so the number of objects is
enough). -/
def RHeap.read (h : RHeap K V) : Nat → Nat → Option (Req K V)
  | 0, _ => none
  | n + 1, i =>
    match h.objs i with
    | none => none
    | some (.leaf t k c p) => (h.cells c).map fun v => .leaf t k v p
    | some (.node isAnd a b) => do
      let ra ← h.read n a
      let rb ← h.read n b
      some (if isAnd then .and ra rb else .or ra rb)

/-- What a program does with request objects. `eval` passes one to `Vault::Request` (Vault.hpp lines 874-935). -/
inductive RqOp (K V : Type)
  | leaf (t : ReqType) (k : K) (v : V) (pred : Nat → Bool)
  | node (isAnd : Bool) (a b : Nat)
  | copy (i : Nat) | assign (i j : Nat) | destroy (i : Nat) | eval (i : Nat)

/-- One operation. -/
def RHeap.step (h : RHeap K V) : RqOp K V → Option (RHeap K V)
  | .leaf t k v p => some (h.leaf t k v p)
  | .node isAnd a b => h.node isAnd a b
  | .copy i => h.copy i
  | .assign i j => h.assign i j
  | .destroy i => h.destroy i
  | .eval i => (h.read h.nobj i).map fun _ => h

/-- A sequence of operations. -/
def RHeap.run (h : RHeap K V) (ops : List (RqOp K V)) : Option (RHeap K V) := ops.foldlM RHeap.step h

end MVault.W
