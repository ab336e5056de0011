import Verif.WorldOut
/-
The fields `RequestedType` and `SavedType` of the `VaultOperationResult` of every operation. `none` is `typeid(void)`, the value
both fields start with (VaultOperationResult.h lines 55, 58).
-/
set_option linter.unusedSectionVars false
namespace MVault.W
variable {K V Ty : Type} [LinearOrder K] [LinearOrder V] [Typed V Ty] [DecidableEq Ty]

/-- `GetKeyType(key, SavedType)`, Vault.cpp lines 331-347: writes nothing for an unknown key. -/
def keyTy (w : World K V Ty) (o : Nat) (k : K) : Option Ty := (w.getObj o).bind fun vo => (mget vo.cols k).map (·.ty)

/-- The two type fields. VaultOperationResult.h lines 56-60. -/
structure Types (Ty : Type) where
  requested : Option Ty
  saved : Option Ty
  deriving DecidableEq

/-- Functions that start with `RequestedType = typeid(T)` and `GetKeyType(key, SavedType)`: Vault.hpp lines 138-144, 332-343, 584-619,
633-639, 683-689, 740-748, 949-955, 1019-1025. -/
def Types.lookup (w : World K V Ty) (o : Nat) (k : K) (t : Ty) : Types Ty := ⟨some t, keyTy w o k⟩

/-- The same for a set: without parent only `RequestedType` is filled in, VaultRecordSet.hpp lines 53-59, 102-108, 128-134, 267-273, 294-300. -/
def Types.ofSet (w : World K V Ty) (s : Nat) (k : K) (t : Ty) : Types Ty :=
  match w.getObj s with
  | some so => if so.parent = none then ⟨some t, none⟩ else .lookup w s k t
  | none => ⟨none, none⟩

/-- `VaultRecordRef::SetData`, VaultRecordRef.hpp lines 18-42, and `Vault::SetDataToRecord`, Vault.hpp lines 18-54: the record is checked before
the key. -/
def Types.setData (w : World K V Ty) (f : Nat) (k : K) (v : V) : Types Ty :=
  match w.refs[f]? with
  | some ⟨some r, some o⟩ =>
    match w.getRec r with
    | some x => if x.valid = false then ⟨some (typeOf v), none⟩ else .lookup w o k (typeOf v)
    | none => ⟨some (typeOf v), none⟩
  | _ => ⟨some (typeOf v), none⟩

/-- `SetData(params)`, VaultRecordRef.cpp lines 155-166: the fields of the last call made. -/
def Types.setMany (env : Env) (f : Nat) : List (K × V) → World K V Ty → Types Ty → Types Ty
  | [], _, t => t
  | (k, v) :: l, w, _ =>
    match refSetData env w f k v with
    | some (w1, res) => if res.ok = false then .setData w f k v else setMany env f l w1 (.setData w f k v)
    | none => ⟨none, none⟩

/-- The parameter loop of `CreateRecord`, Vault.cpp lines 450-484: the fields after it. -/
def Types.params (vo : Obj K V Ty) : List (K × V) → List (K × V) → Types Ty → Types Ty
  | [], _, t => t
  | (k, v) :: l, data, _ => match mget data k with
    | none => ⟨some (typeOf v), none⟩
    | some v0 =>
      if typeOf v0 = typeOf v then params vo l (mput data k v) ⟨some (typeOf v), (mget vo.cols k).map (·.ty)⟩
      else ⟨some (typeOf v), (mget vo.cols k).map (·.ty)⟩

/-- `CreateRecord`, Vault.cpp lines 436-539: a clash sets the type of the clashing key (lines 515-516), success clears `SavedType` (line 532). -/
def Types.create (w : World K V Ty) (o : Nat) (ps : List (K × V)) : Types Ty :=
  match w.getObj o with
  | none => ⟨none, none⟩
  | some vo =>
    match applyParams vo ps vo.tmpl with
    | .error _ => .params vo ps vo.tmpl ⟨none, none⟩
    | .ok data =>
      match insertRecord w o data with
      | some (_, .error k) => ⟨keyTy w o k, none⟩
      | some (_, .ok _) => ⟨(Types.params vo ps vo.tmpl ⟨none, none⟩).requested, none⟩
      | none => ⟨none, none⟩

/-- `RequestRecords` of a vault or a set, Vault.hpp lines 271-322, VaultRecordSet.hpp lines 8-64: lines 16-21 leave the types alone. -/
def Types.request (w : World K V Ty) (o : Nat) (k : K) (a : V) (s : Nat) : Types Ty :=
  match w.getObj o with
  | none => ⟨none, none⟩
  | some oo =>
    match (if oo.isSet = true then oo.parent else some o) with
    | none => ⟨some (typeOf a), none⟩
    | some _ => if o = s then ⟨none, none⟩ else .lookup w o k (typeOf a)

/-- The types in the result thrown by a request tree (VaultRequest.hpp line 36), for the leaf that fails first. -/
def Types.tree (env : Env) (vo : Obj K V Ty) : Req K V → Types Ty
  | .leaf _ k v _ => ⟨some (typeOf v), (mget vo.cols k).map (·.ty)⟩
  | .or a b => match evalReq env vo a with
    | some (.error _) => tree env vo a
    | _ => tree env vo b
  | .and a b => match evalReq env vo a with
    | some (.error _) => tree env vo a
    | _ => tree env vo b

/-- `Request`, Vault.hpp lines 874-935, VaultRecordSet.hpp lines 199-250: nothing on success. -/
def Types.ofTree (env : Env) (w : World K V Ty) (o : Nat) (q : Req K V) (s : Nat) : Types Ty :=
  match w.getObj o with
  | none => ⟨none, none⟩
  | some oo =>
    match (if oo.isSet = true then oo.parent else some o) with
    | none => ⟨none, none⟩
    | some _ =>
      if o = s then ⟨none, none⟩ else
      match evalReq env oo q with
      | some (.error _) => .tree env oo q
      | _ => ⟨none, none⟩

/-- The type fields of the result of an operation that returns one. Vault.hpp lines 128-140, 338-372, 573-600, 624-726. -/
def typesOf (env : Env) (w : World K V Ty) : Op K V Ty → Types Ty
  | .refSetData f k v => .setData w f k v
  | .refSetDataMany f ps => .setMany env f ps w ⟨none, none⟩
  | .addKey o k d => .lookup w o k (typeOf d)
  | .addUniqueKey o k t _ _ => .lookup w o k t
  | .updateKey o k d => .lookup w o k (typeOf d)
  | .createRecord o _ ps => .create w o ps
  | .createRow o ps => .create w o ps
  | .eraseKV o k v => .lookup w o k (typeOf v)
  | .eraseManyKV o k v _ => .lookup w o k (typeOf v)
  | .getRecord o k v _ => .lookup w o k (typeOf v)
  | .getRecords o k v _ => .lookup w o k (typeOf v)
  | .request o _ k a _ _ _ _ _ s => .request w o k a s
  | .requestTree o q s => .ofTree env w o q s
  | .setRemoveKV s k v => .ofSet w s k (typeOf v)
  | .setRemoveManyKV s k v _ => .ofSet w s k (typeOf v)
  | .setGetRecord s k v _ => .ofSet w s k (typeOf v)
  | .setGetRecords s k v _ => .ofSet w s k (typeOf v)
  | _ => ⟨none, none⟩

end MVault.W
