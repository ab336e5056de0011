import Verif.WorldReach
import Mathlib.Order.Nat
/-
What a user of the library can see, the small specification the properties are stated with, and a checker that produces
concrete histories.
-/
set_option linter.unusedSectionVars false
set_option linter.unusedSimpArgs false
namespace MVault.W
variable {K V Ty : Type} [LinearOrder K] [LinearOrder V] [Typed V Ty] [DecidableEq Ty]

/-! ### Observers -/

/-- The records of a vault or set: what `begin()`/`end()` iterate over (Vault.h line 712 ff., VaultRecordSet.h) and `Size`
counts (Vault.cpp lines 639-649). -/
def members (w : World K V Ty) (o : Nat) : List Nat := match w.getObj o with | some x => x.recs | none => []

/-- The value of a record for a key, as stored in its container (VaultRecord.h line 14). -/
def value (w : World K V Ty) (r : Nat) (k : K) : Option V := (w.getRec r).bind fun x => mget x.data k

/-- Has the record not left its vault? The flag behind `VaultRecordRef::IsValid` (VaultRecord.cpp lines 51-57). -/
def alive (w : World K V Ty) (r : Nat) : Prop := ∃ x, w.getRec r = some x ∧ x.valid = true

/-- `Vault::GetKeys`, Vault.cpp lines 342-354. -/
def getKeys (w : World K V Ty) (o : Nat) : List K := match w.getObj o with | some x => x.keysOrder | none => []

/-- `Vault::GetUniqueKeys`, Vault.cpp lines 356-368. -/
def getUniqueKeys (w : World K V Ty) (o : Nat) : List K := match w.getObj o with | some x => x.uniq | none => []

/-- `Vault::IsKeyExist`, Vault.cpp lines 316-324: asks the record template. -/
def isKeyExist (w : World K V Ty) (o : Nat) (k : K) : Bool := match w.getObj o with | some x => mhas x.tmpl k | none => false

/-- `Vault::GetKeyType`, Vault.cpp lines 326-340: asks `KeysTypes`. -/
def getKeyType (w : World K V Ty) (o : Nat) (k : K) : Option Ty :=
  match w.getObj o with | some x => (mget x.cols k).map (·.ty) | none => none

/-- The value the next record will get for the key: `RecordTemplate`, read by `GetKeyValue` (Vault.hpp lines 624-669). -/
def getDefault (w : World K V Ty) (o : Nat) (k : K) : Option V := match w.getObj o with | some x => mget x.tmpl k | none => none

/-- The record a reference variable points at (VaultRecordRef.h: `VaultRecordPtr`). -/
def target (w : World K V Ty) (f : Nat) : Option Nat := (w.refs[f]?).bind (·.ptr)

/-- The vault or set a reference variable works through (VaultRecordRef.h: `Vlt`). -/
def through (w : World K V Ty) (f : Nat) : Option Nat := (w.refs[f]?).bind (·.vlt)

/-- The parent vault of a set (VaultRecordSet.h: `ParentVault`; visible through `GetIsParentVaultValid` and
`GetParentVaultUniqueId`, VaultRecordSet.cpp lines 152-178). -/
def parentOf (w : World K V Ty) (s : Nat) : Option Nat := match w.getObj s with | some x => x.parent | none => none

/-! ### Specification of the simple requests -/

/-- The conditions of the `Request...` functions, Vault.hpp lines 793-871. -/
inductive Cond (V : Type)
  | eq (v : V) | gt (v : V) | ge (v : V) | lt (v : V) | le (v : V)
  | between (a b : V) (inclA inclB : Bool)

/-- What the condition means. Specification, models no code. Requests: Vault.hpp lines 128-322. -/
def Cond.holds : Cond V → V → Prop
  | .eq a, v => v = a
  | .gt a, v => a < v
  | .ge a, v => a ≤ v
  | .lt a, v => v < a
  | .le a, v => v ≤ a
  | .between a b ia ib, v => (a < v ∨ (ia = true ∧ v = a)) ∧ (v < b ∨ (ib = true ∧ v = b))

/-- The C++ argument types: both ends of an interval have the same type `T`. Vault.h line 160. -/
def Cond.typed (t : Ty) : Cond V → Prop
  | .eq a | .gt a | .ge a | .lt a | .le a => typeOf a = t
  | .between a b _ _ => typeOf a = t ∧ typeOf b = t

/-- Is the condition answered from the ordered index? (All but equality, Vault.hpp lines 157-243.) -/
def Cond.ordered : Cond V → Bool
  | .eq _ => false
  | _ => true

/-- `RequestEqual`, `RequestGreater`, `RequestGreaterOrEqual`, `RequestLess`, `RequestLessOrEqual`, `RequestInterval`:
Vault.hpp lines 793-871 for vaults, VaultRecordSet.hpp lines 140-197 for sets. -/
def ask (env : Env) (w : World K V Ty) (o : Nat) (k : K) (c : Cond V) (n : Option Nat) (pred : Nat → Bool) (s : Nat) :
    Option (World K V Ty × Res K) :=
  match c with
  | .eq v => request env w o .Equal k v v false false n pred s
  | .gt v => request env w o .Greater k v v false false n pred s
  | .ge v => request env w o .GreaterOrEqual k v v false false n pred s
  | .lt v => request env w o .Less k v v false false n pred s
  | .le v => request env w o .LessOrEqual k v v false false n pred s
  | .between a b ia ib => request env w o .Interval k a b ia ib n pred s

/-- The history step `ask`. A step that only asks: the const functions of Vault.h. -/
def Op.ask (o : Nat) (k : K) (c : Cond V) (n : Option Nat) (pred : Nat → Bool) (s : Nat) : Op K V Ty :=
  match c with
  | .eq v => .request o .Equal k v v false false n pred s
  | .gt v => .request o .Greater k v v false false n pred s
  | .ge v => .request o .GreaterOrEqual k v v false false n pred s
  | .lt v => .request o .Less k v v false false n pred s
  | .le v => .request o .LessOrEqual k v v false false n pred s
  | .between a b ia ib => .request o .Interval k a b ia ib n pred s

/-! ### Observational equality -/

/-- Everything a user can ask vault `o` about itself and its records. Specification, models no code. The questions: Vault.h, const functions. -/
structure SameVault (w w' : World K V Ty) (o : Nat) : Prop where
  kind : isVault w' o = isVault w o
  members : members w' o = members w o
  values : ∀ r ∈ MVault.W.members w o, ∀ k, value w' r k = value w r k
  keys : getKeys w' o = getKeys w o
  uniq : getUniqueKeys w' o = getUniqueKeys w o
  keyExists : ∀ k, isKeyExist w' o k = isKeyExist w o k
  types : ∀ k, getKeyType w' o k = getKeyType w o k
  defaults : ∀ k, getDefault w' o k = getDefault w o k

/-! ### Concrete histories -/

/-- Executable form of `Untied`. Specification, models no code. -/
def untiedB (home : Nat → Nat) (w : World K V Ty) (a : Nat) : Bool :=
  (List.range w.nextO).all (fun s => decide (home s ≠ a)) &&
    w.refs.all (fun f => match f.ptr, w.getObj a with | some r, some ao => decide (r ∉ ao.recs) | _, _ => true)

theorem untiedB_sound {home : Nat → Nat} {w : World K V Ty} {a : Nat} (h : untiedB home w a = true) : Untied home w a := by
  simp only [untiedB, Bool.and_eq_true, List.all_eq_true, List.mem_range, decide_eq_true_eq] at h
  refine ⟨h.1, fun f hf r ao hp ha => ?_⟩
  have := h.2 f hf
  rw [hp, ha] at this
  simpa using this

/-- Executable form of `Ordinary`. Specification, models no code. -/
def ordinaryB (home : Nat → Nat) (w : World K V Ty) : Op K V Ty → Bool
  | .vaultMoveNew a => untiedB home w a
  | .vaultMoveAssign o a => decide (o = a) || untiedB home w a
  | .vaultCopyNew a => match w.getObj a with | some ao => decide (ao.uniq = []) | none => true
  | .vaultAssign o a => decide (o = a) || match w.getObj a with | some ao => decide (ao.uniq = []) | none => true
  | .request o _ _ _ _ _ _ _ _ s => match w.getObj o with
    | some oo => (match vaultOf o oo with | some p => decide (p = home s) | none => true) | none => true
  | .requestTree o _ s => match w.getObj o with
    | some oo => (match vaultOf o oo with | some p => decide (p = home s) | none => true) | none => true
  | .setCopyNew a => match w.getObj a with | some ao => decide (ao.parent = some (home w.nextO)) | none => true
  | .setMoveNew a => match w.getObj a with | some ao => decide (ao.parent = some (home w.nextO)) | none => true
  | .setAssign s a => match w.getObj a with
    | some ao => (match ao.parent with | some p => decide (p = home s) | none => true) | none => true
  | .setMoveAssign s a => (match w.getObj a with
    | some ao => (match ao.parent with | some p => decide (p = home s) | none => true) | none => true) &&
    (match w.getObj s, w.getObj a with | some so, some ao => decide (so.recs = []) || decide (ao.parent = none) | _, _ => true)
  | .setUnion a _ s => match w.getObj a with
    | some ao => (match ao.parent with | some p => decide (p = home s) | none => true) | none => true
  | .setIntersection a _ s => match w.getObj a with
    | some ao => (match ao.parent with | some p => decide (p = home s) | none => true) | none => true
  | .setGetRecord s k v f => match w.getObj s, w.refs[f]? with
    | some so, some ref => (match ref.ptr, so.parent with
      | some _, some p => decide (ref.vlt = some p) || (match mget so.cols k with | some c => decide (c.ty = typeOf v) | none => false)
      | _, _ => true)
    | _, _ => true
  | _ => true

theorem ordinaryB_sound {home : Nat → Nat} {w : World K V Ty} {op : Op K V Ty} (h : ordinaryB home w op = true) : Ordinary home w op := by
  cases op <;> simp only [Ordinary] <;> simp only [ordinaryB] at h
  case vaultMoveNew => exact untiedB_sound h
  case vaultMoveAssign =>
    rcases Bool.or_eq_true _ _ ▸ h with h | h
    · exact .inl (by simpa using h)
    · exact .inr (untiedB_sound h)
  case vaultCopyNew => intro ao ha; rw [ha] at h; simpa using h
  case vaultAssign =>
    rcases Bool.or_eq_true _ _ ▸ h with h | h
    · exact .inl (by simpa using h)
    · refine .inr fun ao ha => ?_
      rw [ha] at h; simpa using h
  case request => intro oo p ho hp; rw [ho] at h; simp only [hp] at h; simpa using h
  case requestTree => intro oo p ho hp; rw [ho] at h; simp only [hp] at h; simpa using h
  case setCopyNew => intro ao ha; rw [ha] at h; simpa using h
  case setMoveNew => intro ao ha; rw [ha] at h; simpa using h
  case setAssign => intro ao p ho hp; rw [ho] at h; simp only [hp] at h; simpa using h
  case setMoveAssign =>
    obtain ⟨h1, h2⟩ := Bool.and_eq_true _ _ ▸ h
    refine ⟨?_, ?_⟩
    · intro ao p ho hp; rw [ho] at h1; simp only [hp] at h1; simpa using h1
    · intro so ao hs ha; rw [hs, ha] at h2; simpa using h2
  case setUnion => intro ao p ho hp; rw [ho] at h; simp only [hp] at h; simpa using h
  case setIntersection => intro ao p ho hp; rw [ho] at h; simp only [hp] at h; simpa using h
  case setGetRecord =>
    intro so ref r p hs hf hr hp hc
    rw [hs, hf] at h
    simp only [hr, hp] at h
    rcases Bool.or_eq_true _ _ ▸ h with h | h
    · simpa using h
    · exfalso
      split at h
      · rename_i c hk; exact hc c hk (by simpa using h)
      · cases h

/-- A history of ordinary operations; `none` when an operation is not ordinary or undefined. Specification, models no code. -/
def runB (home : Nat → Nat) (w : World K V Ty) : List (Env × Op K V Ty) → Option (World K V Ty)
  | [] => some w
  | (env, op) :: l => if ordinaryB home w op = true then (step env w op).bind (fun w' => runB home w' l) else none

theorem runB_reach {home : Nat → Nat} (l : List (Env × Op K V Ty)) : ∀ {w w' : World K V Ty}, HReach Ordinary home w →
    runB home w l = some w' → HReach Ordinary home w' := by
  induction l with
  | nil => intro w w' hw h; simp only [runB, Option.some.injEq] at h; exact h ▸ hw
  | cons p l ih =>
    obtain ⟨env, op⟩ := p
    intro w w' hw h
    simp only [runB] at h
    split at h
    · rename_i hg
      obtain ⟨w1, h1, h2⟩ := Option.bind_eq_some_iff.mp h
      exact ih (.step w w1 env op hw (ordinaryB_sound hg) h1) h2
    · cases h

/-- Any history. -/
theorem run_reach (l : List (Env × Op K V Ty)) : ∀ {w w' : World K V Ty}, Reach (fun _ _ => True) w →
    run w l = some w' → Reach (fun _ _ => True) w' := by
  induction l with
  | nil => intro w w' hw h; simp only [run, Option.some.injEq] at h; exact h ▸ hw
  | cons p l ih =>
    obtain ⟨env, op⟩ := p
    intro w w' hw h
    simp only [run] at h
    obtain ⟨w1, h1, h2⟩ := Option.bind_eq_some_iff.mp h
    exact ih (.step w w1 env op hw trivial h1) h2

/-! ### Demonstration values: numbers below 100 are of one type, the others of a second type -/

/-- Values for the concrete examples. -/
instance demoTyped : Typed Nat Bool where
  typeOf n := decide (100 ≤ n)
  zero t := if t = true then 100 else 0
  zero_ty t := by cases t <;> rfl

/-- Worlds for the concrete examples. Specification, models no code. -/
abbrev DW := World Nat Nat Bool
/-- Operations for the concrete examples. Specification, models no code. -/
abbrev DO := Op Nat Nat Bool

/-- The world after a history of ordinary operations with one vault (object 0). Specification, models no code. -/
def demo (l : List DO) : Option DW := runB (fun _ => 0) World.empty (l.map (Env.id, ·))

theorem demo_reach {l : List DO} {w : DW} (h : demo l = some w) : HReach Ordinary (fun _ => 0) w := runB_reach _ .init h

/-- The world after any history. Specification, models no code. -/
def anyRun (l : List DO) : Option DW := run World.empty (l.map (Env.id, ·))

theorem anyRun_reach {l : List DO} {w : DW} (h : anyRun l = some w) : Reach (fun _ _ => True) w := run_reach _ .init h

end MVault.W
