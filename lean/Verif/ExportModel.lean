import Verif.FileModel
import Verif.TextModel
import Verif.SortModel
/-
What a `VaultRecordSet` adds to the export functions of `Vault`: each asks whether the set belongs to a vault and then runs the function of `Vault` on the set object
(VaultRecordSet.cpp lines 327-381 and 535-548, VaultRecordSet.hpp lines 306-316). ToJson and ToStrings of sets are in TextModel.
-/
namespace MVault.W
variable {V Ty : Type} [LinearOrder V] [Typed V Ty] [DecidableEq Ty] [Texts V Ty]

/-- `VaultRecordSet::SaveToFile`, VaultRecordSet.cpp lines 535-548, to a file that can be opened: the answer and the text of the file (`none`: no file is written). -/
def setSaveToFile (env : Env) (w : World Key V Ty) (s : Nat) (keys : List Key) (sep : List Char) (isSaveKey : Bool) : Option (Bool × Option (List Char)) := do
  let so ← w.getObj s
  match so.parent with
  | none => some (false, none)
  | some p => do
    let _ ← w.getObj p
    (saveToFile env w s keys sep isSaveKey).map fun t => (true, some t)

/-- `VaultRecordSet::Print`, VaultRecordSet.cpp lines 369-381, without the line with the number of records. -/
def setPrint (env : Env) (w : World Key V Ty) (s : Nat) (idOf : Ref → List Char) (amount : Nat) (primaryKey : Key) (isReverse : Bool) (keys : List Key) :
    Option (List (List Char)) := do
  let so ← w.getObj s
  match so.parent with
  | none => some ["The parent Vault is not valid!".toList]
  | some p => do
    let _ ← w.getObj p
    vaultPrint env w s idOf amount primaryKey isReverse keys

end MVault.W
namespace MVault.W
variable {K V Ty : Type} [LinearOrder K] [LinearOrder V] [Typed V Ty] [DecidableEq Ty]

/-- `VaultRecordSet::SortBy`, VaultRecordSet.hpp lines 306-316. Without vault the function is never called. -/
def setSortBy {S : Type} (w : World K V Ty) (s : Nat) (k : K) (func : S → Nat → S × Bool) (st : S) (rev : Bool) (amount : Nat) : Option (SortRun S) := do
  let so ← w.getObj s
  match so.parent with
  | none => some ⟨0, st, []⟩
  | some p => do
    let _ ← w.getObj p
    sortBy w s k func st rev amount

end MVault.W
