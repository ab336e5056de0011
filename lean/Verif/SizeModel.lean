import Verif.WorldObs
/-
`Size` of vaults and of record sets.
-/
set_option linter.unusedSectionVars false
namespace MVault.W
variable {K V Ty : Type} [LinearOrder K] [LinearOrder V] [Typed V Ty] [DecidableEq Ty]

/-- `Vault::Size`, Vault.cpp lines 639-649: the number of entries of `RecordsSet`. -/
def vaultSize (w : World K V Ty) (o : Nat) : Option Nat := (w.getObj o).map fun vo => vo.recs.length

/-- `VaultRecordSet::Size`, VaultRecordSet.cpp lines 288-302: 0 when the set has no parent, otherwise `Vault::Size` of the set under
the lock of the parent; `none`: the parent is gone. -/
def setSize (w : World K V Ty) (s : Nat) : Option Nat := do
  let so ← w.getObj s
  match so.parent with
  | none => some 0
  | some p => (w.getObj p).bind fun _ => vaultSize w s

end MVault.W
