import Verif.PropsCopy
/-
C11, C24, C25, C35, C50: histories in which the claims are false.
-/
set_option linter.unusedSectionVars false
set_option linter.unusedSimpArgs false
namespace MVault.W

/-! ### C11 -/

/-- Vault 0 has key 1, vault 1 has key 2. A `GetRecord` on a set of vault 0 that fails leaves the reference at its record of
vault 1 but working through vault 0 (VaultRecordSet.hpp line 102); `SetData` then writes a value for key 1 into the record of
vault 1, which has no such key. -/
theorem C11_refuted : ∃ w : DW, Reach (fun _ _ => True) w ∧ isVault w 1 = true ∧ 0 ∈ members w 1 ∧ getKeys w 1 = [2] ∧ value w 0 1 = some 7 := by
  refine ⟨_, anyRun_reach (l := [.newVault, .newVault, .addKey 0 1 5, .addKey 1 2 6, .newRef, .createRecord 1 0 [], .newSet,
    .ask 0 1 (.gt 0) none (fun _ => true) 2, .setGetRecord 2 9 4 0, .refSetData 0 1 7]) rfl, ?_, ?_, ?_, ?_⟩ <;> decide

/-! ### C24, C25 -/

/-- A copy of a set without parent is flagged as a vault (VaultRecordSet.cpp lines 86-92). Removing a record from such a set, after
a request has filled it, marks the record as erased: the reference is not valid, and the record is still in its vault. -/
theorem C25_refuted : ∃ w : DW, Reach (fun _ _ => True) w ∧ isVault w 0 = true ∧ target w 0 = some 0 ∧ through w 0 = some 0 ∧ 0 ∈ members w 0 ∧
    refIsValid w 0 = some false := by
  refine ⟨_, anyRun_reach (l := [.newVault, .addKey 0 1 5, .newRef, .createRecord 0 0 [], .newSet, .setCopyNew 1,
    .ask 0 1 (.gt 0) none (fun _ => true) 2, .setRemoveRef 2 0]) rfl, ?_, ?_, ?_, ?_, ?_⟩ <;> decide

/-- The same without references: the record is freed while the vault still holds it. -/
theorem C24_refuted : ∃ w : DW, Reach (fun _ _ => True) w ∧ isVault w 0 = true ∧ 0 ∈ members w 0 ∧ ¬ allocated w 0 := by
  refine ⟨_, anyRun_reach (l := [.newVault, .addKey 0 1 5, .newRef, .createRecord 0 0 [], .newSet, .setCopyNew 1,
    .ask 0 1 (.gt 0) none (fun _ => true) 2, .refReset 0, .setRemoveKV 2 1 5]) rfl, by decide, by decide, ?_⟩
  rintro ⟨x, hx⟩
  cases hx

/-! ### C35, C50 -/

/-- Set 2 gets record 0 by `Join`; `Join` does not tell the record (VaultRecordSet.cpp lines 420-429), so erasing the record from
the vault leaves it in set 2. -/
def joinOps : List DO := [.newVault, .addKey 0 1 5, .newRef, .createRecord 0 0 [], .newSet, .newSet, .ask 0 1 (.gt 0) none (fun _ => true) 1,
  .ask 0 1 (.gt 50) none (fun _ => true) 2, .setJoin 2 1]

/-- The erased record is still in the set; the operations are all ordinary. -/
theorem C35_refuted : ∃ w w' : DW, HReach Ordinary (fun _ => 0) w ∧ parentOf w 2 = some 0 ∧ eraseRef Env.id w 0 0 = some (w', true) ∧
    target w 0 = some 0 ∧ members w' 0 = [] ∧ 0 ∈ members w' 2 ∧ ¬ alive w' 0 := by
  refine ⟨_, _, demo_reach (l := joinOps) rfl, by decide, rfl, by decide, by decide, by decide, ?_⟩
  rintro ⟨x, hx, hv⟩
  cases hx; cases hv

/-- Without a reference the record is freed, and the set is left with a dangling pointer: clearing the set (or destroying it)
touches freed memory. All operations are ordinary. -/
theorem C50_refuted : ∃ w : DW, HReach Ordinary (fun _ => 0) w ∧ isSetObj w 2 = true ∧ 0 ∈ members w 2 ∧ ¬ allocated w 0 ∧
    step Env.id w (.setClear 2) = none ∧ step Env.id w (.destroySet 2) = none ∧ step Env.id w (.destroyVault 0) = none := by
  refine ⟨_, demo_reach (l := joinOps ++ [.refReset 0, .eraseKV 0 1 5]) rfl, by decide, by decide, ?_, rfl, rfl, rfl⟩
  rintro ⟨x, hx⟩
  cases hx

/-- A vault destroyed before a reference to one of its records: `GetData` reads through the destroyed vault. -/
theorem C50_refuted_vault : ∃ w : DW, HReach Ordinary (fun _ => 0) w ∧ target w 0 = some 0 ∧ through w 0 = some 0 ∧ isVault w 0 = false ∧
    refIsValid w 0 = some false ∧ refGetData w 0 1 false = none := by
  refine ⟨_, demo_reach (l := [.newVault, .addKey 0 1 5, .newRef, .createRecord 0 0 [], .destroyVault 0]) rfl, ?_, ?_, ?_, ?_, rfl⟩ <;> decide

end MVault.W
