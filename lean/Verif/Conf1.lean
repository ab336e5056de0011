import Verif.ConfBase
/- Generated by conformance/gen.py from the unit tests of the project: validation of the model. -/
set_option maxRecDepth 100000
namespace MVault.Conf
open MVault.W

/-- VaultUnitTests.cpp line 52: DefaultConstructor, Default. -/
theorem conf_vault_DefaultConstructor_Default : runT Env.id [
    op .newVault,
    size 0 0,
    keysN 0 0,
    rows 0 [],
    op (.destroyVault 0)] = true := by decide

/-- VaultUnitTests.cpp line 61: CopyConstructor, CopyEmptyVault. -/
theorem conf_vault_CopyConstructor_CopyEmptyVault : runT Env.id [
    op .newVault,
    op (.vaultCopyNew 0),
    size 1 0,
    keysN 1 0,
    rows 1 [],
    op (.destroyVault 1),
    op (.destroyVault 0)] = true := by decide

/-- VaultUnitTests.cpp line 71: CopyConstructor, CopyFilledVault. -/
theorem conf_vault_CopyConstructor_CopyFilledVault : runT Env.id [
    op .newVault,
    op (.addKey 0 1 8000),
    op (.addKey 0 2 1),
    op (.createRow 0 [(1, 8008), (2, 313)]),
    op (.createRow 0 [(1, 8016), (2, 417)]),
    op (.createRow 0 [(1, 8024), (2, 521)]),
    op (.vaultCopyNew 0),
    size 1 3,
    keysN 1 2,
    rows 1 [[(1, 8008), (2, 313)], [(1, 8016), (2, 417)], [(1, 8024), (2, 521)]],
    op (.destroyVault 1),
    op (.destroyVault 0)] = true := by decide

/-- VaultUnitTests.cpp line 93: AssignmentOperator, AssignEmptyVault. -/
theorem conf_vault_AssignmentOperator_AssignEmptyVault : runT Env.id [
    op .newVault,
    op .newVault,
    op (.vaultAssign 1 0),
    size 1 0,
    keysN 1 0,
    rows 1 [],
    op (.destroyVault 1),
    op (.destroyVault 0)] = true := by decide

/-- VaultUnitTests.cpp line 104: AssignmentOperator, AssignFilledToEmpty. -/
theorem conf_vault_AssignmentOperator_AssignFilledToEmpty : runT Env.id [
    op .newVault,
    op .newVault,
    op (.addKey 0 1 8000),
    op (.addKey 0 2 1),
    op (.createRow 0 [(1, 8008), (2, 313)]),
    op (.createRow 0 [(1, 8016), (2, 417)]),
    op (.createRow 0 [(1, 8024), (2, 521)]),
    op (.vaultAssign 1 0),
    size 1 3,
    keysN 1 2,
    rows 1 [[(1, 8008), (2, 313)], [(1, 8016), (2, 417)], [(1, 8024), (2, 521)]],
    op (.destroyVault 1),
    op (.destroyVault 0)] = true := by decide

/-- VaultUnitTests.cpp line 127: AssignmentOperator, AssignEmptyToFilled. -/
theorem conf_vault_AssignmentOperator_AssignEmptyToFilled : runT Env.id [
    op .newVault,
    op .newVault,
    op (.addKey 0 1 8000),
    op (.addKey 0 2 1),
    op (.createRow 0 [(1, 8008), (2, 313)]),
    op (.createRow 0 [(1, 8016), (2, 417)]),
    op (.createRow 0 [(1, 8024), (2, 521)]),
    op (.vaultAssign 0 1),
    size 1 0,
    keysN 1 0,
    rows 1 [],
    op (.destroyVault 1),
    op (.destroyVault 0)] = true := by decide

/-- VaultUnitTests.cpp line 146: MoveConstructor, MoveEmptyConstructor. -/
theorem conf_vault_MoveConstructor_MoveEmptyConstructor : runT Env.id [
    op .newVault,
    op .newVault,
    op (.vaultAssign 1 0),
    size 1 0,
    keysN 1 0,
    rows 1 [],
    op (.destroyVault 1),
    op (.destroyVault 0)] = true := by decide

/-- VaultUnitTests.cpp line 157: MoveConstructor, MoveFilledConstructor. -/
theorem conf_vault_MoveConstructor_MoveFilledConstructor : runT Env.id [
    op .newVault,
    op (.addKey 0 1 8000),
    op (.addKey 0 2 1),
    op (.createRow 0 [(1, 8008), (2, 313)]),
    op (.createRow 0 [(1, 8016), (2, 417)]),
    op (.createRow 0 [(1, 8024), (2, 521)]),
    op (.vaultMoveNew 0),
    size 0 0,
    keysN 0 0,
    rows 0 [],
    size 1 3,
    keysN 1 2,
    rows 1 [[(1, 8008), (2, 313)], [(1, 8016), (2, 417)], [(1, 8024), (2, 521)]],
    op (.destroyVault 1),
    op (.destroyVault 0)] = true := by decide

/-- VaultUnitTests.cpp line 184: MoveAssignmentOperator, AssignEmptyVault. -/
theorem conf_vault_MoveAssignmentOperator_AssignEmptyVault : runT Env.id [
    op .newVault,
    op .newVault,
    op (.vaultMoveAssign 1 0),
    size 1 0,
    keysN 1 0,
    rows 1 [],
    op (.destroyVault 1),
    op (.destroyVault 0)] = true := by decide

/-- VaultUnitTests.cpp line 195: MoveAssignmentOperator, AssignFilledToEmpty. -/
theorem conf_vault_MoveAssignmentOperator_AssignFilledToEmpty : runT Env.id [
    op .newVault,
    op .newVault,
    op (.addKey 0 1 8000),
    op (.addKey 0 2 1),
    op (.createRow 0 [(1, 8008), (2, 313)]),
    op (.createRow 0 [(1, 8016), (2, 417)]),
    op (.createRow 0 [(1, 8024), (2, 521)]),
    op (.vaultMoveAssign 1 0),
    size 0 0,
    keysN 0 0,
    rows 0 [],
    size 1 3,
    keysN 1 2,
    rows 1 [[(1, 8008), (2, 313)], [(1, 8016), (2, 417)], [(1, 8024), (2, 521)]],
    op (.destroyVault 1),
    op (.destroyVault 0)] = true := by decide

/-- VaultUnitTests.cpp line 223: MoveAssignmentOperator, AssignEmptyToFilled. -/
theorem conf_vault_MoveAssignmentOperator_AssignEmptyToFilled : runT Env.id [
    op .newVault,
    op .newVault,
    op (.addKey 0 1 8000),
    op (.addKey 0 2 1),
    op (.createRow 0 [(1, 8008), (2, 313)]),
    op (.createRow 0 [(1, 8016), (2, 417)]),
    op (.createRow 0 [(1, 8024), (2, 521)]),
    op (.vaultMoveAssign 0 1),
    size 1 0,
    keysN 1 0,
    rows 1 [],
    op (.destroyVault 1),
    op (.destroyVault 0)] = true := by decide

/-- VaultUnitTests.cpp line 242: AddKey, CorrectAddKey. -/
theorem conf_vault_AddKey_CorrectAddKey : runT Env.id [
    op .newVault,
    flag (.addKey 0 1 8000) true,
    keys 0 [1],
    flag (.addKey 0 2 1) true,
    keys 0 [1, 2],
    op (.destroyVault 0)] = true := by decide

/-- VaultUnitTests.cpp line 257: AddKey, IncorrectAddKey. -/
theorem conf_vault_AddKey_IncorrectAddKey : runT Env.id [
    op .newVault,
    op (.addKey 0 1 8000),
    flag (.addKey 0 1 1) false,
    keys 0 [1],
    op (.destroyVault 0)] = true := by decide

/-- VaultUnitTests.cpp line 268: AddKey, CorrectAddToNonEmpty. -/
theorem conf_vault_AddKey_CorrectAddToNonEmpty : runT Env.id [
    op .newVault,
    op (.addKey 0 1 8000),
    op (.createRow 0 [(1, 8008)]),
    op (.createRow 0 [(1, 8016)]),
    op (.createRow 0 [(1, 8024)]),
    op (.addKey 0 2 313),
    keys 0 [1, 2],
    rows 0 [[(1, 8008), (2, 313)], [(1, 8016), (2, 313)], [(1, 8024), (2, 313)]],
    op (.destroyVault 0)] = true := by decide

/-- VaultUnitTests.cpp line 288: AddKey, IncorrectAddToNonEmpty. -/
theorem conf_vault_AddKey_IncorrectAddToNonEmpty : runT Env.id [
    op .newVault,
    op (.addKey 0 1 8000),
    op (.createRow 0 [(1, 8008)]),
    op (.createRow 0 [(1, 8016)]),
    op (.createRow 0 [(1, 8024)]),
    flag (.addKey 0 1 209) false,
    keys 0 [1],
    op (.destroyVault 0)] = true := by decide

/-- VaultUnitTests.cpp line 304: AddKey, AddKeyWithDependentSets. -/
theorem conf_vault_AddKey_AddKeyWithDependentSets : runT Env.id [
    op .newVault,
    op .newSet,
    op (.addKey 0 1 8000),
    op (.addKey 0 2 8000),
    op (.createRow 0 [(1, 8008)]),
    op (.createRow 0 [(1, 8016)]),
    op (.createRow 0 [(1, 8024)]),
    op (.request 0 .Equal 2 8000 8000 false false none (fun _ => true) 1),
    flag (.addKey 0 3 417) true,
    keys 1 [1, 2, 3],
    rows 1 [[(1, 8008), (2, 8000), (3, 417)], [(1, 8016), (2, 8000), (3, 417)], [(1, 8024), (2, 8000), (3, 417)]],
    op (.destroySet 1),
    op (.destroyVault 0)] = true := by decide

/-- VaultUnitTests.cpp line 331: AddKey, IncorrectAddKeyWithDependentSets. -/
theorem conf_vault_AddKey_IncorrectAddKeyWithDependentSets : runT Env.id [
    op .newVault,
    op .newSet,
    op (.addKey 0 1 8000),
    op (.addKey 0 2 8000),
    op (.createRow 0 [(1, 8008)]),
    op (.createRow 0 [(1, 8016)]),
    op (.createRow 0 [(1, 8024)]),
    op (.request 0 .Equal 2 8000 8000 false false none (fun _ => true) 1),
    flag (.addKey 0 1 313) false,
    keys 0 [1, 2],
    rows 1 [[(1, 8008), (2, 8000)], [(1, 8016), (2, 8000)], [(1, 8024), (2, 8000)]],
    op (.destroySet 1),
    op (.destroyVault 0)] = true := by decide

/-- VaultUnitTests.cpp line 358: AddUniqueKey, CorrectAddKeyToEmptyVault. -/
theorem conf_vault_AddUniqueKey_CorrectAddKeyToEmptyVault : runT Env.id [
    op .newVault,
    res (.addUniqueKey 0 1 0 true (fun _ _ _ => 0)) true .Success (some 1) (some 0) none,
    keysN 0 1,
    op (.destroyVault 0)] = true := by decide

/-- VaultUnitTests.cpp line 370: AddUniqueKey, IncorrectAddKeyToEmptyVault. -/
theorem conf_vault_AddUniqueKey_IncorrectAddKeyToEmptyVault : runT Env.id [
    op .newVault,
    op (.addUniqueKey 0 1 0 true (fun _ _ _ => 0)),
    keysN 0 1,
    res (.addUniqueKey 0 1 1 true (fun _ _ _ => 0)) false .DuplicateKey (some 1) (some 1) (some 0),
    keysN 0 1,
    op (.destroyVault 0)] = true := by decide

/-- VaultUnitTests.cpp line 386: AddUniqueKey, CorrectAddKeyToNonEmptyVault. -/
theorem conf_vault_AddUniqueKey_CorrectAddKeyToNonEmptyVault : runT Env.rev [
    op .newVault,
    op (.addUniqueKey 0 1 1 true (fun _ _ _ => 0)),
    op (.createRow 0 [(1, 313)]),
    op (.createRow 0 [(1, 417)]),
    op (.createRow 0 [(1, 521)]),
    resW (fun w => .addUniqueKey 0 2 1 false (fun _ c r => look3 [(313, 0, 321), (313, 1, 329), (313, 2, 353), (417, 0, 425), (417, 1, 433), (417, 2, 457), (521, 0, 529), (521, 1, 537), (521, 2, 561)] (cell w r 1) c)) true .Success (some 2) (some 1) none,
    keysN 0 2,
    rows 0 [[(1, 313), (2, 353)], [(1, 417), (2, 433)], [(1, 521), (2, 529)]],
    op (.destroyVault 0)] = true := by decide

/-- VaultUnitTests.cpp line 415: AddUniqueKey, IncorrectAddKeyToNonEmptyVault. -/
theorem conf_vault_AddUniqueKey_IncorrectAddKeyToNonEmptyVault : runT Env.id [
    op .newVault,
    op (.addUniqueKey 0 1 1 true (fun _ _ _ => 0)),
    op (.createRow 0 [(1, 313)]),
    op (.createRow 0 [(1, 417)]),
    op (.createRow 0 [(1, 521)]),
    res (.addUniqueKey 0 2 1 true (fun _ _ _ => 0)) false .TryToAddUniqueKeyInNonEmptyVaultWithoutLambda (some 2) (some 1) none,
    keysN 0 1,
    rows 0 [[(1, 313)], [(1, 417)], [(1, 521)]],
    op (.destroyVault 0)] = true := by decide

/-- VaultUnitTests.cpp line 439: AddUniqueKey, CorrectAddKeyToNonEmptyVaultWithDuplicate. -/
theorem conf_vault_AddUniqueKey_CorrectAddKeyToNonEmptyVaultWithDuplicate : runT Env.id [
    op .newVault,
    op (.addUniqueKey 0 1 1 true (fun _ _ _ => 0)),
    op (.createRow 0 [(1, 313)]),
    op (.createRow 0 [(1, 417)]),
    op (.createRow 0 [(1, 521)]),
    resW (fun w => .addUniqueKey 0 2 0 false (fun _ c _ => if c = 0 then 8000 else 8008)) false .UniqueKeyValueAlredyInSet (some 2) (some 0) none,
    keysN 0 1,
    rows 0 [[(1, 313)], [(1, 417)], [(1, 521)]],
    op (.destroyVault 0)] = true := by decide

/-- VaultUnitTests.cpp line 467: AddUniqueKey, AddUniqueKeyWithDependentSets. -/
theorem conf_vault_AddUniqueKey_AddUniqueKeyWithDependentSets : runT Env.id [
    op .newVault,
    op .newSet,
    op (.addKey 0 1 8000),
    op (.addKey 0 2 8000),
    op (.createRow 0 [(1, 8008)]),
    op (.createRow 0 [(1, 8016)]),
    op (.createRow 0 [(1, 8024)]),
    op (.request 0 .Equal 2 8000 8000 false false none (fun _ => true) 1),
    resW (fun w => .addUniqueKey 0 3 1 false (fun _ _ r => look2 [(8000, 9), (8008, 17), (8016, 121), (8024, 225), (8032, 329)] (cell w r 1))) true .Success (some 3) (some 1) none,
    keys 0 [1, 2, 3],
    rows 1 [[(1, 8008), (2, 8000), (3, 17)], [(1, 8016), (2, 8000), (3, 121)], [(1, 8024), (2, 8000), (3, 225)]],
    op (.destroySet 1),
    op (.destroyVault 0)] = true := by decide

/-- VaultUnitTests.cpp line 500: AddUniqueKey, IncorrectAddKeyWithDependentSets. -/
theorem conf_vault_AddUniqueKey_IncorrectAddKeyWithDependentSets : runT Env.id [
    op .newVault,
    op .newSet,
    op (.addKey 0 1 8000),
    op (.addKey 0 2 8000),
    op (.createRow 0 [(1, 8008)]),
    op (.createRow 0 [(1, 8016)]),
    op (.createRow 0 [(1, 8024)]),
    op (.request 0 .Equal 2 8000 8000 false false none (fun _ => true) 1),
    resW (fun w => .addUniqueKey 0 1 1 false (fun _ _ r => look2 [(8000, 9), (8008, 17), (8016, 41), (8024, 49), (8032, 57)] (cell w r 1))) false .DuplicateKey (some 1) (some 1) (some 0),
    keys 0 [1, 2],
    rows 1 [[(1, 8008), (2, 8000)], [(1, 8016), (2, 8000)], [(1, 8024), (2, 8000)]],
    op (.destroySet 1),
    op (.destroyVault 0)] = true := by decide

/-- VaultUnitTests.cpp line 533: AddUniqueKey, CorrectAddKeyWithDependentSetsWithDuplicate. -/
theorem conf_vault_AddUniqueKey_CorrectAddKeyWithDependentSetsWithDuplicate : runT Env.id [
    op .newVault,
    op .newSet,
    op (.addKey 0 1 8000),
    op (.addKey 0 2 8000),
    op (.createRow 0 [(1, 8008)]),
    op (.createRow 0 [(1, 8016)]),
    op (.createRow 0 [(1, 8024)]),
    op (.request 0 .Equal 2 8000 8000 false false none (fun _ => true) 1),
    resW (fun w => .addUniqueKey 0 3 1 false (fun _ c _ => if c = 0 then 9 else 17)) false .UniqueKeyValueAlredyInSet (some 3) (some 1) none,
    keys 0 [1, 2],
    rows 1 [[(1, 8008), (2, 8000)], [(1, 8016), (2, 8000)], [(1, 8024), (2, 8000)]],
    op (.destroySet 1),
    op (.destroyVault 0)] = true := by decide

/-- VaultUnitTests.cpp line 565: UpdateKey, CorrectUpdateNonUniqueKey. -/
theorem conf_vault_UpdateKey_CorrectUpdateNonUniqueKey : runT Env.id [
    op .newVault,
    op (.addKey 0 1 8000),
    op (.addKey 0 2 321),
    res (.updateKey 0 1 7992) true .Success (some 1) (some 0) (some 0),
    res (.updateKey 0 2 313) true .Success (some 2) (some 1) (some 1),
    op (.createRow 0 []),
    rows 0 [[(1, 7992), (2, 313)]],
    op (.destroyVault 0)] = true := by decide

/-- VaultUnitTests.cpp line 589: UpdateKey, WrongKeyUpdate. -/
theorem conf_vault_UpdateKey_WrongKeyUpdate : runT Env.id [
    op .newVault,
    res (.updateKey 0 1 8000) false .WrongKey (some 1) (some 0) none,
    op (.destroyVault 0)] = true := by decide

/-- VaultUnitTests.cpp line 599: UpdateKey, WrongType. -/
theorem conf_vault_UpdateKey_WrongType : runT Env.id [
    op .newVault,
    op (.addKey 0 1 8000),
    res (.updateKey 0 1 1) false .WrongType (some 1) (some 1) (some 0),
    op (.destroyVault 0)] = true := by decide

/-- VaultUnitTests.cpp line 611: UpdateKey, UniqueKey. -/
theorem conf_vault_UpdateKey_UniqueKey : runT Env.id [
    op .newVault,
    op (.addUniqueKey 0 1 1 true (fun _ _ _ => 0)),
    res (.updateKey 0 1 1) false .UniqueKey (some 1) (some 1) (some 1),
    op (.destroyVault 0)] = true := by decide

/-- VaultUnitTests.cpp line 623: IsKeyExist, ExistingKey. -/
theorem conf_vault_IsKeyExist_ExistingKey : runT Env.id [
    op .newVault,
    op (.addKey 0 1 8000),
    op (.addUniqueKey 0 2 0 true (fun _ _ _ => 0)),
    keyExists 0 1 true,
    keyExists 0 2 true,
    op (.destroyVault 0)] = true := by decide

/-- VaultUnitTests.cpp line 633: IsKeyExist, NonExistingKey. -/
theorem conf_vault_IsKeyExist_NonExistingKey : runT Env.id [
    op .newVault,
    keyExists 0 1 false,
    op (.destroyVault 0)] = true := by decide

/-- VaultUnitTests.cpp line 638: GetKeyValue, ExistingKey. -/
theorem conf_vault_GetKeyValue_ExistingKey : runT Env.id [
    op .newVault,
    op (.addKey 0 1 7992),
    keyValue 0 1 0 true .Success (some 0) none,
    readIs (fun w => getKeyValue w 0 1 0) 8000 7992,
    op (.destroyVault 0)] = true := by decide

/-- VaultUnitTests.cpp line 653: GetKeyValue, NonExistingKey. -/
theorem conf_vault_GetKeyValue_NonExistingKey : runT Env.id [
    op .newVault,
    keyValue 0 1 0 false .WrongKey none none,
    readIs (fun w => getKeyValue w 0 1 0) 8000 8000,
    op (.destroyVault 0)] = true := by decide

/-- VaultUnitTests.cpp line 666: GetKeyValue, WrongType. -/
theorem conf_vault_GetKeyValue_WrongType : runT Env.id [
    op .newVault,
    op (.addKey 0 1 7992),
    keyValue 0 1 1 false .WrongType (some 0) none,
    readIs (fun w => getKeyValue w 0 1 1) 1 1,
    op (.destroyVault 0)] = true := by decide

/-- VaultUnitTests.cpp line 681: GetKeyValue, UniqueKey. -/
theorem conf_vault_GetKeyValue_UniqueKey : runT Env.id [
    op .newVault,
    op (.addUniqueKey 0 1 0 true (fun _ _ _ => 0)),
    keyValue 0 1 0 false .UniqueKey (some 0) none,
    readIs (fun w => getKeyValue w 0 1 0) 8000 8000,
    op (.destroyVault 0)] = true := by decide

/-- VaultUnitTests.cpp line 696: GetKeyType, ExistingKey. -/
theorem conf_vault_GetKeyType_ExistingKey : runT Env.id [
    op .newVault,
    op (.addKey 0 1 8000),
    op (.addUniqueKey 0 2 1 true (fun _ _ _ => 0)),
    keyType 0 1 (some 0),
    keyType 0 2 (some 1),
    op (.destroyVault 0)] = true := by decide

/-- VaultUnitTests.cpp line 711: GetKeyType, NonExistingKey. -/
theorem conf_vault_GetKeyType_NonExistingKey : runT Env.id [
    op .newVault,
    keyType 0 1 none,
    op (.destroyVault 0)] = true := by decide

/-- VaultUnitTests.cpp line 720: GetKeys, Keys. -/
theorem conf_vault_GetKeys_Keys : runT Env.id [
    op .newVault,
    keys 0 [],
    op (.addKey 0 1 8000),
    keys 0 [1],
    op (.addKey 0 2 8000),
    keys 0 [1, 2],
    op (.addUniqueKey 0 3 1 true (fun _ _ _ => 0)),
    keys 0 [1, 2, 3],
    op (.destroyVault 0)] = true := by decide

/-- VaultUnitTests.cpp line 735: GetUniqueKeys, UniqueKeys. -/
theorem conf_vault_GetUniqueKeys_UniqueKeys : runT Env.id [
    op .newVault,
    uniq 0 [],
    op (.addKey 0 1 8000),
    uniq 0 [],
    op (.addUniqueKey 0 2 0 true (fun _ _ _ => 0)),
    uniq 0 [2],
    op (.addUniqueKey 0 3 1 true (fun _ _ _ => 0)),
    uniq 0 [2, 3],
    op (.destroyVault 0)] = true := by decide

/-- VaultUnitTests.cpp line 750: RemoveKey, CorrectRemoveFromEmptyVault. -/
theorem conf_vault_RemoveKey_CorrectRemoveFromEmptyVault : runT Env.id [
    op .newVault,
    op (.addKey 0 1 8000),
    op (.addKey 0 2 8000),
    op (.addUniqueKey 0 3 1 true (fun _ _ _ => 0)),
    flag (.removeKey 0 2) true,
    flag (.removeKey 0 3) true,
    keysN 0 1,
    op (.destroyVault 0)] = true := by decide

/-- VaultUnitTests.cpp line 763: RemoveKey, CorrectRemoveFromNonEmptyVault. -/
theorem conf_vault_RemoveKey_CorrectRemoveFromNonEmptyVault : runT Env.id [
    op .newVault,
    op (.addKey 0 1 8000),
    op (.addKey 0 2 8000),
    op (.addUniqueKey 0 3 1 true (fun _ _ _ => 0)),
    op (.createRow 0 [(1, 8008), (2, 8024), (3, 417)]),
    op (.createRow 0 [(1, 8016), (2, 8016), (3, 521)]),
    op (.createRow 0 [(1, 8024), (2, 8008), (3, 625)]),
    flag (.removeKey 0 2) true,
    flag (.removeKey 0 3) true,
    keysN 0 1,
    rows 0 [[(1, 8008)], [(1, 8016)], [(1, 8024)]],
    op (.destroyVault 0)] = true := by decide

/-- VaultUnitTests.cpp line 785: RemoveKey, CorrectRemoveWithDependentSets. -/
theorem conf_vault_RemoveKey_CorrectRemoveWithDependentSets : runT Env.id [
    op .newVault,
    op .newSet,
    op (.addKey 0 1 8000),
    op (.addKey 0 2 8000),
    op (.addUniqueKey 0 3 1 true (fun _ _ _ => 0)),
    op (.createRow 0 [(1, 8000), (2, 8024), (3, 417)]),
    op (.createRow 0 [(1, 8000), (2, 8016), (3, 521)]),
    op (.createRow 0 [(1, 8000), (2, 8008), (3, 625)]),
    op (.request 0 .Equal 1 8000 8000 false false none (fun _ => true) 1),
    flag (.removeKey 0 2) true,
    flag (.removeKey 0 3) true,
    keysN 1 1,
    rows 1 [[(1, 8000)], [(1, 8000)], [(1, 8000)]],
    op (.destroySet 1),
    op (.destroyVault 0)] = true := by decide

/-- VaultUnitTests.cpp line 810: RemoveKey, IncorrectRemoveFromEmptyVault. -/
theorem conf_vault_RemoveKey_IncorrectRemoveFromEmptyVault : runT Env.id [
    op .newVault,
    op (.addKey 0 1 8000),
    op (.addKey 0 2 8000),
    op (.addUniqueKey 0 3 1 true (fun _ _ _ => 0)),
    flag (.removeKey 0 4) false,
    keysN 0 3,
    op (.destroyVault 0)] = true := by decide

/-- VaultUnitTests.cpp line 822: RemoveKey, IncorrectRemoveFromNonEmptyVault. -/
theorem conf_vault_RemoveKey_IncorrectRemoveFromNonEmptyVault : runT Env.id [
    op .newVault,
    op (.addKey 0 1 8000),
    op (.addKey 0 2 8000),
    op (.addUniqueKey 0 3 1 true (fun _ _ _ => 0)),
    op (.createRow 0 [(1, 8008), (2, 8024), (3, 521)]),
    op (.createRow 0 [(1, 8016), (2, 8016), (3, 625)]),
    op (.createRow 0 [(1, 8024), (2, 8008), (3, 729)]),
    flag (.removeKey 0 4) false,
    keysN 0 3,
    rows 0 [[(1, 8008), (2, 8024), (3, 521)], [(1, 8016), (2, 8016), (3, 625)], [(1, 8024), (2, 8008), (3, 729)]],
    op (.destroyVault 0)] = true := by decide

/-- VaultUnitTests.cpp line 843: CreateRecord, CorrectParamsWithoutUniqueKey. -/
theorem conf_vault_CreateRecord_CorrectParamsWithoutUniqueKey : runT Env.id [
    op .newVault,
    op .newRef,
    op (.addKey 0 1 8000),
    op (.addKey 0 2 625),
    op (.createRow 0 []),
    op (.createRow 0 []),
    op (.createRow 0 [(1, 8016)]),
    op (.createRow 0 [(2, 313)]),
    op (.createRow 0 [(1, 8032), (2, 417)]),
    res (.createRow 0 [(2, 521), (1, 8040)]) true .Success (some 1) (some 0) none,
    rows 0 [[(1, 8000), (2, 625)], [(1, 8000), (2, 625)], [(1, 8016), (2, 625)], [(1, 8000), (2, 313)], [(1, 8032), (2, 417)], [(1, 8040), (2, 521)]],
    res (.createRecord 0 0 [(1, 8080), (2, 633)]) true .Success (some 2) (some 1) none,
    chk (fun w => (refGetData w 0 1 0).isSome),
    readIs (fun w => refGetData w 0 1 0) 8000 8080,
    chk (fun w => (refGetData w 0 2 1).isSome),
    readIs (fun w => refGetData w 0 2 1) 1 633,
    op (.refReset 0),
    op (.destroyVault 0)] = true := by decide

/-- VaultUnitTests.cpp line 886: CreateRecord, CorrectParamsWithUniqueKey. -/
theorem conf_vault_CreateRecord_CorrectParamsWithUniqueKey : runT Env.id [
    op .newVault,
    op .newRef,
    op (.addKey 0 1 8000),
    op (.addUniqueKey 0 2 1 true (fun _ _ _ => 0)),
    op (.createRow 0 [(2, 313)]),
    op (.createRow 0 [(1, 8008), (2, 417)]),
    res (.createRow 0 [(2, 521), (1, 8016)]) true .Success (some 1) (some 0) none,
    rows 0 [[(1, 8000), (2, 313)], [(1, 8008), (2, 417)], [(1, 8016), (2, 521)]],
    res (.createRecord 0 0 [(1, 8080), (2, 625)]) true .Success (some 2) (some 1) none,
    chk (fun w => (refGetData w 0 1 0).isSome),
    readIs (fun w => refGetData w 0 1 0) 8000 8080,
    chk (fun w => (refGetData w 0 2 1).isSome),
    readIs (fun w => refGetData w 0 2 1) 1 625,
    op (.refReset 0),
    op (.destroyVault 0)] = true := by decide

/-- VaultUnitTests.cpp line 923: CreateRecord, DuplicateParams. -/
theorem conf_vault_CreateRecord_DuplicateParams : runT Env.id [
    op .newVault,
    op .newRef,
    op (.addKey 0 1 8000),
    op (.createRow 0 [(1, 8008), (1, 8016)]),
    op (.createRow 0 [(1, 8008), (1, 8016), (1, 8024)]),
    res (.createRow 0 [(1, 8016), (1, 8008)]) true .Success (some 1) (some 0) none,
    rows 0 [[(1, 8008)], [(1, 8016)], [(1, 8024)]],
    op (.refReset 0),
    op (.destroyVault 0)] = true := by decide

/-- VaultUnitTests.cpp line 944: CreateRecord, WrongKeyWithoutUniqueKey. -/
theorem conf_vault_CreateRecord_WrongKeyWithoutUniqueKey : runT Env.id [
    op .newVault,
    op .newRef,
    op (.addKey 0 1 8000),
    op (.addKey 0 2 417),
    res (.createRow 0 [(3, 8000)]) false .WrongKey (some 3) (some 0) none,
    rows 0 [],
    op (.refReset 0),
    op (.destroyVault 0)] = true := by decide

/-- VaultUnitTests.cpp line 960: CreateRecord, WrongTypeWithoutUniqueKey. -/
theorem conf_vault_CreateRecord_WrongTypeWithoutUniqueKey : runT Env.id [
    op .newVault,
    op .newRef,
    op (.addKey 0 1 8000),
    op (.addKey 0 2 313),
    res (.createRow 0 [(2, 8000)]) false .WrongType (some 2) (some 0) (some 1),
    rows 0 [],
    op (.refReset 0),
    op (.destroyVault 0)] = true := by decide

/-- VaultUnitTests.cpp line 976: CreateRecord, WrongKeyWithUniqueKey. -/
theorem conf_vault_CreateRecord_WrongKeyWithUniqueKey : runT Env.id [
    op .newVault,
    op .newRef,
    op (.addKey 0 1 8000),
    op (.addUniqueKey 0 2 1 true (fun _ _ _ => 0)),
    res (.createRow 0 [(3, 8000)]) false .WrongKey (some 3) (some 0) none,
    rows 0 [],
    op (.refReset 0),
    op (.destroyVault 0)] = true := by decide

/-- VaultUnitTests.cpp line 992: CreateRecord, WrongTypeWithUniqueKey. -/
theorem conf_vault_CreateRecord_WrongTypeWithUniqueKey : runT Env.id [
    op .newVault,
    op .newRef,
    op (.addKey 0 1 8000),
    op (.addUniqueKey 0 2 1 true (fun _ _ _ => 0)),
    res (.createRow 0 [(2, 8000)]) false .WrongType (some 2) (some 0) (some 1),
    rows 0 [],
    op (.refReset 0),
    op (.destroyVault 0)] = true := by decide

/-- VaultUnitTests.cpp line 1008: CreateRecord, DuplicateUniqueKeyValue. -/
theorem conf_vault_CreateRecord_DuplicateUniqueKeyValue : runT Env.id [
    op .newVault,
    op .newRef,
    op (.addKey 0 1 8000),
    op (.addUniqueKey 0 2 1 true (fun _ _ _ => 0)),
    op (.addUniqueKey 0 3 0 true (fun _ _ _ => 0)),
    op (.createRow 0 [(1, 8008), (2, 417), (3, 8000)]),
    res (.createRow 0 [(2, 417)]) false .UniqueKeyValueAlredyInSet (some 2) (some 1) none,
    rows 0 [[(1, 8008), (2, 417), (3, 8000)]],
    res (.createRow 0 [(1, 8016), (2, 417)]) false .UniqueKeyValueAlredyInSet (some 2) (some 1) none,
    rows 0 [[(1, 8008), (2, 417), (3, 8000)]],
    res (.createRow 0 [(1, 8016), (2, 425), (3, 8000)]) false .UniqueKeyValueAlredyInSet (some 3) (some 0) none,
    rows 0 [[(1, 8008), (2, 417), (3, 8000)]],
    op (.refReset 0),
    op (.destroyVault 0)] = true := by decide

/-- VaultUnitTests.cpp line 1044: CreateRecord, EmptyUniqueKeyValue. -/
theorem conf_vault_CreateRecord_EmptyUniqueKeyValue : runT Env.id [
    op .newVault,
    op .newRef,
    op (.addKey 0 1 8000),
    op (.addUniqueKey 0 2 1 true (fun _ _ _ => 0)),
    res (.createRow 0 [(1, 8008)]) true .Success (some 1) (some 0) none,
    rows 0 [[(1, 8008), (2, 1)]],
    res (.createRow 0 [(1, 8008)]) false .UniqueKeyValueAlredyInSet (some 2) (some 1) none,
    rows 0 [[(1, 8008), (2, 1)]],
    op (.refReset 0),
    op (.destroyVault 0)] = true := by decide

/-- VaultUnitTests.cpp line 1068: GetRecord, CorrectGetRecord. -/
theorem conf_vault_GetRecord_CorrectGetRecord : runT Env.id [
    op .newVault,
    op .newRef,
    op (.addKey 0 1 8000),
    op (.addUniqueKey 0 2 1 true (fun _ _ _ => 0)),
    op (.createRow 0 [(1, 8008), (2, 313)]),
    op (.createRow 0 [(1, 8016), (2, 417)]),
    op (.createRow 0 [(1, 8024), (2, 521)]),
    res (.getRecord 0 1 8008 0) true .Success (some 1) (some 0) (some 0),
    refRow 0 [(1, 8008), (2, 313)],
    res (.getRecord 0 2 521 0) true .Success (some 2) (some 1) (some 1),
    refRow 0 [(1, 8024), (2, 521)],
    op (.refReset 0),
    op (.destroyVault 0)] = true := by decide

/-- VaultUnitTests.cpp line 1096: GetRecord, WrongKey. -/
theorem conf_vault_GetRecord_WrongKey : runT Env.id [
    op .newVault,
    op .newRef,
    op (.addKey 0 1 8000),
    op (.addUniqueKey 0 2 1 true (fun _ _ _ => 0)),
    op (.createRow 0 [(1, 8008), (2, 417)]),
    op (.createRow 0 [(1, 8016), (2, 521)]),
    op (.createRow 0 [(1, 8024), (2, 625)]),
    res (.getRecord 0 3 8008 0) false .WrongKey (some 3) (some 0) none,
    op (.refReset 0),
    op (.destroyVault 0)] = true := by decide

/-- VaultUnitTests.cpp line 1114: GetRecord, WrongType. -/
theorem conf_vault_GetRecord_WrongType : runT Env.id [
    op .newVault,
    op .newRef,
    op (.addKey 0 1 8000),
    op (.addUniqueKey 0 2 1 true (fun _ _ _ => 0)),
    op (.createRow 0 [(1, 8008), (2, 313)]),
    op (.createRow 0 [(1, 8016), (2, 417)]),
    op (.createRow 0 [(1, 8024), (2, 521)]),
    res (.getRecord 0 2 8008 0) false .WrongType (some 2) (some 0) (some 1),
    op (.refReset 0),
    op (.destroyVault 0)] = true := by decide

/-- VaultUnitTests.cpp line 1132: GetRecord, WrongValue. -/
theorem conf_vault_GetRecord_WrongValue : runT Env.id [
    op .newVault,
    op .newRef,
    op (.addKey 0 1 8000),
    op (.addUniqueKey 0 2 1 true (fun _ _ _ => 0)),
    op (.createRow 0 [(1, 8008), (2, 313)]),
    op (.createRow 0 [(1, 8016), (2, 417)]),
    op (.createRow 0 [(1, 8024), (2, 521)]),
    res (.getRecord 0 1 8792 0) false .WrongValue (some 1) (some 0) (some 0),
    op (.refReset 0),
    op (.destroyVault 0)] = true := by decide

/-- VaultUnitTests.cpp line 1198: GetRecords, CorrectGetNotAllRecords. -/
theorem conf_vault_GetRecords_CorrectGetNotAllRecords : runT Env.id [
    op .newVault,
    op (.addKey 0 1 8000),
    op (.addUniqueKey 0 2 1 true (fun _ _ _ => 0)),
    op (.createRow 0 [(1, 8008), (2, 313)]),
    op (.createRow 0 [(1, 8016), (2, 417)]),
    op (.createRow 0 [(1, 8016), (2, 521)]),
    op (.createRow 0 [(1, 8016), (2, 529)]),
    res (.getRecords 0 1 8008 2) true .Success (some 1) (some 0) (some 0),
    vecSize 0 1,
    refRow 0 [(1, 8008), (2, 313)],
    op (.refReset 0),
    res (.getRecords 0 1 8016 2) true .Success (some 1) (some 0) (some 0),
    vecSize 1 2,
    op (.destroyVault 0)] = true := by decide

/-- VaultUnitTests.cpp line 1228: GetRecords, WrongKey. -/
theorem conf_vault_GetRecords_WrongKey : runT Env.id [
    op .newVault,
    op (.addKey 0 1 8000),
    op (.addUniqueKey 0 2 1 true (fun _ _ _ => 0)),
    op (.createRow 0 [(1, 8008), (2, 417)]),
    op (.createRow 0 [(1, 8016), (2, 521)]),
    op (.createRow 0 [(1, 8016), (2, 625)]),
    op (.createRow 0 [(1, 8016), (2, 633)]),
    res (.getRecords 0 3 8008 1000000) false .WrongKey (some 3) (some 0) none,
    vecSize 0 0,
    op (.destroyVault 0)] = true := by decide

/-- VaultUnitTests.cpp line 1249: GetRecords, WrongType. -/
theorem conf_vault_GetRecords_WrongType : runT Env.id [
    op .newVault,
    op (.addKey 0 1 8000),
    op (.addUniqueKey 0 2 1 true (fun _ _ _ => 0)),
    op (.createRow 0 [(1, 8008), (2, 313)]),
    op (.createRow 0 [(1, 8016), (2, 417)]),
    op (.createRow 0 [(1, 8016), (2, 521)]),
    op (.createRow 0 [(1, 8016), (2, 529)]),
    res (.getRecords 0 2 8008 1000000) false .WrongType (some 2) (some 0) (some 1),
    vecSize 0 0,
    op (.destroyVault 0)] = true := by decide

end MVault.Conf
