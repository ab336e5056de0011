import Verif.ConfBase
/- Generated by conformance/gen.py from the unit tests of the project: validation of the model. -/
set_option maxRecDepth 100000
namespace MVault.Conf
open MVault.W

/-- VaultUnitTests.cpp line 3501: DropVault, DropWithDependent. -/
theorem conf_vault_DropVault_DropWithDependent : runT Env.id [
    op .newVault,
    op .newSet,
    op (.addKey 0 1 8000),
    op (.addUniqueKey 0 2 0 true (fun _ _ _ => 0)),
    op (.createRow 0 [(1, 8000), (2, 8000)]),
    op (.createRow 0 [(1, 8000), (2, 8008)]),
    op (.createRow 0 [(1, 8000), (2, 8016)]),
    op (.createRow 0 [(1, 8000), (2, 8024)]),
    op (.createRow 0 [(1, 8000), (2, 8032)]),
    op (.createRow 0 [(1, 8000), (2, 8040)]),
    op (.createRow 0 [(1, 8000), (2, 8048)]),
    op (.createRow 0 [(1, 8000), (2, 8056)]),
    op (.createRow 0 [(1, 8000), (2, 8064)]),
    op (.createRow 0 [(1, 8000), (2, 8072)]),
    op (.request 0 .Equal 1 8000 8000 false false none (fun _ => true) 1),
    size 1 10,
    op (.dropVault 0),
    size 1 0,
    keys 1 [],
    uniq 1 [],
    rows 1 [],
    op (.destroySet 1),
    op (.destroyVault 0)] = true := by decide

/-- VaultUnitTests.cpp line 3522: DropData, Drop. -/
theorem conf_vault_DropData_Drop : runT Env.id [
    op .newVault,
    op (.addKey 0 1 8000),
    op (.addUniqueKey 0 2 0 true (fun _ _ _ => 0)),
    op (.createRow 0 [(1, 8000), (2, 8000)]),
    op (.createRow 0 [(1, 8008), (2, 8008)]),
    op (.createRow 0 [(1, 8016), (2, 8016)]),
    op (.createRow 0 [(1, 8024), (2, 8024)]),
    op (.createRow 0 [(1, 8032), (2, 8032)]),
    op (.createRow 0 [(1, 8040), (2, 8040)]),
    op (.createRow 0 [(1, 8048), (2, 8048)]),
    op (.createRow 0 [(1, 8056), (2, 8056)]),
    op (.createRow 0 [(1, 8064), (2, 8064)]),
    op (.createRow 0 [(1, 8072), (2, 8072)]),
    op (.dropData 0),
    size 0 0,
    keys 0 [1, 2],
    uniq 0 [2],
    rows 0 [],
    op (.destroyVault 0)] = true := by decide

/-- VaultUnitTests.cpp line 3539: DropData, DropEmpty. -/
theorem conf_vault_DropData_DropEmpty : runT Env.id [
    op .newVault,
    op (.dropData 0),
    size 0 0,
    keys 0 [],
    uniq 0 [],
    rows 0 [],
    op (.destroyVault 0)] = true := by decide

/-- VaultUnitTests.cpp line 3551: DropData, DropSecond. -/
theorem conf_vault_DropData_DropSecond : runT Env.id [
    op .newVault,
    op (.addKey 0 1 8000),
    op (.addUniqueKey 0 2 0 true (fun _ _ _ => 0)),
    op (.createRow 0 [(1, 8000), (2, 8000)]),
    op (.createRow 0 [(1, 8008), (2, 8008)]),
    op (.createRow 0 [(1, 8016), (2, 8016)]),
    op (.createRow 0 [(1, 8024), (2, 8024)]),
    op (.createRow 0 [(1, 8032), (2, 8032)]),
    op (.createRow 0 [(1, 8040), (2, 8040)]),
    op (.createRow 0 [(1, 8048), (2, 8048)]),
    op (.createRow 0 [(1, 8056), (2, 8056)]),
    op (.createRow 0 [(1, 8064), (2, 8064)]),
    op (.createRow 0 [(1, 8072), (2, 8072)]),
    op (.dropData 0),
    op (.dropData 0),
    size 0 0,
    keys 0 [1, 2],
    uniq 0 [2],
    rows 0 [],
    op (.destroyVault 0)] = true := by decide

/-- VaultUnitTests.cpp line 3569: DropData, DropWithDependent. -/
theorem conf_vault_DropData_DropWithDependent : runT Env.id [
    op .newVault,
    op .newSet,
    op (.addKey 0 1 8000),
    op (.addUniqueKey 0 2 0 true (fun _ _ _ => 0)),
    op (.createRow 0 [(1, 8000), (2, 8000)]),
    op (.createRow 0 [(1, 8000), (2, 8008)]),
    op (.createRow 0 [(1, 8000), (2, 8016)]),
    op (.createRow 0 [(1, 8000), (2, 8024)]),
    op (.createRow 0 [(1, 8000), (2, 8032)]),
    op (.createRow 0 [(1, 8000), (2, 8040)]),
    op (.createRow 0 [(1, 8000), (2, 8048)]),
    op (.createRow 0 [(1, 8000), (2, 8056)]),
    op (.createRow 0 [(1, 8000), (2, 8064)]),
    op (.createRow 0 [(1, 8000), (2, 8072)]),
    op (.request 0 .Equal 1 8000 8000 false false none (fun _ => true) 1),
    size 1 10,
    op (.dropData 0),
    size 1 0,
    keys 1 [1, 2],
    uniq 1 [2],
    rows 1 [],
    op (.destroySet 1),
    op (.destroyVault 0)] = true := by decide

/-- VaultUnitTests.cpp line 3590: EraseRecord, CorrectEraseByRef. -/
theorem conf_vault_EraseRecord_CorrectEraseByRef : runT Env.id [
    op .newVault,
    op .newRef,
    op (.addKey 0 1 8000),
    op (.createRecord 0 0 [(1, 8000)]),
    flag (.eraseRef 0 0) true,
    size 0 0,
    rows 0 [],
    op (.createRow 0 [(1, 8000)]),
    op (.createRow 0 [(1, 8008)]),
    op (.createRow 0 [(1, 8016)]),
    op (.createRow 0 [(1, 8024)]),
    op (.createRow 0 [(1, 8032)]),
    op (.createRow 0 [(1, 8040)]),
    op (.createRow 0 [(1, 8048)]),
    op (.createRow 0 [(1, 8056)]),
    op (.createRow 0 [(1, 8064)]),
    op (.createRow 0 [(1, 8072)]),
    op (.getRecord 0 1 8000 0),
    flag (.eraseRef 0 0) true,
    valid 0 false,
    res (.getRecord 0 1 8000 0) false .WrongValue (some 1) (some 0) (some 0),
    op (.getRecord 0 1 8008 0),
    flag (.eraseRef 0 0) true,
    valid 0 false,
    res (.getRecord 0 1 8008 0) false .WrongValue (some 1) (some 0) (some 0),
    op (.getRecord 0 1 8016 0),
    flag (.eraseRef 0 0) true,
    valid 0 false,
    res (.getRecord 0 1 8016 0) false .WrongValue (some 1) (some 0) (some 0),
    op (.getRecord 0 1 8024 0),
    flag (.eraseRef 0 0) true,
    valid 0 false,
    res (.getRecord 0 1 8024 0) false .WrongValue (some 1) (some 0) (some 0),
    op (.getRecord 0 1 8032 0),
    flag (.eraseRef 0 0) true,
    valid 0 false,
    res (.getRecord 0 1 8032 0) false .WrongValue (some 1) (some 0) (some 0),
    op (.getRecord 0 1 8040 0),
    flag (.eraseRef 0 0) true,
    valid 0 false,
    res (.getRecord 0 1 8040 0) false .WrongValue (some 1) (some 0) (some 0),
    op (.getRecord 0 1 8048 0),
    flag (.eraseRef 0 0) true,
    valid 0 false,
    res (.getRecord 0 1 8048 0) false .WrongValue (some 1) (some 0) (some 0),
    op (.getRecord 0 1 8056 0),
    flag (.eraseRef 0 0) true,
    valid 0 false,
    res (.getRecord 0 1 8056 0) false .WrongValue (some 1) (some 0) (some 0),
    op (.getRecord 0 1 8064 0),
    flag (.eraseRef 0 0) true,
    valid 0 false,
    res (.getRecord 0 1 8064 0) false .WrongValue (some 1) (some 0) (some 0),
    op (.getRecord 0 1 8072 0),
    flag (.eraseRef 0 0) true,
    valid 0 false,
    res (.getRecord 0 1 8072 0) false .WrongValue (some 1) (some 0) (some 0),
    size 0 0,
    rows 0 [],
    op (.refReset 0),
    op (.destroyVault 0)] = true := by decide

/-- VaultUnitTests.cpp line 3629: EraseRecord, IncorrectEraseByRef. -/
theorem conf_vault_EraseRecord_IncorrectEraseByRef : runT Env.id [
    op .newVault,
    op .newRef,
    flag (.eraseRef 0 0) false,
    op (.addKey 0 1 8000),
    op (.createRecord 0 0 [(1, 8000)]),
    op (.eraseRef 0 0),
    flag (.eraseRef 0 0) false,
    size 0 0,
    rows 0 [],
    op (.refReset 0),
    op (.destroyVault 0)] = true := by decide

/-- VaultUnitTests.cpp line 3653: EraseRecord, CorrectEraseByKeyAndValue. -/
theorem conf_vault_EraseRecord_CorrectEraseByKeyAndValue : runT Env.id [
    op .newVault,
    op .newRef,
    op (.addKey 0 1 8000),
    op (.createRecord 0 0 [(1, 8000)]),
    res (.eraseKV 0 1 8000) true .Success (some 1) (some 0) (some 0),
    size 0 0,
    rows 0 [],
    op (.createRow 0 [(1, 8000)]),
    op (.createRow 0 [(1, 8008)]),
    op (.createRow 0 [(1, 8016)]),
    op (.createRow 0 [(1, 8024)]),
    op (.createRow 0 [(1, 8032)]),
    op (.createRow 0 [(1, 8040)]),
    op (.createRow 0 [(1, 8048)]),
    op (.createRow 0 [(1, 8056)]),
    op (.createRow 0 [(1, 8064)]),
    op (.createRow 0 [(1, 8072)]),
    op (.eraseKV 0 1 8000),
    op (.eraseKV 0 1 8008),
    op (.eraseKV 0 1 8016),
    op (.eraseKV 0 1 8024),
    op (.eraseKV 0 1 8032),
    op (.eraseKV 0 1 8040),
    op (.eraseKV 0 1 8048),
    op (.eraseKV 0 1 8056),
    op (.eraseKV 0 1 8064),
    op (.eraseKV 0 1 8072),
    size 0 0,
    rows 0 [],
    op (.refReset 0),
    op (.destroyVault 0)] = true := by decide

/-- VaultUnitTests.cpp line 3683: EraseRecord, WrongKeyEraseByKeyAndValue. -/
theorem conf_vault_EraseRecord_WrongKeyEraseByKeyAndValue : runT Env.id [
    op .newVault,
    op .newRef,
    op (.addKey 0 1 8000),
    op (.createRecord 0 0 [(1, 8000)]),
    res (.eraseKV 0 2 8000) false .WrongKey (some 2) (some 0) none,
    size 0 1,
    rows 0 [[(1, 8000)]],
    op (.refReset 0),
    op (.destroyVault 0)] = true := by decide

/-- VaultUnitTests.cpp line 3702: EraseRecord, WrongTypeEraseByKeyAndValue. -/
theorem conf_vault_EraseRecord_WrongTypeEraseByKeyAndValue : runT Env.id [
    op .newVault,
    op .newRef,
    op (.addKey 0 1 8000),
    op (.createRecord 0 0 [(1, 8000)]),
    res (.eraseKV 0 1 1) false .WrongType (some 1) (some 1) (some 0),
    size 0 1,
    rows 0 [[(1, 8000)]],
    op (.refReset 0),
    op (.destroyVault 0)] = true := by decide

/-- VaultUnitTests.cpp line 3722: EraseRecord, WrongValueEraseByKeyAndValue. -/
theorem conf_vault_EraseRecord_WrongValueEraseByKeyAndValue : runT Env.id [
    op .newVault,
    op .newRef,
    op (.addKey 0 1 8000),
    op (.createRecord 0 0 [(1, 8000)]),
    res (.eraseKV 0 1 8008) false .WrongValue (some 1) (some 0) (some 0),
    size 0 1,
    rows 0 [[(1, 8000)]],
    op (.refReset 0),
    op (.destroyVault 0)] = true := by decide

/-- VaultUnitTests.cpp line 3741: EraseRecords, Erase. -/
theorem conf_vault_EraseRecords_Erase : runT Env.id [
    op .newVault,
    op .newRef,
    op (.addKey 0 1 8000),
    op (.createRow 0 [(1, 8000)]),
    op (.createRow 0 [(1, 8000)]),
    op (.createRow 0 [(1, 8000)]),
    op (.createRow 0 [(1, 8000)]),
    op (.createRow 0 [(1, 8000)]),
    op (.createRow 0 [(1, 8000)]),
    op (.createRow 0 [(1, 8000)]),
    op (.createRow 0 [(1, 8000)]),
    op (.createRow 0 [(1, 8000)]),
    op (.createRow 0 [(1, 8000)]),
    res (.eraseManyKV 0 1 8000 1000000) true .Success (some 1) (some 0) (some 0),
    size 0 0,
    rows 0 [],
    op (.refReset 0),
    op (.destroyVault 0)] = true := by decide

/-- VaultUnitTests.cpp line 3760: EraseRecords, WrongKeyErase. -/
theorem conf_vault_EraseRecords_WrongKeyErase : runT Env.id [
    op .newVault,
    op .newRef,
    op (.addKey 0 1 8000),
    op (.createRecord 0 0 [(1, 8000)]),
    res (.eraseManyKV 0 2 8000 1000000) false .WrongKey (some 2) (some 0) none,
    size 0 1,
    rows 0 [[(1, 8000)]],
    op (.refReset 0),
    op (.destroyVault 0)] = true := by decide

/-- VaultUnitTests.cpp line 3779: EraseRecords, WrongTypeErase. -/
theorem conf_vault_EraseRecords_WrongTypeErase : runT Env.id [
    op .newVault,
    op .newRef,
    op (.addKey 0 1 8000),
    op (.createRecord 0 0 [(1, 8000)]),
    res (.eraseManyKV 0 1 1 1000000) false .WrongType (some 1) (some 1) (some 0),
    size 0 1,
    rows 0 [[(1, 8000)]],
    op (.refReset 0),
    op (.destroyVault 0)] = true := by decide

/-- VaultUnitTests.cpp line 3799: EraseRecords, WrongValueErase. -/
theorem conf_vault_EraseRecords_WrongValueErase : runT Env.id [
    op .newVault,
    op .newRef,
    op (.addKey 0 1 8000),
    op (.createRecord 0 0 [(1, 8000)]),
    res (.eraseManyKV 0 1 8008 1000000) false .WrongValue (some 1) (some 0) (some 0),
    size 0 1,
    rows 0 [[(1, 8000)]],
    op (.refReset 0),
    op (.destroyVault 0)] = true := by decide

/-- VaultUnitTests.cpp line 3818: Size, Default. -/
theorem conf_vault_Size_Default : runT Env.id [
    op .newVault,
    op (.addKey 0 1 8002),
    size 0 0,
    op (.createRow 0 [(1, 8002)]),
    size 0 1,
    op (.createRow 0 [(1, 8010)]),
    size 0 2,
    op (.createRow 0 [(1, 8018)]),
    size 0 3,
    op (.createRow 0 [(1, 8026)]),
    size 0 4,
    op (.createRow 0 [(1, 8034)]),
    size 0 5,
    op (.createRow 0 [(1, 8042)]),
    size 0 6,
    op (.createRow 0 [(1, 8050)]),
    size 0 7,
    op (.createRow 0 [(1, 8058)]),
    size 0 8,
    op (.createRow 0 [(1, 8066)]),
    size 0 9,
    op (.createRow 0 [(1, 8074)]),
    size 0 10,
    op (.eraseKV 0 1 8002),
    size 0 9,
    op (.eraseKV 0 1 8010),
    size 0 8,
    op (.eraseKV 0 1 8018),
    size 0 7,
    op (.eraseKV 0 1 8026),
    size 0 6,
    op (.eraseKV 0 1 8034),
    size 0 5,
    op (.eraseKV 0 1 8042),
    size 0 4,
    op (.eraseKV 0 1 8050),
    size 0 3,
    op (.eraseKV 0 1 8058),
    size 0 2,
    op (.eraseKV 0 1 8066),
    size 0 1,
    op (.eraseKV 0 1 8074),
    op (.destroyVault 0)] = true := by decide

/-- VaultUnitTests.cpp line 3836: GetSortedRecords, GetRecords. -/
theorem conf_vault_GetSortedRecords_GetRecords : runT Env.id [
    op .newVault,
    op (.addKey 0 1 8000),
    op (.getSorted 0 1 false none),
    vecSize 0 0,
    op (.createRow 0 [(1, 8000)]),
    op (.createRow 0 [(1, 8008)]),
    op (.createRow 0 [(1, 8016)]),
    op (.createRow 0 [(1, 8024)]),
    op (.createRow 0 [(1, 8032)]),
    op (.createRow 0 [(1, 8040)]),
    op (.createRow 0 [(1, 8048)]),
    op (.createRow 0 [(1, 8056)]),
    op (.createRow 0 [(1, 8064)]),
    op (.createRow 0 [(1, 8072)]),
    op (.getSorted 0 1 false none),
    vecSize 0 10,
    chk (fun w => (refGetData w 0 1 0).isSome),
    readIs (fun w => refGetData w 0 1 0) 8000 8000,
    chk (fun w => (refGetData w 1 1 0).isSome),
    readIs (fun w => refGetData w 1 1 0) 8000 8008,
    chk (fun w => (refGetData w 2 1 0).isSome),
    readIs (fun w => refGetData w 2 1 0) 8000 8016,
    chk (fun w => (refGetData w 3 1 0).isSome),
    readIs (fun w => refGetData w 3 1 0) 8000 8024,
    chk (fun w => (refGetData w 4 1 0).isSome),
    readIs (fun w => refGetData w 4 1 0) 8000 8032,
    chk (fun w => (refGetData w 5 1 0).isSome),
    readIs (fun w => refGetData w 5 1 0) 8000 8040,
    chk (fun w => (refGetData w 6 1 0).isSome),
    readIs (fun w => refGetData w 6 1 0) 8000 8048,
    chk (fun w => (refGetData w 7 1 0).isSome),
    readIs (fun w => refGetData w 7 1 0) 8000 8056,
    chk (fun w => (refGetData w 8 1 0).isSome),
    readIs (fun w => refGetData w 8 1 0) 8000 8064,
    chk (fun w => (refGetData w 9 1 0).isSome),
    readIs (fun w => refGetData w 9 1 0) 8000 8072,
    op (.destroyVault 0)] = true := by decide

/-- VaultUnitTests.cpp line 3861: GetSortedRecords, GetRecordsReverse. -/
theorem conf_vault_GetSortedRecords_GetRecordsReverse : runT Env.id [
    op .newVault,
    op (.addKey 0 1 8000),
    op (.createRow 0 [(1, 8000)]),
    op (.createRow 0 [(1, 8008)]),
    op (.createRow 0 [(1, 8016)]),
    op (.createRow 0 [(1, 8024)]),
    op (.createRow 0 [(1, 8032)]),
    op (.createRow 0 [(1, 8040)]),
    op (.createRow 0 [(1, 8048)]),
    op (.createRow 0 [(1, 8056)]),
    op (.createRow 0 [(1, 8064)]),
    op (.createRow 0 [(1, 8072)]),
    op (.getSorted 0 1 true none),
    vecSize 0 10,
    chk (fun w => (refGetData w 0 1 0).isSome),
    readIs (fun w => refGetData w 0 1 0) 8000 8072,
    chk (fun w => (refGetData w 1 1 0).isSome),
    readIs (fun w => refGetData w 1 1 0) 8000 8064,
    chk (fun w => (refGetData w 2 1 0).isSome),
    readIs (fun w => refGetData w 2 1 0) 8000 8056,
    chk (fun w => (refGetData w 3 1 0).isSome),
    readIs (fun w => refGetData w 3 1 0) 8000 8048,
    chk (fun w => (refGetData w 4 1 0).isSome),
    readIs (fun w => refGetData w 4 1 0) 8000 8040,
    chk (fun w => (refGetData w 5 1 0).isSome),
    readIs (fun w => refGetData w 5 1 0) 8000 8032,
    chk (fun w => (refGetData w 6 1 0).isSome),
    readIs (fun w => refGetData w 6 1 0) 8000 8024,
    chk (fun w => (refGetData w 7 1 0).isSome),
    readIs (fun w => refGetData w 7 1 0) 8000 8016,
    chk (fun w => (refGetData w 8 1 0).isSome),
    readIs (fun w => refGetData w 8 1 0) 8000 8008,
    chk (fun w => (refGetData w 9 1 0).isSome),
    readIs (fun w => refGetData w 9 1 0) 8000 8000,
    op (.destroyVault 0)] = true := by decide

/-- VaultUnitTests.cpp line 3881: GetSortedRecords, GetNotAllRecords. -/
theorem conf_vault_GetSortedRecords_GetNotAllRecords : runT Env.id [
    op .newVault,
    op (.addKey 0 1 8000),
    op (.createRow 0 [(1, 8000)]),
    op (.createRow 0 [(1, 8008)]),
    op (.createRow 0 [(1, 8016)]),
    op (.createRow 0 [(1, 8024)]),
    op (.createRow 0 [(1, 8032)]),
    op (.createRow 0 [(1, 8040)]),
    op (.createRow 0 [(1, 8048)]),
    op (.createRow 0 [(1, 8056)]),
    op (.createRow 0 [(1, 8064)]),
    op (.createRow 0 [(1, 8072)]),
    op (.getSorted 0 1 false (some 5)),
    vecSize 0 5,
    chk (fun w => (refGetData w 0 1 0).isSome),
    readIs (fun w => refGetData w 0 1 0) 8000 8000,
    chk (fun w => (refGetData w 1 1 0).isSome),
    readIs (fun w => refGetData w 1 1 0) 8000 8008,
    chk (fun w => (refGetData w 2 1 0).isSome),
    readIs (fun w => refGetData w 2 1 0) 8000 8016,
    chk (fun w => (refGetData w 3 1 0).isSome),
    readIs (fun w => refGetData w 3 1 0) 8000 8024,
    chk (fun w => (refGetData w 4 1 0).isSome),
    readIs (fun w => refGetData w 4 1 0) 8000 8032,
    op (.destroyVault 0)] = true := by decide

/-- VaultUnitTests.cpp line 3901: GetSortedRecords, WrongKey. -/
theorem conf_vault_GetSortedRecords_WrongKey : runT Env.id [
    op .newVault,
    op (.addKey 0 1 8000),
    op (.createRow 0 [(1, 8000)]),
    op (.createRow 0 [(1, 8008)]),
    op (.createRow 0 [(1, 8016)]),
    op (.createRow 0 [(1, 8024)]),
    op (.createRow 0 [(1, 8032)]),
    op (.createRow 0 [(1, 8040)]),
    op (.createRow 0 [(1, 8048)]),
    op (.createRow 0 [(1, 8056)]),
    op (.createRow 0 [(1, 8064)]),
    op (.createRow 0 [(1, 8072)]),
    op (.getSorted 0 2 false none),
    vecSize 0 0,
    op (.destroyVault 0)] = true := by decide

/-- VaultUnitTests.cpp line 3914: SortBy, Sort. -/
theorem conf_vault_SortBy_Sort : runT Env.id [
    op .newVault,
    op (.addKey 0 1 8000),
    op (.createRow 0 [(1, 8000)]),
    op (.createRow 0 [(1, 8008)]),
    op (.createRow 0 [(1, 8016)]),
    op (.createRow 0 [(1, 8024)]),
    op (.createRow 0 [(1, 8032)]),
    op (.createRow 0 [(1, 8040)]),
    op (.createRow 0 [(1, 8048)]),
    op (.createRow 0 [(1, 8056)]),
    op (.createRow 0 [(1, 8064)]),
    op (.createRow 0 [(1, 8072)]),
    sorted 0 1 false none 1 [8000, 8008, 8016, 8024, 8032, 8040, 8048, 8056, 8064, 8072],
    op (.destroyVault 0)] = true := by decide

/-- VaultUnitTests.cpp line 3934: SortBy, SortReverse. -/
theorem conf_vault_SortBy_SortReverse : runT Env.id [
    op .newVault,
    op (.addKey 0 1 8000),
    op (.createRow 0 [(1, 8000)]),
    op (.createRow 0 [(1, 8008)]),
    op (.createRow 0 [(1, 8016)]),
    op (.createRow 0 [(1, 8024)]),
    op (.createRow 0 [(1, 8032)]),
    op (.createRow 0 [(1, 8040)]),
    op (.createRow 0 [(1, 8048)]),
    op (.createRow 0 [(1, 8056)]),
    op (.createRow 0 [(1, 8064)]),
    op (.createRow 0 [(1, 8072)]),
    sorted 0 1 true none 1 [8072, 8064, 8056, 8048, 8040, 8032, 8024, 8016, 8008, 8000],
    op (.destroyVault 0)] = true := by decide

/-- VaultUnitTests.cpp line 3954: SortBy, SortNotAllRecords. -/
theorem conf_vault_SortBy_SortNotAllRecords : runT Env.id [
    op .newVault,
    op (.addKey 0 1 8000),
    op (.createRow 0 [(1, 8000)]),
    op (.createRow 0 [(1, 8008)]),
    op (.createRow 0 [(1, 8016)]),
    op (.createRow 0 [(1, 8024)]),
    op (.createRow 0 [(1, 8032)]),
    op (.createRow 0 [(1, 8040)]),
    op (.createRow 0 [(1, 8048)]),
    op (.createRow 0 [(1, 8056)]),
    op (.createRow 0 [(1, 8064)]),
    op (.createRow 0 [(1, 8072)]),
    sorted 0 1 false (some 5) 1 [8000, 8008, 8016, 8024, 8032],
    op (.destroyVault 0)] = true := by decide

/-- VaultUnitTests.cpp line 3974: SortBy, WrongKey. -/
theorem conf_vault_SortBy_WrongKey : runT Env.id [
    op .newVault,
    op (.addKey 0 1 8000),
    op (.createRow 0 [(1, 8000)]),
    op (.createRow 0 [(1, 8008)]),
    op (.createRow 0 [(1, 8016)]),
    op (.createRow 0 [(1, 8024)]),
    op (.createRow 0 [(1, 8032)]),
    op (.createRow 0 [(1, 8040)]),
    op (.createRow 0 [(1, 8048)]),
    op (.createRow 0 [(1, 8056)]),
    op (.createRow 0 [(1, 8064)]),
    op (.createRow 0 [(1, 8072)]),
    sorted 0 2 false none 1 [],
    op (.destroyVault 0)] = true := by decide

/-- VaultUnitTests.cpp line 4200: ToStrings, FilledVault. -/
theorem conf_vault_ToStrings_FilledVault : runT Env.id [
    op .newVault,
    op (.addUniqueKey 0 1 0 true (fun _ _ _ => 0)),
    op (.addKey 0 2 625),
    op (.createRow 0 [(1, 8008), (2, 313)]),
    op (.createRow 0 [(1, 8016), (2, 417)]),
    op (.createRow 0 [(1, 8024), (2, 521)]),
    rows 0 [[(1, 8008), (2, 313)], [(1, 8016), (2, 417)], [(1, 8024), (2, 521)]],
    op (.destroyVault 0)] = true := by decide

/-- VaultUnitTests.cpp line 4844: Destructor, Default. -/
theorem conf_vault_Destructor_Default : runT Env.id [
    op .newVault,
    op .newSet,
    op .newRef,
    op (.addKey 0 1 8000),
    op (.createRow 0 [(1, 8008)]),
    op (.getRecord 0 1 8008 0),
    op (.request 0 .Equal 1 8008 8008 false false none (fun _ => true) 1),
    op (.destroyVault 0),
    valid 0 false,
    parentValid 1 false,
    op (.refReset 0),
    op (.destroySet 1)] = true := by decide

/-- VaultRecordSetUnitTests.cpp line 15: DefaultConstructor, Default. -/
theorem conf_set_DefaultConstructor_Default : runT Env.id [
    op .newSet,
    size 0 0,
    keysN 0 0,
    uniqN 0 0,
    parentValid 0 false,
    parentValid 0 false,
    rows 0 [],
    op (.destroySet 0)] = true := by decide

/-- VaultRecordSetUnitTests.cpp line 27: CopyConstructor, CopyWithoutParent. -/
theorem conf_set_CopyConstructor_CopyWithoutParent : runT Env.id [
    op .newSet,
    op (.setCopyNew 0),
    size 1 0,
    keysN 1 0,
    uniqN 1 0,
    parentValid 1 false,
    parentValid 1 false,
    rows 1 [],
    op (.destroySet 1),
    op (.destroySet 0)] = true := by decide

/-- VaultRecordSetUnitTests.cpp line 40: CopyConstructor, CopyEmptySet. -/
theorem conf_set_CopyConstructor_CopyEmptySet : runT Env.id [
    op .newVault,
    op .newSet,
    op (.addKey 0 1 8000),
    op (.createRow 0 []),
    op (.request 0 .Equal 1 8000 8000 false false none (fun _ => true) 1),
    op (.eraseKV 0 1 8000),
    op (.removeKey 0 1),
    op (.setCopyNew 1),
    size 2 0,
    keysN 2 0,
    uniqN 2 0,
    parentValid 2 true,
    rows 2 [],
    op (.destroySet 2),
    op (.destroySet 1),
    op (.destroyVault 0)] = true := by decide

/-- VaultRecordSetUnitTests.cpp line 53: CopyConstructor, CopyFilledSet. -/
theorem conf_set_CopyConstructor_CopyFilledSet : runT Env.id [
    op .newVault,
    op .newSet,
    op (.addKey 0 1 8000),
    op (.addUniqueKey 0 2 1 true (fun _ _ _ => 0)),
    op (.createRow 0 [(1, 8000), (2, 313)]),
    op (.createRow 0 [(1, 8000), (2, 417)]),
    op (.createRow 0 [(1, 8000), (2, 521)]),
    op (.request 0 .Equal 1 8000 8000 false false none (fun _ => true) 1),
    op (.setCopyNew 1),
    size 2 3,
    keysN 2 2,
    uniqN 2 1,
    parentValid 2 true,
    rows 2 [[(1, 8000), (2, 313)], [(1, 8000), (2, 417)], [(1, 8000), (2, 521)]],
    op (.destroySet 2),
    op (.destroySet 1),
    op (.destroyVault 0)] = true := by decide

/-- VaultRecordSetUnitTests.cpp line 80: AssignmentOperator, AssignWithoutParents. -/
theorem conf_set_AssignmentOperator_AssignWithoutParents : runT Env.id [
    op .newSet,
    op .newSet,
    op (.setAssign 1 0),
    size 1 0,
    keysN 1 0,
    uniqN 1 0,
    parentValid 1 false,
    parentValid 1 false,
    rows 1 [],
    op (.destroySet 1),
    op (.destroySet 0)] = true := by decide

/-- VaultRecordSetUnitTests.cpp line 93: AssignmentOperator, AssignWithParentsToWithoutParent. -/
theorem conf_set_AssignmentOperator_AssignWithParentsToWithoutParent : runT Env.id [
    op .newVault,
    op .newSet,
    op .newSet,
    op (.addKey 0 1 8000),
    op (.addUniqueKey 0 2 1 true (fun _ _ _ => 0)),
    op (.createRow 0 [(1, 8000), (2, 313)]),
    op (.createRow 0 [(1, 8000), (2, 417)]),
    op (.createRow 0 [(1, 8000), (2, 521)]),
    op (.request 0 .Equal 1 8000 8000 false false none (fun _ => true) 1),
    op (.setAssign 1 2),
    size 1 0,
    keysN 1 0,
    uniqN 1 0,
    parentValid 1 false,
    parentValid 1 false,
    rows 1 [],
    op (.destroySet 2),
    op (.destroySet 1),
    op (.destroyVault 0)] = true := by decide

/-- VaultRecordSetUnitTests.cpp line 117: AssignmentOperator, AssignWithoutParentToWithParent. -/
theorem conf_set_AssignmentOperator_AssignWithoutParentToWithParent : runT Env.id [
    op .newVault,
    op .newSet,
    op .newSet,
    op (.addKey 0 1 8000),
    op (.addUniqueKey 0 2 1 true (fun _ _ _ => 0)),
    op (.createRow 0 [(1, 8000), (2, 313)]),
    op (.createRow 0 [(1, 8000), (2, 417)]),
    op (.createRow 0 [(1, 8000), (2, 521)]),
    op (.request 0 .Equal 1 8000 8000 false false none (fun _ => true) 2),
    op (.setAssign 2 1),
    size 2 0,
    keysN 2 0,
    uniqN 2 0,
    parentValid 2 false,
    rows 2 [],
    op (.destroySet 2),
    op (.destroySet 1),
    op (.destroyVault 0)] = true := by decide

/-- VaultRecordSetUnitTests.cpp line 140: AssignmentOperator, AssignEmpty. -/
theorem conf_set_AssignmentOperator_AssignEmpty : runT Env.id [
    op .newVault,
    op .newSet,
    op (.addKey 0 1 8000),
    op (.createRow 0 []),
    op (.request 0 .Equal 1 8000 8000 false false none (fun _ => true) 1),
    op (.eraseKV 0 1 8000),
    op (.removeKey 0 1),
    op .newSet,
    op (.setAssign 2 1),
    size 2 0,
    keysN 2 0,
    uniqN 2 0,
    parentValid 2 true,
    rows 2 [],
    op (.destroySet 2),
    op (.destroySet 1),
    op (.destroyVault 0)] = true := by decide

/-- VaultRecordSetUnitTests.cpp line 155: AssignmentOperator, AssignFilledSet. -/
theorem conf_set_AssignmentOperator_AssignFilledSet : runT Env.id [
    op .newVault,
    op .newSet,
    op .newSet,
    op (.addKey 0 1 8000),
    op (.addUniqueKey 0 2 1 true (fun _ _ _ => 0)),
    op (.createRow 0 [(1, 8000), (2, 313)]),
    op (.createRow 0 [(1, 8000), (2, 417)]),
    op (.createRow 0 [(1, 8000), (2, 521)]),
    op (.request 0 .Equal 1 8000 8000 false false none (fun _ => true) 1),
    op (.setAssign 2 1),
    size 2 3,
    keysN 2 2,
    uniqN 2 1,
    parentValid 2 true,
    rows 2 [[(1, 8000), (2, 313)], [(1, 8000), (2, 417)], [(1, 8000), (2, 521)]],
    op (.destroySet 2),
    op (.destroySet 1),
    op (.destroyVault 0)] = true := by decide

/-- VaultRecordSetUnitTests.cpp line 182: AssignmentOperator, AssignEmptyToFilled. -/
theorem conf_set_AssignmentOperator_AssignEmptyToFilled : runT Env.id [
    op .newVault,
    op .newSet,
    op .newSet,
    op .newRef,
    op (.addKey 0 1 8000),
    op (.addUniqueKey 0 2 1 true (fun _ _ _ => 0)),
    op (.createRecord 0 0 [(1, 8000), (2, 313)]),
    op (.requestTree 0 (.leaf .Equal 1 8000 (fun _ => true)) 1),
    op (.setRemoveRef 1 0),
    op (.createRow 0 [(1, 8000), (2, 417)]),
    op (.createRow 0 [(1, 8000), (2, 521)]),
    op (.request 0 .Equal 1 8000 8000 false false none (fun _ => true) 2),
    op (.setAssign 2 1),
    size 2 0,
    keysN 2 2,
    uniqN 2 1,
    parentValid 2 true,
    rows 2 [],
    op (.refReset 0),
    op (.destroySet 2),
    op (.destroySet 1),
    op (.destroyVault 0)] = true := by decide

/-- VaultRecordSetUnitTests.cpp line 209: MoveConstructor, MoveWithoutParents. -/
theorem conf_set_MoveConstructor_MoveWithoutParents : runT Env.id [
    op .newSet,
    op (.setMoveNew 0),
    size 1 0,
    keysN 1 0,
    uniqN 1 0,
    parentValid 1 false,
    parentValid 1 false,
    rows 1 [],
    op (.destroySet 1),
    op (.destroySet 0)] = true := by decide

/-- VaultRecordSetUnitTests.cpp line 222: MoveConstructor, MoveEmpty. -/
theorem conf_set_MoveConstructor_MoveEmpty : runT Env.id [
    op .newVault,
    op .newSet,
    op (.addKey 0 1 8000),
    op (.createRow 0 []),
    op (.request 0 .Equal 1 8000 8000 false false none (fun _ => true) 1),
    op (.eraseKV 0 1 8000),
    op (.removeKey 0 1),
    op (.setMoveNew 1),
    size 2 0,
    keysN 2 0,
    uniqN 2 0,
    parentValid 2 true,
    rows 2 [],
    size 1 0,
    keysN 1 0,
    uniqN 1 0,
    parentValid 1 false,
    parentValid 1 false,
    rows 1 [],
    op (.destroySet 2),
    op (.destroySet 1),
    op (.destroyVault 0)] = true := by decide

/-- VaultRecordSetUnitTests.cpp line 241: MoveConstructor, MoveFilled. -/
theorem conf_set_MoveConstructor_MoveFilled : runT Env.id [
    op .newVault,
    op .newSet,
    op .newRef,
    op (.addKey 0 1 8000),
    op (.addUniqueKey 0 2 1 true (fun _ _ _ => 0)),
    op (.createRow 0 [(1, 8000), (2, 313)]),
    op (.createRow 0 [(1, 8000), (2, 417)]),
    op (.createRecord 0 0 [(1, 8000), (2, 521)]),
    op (.request 0 .Equal 1 8000 8000 false false none (fun _ => true) 1),
    op (.setMoveNew 1),
    size 2 3,
    keysN 2 2,
    uniqN 2 1,
    parentValid 2 true,
    rows 2 [[(1, 8000), (2, 313)], [(1, 8000), (2, 417)], [(1, 8000), (2, 521)]],
    size 1 0,
    keysN 1 0,
    uniqN 1 0,
    parentValid 1 false,
    parentValid 1 false,
    rows 1 [],
    op (.destroySet 1),
    op (.refSetData 0 1 8096),
    op (.destroySet 2),
    op (.refReset 0),
    op (.destroyVault 0)] = true := by decide

/-- VaultRecordSetUnitTests.cpp line 279: MoveAssignmentOperator, AssignWithoutParents. -/
theorem conf_set_MoveAssignmentOperator_AssignWithoutParents : runT Env.id [
    op .newSet,
    op .newSet,
    op (.setMoveAssign 1 0),
    size 1 0,
    keysN 1 0,
    uniqN 1 0,
    parentValid 1 false,
    parentValid 0 false,
    rows 1 [],
    op (.destroySet 1),
    op (.destroySet 0)] = true := by decide

/-- VaultRecordSetUnitTests.cpp line 292: MoveAssignmentOperator, AssignWithParentsToWithoutParent. -/
theorem conf_set_MoveAssignmentOperator_AssignWithParentsToWithoutParent : runT Env.id [
    op .newVault,
    op .newSet,
    op .newSet,
    op (.addKey 0 1 8000),
    op (.addUniqueKey 0 2 1 true (fun _ _ _ => 0)),
    op (.createRow 0 [(1, 8000), (2, 313)]),
    op (.createRow 0 [(1, 8000), (2, 417)]),
    op (.createRow 0 [(1, 8000), (2, 521)]),
    op (.request 0 .Equal 1 8000 8000 false false none (fun _ => true) 1),
    op (.setMoveAssign 1 2),
    size 1 0,
    keysN 1 0,
    uniqN 1 0,
    parentValid 1 false,
    parentValid 1 false,
    rows 1 [],
    op (.destroySet 2),
    op (.destroySet 1),
    op (.destroyVault 0)] = true := by decide

/-- VaultRecordSetUnitTests.cpp line 316: MoveAssignmentOperator, AssignWithoutParentToWithParent. -/
theorem conf_set_MoveAssignmentOperator_AssignWithoutParentToWithParent : runT Env.id [
    op .newVault,
    op .newSet,
    op .newSet,
    op (.addKey 0 1 8000),
    op (.addUniqueKey 0 2 1 true (fun _ _ _ => 0)),
    op (.createRow 0 [(1, 8000), (2, 313)]),
    op (.createRow 0 [(1, 8000), (2, 417)]),
    op (.createRow 0 [(1, 8000), (2, 521)]),
    op (.request 0 .Equal 1 8000 8000 false false none (fun _ => true) 2),
    op (.setMoveAssign 2 1),
    size 2 0,
    keysN 2 0,
    uniqN 2 0,
    parentValid 2 false,
    rows 2 [],
    op (.destroySet 2),
    op (.destroySet 1),
    op (.destroyVault 0)] = true := by decide

/-- VaultRecordSetUnitTests.cpp line 339: MoveAssignmentOperator, AssignEmpty. -/
theorem conf_set_MoveAssignmentOperator_AssignEmpty : runT Env.id [
    op .newVault,
    op .newSet,
    op (.addKey 0 1 8000),
    op (.createRow 0 []),
    op (.request 0 .Equal 1 8000 8000 false false none (fun _ => true) 1),
    op (.eraseKV 0 1 8000),
    op (.removeKey 0 1),
    op .newSet,
    op (.setMoveAssign 2 1),
    size 2 0,
    keysN 2 0,
    uniqN 2 0,
    parentValid 2 true,
    rows 2 [],
    op (.destroySet 2),
    op (.destroySet 1),
    op (.destroyVault 0)] = true := by decide

/-- VaultRecordSetUnitTests.cpp line 354: MoveAssignmentOperator, AssignFilledSet. -/
theorem conf_set_MoveAssignmentOperator_AssignFilledSet : runT Env.id [
    op .newVault,
    op .newSet,
    op .newSet,
    op (.addKey 0 1 8000),
    op (.addUniqueKey 0 2 1 true (fun _ _ _ => 0)),
    op (.createRow 0 [(1, 8000), (2, 313)]),
    op (.createRow 0 [(1, 8000), (2, 417)]),
    op (.createRow 0 [(1, 8000), (2, 521)]),
    op (.request 0 .Equal 1 8000 8000 false false none (fun _ => true) 1),
    op (.setMoveAssign 2 1),
    size 2 3,
    keysN 2 2,
    uniqN 2 1,
    parentValid 2 true,
    rows 2 [[(1, 8000), (2, 313)], [(1, 8000), (2, 417)], [(1, 8000), (2, 521)]],
    size 1 0,
    keysN 1 0,
    uniqN 1 0,
    parentValid 1 false,
    parentValid 1 false,
    rows 1 [],
    op (.destroySet 2),
    op (.destroySet 1),
    op (.destroyVault 0)] = true := by decide

/-- VaultRecordSetUnitTests.cpp line 389: MoveAssignmentOperator, AssignEmptyToFilled. -/
theorem conf_set_MoveAssignmentOperator_AssignEmptyToFilled : runT Env.id [
    op .newVault,
    op .newSet,
    op .newSet,
    op .newRef,
    op (.addKey 0 1 8000),
    op (.addUniqueKey 0 2 1 true (fun _ _ _ => 0)),
    op (.createRecord 0 0 [(1, 8000), (2, 313)]),
    op (.requestTree 0 (.leaf .Equal 1 8000 (fun _ => true)) 1),
    op (.setRemoveRef 1 0),
    op (.createRow 0 [(1, 8000), (2, 417)]),
    op (.createRow 0 [(1, 8000), (2, 521)]),
    op (.request 0 .Equal 1 8000 8000 false false none (fun _ => true) 2),
    op (.setMoveAssign 2 1),
    size 2 0,
    keysN 2 2,
    uniqN 2 1,
    parentValid 2 true,
    rows 2 [],
    op (.refReset 0),
    op (.destroySet 2),
    op (.destroySet 1),
    op (.destroyVault 0)] = true := by decide

/-- VaultRecordSetUnitTests.cpp line 416: GetIsParentVaultValid, Invalid. -/
theorem conf_set_GetIsParentVaultValid_Invalid : runT Env.id [
    op .newSet,
    parentValid 0 false,
    op (.destroySet 0)] = true := by decide

/-- VaultRecordSetUnitTests.cpp line 422: GetIsParentVaultValid, Valid. -/
theorem conf_set_GetIsParentVaultValid_Valid : runT Env.id [
    op .newVault,
    op .newSet,
    op (.addKey 0 1 8000),
    op (.createRow 0 []),
    op (.request 0 .Equal 1 8000 8000 false false none (fun _ => true) 1),
    op (.eraseKV 0 1 8000),
    op (.removeKey 0 1),
    parentValid 1 true,
    op (.destroySet 1),
    op (.destroyVault 0)] = true := by decide

/-- VaultRecordSetUnitTests.cpp line 429: GetIsParentVaultValid, Invalidate. -/
theorem conf_set_GetIsParentVaultValid_Invalidate : runT Env.id [
    op .newVault,
    op .newSet,
    op (.addKey 0 1 8000),
    op (.createRow 0 []),
    op (.request 0 .Equal 1 8000 8000 false false none (fun _ => true) 1),
    op (.eraseKV 0 1 8000),
    op (.removeKey 0 1),
    op (.dropVault 0),
    parentValid 1 false,
    op (.destroySet 1),
    op (.destroyVault 0)] = true := by decide

/-- VaultRecordSetUnitTests.cpp line 437: GetParentVaultUniqueId, Invalid. -/
theorem conf_set_GetParentVaultUniqueId_Invalid : runT Env.id [
    op .newSet,
    parentValid 0 false,
    op (.destroySet 0)] = true := by decide

/-- VaultRecordSetUnitTests.cpp line 443: GetParentVaultUniqueId, Valid. -/
theorem conf_set_GetParentVaultUniqueId_Valid : runT Env.id [
    op .newVault,
    op .newSet,
    op (.addKey 0 1 8000),
    op (.createRow 0 []),
    op (.request 0 .Equal 1 8000 8000 false false none (fun _ => true) 1),
    op (.eraseKV 0 1 8000),
    op (.removeKey 0 1),
    parentValid 1 true,
    op (.destroySet 1),
    op (.destroyVault 0)] = true := by decide

/-- VaultRecordSetUnitTests.cpp line 450: GetParentVaultUniqueId, Invalidate. -/
theorem conf_set_GetParentVaultUniqueId_Invalidate : runT Env.id [
    op .newVault,
    op .newSet,
    op (.addKey 0 1 8000),
    op (.createRow 0 []),
    op (.request 0 .Equal 1 8000 8000 false false none (fun _ => true) 1),
    op (.eraseKV 0 1 8000),
    op (.removeKey 0 1),
    op (.dropVault 0),
    parentValid 1 false,
    op (.destroySet 1),
    op (.destroyVault 0)] = true := by decide

/-- VaultRecordSetUnitTests.cpp line 458: IsKeyExist, Invalid. -/
theorem conf_set_IsKeyExist_Invalid : runT Env.id [
    op .newSet,
    keyExists 0 1 false,
    op (.destroySet 0)] = true := by decide

/-- VaultRecordSetUnitTests.cpp line 463: IsKeyExist, ExistingKey. -/
theorem conf_set_IsKeyExist_ExistingKey : runT Env.id [
    op .newVault,
    op .newSet,
    op (.addKey 0 1 8000),
    op (.createRow 0 []),
    op (.request 0 .Equal 1 8000 8000 false false none (fun _ => true) 1),
    op (.eraseKV 0 1 8000),
    op (.removeKey 0 1),
    op (.addKey 0 1 8000),
    op (.addUniqueKey 0 2 1 true (fun _ _ _ => 0)),
    keyExists 1 1 true,
    keyExists 1 2 true,
    op (.destroySet 1),
    op (.destroyVault 0)] = true := by decide

/-- VaultRecordSetUnitTests.cpp line 474: IsKeyExist, NonExistingKey. -/
theorem conf_set_IsKeyExist_NonExistingKey : runT Env.id [
    op .newVault,
    op .newSet,
    op (.addKey 0 1 8000),
    op (.createRow 0 []),
    op (.request 0 .Equal 1 8000 8000 false false none (fun _ => true) 1),
    op (.eraseKV 0 1 8000),
    op (.removeKey 0 1),
    keyExists 1 1 false,
    op (.destroySet 1),
    op (.destroyVault 0)] = true := by decide

/-- VaultRecordSetUnitTests.cpp line 481: GetKeyValue, Invalid. -/
theorem conf_set_GetKeyValue_Invalid : runT Env.id [
    op .newSet,
    keyValue 0 1 0 false .ParentVaultNotValid none none,
    op (.destroySet 0)] = true := by decide

/-- VaultRecordSetUnitTests.cpp line 491: GetKeyValue, ExistingKey. -/
theorem conf_set_GetKeyValue_ExistingKey : runT Env.id [
    op .newVault,
    op .newSet,
    op (.addKey 0 1 8000),
    op (.createRow 0 []),
    op (.request 0 .Equal 1 8000 8000 false false none (fun _ => true) 1),
    op (.eraseKV 0 1 8000),
    op (.removeKey 0 1),
    op (.addKey 0 1 8000),
    keyValue 1 1 0 true .Success (some 0) none,
    readIs (fun w => getKeyValue w 1 1 0) 7992 8000,
    op (.destroySet 1),
    op (.destroyVault 0)] = true := by decide

/-- VaultRecordSetUnitTests.cpp line 506: GetKeyValue, NonExistingKey. -/
theorem conf_set_GetKeyValue_NonExistingKey : runT Env.id [
    op .newVault,
    op .newSet,
    op (.addKey 0 1 8000),
    op (.createRow 0 []),
    op (.request 0 .Equal 1 8000 8000 false false none (fun _ => true) 1),
    op (.eraseKV 0 1 8000),
    op (.removeKey 0 1),
    keyValue 1 1 0 false .WrongKey none none,
    readIs (fun w => getKeyValue w 1 1 0) 7992 7992,
    op (.destroySet 1),
    op (.destroyVault 0)] = true := by decide

/-- VaultRecordSetUnitTests.cpp line 519: GetKeyValue, WrongType. -/
theorem conf_set_GetKeyValue_WrongType : runT Env.id [
    op .newVault,
    op .newSet,
    op (.addKey 0 1 8000),
    op (.createRow 0 []),
    op (.request 0 .Equal 1 8000 8000 false false none (fun _ => true) 1),
    op (.eraseKV 0 1 8000),
    op (.removeKey 0 1),
    op (.addKey 0 1 8000),
    keyValue 1 1 1 false .WrongType (some 0) none,
    op (.destroySet 1),
    op (.destroyVault 0)] = true := by decide

/-- VaultRecordSetUnitTests.cpp line 533: GetKeyValue, UniqueKey. -/
theorem conf_set_GetKeyValue_UniqueKey : runT Env.id [
    op .newVault,
    op .newSet,
    op (.addKey 0 1 8000),
    op (.createRow 0 []),
    op (.request 0 .Equal 1 8000 8000 false false none (fun _ => true) 1),
    op (.eraseKV 0 1 8000),
    op (.removeKey 0 1),
    op (.addUniqueKey 0 1 0 true (fun _ _ _ => 0)),
    keyValue 1 1 0 false .UniqueKey (some 0) none,
    readIs (fun w => getKeyValue w 1 1 0) 7992 7992,
    op (.destroySet 1),
    op (.destroyVault 0)] = true := by decide

/-- VaultRecordSetUnitTests.cpp line 548: GetKeyType, Invalid. -/
theorem conf_set_GetKeyType_Invalid : runT Env.id [
    op .newSet,
    keyType 0 1 none,
    op (.destroySet 0)] = true := by decide

end MVault.Conf
