import Verif.ConfBase
/- Generated by conformance/gen.py from the unit tests of the project: validation of the model. -/
set_option maxRecDepth 100000
namespace MVault.Conf
open MVault.W

/-- VaultRecordSetUnitTests.cpp line 557: GetKeyType, ExistingKey. -/
theorem conf_set_GetKeyType_ExistingKey : runT Env.id [
    op .newVault,
    op .newSet,
    op (.addKey 0 1 8000),
    op (.createRow 0 []),
    op (.request 0 .Equal 1 8000 8000 false false none (fun _ => true) 1),
    op (.eraseKV 0 1 8000),
    op (.removeKey 0 1),
    op (.addKey 0 1 8000),
    op (.addUniqueKey 0 2 1 true (fun _ _ _ => 0)),
    keyType 1 1 (some 0),
    keyType 1 2 (some 1),
    op (.destroySet 1),
    op (.destroyVault 0)] = true := by decide

/-- VaultRecordSetUnitTests.cpp line 574: GetKeyType, NonExistingKey. -/
theorem conf_set_GetKeyType_NonExistingKey : runT Env.id [
    op .newVault,
    op .newSet,
    op (.addKey 0 1 8000),
    op (.createRow 0 []),
    op (.request 0 .Equal 1 8000 8000 false false none (fun _ => true) 1),
    op (.eraseKV 0 1 8000),
    op (.removeKey 0 1),
    keyType 1 1 none,
    op (.destroySet 1),
    op (.destroyVault 0)] = true := by decide

/-- VaultRecordSetUnitTests.cpp line 584: AddRecord, Invalid. -/
theorem conf_set_AddRecord_Invalid : runT Env.id [
    op .newVault,
    op .newSet,
    op (.addKey 0 1 8000),
    op (.createRow 0 []),
    op (.request 0 .Equal 1 8000 8000 false false none (fun _ => true) 1),
    op (.eraseKV 0 1 8000),
    op (.removeKey 0 1),
    op .newRef,
    op (.addKey 0 1 8000),
    op (.createRecord 0 0 []),
    op (.dropVault 0),
    res (.setAddRecord 1 0) false .ParentVaultNotValid none none none,
    size 1 0,
    rows 1 [],
    op (.refReset 0),
    op (.destroySet 1),
    op (.destroyVault 0)] = true := by decide

/-- VaultRecordSetUnitTests.cpp line 603: AddRecord, Correct. -/
theorem conf_set_AddRecord_Correct : runT Env.id [
    op .newVault,
    op .newSet,
    op (.addKey 0 1 8000),
    op (.createRow 0 []),
    op (.request 0 .Equal 1 8000 8000 false false none (fun _ => true) 1),
    op (.eraseKV 0 1 8000),
    op (.removeKey 0 1),
    op .newRef,
    op (.addKey 0 1 8000),
    op (.createRecord 0 0 []),
    res (.setAddRecord 1 0) true .Success none none none,
    size 1 1,
    rows 1 [[(1, 8000)]],
    op (.refReset 0),
    op (.destroySet 1),
    op (.destroyVault 0)] = true := by decide

/-- VaultRecordSetUnitTests.cpp line 624: AddRecord, InvalidRef. -/
theorem conf_set_AddRecord_InvalidRef : runT Env.id [
    op .newVault,
    op .newSet,
    op (.addKey 0 1 8000),
    op (.createRow 0 []),
    op (.request 0 .Equal 1 8000 8000 false false none (fun _ => true) 1),
    op (.eraseKV 0 1 8000),
    op (.removeKey 0 1),
    op .newRef,
    op (.addKey 0 1 8000),
    op (.createRow 0 []),
    res (.setAddRecord 1 0) false .DataRecordNotValid none none none,
    size 1 0,
    rows 1 [],
    op (.refReset 0),
    op (.destroySet 1),
    op (.destroyVault 0)] = true := by decide

/-- VaultRecordSetUnitTests.cpp line 642: AddRecord, OtherVaultParent. -/
theorem conf_set_AddRecord_OtherVaultParent : runT Env.id [
    op .newVault,
    op .newVault,
    op .newSet,
    op .newRef,
    op (.addKey 0 1 8000),
    op (.createRow 0 []),
    op (.getRecord 0 1 8000 0),
    op (.addKey 1 1 8000),
    op (.createRow 1 []),
    op (.request 1 .Equal 1 8000 8000 false false none (fun _ => true) 2),
    op (.eraseKV 1 1 8000),
    res (.setAddRecord 2 0) false .ParentVaultNotMatch none none none,
    size 2 0,
    rows 2 [],
    op (.refReset 0),
    op (.destroySet 2),
    op (.destroyVault 1),
    op (.destroyVault 0)] = true := by decide

/-- VaultRecordSetUnitTests.cpp line 666: AddRecord, SecondTime. -/
theorem conf_set_AddRecord_SecondTime : runT Env.id [
    op .newVault,
    op .newSet,
    op (.addKey 0 1 8000),
    op (.createRow 0 []),
    op (.request 0 .Equal 1 8000 8000 false false none (fun _ => true) 1),
    op (.eraseKV 0 1 8000),
    op (.removeKey 0 1),
    op .newRef,
    op (.addKey 0 1 8000),
    op (.createRecord 0 0 []),
    res (.setAddRecord 1 0) true .Success none none none,
    res (.setAddRecord 1 0) false .RecordAlredyInSet none none none,
    size 1 1,
    rows 1 [[(1, 8000)]],
    op (.refReset 0),
    op (.destroySet 1),
    op (.destroyVault 0)] = true := by decide

/-- VaultRecordSetUnitTests.cpp line 692: GetRecord, Invalid. -/
theorem conf_set_GetRecord_Invalid : runT Env.id [
    op .newSet,
    op .newRef,
    res (.setGetRecord 0 1 8000 0) false .ParentVaultNotValid (some 1) (some 0) none,
    op (.refReset 0),
    op (.destroySet 0)] = true := by decide

/-- VaultRecordSetUnitTests.cpp line 703: GetRecord, CorrectGetRecord. -/
theorem conf_set_GetRecord_CorrectGetRecord : runT Env.id [
    op .newVault,
    op .newSet,
    op (.addKey 0 1 8000),
    op (.createRow 0 []),
    op (.request 0 .Equal 1 8000 8000 false false none (fun _ => true) 1),
    op (.eraseKV 0 1 8000),
    op (.removeKey 0 1),
    op .newRef,
    op (.addKey 0 1 8000),
    op (.addUniqueKey 0 2 1 true (fun _ _ _ => 0)),
    op (.createRecord 0 0 [(1, 8008), (2, 313)]),
    op (.setAddRecord 1 0),
    op (.createRecord 0 0 [(1, 8016), (2, 417)]),
    op (.setAddRecord 1 0),
    op (.createRecord 0 0 [(1, 8024), (2, 521)]),
    op (.setAddRecord 1 0),
    res (.setGetRecord 1 1 8008 0) true .Success (some 1) (some 0) (some 0),
    refRow 0 [(1, 8008), (2, 313)],
    res (.setGetRecord 1 2 521 0) true .Success (some 2) (some 1) (some 1),
    refRow 0 [(1, 8024), (2, 521)],
    op (.refReset 0),
    op (.destroySet 1),
    op (.destroyVault 0)] = true := by decide

/-- VaultRecordSetUnitTests.cpp line 735: GetRecord, WrongKey. -/
theorem conf_set_GetRecord_WrongKey : runT Env.id [
    op .newVault,
    op .newSet,
    op (.addKey 0 1 8000),
    op (.createRow 0 []),
    op (.request 0 .Equal 1 8000 8000 false false none (fun _ => true) 1),
    op (.eraseKV 0 1 8000),
    op (.removeKey 0 1),
    op .newRef,
    op (.addKey 0 1 8000),
    op (.addUniqueKey 0 2 1 true (fun _ _ _ => 0)),
    op (.createRecord 0 0 [(1, 8008), (2, 417)]),
    op (.setAddRecord 1 0),
    op (.createRecord 0 0 [(1, 8016), (2, 521)]),
    op (.setAddRecord 1 0),
    op (.createRecord 0 0 [(1, 8024), (2, 625)]),
    op (.setAddRecord 1 0),
    res (.setGetRecord 1 3 8008 0) false .WrongKey (some 3) (some 0) none,
    op (.refReset 0),
    op (.destroySet 1),
    op (.destroyVault 0)] = true := by decide

/-- VaultRecordSetUnitTests.cpp line 757: GetRecord, WrongType. -/
theorem conf_set_GetRecord_WrongType : runT Env.id [
    op .newVault,
    op .newSet,
    op (.addKey 0 1 8000),
    op (.createRow 0 []),
    op (.request 0 .Equal 1 8000 8000 false false none (fun _ => true) 1),
    op (.eraseKV 0 1 8000),
    op (.removeKey 0 1),
    op .newRef,
    op (.addKey 0 1 8000),
    op (.addUniqueKey 0 2 1 true (fun _ _ _ => 0)),
    op (.createRecord 0 0 [(1, 8008), (2, 313)]),
    op (.setAddRecord 1 0),
    op (.createRecord 0 0 [(1, 8016), (2, 417)]),
    op (.setAddRecord 1 0),
    op (.createRecord 0 0 [(1, 8024), (2, 521)]),
    op (.setAddRecord 1 0),
    res (.setGetRecord 1 2 8008 0) false .WrongType (some 2) (some 0) (some 1),
    op (.refReset 0),
    op (.destroySet 1),
    op (.destroyVault 0)] = true := by decide

/-- VaultRecordSetUnitTests.cpp line 779: GetRecord, WrongValue. -/
theorem conf_set_GetRecord_WrongValue : runT Env.id [
    op .newVault,
    op .newSet,
    op (.addKey 0 1 8000),
    op (.createRow 0 []),
    op (.request 0 .Equal 1 8000 8000 false false none (fun _ => true) 1),
    op (.eraseKV 0 1 8000),
    op (.removeKey 0 1),
    op .newRef,
    op (.addKey 0 1 8000),
    op (.addUniqueKey 0 2 1 true (fun _ _ _ => 0)),
    op (.createRecord 0 0 [(1, 8008), (2, 313)]),
    op (.setAddRecord 1 0),
    op (.createRecord 0 0 [(1, 8016), (2, 417)]),
    op (.setAddRecord 1 0),
    op (.createRecord 0 0 [(1, 8024), (2, 521)]),
    op (.setAddRecord 1 0),
    res (.setGetRecord 1 1 8792 0) false .WrongValue (some 1) (some 0) (some 0),
    op (.refReset 0),
    op (.destroySet 1),
    op (.destroyVault 0)] = true := by decide

/-- VaultRecordSetUnitTests.cpp line 801: GetRecords, Invalid. -/
theorem conf_set_GetRecords_Invalid : runT Env.id [
    op .newSet,
    res (.setGetRecords 0 1 8000 1000000) false .ParentVaultNotValid (some 1) (some 0) none,
    op (.destroySet 0)] = true := by decide

/-- VaultRecordSetUnitTests.cpp line 866: GetRecords, CorrectGetNotAllRecords. -/
theorem conf_set_GetRecords_CorrectGetNotAllRecords : runT Env.id [
    op .newVault,
    op .newSet,
    op (.addKey 0 1 8000),
    op (.createRow 0 []),
    op (.request 0 .Equal 1 8000 8000 false false none (fun _ => true) 1),
    op (.eraseKV 0 1 8000),
    op (.removeKey 0 1),
    op .newRef,
    op (.addKey 0 1 8000),
    op (.addUniqueKey 0 2 1 true (fun _ _ _ => 0)),
    op (.createRecord 0 0 [(1, 8008), (2, 313)]),
    op (.setAddRecord 1 0),
    op (.createRecord 0 0 [(1, 8016), (2, 417)]),
    op (.setAddRecord 1 0),
    op (.createRecord 0 0 [(1, 8016), (2, 521)]),
    op (.setAddRecord 1 0),
    op (.createRecord 0 0 [(1, 8016), (2, 529)]),
    op (.setAddRecord 1 0),
    res (.setGetRecords 1 1 8008 2) true .Success (some 1) (some 0) (some 0),
    vecSize 1 1,
    refRow 1 [(1, 8008), (2, 313)],
    op (.refReset 1),
    res (.setGetRecords 1 1 8016 2) true .Success (some 1) (some 0) (some 0),
    vecSize 2 2,
    op (.refReset 0),
    op (.destroySet 1),
    op (.destroyVault 0)] = true := by decide

/-- VaultRecordSetUnitTests.cpp line 902: GetRecords, WrongKey. -/
theorem conf_set_GetRecords_WrongKey : runT Env.id [
    op .newVault,
    op .newSet,
    op (.addKey 0 1 8000),
    op (.createRow 0 []),
    op (.request 0 .Equal 1 8000 8000 false false none (fun _ => true) 1),
    op (.eraseKV 0 1 8000),
    op (.removeKey 0 1),
    op .newRef,
    op (.addKey 0 1 8000),
    op (.addUniqueKey 0 2 1 true (fun _ _ _ => 0)),
    op (.createRecord 0 0 [(1, 8008), (2, 417)]),
    op (.setAddRecord 1 0),
    op (.createRecord 0 0 [(1, 8016), (2, 521)]),
    op (.setAddRecord 1 0),
    op (.createRecord 0 0 [(1, 8016), (2, 625)]),
    op (.setAddRecord 1 0),
    op (.createRecord 0 0 [(1, 8016), (2, 633)]),
    op (.setAddRecord 1 0),
    res (.setGetRecords 1 3 8008 1000000) false .WrongKey (some 3) (some 0) none,
    vecSize 1 0,
    op (.refReset 0),
    op (.destroySet 1),
    op (.destroyVault 0)] = true := by decide

/-- VaultRecordSetUnitTests.cpp line 929: GetRecords, WrongType. -/
theorem conf_set_GetRecords_WrongType : runT Env.id [
    op .newVault,
    op .newSet,
    op (.addKey 0 1 8000),
    op (.createRow 0 []),
    op (.request 0 .Equal 1 8000 8000 false false none (fun _ => true) 1),
    op (.eraseKV 0 1 8000),
    op (.removeKey 0 1),
    op .newRef,
    op (.addKey 0 1 8000),
    op (.addUniqueKey 0 2 1 true (fun _ _ _ => 0)),
    op (.createRecord 0 0 [(1, 8008), (2, 313)]),
    op (.setAddRecord 1 0),
    op (.createRecord 0 0 [(1, 8016), (2, 417)]),
    op (.setAddRecord 1 0),
    op (.createRecord 0 0 [(1, 8016), (2, 521)]),
    op (.setAddRecord 1 0),
    op (.createRecord 0 0 [(1, 8016), (2, 529)]),
    op (.setAddRecord 1 0),
    res (.setGetRecords 1 2 8008 1000000) false .WrongType (some 2) (some 0) (some 1),
    vecSize 1 0,
    op (.refReset 0),
    op (.destroySet 1),
    op (.destroyVault 0)] = true := by decide

/-- VaultRecordSetUnitTests.cpp line 956: GetRecords, WrongValue. -/
theorem conf_set_GetRecords_WrongValue : runT Env.id [
    op .newVault,
    op .newSet,
    op (.addKey 0 1 8000),
    op (.createRow 0 []),
    op (.request 0 .Equal 1 8000 8000 false false none (fun _ => true) 1),
    op (.eraseKV 0 1 8000),
    op (.removeKey 0 1),
    op .newRef,
    op (.addKey 0 1 8000),
    op (.addUniqueKey 0 2 1 true (fun _ _ _ => 0)),
    op (.createRecord 0 0 [(1, 8008), (2, 313)]),
    op (.setAddRecord 1 0),
    op (.createRecord 0 0 [(1, 8016), (2, 417)]),
    op (.setAddRecord 1 0),
    op (.createRecord 0 0 [(1, 8016), (2, 521)]),
    op (.setAddRecord 1 0),
    op (.createRecord 0 0 [(1, 8016), (2, 529)]),
    op (.setAddRecord 1 0),
    res (.setGetRecords 1 1 8792 1000000) false .WrongValue (some 1) (some 0) (some 0),
    vecSize 1 0,
    op (.refReset 0),
    op (.destroySet 1),
    op (.destroyVault 0)] = true := by decide

/-- VaultRecordSetUnitTests.cpp line 983: RequestEqual, Invalid. -/
theorem conf_set_RequestEqual_Invalid : runT Env.id [
    op .newSet,
    op .newSet,
    res (.request 0 .Equal 1 8000 8000 false false none (fun _ => true) 1) false .ParentVaultNotValid (some 1) (some 0) none,
    op (.destroySet 1),
    op (.destroySet 0)] = true := by decide

/-- VaultRecordSetUnitTests.cpp line 994: RequestEqual, CorrectRequest. -/
theorem conf_set_RequestEqual_CorrectRequest : runT Env.id [
    op .newVault,
    op .newSet,
    op (.addKey 0 1 8000),
    op (.createRow 0 []),
    op (.request 0 .Equal 1 8000 8000 false false none (fun _ => true) 1),
    op (.eraseKV 0 1 8000),
    op (.removeKey 0 1),
    op .newSet,
    op .newRef,
    op (.addKey 0 1 8000),
    op (.addUniqueKey 0 2 1 true (fun _ _ _ => 0)),
    op (.createRecord 0 0 [(1, 8008), (2, 313)]),
    op (.setAddRecord 1 0),
    op (.createRecord 0 0 [(1, 8016), (2, 417)]),
    op (.setAddRecord 1 0),
    op (.createRecord 0 0 [(1, 8016), (2, 521)]),
    op (.setAddRecord 1 0),
    op (.createRecord 0 0 [(1, 8016), (2, 529)]),
    op (.setAddRecord 1 0),
    op (.createRecord 0 0 [(1, 8024), (2, 537)]),
    op (.setAddRecord 1 0),
    res (.request 1 .Equal 1 8008 8008 false false none (fun _ => true) 2) true .Success (some 1) (some 0) (some 0),
    size 2 1,
    rows 2 [[(1, 8008), (2, 313)]],
    res (.request 1 .Equal 1 8016 8016 false false none (fun _ => true) 2) true .Success (some 1) (some 0) (some 0),
    size 2 3,
    rows 2 [[(1, 8016), (2, 417)], [(1, 8016), (2, 521)], [(1, 8016), (2, 529)]],
    op (.refReset 0),
    op (.destroySet 2),
    op (.destroySet 1),
    op (.destroyVault 0)] = true := by decide

/-- VaultRecordSetUnitTests.cpp line 1039: RequestEqual, CorrectRequestNotAllRecords. -/
theorem conf_set_RequestEqual_CorrectRequestNotAllRecords : runT Env.id [
    op .newVault,
    op .newSet,
    op (.addKey 0 1 8000),
    op (.createRow 0 []),
    op (.request 0 .Equal 1 8000 8000 false false none (fun _ => true) 1),
    op (.eraseKV 0 1 8000),
    op (.removeKey 0 1),
    op .newSet,
    op .newRef,
    op (.addKey 0 1 8000),
    op (.addUniqueKey 0 2 1 true (fun _ _ _ => 0)),
    op (.createRecord 0 0 [(1, 8008), (2, 313)]),
    op (.setAddRecord 1 0),
    op (.createRecord 0 0 [(1, 8016), (2, 417)]),
    op (.setAddRecord 1 0),
    op (.createRecord 0 0 [(1, 8016), (2, 521)]),
    op (.setAddRecord 1 0),
    op (.createRecord 0 0 [(1, 8016), (2, 529)]),
    op (.setAddRecord 1 0),
    op (.createRecord 0 0 [(1, 8024), (2, 537)]),
    op (.setAddRecord 1 0),
    res (.request 1 .Equal 1 8008 8008 false false (some 2) (fun _ => true) 2) true .Success (some 1) (some 0) (some 0),
    size 2 1,
    rows 2 [[(1, 8008), (2, 313)]],
    res (.request 1 .Equal 1 8016 8016 false false (some 2) (fun _ => true) 2) true .Success (some 1) (some 0) (some 0),
    size 2 2,
    op (.refReset 0),
    op (.destroySet 2),
    op (.destroySet 1),
    op (.destroyVault 0)] = true := by decide

/-- VaultRecordSetUnitTests.cpp line 1078: RequestEqual, CorrectRequestWithPredicat. -/
theorem conf_set_RequestEqual_CorrectRequestWithPredicat : runT Env.id [
    op .newVault,
    op .newSet,
    op (.addKey 0 1 8000),
    op (.createRow 0 []),
    op (.request 0 .Equal 1 8000 8000 false false none (fun _ => true) 1),
    op (.eraseKV 0 1 8000),
    op (.removeKey 0 1),
    op .newSet,
    op .newRef,
    op (.addKey 0 1 8000),
    op (.addUniqueKey 0 2 1 true (fun _ _ _ => 0)),
    op (.createRecord 0 0 [(1, 8008), (2, 313)]),
    op (.setAddRecord 1 0),
    op (.createRecord 0 0 [(1, 8016), (2, 417)]),
    op (.setAddRecord 1 0),
    op (.createRecord 0 0 [(1, 8016), (2, 521)]),
    op (.setAddRecord 1 0),
    op (.createRecord 0 0 [(1, 8016), (2, 529)]),
    op (.setAddRecord 1 0),
    op (.createRecord 0 0 [(1, 8024), (2, 537)]),
    op (.setAddRecord 1 0),
    resW (fun w => .request 1 .Equal 1 8016 8016 false false none (fun r => decide ((cell w r 2).any (fun v => decide (v ∈ ([313, 417, 521, 537] : List TV))))) 2) true .Success (some 1) (some 0) (some 0),
    size 2 2,
    rows 2 [[(1, 8016), (2, 417)], [(1, 8016), (2, 521)]],
    op (.refReset 0),
    op (.destroySet 2),
    op (.destroySet 1),
    op (.destroyVault 0)] = true := by decide

/-- VaultRecordSetUnitTests.cpp line 1118: RequestEqual, WrongKey. -/
theorem conf_set_RequestEqual_WrongKey : runT Env.id [
    op .newVault,
    op .newSet,
    op (.addKey 0 1 8000),
    op (.createRow 0 []),
    op (.request 0 .Equal 1 8000 8000 false false none (fun _ => true) 1),
    op (.eraseKV 0 1 8000),
    op (.removeKey 0 1),
    op .newSet,
    op .newRef,
    op (.addKey 0 1 8000),
    op (.addUniqueKey 0 2 1 true (fun _ _ _ => 0)),
    op (.createRecord 0 0 [(1, 8008), (2, 417)]),
    op (.setAddRecord 1 0),
    op (.createRecord 0 0 [(1, 8016), (2, 521)]),
    op (.setAddRecord 1 0),
    op (.createRecord 0 0 [(1, 8016), (2, 625)]),
    op (.setAddRecord 1 0),
    op (.createRecord 0 0 [(1, 8016), (2, 633)]),
    op (.setAddRecord 1 0),
    op (.createRecord 0 0 [(1, 8024), (2, 641)]),
    op (.setAddRecord 1 0),
    res (.request 1 .Equal 3 8008 8008 false false none (fun _ => true) 2) false .WrongKey (some 3) (some 0) none,
    size 2 0,
    rows 2 [],
    op (.refReset 0),
    op (.destroySet 2),
    op (.destroySet 1),
    op (.destroyVault 0)] = true := by decide

/-- VaultRecordSetUnitTests.cpp line 1149: RequestEqual, WrongType. -/
theorem conf_set_RequestEqual_WrongType : runT Env.id [
    op .newVault,
    op .newSet,
    op (.addKey 0 1 8000),
    op (.createRow 0 []),
    op (.request 0 .Equal 1 8000 8000 false false none (fun _ => true) 1),
    op (.eraseKV 0 1 8000),
    op (.removeKey 0 1),
    op .newSet,
    op .newRef,
    op (.addKey 0 1 8000),
    op (.addUniqueKey 0 2 1 true (fun _ _ _ => 0)),
    op (.createRecord 0 0 [(1, 8008), (2, 313)]),
    op (.setAddRecord 1 0),
    op (.createRecord 0 0 [(1, 8016), (2, 417)]),
    op (.setAddRecord 1 0),
    op (.createRecord 0 0 [(1, 8016), (2, 521)]),
    op (.setAddRecord 1 0),
    op (.createRecord 0 0 [(1, 8016), (2, 529)]),
    op (.setAddRecord 1 0),
    op (.createRecord 0 0 [(1, 8024), (2, 537)]),
    op (.setAddRecord 1 0),
    res (.request 1 .Equal 2 8008 8008 false false none (fun _ => true) 2) false .WrongType (some 2) (some 0) (some 1),
    size 2 0,
    rows 2 [],
    op (.refReset 0),
    op (.destroySet 2),
    op (.destroySet 1),
    op (.destroyVault 0)] = true := by decide

/-- VaultRecordSetUnitTests.cpp line 1180: RequestEqual, ValueNotInVault. -/
theorem conf_set_RequestEqual_ValueNotInVault : runT Env.id [
    op .newVault,
    op .newSet,
    op (.addKey 0 1 8000),
    op (.createRow 0 []),
    op (.request 0 .Equal 1 8000 8000 false false none (fun _ => true) 1),
    op (.eraseKV 0 1 8000),
    op (.removeKey 0 1),
    op .newSet,
    op .newRef,
    op (.addKey 0 1 8000),
    op (.addUniqueKey 0 2 1 true (fun _ _ _ => 0)),
    op (.createRecord 0 0 [(1, 8008), (2, 313)]),
    op (.setAddRecord 1 0),
    op (.createRecord 0 0 [(1, 8016), (2, 417)]),
    op (.setAddRecord 1 0),
    op (.createRecord 0 0 [(1, 8016), (2, 521)]),
    op (.setAddRecord 1 0),
    op (.createRecord 0 0 [(1, 8016), (2, 529)]),
    op (.setAddRecord 1 0),
    op (.createRecord 0 0 [(1, 8024), (2, 537)]),
    op (.setAddRecord 1 0),
    res (.request 1 .Equal 1 8032 8032 false false none (fun _ => true) 2) true .Success (some 1) (some 0) (some 0),
    size 2 0,
    rows 2 [],
    op (.refReset 0),
    op (.destroySet 2),
    op (.destroySet 1),
    op (.destroyVault 0)] = true := by decide

/-- VaultRecordSetUnitTests.cpp line 1211: RequestEqual, Self. -/
theorem conf_set_RequestEqual_Self : runT Env.id [
    op .newVault,
    op .newSet,
    op (.addKey 0 1 8000),
    op (.createRow 0 []),
    op (.request 0 .Equal 1 8000 8000 false false none (fun _ => true) 1),
    op (.eraseKV 0 1 8000),
    op (.removeKey 0 1),
    op (.addKey 0 1 8000),
    res (.request 1 .Equal 1 8032 8032 false false none (fun _ => true) 1) false .SameVaultRecordSet (some 1) none none,
    size 1 0,
    rows 1 [],
    op (.destroySet 1),
    op (.destroyVault 0)] = true := by decide

/-- VaultRecordSetUnitTests.cpp line 1228: RequestGreater, Invalid. -/
theorem conf_set_RequestGreater_Invalid : runT Env.id [
    op .newSet,
    op .newSet,
    res (.request 0 .Greater 1 8000 8000 false false none (fun _ => true) 1) false .ParentVaultNotValid (some 1) (some 0) none,
    op (.destroySet 1),
    op (.destroySet 0)] = true := by decide

/-- VaultRecordSetUnitTests.cpp line 1239: RequestGreater, CorrectRequest. -/
theorem conf_set_RequestGreater_CorrectRequest : runT Env.id [
    op .newVault,
    op .newSet,
    op (.addKey 0 1 8000),
    op (.createRow 0 []),
    op (.request 0 .Equal 1 8000 8000 false false none (fun _ => true) 1),
    op (.eraseKV 0 1 8000),
    op (.removeKey 0 1),
    op .newSet,
    op .newRef,
    op (.addKey 0 1 8000),
    op (.addUniqueKey 0 2 1 true (fun _ _ _ => 0)),
    op (.createRecord 0 0 [(1, 8008), (2, 313)]),
    op (.setAddRecord 1 0),
    op (.createRecord 0 0 [(1, 8016), (2, 417)]),
    op (.setAddRecord 1 0),
    op (.createRecord 0 0 [(1, 8016), (2, 521)]),
    op (.setAddRecord 1 0),
    op (.createRecord 0 0 [(1, 8016), (2, 529)]),
    op (.setAddRecord 1 0),
    op (.createRecord 0 0 [(1, 8024), (2, 537)]),
    op (.setAddRecord 1 0),
    res (.request 1 .Greater 1 8008 8008 false false none (fun _ => true) 2) true .Success (some 1) (some 0) (some 0),
    size 2 4,
    rows 2 [[(1, 8016), (2, 417)], [(1, 8016), (2, 521)], [(1, 8016), (2, 529)], [(1, 8024), (2, 537)]],
    res (.request 1 .Greater 1 8016 8016 false false none (fun _ => true) 2) true .Success (some 1) (some 0) (some 0),
    size 2 1,
    rows 2 [[(1, 8024), (2, 537)]],
    op (.refReset 0),
    op (.destroySet 2),
    op (.destroySet 1),
    op (.destroyVault 0)] = true := by decide

/-- VaultRecordSetUnitTests.cpp line 1285: RequestGreater, CorrectRequestNotAllRecords. -/
theorem conf_set_RequestGreater_CorrectRequestNotAllRecords : runT Env.id [
    op .newVault,
    op .newSet,
    op (.addKey 0 1 8000),
    op (.createRow 0 []),
    op (.request 0 .Equal 1 8000 8000 false false none (fun _ => true) 1),
    op (.eraseKV 0 1 8000),
    op (.removeKey 0 1),
    op .newSet,
    op .newRef,
    op (.addKey 0 1 8000),
    op (.addUniqueKey 0 2 1 true (fun _ _ _ => 0)),
    op (.createRecord 0 0 [(1, 8008), (2, 313)]),
    op (.setAddRecord 1 0),
    op (.createRecord 0 0 [(1, 8016), (2, 417)]),
    op (.setAddRecord 1 0),
    op (.createRecord 0 0 [(1, 8016), (2, 521)]),
    op (.setAddRecord 1 0),
    op (.createRecord 0 0 [(1, 8016), (2, 529)]),
    op (.setAddRecord 1 0),
    op (.createRecord 0 0 [(1, 8024), (2, 537)]),
    op (.setAddRecord 1 0),
    res (.request 1 .Greater 1 8008 8008 false false (some 2) (fun _ => true) 2) true .Success (some 1) (some 0) (some 0),
    size 2 2,
    res (.request 1 .Greater 1 8016 8016 false false (some 4) (fun _ => true) 2) true .Success (some 1) (some 0) (some 0),
    size 2 1,
    rows 2 [[(1, 8024), (2, 537)]],
    op (.refReset 0),
    op (.destroySet 2),
    op (.destroySet 1),
    op (.destroyVault 0)] = true := by decide

/-- VaultRecordSetUnitTests.cpp line 1324: RequestGreater, CorrectRequestWithPredicat. -/
theorem conf_set_RequestGreater_CorrectRequestWithPredicat : runT Env.id [
    op .newVault,
    op .newSet,
    op (.addKey 0 1 8000),
    op (.createRow 0 []),
    op (.request 0 .Equal 1 8000 8000 false false none (fun _ => true) 1),
    op (.eraseKV 0 1 8000),
    op (.removeKey 0 1),
    op .newSet,
    op .newRef,
    op (.addKey 0 1 8000),
    op (.addUniqueKey 0 2 1 true (fun _ _ _ => 0)),
    op (.createRecord 0 0 [(1, 8008), (2, 313)]),
    op (.setAddRecord 1 0),
    op (.createRecord 0 0 [(1, 8016), (2, 417)]),
    op (.setAddRecord 1 0),
    op (.createRecord 0 0 [(1, 8016), (2, 521)]),
    op (.setAddRecord 1 0),
    op (.createRecord 0 0 [(1, 8016), (2, 529)]),
    op (.setAddRecord 1 0),
    op (.createRecord 0 0 [(1, 8024), (2, 537)]),
    op (.setAddRecord 1 0),
    resW (fun w => .request 1 .Greater 1 8000 8000 false false none (fun r => decide ((cell w r 2).any (fun v => decide (v ∈ ([521, 529] : List TV))))) 2) true .Success (some 1) (some 0) (some 0),
    size 2 2,
    rows 2 [[(1, 8016), (2, 521)], [(1, 8016), (2, 529)]],
    op (.refReset 0),
    op (.destroySet 2),
    op (.destroySet 1),
    op (.destroyVault 0)] = true := by decide

/-- VaultRecordSetUnitTests.cpp line 1364: RequestGreater, BoundaryValues. -/
theorem conf_set_RequestGreater_BoundaryValues : runT Env.id [
    op .newVault,
    op .newSet,
    op (.addKey 0 1 8000),
    op (.createRow 0 []),
    op (.request 0 .Equal 1 8000 8000 false false none (fun _ => true) 1),
    op (.eraseKV 0 1 8000),
    op (.removeKey 0 1),
    op .newSet,
    op .newRef,
    op (.addKey 0 1 8000),
    op (.createRecord 0 0 [(1, 8008)]),
    op (.setAddRecord 1 0),
    op (.createRecord 0 0 [(1, 8024)]),
    op (.setAddRecord 1 0),
    op (.createRecord 0 0 [(1, 8040)]),
    op (.setAddRecord 1 0),
    op (.request 1 .Greater 1 8000 8000 false false none (fun _ => true) 2),
    rows 2 [[(1, 8008)], [(1, 8024)], [(1, 8040)]],
    op (.request 1 .Greater 1 8008 8008 false false none (fun _ => true) 2),
    rows 2 [[(1, 8024)], [(1, 8040)]],
    op (.request 1 .Greater 1 8016 8016 false false none (fun _ => true) 2),
    rows 2 [[(1, 8024)], [(1, 8040)]],
    op (.request 1 .Greater 1 8024 8024 false false none (fun _ => true) 2),
    rows 2 [[(1, 8040)]],
    op (.request 1 .Greater 1 8032 8032 false false none (fun _ => true) 2),
    rows 2 [[(1, 8040)]],
    op (.request 1 .Greater 1 8040 8040 false false none (fun _ => true) 2),
    rows 2 [],
    op (.request 1 .Greater 1 8048 8048 false false none (fun _ => true) 2),
    rows 2 [],
    op (.refReset 0),
    op (.destroySet 2),
    op (.destroySet 1),
    op (.destroyVault 0)] = true := by decide

/-- VaultRecordSetUnitTests.cpp line 1416: RequestGreater, WrongKey. -/
theorem conf_set_RequestGreater_WrongKey : runT Env.id [
    op .newVault,
    op .newSet,
    op (.addKey 0 1 8000),
    op (.createRow 0 []),
    op (.request 0 .Equal 1 8000 8000 false false none (fun _ => true) 1),
    op (.eraseKV 0 1 8000),
    op (.removeKey 0 1),
    op .newSet,
    op .newRef,
    op (.addKey 0 1 8000),
    op (.addUniqueKey 0 2 1 true (fun _ _ _ => 0)),
    op (.createRecord 0 0 [(1, 8008), (2, 417)]),
    op (.setAddRecord 1 0),
    op (.createRecord 0 0 [(1, 8016), (2, 521)]),
    op (.setAddRecord 1 0),
    op (.createRecord 0 0 [(1, 8016), (2, 625)]),
    op (.setAddRecord 1 0),
    op (.createRecord 0 0 [(1, 8016), (2, 633)]),
    op (.setAddRecord 1 0),
    op (.createRecord 0 0 [(1, 8024), (2, 641)]),
    op (.setAddRecord 1 0),
    res (.request 1 .Greater 3 8008 8008 false false none (fun _ => true) 2) false .WrongKey (some 3) (some 0) none,
    size 2 0,
    rows 2 [],
    op (.refReset 0),
    op (.destroySet 2),
    op (.destroySet 1),
    op (.destroyVault 0)] = true := by decide

/-- VaultRecordSetUnitTests.cpp line 1447: RequestGreater, WrongType. -/
theorem conf_set_RequestGreater_WrongType : runT Env.id [
    op .newVault,
    op .newSet,
    op (.addKey 0 1 8000),
    op (.createRow 0 []),
    op (.request 0 .Equal 1 8000 8000 false false none (fun _ => true) 1),
    op (.eraseKV 0 1 8000),
    op (.removeKey 0 1),
    op .newSet,
    op .newRef,
    op (.addKey 0 1 8000),
    op (.addUniqueKey 0 2 1 true (fun _ _ _ => 0)),
    op (.createRecord 0 0 [(1, 8008), (2, 313)]),
    op (.setAddRecord 1 0),
    op (.createRecord 0 0 [(1, 8016), (2, 417)]),
    op (.setAddRecord 1 0),
    op (.createRecord 0 0 [(1, 8016), (2, 521)]),
    op (.setAddRecord 1 0),
    op (.createRecord 0 0 [(1, 8016), (2, 529)]),
    op (.setAddRecord 1 0),
    op (.createRecord 0 0 [(1, 8024), (2, 537)]),
    op (.setAddRecord 1 0),
    res (.request 1 .Greater 2 8008 8008 false false none (fun _ => true) 2) false .WrongType (some 2) (some 0) (some 1),
    size 2 0,
    rows 2 [],
    op (.refReset 0),
    op (.destroySet 2),
    op (.destroySet 1),
    op (.destroyVault 0)] = true := by decide

/-- VaultRecordSetUnitTests.cpp line 1478: RequestGreater, ValueNotInVault. -/
theorem conf_set_RequestGreater_ValueNotInVault : runT Env.id [
    op .newVault,
    op .newSet,
    op (.addKey 0 1 8000),
    op (.createRow 0 []),
    op (.request 0 .Equal 1 8000 8000 false false none (fun _ => true) 1),
    op (.eraseKV 0 1 8000),
    op (.removeKey 0 1),
    op .newSet,
    op .newRef,
    op (.addKey 0 1 8000),
    op (.addUniqueKey 0 2 1 true (fun _ _ _ => 0)),
    op (.createRecord 0 0 [(1, 8008), (2, 313)]),
    op (.setAddRecord 1 0),
    op (.createRecord 0 0 [(1, 8016), (2, 417)]),
    op (.setAddRecord 1 0),
    op (.createRecord 0 0 [(1, 8016), (2, 521)]),
    op (.setAddRecord 1 0),
    op (.createRecord 0 0 [(1, 8016), (2, 529)]),
    op (.setAddRecord 1 0),
    op (.createRecord 0 0 [(1, 8024), (2, 537)]),
    op (.setAddRecord 1 0),
    res (.request 1 .Greater 1 8032 8032 false false none (fun _ => true) 2) true .Success (some 1) (some 0) (some 0),
    size 2 0,
    rows 2 [],
    op (.refReset 0),
    op (.destroySet 2),
    op (.destroySet 1),
    op (.destroyVault 0)] = true := by decide

/-- VaultRecordSetUnitTests.cpp line 1509: RequestGreater, Self. -/
theorem conf_set_RequestGreater_Self : runT Env.id [
    op .newVault,
    op .newSet,
    op (.addKey 0 1 8000),
    op (.createRow 0 []),
    op (.request 0 .Equal 1 8000 8000 false false none (fun _ => true) 1),
    op (.eraseKV 0 1 8000),
    op (.removeKey 0 1),
    op (.addKey 0 1 8000),
    res (.request 1 .Greater 1 8032 8032 false false none (fun _ => true) 1) false .SameVaultRecordSet (some 1) none none,
    size 1 0,
    rows 1 [],
    op (.destroySet 1),
    op (.destroyVault 0)] = true := by decide

/-- VaultRecordSetUnitTests.cpp line 1526: RequestGreaterOrEqual, Invalid. -/
theorem conf_set_RequestGreaterOrEqual_Invalid : runT Env.id [
    op .newSet,
    op .newSet,
    res (.request 0 .GreaterOrEqual 1 8000 8000 false false none (fun _ => true) 1) false .ParentVaultNotValid (some 1) (some 0) none,
    op (.destroySet 1),
    op (.destroySet 0)] = true := by decide

/-- VaultRecordSetUnitTests.cpp line 1537: RequestGreaterOrEqual, CorrectRequest. -/
theorem conf_set_RequestGreaterOrEqual_CorrectRequest : runT Env.id [
    op .newVault,
    op .newSet,
    op (.addKey 0 1 8000),
    op (.createRow 0 []),
    op (.request 0 .Equal 1 8000 8000 false false none (fun _ => true) 1),
    op (.eraseKV 0 1 8000),
    op (.removeKey 0 1),
    op .newSet,
    op .newRef,
    op (.addKey 0 1 8000),
    op (.addUniqueKey 0 2 1 true (fun _ _ _ => 0)),
    op (.createRecord 0 0 [(1, 8008), (2, 313)]),
    op (.setAddRecord 1 0),
    op (.createRecord 0 0 [(1, 8016), (2, 417)]),
    op (.setAddRecord 1 0),
    op (.createRecord 0 0 [(1, 8016), (2, 521)]),
    op (.setAddRecord 1 0),
    op (.createRecord 0 0 [(1, 8016), (2, 529)]),
    op (.setAddRecord 1 0),
    op (.createRecord 0 0 [(1, 8024), (2, 537)]),
    op (.setAddRecord 1 0),
    res (.request 1 .GreaterOrEqual 1 8008 8008 false false none (fun _ => true) 2) true .Success (some 1) (some 0) (some 0),
    size 2 5,
    rows 2 [[(1, 8008), (2, 313)], [(1, 8016), (2, 417)], [(1, 8016), (2, 521)], [(1, 8016), (2, 529)], [(1, 8024), (2, 537)]],
    res (.request 1 .GreaterOrEqual 1 8024 8024 false false none (fun _ => true) 2) true .Success (some 1) (some 0) (some 0),
    size 2 1,
    rows 2 [[(1, 8024), (2, 537)]],
    op (.refReset 0),
    op (.destroySet 2),
    op (.destroySet 1),
    op (.destroyVault 0)] = true := by decide

/-- VaultRecordSetUnitTests.cpp line 1584: RequestGreaterOrEqual, CorrectRequestNotAllRecords. -/
theorem conf_set_RequestGreaterOrEqual_CorrectRequestNotAllRecords : runT Env.id [
    op .newVault,
    op .newSet,
    op (.addKey 0 1 8000),
    op (.createRow 0 []),
    op (.request 0 .Equal 1 8000 8000 false false none (fun _ => true) 1),
    op (.eraseKV 0 1 8000),
    op (.removeKey 0 1),
    op .newSet,
    op .newRef,
    op (.addKey 0 1 8000),
    op (.addUniqueKey 0 2 1 true (fun _ _ _ => 0)),
    op (.createRecord 0 0 [(1, 8008), (2, 313)]),
    op (.setAddRecord 1 0),
    op (.createRecord 0 0 [(1, 8016), (2, 417)]),
    op (.setAddRecord 1 0),
    op (.createRecord 0 0 [(1, 8016), (2, 521)]),
    op (.setAddRecord 1 0),
    op (.createRecord 0 0 [(1, 8016), (2, 529)]),
    op (.setAddRecord 1 0),
    op (.createRecord 0 0 [(1, 8024), (2, 537)]),
    op (.setAddRecord 1 0),
    res (.request 1 .GreaterOrEqual 1 8016 8016 false false (some 2) (fun _ => true) 2) true .Success (some 1) (some 0) (some 0),
    size 2 2,
    res (.request 1 .GreaterOrEqual 1 8024 8024 false false (some 4) (fun _ => true) 2) true .Success (some 1) (some 0) (some 0),
    size 2 1,
    rows 2 [[(1, 8024), (2, 537)]],
    op (.refReset 0),
    op (.destroySet 2),
    op (.destroySet 1),
    op (.destroyVault 0)] = true := by decide

/-- VaultRecordSetUnitTests.cpp line 1623: RequestGreaterOrEqual, CorrectRequestWithPredicat. -/
theorem conf_set_RequestGreaterOrEqual_CorrectRequestWithPredicat : runT Env.id [
    op .newVault,
    op .newSet,
    op (.addKey 0 1 8000),
    op (.createRow 0 []),
    op (.request 0 .Equal 1 8000 8000 false false none (fun _ => true) 1),
    op (.eraseKV 0 1 8000),
    op (.removeKey 0 1),
    op .newSet,
    op .newRef,
    op (.addKey 0 1 8000),
    op (.addUniqueKey 0 2 1 true (fun _ _ _ => 0)),
    op (.createRecord 0 0 [(1, 8008), (2, 313)]),
    op (.setAddRecord 1 0),
    op (.createRecord 0 0 [(1, 8016), (2, 417)]),
    op (.setAddRecord 1 0),
    op (.createRecord 0 0 [(1, 8016), (2, 521)]),
    op (.setAddRecord 1 0),
    op (.createRecord 0 0 [(1, 8016), (2, 529)]),
    op (.setAddRecord 1 0),
    op (.createRecord 0 0 [(1, 8024), (2, 537)]),
    op (.setAddRecord 1 0),
    resW (fun w => .request 1 .GreaterOrEqual 1 8016 8016 false false none (fun r => decide ((cell w r 2).any (fun v => decide (v ∈ ([521, 529] : List TV))))) 2) true .Success (some 1) (some 0) (some 0),
    size 2 2,
    rows 2 [[(1, 8016), (2, 521)], [(1, 8016), (2, 529)]],
    op (.refReset 0),
    op (.destroySet 2),
    op (.destroySet 1),
    op (.destroyVault 0)] = true := by decide

/-- VaultRecordSetUnitTests.cpp line 1663: RequestGreaterOrEqual, BoundaryValues. -/
theorem conf_set_RequestGreaterOrEqual_BoundaryValues : runT Env.id [
    op .newVault,
    op .newSet,
    op (.addKey 0 1 8000),
    op (.createRow 0 []),
    op (.request 0 .Equal 1 8000 8000 false false none (fun _ => true) 1),
    op (.eraseKV 0 1 8000),
    op (.removeKey 0 1),
    op .newSet,
    op .newRef,
    op (.addKey 0 1 8000),
    op (.createRecord 0 0 [(1, 8008)]),
    op (.setAddRecord 1 0),
    op (.createRecord 0 0 [(1, 8024)]),
    op (.setAddRecord 1 0),
    op (.createRecord 0 0 [(1, 8040)]),
    op (.setAddRecord 1 0),
    op (.request 1 .GreaterOrEqual 1 8000 8000 false false none (fun _ => true) 2),
    rows 2 [[(1, 8008)], [(1, 8024)], [(1, 8040)]],
    op (.request 1 .GreaterOrEqual 1 8008 8008 false false none (fun _ => true) 2),
    rows 2 [[(1, 8008)], [(1, 8024)], [(1, 8040)]],
    op (.request 1 .GreaterOrEqual 1 8016 8016 false false none (fun _ => true) 2),
    rows 2 [[(1, 8024)], [(1, 8040)]],
    op (.request 1 .GreaterOrEqual 1 8024 8024 false false none (fun _ => true) 2),
    rows 2 [[(1, 8024)], [(1, 8040)]],
    op (.request 1 .GreaterOrEqual 1 8032 8032 false false none (fun _ => true) 2),
    rows 2 [[(1, 8040)]],
    op (.request 1 .GreaterOrEqual 1 8040 8040 false false none (fun _ => true) 2),
    rows 2 [[(1, 8040)]],
    op (.request 1 .GreaterOrEqual 1 8048 8048 false false none (fun _ => true) 2),
    rows 2 [],
    op (.refReset 0),
    op (.destroySet 2),
    op (.destroySet 1),
    op (.destroyVault 0)] = true := by decide

/-- VaultRecordSetUnitTests.cpp line 1715: RequestGreaterOrEqual, WrongKey. -/
theorem conf_set_RequestGreaterOrEqual_WrongKey : runT Env.id [
    op .newVault,
    op .newSet,
    op (.addKey 0 1 8000),
    op (.createRow 0 []),
    op (.request 0 .Equal 1 8000 8000 false false none (fun _ => true) 1),
    op (.eraseKV 0 1 8000),
    op (.removeKey 0 1),
    op .newSet,
    op .newRef,
    op (.addKey 0 1 8000),
    op (.addUniqueKey 0 2 1 true (fun _ _ _ => 0)),
    op (.createRecord 0 0 [(1, 8008), (2, 417)]),
    op (.setAddRecord 1 0),
    op (.createRecord 0 0 [(1, 8016), (2, 521)]),
    op (.setAddRecord 1 0),
    op (.createRecord 0 0 [(1, 8016), (2, 625)]),
    op (.setAddRecord 1 0),
    op (.createRecord 0 0 [(1, 8016), (2, 633)]),
    op (.setAddRecord 1 0),
    op (.createRecord 0 0 [(1, 8024), (2, 641)]),
    op (.setAddRecord 1 0),
    res (.request 1 .GreaterOrEqual 3 8008 8008 false false none (fun _ => true) 2) false .WrongKey (some 3) (some 0) none,
    size 2 0,
    rows 2 [],
    op (.refReset 0),
    op (.destroySet 2),
    op (.destroySet 1),
    op (.destroyVault 0)] = true := by decide

/-- VaultRecordSetUnitTests.cpp line 1746: RequestGreaterOrEqual, WrongType. -/
theorem conf_set_RequestGreaterOrEqual_WrongType : runT Env.id [
    op .newVault,
    op .newSet,
    op (.addKey 0 1 8000),
    op (.createRow 0 []),
    op (.request 0 .Equal 1 8000 8000 false false none (fun _ => true) 1),
    op (.eraseKV 0 1 8000),
    op (.removeKey 0 1),
    op .newSet,
    op .newRef,
    op (.addKey 0 1 8000),
    op (.addUniqueKey 0 2 1 true (fun _ _ _ => 0)),
    op (.createRecord 0 0 [(1, 8008), (2, 313)]),
    op (.setAddRecord 1 0),
    op (.createRecord 0 0 [(1, 8016), (2, 417)]),
    op (.setAddRecord 1 0),
    op (.createRecord 0 0 [(1, 8016), (2, 521)]),
    op (.setAddRecord 1 0),
    op (.createRecord 0 0 [(1, 8016), (2, 529)]),
    op (.setAddRecord 1 0),
    op (.createRecord 0 0 [(1, 8024), (2, 537)]),
    op (.setAddRecord 1 0),
    res (.request 1 .GreaterOrEqual 2 8008 8008 false false none (fun _ => true) 2) false .WrongType (some 2) (some 0) (some 1),
    size 2 0,
    rows 2 [],
    op (.refReset 0),
    op (.destroySet 2),
    op (.destroySet 1),
    op (.destroyVault 0)] = true := by decide

/-- VaultRecordSetUnitTests.cpp line 1777: RequestGreaterOrEqual, ValueNotInVault. -/
theorem conf_set_RequestGreaterOrEqual_ValueNotInVault : runT Env.id [
    op .newVault,
    op .newSet,
    op (.addKey 0 1 8000),
    op (.createRow 0 []),
    op (.request 0 .Equal 1 8000 8000 false false none (fun _ => true) 1),
    op (.eraseKV 0 1 8000),
    op (.removeKey 0 1),
    op .newSet,
    op .newRef,
    op (.addKey 0 1 8000),
    op (.addUniqueKey 0 2 1 true (fun _ _ _ => 0)),
    op (.createRecord 0 0 [(1, 8008), (2, 313)]),
    op (.setAddRecord 1 0),
    op (.createRecord 0 0 [(1, 8016), (2, 417)]),
    op (.setAddRecord 1 0),
    op (.createRecord 0 0 [(1, 8016), (2, 521)]),
    op (.setAddRecord 1 0),
    op (.createRecord 0 0 [(1, 8016), (2, 529)]),
    op (.setAddRecord 1 0),
    op (.createRecord 0 0 [(1, 8024), (2, 537)]),
    op (.setAddRecord 1 0),
    res (.request 1 .GreaterOrEqual 1 8032 8032 false false none (fun _ => true) 2) true .Success (some 1) (some 0) (some 0),
    size 2 0,
    rows 2 [],
    op (.refReset 0),
    op (.destroySet 2),
    op (.destroySet 1),
    op (.destroyVault 0)] = true := by decide

/-- VaultRecordSetUnitTests.cpp line 1808: RequestGreaterOrEqual, Self. -/
theorem conf_set_RequestGreaterOrEqual_Self : runT Env.id [
    op .newVault,
    op .newSet,
    op (.addKey 0 1 8000),
    op (.createRow 0 []),
    op (.request 0 .Equal 1 8000 8000 false false none (fun _ => true) 1),
    op (.eraseKV 0 1 8000),
    op (.removeKey 0 1),
    op (.addKey 0 1 8000),
    res (.request 1 .GreaterOrEqual 1 8032 8032 false false none (fun _ => true) 1) false .SameVaultRecordSet (some 1) none none,
    size 1 0,
    rows 1 [],
    op (.destroySet 1),
    op (.destroyVault 0)] = true := by decide

/-- VaultRecordSetUnitTests.cpp line 1825: RequestLess, Invalid. -/
theorem conf_set_RequestLess_Invalid : runT Env.id [
    op .newSet,
    op .newSet,
    res (.request 0 .Less 1 8000 8000 false false none (fun _ => true) 1) false .ParentVaultNotValid (some 1) (some 0) none,
    op (.destroySet 1),
    op (.destroySet 0)] = true := by decide

/-- VaultRecordSetUnitTests.cpp line 1836: RequestLess, CorrectRequest. -/
theorem conf_set_RequestLess_CorrectRequest : runT Env.id [
    op .newVault,
    op .newSet,
    op (.addKey 0 1 8000),
    op (.createRow 0 []),
    op (.request 0 .Equal 1 8000 8000 false false none (fun _ => true) 1),
    op (.eraseKV 0 1 8000),
    op (.removeKey 0 1),
    op .newSet,
    op .newRef,
    op (.addKey 0 1 8000),
    op (.addUniqueKey 0 2 1 true (fun _ _ _ => 0)),
    op (.createRecord 0 0 [(1, 8008), (2, 313)]),
    op (.setAddRecord 1 0),
    op (.createRecord 0 0 [(1, 8016), (2, 417)]),
    op (.setAddRecord 1 0),
    op (.createRecord 0 0 [(1, 8016), (2, 521)]),
    op (.setAddRecord 1 0),
    op (.createRecord 0 0 [(1, 8016), (2, 529)]),
    op (.setAddRecord 1 0),
    op (.createRecord 0 0 [(1, 8024), (2, 537)]),
    op (.setAddRecord 1 0),
    res (.request 1 .Less 1 8024 8024 false false none (fun _ => true) 2) true .Success (some 1) (some 0) (some 0),
    size 2 4,
    rows 2 [[(1, 8008), (2, 313)], [(1, 8016), (2, 417)], [(1, 8016), (2, 521)], [(1, 8016), (2, 529)]],
    res (.request 1 .Less 1 8016 8016 false false none (fun _ => true) 2) true .Success (some 1) (some 0) (some 0),
    size 2 1,
    rows 2 [[(1, 8008), (2, 313)]],
    op (.refReset 0),
    op (.destroySet 2),
    op (.destroySet 1),
    op (.destroyVault 0)] = true := by decide

/-- VaultRecordSetUnitTests.cpp line 1881: RequestLess, CorrectRequestNotAllRecords. -/
theorem conf_set_RequestLess_CorrectRequestNotAllRecords : runT Env.id [
    op .newVault,
    op .newSet,
    op (.addKey 0 1 8000),
    op (.createRow 0 []),
    op (.request 0 .Equal 1 8000 8000 false false none (fun _ => true) 1),
    op (.eraseKV 0 1 8000),
    op (.removeKey 0 1),
    op .newSet,
    op .newRef,
    op (.addKey 0 1 8000),
    op (.addUniqueKey 0 2 1 true (fun _ _ _ => 0)),
    op (.createRecord 0 0 [(1, 8008), (2, 313)]),
    op (.setAddRecord 1 0),
    op (.createRecord 0 0 [(1, 8016), (2, 417)]),
    op (.setAddRecord 1 0),
    op (.createRecord 0 0 [(1, 8016), (2, 521)]),
    op (.setAddRecord 1 0),
    op (.createRecord 0 0 [(1, 8016), (2, 529)]),
    op (.setAddRecord 1 0),
    op (.createRecord 0 0 [(1, 8024), (2, 537)]),
    op (.setAddRecord 1 0),
    res (.request 1 .Less 1 8024 8024 false false (some 2) (fun _ => true) 2) true .Success (some 1) (some 0) (some 0),
    size 2 2,
    res (.request 1 .Less 1 8016 8016 false false (some 4) (fun _ => true) 2) true .Success (some 1) (some 0) (some 0),
    size 2 1,
    rows 2 [[(1, 8008), (2, 313)]],
    op (.refReset 0),
    op (.destroySet 2),
    op (.destroySet 1),
    op (.destroyVault 0)] = true := by decide

/-- VaultRecordSetUnitTests.cpp line 1920: RequestLess, CorrectRequestWithPredicat. -/
theorem conf_set_RequestLess_CorrectRequestWithPredicat : runT Env.id [
    op .newVault,
    op .newSet,
    op (.addKey 0 1 8000),
    op (.createRow 0 []),
    op (.request 0 .Equal 1 8000 8000 false false none (fun _ => true) 1),
    op (.eraseKV 0 1 8000),
    op (.removeKey 0 1),
    op .newSet,
    op .newRef,
    op (.addKey 0 1 8000),
    op (.addUniqueKey 0 2 1 true (fun _ _ _ => 0)),
    op (.createRecord 0 0 [(1, 8008), (2, 313)]),
    op (.setAddRecord 1 0),
    op (.createRecord 0 0 [(1, 8016), (2, 417)]),
    op (.setAddRecord 1 0),
    op (.createRecord 0 0 [(1, 8016), (2, 521)]),
    op (.setAddRecord 1 0),
    op (.createRecord 0 0 [(1, 8016), (2, 529)]),
    op (.setAddRecord 1 0),
    op (.createRecord 0 0 [(1, 8024), (2, 537)]),
    op (.setAddRecord 1 0),
    resW (fun w => .request 1 .Less 1 8024 8024 false false none (fun r => decide ((cell w r 2).any (fun v => decide (v ∈ ([521, 529] : List TV))))) 2) true .Success (some 1) (some 0) (some 0),
    size 2 2,
    rows 2 [[(1, 8016), (2, 521)], [(1, 8016), (2, 529)]],
    op (.refReset 0),
    op (.destroySet 2),
    op (.destroySet 1),
    op (.destroyVault 0)] = true := by decide

/-- VaultRecordSetUnitTests.cpp line 1960: RequestLess, BoundaryValues. -/
theorem conf_set_RequestLess_BoundaryValues : runT Env.id [
    op .newVault,
    op .newSet,
    op (.addKey 0 1 8000),
    op (.createRow 0 []),
    op (.request 0 .Equal 1 8000 8000 false false none (fun _ => true) 1),
    op (.eraseKV 0 1 8000),
    op (.removeKey 0 1),
    op .newSet,
    op .newRef,
    op (.addKey 0 1 8000),
    op (.createRecord 0 0 [(1, 8008)]),
    op (.setAddRecord 1 0),
    op (.createRecord 0 0 [(1, 8024)]),
    op (.setAddRecord 1 0),
    op (.createRecord 0 0 [(1, 8040)]),
    op (.setAddRecord 1 0),
    op (.request 1 .Less 1 8000 8000 false false none (fun _ => true) 2),
    rows 2 [],
    op (.request 1 .Less 1 8008 8008 false false none (fun _ => true) 2),
    rows 2 [],
    op (.request 1 .Less 1 8016 8016 false false none (fun _ => true) 2),
    rows 2 [[(1, 8008)]],
    op (.request 1 .Less 1 8024 8024 false false none (fun _ => true) 2),
    rows 2 [[(1, 8008)]],
    op (.request 1 .Less 1 8032 8032 false false none (fun _ => true) 2),
    rows 2 [[(1, 8008)], [(1, 8024)]],
    op (.request 1 .Less 1 8040 8040 false false none (fun _ => true) 2),
    rows 2 [[(1, 8008)], [(1, 8024)]],
    op (.request 1 .Less 1 8048 8048 false false none (fun _ => true) 2),
    rows 2 [[(1, 8008)], [(1, 8024)], [(1, 8040)]],
    op (.refReset 0),
    op (.destroySet 2),
    op (.destroySet 1),
    op (.destroyVault 0)] = true := by decide

/-- VaultRecordSetUnitTests.cpp line 2012: RequestLess, WrongKey. -/
theorem conf_set_RequestLess_WrongKey : runT Env.id [
    op .newVault,
    op .newSet,
    op (.addKey 0 1 8000),
    op (.createRow 0 []),
    op (.request 0 .Equal 1 8000 8000 false false none (fun _ => true) 1),
    op (.eraseKV 0 1 8000),
    op (.removeKey 0 1),
    op .newSet,
    op .newRef,
    op (.addKey 0 1 8000),
    op (.addUniqueKey 0 2 1 true (fun _ _ _ => 0)),
    op (.createRecord 0 0 [(1, 8008), (2, 417)]),
    op (.setAddRecord 1 0),
    op (.createRecord 0 0 [(1, 8016), (2, 521)]),
    op (.setAddRecord 1 0),
    op (.createRecord 0 0 [(1, 8016), (2, 625)]),
    op (.setAddRecord 1 0),
    op (.createRecord 0 0 [(1, 8016), (2, 633)]),
    op (.setAddRecord 1 0),
    op (.createRecord 0 0 [(1, 8024), (2, 641)]),
    op (.setAddRecord 1 0),
    res (.request 1 .Less 3 8008 8008 false false none (fun _ => true) 2) false .WrongKey (some 3) (some 0) none,
    size 2 0,
    rows 2 [],
    op (.refReset 0),
    op (.destroySet 2),
    op (.destroySet 1),
    op (.destroyVault 0)] = true := by decide

/-- VaultRecordSetUnitTests.cpp line 2043: RequestLess, WrongType. -/
theorem conf_set_RequestLess_WrongType : runT Env.id [
    op .newVault,
    op .newSet,
    op (.addKey 0 1 8000),
    op (.createRow 0 []),
    op (.request 0 .Equal 1 8000 8000 false false none (fun _ => true) 1),
    op (.eraseKV 0 1 8000),
    op (.removeKey 0 1),
    op .newSet,
    op .newRef,
    op (.addKey 0 1 8000),
    op (.addUniqueKey 0 2 1 true (fun _ _ _ => 0)),
    op (.createRecord 0 0 [(1, 8008), (2, 313)]),
    op (.setAddRecord 1 0),
    op (.createRecord 0 0 [(1, 8016), (2, 417)]),
    op (.setAddRecord 1 0),
    op (.createRecord 0 0 [(1, 8016), (2, 521)]),
    op (.setAddRecord 1 0),
    op (.createRecord 0 0 [(1, 8016), (2, 529)]),
    op (.setAddRecord 1 0),
    op (.createRecord 0 0 [(1, 8024), (2, 537)]),
    op (.setAddRecord 1 0),
    res (.request 1 .Less 2 8008 8008 false false none (fun _ => true) 2) false .WrongType (some 2) (some 0) (some 1),
    size 2 0,
    rows 2 [],
    op (.refReset 0),
    op (.destroySet 2),
    op (.destroySet 1),
    op (.destroyVault 0)] = true := by decide

/-- VaultRecordSetUnitTests.cpp line 2074: RequestLess, ValueNotInVault. -/
theorem conf_set_RequestLess_ValueNotInVault : runT Env.id [
    op .newVault,
    op .newSet,
    op (.addKey 0 1 8000),
    op (.createRow 0 []),
    op (.request 0 .Equal 1 8000 8000 false false none (fun _ => true) 1),
    op (.eraseKV 0 1 8000),
    op (.removeKey 0 1),
    op .newSet,
    op .newRef,
    op (.addKey 0 1 8000),
    op (.addUniqueKey 0 2 1 true (fun _ _ _ => 0)),
    op (.createRecord 0 0 [(1, 8008), (2, 313)]),
    op (.setAddRecord 1 0),
    op (.createRecord 0 0 [(1, 8016), (2, 417)]),
    op (.setAddRecord 1 0),
    op (.createRecord 0 0 [(1, 8016), (2, 521)]),
    op (.setAddRecord 1 0),
    op (.createRecord 0 0 [(1, 8016), (2, 529)]),
    op (.setAddRecord 1 0),
    op (.createRecord 0 0 [(1, 8024), (2, 537)]),
    op (.setAddRecord 1 0),
    res (.request 1 .Less 1 8008 8008 false false none (fun _ => true) 2) true .Success (some 1) (some 0) (some 0),
    size 2 0,
    rows 2 [],
    op (.refReset 0),
    op (.destroySet 2),
    op (.destroySet 1),
    op (.destroyVault 0)] = true := by decide

/-- VaultRecordSetUnitTests.cpp line 2105: RequestLess, Self. -/
theorem conf_set_RequestLess_Self : runT Env.id [
    op .newVault,
    op .newSet,
    op (.addKey 0 1 8000),
    op (.createRow 0 []),
    op (.request 0 .Equal 1 8000 8000 false false none (fun _ => true) 1),
    op (.eraseKV 0 1 8000),
    op (.removeKey 0 1),
    op (.addKey 0 1 8000),
    res (.request 1 .Less 1 8032 8032 false false none (fun _ => true) 1) false .SameVaultRecordSet (some 1) none none,
    size 1 0,
    rows 1 [],
    op (.destroySet 1),
    op (.destroyVault 0)] = true := by decide

/-- VaultRecordSetUnitTests.cpp line 2122: RequestLessOrEqual, Invalid. -/
theorem conf_set_RequestLessOrEqual_Invalid : runT Env.id [
    op .newSet,
    op .newSet,
    res (.request 0 .LessOrEqual 1 8000 8000 false false none (fun _ => true) 1) false .ParentVaultNotValid (some 1) (some 0) none,
    op (.destroySet 1),
    op (.destroySet 0)] = true := by decide

/-- VaultRecordSetUnitTests.cpp line 2133: RequestLessOrEqual, CorrectRequest. -/
theorem conf_set_RequestLessOrEqual_CorrectRequest : runT Env.id [
    op .newVault,
    op .newSet,
    op (.addKey 0 1 8000),
    op (.createRow 0 []),
    op (.request 0 .Equal 1 8000 8000 false false none (fun _ => true) 1),
    op (.eraseKV 0 1 8000),
    op (.removeKey 0 1),
    op .newSet,
    op .newRef,
    op (.addKey 0 1 8000),
    op (.addUniqueKey 0 2 1 true (fun _ _ _ => 0)),
    op (.createRecord 0 0 [(1, 8008), (2, 313)]),
    op (.setAddRecord 1 0),
    op (.createRecord 0 0 [(1, 8016), (2, 417)]),
    op (.setAddRecord 1 0),
    op (.createRecord 0 0 [(1, 8016), (2, 521)]),
    op (.setAddRecord 1 0),
    op (.createRecord 0 0 [(1, 8016), (2, 529)]),
    op (.setAddRecord 1 0),
    op (.createRecord 0 0 [(1, 8024), (2, 537)]),
    op (.setAddRecord 1 0),
    res (.request 1 .LessOrEqual 1 8016 8016 false false none (fun _ => true) 2) true .Success (some 1) (some 0) (some 0),
    size 2 4,
    rows 2 [[(1, 8008), (2, 313)], [(1, 8016), (2, 417)], [(1, 8016), (2, 521)], [(1, 8016), (2, 529)]],
    res (.request 1 .LessOrEqual 1 8008 8008 false false none (fun _ => true) 2) true .Success (some 1) (some 0) (some 0),
    size 2 1,
    rows 2 [[(1, 8008), (2, 313)]],
    op (.refReset 0),
    op (.destroySet 2),
    op (.destroySet 1),
    op (.destroyVault 0)] = true := by decide

/-- VaultRecordSetUnitTests.cpp line 2178: RequestLessOrEqual, CorrectRequestNotAllRecords. -/
theorem conf_set_RequestLessOrEqual_CorrectRequestNotAllRecords : runT Env.id [
    op .newVault,
    op .newSet,
    op (.addKey 0 1 8000),
    op (.createRow 0 []),
    op (.request 0 .Equal 1 8000 8000 false false none (fun _ => true) 1),
    op (.eraseKV 0 1 8000),
    op (.removeKey 0 1),
    op .newSet,
    op .newRef,
    op (.addKey 0 1 8000),
    op (.addUniqueKey 0 2 1 true (fun _ _ _ => 0)),
    op (.createRecord 0 0 [(1, 8008), (2, 313)]),
    op (.setAddRecord 1 0),
    op (.createRecord 0 0 [(1, 8016), (2, 417)]),
    op (.setAddRecord 1 0),
    op (.createRecord 0 0 [(1, 8016), (2, 521)]),
    op (.setAddRecord 1 0),
    op (.createRecord 0 0 [(1, 8016), (2, 529)]),
    op (.setAddRecord 1 0),
    op (.createRecord 0 0 [(1, 8024), (2, 537)]),
    op (.setAddRecord 1 0),
    res (.request 1 .LessOrEqual 1 8024 8024 false false (some 2) (fun _ => true) 2) true .Success (some 1) (some 0) (some 0),
    size 2 2,
    res (.request 1 .LessOrEqual 1 8008 8008 false false (some 4) (fun _ => true) 2) true .Success (some 1) (some 0) (some 0),
    size 2 1,
    rows 2 [[(1, 8008), (2, 313)]],
    op (.refReset 0),
    op (.destroySet 2),
    op (.destroySet 1),
    op (.destroyVault 0)] = true := by decide

/-- VaultRecordSetUnitTests.cpp line 2217: RequestLessOrEqual, CorrectRequestWithPredicat. -/
theorem conf_set_RequestLessOrEqual_CorrectRequestWithPredicat : runT Env.id [
    op .newVault,
    op .newSet,
    op (.addKey 0 1 8000),
    op (.createRow 0 []),
    op (.request 0 .Equal 1 8000 8000 false false none (fun _ => true) 1),
    op (.eraseKV 0 1 8000),
    op (.removeKey 0 1),
    op .newSet,
    op .newRef,
    op (.addKey 0 1 8000),
    op (.addUniqueKey 0 2 1 true (fun _ _ _ => 0)),
    op (.createRecord 0 0 [(1, 8008), (2, 313)]),
    op (.setAddRecord 1 0),
    op (.createRecord 0 0 [(1, 8016), (2, 417)]),
    op (.setAddRecord 1 0),
    op (.createRecord 0 0 [(1, 8016), (2, 521)]),
    op (.setAddRecord 1 0),
    op (.createRecord 0 0 [(1, 8016), (2, 529)]),
    op (.setAddRecord 1 0),
    op (.createRecord 0 0 [(1, 8024), (2, 537)]),
    op (.setAddRecord 1 0),
    resW (fun w => .request 1 .LessOrEqual 1 8016 8016 false false none (fun r => decide ((cell w r 2).any (fun v => decide (v ∈ ([521, 529] : List TV))))) 2) true .Success (some 1) (some 0) (some 0),
    size 2 2,
    rows 2 [[(1, 8016), (2, 521)], [(1, 8016), (2, 529)]],
    op (.refReset 0),
    op (.destroySet 2),
    op (.destroySet 1),
    op (.destroyVault 0)] = true := by decide

/-- VaultRecordSetUnitTests.cpp line 2257: RequestLessOrEqual, BoundaryValues. -/
theorem conf_set_RequestLessOrEqual_BoundaryValues : runT Env.id [
    op .newVault,
    op .newSet,
    op (.addKey 0 1 8000),
    op (.createRow 0 []),
    op (.request 0 .Equal 1 8000 8000 false false none (fun _ => true) 1),
    op (.eraseKV 0 1 8000),
    op (.removeKey 0 1),
    op .newSet,
    op .newRef,
    op (.addKey 0 1 8000),
    op (.createRecord 0 0 [(1, 8008)]),
    op (.setAddRecord 1 0),
    op (.createRecord 0 0 [(1, 8024)]),
    op (.setAddRecord 1 0),
    op (.createRecord 0 0 [(1, 8040)]),
    op (.setAddRecord 1 0),
    op (.request 1 .LessOrEqual 1 8000 8000 false false none (fun _ => true) 2),
    rows 2 [],
    op (.request 1 .LessOrEqual 1 8008 8008 false false none (fun _ => true) 2),
    rows 2 [[(1, 8008)]],
    op (.request 1 .LessOrEqual 1 8016 8016 false false none (fun _ => true) 2),
    rows 2 [[(1, 8008)]],
    op (.request 1 .LessOrEqual 1 8024 8024 false false none (fun _ => true) 2),
    rows 2 [[(1, 8008)], [(1, 8024)]],
    op (.request 1 .LessOrEqual 1 8032 8032 false false none (fun _ => true) 2),
    rows 2 [[(1, 8008)], [(1, 8024)]],
    op (.request 1 .LessOrEqual 1 8040 8040 false false none (fun _ => true) 2),
    rows 2 [[(1, 8008)], [(1, 8024)], [(1, 8040)]],
    op (.request 1 .LessOrEqual 1 8048 8048 false false none (fun _ => true) 2),
    rows 2 [[(1, 8008)], [(1, 8024)], [(1, 8040)]],
    op (.refReset 0),
    op (.destroySet 2),
    op (.destroySet 1),
    op (.destroyVault 0)] = true := by decide

/-- VaultRecordSetUnitTests.cpp line 2309: RequestLessOrEqual, WrongKey. -/
theorem conf_set_RequestLessOrEqual_WrongKey : runT Env.id [
    op .newVault,
    op .newSet,
    op (.addKey 0 1 8000),
    op (.createRow 0 []),
    op (.request 0 .Equal 1 8000 8000 false false none (fun _ => true) 1),
    op (.eraseKV 0 1 8000),
    op (.removeKey 0 1),
    op .newSet,
    op .newRef,
    op (.addKey 0 1 8000),
    op (.addUniqueKey 0 2 1 true (fun _ _ _ => 0)),
    op (.createRecord 0 0 [(1, 8008), (2, 417)]),
    op (.setAddRecord 1 0),
    op (.createRecord 0 0 [(1, 8016), (2, 521)]),
    op (.setAddRecord 1 0),
    op (.createRecord 0 0 [(1, 8016), (2, 625)]),
    op (.setAddRecord 1 0),
    op (.createRecord 0 0 [(1, 8016), (2, 633)]),
    op (.setAddRecord 1 0),
    op (.createRecord 0 0 [(1, 8024), (2, 641)]),
    op (.setAddRecord 1 0),
    res (.request 1 .LessOrEqual 3 8008 8008 false false none (fun _ => true) 2) false .WrongKey (some 3) (some 0) none,
    size 2 0,
    rows 2 [],
    op (.refReset 0),
    op (.destroySet 2),
    op (.destroySet 1),
    op (.destroyVault 0)] = true := by decide

/-- VaultRecordSetUnitTests.cpp line 2340: RequestLessOrEqual, WrongType. -/
theorem conf_set_RequestLessOrEqual_WrongType : runT Env.id [
    op .newVault,
    op .newSet,
    op (.addKey 0 1 8000),
    op (.createRow 0 []),
    op (.request 0 .Equal 1 8000 8000 false false none (fun _ => true) 1),
    op (.eraseKV 0 1 8000),
    op (.removeKey 0 1),
    op .newSet,
    op .newRef,
    op (.addKey 0 1 8000),
    op (.addUniqueKey 0 2 1 true (fun _ _ _ => 0)),
    op (.createRecord 0 0 [(1, 8008), (2, 313)]),
    op (.setAddRecord 1 0),
    op (.createRecord 0 0 [(1, 8016), (2, 417)]),
    op (.setAddRecord 1 0),
    op (.createRecord 0 0 [(1, 8016), (2, 521)]),
    op (.setAddRecord 1 0),
    op (.createRecord 0 0 [(1, 8016), (2, 529)]),
    op (.setAddRecord 1 0),
    op (.createRecord 0 0 [(1, 8024), (2, 537)]),
    op (.setAddRecord 1 0),
    res (.request 1 .LessOrEqual 2 8008 8008 false false none (fun _ => true) 2) false .WrongType (some 2) (some 0) (some 1),
    size 2 0,
    rows 2 [],
    op (.refReset 0),
    op (.destroySet 2),
    op (.destroySet 1),
    op (.destroyVault 0)] = true := by decide

/-- VaultRecordSetUnitTests.cpp line 2371: RequestLessOrEqual, ValueNotInVault. -/
theorem conf_set_RequestLessOrEqual_ValueNotInVault : runT Env.id [
    op .newVault,
    op .newSet,
    op (.addKey 0 1 8000),
    op (.createRow 0 []),
    op (.request 0 .Equal 1 8000 8000 false false none (fun _ => true) 1),
    op (.eraseKV 0 1 8000),
    op (.removeKey 0 1),
    op .newSet,
    op .newRef,
    op (.addKey 0 1 8000),
    op (.addUniqueKey 0 2 1 true (fun _ _ _ => 0)),
    op (.createRecord 0 0 [(1, 8008), (2, 313)]),
    op (.setAddRecord 1 0),
    op (.createRecord 0 0 [(1, 8016), (2, 417)]),
    op (.setAddRecord 1 0),
    op (.createRecord 0 0 [(1, 8016), (2, 521)]),
    op (.setAddRecord 1 0),
    op (.createRecord 0 0 [(1, 8016), (2, 529)]),
    op (.setAddRecord 1 0),
    op (.createRecord 0 0 [(1, 8024), (2, 537)]),
    op (.setAddRecord 1 0),
    res (.request 1 .LessOrEqual 1 8000 8000 false false none (fun _ => true) 2) true .Success (some 1) (some 0) (some 0),
    size 2 0,
    rows 2 [],
    op (.refReset 0),
    op (.destroySet 2),
    op (.destroySet 1),
    op (.destroyVault 0)] = true := by decide

end MVault.Conf
