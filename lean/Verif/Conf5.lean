import Verif.ConfBase
/- Generated by conformance/gen.py from the unit tests of the project: validation of the model. -/
set_option maxRecDepth 100000
namespace MVault.Conf
open MVault.W

/-- VaultRecordSetUnitTests.cpp line 2402: RequestLessOrEqual, Self. -/
theorem conf_set_RequestLessOrEqual_Self : runT Env.id [
    op .newVault,
    op .newSet,
    op (.addKey 0 1 8000),
    op (.createRow 0 []),
    op (.request 0 .Equal 1 8000 8000 false false none (fun _ => true) 1),
    op (.eraseKV 0 1 8000),
    op (.removeKey 0 1),
    op (.addKey 0 1 8000),
    res (.request 1 .LessOrEqual 1 8032 8032 false false none (fun _ => true) 1) false .SameVaultRecordSet (some 1) none none,
    size 1 0,
    rows 1 [],
    op (.destroySet 1),
    op (.destroyVault 0)] = true := by decide

/-- VaultRecordSetUnitTests.cpp line 2419: RequestInterval, Invalid. -/
theorem conf_set_RequestInterval_Invalid : runT Env.id [
    op .newSet,
    op .newSet,
    res (.request 0 .Interval 1 8000 8008 true true none (fun _ => true) 1) false .ParentVaultNotValid (some 1) (some 0) none,
    op (.destroySet 1),
    op (.destroySet 0)] = true := by decide

/-- VaultRecordSetUnitTests.cpp line 2430: RequestInterval, CorrectRequest. -/
theorem conf_set_RequestInterval_CorrectRequest : runT Env.id [
    op .newVault,
    op .newSet,
    op (.addKey 0 1 8000),
    op (.createRow 0 []),
    op (.request 0 .Equal 1 8000 8000 false false none (fun _ => true) 1),
    op (.eraseKV 0 1 8000),
    op (.removeKey 0 1),
    op .newSet,
    op .newRef,
    op (.addKey 0 1 8000),
    op (.addUniqueKey 0 2 1 true (fun _ _ _ => 0)),
    op (.createRecord 0 0 [(1, 8008), (2, 313)]),
    op (.setAddRecord 1 0),
    op (.createRecord 0 0 [(1, 8016), (2, 417)]),
    op (.setAddRecord 1 0),
    op (.createRecord 0 0 [(1, 8016), (2, 521)]),
    op (.setAddRecord 1 0),
    op (.createRecord 0 0 [(1, 8024), (2, 529)]),
    op (.setAddRecord 1 0),
    op (.createRecord 0 0 [(1, 8032), (2, 633)]),
    op (.setAddRecord 1 0),
    op (.createRecord 0 0 [(1, 8032), (2, 737)]),
    op (.setAddRecord 1 0),
    op (.createRecord 0 0 [(1, 8040), (2, 745)]),
    op (.setAddRecord 1 0),
    res (.request 1 .Interval 1 8016 8032 true true none (fun _ => true) 2) true .Success (some 1) (some 0) (some 0),
    size 2 5,
    rows 2 [[(1, 8016), (2, 417)], [(1, 8016), (2, 521)], [(1, 8024), (2, 529)], [(1, 8032), (2, 633)], [(1, 8032), (2, 737)]],
    op (.refReset 0),
    op (.destroySet 2),
    op (.destroySet 1),
    op (.destroyVault 0)] = true := by decide

/-- VaultRecordSetUnitTests.cpp line 2471: RequestInterval, CorrectRequestWithoutLeftBoundary. -/
theorem conf_set_RequestInterval_CorrectRequestWithoutLeftBoundary : runT Env.id [
    op .newVault,
    op .newSet,
    op (.addKey 0 1 8000),
    op (.createRow 0 []),
    op (.request 0 .Equal 1 8000 8000 false false none (fun _ => true) 1),
    op (.eraseKV 0 1 8000),
    op (.removeKey 0 1),
    op .newSet,
    op .newRef,
    op (.addKey 0 1 8000),
    op (.addUniqueKey 0 2 1 true (fun _ _ _ => 0)),
    op (.createRecord 0 0 [(1, 8008), (2, 313)]),
    op (.setAddRecord 1 0),
    op (.createRecord 0 0 [(1, 8016), (2, 417)]),
    op (.setAddRecord 1 0),
    op (.createRecord 0 0 [(1, 8016), (2, 521)]),
    op (.setAddRecord 1 0),
    op (.createRecord 0 0 [(1, 8024), (2, 529)]),
    op (.setAddRecord 1 0),
    op (.createRecord 0 0 [(1, 8032), (2, 633)]),
    op (.setAddRecord 1 0),
    op (.createRecord 0 0 [(1, 8032), (2, 737)]),
    op (.setAddRecord 1 0),
    op (.createRecord 0 0 [(1, 8040), (2, 745)]),
    op (.setAddRecord 1 0),
    res (.request 1 .Interval 1 8016 8032 false true none (fun _ => true) 2) true .Success (some 1) (some 0) (some 0),
    size 2 3,
    rows 2 [[(1, 8024), (2, 529)], [(1, 8032), (2, 633)], [(1, 8032), (2, 737)]],
    op (.refReset 0),
    op (.destroySet 2),
    op (.destroySet 1),
    op (.destroyVault 0)] = true := by decide

/-- VaultRecordSetUnitTests.cpp line 2510: RequestInterval, CorrectRequestWithoutRightBoundary. -/
theorem conf_set_RequestInterval_CorrectRequestWithoutRightBoundary : runT Env.id [
    op .newVault,
    op .newSet,
    op (.addKey 0 1 8000),
    op (.createRow 0 []),
    op (.request 0 .Equal 1 8000 8000 false false none (fun _ => true) 1),
    op (.eraseKV 0 1 8000),
    op (.removeKey 0 1),
    op .newSet,
    op .newRef,
    op (.addKey 0 1 8000),
    op (.addUniqueKey 0 2 1 true (fun _ _ _ => 0)),
    op (.createRecord 0 0 [(1, 8008), (2, 313)]),
    op (.setAddRecord 1 0),
    op (.createRecord 0 0 [(1, 8016), (2, 417)]),
    op (.setAddRecord 1 0),
    op (.createRecord 0 0 [(1, 8016), (2, 521)]),
    op (.setAddRecord 1 0),
    op (.createRecord 0 0 [(1, 8024), (2, 529)]),
    op (.setAddRecord 1 0),
    op (.createRecord 0 0 [(1, 8032), (2, 633)]),
    op (.setAddRecord 1 0),
    op (.createRecord 0 0 [(1, 8032), (2, 737)]),
    op (.setAddRecord 1 0),
    op (.createRecord 0 0 [(1, 8040), (2, 745)]),
    op (.setAddRecord 1 0),
    res (.request 1 .Interval 1 8016 8032 true false none (fun _ => true) 2) true .Success (some 1) (some 0) (some 0),
    size 2 3,
    rows 2 [[(1, 8016), (2, 417)], [(1, 8016), (2, 521)], [(1, 8024), (2, 529)]],
    op (.refReset 0),
    op (.destroySet 2),
    op (.destroySet 1),
    op (.destroyVault 0)] = true := by decide

/-- VaultRecordSetUnitTests.cpp line 2549: RequestInterval, CorrectRequestWithoutBoundaries. -/
theorem conf_set_RequestInterval_CorrectRequestWithoutBoundaries : runT Env.id [
    op .newVault,
    op .newSet,
    op (.addKey 0 1 8000),
    op (.createRow 0 []),
    op (.request 0 .Equal 1 8000 8000 false false none (fun _ => true) 1),
    op (.eraseKV 0 1 8000),
    op (.removeKey 0 1),
    op .newSet,
    op .newRef,
    op (.addKey 0 1 8000),
    op (.addUniqueKey 0 2 1 true (fun _ _ _ => 0)),
    op (.createRecord 0 0 [(1, 8008), (2, 313)]),
    op (.setAddRecord 1 0),
    op (.createRecord 0 0 [(1, 8016), (2, 417)]),
    op (.setAddRecord 1 0),
    op (.createRecord 0 0 [(1, 8016), (2, 521)]),
    op (.setAddRecord 1 0),
    op (.createRecord 0 0 [(1, 8024), (2, 529)]),
    op (.setAddRecord 1 0),
    op (.createRecord 0 0 [(1, 8032), (2, 633)]),
    op (.setAddRecord 1 0),
    op (.createRecord 0 0 [(1, 8032), (2, 737)]),
    op (.setAddRecord 1 0),
    op (.createRecord 0 0 [(1, 8040), (2, 745)]),
    op (.setAddRecord 1 0),
    res (.request 1 .Interval 1 8016 8032 false false none (fun _ => true) 2) true .Success (some 1) (some 0) (some 0),
    size 2 1,
    rows 2 [[(1, 8024), (2, 529)]],
    op (.refReset 0),
    op (.destroySet 2),
    op (.destroySet 1),
    op (.destroyVault 0)] = true := by decide

/-- VaultRecordSetUnitTests.cpp line 2586: RequestInterval, CorrectRequestNotAllRecords. -/
theorem conf_set_RequestInterval_CorrectRequestNotAllRecords : runT Env.id [
    op .newVault,
    op .newSet,
    op (.addKey 0 1 8000),
    op (.createRow 0 []),
    op (.request 0 .Equal 1 8000 8000 false false none (fun _ => true) 1),
    op (.eraseKV 0 1 8000),
    op (.removeKey 0 1),
    op .newSet,
    op .newRef,
    op (.addKey 0 1 8000),
    op (.addUniqueKey 0 2 1 true (fun _ _ _ => 0)),
    op (.createRecord 0 0 [(1, 8008), (2, 313)]),
    op (.setAddRecord 1 0),
    op (.createRecord 0 0 [(1, 8016), (2, 417)]),
    op (.setAddRecord 1 0),
    op (.createRecord 0 0 [(1, 8016), (2, 521)]),
    op (.setAddRecord 1 0),
    op (.createRecord 0 0 [(1, 8024), (2, 529)]),
    op (.setAddRecord 1 0),
    op (.createRecord 0 0 [(1, 8032), (2, 633)]),
    op (.setAddRecord 1 0),
    op (.createRecord 0 0 [(1, 8032), (2, 737)]),
    op (.setAddRecord 1 0),
    op (.createRecord 0 0 [(1, 8040), (2, 745)]),
    op (.setAddRecord 1 0),
    res (.request 1 .Interval 1 8016 8032 true true (some 3) (fun _ => true) 2) true .Success (some 1) (some 0) (some 0),
    size 2 3,
    res (.request 1 .Interval 1 8016 8032 true true (some 8) (fun _ => true) 2) true .Success (some 1) (some 0) (some 0),
    size 2 5,
    op (.refReset 0),
    op (.destroySet 2),
    op (.destroySet 1),
    op (.destroyVault 0)] = true := by decide

/-- VaultRecordSetUnitTests.cpp line 2627: RequestInterval, CorrectRequestWithPredicat. -/
theorem conf_set_RequestInterval_CorrectRequestWithPredicat : runT Env.id [
    op .newVault,
    op .newSet,
    op (.addKey 0 1 8000),
    op (.createRow 0 []),
    op (.request 0 .Equal 1 8000 8000 false false none (fun _ => true) 1),
    op (.eraseKV 0 1 8000),
    op (.removeKey 0 1),
    op .newSet,
    op .newRef,
    op (.addKey 0 1 8000),
    op (.addUniqueKey 0 2 1 true (fun _ _ _ => 0)),
    op (.createRecord 0 0 [(1, 8008), (2, 313)]),
    op (.setAddRecord 1 0),
    op (.createRecord 0 0 [(1, 8016), (2, 417)]),
    op (.setAddRecord 1 0),
    op (.createRecord 0 0 [(1, 8016), (2, 521)]),
    op (.setAddRecord 1 0),
    op (.createRecord 0 0 [(1, 8024), (2, 529)]),
    op (.setAddRecord 1 0),
    op (.createRecord 0 0 [(1, 8032), (2, 633)]),
    op (.setAddRecord 1 0),
    op (.createRecord 0 0 [(1, 8032), (2, 737)]),
    op (.setAddRecord 1 0),
    op (.createRecord 0 0 [(1, 8040), (2, 745)]),
    op (.setAddRecord 1 0),
    resW (fun w => .request 1 .Interval 1 8016 8032 true true none (fun r => decide ((cell w r 2).any (fun v => decide (v ∈ ([521, 737, 745] : List TV))))) 2) true .Success (some 1) (some 0) (some 0),
    size 2 2,
    rows 2 [[(1, 8016), (2, 521)], [(1, 8032), (2, 737)]],
    op (.refReset 0),
    op (.destroySet 2),
    op (.destroySet 1),
    op (.destroyVault 0)] = true := by decide

/-- VaultRecordSetUnitTests.cpp line 2671: RequestInterval, BoundaryValues. -/
theorem conf_set_RequestInterval_BoundaryValues : runT Env.id [
    op .newVault,
    op .newSet,
    op (.addKey 0 1 8000),
    op (.createRow 0 []),
    op (.request 0 .Equal 1 8000 8000 false false none (fun _ => true) 1),
    op (.eraseKV 0 1 8000),
    op (.removeKey 0 1),
    op .newSet,
    op .newRef,
    op (.addKey 0 1 8000),
    op (.createRecord 0 0 [(1, 8008)]),
    op (.setAddRecord 1 0),
    op (.createRecord 0 0 [(1, 8040)]),
    op (.setAddRecord 1 0),
    op (.createRecord 0 0 [(1, 8072)]),
    op (.setAddRecord 1 0),
    op (.request 1 .Interval 1 7992 8000 true true none (fun _ => true) 2),
    rows 2 [],
    op (.request 1 .Interval 1 7992 8000 false true none (fun _ => true) 2),
    rows 2 [],
    op (.request 1 .Interval 1 7992 8000 true false none (fun _ => true) 2),
    rows 2 [],
    op (.request 1 .Interval 1 7992 8000 false false none (fun _ => true) 2),
    rows 2 [],
    op (.request 1 .Interval 1 7992 8008 true true none (fun _ => true) 2),
    rows 2 [[(1, 8008)]],
    op (.request 1 .Interval 1 7992 8008 false true none (fun _ => true) 2),
    rows 2 [[(1, 8008)]],
    op (.request 1 .Interval 1 7992 8008 true false none (fun _ => true) 2),
    rows 2 [],
    op (.request 1 .Interval 1 7992 8008 false false none (fun _ => true) 2),
    rows 2 [],
    op (.request 1 .Interval 1 7992 8016 true true none (fun _ => true) 2),
    rows 2 [[(1, 8008)]],
    op (.request 1 .Interval 1 7992 8016 false true none (fun _ => true) 2),
    rows 2 [[(1, 8008)]],
    op (.request 1 .Interval 1 7992 8016 true false none (fun _ => true) 2),
    rows 2 [[(1, 8008)]],
    op (.request 1 .Interval 1 7992 8016 false false none (fun _ => true) 2),
    rows 2 [[(1, 8008)]],
    op (.request 1 .Interval 1 8008 8016 true true none (fun _ => true) 2),
    rows 2 [[(1, 8008)]],
    op (.request 1 .Interval 1 8008 8016 false true none (fun _ => true) 2),
    rows 2 [],
    op (.request 1 .Interval 1 8008 8016 true false none (fun _ => true) 2),
    rows 2 [[(1, 8008)]],
    op (.request 1 .Interval 1 8008 8016 false false none (fun _ => true) 2),
    rows 2 [],
    op (.request 1 .Interval 1 8016 8024 true true none (fun _ => true) 2),
    rows 2 [],
    op (.request 1 .Interval 1 8016 8024 false true none (fun _ => true) 2),
    rows 2 [],
    op (.request 1 .Interval 1 8016 8024 true false none (fun _ => true) 2),
    rows 2 [],
    op (.request 1 .Interval 1 8016 8024 false false none (fun _ => true) 2),
    rows 2 [],
    op (.request 1 .Interval 1 8016 8040 true true none (fun _ => true) 2),
    rows 2 [[(1, 8040)]],
    op (.request 1 .Interval 1 8016 8040 false true none (fun _ => true) 2),
    rows 2 [[(1, 8040)]],
    op (.request 1 .Interval 1 8016 8040 true false none (fun _ => true) 2),
    rows 2 [],
    op (.request 1 .Interval 1 8016 8040 false false none (fun _ => true) 2),
    rows 2 [],
    op (.request 1 .Interval 1 8016 8048 true true none (fun _ => true) 2),
    rows 2 [[(1, 8040)]],
    op (.request 1 .Interval 1 8016 8048 false true none (fun _ => true) 2),
    rows 2 [[(1, 8040)]],
    op (.request 1 .Interval 1 8016 8048 true false none (fun _ => true) 2),
    rows 2 [[(1, 8040)]],
    op (.request 1 .Interval 1 8016 8048 false false none (fun _ => true) 2),
    rows 2 [[(1, 8040)]],
    op (.request 1 .Interval 1 8040 8048 true true none (fun _ => true) 2),
    rows 2 [[(1, 8040)]],
    op (.request 1 .Interval 1 8040 8048 false true none (fun _ => true) 2),
    rows 2 [],
    op (.request 1 .Interval 1 8040 8048 true false none (fun _ => true) 2),
    rows 2 [[(1, 8040)]],
    op (.request 1 .Interval 1 8040 8048 false false none (fun _ => true) 2),
    rows 2 [],
    op (.request 1 .Interval 1 8048 8056 true true none (fun _ => true) 2),
    rows 2 [],
    op (.request 1 .Interval 1 8048 8056 false true none (fun _ => true) 2),
    rows 2 [],
    op (.request 1 .Interval 1 8048 8056 true false none (fun _ => true) 2),
    rows 2 [],
    op (.request 1 .Interval 1 8048 8056 false false none (fun _ => true) 2),
    rows 2 [],
    op (.request 1 .Interval 1 8048 8072 true true none (fun _ => true) 2),
    rows 2 [[(1, 8072)]],
    op (.request 1 .Interval 1 8048 8072 false true none (fun _ => true) 2),
    rows 2 [[(1, 8072)]],
    op (.request 1 .Interval 1 8048 8072 true false none (fun _ => true) 2),
    rows 2 [],
    op (.request 1 .Interval 1 8048 8072 false false none (fun _ => true) 2),
    rows 2 [],
    op (.request 1 .Interval 1 8048 8080 true true none (fun _ => true) 2),
    rows 2 [[(1, 8072)]],
    op (.request 1 .Interval 1 8048 8080 false true none (fun _ => true) 2),
    rows 2 [[(1, 8072)]],
    op (.request 1 .Interval 1 8048 8080 true false none (fun _ => true) 2),
    rows 2 [[(1, 8072)]],
    op (.request 1 .Interval 1 8048 8080 false false none (fun _ => true) 2),
    rows 2 [[(1, 8072)]],
    op (.request 1 .Interval 1 8072 8080 true true none (fun _ => true) 2),
    rows 2 [[(1, 8072)]],
    op (.request 1 .Interval 1 8072 8080 false true none (fun _ => true) 2),
    rows 2 [],
    op (.request 1 .Interval 1 8072 8080 true false none (fun _ => true) 2),
    rows 2 [[(1, 8072)]],
    op (.request 1 .Interval 1 8072 8080 false false none (fun _ => true) 2),
    rows 2 [],
    op (.request 1 .Interval 1 8080 8088 true true none (fun _ => true) 2),
    rows 2 [],
    op (.request 1 .Interval 1 8080 8088 false true none (fun _ => true) 2),
    rows 2 [],
    op (.request 1 .Interval 1 8080 8088 true false none (fun _ => true) 2),
    rows 2 [],
    op (.request 1 .Interval 1 8080 8088 false false none (fun _ => true) 2),
    rows 2 [],
    op (.refReset 0),
    op (.destroySet 2),
    op (.destroySet 1),
    op (.destroyVault 0)] = true := by decide

/-- VaultRecordSetUnitTests.cpp line 2870: RequestInterval, SameBoundaries. -/
theorem conf_set_RequestInterval_SameBoundaries : runT Env.id [
    op .newVault,
    op .newSet,
    op (.addKey 0 1 8000),
    op (.createRow 0 []),
    op (.request 0 .Equal 1 8000 8000 false false none (fun _ => true) 1),
    op (.eraseKV 0 1 8000),
    op (.removeKey 0 1),
    op .newSet,
    op .newRef,
    op (.addKey 0 1 8000),
    op (.addUniqueKey 0 2 1 true (fun _ _ _ => 0)),
    op (.createRecord 0 0 [(1, 8008), (2, 313)]),
    op (.setAddRecord 1 0),
    op (.createRecord 0 0 [(1, 8016), (2, 417)]),
    op (.setAddRecord 1 0),
    op (.createRecord 0 0 [(1, 8016), (2, 521)]),
    op (.setAddRecord 1 0),
    op (.createRecord 0 0 [(1, 8024), (2, 529)]),
    op (.setAddRecord 1 0),
    res (.request 1 .Interval 1 8016 8016 true true none (fun _ => true) 2) true .Success (some 1) (some 0) (some 0),
    size 2 2,
    rows 2 [[(1, 8016), (2, 417)], [(1, 8016), (2, 521)]],
    res (.request 1 .Interval 1 8016 8016 false true none (fun _ => true) 2) true .Success (some 1) (some 0) (some 0),
    size 2 0,
    rows 2 [],
    res (.request 1 .Interval 1 8016 8016 true false none (fun _ => true) 2) true .Success (some 1) (some 0) (some 0),
    size 2 0,
    rows 2 [],
    res (.request 1 .Interval 1 8016 8016 false false none (fun _ => true) 2) true .Success (some 1) (some 0) (some 0),
    size 2 0,
    rows 2 [],
    op (.refReset 0),
    op (.destroySet 2),
    op (.destroySet 1),
    op (.destroyVault 0)] = true := by decide

/-- VaultRecordSetUnitTests.cpp line 2929: RequestInterval, IncorrectBoundaries. -/
theorem conf_set_RequestInterval_IncorrectBoundaries : runT Env.id [
    op .newVault,
    op .newSet,
    op (.addKey 0 1 8000),
    op (.createRow 0 []),
    op (.request 0 .Equal 1 8000 8000 false false none (fun _ => true) 1),
    op (.eraseKV 0 1 8000),
    op (.removeKey 0 1),
    op .newSet,
    op .newRef,
    op (.addKey 0 1 8000),
    op (.addUniqueKey 0 2 1 true (fun _ _ _ => 0)),
    op (.createRecord 0 0 [(1, 8008), (2, 313)]),
    op (.setAddRecord 1 0),
    op (.createRecord 0 0 [(1, 8016), (2, 417)]),
    op (.setAddRecord 1 0),
    op (.createRecord 0 0 [(1, 8016), (2, 521)]),
    op (.setAddRecord 1 0),
    op (.createRecord 0 0 [(1, 8024), (2, 529)]),
    op (.setAddRecord 1 0),
    res (.request 1 .Interval 1 8016 7984 true true none (fun _ => true) 2) true .Success (some 1) (some 0) (some 0),
    size 2 0,
    rows 2 [],
    op (.refReset 0),
    op (.destroySet 2),
    op (.destroySet 1),
    op (.destroyVault 0)] = true := by decide

/-- VaultRecordSetUnitTests.cpp line 2957: RequestInterval, WrongKey. -/
theorem conf_set_RequestInterval_WrongKey : runT Env.id [
    op .newVault,
    op .newSet,
    op (.addKey 0 1 8000),
    op (.createRow 0 []),
    op (.request 0 .Equal 1 8000 8000 false false none (fun _ => true) 1),
    op (.eraseKV 0 1 8000),
    op (.removeKey 0 1),
    op .newSet,
    op .newRef,
    op (.addKey 0 1 8000),
    op (.addUniqueKey 0 2 1 true (fun _ _ _ => 0)),
    op (.createRecord 0 0 [(1, 8008), (2, 417)]),
    op (.setAddRecord 1 0),
    op (.createRecord 0 0 [(1, 8016), (2, 521)]),
    op (.setAddRecord 1 0),
    op (.createRecord 0 0 [(1, 8024), (2, 625)]),
    op (.setAddRecord 1 0),
    res (.request 1 .Interval 3 8008 8008 true true none (fun _ => true) 2) false .WrongKey (some 3) (some 0) none,
    size 2 0,
    rows 2 [],
    op (.refReset 0),
    op (.destroySet 2),
    op (.destroySet 1),
    op (.destroyVault 0)] = true := by decide

/-- VaultRecordSetUnitTests.cpp line 2984: RequestInterval, WrongType. -/
theorem conf_set_RequestInterval_WrongType : runT Env.id [
    op .newVault,
    op .newSet,
    op (.addKey 0 1 8000),
    op (.createRow 0 []),
    op (.request 0 .Equal 1 8000 8000 false false none (fun _ => true) 1),
    op (.eraseKV 0 1 8000),
    op (.removeKey 0 1),
    op .newSet,
    op .newRef,
    op (.addKey 0 1 8000),
    op (.addUniqueKey 0 2 1 true (fun _ _ _ => 0)),
    op (.createRecord 0 0 [(1, 8008), (2, 313)]),
    op (.setAddRecord 1 0),
    op (.createRecord 0 0 [(1, 8016), (2, 417)]),
    op (.setAddRecord 1 0),
    op (.createRecord 0 0 [(1, 8024), (2, 521)]),
    op (.setAddRecord 1 0),
    res (.request 1 .Interval 2 8008 8008 true true none (fun _ => true) 2) false .WrongType (some 2) (some 0) (some 1),
    size 2 0,
    rows 2 [],
    op (.refReset 0),
    op (.destroySet 2),
    op (.destroySet 1),
    op (.destroyVault 0)] = true := by decide

/-- VaultRecordSetUnitTests.cpp line 3011: RequestInterval, Self. -/
theorem conf_set_RequestInterval_Self : runT Env.id [
    op .newVault,
    op .newSet,
    op (.addKey 0 1 8000),
    op (.createRow 0 []),
    op (.request 0 .Equal 1 8000 8000 false false none (fun _ => true) 1),
    op (.eraseKV 0 1 8000),
    op (.removeKey 0 1),
    op (.addKey 0 1 8000),
    res (.request 1 .Interval 1 8016 8032 true true none (fun _ => true) 1) false .SameVaultRecordSet (some 1) none none,
    size 1 0,
    rows 1 [],
    op (.destroySet 1),
    op (.destroyVault 0)] = true := by decide

/-- VaultRecordSetUnitTests.cpp line 3028: Request, CorrectRequest. -/
theorem conf_set_Request_CorrectRequest : runT Env.id [
    op .newVault,
    op .newSet,
    op (.addKey 0 1 8000),
    op (.createRow 0 []),
    op (.request 0 .Equal 1 8000 8000 false false none (fun _ => true) 1),
    op (.eraseKV 0 1 8000),
    op (.removeKey 0 1),
    op .newSet,
    op .newRef,
    op (.addKey 0 1 8000),
    op (.createRecord 0 0 [(1, 8000)]),
    op (.setAddRecord 1 0),
    op (.createRecord 0 0 [(1, 8008)]),
    op (.setAddRecord 1 0),
    op (.createRecord 0 0 [(1, 8016)]),
    op (.setAddRecord 1 0),
    op (.createRecord 0 0 [(1, 8024)]),
    op (.setAddRecord 1 0),
    op (.createRecord 0 0 [(1, 8032)]),
    op (.setAddRecord 1 0),
    op (.createRecord 0 0 [(1, 8040)]),
    op (.setAddRecord 1 0),
    op (.createRecord 0 0 [(1, 8048)]),
    op (.setAddRecord 1 0),
    op (.createRecord 0 0 [(1, 8056)]),
    op (.setAddRecord 1 0),
    op (.createRecord 0 0 [(1, 8064)]),
    op (.setAddRecord 1 0),
    op (.createRecord 0 0 [(1, 8072)]),
    op (.setAddRecord 1 0),
    res (.requestTree 1 (.leaf .Equal 1 8016 (fun _ => true)) 2) true .Success none none none,
    rows 2 [[(1, 8016)]],
    res (.requestTree 1 (.leaf .Greater 1 8056 (fun _ => true)) 2) true .Success none none none,
    rows 2 [[(1, 8064)], [(1, 8072)]],
    res (.requestTree 1 (.leaf .GreaterOrEqual 1 8056 (fun _ => true)) 2) true .Success none none none,
    rows 2 [[(1, 8056)], [(1, 8064)], [(1, 8072)]],
    res (.requestTree 1 (.leaf .Less 1 8016 (fun _ => true)) 2) true .Success none none none,
    rows 2 [[(1, 8000)], [(1, 8008)]],
    res (.requestTree 1 (.leaf .LessOrEqual 1 8016 (fun _ => true)) 2) true .Success none none none,
    rows 2 [[(1, 8000)], [(1, 8008)], [(1, 8016)]],
    op (.refReset 0),
    op (.destroySet 2),
    op (.destroySet 1),
    op (.destroyVault 0)] = true := by decide

/-- VaultRecordSetUnitTests.cpp line 3060: Request, CorrectRequestWithPredicat. -/
theorem conf_set_Request_CorrectRequestWithPredicat : runT Env.id [
    op .newVault,
    op .newSet,
    op (.addKey 0 1 8000),
    op (.createRow 0 []),
    op (.request 0 .Equal 1 8000 8000 false false none (fun _ => true) 1),
    op (.eraseKV 0 1 8000),
    op (.removeKey 0 1),
    op .newSet,
    op .newRef,
    op (.addKey 0 1 8000),
    op (.addKey 0 2 8000),
    op (.createRecord 0 0 [(1, 8000), (2, 8800)]),
    op (.setAddRecord 1 0),
    op (.createRecord 0 0 [(1, 8008), (2, 8792)]),
    op (.setAddRecord 1 0),
    op (.createRecord 0 0 [(1, 8016), (2, 8784)]),
    op (.setAddRecord 1 0),
    op (.createRecord 0 0 [(1, 8024), (2, 8776)]),
    op (.setAddRecord 1 0),
    op (.createRecord 0 0 [(1, 8032), (2, 8768)]),
    op (.setAddRecord 1 0),
    op (.createRecord 0 0 [(1, 8040), (2, 8760)]),
    op (.setAddRecord 1 0),
    op (.createRecord 0 0 [(1, 8048), (2, 8752)]),
    op (.setAddRecord 1 0),
    op (.createRecord 0 0 [(1, 8056), (2, 8744)]),
    op (.setAddRecord 1 0),
    op (.createRecord 0 0 [(1, 8064), (2, 8736)]),
    op (.setAddRecord 1 0),
    op (.createRecord 0 0 [(1, 8072), (2, 8728)]),
    op (.setAddRecord 1 0),
    op (.createRecord 0 0 [(1, 8040), (2, 8000)]),
    op (.setAddRecord 1 0),
    op (.createRecord 0 0 [(1, 8040), (2, 8008)]),
    op (.setAddRecord 1 0),
    op (.createRecord 0 0 [(1, 8040), (2, 8016)]),
    op (.setAddRecord 1 0),
    op (.createRecord 0 0 [(1, 8040), (2, 8024)]),
    op (.setAddRecord 1 0),
    resW (fun w => .requestTree 1 (.leaf .Equal 1 8040 (fun r => decide ((cell w r 2).any (fun v => decide (v ∈ ([8000, 8016, 8032, 8048, 8064, 8736, 8752, 8768, 8784, 8800] : List TV)))))) 2) true .Success none none none,
    size 2 2,
    rows 2 [[(1, 8040), (2, 8000)], [(1, 8040), (2, 8016)]],
    resW (fun w => .requestTree 1 (.leaf .Greater 1 8056 (fun r => decide ((cell w r 2).any (fun v => decide (v ∈ ([8000, 8016, 8032, 8048, 8064, 8736, 8752, 8768, 8784, 8800] : List TV)))))) 2) true .Success none none none,
    size 2 1,
    rows 2 [[(1, 8064), (2, 8736)]],
    resW (fun w => .requestTree 1 (.leaf .GreaterOrEqual 1 8056 (fun r => decide ((cell w r 2).any (fun v => decide (v ∈ ([8000, 8016, 8032, 8048, 8064, 8736, 8752, 8768, 8784, 8800] : List TV)))))) 2) true .Success none none none,
    size 2 1,
    rows 2 [[(1, 8064), (2, 8736)]],
    resW (fun w => .requestTree 1 (.leaf .Less 1 8016 (fun r => decide ((cell w r 2).any (fun v => decide (v ∈ ([8000, 8016, 8032, 8048, 8064, 8736, 8752, 8768, 8784, 8800] : List TV)))))) 2) true .Success none none none,
    size 2 1,
    rows 2 [[(1, 8000), (2, 8800)]],
    resW (fun w => .requestTree 1 (.leaf .LessOrEqual 1 8016 (fun r => decide ((cell w r 2).any (fun v => decide (v ∈ ([8000, 8016, 8032, 8048, 8064, 8736, 8752, 8768, 8784, 8800] : List TV)))))) 2) true .Success none none none,
    size 2 2,
    rows 2 [[(1, 8000), (2, 8800)], [(1, 8016), (2, 8784)]],
    op (.refReset 0),
    op (.destroySet 2),
    op (.destroySet 1),
    op (.destroyVault 0)] = true := by decide

/-- VaultRecordSetUnitTests.cpp line 3170: Request, BoundaryValues. -/
theorem conf_set_Request_BoundaryValues : runT Env.id [
    op .newVault,
    op .newSet,
    op (.addKey 0 1 8000),
    op (.createRow 0 []),
    op (.request 0 .Equal 1 8000 8000 false false none (fun _ => true) 1),
    op (.eraseKV 0 1 8000),
    op (.removeKey 0 1),
    op .newSet,
    op .newRef,
    op (.addKey 0 1 8000),
    op (.createRecord 0 0 [(1, 8008)]),
    op (.setAddRecord 1 0),
    op (.createRecord 0 0 [(1, 8024)]),
    op (.setAddRecord 1 0),
    res (.requestTree 1 (.leaf .Greater 1 8000 (fun _ => true)) 2) true .Success none none none,
    rows 2 [[(1, 8008)], [(1, 8024)]],
    res (.requestTree 1 (.leaf .Greater 1 8008 (fun _ => true)) 2) true .Success none none none,
    rows 2 [[(1, 8024)]],
    res (.requestTree 1 (.leaf .Greater 1 8016 (fun _ => true)) 2) true .Success none none none,
    rows 2 [[(1, 8024)]],
    res (.requestTree 1 (.leaf .Greater 1 8024 (fun _ => true)) 2) true .Success none none none,
    rows 2 [],
    res (.requestTree 1 (.leaf .Greater 1 8032 (fun _ => true)) 2) true .Success none none none,
    rows 2 [],
    res (.requestTree 1 (.leaf .GreaterOrEqual 1 8000 (fun _ => true)) 2) true .Success none none none,
    rows 2 [[(1, 8008)], [(1, 8024)]],
    res (.requestTree 1 (.leaf .GreaterOrEqual 1 8008 (fun _ => true)) 2) true .Success none none none,
    rows 2 [[(1, 8008)], [(1, 8024)]],
    res (.requestTree 1 (.leaf .GreaterOrEqual 1 8016 (fun _ => true)) 2) true .Success none none none,
    rows 2 [[(1, 8024)]],
    res (.requestTree 1 (.leaf .GreaterOrEqual 1 8024 (fun _ => true)) 2) true .Success none none none,
    rows 2 [[(1, 8024)]],
    res (.requestTree 1 (.leaf .GreaterOrEqual 1 8032 (fun _ => true)) 2) true .Success none none none,
    rows 2 [],
    res (.requestTree 1 (.leaf .Less 1 8000 (fun _ => true)) 2) true .Success none none none,
    rows 2 [],
    res (.requestTree 1 (.leaf .Less 1 8008 (fun _ => true)) 2) true .Success none none none,
    rows 2 [],
    res (.requestTree 1 (.leaf .Less 1 8016 (fun _ => true)) 2) true .Success none none none,
    rows 2 [[(1, 8008)]],
    res (.requestTree 1 (.leaf .Less 1 8024 (fun _ => true)) 2) true .Success none none none,
    rows 2 [[(1, 8008)]],
    res (.requestTree 1 (.leaf .Less 1 8032 (fun _ => true)) 2) true .Success none none none,
    rows 2 [[(1, 8008)], [(1, 8024)]],
    res (.requestTree 1 (.leaf .LessOrEqual 1 8000 (fun _ => true)) 2) true .Success none none none,
    rows 2 [],
    res (.requestTree 1 (.leaf .LessOrEqual 1 8008 (fun _ => true)) 2) true .Success none none none,
    rows 2 [[(1, 8008)]],
    res (.requestTree 1 (.leaf .LessOrEqual 1 8016 (fun _ => true)) 2) true .Success none none none,
    rows 2 [[(1, 8008)]],
    res (.requestTree 1 (.leaf .LessOrEqual 1 8024 (fun _ => true)) 2) true .Success none none none,
    rows 2 [[(1, 8008)], [(1, 8024)]],
    res (.requestTree 1 (.leaf .LessOrEqual 1 8032 (fun _ => true)) 2) true .Success none none none,
    rows 2 [[(1, 8008)], [(1, 8024)]],
    op (.refReset 0),
    op (.destroySet 2),
    op (.destroySet 1),
    op (.destroyVault 0)] = true := by decide

/-- VaultRecordSetUnitTests.cpp line 3274: Request, WrongKey. -/
theorem conf_set_Request_WrongKey : runT Env.id [
    op .newVault,
    op .newSet,
    op (.addKey 0 1 8000),
    op (.createRow 0 []),
    op (.request 0 .Equal 1 8000 8000 false false none (fun _ => true) 1),
    op (.eraseKV 0 1 8000),
    op (.removeKey 0 1),
    op .newSet,
    op .newRef,
    op (.addKey 0 1 8000),
    op (.createRecord 0 0 [(1, 8000)]),
    op (.setAddRecord 1 0),
    op (.createRecord 0 0 [(1, 8008)]),
    op (.setAddRecord 1 0),
    op (.createRecord 0 0 [(1, 8016)]),
    op (.setAddRecord 1 0),
    op (.createRecord 0 0 [(1, 8024)]),
    op (.setAddRecord 1 0),
    op (.createRecord 0 0 [(1, 8032)]),
    op (.setAddRecord 1 0),
    op (.createRecord 0 0 [(1, 8040)]),
    op (.setAddRecord 1 0),
    op (.createRecord 0 0 [(1, 8048)]),
    op (.setAddRecord 1 0),
    op (.createRecord 0 0 [(1, 8056)]),
    op (.setAddRecord 1 0),
    op (.createRecord 0 0 [(1, 8064)]),
    op (.setAddRecord 1 0),
    op (.createRecord 0 0 [(1, 8072)]),
    op (.setAddRecord 1 0),
    res (.requestTree 1 (.leaf .Equal 2 8016 (fun _ => true)) 2) false .WrongKey (some 2) (some 0) none,
    size 2 0,
    rows 2 [],
    res (.requestTree 1 (.leaf .Greater 2 8056 (fun _ => true)) 2) false .WrongKey (some 2) (some 0) none,
    size 2 0,
    rows 2 [],
    res (.requestTree 1 (.leaf .GreaterOrEqual 2 8056 (fun _ => true)) 2) false .WrongKey (some 2) (some 0) none,
    size 2 0,
    rows 2 [],
    res (.requestTree 1 (.leaf .Less 2 8016 (fun _ => true)) 2) false .WrongKey (some 2) (some 0) none,
    size 2 0,
    rows 2 [],
    res (.requestTree 1 (.leaf .LessOrEqual 2 8016 (fun _ => true)) 2) false .WrongKey (some 2) (some 0) none,
    size 2 0,
    rows 2 [],
    op (.refReset 0),
    op (.destroySet 2),
    op (.destroySet 1),
    op (.destroyVault 0)] = true := by decide

/-- VaultRecordSetUnitTests.cpp line 3344: Request, WrongType. -/
theorem conf_set_Request_WrongType : runT Env.id [
    op .newVault,
    op .newSet,
    op (.addKey 0 1 8000),
    op (.createRow 0 []),
    op (.request 0 .Equal 1 8000 8000 false false none (fun _ => true) 1),
    op (.eraseKV 0 1 8000),
    op (.removeKey 0 1),
    op .newSet,
    op .newRef,
    op (.addKey 0 1 8000),
    op (.createRow 0 [(1, 8000)]),
    op (.createRow 0 [(1, 8008)]),
    op (.createRow 0 [(1, 8016)]),
    op (.createRow 0 [(1, 8024)]),
    op (.createRow 0 [(1, 8032)]),
    op (.createRow 0 [(1, 8040)]),
    op (.createRow 0 [(1, 8048)]),
    op (.createRow 0 [(1, 8056)]),
    op (.createRow 0 [(1, 8064)]),
    op (.createRow 0 [(1, 8072)]),
    res (.requestTree 1 (.leaf .Equal 1 1 (fun _ => true)) 2) false .WrongType (some 1) (some 1) (some 0),
    size 2 0,
    rows 2 [],
    res (.requestTree 1 (.leaf .Greater 1 1 (fun _ => true)) 2) false .WrongType (some 1) (some 1) (some 0),
    size 2 0,
    rows 2 [],
    res (.requestTree 1 (.leaf .GreaterOrEqual 1 1 (fun _ => true)) 2) false .WrongType (some 1) (some 1) (some 0),
    size 2 0,
    rows 2 [],
    res (.requestTree 1 (.leaf .Less 1 1 (fun _ => true)) 2) false .WrongType (some 1) (some 1) (some 0),
    size 2 0,
    rows 2 [],
    res (.requestTree 1 (.leaf .LessOrEqual 1 1 (fun _ => true)) 2) false .WrongType (some 1) (some 1) (some 0),
    size 2 0,
    rows 2 [],
    op (.refReset 0),
    op (.destroySet 2),
    op (.destroySet 1),
    op (.destroyVault 0)] = true := by decide

/-- VaultRecordSetUnitTests.cpp line 3411: Request, ComplexRequestAnd. -/
theorem conf_set_Request_ComplexRequestAnd : runT Env.id [
    op .newVault,
    op .newSet,
    op (.addKey 0 1 8000),
    op (.createRow 0 []),
    op (.request 0 .Equal 1 8000 8000 false false none (fun _ => true) 1),
    op (.eraseKV 0 1 8000),
    op (.removeKey 0 1),
    op .newSet,
    op .newRef,
    op (.addKey 0 1 8000),
    op (.addKey 0 2 8000),
    op (.createRecord 0 0 [(1, 8000), (2, 8000)]),
    op (.setAddRecord 1 0),
    op (.createRecord 0 0 [(1, 8008), (2, 8008)]),
    op (.setAddRecord 1 0),
    op (.createRecord 0 0 [(1, 8016), (2, 8016)]),
    op (.setAddRecord 1 0),
    op (.createRecord 0 0 [(1, 8024), (2, 8024)]),
    op (.setAddRecord 1 0),
    op (.createRecord 0 0 [(1, 8032), (2, 8032)]),
    op (.setAddRecord 1 0),
    op (.createRecord 0 0 [(1, 8040), (2, 8040)]),
    op (.setAddRecord 1 0),
    op (.createRecord 0 0 [(1, 8048), (2, 8048)]),
    op (.setAddRecord 1 0),
    op (.createRecord 0 0 [(1, 8056), (2, 8056)]),
    op (.setAddRecord 1 0),
    op (.createRecord 0 0 [(1, 8064), (2, 8064)]),
    op (.setAddRecord 1 0),
    op (.createRecord 0 0 [(1, 8072), (2, 8072)]),
    op (.setAddRecord 1 0),
    res (.requestTree 1 (.and (.leaf .Equal 1 8016 (fun _ => true)) (.leaf .Equal 2 8016 (fun _ => true))) 2) true .Success none none none,
    rows 2 [[(1, 8016), (2, 8016)]],
    res (.requestTree 1 (.and (.leaf .Equal 1 8016 (fun _ => true)) (.leaf .Equal 2 8024 (fun _ => true))) 2) true .Success none none none,
    rows 2 [],
    res (.requestTree 1 (.and (.leaf .Equal 1 8016 (fun _ => true)) (.leaf .Greater 2 8008 (fun _ => true))) 2) true .Success none none none,
    rows 2 [[(1, 8016), (2, 8016)]],
    res (.requestTree 1 (.and (.leaf .Equal 1 8016 (fun _ => true)) (.leaf .GreaterOrEqual 2 8016 (fun _ => true))) 2) true .Success none none none,
    rows 2 [[(1, 8016), (2, 8016)]],
    res (.requestTree 1 (.and (.leaf .Equal 1 8016 (fun _ => true)) (.leaf .Less 2 8040 (fun _ => true))) 2) true .Success none none none,
    rows 2 [[(1, 8016), (2, 8016)]],
    res (.requestTree 1 (.and (.leaf .Equal 1 8016 (fun _ => true)) (.leaf .LessOrEqual 2 8016 (fun _ => true))) 2) true .Success none none none,
    rows 2 [[(1, 8016), (2, 8016)]],
    res (.requestTree 1 (.and (.leaf .Greater 1 8016 (fun _ => true)) (.leaf .Equal 2 8072 (fun _ => true))) 2) true .Success none none none,
    rows 2 [[(1, 8072), (2, 8072)]],
    res (.requestTree 1 (.and (.leaf .Greater 1 8056 (fun _ => true)) (.leaf .Greater 2 8008 (fun _ => true))) 2) true .Success none none none,
    rows 2 [[(1, 8064), (2, 8064)], [(1, 8072), (2, 8072)]],
    res (.requestTree 1 (.and (.leaf .Greater 1 8064 (fun _ => true)) (.leaf .GreaterOrEqual 2 8064 (fun _ => true))) 2) true .Success none none none,
    rows 2 [[(1, 8072), (2, 8072)]],
    res (.requestTree 1 (.and (.leaf .Greater 1 8016 (fun _ => true)) (.leaf .Less 2 8032 (fun _ => true))) 2) true .Success none none none,
    rows 2 [[(1, 8024), (2, 8024)]],
    res (.requestTree 1 (.and (.leaf .Greater 1 8016 (fun _ => true)) (.leaf .LessOrEqual 2 8024 (fun _ => true))) 2) true .Success none none none,
    rows 2 [[(1, 8024), (2, 8024)]],
    res (.requestTree 1 (.and (.leaf .GreaterOrEqual 1 8016 (fun _ => true)) (.leaf .Equal 2 8040 (fun _ => true))) 2) true .Success none none none,
    rows 2 [[(1, 8040), (2, 8040)]],
    res (.requestTree 1 (.and (.leaf .GreaterOrEqual 1 8064 (fun _ => true)) (.leaf .Greater 2 8008 (fun _ => true))) 2) true .Success none none none,
    rows 2 [[(1, 8064), (2, 8064)], [(1, 8072), (2, 8072)]],
    res (.requestTree 1 (.and (.leaf .GreaterOrEqual 1 8064 (fun _ => true)) (.leaf .GreaterOrEqual 2 8072 (fun _ => true))) 2) true .Success none none none,
    rows 2 [[(1, 8072), (2, 8072)]],
    res (.requestTree 1 (.and (.leaf .GreaterOrEqual 1 8016 (fun _ => true)) (.leaf .Less 2 8032 (fun _ => true))) 2) true .Success none none none,
    rows 2 [[(1, 8016), (2, 8016)], [(1, 8024), (2, 8024)]],
    res (.requestTree 1 (.and (.leaf .GreaterOrEqual 1 8016 (fun _ => true)) (.leaf .LessOrEqual 2 8024 (fun _ => true))) 2) true .Success none none none,
    rows 2 [[(1, 8016), (2, 8016)], [(1, 8024), (2, 8024)]],
    res (.requestTree 1 (.and (.leaf .Less 1 8056 (fun _ => true)) (.leaf .Equal 2 8040 (fun _ => true))) 2) true .Success none none none,
    rows 2 [[(1, 8040), (2, 8040)]],
    res (.requestTree 1 (.and (.leaf .Less 1 8024 (fun _ => true)) (.leaf .Greater 2 8008 (fun _ => true))) 2) true .Success none none none,
    rows 2 [[(1, 8016), (2, 8016)]],
    res (.requestTree 1 (.and (.leaf .Less 1 8064 (fun _ => true)) (.leaf .GreaterOrEqual 2 8056 (fun _ => true))) 2) true .Success none none none,
    rows 2 [[(1, 8056), (2, 8056)]],
    res (.requestTree 1 (.and (.leaf .Less 1 8016 (fun _ => true)) (.leaf .Less 2 8032 (fun _ => true))) 2) true .Success none none none,
    rows 2 [[(1, 8000), (2, 8000)], [(1, 8008), (2, 8008)]],
    res (.requestTree 1 (.and (.leaf .Less 1 8016 (fun _ => true)) (.leaf .LessOrEqual 2 8008 (fun _ => true))) 2) true .Success none none none,
    rows 2 [[(1, 8000), (2, 8000)], [(1, 8008), (2, 8008)]],
    res (.requestTree 1 (.and (.leaf .LessOrEqual 1 8056 (fun _ => true)) (.leaf .Equal 2 8040 (fun _ => true))) 2) true .Success none none none,
    rows 2 [[(1, 8040), (2, 8040)]],
    res (.requestTree 1 (.and (.leaf .LessOrEqual 1 8024 (fun _ => true)) (.leaf .Greater 2 8016 (fun _ => true))) 2) true .Success none none none,
    rows 2 [[(1, 8024), (2, 8024)]],
    res (.requestTree 1 (.and (.leaf .LessOrEqual 1 8064 (fun _ => true)) (.leaf .GreaterOrEqual 2 8064 (fun _ => true))) 2) true .Success none none none,
    rows 2 [[(1, 8064), (2, 8064)]],
    res (.requestTree 1 (.and (.leaf .LessOrEqual 1 8016 (fun _ => true)) (.leaf .Less 2 8032 (fun _ => true))) 2) true .Success none none none,
    rows 2 [[(1, 8000), (2, 8000)], [(1, 8008), (2, 8008)], [(1, 8016), (2, 8016)]],
    res (.requestTree 1 (.and (.leaf .LessOrEqual 1 8016 (fun _ => true)) (.leaf .LessOrEqual 2 8008 (fun _ => true))) 2) true .Success none none none,
    rows 2 [[(1, 8000), (2, 8000)], [(1, 8008), (2, 8008)]],
    op (.refReset 0),
    op (.destroySet 2),
    op (.destroySet 1),
    op (.destroyVault 0)] = true := by decide

/-- VaultRecordSetUnitTests.cpp line 3490: Request, ComplexRequestOr. -/
theorem conf_set_Request_ComplexRequestOr : runT Env.id [
    op .newVault,
    op .newSet,
    op (.addKey 0 1 8000),
    op (.createRow 0 []),
    op (.request 0 .Equal 1 8000 8000 false false none (fun _ => true) 1),
    op (.eraseKV 0 1 8000),
    op (.removeKey 0 1),
    op .newSet,
    op .newRef,
    op (.addKey 0 1 8000),
    op (.addKey 0 2 8000),
    op (.createRecord 0 0 [(1, 8000), (2, 8000)]),
    op (.setAddRecord 1 0),
    op (.createRecord 0 0 [(1, 8008), (2, 8008)]),
    op (.setAddRecord 1 0),
    op (.createRecord 0 0 [(1, 8016), (2, 8016)]),
    op (.setAddRecord 1 0),
    op (.createRecord 0 0 [(1, 8024), (2, 8024)]),
    op (.setAddRecord 1 0),
    op (.createRecord 0 0 [(1, 8032), (2, 8032)]),
    op (.setAddRecord 1 0),
    op (.createRecord 0 0 [(1, 8040), (2, 8040)]),
    op (.setAddRecord 1 0),
    op (.createRecord 0 0 [(1, 8048), (2, 8048)]),
    op (.setAddRecord 1 0),
    op (.createRecord 0 0 [(1, 8056), (2, 8056)]),
    op (.setAddRecord 1 0),
    op (.createRecord 0 0 [(1, 8064), (2, 8064)]),
    op (.setAddRecord 1 0),
    op (.createRecord 0 0 [(1, 8072), (2, 8072)]),
    op (.setAddRecord 1 0),
    res (.requestTree 1 (.or (.leaf .Equal 1 8016 (fun _ => true)) (.leaf .Equal 2 8024 (fun _ => true))) 2) true .Success none none none,
    rows 2 [[(1, 8016), (2, 8016)], [(1, 8024), (2, 8024)]],
    res (.requestTree 1 (.or (.leaf .Equal 1 8016 (fun _ => true)) (.leaf .Greater 2 8064 (fun _ => true))) 2) true .Success none none none,
    rows 2 [[(1, 8016), (2, 8016)], [(1, 8072), (2, 8072)]],
    res (.requestTree 1 (.or (.leaf .Equal 1 8016 (fun _ => true)) (.leaf .GreaterOrEqual 2 8072 (fun _ => true))) 2) true .Success none none none,
    rows 2 [[(1, 8016), (2, 8016)], [(1, 8072), (2, 8072)]],
    res (.requestTree 1 (.or (.leaf .Equal 1 8016 (fun _ => true)) (.leaf .Less 2 8016 (fun _ => true))) 2) true .Success none none none,
    rows 2 [[(1, 8000), (2, 8000)], [(1, 8008), (2, 8008)], [(1, 8016), (2, 8016)]],
    res (.requestTree 1 (.or (.leaf .Equal 1 8016 (fun _ => true)) (.leaf .LessOrEqual 2 8008 (fun _ => true))) 2) true .Success none none none,
    rows 2 [[(1, 8000), (2, 8000)], [(1, 8008), (2, 8008)], [(1, 8016), (2, 8016)]],
    res (.requestTree 1 (.or (.leaf .Greater 1 8064 (fun _ => true)) (.leaf .Equal 2 8000 (fun _ => true))) 2) true .Success none none none,
    rows 2 [[(1, 8000), (2, 8000)], [(1, 8072), (2, 8072)]],
    res (.requestTree 1 (.or (.leaf .Greater 1 8064 (fun _ => true)) (.leaf .Greater 2 8080 (fun _ => true))) 2) true .Success none none none,
    rows 2 [[(1, 8072), (2, 8072)]],
    res (.requestTree 1 (.or (.leaf .Greater 1 8064 (fun _ => true)) (.leaf .GreaterOrEqual 2 8072 (fun _ => true))) 2) true .Success none none none,
    rows 2 [[(1, 8072), (2, 8072)]],
    res (.requestTree 1 (.or (.leaf .Greater 1 8064 (fun _ => true)) (.leaf .Less 2 8008 (fun _ => true))) 2) true .Success none none none,
    rows 2 [[(1, 8000), (2, 8000)], [(1, 8072), (2, 8072)]],
    res (.requestTree 1 (.or (.leaf .Greater 1 8064 (fun _ => true)) (.leaf .LessOrEqual 2 8000 (fun _ => true))) 2) true .Success none none none,
    rows 2 [[(1, 8000), (2, 8000)], [(1, 8072), (2, 8072)]],
    res (.requestTree 1 (.or (.leaf .GreaterOrEqual 1 8072 (fun _ => true)) (.leaf .Equal 2 8040 (fun _ => true))) 2) true .Success none none none,
    rows 2 [[(1, 8040), (2, 8040)], [(1, 8072), (2, 8072)]],
    res (.requestTree 1 (.or (.leaf .GreaterOrEqual 1 8064 (fun _ => true)) (.leaf .Greater 2 8064 (fun _ => true))) 2) true .Success none none none,
    rows 2 [[(1, 8064), (2, 8064)], [(1, 8072), (2, 8072)]],
    res (.requestTree 1 (.or (.leaf .GreaterOrEqual 1 8064 (fun _ => true)) (.leaf .GreaterOrEqual 2 8072 (fun _ => true))) 2) true .Success none none none,
    rows 2 [[(1, 8064), (2, 8064)], [(1, 8072), (2, 8072)]],
    res (.requestTree 1 (.or (.leaf .GreaterOrEqual 1 8072 (fun _ => true)) (.leaf .Less 2 8008 (fun _ => true))) 2) true .Success none none none,
    rows 2 [[(1, 8000), (2, 8000)], [(1, 8072), (2, 8072)]],
    res (.requestTree 1 (.or (.leaf .GreaterOrEqual 1 8072 (fun _ => true)) (.leaf .LessOrEqual 2 8000 (fun _ => true))) 2) true .Success none none none,
    rows 2 [[(1, 8000), (2, 8000)], [(1, 8072), (2, 8072)]],
    res (.requestTree 1 (.or (.leaf .Less 1 8008 (fun _ => true)) (.leaf .Equal 2 8040 (fun _ => true))) 2) true .Success none none none,
    rows 2 [[(1, 8000), (2, 8000)], [(1, 8040), (2, 8040)]],
    res (.requestTree 1 (.or (.leaf .Less 1 8008 (fun _ => true)) (.leaf .Greater 2 8064 (fun _ => true))) 2) true .Success none none none,
    rows 2 [[(1, 8000), (2, 8000)], [(1, 8072), (2, 8072)]],
    res (.requestTree 1 (.or (.leaf .Less 1 8008 (fun _ => true)) (.leaf .GreaterOrEqual 2 8072 (fun _ => true))) 2) true .Success none none none,
    rows 2 [[(1, 8000), (2, 8000)], [(1, 8072), (2, 8072)]],
    res (.requestTree 1 (.or (.leaf .Less 1 8016 (fun _ => true)) (.leaf .Less 2 8008 (fun _ => true))) 2) true .Success none none none,
    rows 2 [[(1, 8000), (2, 8000)], [(1, 8008), (2, 8008)]],
    res (.requestTree 1 (.or (.leaf .Less 1 8008 (fun _ => true)) (.leaf .LessOrEqual 2 8008 (fun _ => true))) 2) true .Success none none none,
    rows 2 [[(1, 8000), (2, 8000)], [(1, 8008), (2, 8008)]],
    res (.requestTree 1 (.or (.leaf .LessOrEqual 1 8008 (fun _ => true)) (.leaf .Equal 2 8040 (fun _ => true))) 2) true .Success none none none,
    rows 2 [[(1, 8000), (2, 8000)], [(1, 8008), (2, 8008)], [(1, 8040), (2, 8040)]],
    res (.requestTree 1 (.or (.leaf .LessOrEqual 1 8008 (fun _ => true)) (.leaf .Greater 2 8064 (fun _ => true))) 2) true .Success none none none,
    rows 2 [[(1, 8000), (2, 8000)], [(1, 8008), (2, 8008)], [(1, 8072), (2, 8072)]],
    res (.requestTree 1 (.or (.leaf .LessOrEqual 1 8008 (fun _ => true)) (.leaf .GreaterOrEqual 2 8072 (fun _ => true))) 2) true .Success none none none,
    rows 2 [[(1, 8000), (2, 8000)], [(1, 8008), (2, 8008)], [(1, 8072), (2, 8072)]],
    res (.requestTree 1 (.or (.leaf .LessOrEqual 1 8008 (fun _ => true)) (.leaf .Less 2 8024 (fun _ => true))) 2) true .Success none none none,
    rows 2 [[(1, 8000), (2, 8000)], [(1, 8008), (2, 8008)], [(1, 8016), (2, 8016)]],
    res (.requestTree 1 (.or (.leaf .LessOrEqual 1 8016 (fun _ => true)) (.leaf .LessOrEqual 2 8008 (fun _ => true))) 2) true .Success none none none,
    rows 2 [[(1, 8000), (2, 8000)], [(1, 8008), (2, 8008)], [(1, 8016), (2, 8016)]],
    op (.refReset 0),
    op (.destroySet 2),
    op (.destroySet 1),
    op (.destroyVault 0)] = true := by decide

/-- VaultRecordSetUnitTests.cpp line 3567: Request, ComplexRequest. -/
theorem conf_set_Request_ComplexRequest : runT Env.id [
    op .newVault,
    op .newSet,
    op (.addKey 0 1 8000),
    op (.createRow 0 []),
    op (.request 0 .Equal 1 8000 8000 false false none (fun _ => true) 1),
    op (.eraseKV 0 1 8000),
    op (.removeKey 0 1),
    op .newSet,
    op .newRef,
    op (.addKey 0 1 8000),
    op (.addKey 0 2 8000),
    op (.addKey 0 3 1),
    op (.addKey 0 4 3),
    op (.createRecord 0 0 [(1, 8000), (2, 8000), (3, 9)]),
    op (.setAddRecord 1 0),
    op (.createRecord 0 0 [(1, 8008), (2, 8008), (3, 17)]),
    op (.setAddRecord 1 0),
    op (.createRecord 0 0 [(1, 8016), (2, 8016), (3, 41)]),
    op (.setAddRecord 1 0),
    op (.createRecord 0 0 [(1, 8024), (2, 8024), (3, 49)]),
    op (.setAddRecord 1 0),
    op (.createRecord 0 0 [(1, 8032), (2, 8032), (3, 153)]),
    op (.setAddRecord 1 0),
    op (.createRecord 0 0 [(1, 8040), (2, 8040), (3, 257)]),
    op (.setAddRecord 1 0),
    op (.refSetData 0 4 11),
    op (.createRecord 0 0 [(1, 8048), (2, 8048), (3, 361)]),
    op (.setAddRecord 1 0),
    op (.createRecord 0 0 [(1, 8056), (2, 8056), (3, 369)]),
    op (.setAddRecord 1 0),
    op (.createRecord 0 0 [(1, 8064), (2, 8064), (3, 377)]),
    op (.setAddRecord 1 0),
    op (.createRecord 0 0 [(1, 8072), (2, 8072), (3, 385)]),
    op (.setAddRecord 1 0),
    op (.refSetData 0 4 11),
    op (.requestTree 1 (.or (.and (.and (.leaf .Greater 1 8016 (fun _ => true)) (.leaf .Less 2 8064 (fun _ => true))) (.or (.leaf .Equal 3 49 (fun _ => true)) (.leaf .Equal 3 153 (fun _ => true)))) (.leaf .Equal 4 11 (fun _ => true))) 2),
    rows 2 [[(1, 8024), (2, 8024), (3, 49), (4, 3)], [(1, 8032), (2, 8032), (3, 153), (4, 3)], [(1, 8040), (2, 8040), (3, 257), (4, 11)], [(1, 8072), (2, 8072), (3, 385), (4, 11)]],
    op (.refReset 0),
    op (.destroySet 2),
    op (.destroySet 1),
    op (.destroyVault 0)] = true := by decide

/-- VaultRecordSetUnitTests.cpp line 3596: Request, ComplexRequestWrongKey. -/
theorem conf_set_Request_ComplexRequestWrongKey : runT Env.id [
    op .newVault,
    op .newSet,
    op (.addKey 0 1 8000),
    op (.createRow 0 []),
    op (.request 0 .Equal 1 8000 8000 false false none (fun _ => true) 1),
    op (.eraseKV 0 1 8000),
    op (.removeKey 0 1),
    op .newSet,
    op .newRef,
    op (.addKey 0 1 8000),
    op (.addKey 0 2 8000),
    op (.createRecord 0 0 [(1, 8000), (2, 8000)]),
    op (.setAddRecord 1 0),
    op (.createRecord 0 0 [(1, 8008), (2, 8008)]),
    op (.setAddRecord 1 0),
    op (.createRecord 0 0 [(1, 8016), (2, 8016)]),
    op (.setAddRecord 1 0),
    op (.createRecord 0 0 [(1, 8024), (2, 8024)]),
    op (.setAddRecord 1 0),
    op (.createRecord 0 0 [(1, 8032), (2, 8032)]),
    op (.setAddRecord 1 0),
    op (.createRecord 0 0 [(1, 8040), (2, 8040)]),
    op (.setAddRecord 1 0),
    op (.createRecord 0 0 [(1, 8048), (2, 8048)]),
    op (.setAddRecord 1 0),
    op (.createRecord 0 0 [(1, 8056), (2, 8056)]),
    op (.setAddRecord 1 0),
    op (.createRecord 0 0 [(1, 8064), (2, 8064)]),
    op (.setAddRecord 1 0),
    op (.createRecord 0 0 [(1, 8072), (2, 8072)]),
    op (.setAddRecord 1 0),
    res (.requestTree 1 (.and (.leaf .Equal 1 8000 (fun _ => true)) (.leaf .Equal 3 8000 (fun _ => true))) 2) false .WrongKey (some 3) (some 0) none,
    size 2 0,
    rows 2 [],
    res (.requestTree 1 (.and (.leaf .Equal 3 8000 (fun _ => true)) (.leaf .Equal 4 8000 (fun _ => true))) 2) false .WrongKey (some 3) (some 0) none,
    size 2 0,
    rows 2 [],
    op (.refReset 0),
    op (.destroySet 2),
    op (.destroySet 1),
    op (.destroyVault 0)] = true := by decide

/-- VaultRecordSetUnitTests.cpp line 3632: Request, ComplexRequestWrongType. -/
theorem conf_set_Request_ComplexRequestWrongType : runT Env.id [
    op .newVault,
    op .newSet,
    op (.addKey 0 1 8000),
    op (.createRow 0 []),
    op (.request 0 .Equal 1 8000 8000 false false none (fun _ => true) 1),
    op (.eraseKV 0 1 8000),
    op (.removeKey 0 1),
    op .newSet,
    op .newRef,
    op (.addKey 0 1 8000),
    op (.addKey 0 2 8000),
    op (.createRecord 0 0 [(1, 8000), (2, 8000)]),
    op (.setAddRecord 1 0),
    op (.createRecord 0 0 [(1, 8008), (2, 8008)]),
    op (.setAddRecord 1 0),
    op (.createRecord 0 0 [(1, 8016), (2, 8016)]),
    op (.setAddRecord 1 0),
    op (.createRecord 0 0 [(1, 8024), (2, 8024)]),
    op (.setAddRecord 1 0),
    op (.createRecord 0 0 [(1, 8032), (2, 8032)]),
    op (.setAddRecord 1 0),
    op (.createRecord 0 0 [(1, 8040), (2, 8040)]),
    op (.setAddRecord 1 0),
    op (.createRecord 0 0 [(1, 8048), (2, 8048)]),
    op (.setAddRecord 1 0),
    op (.createRecord 0 0 [(1, 8056), (2, 8056)]),
    op (.setAddRecord 1 0),
    op (.createRecord 0 0 [(1, 8064), (2, 8064)]),
    op (.setAddRecord 1 0),
    op (.createRecord 0 0 [(1, 8072), (2, 8072)]),
    op (.setAddRecord 1 0),
    res (.requestTree 1 (.and (.leaf .Equal 1 8000 (fun _ => true)) (.leaf .Equal 2 1 (fun _ => true))) 2) false .WrongType (some 2) (some 1) (some 0),
    size 2 0,
    rows 2 [],
    res (.requestTree 1 (.and (.leaf .Equal 1 1 (fun _ => true)) (.leaf .Equal 2 8000 (fun _ => true))) 2) false .WrongType (some 1) (some 1) (some 0),
    size 2 0,
    rows 2 [],
    op (.refReset 0),
    op (.destroySet 2),
    op (.destroySet 1),
    op (.destroyVault 0)] = true := by decide

/-- VaultRecordSetUnitTests.cpp line 3787: CheckRecord, InvalidRef. -/
theorem conf_set_CheckRecord_InvalidRef : runT Env.id [
    op .newVault,
    op .newSet,
    op (.addKey 0 1 8000),
    op (.createRow 0 []),
    op (.request 0 .Equal 1 8000 8000 false false none (fun _ => true) 1),
    op (.eraseKV 0 1 8000),
    op (.removeKey 0 1),
    op .newRef,
    has 1 0 false,
    op (.refReset 0),
    op (.destroySet 1),
    op (.destroyVault 0)] = true := by decide

/-- VaultRecordSetUnitTests.cpp line 3795: CheckRecord, WrongRef. -/
theorem conf_set_CheckRecord_WrongRef : runT Env.id [
    op .newVault,
    op .newSet,
    op (.addKey 0 1 8000),
    op (.createRow 0 []),
    op (.request 0 .Equal 1 8000 8000 false false none (fun _ => true) 1),
    op (.eraseKV 0 1 8000),
    op (.removeKey 0 1),
    op .newSet,
    op .newRef,
    op (.addKey 0 1 8000),
    op (.createRow 0 []),
    op (.request 0 .Equal 1 8000 8000 false false none (fun _ => true) 1),
    op (.setGetRecord 1 1 8000 0),
    has 2 0 false,
    op (.refReset 0),
    op (.destroySet 2),
    op (.destroySet 1),
    op (.destroyVault 0)] = true := by decide

/-- VaultRecordSetUnitTests.cpp line 3809: CheckRecord, Correct. -/
theorem conf_set_CheckRecord_Correct : runT Env.id [
    op .newVault,
    op .newSet,
    op .newRef,
    op (.addKey 0 1 8000),
    op (.createRow 0 []),
    op (.request 0 .Equal 1 8000 8000 false false none (fun _ => true) 1),
    op (.setGetRecord 1 1 8000 0),
    has 1 0 true,
    op (.refReset 0),
    op (.destroySet 1),
    op (.destroyVault 0)] = true := by decide

/-- VaultRecordSetUnitTests.cpp line 3823: Reset, InvalidSet. -/
theorem conf_set_Reset_InvalidSet : runT Env.id [
    op .newSet,
    op (.setReset 0),
    parentValid 0 false,
    parentValid 0 false,
    op (.destroySet 0)] = true := by decide

/-- VaultRecordSetUnitTests.cpp line 3831: Reset, EmptySet. -/
theorem conf_set_Reset_EmptySet : runT Env.id [
    op .newVault,
    op .newSet,
    op (.addKey 0 1 8000),
    op (.createRow 0 []),
    op (.request 0 .Equal 1 8000 8000 false false none (fun _ => true) 1),
    op (.eraseKV 0 1 8000),
    op (.removeKey 0 1),
    op (.setReset 1),
    parentValid 1 false,
    parentValid 1 false,
    keys 1 [],
    uniq 1 [],
    rows 1 [],
    op (.destroySet 1),
    op (.destroyVault 0)] = true := by decide

/-- VaultRecordSetUnitTests.cpp line 3843: Reset, FilledSet. -/
theorem conf_set_Reset_FilledSet : runT Env.id [
    op .newVault,
    op .newSet,
    op (.addKey 0 1 8000),
    op (.createRow 0 []),
    op (.request 0 .Equal 1 8000 8000 false false none (fun _ => true) 1),
    op (.setReset 1),
    parentValid 1 false,
    parentValid 1 false,
    keys 1 [],
    uniq 1 [],
    rows 1 [],
    op (.destroySet 1),
    op (.destroyVault 0)] = true := by decide

/-- VaultRecordSetUnitTests.cpp line 3860: Clear, InvalidSet. -/
theorem conf_set_Clear_InvalidSet : runT Env.id [
    op .newSet,
    op (.setClear 0),
    parentValid 0 false,
    parentValid 0 false,
    op (.destroySet 0)] = true := by decide

/-- VaultRecordSetUnitTests.cpp line 3868: Clear, EmptySet. -/
theorem conf_set_Clear_EmptySet : runT Env.id [
    op .newVault,
    op .newSet,
    op (.addKey 0 1 8000),
    op (.createRow 0 []),
    op (.request 0 .Equal 1 8000 8000 false false none (fun _ => true) 1),
    op (.eraseKV 0 1 8000),
    op (.removeKey 0 1),
    op (.setClear 1),
    parentValid 1 true,
    keys 1 [],
    uniq 1 [],
    rows 1 [],
    op (.destroySet 1),
    op (.destroyVault 0)] = true := by decide

/-- VaultRecordSetUnitTests.cpp line 3879: Clear, FilledSet. -/
theorem conf_set_Clear_FilledSet : runT Env.id [
    op .newVault,
    op .newSet,
    op (.addKey 0 1 8000),
    op (.addUniqueKey 0 2 1 true (fun _ _ _ => 0)),
    op (.createRow 0 [(1, 8008), (2, 313)]),
    op (.request 0 .Equal 1 8008 8008 false false none (fun _ => true) 1),
    rows 1 [[(1, 8008), (2, 313)]],
    op (.setClear 1),
    parentValid 1 true,
    keys 1 [1, 2],
    uniq 1 [2],
    rows 1 [],
    op (.destroySet 1),
    op (.destroyVault 0)] = true := by decide

/-- VaultRecordSetUnitTests.cpp line 3899: RemoveRecordByRef, InvalidSet. -/
theorem conf_set_RemoveRecordByRef_InvalidSet : runT Env.id [
    op .newSet,
    op .newRef,
    flag (.setRemoveRef 0 0) false,
    op (.refReset 0),
    op (.destroySet 0)] = true := by decide

/-- VaultRecordSetUnitTests.cpp line 3906: RemoveRecordByRef, InvalidRef. -/
theorem conf_set_RemoveRecordByRef_InvalidRef : runT Env.id [
    op .newVault,
    op .newSet,
    op (.addKey 0 1 8000),
    op (.createRow 0 []),
    op (.request 0 .Equal 1 8000 8000 false false none (fun _ => true) 1),
    op (.eraseKV 0 1 8000),
    op (.removeKey 0 1),
    op .newRef,
    flag (.setRemoveRef 1 0) false,
    op (.refReset 0),
    op (.destroySet 1),
    op (.destroyVault 0)] = true := by decide

/-- VaultRecordSetUnitTests.cpp line 3914: RemoveRecordByRef, Default. -/
theorem conf_set_RemoveRecordByRef_Default : runT Env.id [
    op .newVault,
    op .newSet,
    op .newRef,
    op (.addKey 0 1 8000),
    op (.createRow 0 []),
    op (.createRow 0 []),
    op (.request 0 .Equal 1 8000 8000 false false none (fun _ => true) 1),
    op (.setGetRecord 1 1 8000 0),
    flag (.setRemoveRef 1 0) true,
    rows 1 [[(1, 8000)]],
    op (.refReset 0),
    op (.destroySet 1),
    op (.destroyVault 0)] = true := by decide

/-- VaultRecordSetUnitTests.cpp line 3932: RemoveRecordByRef, SecondDeletion. -/
theorem conf_set_RemoveRecordByRef_SecondDeletion : runT Env.id [
    op .newVault,
    op .newSet,
    op .newRef,
    op (.addKey 0 1 8000),
    op (.createRow 0 []),
    op (.createRow 0 []),
    op (.request 0 .Equal 1 8000 8000 false false none (fun _ => true) 1),
    op (.setGetRecord 1 1 8000 0),
    flag (.setRemoveRef 1 0) true,
    flag (.setRemoveRef 1 0) false,
    rows 1 [[(1, 8000)]],
    op (.refReset 0),
    op (.destroySet 1),
    op (.destroyVault 0)] = true := by decide

/-- VaultRecordSetUnitTests.cpp line 3952: RemoveRecordByKeyAndValue, InvalidSet. -/
theorem conf_set_RemoveRecordByKeyAndValue_InvalidSet : runT Env.id [
    op .newSet,
    res (.setRemoveKV 0 1 8000) false .ParentVaultNotValid (some 1) (some 0) none,
    op (.destroySet 0)] = true := by decide

/-- VaultRecordSetUnitTests.cpp line 3962: RemoveRecordByKeyAndValue, Default. -/
theorem conf_set_RemoveRecordByKeyAndValue_Default : runT Env.id [
    op .newVault,
    op .newSet,
    op (.addKey 0 1 8000),
    op (.createRow 0 []),
    op (.createRow 0 []),
    op (.request 0 .Equal 1 8000 8000 false false none (fun _ => true) 1),
    res (.setRemoveKV 1 1 8000) true .Success (some 1) (some 0) (some 0),
    rows 1 [[(1, 8000)]],
    op (.destroySet 1),
    op (.destroyVault 0)] = true := by decide

/-- VaultRecordSetUnitTests.cpp line 3983: RemoveRecordByKeyAndValue, SecondDeletion. -/
theorem conf_set_RemoveRecordByKeyAndValue_SecondDeletion : runT Env.id [
    op .newVault,
    op .newSet,
    op (.addKey 0 1 8000),
    op (.createRow 0 []),
    op (.createRow 0 []),
    op (.request 0 .Equal 1 8000 8000 false false none (fun _ => true) 1),
    res (.setRemoveKV 1 1 8000) true .Success (some 1) (some 0) (some 0),
    op (.setRemoveKV 1 1 8000),
    rows 1 [],
    op (.destroySet 1),
    op (.destroyVault 0)] = true := by decide

/-- VaultRecordSetUnitTests.cpp line 4004: RemoveRecordByKeyAndValue, WrongKey. -/
theorem conf_set_RemoveRecordByKeyAndValue_WrongKey : runT Env.id [
    op .newVault,
    op .newSet,
    op (.addKey 0 1 8000),
    op (.createRow 0 []),
    op (.createRow 0 []),
    op (.request 0 .Equal 1 8000 8000 false false none (fun _ => true) 1),
    res (.setRemoveKV 1 2 8000) false .WrongKey (some 2) (some 0) none,
    rows 1 [[(1, 8000)], [(1, 8000)]],
    op (.destroySet 1),
    op (.destroyVault 0)] = true := by decide

/-- VaultRecordSetUnitTests.cpp line 4048: RemoveRecordByKeyAndValue, WrongValue. -/
theorem conf_set_RemoveRecordByKeyAndValue_WrongValue : runT Env.id [
    op .newVault,
    op .newSet,
    op (.addKey 0 1 8000),
    op (.createRow 0 []),
    op (.createRow 0 []),
    op (.request 0 .Equal 1 8000 8000 false false none (fun _ => true) 1),
    res (.setRemoveKV 1 1 8008) false .WrongValue (some 1) (some 0) (some 0),
    rows 1 [[(1, 8000)], [(1, 8000)]],
    op (.destroySet 1),
    op (.destroyVault 0)] = true := by decide

/-- VaultRecordSetUnitTests.cpp line 4070: RemoveRecords, InvalidSet. -/
theorem conf_set_RemoveRecords_InvalidSet : runT Env.id [
    op .newSet,
    res (.setRemoveManyKV 0 1 8000 1000000) false .ParentVaultNotValid (some 1) (some 0) none,
    op (.destroySet 0)] = true := by decide

/-- VaultRecordSetUnitTests.cpp line 4080: RemoveRecords, Default. -/
theorem conf_set_RemoveRecords_Default : runT Env.id [
    op .newVault,
    op .newSet,
    op (.addKey 0 1 8000),
    op (.createRow 0 []),
    op (.createRow 0 []),
    op (.request 0 .Equal 1 8000 8000 false false none (fun _ => true) 1),
    res (.setRemoveManyKV 1 1 8000 1000000) true .Success (some 1) (some 0) (some 0),
    rows 1 [],
    op (.destroySet 1),
    op (.destroyVault 0)] = true := by decide

/-- VaultRecordSetUnitTests.cpp line 4099: RemoveRecords, DeleteNotAll. -/
theorem conf_set_RemoveRecords_DeleteNotAll : runT Env.id [
    op .newVault,
    op .newSet,
    op (.addKey 0 1 8000),
    op (.createRow 0 []),
    op (.createRow 0 []),
    op (.request 0 .Equal 1 8000 8000 false false none (fun _ => true) 1),
    res (.setRemoveManyKV 1 1 8000 1) true .Success (some 1) (some 0) (some 0),
    rows 1 [[(1, 8000)]],
    op (.destroySet 1),
    op (.destroyVault 0)] = true := by decide

/-- VaultRecordSetUnitTests.cpp line 4120: RemoveRecords, WrongKey. -/
theorem conf_set_RemoveRecords_WrongKey : runT Env.id [
    op .newVault,
    op .newSet,
    op (.addKey 0 1 8000),
    op (.createRow 0 []),
    op (.createRow 0 []),
    op (.request 0 .Equal 1 8000 8000 false false none (fun _ => true) 1),
    res (.setRemoveManyKV 1 2 8000 1000000) false .WrongKey (some 2) (some 0) none,
    rows 1 [[(1, 8000)], [(1, 8000)]],
    op (.destroySet 1),
    op (.destroyVault 0)] = true := by decide

/-- VaultRecordSetUnitTests.cpp line 4164: RemoveRecords, WrongValue. -/
theorem conf_set_RemoveRecords_WrongValue : runT Env.id [
    op .newVault,
    op .newSet,
    op (.addKey 0 1 8000),
    op (.createRow 0 []),
    op (.createRow 0 []),
    op (.request 0 .Equal 1 8000 8000 false false none (fun _ => true) 1),
    res (.setRemoveManyKV 1 1 8008 1000000) false .WrongValue (some 1) (some 0) (some 0),
    rows 1 [[(1, 8000)], [(1, 8000)]],
    op (.destroySet 1),
    op (.destroyVault 0)] = true := by decide

/-- VaultRecordSetUnitTests.cpp line 4186: Size, Invalid. -/
theorem conf_set_Size_Invalid : runT Env.id [
    op .newSet,
    size 0 0,
    op (.destroySet 0)] = true := by decide

/-- VaultRecordSetUnitTests.cpp line 4192: Size, Empty. -/
theorem conf_set_Size_Empty : runT Env.id [
    op .newVault,
    op .newSet,
    op (.addKey 0 1 8000),
    op (.createRow 0 []),
    op (.request 0 .Equal 1 8000 8000 false false none (fun _ => true) 1),
    op (.eraseKV 0 1 8000),
    op (.removeKey 0 1),
    size 1 0,
    op (.destroySet 1),
    op (.destroyVault 0)] = true := by decide

/-- VaultRecordSetUnitTests.cpp line 4199: Size, Default. -/
theorem conf_set_Size_Default : runT Env.id [
    op .newVault,
    op .newSet,
    op (.addKey 0 1 8000),
    op (.createRow 0 []),
    op (.request 0 .Equal 1 8000 8000 false false none (fun _ => true) 1),
    op (.eraseKV 0 1 8000),
    op (.removeKey 0 1),
    op .newRef,
    op (.addKey 0 1 8000),
    op (.createRecord 0 0 []),
    op (.setAddRecord 1 0),
    size 1 1,
    op (.refReset 0),
    op (.destroySet 1),
    op (.destroyVault 0)] = true := by decide

/-- VaultRecordSetUnitTests.cpp line 4211: GetKeys, Invalid. -/
theorem conf_set_GetKeys_Invalid : runT Env.id [
    op .newSet,
    keys 0 [],
    op (.destroySet 0)] = true := by decide

/-- VaultRecordSetUnitTests.cpp line 4216: GetKeys, Keys. -/
theorem conf_set_GetKeys_Keys : runT Env.id [
    op .newVault,
    op .newSet,
    op (.addKey 0 1 8000),
    op (.createRow 0 []),
    op (.request 0 .Equal 1 8000 8000 false false none (fun _ => true) 1),
    op (.eraseKV 0 1 8000),
    op (.removeKey 0 1),
    keys 1 [],
    op (.addKey 0 1 8000),
    keys 1 [1],
    op (.addKey 0 2 8000),
    keys 1 [1, 2],
    op (.addUniqueKey 0 3 1 true (fun _ _ _ => 0)),
    keys 1 [1, 2, 3],
    op (.destroySet 1),
    op (.destroyVault 0)] = true := by decide

/-- VaultRecordSetUnitTests.cpp line 4232: GetUniqueKeys, Invalid. -/
theorem conf_set_GetUniqueKeys_Invalid : runT Env.id [
    op .newSet,
    uniq 0 [],
    op (.destroySet 0)] = true := by decide

/-- VaultRecordSetUnitTests.cpp line 4237: GetUniqueKeys, UniqueKeys. -/
theorem conf_set_GetUniqueKeys_UniqueKeys : runT Env.id [
    op .newVault,
    op .newSet,
    op (.addKey 0 1 8000),
    op (.createRow 0 []),
    op (.request 0 .Equal 1 8000 8000 false false none (fun _ => true) 1),
    op (.eraseKV 0 1 8000),
    op (.removeKey 0 1),
    uniq 1 [],
    op (.addKey 0 1 8000),
    uniq 1 [],
    op (.addUniqueKey 0 2 0 true (fun _ _ _ => 0)),
    uniq 1 [2],
    op (.addUniqueKey 0 3 1 true (fun _ _ _ => 0)),
    uniq 1 [2, 3],
    op (.destroySet 1),
    op (.destroyVault 0)] = true := by decide

/-- VaultRecordSetUnitTests.cpp line 4253: GetSortedRecords, Invalid. -/
theorem conf_set_GetSortedRecords_Invalid : runT Env.id [
    op .newSet,
    op (.getSorted 0 1 false none),
    vecSize 0 0,
    op (.destroySet 0)] = true := by decide

/-- VaultRecordSetUnitTests.cpp line 4259: GetSortedRecords, GetRecords. -/
theorem conf_set_GetSortedRecords_GetRecords : runT Env.id [
    op .newVault,
    op .newSet,
    op (.addKey 0 1 8000),
    op (.createRow 0 []),
    op (.request 0 .Equal 1 8000 8000 false false none (fun _ => true) 1),
    op (.eraseKV 0 1 8000),
    op (.removeKey 0 1),
    op .newRef,
    op (.addKey 0 1 8000),
    op (.getSorted 1 1 false none),
    vecSize 1 0,
    op (.createRecord 0 0 [(1, 8000)]),
    op (.setAddRecord 1 0),
    op (.createRecord 0 0 [(1, 8008)]),
    op (.setAddRecord 1 0),
    op (.createRecord 0 0 [(1, 8016)]),
    op (.setAddRecord 1 0),
    op (.createRecord 0 0 [(1, 8024)]),
    op (.setAddRecord 1 0),
    op (.createRecord 0 0 [(1, 8032)]),
    op (.setAddRecord 1 0),
    op (.createRecord 0 0 [(1, 8040)]),
    op (.setAddRecord 1 0),
    op (.createRecord 0 0 [(1, 8048)]),
    op (.setAddRecord 1 0),
    op (.createRecord 0 0 [(1, 8056)]),
    op (.setAddRecord 1 0),
    op (.createRecord 0 0 [(1, 8064)]),
    op (.setAddRecord 1 0),
    op (.createRecord 0 0 [(1, 8072)]),
    op (.setAddRecord 1 0),
    op (.getSorted 1 1 false none),
    vecSize 1 10,
    chk (fun w => (refGetData w 1 1 0).isSome),
    readIs (fun w => refGetData w 1 1 0) 8000 8000,
    chk (fun w => (refGetData w 2 1 0).isSome),
    readIs (fun w => refGetData w 2 1 0) 8000 8008,
    chk (fun w => (refGetData w 3 1 0).isSome),
    readIs (fun w => refGetData w 3 1 0) 8000 8016,
    chk (fun w => (refGetData w 4 1 0).isSome),
    readIs (fun w => refGetData w 4 1 0) 8000 8024,
    chk (fun w => (refGetData w 5 1 0).isSome),
    readIs (fun w => refGetData w 5 1 0) 8000 8032,
    chk (fun w => (refGetData w 6 1 0).isSome),
    readIs (fun w => refGetData w 6 1 0) 8000 8040,
    chk (fun w => (refGetData w 7 1 0).isSome),
    readIs (fun w => refGetData w 7 1 0) 8000 8048,
    chk (fun w => (refGetData w 8 1 0).isSome),
    readIs (fun w => refGetData w 8 1 0) 8000 8056,
    chk (fun w => (refGetData w 9 1 0).isSome),
    readIs (fun w => refGetData w 9 1 0) 8000 8064,
    chk (fun w => (refGetData w 10 1 0).isSome),
    readIs (fun w => refGetData w 10 1 0) 8000 8072,
    op (.refReset 0),
    op (.destroySet 1),
    op (.destroyVault 0)] = true := by decide

/-- VaultRecordSetUnitTests.cpp line 4290: GetSortedRecords, GetRecordsReverse. -/
theorem conf_set_GetSortedRecords_GetRecordsReverse : runT Env.id [
    op .newVault,
    op .newSet,
    op (.addKey 0 1 8000),
    op (.createRow 0 []),
    op (.request 0 .Equal 1 8000 8000 false false none (fun _ => true) 1),
    op (.eraseKV 0 1 8000),
    op (.removeKey 0 1),
    op .newRef,
    op (.addKey 0 1 8000),
    op (.createRecord 0 0 [(1, 8000)]),
    op (.setAddRecord 1 0),
    op (.createRecord 0 0 [(1, 8008)]),
    op (.setAddRecord 1 0),
    op (.createRecord 0 0 [(1, 8016)]),
    op (.setAddRecord 1 0),
    op (.createRecord 0 0 [(1, 8024)]),
    op (.setAddRecord 1 0),
    op (.createRecord 0 0 [(1, 8032)]),
    op (.setAddRecord 1 0),
    op (.createRecord 0 0 [(1, 8040)]),
    op (.setAddRecord 1 0),
    op (.createRecord 0 0 [(1, 8048)]),
    op (.setAddRecord 1 0),
    op (.createRecord 0 0 [(1, 8056)]),
    op (.setAddRecord 1 0),
    op (.createRecord 0 0 [(1, 8064)]),
    op (.setAddRecord 1 0),
    op (.createRecord 0 0 [(1, 8072)]),
    op (.setAddRecord 1 0),
    op (.getSorted 1 1 true none),
    vecSize 1 10,
    chk (fun w => (refGetData w 1 1 0).isSome),
    readIs (fun w => refGetData w 1 1 0) 8000 8072,
    chk (fun w => (refGetData w 2 1 0).isSome),
    readIs (fun w => refGetData w 2 1 0) 8000 8064,
    chk (fun w => (refGetData w 3 1 0).isSome),
    readIs (fun w => refGetData w 3 1 0) 8000 8056,
    chk (fun w => (refGetData w 4 1 0).isSome),
    readIs (fun w => refGetData w 4 1 0) 8000 8048,
    chk (fun w => (refGetData w 5 1 0).isSome),
    readIs (fun w => refGetData w 5 1 0) 8000 8040,
    chk (fun w => (refGetData w 6 1 0).isSome),
    readIs (fun w => refGetData w 6 1 0) 8000 8032,
    chk (fun w => (refGetData w 7 1 0).isSome),
    readIs (fun w => refGetData w 7 1 0) 8000 8024,
    chk (fun w => (refGetData w 8 1 0).isSome),
    readIs (fun w => refGetData w 8 1 0) 8000 8016,
    chk (fun w => (refGetData w 9 1 0).isSome),
    readIs (fun w => refGetData w 9 1 0) 8000 8008,
    chk (fun w => (refGetData w 10 1 0).isSome),
    readIs (fun w => refGetData w 10 1 0) 8000 8000,
    op (.refReset 0),
    op (.destroySet 1),
    op (.destroyVault 0)] = true := by decide

/-- VaultRecordSetUnitTests.cpp line 4316: GetSortedRecords, GetNotAllRecords. -/
theorem conf_set_GetSortedRecords_GetNotAllRecords : runT Env.id [
    op .newVault,
    op .newSet,
    op (.addKey 0 1 8000),
    op (.createRow 0 []),
    op (.request 0 .Equal 1 8000 8000 false false none (fun _ => true) 1),
    op (.eraseKV 0 1 8000),
    op (.removeKey 0 1),
    op .newRef,
    op (.addKey 0 1 8000),
    op (.createRecord 0 0 [(1, 8000)]),
    op (.setAddRecord 1 0),
    op (.createRecord 0 0 [(1, 8008)]),
    op (.setAddRecord 1 0),
    op (.createRecord 0 0 [(1, 8016)]),
    op (.setAddRecord 1 0),
    op (.createRecord 0 0 [(1, 8024)]),
    op (.setAddRecord 1 0),
    op (.createRecord 0 0 [(1, 8032)]),
    op (.setAddRecord 1 0),
    op (.createRecord 0 0 [(1, 8040)]),
    op (.setAddRecord 1 0),
    op (.createRecord 0 0 [(1, 8048)]),
    op (.setAddRecord 1 0),
    op (.createRecord 0 0 [(1, 8056)]),
    op (.setAddRecord 1 0),
    op (.createRecord 0 0 [(1, 8064)]),
    op (.setAddRecord 1 0),
    op (.createRecord 0 0 [(1, 8072)]),
    op (.setAddRecord 1 0),
    op (.getSorted 1 1 false (some 5)),
    vecSize 1 5,
    chk (fun w => (refGetData w 1 1 0).isSome),
    readIs (fun w => refGetData w 1 1 0) 8000 8000,
    chk (fun w => (refGetData w 2 1 0).isSome),
    readIs (fun w => refGetData w 2 1 0) 8000 8008,
    chk (fun w => (refGetData w 3 1 0).isSome),
    readIs (fun w => refGetData w 3 1 0) 8000 8016,
    chk (fun w => (refGetData w 4 1 0).isSome),
    readIs (fun w => refGetData w 4 1 0) 8000 8024,
    chk (fun w => (refGetData w 5 1 0).isSome),
    readIs (fun w => refGetData w 5 1 0) 8000 8032,
    op (.refReset 0),
    op (.destroySet 1),
    op (.destroyVault 0)] = true := by decide

/-- VaultRecordSetUnitTests.cpp line 4342: GetSortedRecords, WrongKey. -/
theorem conf_set_GetSortedRecords_WrongKey : runT Env.id [
    op .newVault,
    op .newSet,
    op (.addKey 0 1 8000),
    op (.createRow 0 []),
    op (.request 0 .Equal 1 8000 8000 false false none (fun _ => true) 1),
    op (.eraseKV 0 1 8000),
    op (.removeKey 0 1),
    op .newRef,
    op (.addKey 0 1 8000),
    op (.createRecord 0 0 [(1, 8000)]),
    op (.setAddRecord 1 0),
    op (.createRecord 0 0 [(1, 8008)]),
    op (.setAddRecord 1 0),
    op (.createRecord 0 0 [(1, 8016)]),
    op (.setAddRecord 1 0),
    op (.createRecord 0 0 [(1, 8024)]),
    op (.setAddRecord 1 0),
    op (.createRecord 0 0 [(1, 8032)]),
    op (.setAddRecord 1 0),
    op (.createRecord 0 0 [(1, 8040)]),
    op (.setAddRecord 1 0),
    op (.createRecord 0 0 [(1, 8048)]),
    op (.setAddRecord 1 0),
    op (.createRecord 0 0 [(1, 8056)]),
    op (.setAddRecord 1 0),
    op (.createRecord 0 0 [(1, 8064)]),
    op (.setAddRecord 1 0),
    op (.createRecord 0 0 [(1, 8072)]),
    op (.setAddRecord 1 0),
    op (.getSorted 1 2 false none),
    vecSize 1 0,
    op (.refReset 0),
    op (.destroySet 1),
    op (.destroyVault 0)] = true := by decide

/-- VaultRecordSetUnitTests.cpp line 4368: SortBy, Sort. -/
theorem conf_set_SortBy_Sort : runT Env.id [
    op .newVault,
    op .newSet,
    op (.addKey 0 1 8000),
    op (.createRow 0 []),
    op (.request 0 .Equal 1 8000 8000 false false none (fun _ => true) 1),
    op (.eraseKV 0 1 8000),
    op (.removeKey 0 1),
    op .newRef,
    op (.addKey 0 1 8000),
    op (.createRecord 0 0 [(1, 8000)]),
    op (.setAddRecord 1 0),
    op (.createRecord 0 0 [(1, 8008)]),
    op (.setAddRecord 1 0),
    op (.createRecord 0 0 [(1, 8016)]),
    op (.setAddRecord 1 0),
    op (.createRecord 0 0 [(1, 8024)]),
    op (.setAddRecord 1 0),
    op (.createRecord 0 0 [(1, 8032)]),
    op (.setAddRecord 1 0),
    op (.createRecord 0 0 [(1, 8040)]),
    op (.setAddRecord 1 0),
    op (.createRecord 0 0 [(1, 8048)]),
    op (.setAddRecord 1 0),
    op (.createRecord 0 0 [(1, 8056)]),
    op (.setAddRecord 1 0),
    op (.createRecord 0 0 [(1, 8064)]),
    op (.setAddRecord 1 0),
    op (.createRecord 0 0 [(1, 8072)]),
    op (.setAddRecord 1 0),
    sorted 1 1 false none 1 [8000, 8008, 8016, 8024, 8032, 8040, 8048, 8056, 8064, 8072],
    op (.refReset 0),
    op (.destroySet 1),
    op (.destroyVault 0)] = true := by decide

end MVault.Conf
