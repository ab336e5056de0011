import Verif.ConfBase
/- Generated by conformance/gen.py from the unit tests of the project: validation of the model. -/
set_option maxRecDepth 100000
namespace MVault.Conf
open MVault.W

/-- VaultUnitTests.cpp line 1270: GetRecords, WrongValue. -/
theorem conf_vault_GetRecords_WrongValue : runT Env.id [
    op .newVault,
    op (.addKey 0 1 8000),
    op (.addUniqueKey 0 2 1 true (fun _ _ _ => 0)),
    op (.createRow 0 [(1, 8008), (2, 313)]),
    op (.createRow 0 [(1, 8016), (2, 417)]),
    op (.createRow 0 [(1, 8016), (2, 521)]),
    op (.createRow 0 [(1, 8016), (2, 529)]),
    res (.getRecords 0 1 8792 1000000) false .WrongValue (some 1) (some 0) (some 0),
    vecSize 0 0,
    op (.destroyVault 0)] = true := by decide

/-- VaultUnitTests.cpp line 1291: RequestEqual, CorrectRequest. -/
theorem conf_vault_RequestEqual_CorrectRequest : runT Env.id [
    op .newVault,
    op .newSet,
    op (.addKey 0 1 8000),
    op (.addUniqueKey 0 2 1 true (fun _ _ _ => 0)),
    op (.createRow 0 [(1, 8008), (2, 313)]),
    op (.createRow 0 [(1, 8016), (2, 417)]),
    op (.createRow 0 [(1, 8016), (2, 521)]),
    op (.createRow 0 [(1, 8016), (2, 529)]),
    op (.createRow 0 [(1, 8024), (2, 537)]),
    res (.request 0 .Equal 1 8008 8008 false false none (fun _ => true) 1) true .Success (some 1) (some 0) (some 0),
    size 1 1,
    rows 1 [[(1, 8008), (2, 313)]],
    res (.request 0 .Equal 1 8016 8016 false false none (fun _ => true) 1) true .Success (some 1) (some 0) (some 0),
    size 1 3,
    rows 1 [[(1, 8016), (2, 417)], [(1, 8016), (2, 521)], [(1, 8016), (2, 529)]],
    op (.destroySet 1),
    op (.destroyVault 0)] = true := by decide

/-- VaultUnitTests.cpp line 1329: RequestEqual, CorrectRequestNotAllRecords. -/
theorem conf_vault_RequestEqual_CorrectRequestNotAllRecords : runT Env.id [
    op .newVault,
    op .newSet,
    op (.addKey 0 1 8000),
    op (.addUniqueKey 0 2 1 true (fun _ _ _ => 0)),
    op (.createRow 0 [(1, 8008), (2, 313)]),
    op (.createRow 0 [(1, 8016), (2, 417)]),
    op (.createRow 0 [(1, 8016), (2, 521)]),
    op (.createRow 0 [(1, 8016), (2, 529)]),
    op (.createRow 0 [(1, 8024), (2, 537)]),
    res (.request 0 .Equal 1 8008 8008 false false (some 2) (fun _ => true) 1) true .Success (some 1) (some 0) (some 0),
    size 1 1,
    rows 1 [[(1, 8008), (2, 313)]],
    res (.request 0 .Equal 1 8016 8016 false false (some 2) (fun _ => true) 1) true .Success (some 1) (some 0) (some 0),
    size 1 2,
    op (.destroySet 1),
    op (.destroyVault 0)] = true := by decide

/-- VaultUnitTests.cpp line 1361: RequestEqual, CorrectRequestWithPredicat. -/
theorem conf_vault_RequestEqual_CorrectRequestWithPredicat : runT Env.id [
    op .newVault,
    op .newSet,
    op (.addKey 0 1 8000),
    op (.addUniqueKey 0 2 1 true (fun _ _ _ => 0)),
    op (.createRow 0 [(1, 8008), (2, 313)]),
    op (.createRow 0 [(1, 8016), (2, 417)]),
    op (.createRow 0 [(1, 8016), (2, 521)]),
    op (.createRow 0 [(1, 8016), (2, 529)]),
    op (.createRow 0 [(1, 8024), (2, 537)]),
    resW (fun w => .request 0 .Equal 1 8016 8016 false false none (fun r => decide ((cell w r 2).any (fun v => decide (v ∈ ([313, 417, 521, 537] : List TV))))) 1) true .Success (some 1) (some 0) (some 0),
    size 1 2,
    rows 1 [[(1, 8016), (2, 417)], [(1, 8016), (2, 521)]],
    op (.destroySet 1),
    op (.destroyVault 0)] = true := by decide

/-- VaultUnitTests.cpp line 1394: RequestEqual, WrongKey. -/
theorem conf_vault_RequestEqual_WrongKey : runT Env.id [
    op .newVault,
    op .newSet,
    op (.addKey 0 1 8000),
    op (.addUniqueKey 0 2 1 true (fun _ _ _ => 0)),
    op (.createRow 0 [(1, 8008), (2, 417)]),
    op (.createRow 0 [(1, 8016), (2, 521)]),
    op (.createRow 0 [(1, 8024), (2, 625)]),
    res (.request 0 .Equal 3 8008 8008 false false none (fun _ => true) 1) false .WrongKey (some 3) (some 0) none,
    size 1 0,
    rows 1 [],
    op (.destroySet 1),
    op (.destroyVault 0)] = true := by decide

/-- VaultUnitTests.cpp line 1416: RequestEqual, WrongType. -/
theorem conf_vault_RequestEqual_WrongType : runT Env.id [
    op .newVault,
    op .newSet,
    op (.addKey 0 1 8000),
    op (.addUniqueKey 0 2 1 true (fun _ _ _ => 0)),
    op (.createRow 0 [(1, 8008), (2, 313)]),
    op (.createRow 0 [(1, 8016), (2, 417)]),
    op (.createRow 0 [(1, 8024), (2, 521)]),
    res (.request 0 .Equal 2 8008 8008 false false none (fun _ => true) 1) false .WrongType (some 2) (some 0) (some 1),
    size 1 0,
    rows 1 [],
    op (.destroySet 1),
    op (.destroyVault 0)] = true := by decide

/-- VaultUnitTests.cpp line 1438: RequestEqual, ValueNotInVault. -/
theorem conf_vault_RequestEqual_ValueNotInVault : runT Env.id [
    op .newVault,
    op .newSet,
    op (.addKey 0 1 8000),
    op (.addUniqueKey 0 2 1 true (fun _ _ _ => 0)),
    op (.createRow 0 [(1, 8008), (2, 313)]),
    op (.createRow 0 [(1, 8016), (2, 417)]),
    op (.createRow 0 [(1, 8024), (2, 521)]),
    res (.request 0 .Equal 1 8032 8032 false false none (fun _ => true) 1) true .Success (some 1) (some 0) (some 0),
    size 1 0,
    rows 1 [],
    op (.destroySet 1),
    op (.destroyVault 0)] = true := by decide

/-- VaultUnitTests.cpp line 1460: RequestGreater, CorrectRequest. -/
theorem conf_vault_RequestGreater_CorrectRequest : runT Env.id [
    op .newVault,
    op .newSet,
    op (.addKey 0 1 8000),
    op (.addUniqueKey 0 2 1 true (fun _ _ _ => 0)),
    op (.createRow 0 [(1, 8008), (2, 313)]),
    op (.createRow 0 [(1, 8016), (2, 417)]),
    op (.createRow 0 [(1, 8016), (2, 521)]),
    op (.createRow 0 [(1, 8016), (2, 529)]),
    op (.createRow 0 [(1, 8024), (2, 537)]),
    res (.request 0 .Greater 1 8008 8008 false false none (fun _ => true) 1) true .Success (some 1) (some 0) (some 0),
    size 1 4,
    rows 1 [[(1, 8016), (2, 417)], [(1, 8016), (2, 521)], [(1, 8016), (2, 529)], [(1, 8024), (2, 537)]],
    res (.request 0 .Greater 1 8016 8016 false false none (fun _ => true) 1) true .Success (some 1) (some 0) (some 0),
    size 1 1,
    rows 1 [[(1, 8024), (2, 537)]],
    op (.destroySet 1),
    op (.destroyVault 0)] = true := by decide

/-- VaultUnitTests.cpp line 1499: RequestGreater, CorrectRequestNotAllRecords. -/
theorem conf_vault_RequestGreater_CorrectRequestNotAllRecords : runT Env.id [
    op .newVault,
    op .newSet,
    op (.addKey 0 1 8000),
    op (.addUniqueKey 0 2 1 true (fun _ _ _ => 0)),
    op (.createRow 0 [(1, 8008), (2, 313)]),
    op (.createRow 0 [(1, 8016), (2, 417)]),
    op (.createRow 0 [(1, 8016), (2, 521)]),
    op (.createRow 0 [(1, 8016), (2, 529)]),
    op (.createRow 0 [(1, 8024), (2, 537)]),
    res (.request 0 .Greater 1 8008 8008 false false (some 2) (fun _ => true) 1) true .Success (some 1) (some 0) (some 0),
    size 1 2,
    res (.request 0 .Greater 1 8016 8016 false false (some 4) (fun _ => true) 1) true .Success (some 1) (some 0) (some 0),
    size 1 1,
    rows 1 [[(1, 8024), (2, 537)]],
    op (.destroySet 1),
    op (.destroyVault 0)] = true := by decide

/-- VaultUnitTests.cpp line 1531: RequestGreater, CorrectRequestWithPredicat. -/
theorem conf_vault_RequestGreater_CorrectRequestWithPredicat : runT Env.id [
    op .newVault,
    op .newSet,
    op (.addKey 0 1 8000),
    op (.addUniqueKey 0 2 1 true (fun _ _ _ => 0)),
    op (.createRow 0 [(1, 8008), (2, 313)]),
    op (.createRow 0 [(1, 8016), (2, 417)]),
    op (.createRow 0 [(1, 8016), (2, 521)]),
    op (.createRow 0 [(1, 8016), (2, 529)]),
    op (.createRow 0 [(1, 8024), (2, 537)]),
    resW (fun w => .request 0 .Greater 1 8000 8000 false false none (fun r => decide ((cell w r 2).any (fun v => decide (v ∈ ([521, 529] : List TV))))) 1) true .Success (some 1) (some 0) (some 0),
    size 1 2,
    rows 1 [[(1, 8016), (2, 521)], [(1, 8016), (2, 529)]],
    op (.destroySet 1),
    op (.destroyVault 0)] = true := by decide

/-- VaultUnitTests.cpp line 1564: RequestGreater, BoundaryValues. -/
theorem conf_vault_RequestGreater_BoundaryValues : runT Env.id [
    op .newVault,
    op .newSet,
    op (.addKey 0 1 8000),
    op (.createRow 0 [(1, 8008)]),
    op (.createRow 0 [(1, 8024)]),
    op (.createRow 0 [(1, 8040)]),
    op (.request 0 .Greater 1 8000 8000 false false none (fun _ => true) 1),
    rows 1 [[(1, 8008)], [(1, 8024)], [(1, 8040)]],
    op (.request 0 .Greater 1 8008 8008 false false none (fun _ => true) 1),
    rows 1 [[(1, 8024)], [(1, 8040)]],
    op (.request 0 .Greater 1 8016 8016 false false none (fun _ => true) 1),
    rows 1 [[(1, 8024)], [(1, 8040)]],
    op (.request 0 .Greater 1 8024 8024 false false none (fun _ => true) 1),
    rows 1 [[(1, 8040)]],
    op (.request 0 .Greater 1 8032 8032 false false none (fun _ => true) 1),
    rows 1 [[(1, 8040)]],
    op (.request 0 .Greater 1 8040 8040 false false none (fun _ => true) 1),
    rows 1 [],
    op (.request 0 .Greater 1 8048 8048 false false none (fun _ => true) 1),
    rows 1 [],
    op (.destroySet 1),
    op (.destroyVault 0)] = true := by decide

/-- VaultUnitTests.cpp line 1611: RequestGreater, WrongKey. -/
theorem conf_vault_RequestGreater_WrongKey : runT Env.id [
    op .newVault,
    op .newSet,
    op (.addKey 0 1 8000),
    op (.addUniqueKey 0 2 1 true (fun _ _ _ => 0)),
    op (.createRow 0 [(1, 8008), (2, 417)]),
    op (.createRow 0 [(1, 8016), (2, 521)]),
    op (.createRow 0 [(1, 8024), (2, 625)]),
    res (.request 0 .Greater 3 8008 8008 false false none (fun _ => true) 1) false .WrongKey (some 3) (some 0) none,
    size 1 0,
    rows 1 [],
    op (.destroySet 1),
    op (.destroyVault 0)] = true := by decide

/-- VaultUnitTests.cpp line 1633: RequestGreater, WrongType. -/
theorem conf_vault_RequestGreater_WrongType : runT Env.id [
    op .newVault,
    op .newSet,
    op (.addKey 0 1 8000),
    op (.addUniqueKey 0 2 1 true (fun _ _ _ => 0)),
    op (.createRow 0 [(1, 8008), (2, 313)]),
    op (.createRow 0 [(1, 8016), (2, 417)]),
    op (.createRow 0 [(1, 8024), (2, 521)]),
    res (.request 0 .Greater 2 8008 8008 false false none (fun _ => true) 1) false .WrongType (some 2) (some 0) (some 1),
    size 1 0,
    rows 1 [],
    op (.destroySet 1),
    op (.destroyVault 0)] = true := by decide

/-- VaultUnitTests.cpp line 1655: RequestGreater, ValueNotInVault. -/
theorem conf_vault_RequestGreater_ValueNotInVault : runT Env.id [
    op .newVault,
    op .newSet,
    op (.addKey 0 1 8000),
    op (.addUniqueKey 0 2 1 true (fun _ _ _ => 0)),
    op (.createRow 0 [(1, 8008), (2, 313)]),
    op (.createRow 0 [(1, 8016), (2, 417)]),
    op (.createRow 0 [(1, 8024), (2, 521)]),
    res (.request 0 .Greater 1 8032 8032 false false none (fun _ => true) 1) true .Success (some 1) (some 0) (some 0),
    size 1 0,
    rows 1 [],
    op (.destroySet 1),
    op (.destroyVault 0)] = true := by decide

/-- VaultUnitTests.cpp line 1677: RequestGreaterOrEqual, CorrectRequest. -/
theorem conf_vault_RequestGreaterOrEqual_CorrectRequest : runT Env.id [
    op .newVault,
    op .newSet,
    op (.addKey 0 1 8000),
    op (.addUniqueKey 0 2 1 true (fun _ _ _ => 0)),
    op (.createRow 0 [(1, 8008), (2, 313)]),
    op (.createRow 0 [(1, 8016), (2, 417)]),
    op (.createRow 0 [(1, 8016), (2, 521)]),
    op (.createRow 0 [(1, 8016), (2, 529)]),
    op (.createRow 0 [(1, 8024), (2, 537)]),
    res (.request 0 .GreaterOrEqual 1 8008 8008 false false none (fun _ => true) 1) true .Success (some 1) (some 0) (some 0),
    size 1 5,
    rows 1 [[(1, 8008), (2, 313)], [(1, 8016), (2, 417)], [(1, 8016), (2, 521)], [(1, 8016), (2, 529)], [(1, 8024), (2, 537)]],
    res (.request 0 .GreaterOrEqual 1 8024 8024 false false none (fun _ => true) 1) true .Success (some 1) (some 0) (some 0),
    size 1 1,
    rows 1 [[(1, 8024), (2, 537)]],
    op (.destroySet 1),
    op (.destroyVault 0)] = true := by decide

/-- VaultUnitTests.cpp line 1717: RequestGreaterOrEqual, CorrectRequestNotAllRecords. -/
theorem conf_vault_RequestGreaterOrEqual_CorrectRequestNotAllRecords : runT Env.id [
    op .newVault,
    op .newSet,
    op (.addKey 0 1 8000),
    op (.addUniqueKey 0 2 1 true (fun _ _ _ => 0)),
    op (.createRow 0 [(1, 8008), (2, 313)]),
    op (.createRow 0 [(1, 8016), (2, 417)]),
    op (.createRow 0 [(1, 8016), (2, 521)]),
    op (.createRow 0 [(1, 8016), (2, 529)]),
    op (.createRow 0 [(1, 8024), (2, 537)]),
    res (.request 0 .GreaterOrEqual 1 8016 8016 false false (some 2) (fun _ => true) 1) true .Success (some 1) (some 0) (some 0),
    size 1 2,
    res (.request 0 .GreaterOrEqual 1 8024 8024 false false (some 4) (fun _ => true) 1) true .Success (some 1) (some 0) (some 0),
    size 1 1,
    rows 1 [[(1, 8024), (2, 537)]],
    op (.destroySet 1),
    op (.destroyVault 0)] = true := by decide

/-- VaultUnitTests.cpp line 1749: RequestGreaterOrEqual, CorrectRequestWithPredicat. -/
theorem conf_vault_RequestGreaterOrEqual_CorrectRequestWithPredicat : runT Env.id [
    op .newVault,
    op .newSet,
    op (.addKey 0 1 8000),
    op (.addUniqueKey 0 2 1 true (fun _ _ _ => 0)),
    op (.createRow 0 [(1, 8008), (2, 313)]),
    op (.createRow 0 [(1, 8016), (2, 417)]),
    op (.createRow 0 [(1, 8016), (2, 521)]),
    op (.createRow 0 [(1, 8016), (2, 529)]),
    op (.createRow 0 [(1, 8024), (2, 537)]),
    resW (fun w => .request 0 .GreaterOrEqual 1 8016 8016 false false none (fun r => decide ((cell w r 2).any (fun v => decide (v ∈ ([521, 529] : List TV))))) 1) true .Success (some 1) (some 0) (some 0),
    size 1 2,
    rows 1 [[(1, 8016), (2, 521)], [(1, 8016), (2, 529)]],
    op (.destroySet 1),
    op (.destroyVault 0)] = true := by decide

/-- VaultUnitTests.cpp line 1782: RequestGreaterOrEqual, BoundaryValues. -/
theorem conf_vault_RequestGreaterOrEqual_BoundaryValues : runT Env.id [
    op .newVault,
    op .newSet,
    op (.addKey 0 1 8000),
    op (.createRow 0 [(1, 8008)]),
    op (.createRow 0 [(1, 8024)]),
    op (.createRow 0 [(1, 8040)]),
    op (.request 0 .GreaterOrEqual 1 8000 8000 false false none (fun _ => true) 1),
    rows 1 [[(1, 8008)], [(1, 8024)], [(1, 8040)]],
    op (.request 0 .GreaterOrEqual 1 8008 8008 false false none (fun _ => true) 1),
    rows 1 [[(1, 8008)], [(1, 8024)], [(1, 8040)]],
    op (.request 0 .GreaterOrEqual 1 8016 8016 false false none (fun _ => true) 1),
    rows 1 [[(1, 8024)], [(1, 8040)]],
    op (.request 0 .GreaterOrEqual 1 8024 8024 false false none (fun _ => true) 1),
    rows 1 [[(1, 8024)], [(1, 8040)]],
    op (.request 0 .GreaterOrEqual 1 8032 8032 false false none (fun _ => true) 1),
    rows 1 [[(1, 8040)]],
    op (.request 0 .GreaterOrEqual 1 8040 8040 false false none (fun _ => true) 1),
    rows 1 [[(1, 8040)]],
    op (.request 0 .GreaterOrEqual 1 8048 8048 false false none (fun _ => true) 1),
    rows 1 [],
    op (.destroySet 1),
    op (.destroyVault 0)] = true := by decide

/-- VaultUnitTests.cpp line 1829: RequestGreaterOrEqual, WrongKey. -/
theorem conf_vault_RequestGreaterOrEqual_WrongKey : runT Env.id [
    op .newVault,
    op .newSet,
    op (.addKey 0 1 8000),
    op (.addUniqueKey 0 2 1 true (fun _ _ _ => 0)),
    op (.createRow 0 [(1, 8008), (2, 417)]),
    op (.createRow 0 [(1, 8016), (2, 521)]),
    op (.createRow 0 [(1, 8024), (2, 625)]),
    res (.request 0 .GreaterOrEqual 3 8008 8008 false false none (fun _ => true) 1) false .WrongKey (some 3) (some 0) none,
    size 1 0,
    rows 1 [],
    op (.destroySet 1),
    op (.destroyVault 0)] = true := by decide

/-- VaultUnitTests.cpp line 1851: RequestGreaterOrEqual, WrongType. -/
theorem conf_vault_RequestGreaterOrEqual_WrongType : runT Env.id [
    op .newVault,
    op .newSet,
    op (.addKey 0 1 8000),
    op (.addUniqueKey 0 2 1 true (fun _ _ _ => 0)),
    op (.createRow 0 [(1, 8008), (2, 313)]),
    op (.createRow 0 [(1, 8016), (2, 417)]),
    op (.createRow 0 [(1, 8024), (2, 521)]),
    res (.request 0 .GreaterOrEqual 2 8008 8008 false false none (fun _ => true) 1) false .WrongType (some 2) (some 0) (some 1),
    size 1 0,
    rows 1 [],
    op (.destroySet 1),
    op (.destroyVault 0)] = true := by decide

/-- VaultUnitTests.cpp line 1873: RequestGreaterOrEqual, ValueNotInVault. -/
theorem conf_vault_RequestGreaterOrEqual_ValueNotInVault : runT Env.id [
    op .newVault,
    op .newSet,
    op (.addKey 0 1 8000),
    op (.addUniqueKey 0 2 1 true (fun _ _ _ => 0)),
    op (.createRow 0 [(1, 8008), (2, 313)]),
    op (.createRow 0 [(1, 8016), (2, 417)]),
    op (.createRow 0 [(1, 8024), (2, 521)]),
    res (.request 0 .GreaterOrEqual 1 8032 8032 false false none (fun _ => true) 1) true .Success (some 1) (some 0) (some 0),
    size 1 0,
    rows 1 [],
    op (.destroySet 1),
    op (.destroyVault 0)] = true := by decide

/-- VaultUnitTests.cpp line 1895: RequestLess, CorrectRequest. -/
theorem conf_vault_RequestLess_CorrectRequest : runT Env.id [
    op .newVault,
    op .newSet,
    op (.addKey 0 1 8000),
    op (.addUniqueKey 0 2 1 true (fun _ _ _ => 0)),
    op (.createRow 0 [(1, 8008), (2, 313)]),
    op (.createRow 0 [(1, 8016), (2, 417)]),
    op (.createRow 0 [(1, 8016), (2, 521)]),
    op (.createRow 0 [(1, 8016), (2, 529)]),
    op (.createRow 0 [(1, 8024), (2, 537)]),
    res (.request 0 .Less 1 8024 8024 false false none (fun _ => true) 1) true .Success (some 1) (some 0) (some 0),
    size 1 4,
    rows 1 [[(1, 8008), (2, 313)], [(1, 8016), (2, 417)], [(1, 8016), (2, 521)], [(1, 8016), (2, 529)]],
    res (.request 0 .Less 1 8016 8016 false false none (fun _ => true) 1) true .Success (some 1) (some 0) (some 0),
    size 1 1,
    rows 1 [[(1, 8008), (2, 313)]],
    op (.destroySet 1),
    op (.destroyVault 0)] = true := by decide

/-- VaultUnitTests.cpp line 1933: RequestLess, CorrectRequestNotAllRecords. -/
theorem conf_vault_RequestLess_CorrectRequestNotAllRecords : runT Env.id [
    op .newVault,
    op .newSet,
    op (.addKey 0 1 8000),
    op (.addUniqueKey 0 2 1 true (fun _ _ _ => 0)),
    op (.createRow 0 [(1, 8008), (2, 313)]),
    op (.createRow 0 [(1, 8016), (2, 417)]),
    op (.createRow 0 [(1, 8016), (2, 521)]),
    op (.createRow 0 [(1, 8016), (2, 529)]),
    op (.createRow 0 [(1, 8024), (2, 537)]),
    res (.request 0 .Less 1 8024 8024 false false (some 2) (fun _ => true) 1) true .Success (some 1) (some 0) (some 0),
    size 1 2,
    res (.request 0 .Less 1 8016 8016 false false (some 4) (fun _ => true) 1) true .Success (some 1) (some 0) (some 0),
    size 1 1,
    rows 1 [[(1, 8008), (2, 313)]],
    op (.destroySet 1),
    op (.destroyVault 0)] = true := by decide

/-- VaultUnitTests.cpp line 1965: RequestLess, CorrectRequestWithPredicat. -/
theorem conf_vault_RequestLess_CorrectRequestWithPredicat : runT Env.id [
    op .newVault,
    op .newSet,
    op (.addKey 0 1 8000),
    op (.addUniqueKey 0 2 1 true (fun _ _ _ => 0)),
    op (.createRow 0 [(1, 8008), (2, 313)]),
    op (.createRow 0 [(1, 8016), (2, 417)]),
    op (.createRow 0 [(1, 8016), (2, 521)]),
    op (.createRow 0 [(1, 8016), (2, 529)]),
    op (.createRow 0 [(1, 8024), (2, 537)]),
    resW (fun w => .request 0 .Less 1 8024 8024 false false none (fun r => decide ((cell w r 2).any (fun v => decide (v ∈ ([521, 529] : List TV))))) 1) true .Success (some 1) (some 0) (some 0),
    size 1 2,
    rows 1 [[(1, 8016), (2, 521)], [(1, 8016), (2, 529)]],
    op (.destroySet 1),
    op (.destroyVault 0)] = true := by decide

/-- VaultUnitTests.cpp line 1998: RequestLess, BoundaryValues. -/
theorem conf_vault_RequestLess_BoundaryValues : runT Env.id [
    op .newVault,
    op .newSet,
    op (.addKey 0 1 8000),
    op (.createRow 0 [(1, 8008)]),
    op (.createRow 0 [(1, 8024)]),
    op (.createRow 0 [(1, 8040)]),
    op (.request 0 .Less 1 8000 8000 false false none (fun _ => true) 1),
    rows 1 [],
    op (.request 0 .Less 1 8008 8008 false false none (fun _ => true) 1),
    rows 1 [],
    op (.request 0 .Less 1 8016 8016 false false none (fun _ => true) 1),
    rows 1 [[(1, 8008)]],
    op (.request 0 .Less 1 8024 8024 false false none (fun _ => true) 1),
    rows 1 [[(1, 8008)]],
    op (.request 0 .Less 1 8032 8032 false false none (fun _ => true) 1),
    rows 1 [[(1, 8008)], [(1, 8024)]],
    op (.request 0 .Less 1 8040 8040 false false none (fun _ => true) 1),
    rows 1 [[(1, 8008)], [(1, 8024)]],
    op (.request 0 .Less 1 8048 8048 false false none (fun _ => true) 1),
    rows 1 [[(1, 8008)], [(1, 8024)], [(1, 8040)]],
    op (.destroySet 1),
    op (.destroyVault 0)] = true := by decide

/-- VaultUnitTests.cpp line 2045: RequestLess, WrongKey. -/
theorem conf_vault_RequestLess_WrongKey : runT Env.id [
    op .newVault,
    op .newSet,
    op (.addKey 0 1 8000),
    op (.addUniqueKey 0 2 1 true (fun _ _ _ => 0)),
    op (.createRow 0 [(1, 8008), (2, 417)]),
    op (.createRow 0 [(1, 8016), (2, 521)]),
    op (.createRow 0 [(1, 8024), (2, 625)]),
    res (.request 0 .Less 3 8008 8008 false false none (fun _ => true) 1) false .WrongKey (some 3) (some 0) none,
    size 1 0,
    rows 1 [],
    op (.destroySet 1),
    op (.destroyVault 0)] = true := by decide

/-- VaultUnitTests.cpp line 2067: RequestLess, WrongType. -/
theorem conf_vault_RequestLess_WrongType : runT Env.id [
    op .newVault,
    op .newSet,
    op (.addKey 0 1 8000),
    op (.addUniqueKey 0 2 1 true (fun _ _ _ => 0)),
    op (.createRow 0 [(1, 8008), (2, 313)]),
    op (.createRow 0 [(1, 8016), (2, 417)]),
    op (.createRow 0 [(1, 8024), (2, 521)]),
    res (.request 0 .Less 2 8008 8008 false false none (fun _ => true) 1) false .WrongType (some 2) (some 0) (some 1),
    size 1 0,
    rows 1 [],
    op (.destroySet 1),
    op (.destroyVault 0)] = true := by decide

/-- VaultUnitTests.cpp line 2089: RequestLess, ValueNotInVault. -/
theorem conf_vault_RequestLess_ValueNotInVault : runT Env.id [
    op .newVault,
    op .newSet,
    op (.addKey 0 1 8000),
    op (.addUniqueKey 0 2 1 true (fun _ _ _ => 0)),
    op (.createRow 0 [(1, 8008), (2, 313)]),
    op (.createRow 0 [(1, 8016), (2, 417)]),
    op (.createRow 0 [(1, 8024), (2, 521)]),
    res (.request 0 .Less 1 8008 8008 false false none (fun _ => true) 1) true .Success (some 1) (some 0) (some 0),
    size 1 0,
    rows 1 [],
    op (.destroySet 1),
    op (.destroyVault 0)] = true := by decide

/-- VaultUnitTests.cpp line 2111: RequestLessOrEqual, CorrectRequest. -/
theorem conf_vault_RequestLessOrEqual_CorrectRequest : runT Env.id [
    op .newVault,
    op .newSet,
    op (.addKey 0 1 8000),
    op (.addUniqueKey 0 2 1 true (fun _ _ _ => 0)),
    op (.createRow 0 [(1, 8008), (2, 313)]),
    op (.createRow 0 [(1, 8016), (2, 417)]),
    op (.createRow 0 [(1, 8016), (2, 521)]),
    op (.createRow 0 [(1, 8016), (2, 529)]),
    op (.createRow 0 [(1, 8024), (2, 537)]),
    res (.request 0 .LessOrEqual 1 8016 8016 false false none (fun _ => true) 1) true .Success (some 1) (some 0) (some 0),
    size 1 4,
    rows 1 [[(1, 8008), (2, 313)], [(1, 8016), (2, 417)], [(1, 8016), (2, 521)], [(1, 8016), (2, 529)]],
    res (.request 0 .LessOrEqual 1 8008 8008 false false none (fun _ => true) 1) true .Success (some 1) (some 0) (some 0),
    size 1 1,
    rows 1 [[(1, 8008), (2, 313)]],
    op (.destroySet 1),
    op (.destroyVault 0)] = true := by decide

/-- VaultUnitTests.cpp line 2149: RequestLessOrEqual, CorrectRequestNotAllRecords. -/
theorem conf_vault_RequestLessOrEqual_CorrectRequestNotAllRecords : runT Env.id [
    op .newVault,
    op .newSet,
    op (.addKey 0 1 8000),
    op (.addUniqueKey 0 2 1 true (fun _ _ _ => 0)),
    op (.createRow 0 [(1, 8008), (2, 313)]),
    op (.createRow 0 [(1, 8016), (2, 417)]),
    op (.createRow 0 [(1, 8016), (2, 521)]),
    op (.createRow 0 [(1, 8016), (2, 529)]),
    op (.createRow 0 [(1, 8024), (2, 537)]),
    res (.request 0 .LessOrEqual 1 8024 8024 false false (some 2) (fun _ => true) 1) true .Success (some 1) (some 0) (some 0),
    size 1 2,
    res (.request 0 .LessOrEqual 1 8008 8008 false false (some 4) (fun _ => true) 1) true .Success (some 1) (some 0) (some 0),
    size 1 1,
    rows 1 [[(1, 8008), (2, 313)]],
    op (.destroySet 1),
    op (.destroyVault 0)] = true := by decide

/-- VaultUnitTests.cpp line 2181: RequestLessOrEqual, CorrectRequestWithPredicat. -/
theorem conf_vault_RequestLessOrEqual_CorrectRequestWithPredicat : runT Env.id [
    op .newVault,
    op .newSet,
    op (.addKey 0 1 8000),
    op (.addUniqueKey 0 2 1 true (fun _ _ _ => 0)),
    op (.createRow 0 [(1, 8008), (2, 313)]),
    op (.createRow 0 [(1, 8016), (2, 417)]),
    op (.createRow 0 [(1, 8016), (2, 521)]),
    op (.createRow 0 [(1, 8016), (2, 529)]),
    op (.createRow 0 [(1, 8024), (2, 537)]),
    resW (fun w => .request 0 .LessOrEqual 1 8016 8016 false false none (fun r => decide ((cell w r 2).any (fun v => decide (v ∈ ([521, 529] : List TV))))) 1) true .Success (some 1) (some 0) (some 0),
    size 1 2,
    rows 1 [[(1, 8016), (2, 521)], [(1, 8016), (2, 529)]],
    op (.destroySet 1),
    op (.destroyVault 0)] = true := by decide

/-- VaultUnitTests.cpp line 2214: RequestLessOrEqual, BoundaryValues. -/
theorem conf_vault_RequestLessOrEqual_BoundaryValues : runT Env.id [
    op .newVault,
    op .newSet,
    op (.addKey 0 1 8000),
    op (.createRow 0 [(1, 8008)]),
    op (.createRow 0 [(1, 8024)]),
    op (.createRow 0 [(1, 8040)]),
    op (.request 0 .LessOrEqual 1 8000 8000 false false none (fun _ => true) 1),
    rows 1 [],
    op (.request 0 .LessOrEqual 1 8008 8008 false false none (fun _ => true) 1),
    rows 1 [[(1, 8008)]],
    op (.request 0 .LessOrEqual 1 8016 8016 false false none (fun _ => true) 1),
    rows 1 [[(1, 8008)]],
    op (.request 0 .LessOrEqual 1 8024 8024 false false none (fun _ => true) 1),
    rows 1 [[(1, 8008)], [(1, 8024)]],
    op (.request 0 .LessOrEqual 1 8032 8032 false false none (fun _ => true) 1),
    rows 1 [[(1, 8008)], [(1, 8024)]],
    op (.request 0 .LessOrEqual 1 8040 8040 false false none (fun _ => true) 1),
    rows 1 [[(1, 8008)], [(1, 8024)], [(1, 8040)]],
    op (.request 0 .LessOrEqual 1 8048 8048 false false none (fun _ => true) 1),
    rows 1 [[(1, 8008)], [(1, 8024)], [(1, 8040)]],
    op (.destroySet 1),
    op (.destroyVault 0)] = true := by decide

/-- VaultUnitTests.cpp line 2261: RequestLessOrEqual, WrongKey. -/
theorem conf_vault_RequestLessOrEqual_WrongKey : runT Env.id [
    op .newVault,
    op .newSet,
    op (.addKey 0 1 8000),
    op (.addUniqueKey 0 2 1 true (fun _ _ _ => 0)),
    op (.createRow 0 [(1, 8008), (2, 417)]),
    op (.createRow 0 [(1, 8016), (2, 521)]),
    op (.createRow 0 [(1, 8024), (2, 625)]),
    res (.request 0 .LessOrEqual 3 8008 8008 false false none (fun _ => true) 1) false .WrongKey (some 3) (some 0) none,
    size 1 0,
    rows 1 [],
    op (.destroySet 1),
    op (.destroyVault 0)] = true := by decide

/-- VaultUnitTests.cpp line 2283: RequestLessOrEqual, WrongType. -/
theorem conf_vault_RequestLessOrEqual_WrongType : runT Env.id [
    op .newVault,
    op .newSet,
    op (.addKey 0 1 8000),
    op (.addUniqueKey 0 2 1 true (fun _ _ _ => 0)),
    op (.createRow 0 [(1, 8008), (2, 313)]),
    op (.createRow 0 [(1, 8016), (2, 417)]),
    op (.createRow 0 [(1, 8024), (2, 521)]),
    res (.request 0 .LessOrEqual 2 8008 8008 false false none (fun _ => true) 1) false .WrongType (some 2) (some 0) (some 1),
    size 1 0,
    rows 1 [],
    op (.destroySet 1),
    op (.destroyVault 0)] = true := by decide

/-- VaultUnitTests.cpp line 2305: RequestLessOrEqual, ValueNotInVault. -/
theorem conf_vault_RequestLessOrEqual_ValueNotInVault : runT Env.id [
    op .newVault,
    op .newSet,
    op (.addKey 0 1 8000),
    op (.addUniqueKey 0 2 1 true (fun _ _ _ => 0)),
    op (.createRow 0 [(1, 8008), (2, 313)]),
    op (.createRow 0 [(1, 8016), (2, 417)]),
    op (.createRow 0 [(1, 8024), (2, 521)]),
    res (.request 0 .LessOrEqual 1 8000 8000 false false none (fun _ => true) 1) true .Success (some 1) (some 0) (some 0),
    size 1 0,
    rows 1 [],
    op (.destroySet 1),
    op (.destroyVault 0)] = true := by decide

/-- VaultUnitTests.cpp line 2327: RequestInterval, CorrectRequest. -/
theorem conf_vault_RequestInterval_CorrectRequest : runT Env.id [
    op .newVault,
    op .newSet,
    op (.addKey 0 1 8000),
    op (.addUniqueKey 0 2 1 true (fun _ _ _ => 0)),
    op (.createRow 0 [(1, 8008), (2, 313)]),
    op (.createRow 0 [(1, 8016), (2, 417)]),
    op (.createRow 0 [(1, 8016), (2, 521)]),
    op (.createRow 0 [(1, 8024), (2, 529)]),
    op (.createRow 0 [(1, 8032), (2, 633)]),
    op (.createRow 0 [(1, 8032), (2, 737)]),
    op (.createRow 0 [(1, 8040), (2, 745)]),
    res (.request 0 .Interval 1 8016 8032 true true none (fun _ => true) 1) true .Success (some 1) (some 0) (some 0),
    size 1 5,
    rows 1 [[(1, 8016), (2, 417)], [(1, 8016), (2, 521)], [(1, 8024), (2, 529)], [(1, 8032), (2, 633)], [(1, 8032), (2, 737)]],
    op (.destroySet 1),
    op (.destroyVault 0)] = true := by decide

/-- VaultUnitTests.cpp line 2359: RequestInterval, CorrectRequestWithoutLeftBoundary. -/
theorem conf_vault_RequestInterval_CorrectRequestWithoutLeftBoundary : runT Env.id [
    op .newVault,
    op .newSet,
    op (.addKey 0 1 8000),
    op (.addUniqueKey 0 2 1 true (fun _ _ _ => 0)),
    op (.createRow 0 [(1, 8008), (2, 313)]),
    op (.createRow 0 [(1, 8016), (2, 417)]),
    op (.createRow 0 [(1, 8016), (2, 521)]),
    op (.createRow 0 [(1, 8024), (2, 529)]),
    op (.createRow 0 [(1, 8032), (2, 633)]),
    op (.createRow 0 [(1, 8032), (2, 737)]),
    op (.createRow 0 [(1, 8040), (2, 745)]),
    res (.request 0 .Interval 1 8016 8032 false true none (fun _ => true) 1) true .Success (some 1) (some 0) (some 0),
    size 1 3,
    rows 1 [[(1, 8024), (2, 529)], [(1, 8032), (2, 633)], [(1, 8032), (2, 737)]],
    op (.destroySet 1),
    op (.destroyVault 0)] = true := by decide

/-- VaultUnitTests.cpp line 2389: RequestInterval, CorrectRequestWithoutRightBoundary. -/
theorem conf_vault_RequestInterval_CorrectRequestWithoutRightBoundary : runT Env.id [
    op .newVault,
    op .newSet,
    op (.addKey 0 1 8000),
    op (.addUniqueKey 0 2 1 true (fun _ _ _ => 0)),
    op (.createRow 0 [(1, 8008), (2, 313)]),
    op (.createRow 0 [(1, 8016), (2, 417)]),
    op (.createRow 0 [(1, 8016), (2, 521)]),
    op (.createRow 0 [(1, 8024), (2, 529)]),
    op (.createRow 0 [(1, 8032), (2, 633)]),
    op (.createRow 0 [(1, 8032), (2, 737)]),
    op (.createRow 0 [(1, 8040), (2, 745)]),
    res (.request 0 .Interval 1 8016 8032 true false none (fun _ => true) 1) true .Success (some 1) (some 0) (some 0),
    size 1 3,
    rows 1 [[(1, 8016), (2, 417)], [(1, 8016), (2, 521)], [(1, 8024), (2, 529)]],
    op (.destroySet 1),
    op (.destroyVault 0)] = true := by decide

/-- VaultUnitTests.cpp line 2419: RequestInterval, CorrectRequestWithoutBoundaries. -/
theorem conf_vault_RequestInterval_CorrectRequestWithoutBoundaries : runT Env.id [
    op .newVault,
    op .newSet,
    op (.addKey 0 1 8000),
    op (.addUniqueKey 0 2 1 true (fun _ _ _ => 0)),
    op (.createRow 0 [(1, 8008), (2, 313)]),
    op (.createRow 0 [(1, 8016), (2, 417)]),
    op (.createRow 0 [(1, 8016), (2, 521)]),
    op (.createRow 0 [(1, 8024), (2, 529)]),
    op (.createRow 0 [(1, 8032), (2, 633)]),
    op (.createRow 0 [(1, 8032), (2, 737)]),
    op (.createRow 0 [(1, 8040), (2, 745)]),
    res (.request 0 .Interval 1 8016 8032 false false none (fun _ => true) 1) true .Success (some 1) (some 0) (some 0),
    size 1 1,
    rows 1 [[(1, 8024), (2, 529)]],
    op (.destroySet 1),
    op (.destroyVault 0)] = true := by decide

/-- VaultUnitTests.cpp line 2447: RequestInterval, CorrectRequestNotAllRecords. -/
theorem conf_vault_RequestInterval_CorrectRequestNotAllRecords : runT Env.id [
    op .newVault,
    op .newSet,
    op (.addKey 0 1 8000),
    op (.addUniqueKey 0 2 1 true (fun _ _ _ => 0)),
    op (.createRow 0 [(1, 8008), (2, 313)]),
    op (.createRow 0 [(1, 8016), (2, 417)]),
    op (.createRow 0 [(1, 8016), (2, 521)]),
    op (.createRow 0 [(1, 8024), (2, 529)]),
    op (.createRow 0 [(1, 8032), (2, 633)]),
    op (.createRow 0 [(1, 8032), (2, 737)]),
    op (.createRow 0 [(1, 8040), (2, 745)]),
    res (.request 0 .Interval 1 8016 8032 true true (some 3) (fun _ => true) 1) true .Success (some 1) (some 0) (some 0),
    size 1 3,
    res (.request 0 .Interval 1 8016 8032 true true (some 8) (fun _ => true) 1) true .Success (some 1) (some 0) (some 0),
    size 1 5,
    op (.destroySet 1),
    op (.destroyVault 0)] = true := by decide

/-- VaultUnitTests.cpp line 2479: RequestInterval, CorrectRequestWithPredicat. -/
theorem conf_vault_RequestInterval_CorrectRequestWithPredicat : runT Env.id [
    op .newVault,
    op .newSet,
    op (.addKey 0 1 8000),
    op (.addUniqueKey 0 2 1 true (fun _ _ _ => 0)),
    op (.createRow 0 [(1, 8008), (2, 313)]),
    op (.createRow 0 [(1, 8016), (2, 417)]),
    op (.createRow 0 [(1, 8016), (2, 521)]),
    op (.createRow 0 [(1, 8024), (2, 529)]),
    op (.createRow 0 [(1, 8032), (2, 633)]),
    op (.createRow 0 [(1, 8032), (2, 737)]),
    op (.createRow 0 [(1, 8040), (2, 745)]),
    resW (fun w => .request 0 .Interval 1 8016 8032 true true none (fun r => decide ((cell w r 2).any (fun v => decide (v ∈ ([521, 737, 745] : List TV))))) 1) true .Success (some 1) (some 0) (some 0),
    size 1 2,
    rows 1 [[(1, 8016), (2, 521)], [(1, 8032), (2, 737)]],
    op (.destroySet 1),
    op (.destroyVault 0)] = true := by decide

/-- VaultUnitTests.cpp line 2514: RequestInterval, BoundaryValues. -/
theorem conf_vault_RequestInterval_BoundaryValues : runT Env.id [
    op .newVault,
    op .newSet,
    op (.addKey 0 1 8000),
    op (.createRow 0 [(1, 8008)]),
    op (.createRow 0 [(1, 8040)]),
    op (.createRow 0 [(1, 8072)]),
    op (.request 0 .Interval 1 7992 8000 true true none (fun _ => true) 1),
    rows 1 [],
    op (.request 0 .Interval 1 7992 8000 false true none (fun _ => true) 1),
    rows 1 [],
    op (.request 0 .Interval 1 7992 8000 true false none (fun _ => true) 1),
    rows 1 [],
    op (.request 0 .Interval 1 7992 8000 false false none (fun _ => true) 1),
    rows 1 [],
    op (.request 0 .Interval 1 7992 8008 true true none (fun _ => true) 1),
    rows 1 [[(1, 8008)]],
    op (.request 0 .Interval 1 7992 8008 false true none (fun _ => true) 1),
    rows 1 [[(1, 8008)]],
    op (.request 0 .Interval 1 7992 8008 true false none (fun _ => true) 1),
    rows 1 [],
    op (.request 0 .Interval 1 7992 8008 false false none (fun _ => true) 1),
    rows 1 [],
    op (.request 0 .Interval 1 7992 8016 true true none (fun _ => true) 1),
    rows 1 [[(1, 8008)]],
    op (.request 0 .Interval 1 7992 8016 false true none (fun _ => true) 1),
    rows 1 [[(1, 8008)]],
    op (.request 0 .Interval 1 7992 8016 true false none (fun _ => true) 1),
    rows 1 [[(1, 8008)]],
    op (.request 0 .Interval 1 7992 8016 false false none (fun _ => true) 1),
    rows 1 [[(1, 8008)]],
    op (.request 0 .Interval 1 8008 8016 true true none (fun _ => true) 1),
    rows 1 [[(1, 8008)]],
    op (.request 0 .Interval 1 8008 8016 false true none (fun _ => true) 1),
    rows 1 [],
    op (.request 0 .Interval 1 8008 8016 true false none (fun _ => true) 1),
    rows 1 [[(1, 8008)]],
    op (.request 0 .Interval 1 8008 8016 false false none (fun _ => true) 1),
    rows 1 [],
    op (.request 0 .Interval 1 8016 8024 true true none (fun _ => true) 1),
    rows 1 [],
    op (.request 0 .Interval 1 8016 8024 false true none (fun _ => true) 1),
    rows 1 [],
    op (.request 0 .Interval 1 8016 8024 true false none (fun _ => true) 1),
    rows 1 [],
    op (.request 0 .Interval 1 8016 8024 false false none (fun _ => true) 1),
    rows 1 [],
    op (.request 0 .Interval 1 8016 8040 true true none (fun _ => true) 1),
    rows 1 [[(1, 8040)]],
    op (.request 0 .Interval 1 8016 8040 false true none (fun _ => true) 1),
    rows 1 [[(1, 8040)]],
    op (.request 0 .Interval 1 8016 8040 true false none (fun _ => true) 1),
    rows 1 [],
    op (.request 0 .Interval 1 8016 8040 false false none (fun _ => true) 1),
    rows 1 [],
    op (.request 0 .Interval 1 8016 8048 true true none (fun _ => true) 1),
    rows 1 [[(1, 8040)]],
    op (.request 0 .Interval 1 8016 8048 false true none (fun _ => true) 1),
    rows 1 [[(1, 8040)]],
    op (.request 0 .Interval 1 8016 8048 true false none (fun _ => true) 1),
    rows 1 [[(1, 8040)]],
    op (.request 0 .Interval 1 8016 8048 false false none (fun _ => true) 1),
    rows 1 [[(1, 8040)]],
    op (.request 0 .Interval 1 8040 8048 true true none (fun _ => true) 1),
    rows 1 [[(1, 8040)]],
    op (.request 0 .Interval 1 8040 8048 false true none (fun _ => true) 1),
    rows 1 [],
    op (.request 0 .Interval 1 8040 8048 true false none (fun _ => true) 1),
    rows 1 [[(1, 8040)]],
    op (.request 0 .Interval 1 8040 8048 false false none (fun _ => true) 1),
    rows 1 [],
    op (.request 0 .Interval 1 8048 8056 true true none (fun _ => true) 1),
    rows 1 [],
    op (.request 0 .Interval 1 8048 8056 false true none (fun _ => true) 1),
    rows 1 [],
    op (.request 0 .Interval 1 8048 8056 true false none (fun _ => true) 1),
    rows 1 [],
    op (.request 0 .Interval 1 8048 8056 false false none (fun _ => true) 1),
    rows 1 [],
    op (.request 0 .Interval 1 8048 8072 true true none (fun _ => true) 1),
    rows 1 [[(1, 8072)]],
    op (.request 0 .Interval 1 8048 8072 false true none (fun _ => true) 1),
    rows 1 [[(1, 8072)]],
    op (.request 0 .Interval 1 8048 8072 true false none (fun _ => true) 1),
    rows 1 [],
    op (.request 0 .Interval 1 8048 8072 false false none (fun _ => true) 1),
    rows 1 [],
    op (.request 0 .Interval 1 8048 8080 true true none (fun _ => true) 1),
    rows 1 [[(1, 8072)]],
    op (.request 0 .Interval 1 8048 8080 false true none (fun _ => true) 1),
    rows 1 [[(1, 8072)]],
    op (.request 0 .Interval 1 8048 8080 true false none (fun _ => true) 1),
    rows 1 [[(1, 8072)]],
    op (.request 0 .Interval 1 8048 8080 false false none (fun _ => true) 1),
    rows 1 [[(1, 8072)]],
    op (.request 0 .Interval 1 8072 8080 true true none (fun _ => true) 1),
    rows 1 [[(1, 8072)]],
    op (.request 0 .Interval 1 8072 8080 false true none (fun _ => true) 1),
    rows 1 [],
    op (.request 0 .Interval 1 8072 8080 true false none (fun _ => true) 1),
    rows 1 [[(1, 8072)]],
    op (.request 0 .Interval 1 8072 8080 false false none (fun _ => true) 1),
    rows 1 [],
    op (.request 0 .Interval 1 8080 8088 true true none (fun _ => true) 1),
    rows 1 [],
    op (.request 0 .Interval 1 8080 8088 false true none (fun _ => true) 1),
    rows 1 [],
    op (.request 0 .Interval 1 8080 8088 true false none (fun _ => true) 1),
    rows 1 [],
    op (.request 0 .Interval 1 8080 8088 false false none (fun _ => true) 1),
    rows 1 [],
    op (.destroySet 1),
    op (.destroyVault 0)] = true := by decide

/-- VaultUnitTests.cpp line 2708: RequestInterval, SameBoundaries. -/
theorem conf_vault_RequestInterval_SameBoundaries : runT Env.id [
    op .newVault,
    op .newSet,
    op (.addKey 0 1 8000),
    op (.addUniqueKey 0 2 1 true (fun _ _ _ => 0)),
    op (.createRow 0 [(1, 8008), (2, 313)]),
    op (.createRow 0 [(1, 8016), (2, 417)]),
    op (.createRow 0 [(1, 8016), (2, 521)]),
    op (.createRow 0 [(1, 8024), (2, 529)]),
    res (.request 0 .Interval 1 8016 8016 true true none (fun _ => true) 1) true .Success (some 1) (some 0) (some 0),
    size 1 2,
    rows 1 [[(1, 8016), (2, 417)], [(1, 8016), (2, 521)]],
    res (.request 0 .Interval 1 8016 8016 false true none (fun _ => true) 1) true .Success (some 1) (some 0) (some 0),
    size 1 0,
    rows 1 [],
    res (.request 0 .Interval 1 8016 8016 true false none (fun _ => true) 1) true .Success (some 1) (some 0) (some 0),
    size 1 0,
    rows 1 [],
    res (.request 0 .Interval 1 8016 8016 false false none (fun _ => true) 1) true .Success (some 1) (some 0) (some 0),
    size 1 0,
    rows 1 [],
    op (.destroySet 1),
    op (.destroyVault 0)] = true := by decide

/-- VaultUnitTests.cpp line 2761: RequestInterval, IncorrectBoundaries. -/
theorem conf_vault_RequestInterval_IncorrectBoundaries : runT Env.id [
    op .newVault,
    op .newSet,
    op (.addKey 0 1 8000),
    op (.addUniqueKey 0 2 1 true (fun _ _ _ => 0)),
    op (.createRow 0 [(1, 8008), (2, 313)]),
    op (.createRow 0 [(1, 8016), (2, 417)]),
    op (.createRow 0 [(1, 8016), (2, 521)]),
    op (.createRow 0 [(1, 8024), (2, 529)]),
    res (.request 0 .Interval 1 8016 7984 true true none (fun _ => true) 1) true .Success (some 1) (some 0) (some 0),
    size 1 0,
    rows 1 [],
    op (.destroySet 1),
    op (.destroyVault 0)] = true := by decide

/-- VaultUnitTests.cpp line 2783: RequestInterval, WrongKey. -/
theorem conf_vault_RequestInterval_WrongKey : runT Env.id [
    op .newVault,
    op .newSet,
    op (.addKey 0 1 8000),
    op (.addUniqueKey 0 2 1 true (fun _ _ _ => 0)),
    op (.createRow 0 [(1, 8008), (2, 417)]),
    op (.createRow 0 [(1, 8016), (2, 521)]),
    op (.createRow 0 [(1, 8024), (2, 625)]),
    res (.request 0 .Interval 3 8008 8008 true true none (fun _ => true) 1) false .WrongKey (some 3) (some 0) none,
    size 1 0,
    rows 1 [],
    op (.destroySet 1),
    op (.destroyVault 0)] = true := by decide

/-- VaultUnitTests.cpp line 2805: RequestInterval, WrongType. -/
theorem conf_vault_RequestInterval_WrongType : runT Env.id [
    op .newVault,
    op .newSet,
    op (.addKey 0 1 8000),
    op (.addUniqueKey 0 2 1 true (fun _ _ _ => 0)),
    op (.createRow 0 [(1, 8008), (2, 313)]),
    op (.createRow 0 [(1, 8016), (2, 417)]),
    op (.createRow 0 [(1, 8024), (2, 521)]),
    res (.request 0 .Interval 2 8008 8008 true true none (fun _ => true) 1) false .WrongType (some 2) (some 0) (some 1),
    size 1 0,
    rows 1 [],
    op (.destroySet 1),
    op (.destroyVault 0)] = true := by decide

/-- VaultUnitTests.cpp line 2827: Request, CorrectRequest. -/
theorem conf_vault_Request_CorrectRequest : runT Env.id [
    op .newVault,
    op .newSet,
    op (.addKey 0 1 8000),
    op (.createRow 0 [(1, 8000)]),
    op (.createRow 0 [(1, 8008)]),
    op (.createRow 0 [(1, 8016)]),
    op (.createRow 0 [(1, 8024)]),
    op (.createRow 0 [(1, 8032)]),
    op (.createRow 0 [(1, 8040)]),
    op (.createRow 0 [(1, 8048)]),
    op (.createRow 0 [(1, 8056)]),
    op (.createRow 0 [(1, 8064)]),
    op (.createRow 0 [(1, 8072)]),
    res (.requestTree 0 (.leaf .Equal 1 8016 (fun _ => true)) 1) true .Success none none none,
    rows 1 [[(1, 8016)]],
    res (.requestTree 0 (.leaf .Greater 1 8056 (fun _ => true)) 1) true .Success none none none,
    rows 1 [[(1, 8064)], [(1, 8072)]],
    res (.requestTree 0 (.leaf .GreaterOrEqual 1 8056 (fun _ => true)) 1) true .Success none none none,
    rows 1 [[(1, 8056)], [(1, 8064)], [(1, 8072)]],
    res (.requestTree 0 (.leaf .Less 1 8016 (fun _ => true)) 1) true .Success none none none,
    rows 1 [[(1, 8000)], [(1, 8008)]],
    res (.requestTree 0 (.leaf .LessOrEqual 1 8016 (fun _ => true)) 1) true .Success none none none,
    rows 1 [[(1, 8000)], [(1, 8008)], [(1, 8016)]],
    op (.destroySet 1),
    op (.destroyVault 0)] = true := by decide

/-- VaultUnitTests.cpp line 2853: Request, CorrectRequestWithPredicat. -/
theorem conf_vault_Request_CorrectRequestWithPredicat : runT Env.id [
    op .newVault,
    op .newSet,
    op (.addKey 0 1 8000),
    op (.addKey 0 2 8000),
    op (.createRow 0 [(1, 8000), (2, 8800)]),
    op (.createRow 0 [(1, 8008), (2, 8792)]),
    op (.createRow 0 [(1, 8016), (2, 8784)]),
    op (.createRow 0 [(1, 8024), (2, 8776)]),
    op (.createRow 0 [(1, 8032), (2, 8768)]),
    op (.createRow 0 [(1, 8040), (2, 8760)]),
    op (.createRow 0 [(1, 8048), (2, 8752)]),
    op (.createRow 0 [(1, 8056), (2, 8744)]),
    op (.createRow 0 [(1, 8064), (2, 8736)]),
    op (.createRow 0 [(1, 8072), (2, 8728)]),
    op (.createRow 0 [(1, 8040), (2, 8000)]),
    op (.createRow 0 [(1, 8040), (2, 8008)]),
    op (.createRow 0 [(1, 8040), (2, 8016)]),
    op (.createRow 0 [(1, 8040), (2, 8024)]),
    resW (fun w => .requestTree 0 (.leaf .Equal 1 8040 (fun r => decide ((cell w r 2).any (fun v => decide (v ∈ ([8000, 8016, 8032, 8048, 8064, 8736, 8752, 8768, 8784, 8800] : List TV)))))) 1) true .Success none none none,
    size 1 2,
    rows 1 [[(1, 8040), (2, 8000)], [(1, 8040), (2, 8016)]],
    resW (fun w => .requestTree 0 (.leaf .Greater 1 8056 (fun r => decide ((cell w r 2).any (fun v => decide (v ∈ ([8000, 8016, 8032, 8048, 8064, 8736, 8752, 8768, 8784, 8800] : List TV)))))) 1) true .Success none none none,
    size 1 1,
    rows 1 [[(1, 8064), (2, 8736)]],
    resW (fun w => .requestTree 0 (.leaf .GreaterOrEqual 1 8056 (fun r => decide ((cell w r 2).any (fun v => decide (v ∈ ([8000, 8016, 8032, 8048, 8064, 8736, 8752, 8768, 8784, 8800] : List TV)))))) 1) true .Success none none none,
    size 1 1,
    rows 1 [[(1, 8064), (2, 8736)]],
    resW (fun w => .requestTree 0 (.leaf .Less 1 8016 (fun r => decide ((cell w r 2).any (fun v => decide (v ∈ ([8000, 8016, 8032, 8048, 8064, 8736, 8752, 8768, 8784, 8800] : List TV)))))) 1) true .Success none none none,
    size 1 1,
    rows 1 [[(1, 8000), (2, 8800)]],
    resW (fun w => .requestTree 0 (.leaf .LessOrEqual 1 8016 (fun r => decide ((cell w r 2).any (fun v => decide (v ∈ ([8000, 8016, 8032, 8048, 8064, 8736, 8752, 8768, 8784, 8800] : List TV)))))) 1) true .Success none none none,
    size 1 2,
    rows 1 [[(1, 8000), (2, 8800)], [(1, 8016), (2, 8784)]],
    op (.destroySet 1),
    op (.destroyVault 0)] = true := by decide

/-- VaultUnitTests.cpp line 2953: Request, BoundaryValues. -/
theorem conf_vault_Request_BoundaryValues : runT Env.id [
    op .newVault,
    op .newSet,
    op (.addKey 0 1 8000),
    op (.createRow 0 [(1, 8008)]),
    op (.createRow 0 [(1, 8024)]),
    res (.requestTree 0 (.leaf .Greater 1 8000 (fun _ => true)) 1) true .Success none none none,
    rows 1 [[(1, 8008)], [(1, 8024)]],
    res (.requestTree 0 (.leaf .Greater 1 8008 (fun _ => true)) 1) true .Success none none none,
    rows 1 [[(1, 8024)]],
    res (.requestTree 0 (.leaf .Greater 1 8016 (fun _ => true)) 1) true .Success none none none,
    rows 1 [[(1, 8024)]],
    res (.requestTree 0 (.leaf .Greater 1 8024 (fun _ => true)) 1) true .Success none none none,
    rows 1 [],
    res (.requestTree 0 (.leaf .Greater 1 8032 (fun _ => true)) 1) true .Success none none none,
    rows 1 [],
    res (.requestTree 0 (.leaf .GreaterOrEqual 1 8000 (fun _ => true)) 1) true .Success none none none,
    rows 1 [[(1, 8008)], [(1, 8024)]],
    res (.requestTree 0 (.leaf .GreaterOrEqual 1 8008 (fun _ => true)) 1) true .Success none none none,
    rows 1 [[(1, 8008)], [(1, 8024)]],
    res (.requestTree 0 (.leaf .GreaterOrEqual 1 8016 (fun _ => true)) 1) true .Success none none none,
    rows 1 [[(1, 8024)]],
    res (.requestTree 0 (.leaf .GreaterOrEqual 1 8024 (fun _ => true)) 1) true .Success none none none,
    rows 1 [[(1, 8024)]],
    res (.requestTree 0 (.leaf .GreaterOrEqual 1 8032 (fun _ => true)) 1) true .Success none none none,
    rows 1 [],
    res (.requestTree 0 (.leaf .Less 1 8000 (fun _ => true)) 1) true .Success none none none,
    rows 1 [],
    res (.requestTree 0 (.leaf .Less 1 8008 (fun _ => true)) 1) true .Success none none none,
    rows 1 [],
    res (.requestTree 0 (.leaf .Less 1 8016 (fun _ => true)) 1) true .Success none none none,
    rows 1 [[(1, 8008)]],
    res (.requestTree 0 (.leaf .Less 1 8024 (fun _ => true)) 1) true .Success none none none,
    rows 1 [[(1, 8008)]],
    res (.requestTree 0 (.leaf .Less 1 8032 (fun _ => true)) 1) true .Success none none none,
    rows 1 [[(1, 8008)], [(1, 8024)]],
    res (.requestTree 0 (.leaf .LessOrEqual 1 8000 (fun _ => true)) 1) true .Success none none none,
    rows 1 [],
    res (.requestTree 0 (.leaf .LessOrEqual 1 8008 (fun _ => true)) 1) true .Success none none none,
    rows 1 [[(1, 8008)]],
    res (.requestTree 0 (.leaf .LessOrEqual 1 8016 (fun _ => true)) 1) true .Success none none none,
    rows 1 [[(1, 8008)]],
    res (.requestTree 0 (.leaf .LessOrEqual 1 8024 (fun _ => true)) 1) true .Success none none none,
    rows 1 [[(1, 8008)], [(1, 8024)]],
    res (.requestTree 0 (.leaf .LessOrEqual 1 8032 (fun _ => true)) 1) true .Success none none none,
    rows 1 [[(1, 8008)], [(1, 8024)]],
    op (.destroySet 1),
    op (.destroyVault 0)] = true := by decide

/-- VaultUnitTests.cpp line 3054: Request, WrongKey. -/
theorem conf_vault_Request_WrongKey : runT Env.id [
    op .newVault,
    op .newSet,
    op (.addKey 0 1 8000),
    op (.createRow 0 [(1, 8000)]),
    op (.createRow 0 [(1, 8008)]),
    op (.createRow 0 [(1, 8016)]),
    op (.createRow 0 [(1, 8024)]),
    op (.createRow 0 [(1, 8032)]),
    op (.createRow 0 [(1, 8040)]),
    op (.createRow 0 [(1, 8048)]),
    op (.createRow 0 [(1, 8056)]),
    op (.createRow 0 [(1, 8064)]),
    op (.createRow 0 [(1, 8072)]),
    res (.requestTree 0 (.leaf .Equal 2 8016 (fun _ => true)) 1) false .WrongKey (some 2) (some 0) none,
    size 1 0,
    rows 1 [],
    res (.requestTree 0 (.leaf .Greater 2 8056 (fun _ => true)) 1) false .WrongKey (some 2) (some 0) none,
    size 1 0,
    rows 1 [],
    res (.requestTree 0 (.leaf .GreaterOrEqual 2 8056 (fun _ => true)) 1) false .WrongKey (some 2) (some 0) none,
    size 1 0,
    rows 1 [],
    res (.requestTree 0 (.leaf .Less 2 8016 (fun _ => true)) 1) false .WrongKey (some 2) (some 0) none,
    size 1 0,
    rows 1 [],
    res (.requestTree 0 (.leaf .LessOrEqual 2 8016 (fun _ => true)) 1) false .WrongKey (some 2) (some 0) none,
    size 1 0,
    rows 1 [],
    op (.destroySet 1),
    op (.destroyVault 0)] = true := by decide

/-- VaultUnitTests.cpp line 3118: Request, WrongType. -/
theorem conf_vault_Request_WrongType : runT Env.id [
    op .newVault,
    op .newSet,
    op (.addKey 0 1 8000),
    op (.createRow 0 [(1, 8000)]),
    op (.createRow 0 [(1, 8008)]),
    op (.createRow 0 [(1, 8016)]),
    op (.createRow 0 [(1, 8024)]),
    op (.createRow 0 [(1, 8032)]),
    op (.createRow 0 [(1, 8040)]),
    op (.createRow 0 [(1, 8048)]),
    op (.createRow 0 [(1, 8056)]),
    op (.createRow 0 [(1, 8064)]),
    op (.createRow 0 [(1, 8072)]),
    res (.requestTree 0 (.leaf .Equal 1 1 (fun _ => true)) 1) false .WrongType (some 1) (some 1) (some 0),
    size 1 0,
    rows 1 [],
    res (.requestTree 0 (.leaf .Greater 1 1 (fun _ => true)) 1) false .WrongType (some 1) (some 1) (some 0),
    size 1 0,
    rows 1 [],
    res (.requestTree 0 (.leaf .GreaterOrEqual 1 1 (fun _ => true)) 1) false .WrongType (some 1) (some 1) (some 0),
    size 1 0,
    rows 1 [],
    res (.requestTree 0 (.leaf .Less 1 1 (fun _ => true)) 1) false .WrongType (some 1) (some 1) (some 0),
    size 1 0,
    rows 1 [],
    res (.requestTree 0 (.leaf .LessOrEqual 1 1 (fun _ => true)) 1) false .WrongType (some 1) (some 1) (some 0),
    size 1 0,
    rows 1 [],
    op (.destroySet 1),
    op (.destroyVault 0)] = true := by decide

/-- VaultUnitTests.cpp line 3183: Request, ComplexRequestAnd. -/
theorem conf_vault_Request_ComplexRequestAnd : runT Env.id [
    op .newVault,
    op .newSet,
    op (.addKey 0 1 8000),
    op (.addKey 0 2 8000),
    op (.createRow 0 [(1, 8000), (2, 8000)]),
    op (.createRow 0 [(1, 8008), (2, 8008)]),
    op (.createRow 0 [(1, 8016), (2, 8016)]),
    op (.createRow 0 [(1, 8024), (2, 8024)]),
    op (.createRow 0 [(1, 8032), (2, 8032)]),
    op (.createRow 0 [(1, 8040), (2, 8040)]),
    op (.createRow 0 [(1, 8048), (2, 8048)]),
    op (.createRow 0 [(1, 8056), (2, 8056)]),
    op (.createRow 0 [(1, 8064), (2, 8064)]),
    op (.createRow 0 [(1, 8072), (2, 8072)]),
    res (.requestTree 0 (.and (.leaf .Equal 1 8016 (fun _ => true)) (.leaf .Equal 2 8016 (fun _ => true))) 1) true .Success none none none,
    rows 1 [[(1, 8016), (2, 8016)]],
    res (.requestTree 0 (.and (.leaf .Equal 1 8016 (fun _ => true)) (.leaf .Equal 2 8024 (fun _ => true))) 1) true .Success none none none,
    rows 1 [],
    res (.requestTree 0 (.and (.leaf .Equal 1 8016 (fun _ => true)) (.leaf .Greater 2 8008 (fun _ => true))) 1) true .Success none none none,
    rows 1 [[(1, 8016), (2, 8016)]],
    res (.requestTree 0 (.and (.leaf .Equal 1 8016 (fun _ => true)) (.leaf .GreaterOrEqual 2 8016 (fun _ => true))) 1) true .Success none none none,
    rows 1 [[(1, 8016), (2, 8016)]],
    res (.requestTree 0 (.and (.leaf .Equal 1 8016 (fun _ => true)) (.leaf .Less 2 8040 (fun _ => true))) 1) true .Success none none none,
    rows 1 [[(1, 8016), (2, 8016)]],
    res (.requestTree 0 (.and (.leaf .Equal 1 8016 (fun _ => true)) (.leaf .LessOrEqual 2 8016 (fun _ => true))) 1) true .Success none none none,
    rows 1 [[(1, 8016), (2, 8016)]],
    res (.requestTree 0 (.and (.leaf .Greater 1 8016 (fun _ => true)) (.leaf .Equal 2 8072 (fun _ => true))) 1) true .Success none none none,
    rows 1 [[(1, 8072), (2, 8072)]],
    res (.requestTree 0 (.and (.leaf .Greater 1 8056 (fun _ => true)) (.leaf .Greater 2 8008 (fun _ => true))) 1) true .Success none none none,
    rows 1 [[(1, 8064), (2, 8064)], [(1, 8072), (2, 8072)]],
    res (.requestTree 0 (.and (.leaf .Greater 1 8064 (fun _ => true)) (.leaf .GreaterOrEqual 2 8064 (fun _ => true))) 1) true .Success none none none,
    rows 1 [[(1, 8072), (2, 8072)]],
    res (.requestTree 0 (.and (.leaf .Greater 1 8016 (fun _ => true)) (.leaf .Less 2 8032 (fun _ => true))) 1) true .Success none none none,
    rows 1 [[(1, 8024), (2, 8024)]],
    res (.requestTree 0 (.and (.leaf .Greater 1 8016 (fun _ => true)) (.leaf .LessOrEqual 2 8024 (fun _ => true))) 1) true .Success none none none,
    rows 1 [[(1, 8024), (2, 8024)]],
    res (.requestTree 0 (.and (.leaf .GreaterOrEqual 1 8016 (fun _ => true)) (.leaf .Equal 2 8040 (fun _ => true))) 1) true .Success none none none,
    rows 1 [[(1, 8040), (2, 8040)]],
    res (.requestTree 0 (.and (.leaf .GreaterOrEqual 1 8064 (fun _ => true)) (.leaf .Greater 2 8008 (fun _ => true))) 1) true .Success none none none,
    rows 1 [[(1, 8064), (2, 8064)], [(1, 8072), (2, 8072)]],
    res (.requestTree 0 (.and (.leaf .GreaterOrEqual 1 8064 (fun _ => true)) (.leaf .GreaterOrEqual 2 8072 (fun _ => true))) 1) true .Success none none none,
    rows 1 [[(1, 8072), (2, 8072)]],
    res (.requestTree 0 (.and (.leaf .GreaterOrEqual 1 8016 (fun _ => true)) (.leaf .Less 2 8032 (fun _ => true))) 1) true .Success none none none,
    rows 1 [[(1, 8016), (2, 8016)], [(1, 8024), (2, 8024)]],
    res (.requestTree 0 (.and (.leaf .GreaterOrEqual 1 8016 (fun _ => true)) (.leaf .LessOrEqual 2 8024 (fun _ => true))) 1) true .Success none none none,
    rows 1 [[(1, 8016), (2, 8016)], [(1, 8024), (2, 8024)]],
    res (.requestTree 0 (.and (.leaf .Less 1 8056 (fun _ => true)) (.leaf .Equal 2 8040 (fun _ => true))) 1) true .Success none none none,
    rows 1 [[(1, 8040), (2, 8040)]],
    res (.requestTree 0 (.and (.leaf .Less 1 8024 (fun _ => true)) (.leaf .Greater 2 8008 (fun _ => true))) 1) true .Success none none none,
    rows 1 [[(1, 8016), (2, 8016)]],
    res (.requestTree 0 (.and (.leaf .Less 1 8064 (fun _ => true)) (.leaf .GreaterOrEqual 2 8056 (fun _ => true))) 1) true .Success none none none,
    rows 1 [[(1, 8056), (2, 8056)]],
    res (.requestTree 0 (.and (.leaf .Less 1 8016 (fun _ => true)) (.leaf .Less 2 8032 (fun _ => true))) 1) true .Success none none none,
    rows 1 [[(1, 8000), (2, 8000)], [(1, 8008), (2, 8008)]],
    res (.requestTree 0 (.and (.leaf .Less 1 8016 (fun _ => true)) (.leaf .LessOrEqual 2 8008 (fun _ => true))) 1) true .Success none none none,
    rows 1 [[(1, 8000), (2, 8000)], [(1, 8008), (2, 8008)]],
    res (.requestTree 0 (.and (.leaf .LessOrEqual 1 8056 (fun _ => true)) (.leaf .Equal 2 8040 (fun _ => true))) 1) true .Success none none none,
    rows 1 [[(1, 8040), (2, 8040)]],
    res (.requestTree 0 (.and (.leaf .LessOrEqual 1 8024 (fun _ => true)) (.leaf .Greater 2 8016 (fun _ => true))) 1) true .Success none none none,
    rows 1 [[(1, 8024), (2, 8024)]],
    res (.requestTree 0 (.and (.leaf .LessOrEqual 1 8064 (fun _ => true)) (.leaf .GreaterOrEqual 2 8064 (fun _ => true))) 1) true .Success none none none,
    rows 1 [[(1, 8064), (2, 8064)]],
    res (.requestTree 0 (.and (.leaf .LessOrEqual 1 8016 (fun _ => true)) (.leaf .Less 2 8032 (fun _ => true))) 1) true .Success none none none,
    rows 1 [[(1, 8000), (2, 8000)], [(1, 8008), (2, 8008)], [(1, 8016), (2, 8016)]],
    res (.requestTree 0 (.and (.leaf .LessOrEqual 1 8016 (fun _ => true)) (.leaf .LessOrEqual 2 8008 (fun _ => true))) 1) true .Success none none none,
    rows 1 [[(1, 8000), (2, 8000)], [(1, 8008), (2, 8008)]],
    op (.destroySet 1),
    op (.destroyVault 0)] = true := by decide

/-- VaultUnitTests.cpp line 3256: Request, ComplexRequestOr. -/
theorem conf_vault_Request_ComplexRequestOr : runT Env.id [
    op .newVault,
    op .newSet,
    op (.addKey 0 1 8000),
    op (.addKey 0 2 8000),
    op (.createRow 0 [(1, 8000), (2, 8000)]),
    op (.createRow 0 [(1, 8008), (2, 8008)]),
    op (.createRow 0 [(1, 8016), (2, 8016)]),
    op (.createRow 0 [(1, 8024), (2, 8024)]),
    op (.createRow 0 [(1, 8032), (2, 8032)]),
    op (.createRow 0 [(1, 8040), (2, 8040)]),
    op (.createRow 0 [(1, 8048), (2, 8048)]),
    op (.createRow 0 [(1, 8056), (2, 8056)]),
    op (.createRow 0 [(1, 8064), (2, 8064)]),
    op (.createRow 0 [(1, 8072), (2, 8072)]),
    res (.requestTree 0 (.or (.leaf .Equal 1 8016 (fun _ => true)) (.leaf .Equal 2 8024 (fun _ => true))) 1) true .Success none none none,
    rows 1 [[(1, 8016), (2, 8016)], [(1, 8024), (2, 8024)]],
    res (.requestTree 0 (.or (.leaf .Equal 1 8016 (fun _ => true)) (.leaf .Greater 2 8064 (fun _ => true))) 1) true .Success none none none,
    rows 1 [[(1, 8016), (2, 8016)], [(1, 8072), (2, 8072)]],
    res (.requestTree 0 (.or (.leaf .Equal 1 8016 (fun _ => true)) (.leaf .GreaterOrEqual 2 8072 (fun _ => true))) 1) true .Success none none none,
    rows 1 [[(1, 8016), (2, 8016)], [(1, 8072), (2, 8072)]],
    res (.requestTree 0 (.or (.leaf .Equal 1 8016 (fun _ => true)) (.leaf .Less 2 8016 (fun _ => true))) 1) true .Success none none none,
    rows 1 [[(1, 8000), (2, 8000)], [(1, 8008), (2, 8008)], [(1, 8016), (2, 8016)]],
    res (.requestTree 0 (.or (.leaf .Equal 1 8016 (fun _ => true)) (.leaf .LessOrEqual 2 8008 (fun _ => true))) 1) true .Success none none none,
    rows 1 [[(1, 8000), (2, 8000)], [(1, 8008), (2, 8008)], [(1, 8016), (2, 8016)]],
    res (.requestTree 0 (.or (.leaf .Greater 1 8064 (fun _ => true)) (.leaf .Equal 2 8000 (fun _ => true))) 1) true .Success none none none,
    rows 1 [[(1, 8000), (2, 8000)], [(1, 8072), (2, 8072)]],
    res (.requestTree 0 (.or (.leaf .Greater 1 8064 (fun _ => true)) (.leaf .Greater 2 8080 (fun _ => true))) 1) true .Success none none none,
    rows 1 [[(1, 8072), (2, 8072)]],
    res (.requestTree 0 (.or (.leaf .Greater 1 8064 (fun _ => true)) (.leaf .GreaterOrEqual 2 8072 (fun _ => true))) 1) true .Success none none none,
    rows 1 [[(1, 8072), (2, 8072)]],
    res (.requestTree 0 (.or (.leaf .Greater 1 8064 (fun _ => true)) (.leaf .Less 2 8008 (fun _ => true))) 1) true .Success none none none,
    rows 1 [[(1, 8000), (2, 8000)], [(1, 8072), (2, 8072)]],
    res (.requestTree 0 (.or (.leaf .Greater 1 8064 (fun _ => true)) (.leaf .LessOrEqual 2 8000 (fun _ => true))) 1) true .Success none none none,
    rows 1 [[(1, 8000), (2, 8000)], [(1, 8072), (2, 8072)]],
    res (.requestTree 0 (.or (.leaf .GreaterOrEqual 1 8072 (fun _ => true)) (.leaf .Equal 2 8040 (fun _ => true))) 1) true .Success none none none,
    rows 1 [[(1, 8040), (2, 8040)], [(1, 8072), (2, 8072)]],
    res (.requestTree 0 (.or (.leaf .GreaterOrEqual 1 8064 (fun _ => true)) (.leaf .Greater 2 8064 (fun _ => true))) 1) true .Success none none none,
    rows 1 [[(1, 8064), (2, 8064)], [(1, 8072), (2, 8072)]],
    res (.requestTree 0 (.or (.leaf .GreaterOrEqual 1 8064 (fun _ => true)) (.leaf .GreaterOrEqual 2 8072 (fun _ => true))) 1) true .Success none none none,
    rows 1 [[(1, 8064), (2, 8064)], [(1, 8072), (2, 8072)]],
    res (.requestTree 0 (.or (.leaf .GreaterOrEqual 1 8072 (fun _ => true)) (.leaf .Less 2 8008 (fun _ => true))) 1) true .Success none none none,
    rows 1 [[(1, 8000), (2, 8000)], [(1, 8072), (2, 8072)]],
    res (.requestTree 0 (.or (.leaf .GreaterOrEqual 1 8072 (fun _ => true)) (.leaf .LessOrEqual 2 8000 (fun _ => true))) 1) true .Success none none none,
    rows 1 [[(1, 8000), (2, 8000)], [(1, 8072), (2, 8072)]],
    res (.requestTree 0 (.or (.leaf .Less 1 8008 (fun _ => true)) (.leaf .Equal 2 8040 (fun _ => true))) 1) true .Success none none none,
    rows 1 [[(1, 8000), (2, 8000)], [(1, 8040), (2, 8040)]],
    res (.requestTree 0 (.or (.leaf .Less 1 8008 (fun _ => true)) (.leaf .Greater 2 8064 (fun _ => true))) 1) true .Success none none none,
    rows 1 [[(1, 8000), (2, 8000)], [(1, 8072), (2, 8072)]],
    res (.requestTree 0 (.or (.leaf .Less 1 8008 (fun _ => true)) (.leaf .GreaterOrEqual 2 8072 (fun _ => true))) 1) true .Success none none none,
    rows 1 [[(1, 8000), (2, 8000)], [(1, 8072), (2, 8072)]],
    res (.requestTree 0 (.or (.leaf .Less 1 8016 (fun _ => true)) (.leaf .Less 2 8008 (fun _ => true))) 1) true .Success none none none,
    rows 1 [[(1, 8000), (2, 8000)], [(1, 8008), (2, 8008)]],
    res (.requestTree 0 (.or (.leaf .Less 1 8008 (fun _ => true)) (.leaf .LessOrEqual 2 8008 (fun _ => true))) 1) true .Success none none none,
    rows 1 [[(1, 8000), (2, 8000)], [(1, 8008), (2, 8008)]],
    res (.requestTree 0 (.or (.leaf .LessOrEqual 1 8008 (fun _ => true)) (.leaf .Equal 2 8040 (fun _ => true))) 1) true .Success none none none,
    rows 1 [[(1, 8000), (2, 8000)], [(1, 8008), (2, 8008)], [(1, 8040), (2, 8040)]],
    res (.requestTree 0 (.or (.leaf .LessOrEqual 1 8008 (fun _ => true)) (.leaf .Greater 2 8064 (fun _ => true))) 1) true .Success none none none,
    rows 1 [[(1, 8000), (2, 8000)], [(1, 8008), (2, 8008)], [(1, 8072), (2, 8072)]],
    res (.requestTree 0 (.or (.leaf .LessOrEqual 1 8008 (fun _ => true)) (.leaf .GreaterOrEqual 2 8072 (fun _ => true))) 1) true .Success none none none,
    rows 1 [[(1, 8000), (2, 8000)], [(1, 8008), (2, 8008)], [(1, 8072), (2, 8072)]],
    res (.requestTree 0 (.or (.leaf .LessOrEqual 1 8008 (fun _ => true)) (.leaf .Less 2 8024 (fun _ => true))) 1) true .Success none none none,
    rows 1 [[(1, 8000), (2, 8000)], [(1, 8008), (2, 8008)], [(1, 8016), (2, 8016)]],
    res (.requestTree 0 (.or (.leaf .LessOrEqual 1 8016 (fun _ => true)) (.leaf .LessOrEqual 2 8008 (fun _ => true))) 1) true .Success none none none,
    rows 1 [[(1, 8000), (2, 8000)], [(1, 8008), (2, 8008)], [(1, 8016), (2, 8016)]],
    op (.destroySet 1),
    op (.destroyVault 0)] = true := by decide

/-- VaultUnitTests.cpp line 3327: Request, ComplexRequest. -/
theorem conf_vault_Request_ComplexRequest : runT Env.id [
    op .newVault,
    op .newSet,
    op .newRef,
    op (.addKey 0 1 8000),
    op (.addKey 0 2 8000),
    op (.addKey 0 3 1),
    op (.addKey 0 4 3),
    op (.createRecord 0 0 [(1, 8000), (2, 8000), (3, 9)]),
    op (.createRecord 0 0 [(1, 8008), (2, 8008), (3, 17)]),
    op (.createRecord 0 0 [(1, 8016), (2, 8016), (3, 41)]),
    op (.createRecord 0 0 [(1, 8024), (2, 8024), (3, 49)]),
    op (.createRecord 0 0 [(1, 8032), (2, 8032), (3, 153)]),
    op (.createRecord 0 0 [(1, 8040), (2, 8040), (3, 257)]),
    op (.refSetData 0 4 11),
    op (.createRecord 0 0 [(1, 8048), (2, 8048), (3, 361)]),
    op (.createRecord 0 0 [(1, 8056), (2, 8056), (3, 369)]),
    op (.createRecord 0 0 [(1, 8064), (2, 8064), (3, 377)]),
    op (.createRecord 0 0 [(1, 8072), (2, 8072), (3, 385)]),
    op (.refSetData 0 4 11),
    op (.requestTree 0 (.or (.and (.and (.leaf .Greater 1 8016 (fun _ => true)) (.leaf .Less 2 8064 (fun _ => true))) (.or (.leaf .Equal 3 49 (fun _ => true)) (.leaf .Equal 3 153 (fun _ => true)))) (.leaf .Equal 4 11 (fun _ => true))) 1),
    rows 1 [[(1, 8024), (2, 8024), (3, 49), (4, 3)], [(1, 8032), (2, 8032), (3, 153), (4, 3)], [(1, 8040), (2, 8040), (3, 257), (4, 11)], [(1, 8072), (2, 8072), (3, 385), (4, 11)]],
    op (.refReset 0),
    op (.destroySet 1),
    op (.destroyVault 0)] = true := by decide

/-- VaultUnitTests.cpp line 3354: Request, ComplexRequestInterval. -/
theorem conf_vault_Request_ComplexRequestInterval : runT Env.id [
    op .newVault,
    op .newSet,
    op .newRef,
    op (.addKey 0 1 8000),
    op (.addKey 0 2 8000),
    op (.addKey 0 3 1),
    op (.addKey 0 4 3),
    op (.createRecord 0 0 [(1, 8000), (2, 8000), (3, 9)]),
    op (.createRecord 0 0 [(1, 8008), (2, 8008), (3, 17)]),
    op (.createRecord 0 0 [(1, 8016), (2, 8016), (3, 41)]),
    op (.createRecord 0 0 [(1, 8024), (2, 8024), (3, 49)]),
    op (.createRecord 0 0 [(1, 8032), (2, 8032), (3, 57)]),
    op (.createRecord 0 0 [(1, 8040), (2, 8040), (3, 161)]),
    op (.refSetData 0 4 11),
    op (.createRecord 0 0 [(1, 8048), (2, 8048), (3, 265)]),
    op (.createRecord 0 0 [(1, 8056), (2, 8056), (3, 369)]),
    op (.createRecord 0 0 [(1, 8064), (2, 8064), (3, 377)]),
    op (.createRecord 0 0 [(1, 8072), (2, 8072), (3, 385)]),
    op (.refSetData 0 4 11),
    op (.requestTree 0 (.and (.leaf .Greater 1 8024 (fun _ => true)) (.leaf .Less 1 8056 (fun _ => true))) 1),
    rows 1 [[(1, 8032), (2, 8032), (3, 57), (4, 3)], [(1, 8040), (2, 8040), (3, 161), (4, 11)], [(1, 8048), (2, 8048), (3, 265), (4, 3)]],
    opW (fun w => .requestTree 0 (.and (.leaf .Greater 1 8024 (fun r => decide ((cell w r 4).any (fun v => decide (v ∈ ([3] : List TV)))))) (.leaf .Less 1 8056 (fun _ => true))) 1),
    rows 1 [[(1, 8032), (2, 8032), (3, 57), (4, 3)], [(1, 8048), (2, 8048), (3, 265), (4, 3)]],
    op (.refReset 0),
    op (.destroySet 1),
    op (.destroyVault 0)] = true := by decide

/-- VaultUnitTests.cpp line 3393: Request, ComplexRequestWrongKey. -/
theorem conf_vault_Request_ComplexRequestWrongKey : runT Env.id [
    op .newVault,
    op .newSet,
    op (.addKey 0 1 8000),
    op (.addKey 0 2 8000),
    op (.createRow 0 [(1, 8000), (2, 8000)]),
    op (.createRow 0 [(1, 8008), (2, 8008)]),
    op (.createRow 0 [(1, 8016), (2, 8016)]),
    op (.createRow 0 [(1, 8024), (2, 8024)]),
    op (.createRow 0 [(1, 8032), (2, 8032)]),
    op (.createRow 0 [(1, 8040), (2, 8040)]),
    op (.createRow 0 [(1, 8048), (2, 8048)]),
    op (.createRow 0 [(1, 8056), (2, 8056)]),
    op (.createRow 0 [(1, 8064), (2, 8064)]),
    op (.createRow 0 [(1, 8072), (2, 8072)]),
    res (.requestTree 0 (.and (.leaf .Equal 1 8000 (fun _ => true)) (.leaf .Equal 3 8000 (fun _ => true))) 1) false .WrongKey (some 3) (some 0) none,
    size 1 0,
    rows 1 [],
    res (.requestTree 0 (.and (.leaf .Equal 3 8000 (fun _ => true)) (.leaf .Equal 4 8000 (fun _ => true))) 1) false .WrongKey (some 3) (some 0) none,
    size 1 0,
    rows 1 [],
    op (.destroySet 1),
    op (.destroyVault 0)] = true := by decide

/-- VaultUnitTests.cpp line 3423: Request, ComplexRequestWrongType. -/
theorem conf_vault_Request_ComplexRequestWrongType : runT Env.id [
    op .newVault,
    op .newSet,
    op (.addKey 0 1 8000),
    op (.addKey 0 2 8000),
    op (.createRow 0 [(1, 8000), (2, 8000)]),
    op (.createRow 0 [(1, 8008), (2, 8008)]),
    op (.createRow 0 [(1, 8016), (2, 8016)]),
    op (.createRow 0 [(1, 8024), (2, 8024)]),
    op (.createRow 0 [(1, 8032), (2, 8032)]),
    op (.createRow 0 [(1, 8040), (2, 8040)]),
    op (.createRow 0 [(1, 8048), (2, 8048)]),
    op (.createRow 0 [(1, 8056), (2, 8056)]),
    op (.createRow 0 [(1, 8064), (2, 8064)]),
    op (.createRow 0 [(1, 8072), (2, 8072)]),
    res (.requestTree 0 (.and (.leaf .Equal 1 8000 (fun _ => true)) (.leaf .Equal 2 1 (fun _ => true))) 1) false .WrongType (some 2) (some 1) (some 0),
    size 1 0,
    rows 1 [],
    res (.requestTree 0 (.and (.leaf .Equal 1 1 (fun _ => true)) (.leaf .Equal 2 8000 (fun _ => true))) 1) false .WrongType (some 1) (some 1) (some 0),
    size 1 0,
    rows 1 [],
    op (.destroySet 1),
    op (.destroyVault 0)] = true := by decide

/-- VaultUnitTests.cpp line 3454: DropVault, Drop. -/
theorem conf_vault_DropVault_Drop : runT Env.id [
    op .newVault,
    op (.addKey 0 1 8000),
    op (.addUniqueKey 0 2 0 true (fun _ _ _ => 0)),
    op (.createRow 0 [(1, 8000), (2, 8000)]),
    op (.createRow 0 [(1, 8008), (2, 8008)]),
    op (.createRow 0 [(1, 8016), (2, 8016)]),
    op (.createRow 0 [(1, 8024), (2, 8024)]),
    op (.createRow 0 [(1, 8032), (2, 8032)]),
    op (.createRow 0 [(1, 8040), (2, 8040)]),
    op (.createRow 0 [(1, 8048), (2, 8048)]),
    op (.createRow 0 [(1, 8056), (2, 8056)]),
    op (.createRow 0 [(1, 8064), (2, 8064)]),
    op (.createRow 0 [(1, 8072), (2, 8072)]),
    op (.dropVault 0),
    size 0 0,
    keys 0 [],
    uniq 0 [],
    rows 0 [],
    op (.destroyVault 0)] = true := by decide

/-- VaultUnitTests.cpp line 3471: DropVault, DropEmpty. -/
theorem conf_vault_DropVault_DropEmpty : runT Env.id [
    op .newVault,
    op (.dropVault 0),
    size 0 0,
    keys 0 [],
    uniq 0 [],
    rows 0 [],
    op (.destroyVault 0)] = true := by decide

/-- VaultUnitTests.cpp line 3483: DropVault, DropSecond. -/
theorem conf_vault_DropVault_DropSecond : runT Env.id [
    op .newVault,
    op (.addKey 0 1 8000),
    op (.addUniqueKey 0 2 0 true (fun _ _ _ => 0)),
    op (.createRow 0 [(1, 8000), (2, 8000)]),
    op (.createRow 0 [(1, 8008), (2, 8008)]),
    op (.createRow 0 [(1, 8016), (2, 8016)]),
    op (.createRow 0 [(1, 8024), (2, 8024)]),
    op (.createRow 0 [(1, 8032), (2, 8032)]),
    op (.createRow 0 [(1, 8040), (2, 8040)]),
    op (.createRow 0 [(1, 8048), (2, 8048)]),
    op (.createRow 0 [(1, 8056), (2, 8056)]),
    op (.createRow 0 [(1, 8064), (2, 8064)]),
    op (.createRow 0 [(1, 8072), (2, 8072)]),
    op (.dropVault 0),
    op (.dropVault 0),
    size 0 0,
    keys 0 [],
    uniq 0 [],
    rows 0 [],
    op (.destroyVault 0)] = true := by decide

end MVault.Conf
