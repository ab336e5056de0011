import Verif.ConfBase
/- Generated by conformance/gen.py from the unit tests of the project: validation of the model. -/
set_option maxRecDepth 100000
namespace MVault.Conf
open MVault.W

/-- VaultRecordRefUnitTests.cpp line 212: OperatorNonComparison, CompareWithoutParents. -/
theorem conf_ref_OperatorNonComparison_CompareWithoutParents : runT Env.id [
    op .newRef,
    op .newRef,
    refsNe 0 1 false,
    op (.refReset 1),
    op (.refReset 0)] = true := by decide

/-- VaultRecordRefUnitTests.cpp line 218: OperatorNonComparison, CompareWithParentToWithoutParent. -/
theorem conf_ref_OperatorNonComparison_CompareWithParentToWithoutParent : runT Env.id [
    op .newVault,
    op .newRef,
    op .newRef,
    op (.addKey 0 1 8000),
    op (.createRow 0 [(1, 8000)]),
    op (.getRecord 0 1 8000 1),
    refsNe 0 1 true,
    refsNe 1 0 true,
    op (.refReset 1),
    op (.refReset 0),
    op (.destroyVault 0)] = true := by decide

/-- VaultRecordRefUnitTests.cpp line 230: OperatorNonComparison, Compare. -/
theorem conf_ref_OperatorNonComparison_Compare : runT Env.id [
    op .newVault,
    op .newRef,
    op .newRef,
    op (.addKey 0 1 8000),
    op (.createRow 0 [(1, 8000)]),
    op (.createRow 0 [(1, 8008)]),
    op (.getRecord 0 1 8000 0),
    op (.getRecord 0 1 8000 1),
    refsNe 0 1 false,
    op (.getRecord 0 1 8008 1),
    refsNe 0 1 true,
    op (.refReset 1),
    op (.refReset 0),
    op (.destroyVault 0)] = true := by decide

/-- VaultRecordRefUnitTests.cpp line 246: GetRecordUniqueId, Invalid. -/
theorem conf_ref_GetRecordUniqueId_Invalid : runT Env.id [
    op .newRef,
    idNull 0 true,
    op (.refReset 0)] = true := by decide

/-- VaultRecordRefUnitTests.cpp line 252: GetRecordUniqueId, Valid. -/
theorem conf_ref_GetRecordUniqueId_Valid : runT Env.id [
    op .newVault,
    op .newRef,
    op (.addKey 0 1 8000),
    op (.createRow 0 [(1, 8000)]),
    op (.getRecord 0 1 8000 0),
    idNull 0 false,
    op (.refReset 0),
    op (.destroyVault 0)] = true := by decide

/-- VaultRecordRefUnitTests.cpp line 263: SetDataByKeyAndValue, Invalid. -/
theorem conf_ref_SetDataByKeyAndValue_Invalid : runT Env.id [
    op .newRef,
    res (.refSetData 0 1 8008) false .DataRecordNotValid (some 1) (some 0) none,
    op (.refReset 0)] = true := by decide

/-- VaultRecordRefUnitTests.cpp line 272: SetDataByKeyAndValue, Deleted. -/
theorem conf_ref_SetDataByKeyAndValue_Deleted : runT Env.id [
    op .newVault,
    op .newRef,
    op .newRef,
    op (.addKey 0 1 8000),
    op (.createRow 0 [(1, 8000)]),
    op (.getRecord 0 1 8000 0),
    op (.getRecord 0 1 8000 1),
    op (.eraseRef 0 1),
    res (.refSetData 0 1 8008) false .DataRecordNotValid (some 1) (some 0) none,
    op (.refReset 1),
    op (.refReset 0),
    op (.destroyVault 0)] = true := by decide

/-- VaultRecordRefUnitTests.cpp line 289: SetDataByKeyAndValue, Default. -/
theorem conf_ref_SetDataByKeyAndValue_Default : runT Env.id [
    op .newVault,
    op .newSet,
    op .newSet,
    op .newRef,
    op .newRef,
    op .newRef,
    op .newRef,
    op (.addKey 0 1 8000),
    op (.createRow 0 [(1, 7920)]),
    op (.getRecord 0 1 7920 0),
    res (.refSetData 0 1 8008) true .Success (some 1) (some 0) (some 0),
    op (.getRecord 0 1 8008 1),
    refsEq 0 1 true,
    op (.request 0 .Equal 1 8008 8008 false false none (fun _ => true) 1),
    op (.setGetRecord 1 1 8008 2),
    refsEq 0 2 true,
    op (.request 0 .Greater 1 8000 8000 false false none (fun _ => true) 2),
    op (.setGetRecord 2 1 8008 3),
    refsEq 0 3 true,
    op (.refReset 3),
    op (.refReset 2),
    op (.refReset 1),
    op (.refReset 0),
    op (.destroySet 2),
    op (.destroySet 1),
    op (.destroyVault 0)] = true := by decide

/-- VaultRecordRefUnitTests.cpp line 319: SetDataByKeyAndValue, WrongKey. -/
theorem conf_ref_SetDataByKeyAndValue_WrongKey : runT Env.id [
    op .newVault,
    op .newSet,
    op .newSet,
    op .newRef,
    op .newRef,
    op .newRef,
    op .newRef,
    op (.addKey 0 1 8000),
    op (.createRow 0 [(1, 7920)]),
    op (.getRecord 0 1 7920 0),
    res (.refSetData 0 2 8000) false .WrongKey (some 2) (some 0) none,
    op (.getRecord 0 1 7920 1),
    refsEq 0 1 true,
    op (.request 0 .Equal 1 7920 7920 false false none (fun _ => true) 1),
    op (.setGetRecord 1 1 7920 2),
    refsEq 0 2 true,
    op (.request 0 .Less 1 8000 8000 false false none (fun _ => true) 2),
    op (.setGetRecord 2 1 7920 3),
    refsEq 0 3 true,
    op (.refReset 3),
    op (.refReset 2),
    op (.refReset 1),
    op (.refReset 0),
    op (.destroySet 2),
    op (.destroySet 1),
    op (.destroyVault 0)] = true := by decide

/-- VaultRecordRefUnitTests.cpp line 349: SetDataByKeyAndValue, WrongType. -/
theorem conf_ref_SetDataByKeyAndValue_WrongType : runT Env.id [
    op .newVault,
    op .newSet,
    op .newSet,
    op .newRef,
    op .newRef,
    op .newRef,
    op .newRef,
    op (.addKey 0 1 8000),
    op (.createRow 0 [(1, 7920)]),
    op (.getRecord 0 1 7920 0),
    res (.refSetData 0 1 8005) false .WrongType (some 1) (some 5) (some 0),
    op (.getRecord 0 1 7920 1),
    refsEq 0 1 true,
    op (.request 0 .Equal 1 7920 7920 false false none (fun _ => true) 1),
    op (.setGetRecord 1 1 7920 2),
    refsEq 0 2 true,
    op (.request 0 .Less 1 8000 8000 false false none (fun _ => true) 2),
    op (.setGetRecord 2 1 7920 3),
    refsEq 0 3 true,
    op (.refReset 3),
    op (.refReset 2),
    op (.refReset 1),
    op (.refReset 0),
    op (.destroySet 2),
    op (.destroySet 1),
    op (.destroyVault 0)] = true := by decide

/-- VaultRecordRefUnitTests.cpp line 379: SetDataByKeyAndValue, DuplicateUniqueKeyValue. -/
theorem conf_ref_SetDataByKeyAndValue_DuplicateUniqueKeyValue : runT Env.id [
    op .newVault,
    op .newSet,
    op .newRef,
    op (.addUniqueKey 0 1 0 true (fun _ _ _ => 0)),
    op (.createRow 0 [(1, 8000)]),
    op (.createRow 0 [(1, 8008)]),
    op (.getRecord 0 1 8000 0),
    res (.refSetData 0 1 8008) false .UniqueKeyValueAlredyInSet (some 1) (some 0) (some 0),
    rows 0 [[(1, 8000)], [(1, 8008)]],
    op (.refReset 0),
    op (.destroySet 1),
    op (.destroyVault 0)] = true := by decide

/-- VaultRecordRefUnitTests.cpp line 398: SetDataByVectorOfParams, Default. -/
theorem conf_ref_SetDataByVectorOfParams_Default : runT Env.id [
    op .newVault,
    op .newSet,
    op .newSet,
    op .newRef,
    op .newRef,
    op .newRef,
    op .newRef,
    op .newRef,
    op .newRef,
    op .newRef,
    op (.addKey 0 1 8000),
    op (.addKey 0 2 8004),
    op (.createRow 0 [(1, 7920)]),
    op (.getRecord 0 1 7920 0),
    res (.refSetDataMany 0 [(1, 8008), (2, 7996)]) true .Success (some 2) (some 4) (some 4),
    op (.getRecord 0 1 8008 1),
    refsEq 0 1 true,
    op (.getRecord 0 2 7996 2),
    refsEq 0 2 true,
    op (.request 0 .Equal 1 8008 8008 false false none (fun _ => true) 1),
    op (.setGetRecord 1 1 8008 3),
    refsEq 0 3 true,
    op (.request 0 .Equal 2 7996 7996 false false none (fun _ => true) 1),
    op (.setGetRecord 1 2 7996 4),
    refsEq 0 4 true,
    op (.request 0 .Greater 1 8000 8000 false false none (fun _ => true) 2),
    op (.setGetRecord 2 1 8008 5),
    refsEq 0 5 true,
    op (.request 0 .Less 2 8004 8004 false false none (fun _ => true) 2),
    op (.setGetRecord 2 2 7996 6),
    refsEq 0 6 true,
    op (.refReset 6),
    op (.refReset 5),
    op (.refReset 4),
    op (.refReset 3),
    op (.refReset 2),
    op (.refReset 1),
    op (.refReset 0),
    op (.destroySet 2),
    op (.destroySet 1),
    op (.destroyVault 0)] = true := by decide

/-- VaultRecordRefUnitTests.cpp line 442: SetDataByVectorOfParams, WrongFirstKey. -/
theorem conf_ref_SetDataByVectorOfParams_WrongFirstKey : runT Env.id [
    op .newVault,
    op .newSet,
    op .newSet,
    op .newRef,
    op .newRef,
    op .newRef,
    op .newRef,
    op .newRef,
    op .newRef,
    op .newRef,
    op (.addKey 0 1 8000),
    op (.addKey 0 2 8004),
    op (.createRow 0 [(1, 8080), (2, 7924)]),
    op (.getRecord 0 1 8080 0),
    res (.refSetDataMany 0 [(3, 8008), (2, 7996)]) false .WrongKey (some 3) (some 0) none,
    op (.getRecord 0 1 8080 1),
    refsEq 0 1 true,
    op (.getRecord 0 2 7924 2),
    refsEq 0 2 true,
    op (.request 0 .Equal 1 8080 8080 false false none (fun _ => true) 1),
    op (.setGetRecord 1 1 8080 3),
    refsEq 0 3 true,
    op (.request 0 .Equal 2 7924 7924 false false none (fun _ => true) 1),
    op (.setGetRecord 1 2 7924 4),
    refsEq 0 4 true,
    op (.request 0 .Greater 1 8000 8000 false false none (fun _ => true) 2),
    op (.setGetRecord 2 1 8080 5),
    refsEq 0 5 true,
    op (.request 0 .Less 2 8004 8004 false false none (fun _ => true) 2),
    op (.setGetRecord 2 2 7924 6),
    refsEq 0 6 true,
    op (.refReset 6),
    op (.refReset 5),
    op (.refReset 4),
    op (.refReset 3),
    op (.refReset 2),
    op (.refReset 1),
    op (.refReset 0),
    op (.destroySet 2),
    op (.destroySet 1),
    op (.destroyVault 0)] = true := by decide

/-- VaultRecordRefUnitTests.cpp line 486: SetDataByVectorOfParams, WrongSecondKey. -/
theorem conf_ref_SetDataByVectorOfParams_WrongSecondKey : runT Env.id [
    op .newVault,
    op .newSet,
    op .newSet,
    op .newRef,
    op .newRef,
    op .newRef,
    op .newRef,
    op .newRef,
    op .newRef,
    op .newRef,
    op (.addKey 0 1 8000),
    op (.addKey 0 2 8004),
    op (.createRow 0 [(1, 8080), (2, 7924)]),
    op (.getRecord 0 1 8080 0),
    res (.refSetDataMany 0 [(1, 8008), (3, 7996)]) false .WrongKey (some 3) (some 4) none,
    op (.getRecord 0 1 8008 1),
    refsEq 0 1 true,
    op (.getRecord 0 2 7924 2),
    refsEq 0 2 true,
    op (.request 0 .Equal 1 8008 8008 false false none (fun _ => true) 1),
    op (.setGetRecord 1 1 8008 3),
    refsEq 0 3 true,
    op (.request 0 .Equal 2 7924 7924 false false none (fun _ => true) 1),
    op (.setGetRecord 1 2 7924 4),
    refsEq 0 4 true,
    op (.request 0 .Greater 1 8000 8000 false false none (fun _ => true) 2),
    op (.setGetRecord 2 1 8008 5),
    refsEq 0 5 true,
    op (.request 0 .Less 2 8004 8004 false false none (fun _ => true) 2),
    op (.setGetRecord 2 2 7924 6),
    refsEq 0 6 true,
    op (.refReset 6),
    op (.refReset 5),
    op (.refReset 4),
    op (.refReset 3),
    op (.refReset 2),
    op (.refReset 1),
    op (.refReset 0),
    op (.destroySet 2),
    op (.destroySet 1),
    op (.destroyVault 0)] = true := by decide

/-- VaultRecordRefUnitTests.cpp line 530: SetDataByVectorOfParams, WrongBothKeys. -/
theorem conf_ref_SetDataByVectorOfParams_WrongBothKeys : runT Env.id [
    op .newVault,
    op .newSet,
    op .newSet,
    op .newRef,
    op .newRef,
    op .newRef,
    op .newRef,
    op .newRef,
    op .newRef,
    op .newRef,
    op (.addKey 0 1 8000),
    op (.addKey 0 2 8004),
    op (.createRow 0 [(1, 8080), (2, 7924)]),
    op (.getRecord 0 1 8080 0),
    res (.refSetDataMany 0 [(3, 8008), (4, 7996)]) false .WrongKey (some 3) (some 0) none,
    op (.getRecord 0 1 8080 1),
    refsEq 0 1 true,
    op (.getRecord 0 2 7924 2),
    refsEq 0 2 true,
    op (.request 0 .Equal 1 8080 8080 false false none (fun _ => true) 1),
    op (.setGetRecord 1 1 8080 3),
    refsEq 0 3 true,
    op (.request 0 .Equal 2 7924 7924 false false none (fun _ => true) 1),
    op (.setGetRecord 1 2 7924 4),
    refsEq 0 4 true,
    op (.request 0 .Greater 1 8000 8000 false false none (fun _ => true) 2),
    op (.setGetRecord 2 1 8080 5),
    refsEq 0 5 true,
    op (.request 0 .Less 2 8004 8004 false false none (fun _ => true) 2),
    op (.setGetRecord 2 2 7924 6),
    refsEq 0 6 true,
    op (.refReset 6),
    op (.refReset 5),
    op (.refReset 4),
    op (.refReset 3),
    op (.refReset 2),
    op (.refReset 1),
    op (.refReset 0),
    op (.destroySet 2),
    op (.destroySet 1),
    op (.destroyVault 0)] = true := by decide

/-- VaultRecordRefUnitTests.cpp line 574: SetDataByVectorOfParams, WrongTypeOnFirstKey. -/
theorem conf_ref_SetDataByVectorOfParams_WrongTypeOnFirstKey : runT Env.id [
    op .newVault,
    op .newSet,
    op .newSet,
    op .newRef,
    op .newRef,
    op .newRef,
    op .newRef,
    op .newRef,
    op .newRef,
    op .newRef,
    op (.addKey 0 1 8000),
    op (.addKey 0 2 8004),
    op (.createRow 0 [(1, 8080), (2, 7924)]),
    op (.getRecord 0 1 8080 0),
    res (.refSetDataMany 0 [(1, 8005), (2, 7996)]) false .WrongType (some 1) (some 5) (some 0),
    op (.getRecord 0 1 8080 1),
    refsEq 0 1 true,
    op (.getRecord 0 2 7924 2),
    refsEq 0 2 true,
    op (.request 0 .Equal 1 8080 8080 false false none (fun _ => true) 1),
    op (.setGetRecord 1 1 8080 3),
    refsEq 0 3 true,
    op (.request 0 .Equal 2 7924 7924 false false none (fun _ => true) 1),
    op (.setGetRecord 1 2 7924 4),
    refsEq 0 4 true,
    op (.request 0 .Greater 1 8000 8000 false false none (fun _ => true) 2),
    op (.setGetRecord 2 1 8080 5),
    refsEq 0 5 true,
    op (.request 0 .Less 2 8004 8004 false false none (fun _ => true) 2),
    op (.setGetRecord 2 2 7924 6),
    refsEq 0 6 true,
    op (.refReset 6),
    op (.refReset 5),
    op (.refReset 4),
    op (.refReset 3),
    op (.refReset 2),
    op (.refReset 1),
    op (.refReset 0),
    op (.destroySet 2),
    op (.destroySet 1),
    op (.destroyVault 0)] = true := by decide

/-- VaultRecordRefUnitTests.cpp line 618: SetDataByVectorOfParams, WrongTypeOnSecondKey. -/
theorem conf_ref_SetDataByVectorOfParams_WrongTypeOnSecondKey : runT Env.id [
    op .newVault,
    op .newSet,
    op .newSet,
    op .newRef,
    op .newRef,
    op .newRef,
    op .newRef,
    op .newRef,
    op .newRef,
    op .newRef,
    op (.addKey 0 1 8000),
    op (.addKey 0 2 8004),
    op (.createRow 0 [(1, 8080), (2, 7924)]),
    op (.getRecord 0 1 8080 0),
    res (.refSetDataMany 0 [(1, 8008), (2, 7992)]) false .WrongType (some 2) (some 0) (some 4),
    op (.getRecord 0 1 8008 1),
    refsEq 0 1 true,
    op (.getRecord 0 2 7924 2),
    refsEq 0 2 true,
    op (.request 0 .Equal 1 8008 8008 false false none (fun _ => true) 1),
    op (.setGetRecord 1 1 8008 3),
    refsEq 0 3 true,
    op (.request 0 .Equal 2 7924 7924 false false none (fun _ => true) 1),
    op (.setGetRecord 1 2 7924 4),
    refsEq 0 4 true,
    op (.request 0 .Greater 1 8000 8000 false false none (fun _ => true) 2),
    op (.setGetRecord 2 1 8008 5),
    refsEq 0 5 true,
    op (.request 0 .Less 2 8004 8004 false false none (fun _ => true) 2),
    op (.setGetRecord 2 2 7924 6),
    refsEq 0 6 true,
    op (.refReset 6),
    op (.refReset 5),
    op (.refReset 4),
    op (.refReset 3),
    op (.refReset 2),
    op (.refReset 1),
    op (.refReset 0),
    op (.destroySet 2),
    op (.destroySet 1),
    op (.destroyVault 0)] = true := by decide

/-- VaultRecordRefUnitTests.cpp line 662: SetDataByVectorOfParams, WrongTypeOnBothKeys. -/
theorem conf_ref_SetDataByVectorOfParams_WrongTypeOnBothKeys : runT Env.id [
    op .newVault,
    op .newSet,
    op .newSet,
    op .newRef,
    op .newRef,
    op .newRef,
    op .newRef,
    op .newRef,
    op .newRef,
    op .newRef,
    op (.addKey 0 1 8000),
    op (.addKey 0 2 8004),
    op (.createRow 0 [(1, 8080), (2, 7924)]),
    op (.getRecord 0 1 8080 0),
    res (.refSetDataMany 0 [(1, 8013), (2, 7992)]) false .WrongType (some 1) (some 5) (some 0),
    op (.getRecord 0 1 8080 1),
    refsEq 0 1 true,
    op (.getRecord 0 2 7924 2),
    refsEq 0 2 true,
    op (.request 0 .Equal 1 8080 8080 false false none (fun _ => true) 1),
    op (.setGetRecord 1 1 8080 3),
    refsEq 0 3 true,
    op (.request 0 .Equal 2 7924 7924 false false none (fun _ => true) 1),
    op (.setGetRecord 1 2 7924 4),
    refsEq 0 4 true,
    op (.request 0 .Greater 1 8000 8000 false false none (fun _ => true) 2),
    op (.setGetRecord 2 1 8080 5),
    refsEq 0 5 true,
    op (.request 0 .Less 2 8004 8004 false false none (fun _ => true) 2),
    op (.setGetRecord 2 2 7924 6),
    refsEq 0 6 true,
    op (.refReset 6),
    op (.refReset 5),
    op (.refReset 4),
    op (.refReset 3),
    op (.refReset 2),
    op (.refReset 1),
    op (.refReset 0),
    op (.destroySet 2),
    op (.destroySet 1),
    op (.destroyVault 0)] = true := by decide

/-- VaultRecordRefUnitTests.cpp line 706: GetData, Invalid. -/
theorem conf_ref_GetData_Invalid : runT Env.id [
    op .newRef,
    getData 0 1 0 false .DataRecordNotValid none none,
    readIs (fun w => refGetData w 0 1 0) 8000 8000,
    op (.refReset 0)] = true := by decide

/-- VaultRecordRefUnitTests.cpp line 718: GetData, Deleted. -/
theorem conf_ref_GetData_Deleted : runT Env.id [
    op .newVault,
    op .newRef,
    op .newRef,
    op (.addKey 0 1 8008),
    op (.createRow 0 [(1, 8008)]),
    op (.getRecord 0 1 8008 0),
    op (.getRecord 0 1 8008 1),
    op (.eraseRef 0 1),
    getData 0 1 0 false .DataRecordNotValid none none,
    readIs (fun w => refGetData w 0 1 0) 8000 8000,
    op (.refReset 1),
    op (.refReset 0),
    op (.destroyVault 0)] = true := by decide

/-- VaultRecordRefUnitTests.cpp line 738: GetData, Default. -/
theorem conf_ref_GetData_Default : runT Env.id [
    op .newVault,
    op .newRef,
    op (.addKey 0 1 7992),
    op (.addUniqueKey 0 2 1 true (fun _ _ _ => 0)),
    op (.addKey 0 3 11),
    op (.createRow 0 [(1, 8008), (2, 417), (3, 3)]),
    op (.getRecord 0 1 8008 0),
    getData 0 1 0 true .Success (some 0) none,
    readIs (fun w => refGetData w 0 1 0) 8000 8008,
    getData 0 2 1 true .Success (some 1) none,
    readIs (fun w => refGetData w 0 2 1) 1 417,
    getData 0 3 3 true .Success (some 3) none,
    readIs (fun w => refGetData w 0 3 3) 11 3,
    op (.refReset 0),
    op (.destroyVault 0)] = true := by decide

/-- VaultRecordRefUnitTests.cpp line 779: GetData, WrongKey. -/
theorem conf_ref_GetData_WrongKey : runT Env.id [
    op .newVault,
    op .newRef,
    op (.addKey 0 1 7992),
    op (.addUniqueKey 0 2 1 true (fun _ _ _ => 0)),
    op (.addKey 0 3 11),
    op (.createRow 0 [(1, 8008), (2, 521), (3, 3)]),
    op (.getRecord 0 1 8008 0),
    getData 0 4 0 false .WrongKey none none,
    readIs (fun w => refGetData w 0 4 0) 8000 8000,
    op (.refReset 0),
    op (.destroyVault 0)] = true := by decide

/-- VaultRecordRefUnitTests.cpp line 801: GetData, WrongType. -/
theorem conf_ref_GetData_WrongType : runT Env.id [
    op .newVault,
    op .newRef,
    op (.addKey 0 1 7992),
    op (.addUniqueKey 0 2 1 true (fun _ _ _ => 0)),
    op (.addKey 0 3 11),
    op (.createRow 0 [(1, 8008), (2, 417), (3, 3)]),
    op (.getRecord 0 1 8008 0),
    getData 0 1 1 false .WrongType (some 0) none,
    readIs (fun w => refGetData w 0 1 1) 1 1,
    op (.refReset 0),
    op (.destroyVault 0)] = true := by decide

/-- VaultRecordRefUnitTests.cpp line 916: IsValid, Invalid. -/
theorem conf_ref_IsValid_Invalid : runT Env.id [
    op .newRef,
    valid 0 false,
    op (.refReset 0)] = true := by decide

/-- VaultRecordRefUnitTests.cpp line 922: IsValid, Valid. -/
theorem conf_ref_IsValid_Valid : runT Env.id [
    op .newVault,
    op .newRef,
    op (.addKey 0 1 8000),
    op (.createRow 0 [(1, 8000)]),
    op (.getRecord 0 1 8000 0),
    valid 0 true,
    op (.eraseRef 0 0),
    valid 0 false,
    op (.refReset 0),
    op (.destroyVault 0)] = true := by decide

/-- VaultRecordRefUnitTests.cpp line 943: IsKeyExist, Existed. -/
theorem conf_ref_IsKeyExist_Existed : runT Env.id [
    op .newVault,
    op .newRef,
    op (.addKey 0 1 8000),
    op (.addUniqueKey 0 2 1 true (fun _ _ _ => 0)),
    op (.createRow 0 [(1, 8000)]),
    op (.getRecord 0 1 8000 0),
    keyExists 0 1 true,
    keyExists 0 2 true,
    op (.refReset 0),
    op (.destroyVault 0)] = true := by decide

/-- VaultRecordRefUnitTests.cpp line 956: IsKeyExist, NotExisted. -/
theorem conf_ref_IsKeyExist_NotExisted : runT Env.id [
    op .newVault,
    op .newRef,
    op (.addKey 0 1 8000),
    op (.createRow 0 [(1, 8000)]),
    op (.getRecord 0 1 8000 0),
    keyExists 0 2 false,
    op (.refReset 0),
    op (.destroyVault 0)] = true := by decide

/-- VaultRecordRefUnitTests.cpp line 1022: Reset, Invalid. -/
theorem conf_ref_Reset_Invalid : runT Env.id [
    op .newRef,
    op (.refReset 0),
    valid 0 false,
    idNull 0 true,
    op (.refReset 0)] = true := by decide

/-- VaultRecordRefUnitTests.cpp line 1031: Reset, Valid. -/
theorem conf_ref_Reset_Valid : runT Env.id [
    op .newVault,
    op .newSet,
    op .newRef,
    op (.addKey 0 1 8000),
    op (.createRow 0 [(1, 8000)]),
    op (.request 0 .Equal 1 8000 8000 false false none (fun _ => true) 1),
    op (.getRecord 0 1 8000 0),
    op (.refReset 0),
    valid 0 false,
    idNull 0 true,
    size 0 1,
    size 1 1,
    op (.refReset 0),
    op (.destroySet 1),
    op (.destroyVault 0)] = true := by decide

end MVault.Conf
