import Verif.ConfBase
/- Generated by conformance/gen.py from the unit tests of the project: validation of the model. -/
set_option maxRecDepth 100000
namespace MVault.Conf
open MVault.W

/-- VaultRecordSetUnitTests.cpp line 4394: SortBy, SortReverse. -/
theorem conf_set_SortBy_SortReverse : runT Env.id [
    op .newVault,
    op .newSet,
    op (.addKey 0 1 8000),
    op (.createRow 0 []),
    op (.request 0 .Equal 1 8000 8000 false false none (fun _ => true) 1),
    op (.eraseKV 0 1 8000),
    op (.removeKey 0 1),
    op .newRef,
    op (.addKey 0 1 8000),
    op (.createRecord 0 0 [(1, 8000)]),
    op (.setAddRecord 1 0),
    op (.createRecord 0 0 [(1, 8008)]),
    op (.setAddRecord 1 0),
    op (.createRecord 0 0 [(1, 8016)]),
    op (.setAddRecord 1 0),
    op (.createRecord 0 0 [(1, 8024)]),
    op (.setAddRecord 1 0),
    op (.createRecord 0 0 [(1, 8032)]),
    op (.setAddRecord 1 0),
    op (.createRecord 0 0 [(1, 8040)]),
    op (.setAddRecord 1 0),
    op (.createRecord 0 0 [(1, 8048)]),
    op (.setAddRecord 1 0),
    op (.createRecord 0 0 [(1, 8056)]),
    op (.setAddRecord 1 0),
    op (.createRecord 0 0 [(1, 8064)]),
    op (.setAddRecord 1 0),
    op (.createRecord 0 0 [(1, 8072)]),
    op (.setAddRecord 1 0),
    sorted 1 1 true none 1 [8072, 8064, 8056, 8048, 8040, 8032, 8024, 8016, 8008, 8000],
    op (.refReset 0),
    op (.destroySet 1),
    op (.destroyVault 0)] = true := by decide

/-- VaultRecordSetUnitTests.cpp line 4420: SortBy, SortNotAllRecords. -/
theorem conf_set_SortBy_SortNotAllRecords : runT Env.id [
    op .newVault,
    op .newSet,
    op (.addKey 0 1 8000),
    op (.createRow 0 []),
    op (.request 0 .Equal 1 8000 8000 false false none (fun _ => true) 1),
    op (.eraseKV 0 1 8000),
    op (.removeKey 0 1),
    op .newRef,
    op (.addKey 0 1 8000),
    op (.createRecord 0 0 [(1, 8000)]),
    op (.setAddRecord 1 0),
    op (.createRecord 0 0 [(1, 8008)]),
    op (.setAddRecord 1 0),
    op (.createRecord 0 0 [(1, 8016)]),
    op (.setAddRecord 1 0),
    op (.createRecord 0 0 [(1, 8024)]),
    op (.setAddRecord 1 0),
    op (.createRecord 0 0 [(1, 8032)]),
    op (.setAddRecord 1 0),
    op (.createRecord 0 0 [(1, 8040)]),
    op (.setAddRecord 1 0),
    op (.createRecord 0 0 [(1, 8048)]),
    op (.setAddRecord 1 0),
    op (.createRecord 0 0 [(1, 8056)]),
    op (.setAddRecord 1 0),
    op (.createRecord 0 0 [(1, 8064)]),
    op (.setAddRecord 1 0),
    op (.createRecord 0 0 [(1, 8072)]),
    op (.setAddRecord 1 0),
    sorted 1 1 false (some 5) 1 [8000, 8008, 8016, 8024, 8032],
    op (.refReset 0),
    op (.destroySet 1),
    op (.destroyVault 0)] = true := by decide

/-- VaultRecordSetUnitTests.cpp line 4446: SortBy, WrongKey. -/
theorem conf_set_SortBy_WrongKey : runT Env.id [
    op .newVault,
    op .newSet,
    op (.addKey 0 1 8000),
    op (.createRow 0 []),
    op (.request 0 .Equal 1 8000 8000 false false none (fun _ => true) 1),
    op (.eraseKV 0 1 8000),
    op (.removeKey 0 1),
    op .newRef,
    op (.addKey 0 1 8000),
    op (.createRecord 0 0 [(1, 8000)]),
    op (.setAddRecord 1 0),
    op (.createRecord 0 0 [(1, 8008)]),
    op (.setAddRecord 1 0),
    op (.createRecord 0 0 [(1, 8016)]),
    op (.setAddRecord 1 0),
    op (.createRecord 0 0 [(1, 8024)]),
    op (.setAddRecord 1 0),
    op (.createRecord 0 0 [(1, 8032)]),
    op (.setAddRecord 1 0),
    op (.createRecord 0 0 [(1, 8040)]),
    op (.setAddRecord 1 0),
    op (.createRecord 0 0 [(1, 8048)]),
    op (.setAddRecord 1 0),
    op (.createRecord 0 0 [(1, 8056)]),
    op (.setAddRecord 1 0),
    op (.createRecord 0 0 [(1, 8064)]),
    op (.setAddRecord 1 0),
    op (.createRecord 0 0 [(1, 8072)]),
    op (.setAddRecord 1 0),
    sorted 1 2 false none 1 [],
    op (.refReset 0),
    op (.destroySet 1),
    op (.destroyVault 0)] = true := by decide

/-- VaultRecordSetUnitTests.cpp line 4731: ToStrings, FilledVault. -/
theorem conf_set_ToStrings_FilledVault : runT Env.id [
    op .newVault,
    op .newSet,
    op (.addKey 0 1 8000),
    op (.createRow 0 []),
    op (.request 0 .Equal 1 8000 8000 false false none (fun _ => true) 1),
    op (.eraseKV 0 1 8000),
    op (.removeKey 0 1),
    op .newRef,
    op (.addUniqueKey 0 1 0 true (fun _ _ _ => 0)),
    op (.addKey 0 2 625),
    op (.createRecord 0 0 [(1, 8008), (2, 313)]),
    op (.setAddRecord 1 0),
    op (.createRecord 0 0 [(1, 8016), (2, 417)]),
    op (.setAddRecord 1 0),
    op (.createRecord 0 0 [(1, 8024), (2, 521)]),
    op (.setAddRecord 1 0),
    rows 1 [[(1, 8008), (2, 313)], [(1, 8016), (2, 417)], [(1, 8024), (2, 521)]],
    op (.refReset 0),
    op (.destroySet 1),
    op (.destroyVault 0)] = true := by decide

/-- VaultRecordSetUnitTests.cpp line 4930: Join, JoinInvalidToInvalid. -/
theorem conf_set_Join_JoinInvalidToInvalid : runT Env.id [
    op .newSet,
    op .newSet,
    res (.setJoin 0 1) false .ParentVaultNotValid none none none,
    op (.destroySet 1),
    op (.destroySet 0)] = true := by decide

/-- VaultRecordSetUnitTests.cpp line 4940: Join, JoinValidToInvalid. -/
theorem conf_set_Join_JoinValidToInvalid : runT Env.id [
    op .newVault,
    op .newSet,
    op .newSet,
    op (.addKey 0 1 8000),
    op (.createRow 0 []),
    op (.request 0 .Equal 1 8000 8000 false false none (fun _ => true) 2),
    op (.eraseKV 0 1 8000),
    op (.removeKey 0 1),
    res (.setJoin 1 2) false .ParentVaultNotValid none none none,
    op (.destroySet 2),
    op (.destroySet 1),
    op (.destroyVault 0)] = true := by decide

/-- VaultRecordSetUnitTests.cpp line 4952: Join, JoinInvalidToValid. -/
theorem conf_set_Join_JoinInvalidToValid : runT Env.id [
    op .newVault,
    op .newSet,
    op .newSet,
    op (.addKey 0 1 8000),
    op (.createRow 0 []),
    op (.request 0 .Equal 1 8000 8000 false false none (fun _ => true) 2),
    op (.eraseKV 0 1 8000),
    op (.removeKey 0 1),
    res (.setJoin 2 1) false .OtherParentVaultNotValid none none none,
    op (.destroySet 2),
    op (.destroySet 1),
    op (.destroyVault 0)] = true := by decide

/-- VaultRecordSetUnitTests.cpp line 4964: Join, JoinFilledToEmpty. -/
theorem conf_set_Join_JoinFilledToEmpty : runT Env.id [
    op .newVault,
    op .newSet,
    op (.addKey 0 1 8000),
    op (.createRow 0 []),
    op (.request 0 .Equal 1 8000 8000 false false none (fun _ => true) 1),
    op (.eraseKV 0 1 8000),
    op (.removeKey 0 1),
    op .newSet,
    op (.addKey 0 1 8000),
    op (.createRow 0 []),
    op (.request 0 .Equal 1 8000 8000 false false none (fun _ => true) 2),
    op (.eraseKV 0 1 8000),
    op (.removeKey 0 1),
    op .newRef,
    op (.addKey 0 1 8000),
    op (.createRecord 0 0 []),
    op (.setAddRecord 1 0),
    op (.createRecord 0 0 []),
    op (.setAddRecord 1 0),
    res (.setJoin 2 1) true .Success none none none,
    rows 2 [[(1, 8000)], [(1, 8000)]],
    op (.refReset 0),
    op (.destroySet 2),
    op (.destroySet 1),
    op (.destroyVault 0)] = true := by decide

/-- VaultRecordSetUnitTests.cpp line 4989: Join, JoinEmptyToFilled. -/
theorem conf_set_Join_JoinEmptyToFilled : runT Env.id [
    op .newVault,
    op .newSet,
    op (.addKey 0 1 8000),
    op (.createRow 0 []),
    op (.request 0 .Equal 1 8000 8000 false false none (fun _ => true) 1),
    op (.eraseKV 0 1 8000),
    op (.removeKey 0 1),
    op .newSet,
    op (.addKey 0 1 8000),
    op (.createRow 0 []),
    op (.request 0 .Equal 1 8000 8000 false false none (fun _ => true) 2),
    op (.eraseKV 0 1 8000),
    op (.removeKey 0 1),
    op .newRef,
    op (.addKey 0 1 8000),
    op (.createRecord 0 0 []),
    op (.setAddRecord 1 0),
    op (.createRecord 0 0 []),
    op (.setAddRecord 1 0),
    res (.setJoin 1 2) true .Success none none none,
    rows 1 [[(1, 8000)], [(1, 8000)]],
    op (.refReset 0),
    op (.destroySet 2),
    op (.destroySet 1),
    op (.destroyVault 0)] = true := by decide

/-- VaultRecordSetUnitTests.cpp line 5014: Join, JoinFilled. -/
theorem conf_set_Join_JoinFilled : runT Env.id [
    op .newVault,
    op .newSet,
    op (.addKey 0 1 8000),
    op (.createRow 0 []),
    op (.request 0 .Equal 1 8000 8000 false false none (fun _ => true) 1),
    op (.eraseKV 0 1 8000),
    op (.removeKey 0 1),
    op .newSet,
    op (.addKey 0 1 8000),
    op (.createRow 0 []),
    op (.request 0 .Equal 1 8000 8000 false false none (fun _ => true) 2),
    op (.eraseKV 0 1 8000),
    op (.removeKey 0 1),
    op .newRef,
    op (.addKey 0 1 8000),
    op (.createRow 0 [(1, 7992)]),
    op (.createRecord 0 0 [(1, 8008)]),
    op (.setAddRecord 1 0),
    op (.createRecord 0 0 [(1, 8016)]),
    op (.setAddRecord 2 0),
    op (.createRecord 0 0 [(1, 8024)]),
    op (.setAddRecord 1 0),
    op (.setAddRecord 2 0),
    res (.setJoin 1 2) true .Success none none none,
    rows 1 [[(1, 8008)], [(1, 8016)], [(1, 8024)]],
    size 1 3,
    op (.refReset 0),
    op (.destroySet 2),
    op (.destroySet 1),
    op (.destroyVault 0)] = true := by decide

/-- VaultRecordSetUnitTests.cpp line 5046: Join, WrongParentVault. -/
theorem conf_set_Join_WrongParentVault : runT Env.id [
    op .newVault,
    op .newVault,
    op .newSet,
    op .newSet,
    op .newRef,
    op (.addKey 0 1 8000),
    op (.addKey 1 1 8000),
    op (.createRecord 0 0 [(1, 8008)]),
    op (.request 0 .Equal 1 8008 8008 false false none (fun _ => true) 2),
    op (.createRecord 1 0 [(1, 8008)]),
    op (.request 1 .Equal 1 8008 8008 false false none (fun _ => true) 3),
    res (.setJoin 2 3) false .ParentVaultNotMatch none none none,
    op (.refReset 0),
    op (.destroySet 3),
    op (.destroySet 2),
    op (.destroyVault 1),
    op (.destroyVault 0)] = true := by decide

/-- VaultRecordSetUnitTests.cpp line 5067: Join, Self. -/
theorem conf_set_Join_Self : runT Env.id [
    op .newVault,
    op .newSet,
    op (.addKey 0 1 8000),
    op (.createRow 0 []),
    op (.request 0 .Equal 1 8000 8000 false false none (fun _ => true) 1),
    op (.eraseKV 0 1 8000),
    op (.removeKey 0 1),
    res (.setJoin 1 1) false .SameVaultRecordSet none none none,
    op (.destroySet 1),
    op (.destroyVault 0)] = true := by decide

/-- VaultRecordSetUnitTests.cpp line 5183: Exclude, Self. -/
theorem conf_set_Exclude_Self : runT Env.id [
    op .newVault,
    op .newSet,
    op (.addKey 0 1 8000),
    op (.createRow 0 []),
    op (.request 0 .Equal 1 8000 8000 false false none (fun _ => true) 1),
    op (.eraseKV 0 1 8000),
    op (.removeKey 0 1),
    res (.setExclude 1 1) false .SameVaultRecordSet none none none,
    op (.destroySet 1),
    op (.destroyVault 0)] = true := by decide

/-- VaultRecordSetUnitTests.cpp line 5227: Intersect, IntersectInvalidWithValid. -/
theorem conf_set_Intersect_IntersectInvalidWithValid : runT Env.id [
    op .newVault,
    op .newSet,
    op .newSet,
    op (.addKey 0 1 8000),
    op (.createRow 0 []),
    op (.request 0 .Equal 1 8000 8000 false false none (fun _ => true) 2),
    op (.eraseKV 0 1 8000),
    op (.removeKey 0 1),
    res (.setIntersect 1 2) false .ParentVaultNotValid none none none,
    op (.destroySet 2),
    op (.destroySet 1),
    op (.destroyVault 0)] = true := by decide

/-- VaultRecordSetUnitTests.cpp line 5239: Intersect, IntersectValidWithInvalid. -/
theorem conf_set_Intersect_IntersectValidWithInvalid : runT Env.id [
    op .newVault,
    op .newSet,
    op (.addKey 0 1 8000),
    op (.createRow 0 []),
    op (.request 0 .Equal 1 8000 8000 false false none (fun _ => true) 1),
    op (.eraseKV 0 1 8000),
    op (.removeKey 0 1),
    op .newSet,
    res (.setIntersect 1 2) false .OtherParentVaultNotValid none none none,
    op (.destroySet 2),
    op (.destroySet 1),
    op (.destroyVault 0)] = true := by decide

/-- VaultRecordSetUnitTests.cpp line 5251: Intersect, IntersectFilledFromEmpty. -/
theorem conf_set_Intersect_IntersectFilledFromEmpty : runT Env.id [
    op .newVault,
    op .newSet,
    op (.addKey 0 1 8000),
    op (.createRow 0 []),
    op (.request 0 .Equal 1 8000 8000 false false none (fun _ => true) 1),
    op (.eraseKV 0 1 8000),
    op (.removeKey 0 1),
    op .newSet,
    op (.addKey 0 1 8000),
    op (.createRow 0 []),
    op (.request 0 .Equal 1 8000 8000 false false none (fun _ => true) 2),
    op (.eraseKV 0 1 8000),
    op (.removeKey 0 1),
    op .newRef,
    op (.addKey 0 1 8000),
    op (.createRecord 0 0 []),
    op (.setAddRecord 1 0),
    op (.createRecord 0 0 []),
    op (.setAddRecord 1 0),
    res (.setExclude 2 1) true .Success none none none,
    size 2 0,
    op (.refReset 0),
    op (.destroySet 2),
    op (.destroySet 1),
    op (.destroyVault 0)] = true := by decide

/-- VaultRecordSetUnitTests.cpp line 5273: Intersect, IntersectEmptyFromFilled. -/
theorem conf_set_Intersect_IntersectEmptyFromFilled : runT Env.id [
    op .newVault,
    op .newSet,
    op (.addKey 0 1 8000),
    op (.createRow 0 []),
    op (.request 0 .Equal 1 8000 8000 false false none (fun _ => true) 1),
    op (.eraseKV 0 1 8000),
    op (.removeKey 0 1),
    op .newSet,
    op (.addKey 0 1 8000),
    op (.createRow 0 []),
    op (.request 0 .Equal 1 8000 8000 false false none (fun _ => true) 2),
    op (.eraseKV 0 1 8000),
    op (.removeKey 0 1),
    op .newRef,
    op (.addKey 0 1 8000),
    op (.createRecord 0 0 []),
    op (.setAddRecord 1 0),
    op (.createRecord 0 0 []),
    op (.setAddRecord 1 0),
    res (.setExclude 1 2) true .Success none none none,
    size 1 2,
    rows 1 [[(1, 8000)], [(1, 8000)]],
    op (.refReset 0),
    op (.destroySet 2),
    op (.destroySet 1),
    op (.destroyVault 0)] = true := by decide

/-- VaultRecordSetUnitTests.cpp line 5325: Intersect, Self. -/
theorem conf_set_Intersect_Self : runT Env.id [
    op .newVault,
    op .newSet,
    op (.addKey 0 1 8000),
    op (.createRow 0 []),
    op (.request 0 .Equal 1 8000 8000 false false none (fun _ => true) 1),
    op (.eraseKV 0 1 8000),
    op (.removeKey 0 1),
    res (.setIntersect 1 1) false .SameVaultRecordSet none none none,
    op (.destroySet 1),
    op (.destroyVault 0)] = true := by decide

/-- VaultRecordSetUnitTests.cpp line 5462: Destructor, Default. -/
theorem conf_set_Destructor_Default : runT Env.id [
    op .newVault,
    op .newSet,
    op .newRef,
    op (.addKey 0 1 8000),
    op (.createRecord 0 0 [(1, 8008)]),
    op (.setAddRecord 1 0),
    op (.setGetRecord 1 1 8008 0),
    op (.setCopyNew 1),
    op (.destroySet 1),
    op (.destroySet 2),
    op (.refReset 0),
    op (.destroyVault 0)] = true := by decide

/-- VaultRecordSetUnitTests.cpp line 5476: CompareOperator, InvalidWithInvalid. -/
theorem conf_set_CompareOperator_InvalidWithInvalid : runT Env.id [
    op .newSet,
    op .newSet,
    setsEq 0 1 true,
    op (.destroySet 1),
    op (.destroySet 0)] = true := by decide

/-- VaultRecordSetUnitTests.cpp line 5481: CompareOperator, InvalidWithValid. -/
theorem conf_set_CompareOperator_InvalidWithValid : runT Env.id [
    op .newVault,
    op .newSet,
    op (.addKey 0 1 8000),
    op (.createRow 0 []),
    op (.request 0 .Equal 1 8000 8000 false false none (fun _ => true) 1),
    op (.eraseKV 0 1 8000),
    op (.removeKey 0 1),
    op .newSet,
    setsEq 1 2 false,
    op (.destroySet 2),
    op (.destroySet 1),
    op (.destroyVault 0)] = true := by decide

/-- VaultRecordSetUnitTests.cpp line 5488: CompareOperator, ValidWithInvalid. -/
theorem conf_set_CompareOperator_ValidWithInvalid : runT Env.id [
    op .newVault,
    op .newSet,
    op .newSet,
    op (.addKey 0 1 8000),
    op (.createRow 0 []),
    op (.request 0 .Equal 1 8000 8000 false false none (fun _ => true) 2),
    op (.eraseKV 0 1 8000),
    op (.removeKey 0 1),
    setsEq 1 2 false,
    op (.destroySet 2),
    op (.destroySet 1),
    op (.destroyVault 0)] = true := by decide

/-- VaultRecordSetUnitTests.cpp line 5495: CompareOperator, Empty. -/
theorem conf_set_CompareOperator_Empty : runT Env.id [
    op .newVault,
    op .newSet,
    op (.addKey 0 1 8000),
    op (.createRow 0 []),
    op (.request 0 .Equal 1 8000 8000 false false none (fun _ => true) 1),
    op (.eraseKV 0 1 8000),
    op (.removeKey 0 1),
    op .newSet,
    op (.addKey 0 1 8000),
    op (.createRow 0 []),
    op (.request 0 .Equal 1 8000 8000 false false none (fun _ => true) 2),
    op (.eraseKV 0 1 8000),
    op (.removeKey 0 1),
    setsEq 1 2 true,
    op (.destroySet 2),
    op (.destroySet 1),
    op (.destroyVault 0)] = true := by decide

/-- VaultRecordSetUnitTests.cpp line 5502: CompareOperator, Filled. -/
theorem conf_set_CompareOperator_Filled : runT Env.id [
    op .newVault,
    op .newSet,
    op (.addKey 0 1 8000),
    op (.createRow 0 []),
    op (.request 0 .Equal 1 8000 8000 false false none (fun _ => true) 1),
    op (.eraseKV 0 1 8000),
    op (.removeKey 0 1),
    op .newSet,
    op (.addKey 0 1 8000),
    op (.createRow 0 []),
    op (.request 0 .Equal 1 8000 8000 false false none (fun _ => true) 2),
    op (.eraseKV 0 1 8000),
    op (.removeKey 0 1),
    op .newRef,
    op (.addKey 0 1 8000),
    op (.createRecord 0 0 []),
    op (.setAddRecord 1 0),
    op (.setAddRecord 2 0),
    setsEq 1 2 true,
    op (.refReset 0),
    op (.destroySet 2),
    op (.destroySet 1),
    op (.destroyVault 0)] = true := by decide

/-- VaultRecordSetUnitTests.cpp line 5518: CompareOperator, DifferentData. -/
theorem conf_set_CompareOperator_DifferentData : runT Env.id [
    op .newVault,
    op .newSet,
    op (.addKey 0 1 8000),
    op (.createRow 0 []),
    op (.request 0 .Equal 1 8000 8000 false false none (fun _ => true) 1),
    op (.eraseKV 0 1 8000),
    op (.removeKey 0 1),
    op .newSet,
    op (.addKey 0 1 8000),
    op (.createRow 0 []),
    op (.request 0 .Equal 1 8000 8000 false false none (fun _ => true) 2),
    op (.eraseKV 0 1 8000),
    op (.removeKey 0 1),
    op .newRef,
    op (.addKey 0 1 8000),
    op (.createRecord 0 0 []),
    op (.setAddRecord 1 0),
    op (.createRecord 0 0 []),
    op (.setAddRecord 2 0),
    setsEq 1 2 false,
    op (.refReset 0),
    op (.destroySet 2),
    op (.destroySet 1),
    op (.destroyVault 0)] = true := by decide

/-- VaultRecordSetUnitTests.cpp line 5534: CompareOperator, DifferentParents. -/
theorem conf_set_CompareOperator_DifferentParents : runT Env.id [
    op .newVault,
    op .newVault,
    op .newSet,
    op .newSet,
    op .newRef,
    op (.addKey 0 1 8000),
    op (.addKey 1 1 8000),
    op (.createRecord 0 0 []),
    op (.request 0 .Equal 1 8000 8000 false false none (fun _ => true) 2),
    op (.createRecord 1 0 []),
    op (.request 0 .Equal 1 8000 8000 false false none (fun _ => true) 3),
    setsEq 2 3 true,
    op (.refReset 0),
    op (.destroySet 3),
    op (.destroySet 2),
    op (.destroyVault 1),
    op (.destroyVault 0)] = true := by decide

/-- VaultRecordSetUnitTests.cpp line 5552: NotEquationOperator, InvalidWithInvalid. -/
theorem conf_set_NotEquationOperator_InvalidWithInvalid : runT Env.id [
    op .newSet,
    op .newSet,
    setsEq 0 1 true,
    op (.destroySet 1),
    op (.destroySet 0)] = true := by decide

/-- VaultRecordSetUnitTests.cpp line 5557: NotEquationOperator, InvalidWithValid. -/
theorem conf_set_NotEquationOperator_InvalidWithValid : runT Env.id [
    op .newVault,
    op .newSet,
    op (.addKey 0 1 8000),
    op (.createRow 0 []),
    op (.request 0 .Equal 1 8000 8000 false false none (fun _ => true) 1),
    op (.eraseKV 0 1 8000),
    op (.removeKey 0 1),
    op .newSet,
    setsEq 1 2 false,
    op (.destroySet 2),
    op (.destroySet 1),
    op (.destroyVault 0)] = true := by decide

/-- VaultRecordSetUnitTests.cpp line 5564: NotEquationOperator, ValidWithInvalid. -/
theorem conf_set_NotEquationOperator_ValidWithInvalid : runT Env.id [
    op .newVault,
    op .newSet,
    op .newSet,
    op (.addKey 0 1 8000),
    op (.createRow 0 []),
    op (.request 0 .Equal 1 8000 8000 false false none (fun _ => true) 2),
    op (.eraseKV 0 1 8000),
    op (.removeKey 0 1),
    setsEq 1 2 false,
    op (.destroySet 2),
    op (.destroySet 1),
    op (.destroyVault 0)] = true := by decide

/-- VaultRecordSetUnitTests.cpp line 5571: NotEquationOperator, Empty. -/
theorem conf_set_NotEquationOperator_Empty : runT Env.id [
    op .newVault,
    op .newSet,
    op (.addKey 0 1 8000),
    op (.createRow 0 []),
    op (.request 0 .Equal 1 8000 8000 false false none (fun _ => true) 1),
    op (.eraseKV 0 1 8000),
    op (.removeKey 0 1),
    op .newSet,
    op (.addKey 0 1 8000),
    op (.createRow 0 []),
    op (.request 0 .Equal 1 8000 8000 false false none (fun _ => true) 2),
    op (.eraseKV 0 1 8000),
    op (.removeKey 0 1),
    setsEq 1 2 true,
    op (.destroySet 2),
    op (.destroySet 1),
    op (.destroyVault 0)] = true := by decide

/-- VaultRecordSetUnitTests.cpp line 5578: NotEquationOperator, Filled. -/
theorem conf_set_NotEquationOperator_Filled : runT Env.id [
    op .newVault,
    op .newSet,
    op (.addKey 0 1 8000),
    op (.createRow 0 []),
    op (.request 0 .Equal 1 8000 8000 false false none (fun _ => true) 1),
    op (.eraseKV 0 1 8000),
    op (.removeKey 0 1),
    op .newSet,
    op (.addKey 0 1 8000),
    op (.createRow 0 []),
    op (.request 0 .Equal 1 8000 8000 false false none (fun _ => true) 2),
    op (.eraseKV 0 1 8000),
    op (.removeKey 0 1),
    op .newRef,
    op (.addKey 0 1 8000),
    op (.createRecord 0 0 []),
    op (.setAddRecord 1 0),
    op (.setAddRecord 2 0),
    setsEq 1 2 true,
    op (.refReset 0),
    op (.destroySet 2),
    op (.destroySet 1),
    op (.destroyVault 0)] = true := by decide

/-- VaultRecordSetUnitTests.cpp line 5594: NotEquationOperator, DifferentData. -/
theorem conf_set_NotEquationOperator_DifferentData : runT Env.id [
    op .newVault,
    op .newSet,
    op (.addKey 0 1 8000),
    op (.createRow 0 []),
    op (.request 0 .Equal 1 8000 8000 false false none (fun _ => true) 1),
    op (.eraseKV 0 1 8000),
    op (.removeKey 0 1),
    op .newSet,
    op (.addKey 0 1 8000),
    op (.createRow 0 []),
    op (.request 0 .Equal 1 8000 8000 false false none (fun _ => true) 2),
    op (.eraseKV 0 1 8000),
    op (.removeKey 0 1),
    op .newRef,
    op (.addKey 0 1 8000),
    op (.createRecord 0 0 []),
    op (.setAddRecord 1 0),
    op (.createRecord 0 0 []),
    op (.setAddRecord 2 0),
    setsEq 1 2 false,
    op (.refReset 0),
    op (.destroySet 2),
    op (.destroySet 1),
    op (.destroyVault 0)] = true := by decide

/-- VaultRecordSetUnitTests.cpp line 5610: NotEquationOperator, DifferentParents. -/
theorem conf_set_NotEquationOperator_DifferentParents : runT Env.id [
    op .newVault,
    op .newVault,
    op .newSet,
    op .newSet,
    op .newRef,
    op (.addKey 0 1 8000),
    op (.addKey 1 1 8000),
    op (.createRecord 0 0 []),
    op (.request 0 .Equal 1 8000 8000 false false none (fun _ => true) 2),
    op (.createRecord 1 0 []),
    op (.request 0 .Equal 1 8000 8000 false false none (fun _ => true) 3),
    setsEq 2 3 true,
    op (.refReset 0),
    op (.destroySet 3),
    op (.destroySet 2),
    op (.destroyVault 1),
    op (.destroyVault 0)] = true := by decide

/-- VaultRecordSetUnitTests.cpp line 5628: UnionSets, InvalidWithInvalid. -/
theorem conf_set_UnionSets_InvalidWithInvalid : runT Env.id [
    op .newSet,
    op .newSet,
    op .newSet,
    res (.setUnion 0 1 2) false .ParentVaultNotValid none none none,
    size 2 0,
    op (.destroySet 2),
    op (.destroySet 1),
    op (.destroySet 0)] = true := by decide

/-- VaultRecordSetUnitTests.cpp line 5640: UnionSets, InvalidWithValid. -/
theorem conf_set_UnionSets_InvalidWithValid : runT Env.id [
    op .newVault,
    op .newSet,
    op .newSet,
    op .newSet,
    op (.addKey 0 1 8000),
    op (.createRow 0 []),
    op (.request 0 .Equal 1 8000 8000 false false none (fun _ => true) 3),
    op (.eraseKV 0 1 8000),
    op (.removeKey 0 1),
    res (.setUnion 1 3 2) false .ParentVaultNotValid none none none,
    size 2 0,
    op (.destroySet 3),
    op (.destroySet 2),
    op (.destroySet 1),
    op (.destroyVault 0)] = true := by decide

/-- VaultRecordSetUnitTests.cpp line 5653: UnionSets, ValidWithInvalid. -/
theorem conf_set_UnionSets_ValidWithInvalid : runT Env.id [
    op .newVault,
    op .newSet,
    op (.addKey 0 1 8000),
    op (.createRow 0 []),
    op (.request 0 .Equal 1 8000 8000 false false none (fun _ => true) 1),
    op (.eraseKV 0 1 8000),
    op (.removeKey 0 1),
    op .newSet,
    op .newSet,
    res (.setUnion 1 2 3) false .OtherParentVaultNotValid none none none,
    size 3 0,
    op (.destroySet 3),
    op (.destroySet 2),
    op (.destroySet 1),
    op (.destroyVault 0)] = true := by decide

/-- VaultRecordSetUnitTests.cpp line 5666: UnionSets, Empty. -/
theorem conf_set_UnionSets_Empty : runT Env.id [
    op .newVault,
    op .newSet,
    op (.addKey 0 1 8000),
    op (.createRow 0 []),
    op (.request 0 .Equal 1 8000 8000 false false none (fun _ => true) 1),
    op (.eraseKV 0 1 8000),
    op (.removeKey 0 1),
    op .newSet,
    op (.addKey 0 1 8000),
    op (.createRow 0 []),
    op (.request 0 .Equal 1 8000 8000 false false none (fun _ => true) 2),
    op (.eraseKV 0 1 8000),
    op (.removeKey 0 1),
    op .newSet,
    res (.setUnion 1 2 3) true .Success none none none,
    size 3 0,
    op (.destroySet 3),
    op (.destroySet 2),
    op (.destroySet 1),
    op (.destroyVault 0)] = true := by decide

/-- VaultRecordSetUnitTests.cpp line 5680: UnionSets, Filled. -/
theorem conf_set_UnionSets_Filled : runT Env.id [
    op .newVault,
    op .newSet,
    op (.addKey 0 1 8000),
    op (.createRow 0 []),
    op (.request 0 .Equal 1 8000 8000 false false none (fun _ => true) 1),
    op (.eraseKV 0 1 8000),
    op (.removeKey 0 1),
    op .newSet,
    op (.addKey 0 1 8000),
    op (.createRow 0 []),
    op (.request 0 .Equal 1 8000 8000 false false none (fun _ => true) 2),
    op (.eraseKV 0 1 8000),
    op (.removeKey 0 1),
    op .newSet,
    op .newRef,
    op (.addKey 0 1 8000),
    op (.createRow 0 [(1, 7992)]),
    op (.createRecord 0 0 [(1, 8000)]),
    op (.setAddRecord 1 0),
    op (.createRecord 0 0 [(1, 8008)]),
    op (.setAddRecord 2 0),
    op (.createRecord 0 0 [(1, 8016)]),
    op (.setAddRecord 1 0),
    op (.setAddRecord 2 0),
    res (.setUnion 1 2 3) true .Success none none none,
    rows 3 [[(1, 8000)], [(1, 8008)], [(1, 8016)]],
    size 3 3,
    op (.refReset 0),
    op (.destroySet 3),
    op (.destroySet 2),
    op (.destroySet 1),
    op (.destroyVault 0)] = true := by decide

/-- VaultRecordSetUnitTests.cpp line 5712: UnionSets, DifferentParents. -/
theorem conf_set_UnionSets_DifferentParents : runT Env.id [
    op .newVault,
    op .newVault,
    op .newSet,
    op .newSet,
    op .newSet,
    op .newRef,
    op (.addKey 0 1 8000),
    op (.addKey 1 1 8000),
    op (.createRecord 0 0 []),
    op (.request 0 .Equal 1 8000 8000 false false none (fun _ => true) 2),
    op (.createRecord 1 0 []),
    op (.request 1 .Equal 1 8000 8000 false false none (fun _ => true) 3),
    res (.setUnion 2 3 4) false .ParentVaultNotMatch none none none,
    size 4 0,
    op (.refReset 0),
    op (.destroySet 4),
    op (.destroySet 3),
    op (.destroySet 2),
    op (.destroyVault 1),
    op (.destroyVault 0)] = true := by decide

/-- VaultRecordSetUnitTests.cpp line 5733: UnionSets, Self. -/
theorem conf_set_UnionSets_Self : runT Env.id [
    op .newVault,
    op .newSet,
    op (.addKey 0 1 8000),
    op (.createRow 0 []),
    op (.request 0 .Equal 1 8000 8000 false false none (fun _ => true) 1),
    op (.eraseKV 0 1 8000),
    op (.removeKey 0 1),
    op .newSet,
    op (.addKey 0 1 8000),
    op (.createRow 0 []),
    op (.request 0 .Equal 1 8000 8000 false false none (fun _ => true) 2),
    op (.eraseKV 0 1 8000),
    op (.removeKey 0 1),
    res (.setUnion 1 2 1) false .SameVaultRecordSet none none none,
    size 1 0,
    res (.setUnion 1 1 2) false .SameVaultRecordSet none none none,
    size 1 0,
    res (.setUnion 1 1 1) false .SameVaultRecordSet none none none,
    size 1 0,
    op (.destroySet 2),
    op (.destroySet 1),
    op (.destroyVault 0)] = true := by decide

/-- VaultRecordSetUnitTests.cpp line 5758: IntersectionSets, InvalidWithInvalid. -/
theorem conf_set_IntersectionSets_InvalidWithInvalid : runT Env.id [
    op .newSet,
    op .newSet,
    op .newSet,
    res (.setIntersection 0 1 2) false .ParentVaultNotValid none none none,
    size 2 0,
    op (.destroySet 2),
    op (.destroySet 1),
    op (.destroySet 0)] = true := by decide

/-- VaultRecordSetUnitTests.cpp line 5769: IntersectionSets, InvalidWithValid. -/
theorem conf_set_IntersectionSets_InvalidWithValid : runT Env.id [
    op .newVault,
    op .newSet,
    op .newSet,
    op .newSet,
    op (.addKey 0 1 8000),
    op (.createRow 0 []),
    op (.request 0 .Equal 1 8000 8000 false false none (fun _ => true) 3),
    op (.eraseKV 0 1 8000),
    op (.removeKey 0 1),
    res (.setIntersection 1 3 2) false .ParentVaultNotValid none none none,
    size 2 0,
    op (.destroySet 3),
    op (.destroySet 2),
    op (.destroySet 1),
    op (.destroyVault 0)] = true := by decide

/-- VaultRecordSetUnitTests.cpp line 5782: IntersectionSets, ValidWithInvalid. -/
theorem conf_set_IntersectionSets_ValidWithInvalid : runT Env.id [
    op .newVault,
    op .newSet,
    op (.addKey 0 1 8000),
    op (.createRow 0 []),
    op (.request 0 .Equal 1 8000 8000 false false none (fun _ => true) 1),
    op (.eraseKV 0 1 8000),
    op (.removeKey 0 1),
    op .newSet,
    op .newSet,
    res (.setIntersection 1 2 3) false .OtherParentVaultNotValid none none none,
    size 3 0,
    op (.destroySet 3),
    op (.destroySet 2),
    op (.destroySet 1),
    op (.destroyVault 0)] = true := by decide

/-- VaultRecordSetUnitTests.cpp line 5795: IntersectionSets, Empty. -/
theorem conf_set_IntersectionSets_Empty : runT Env.id [
    op .newVault,
    op .newSet,
    op (.addKey 0 1 8000),
    op (.createRow 0 []),
    op (.request 0 .Equal 1 8000 8000 false false none (fun _ => true) 1),
    op (.eraseKV 0 1 8000),
    op (.removeKey 0 1),
    op .newSet,
    op (.addKey 0 1 8000),
    op (.createRow 0 []),
    op (.request 0 .Equal 1 8000 8000 false false none (fun _ => true) 2),
    op (.eraseKV 0 1 8000),
    op (.removeKey 0 1),
    op .newSet,
    res (.setIntersection 1 2 3) true .Success none none none,
    size 3 0,
    op (.destroySet 3),
    op (.destroySet 2),
    op (.destroySet 1),
    op (.destroyVault 0)] = true := by decide

/-- VaultRecordSetUnitTests.cpp line 5809: IntersectionSets, Filled. -/
theorem conf_set_IntersectionSets_Filled : runT Env.id [
    op .newVault,
    op .newSet,
    op (.addKey 0 1 8000),
    op (.createRow 0 []),
    op (.request 0 .Equal 1 8000 8000 false false none (fun _ => true) 1),
    op (.eraseKV 0 1 8000),
    op (.removeKey 0 1),
    op .newSet,
    op (.addKey 0 1 8000),
    op (.createRow 0 []),
    op (.request 0 .Equal 1 8000 8000 false false none (fun _ => true) 2),
    op (.eraseKV 0 1 8000),
    op (.removeKey 0 1),
    op .newSet,
    op .newRef,
    op (.addKey 0 1 8000),
    op (.createRow 0 [(1, 7992)]),
    op (.createRecord 0 0 [(1, 8000)]),
    op (.setAddRecord 1 0),
    op (.createRecord 0 0 [(1, 8008)]),
    op (.setAddRecord 2 0),
    op (.createRecord 0 0 [(1, 8016)]),
    op (.setAddRecord 2 0),
    res (.setIntersection 1 2 3) true .Success none none none,
    rows 3 [],
    size 3 0,
    op (.createRecord 0 0 [(1, 8080)]),
    op (.setAddRecord 1 0),
    op (.setAddRecord 2 0),
    res (.setIntersection 1 2 3) true .Success none none none,
    rows 3 [[(1, 8080)]],
    size 3 1,
    res (.setIntersection 2 1 3) true .Success none none none,
    rows 3 [[(1, 8080)]],
    size 3 1,
    op (.refReset 0),
    op (.destroySet 3),
    op (.destroySet 2),
    op (.destroySet 1),
    op (.destroyVault 0)] = true := by decide

/-- VaultRecordSetUnitTests.cpp line 5857: IntersectionSets, DifferentParents. -/
theorem conf_set_IntersectionSets_DifferentParents : runT Env.id [
    op .newVault,
    op .newVault,
    op .newSet,
    op .newSet,
    op .newSet,
    op .newRef,
    op (.addKey 0 1 8000),
    op (.addKey 1 1 8000),
    op (.createRecord 0 0 []),
    op (.request 0 .Equal 1 8000 8000 false false none (fun _ => true) 2),
    op (.createRecord 1 0 []),
    op (.request 1 .Equal 1 8000 8000 false false none (fun _ => true) 3),
    res (.setIntersection 2 3 4) false .ParentVaultNotMatch none none none,
    size 4 0,
    op (.refReset 0),
    op (.destroySet 4),
    op (.destroySet 3),
    op (.destroySet 2),
    op (.destroyVault 1),
    op (.destroyVault 0)] = true := by decide

/-- VaultRecordSetUnitTests.cpp line 5879: IntersectionSets, RewriteTarget. -/
theorem conf_set_IntersectionSets_RewriteTarget : runT Env.id [
    op .newVault,
    op .newSet,
    op (.addKey 0 1 8000),
    op (.createRow 0 []),
    op (.request 0 .Equal 1 8000 8000 false false none (fun _ => true) 1),
    op (.eraseKV 0 1 8000),
    op (.removeKey 0 1),
    op .newSet,
    op (.addKey 0 1 8000),
    op (.createRow 0 []),
    op (.request 0 .Equal 1 8000 8000 false false none (fun _ => true) 2),
    op (.eraseKV 0 1 8000),
    op (.removeKey 0 1),
    op .newSet,
    op (.addKey 0 1 8000),
    op (.createRow 0 []),
    op (.request 0 .Equal 1 8000 8000 false false none (fun _ => true) 3),
    op (.eraseKV 0 1 8000),
    op (.removeKey 0 1),
    op .newRef,
    op (.addKey 0 1 8000),
    op (.createRecord 0 0 [(1, 7992)]),
    op (.setAddRecord 3 0),
    op (.createRecord 0 0 [(1, 8000)]),
    op (.setAddRecord 1 0),
    op (.createRecord 0 0 [(1, 8008)]),
    op (.setAddRecord 2 0),
    op (.createRecord 0 0 [(1, 8080)]),
    op (.setAddRecord 1 0),
    op (.setAddRecord 2 0),
    res (.setIntersection 1 2 3) true .Success none none none,
    rows 3 [[(1, 8080)]],
    size 3 1,
    op (.refReset 0),
    op (.destroySet 3),
    op (.destroySet 2),
    op (.destroySet 1),
    op (.destroyVault 0)] = true := by decide

/-- VaultRecordSetUnitTests.cpp line 5908: IntersectionSets, Self. -/
theorem conf_set_IntersectionSets_Self : runT Env.id [
    op .newVault,
    op .newSet,
    op (.addKey 0 1 8000),
    op (.createRow 0 []),
    op (.request 0 .Equal 1 8000 8000 false false none (fun _ => true) 1),
    op (.eraseKV 0 1 8000),
    op (.removeKey 0 1),
    op .newSet,
    op (.addKey 0 1 8000),
    op (.createRow 0 []),
    op (.request 0 .Equal 1 8000 8000 false false none (fun _ => true) 2),
    op (.eraseKV 0 1 8000),
    op (.removeKey 0 1),
    res (.setIntersection 1 2 1) false .SameVaultRecordSet none none none,
    size 1 0,
    res (.setIntersection 1 1 2) false .SameVaultRecordSet none none none,
    size 1 0,
    res (.setIntersection 1 1 1) false .SameVaultRecordSet none none none,
    size 1 0,
    op (.destroySet 2),
    op (.destroySet 1),
    op (.destroyVault 0)] = true := by decide

/-- VaultRecordRefUnitTests.cpp line 7: DefaultConstructor, Default. -/
theorem conf_ref_DefaultConstructor_Default : runT Env.id [
    op .newRef,
    valid 0 false,
    op (.refReset 0)] = true := by decide

/-- VaultRecordRefUnitTests.cpp line 13: CopyConstructor, FromEmpty. -/
theorem conf_ref_CopyConstructor_FromEmpty : runT Env.id [
    op .newRef,
    op .newRef,
    op (.refCopy 1 0),
    refsEq 0 1 true,
    valid 0 false,
    valid 1 false,
    op (.refReset 1),
    op (.refReset 0)] = true := by decide

/-- VaultRecordRefUnitTests.cpp line 22: CopyConstructor, FromFilled. -/
theorem conf_ref_CopyConstructor_FromFilled : runT Env.id [
    op .newVault,
    op .newRef,
    op (.addKey 0 1 8008),
    op (.createRecord 0 0 []),
    op .newRef,
    op (.refCopy 1 0),
    refsEq 0 1 true,
    chk (fun w => (refGetData w 1 1 0).isSome),
    readIs (fun w => refGetData w 1 1 0) 8000 8008,
    chk (fun w => (refGetData w 0 1 0).isSome),
    readIs (fun w => refGetData w 0 1 0) 8000 8008,
    op (.refReset 1),
    op (.refReset 0),
    op (.destroyVault 0)] = true := by decide

/-- VaultRecordRefUnitTests.cpp line 41: MoveConstructor, FromEmpty. -/
theorem conf_ref_MoveConstructor_FromEmpty : runT Env.id [
    op .newRef,
    op .newRef,
    op (.refMove 1 0),
    refsEq 0 1 true,
    valid 0 false,
    valid 1 false,
    op (.refReset 1),
    op (.refReset 0)] = true := by decide

/-- VaultRecordRefUnitTests.cpp line 50: MoveConstructor, FromFilled. -/
theorem conf_ref_MoveConstructor_FromFilled : runT Env.id [
    op .newVault,
    op .newRef,
    op (.addKey 0 1 8008),
    op (.createRecord 0 0 []),
    op .newRef,
    op (.refMove 1 0),
    refsNe 0 1 true,
    chk (fun w => (refGetData w 1 1 0).isSome),
    readIs (fun w => refGetData w 1 1 0) 8000 8008,
    valid 0 false,
    op (.refReset 1),
    op (.refReset 0),
    op (.destroyVault 0)] = true := by decide

/-- VaultRecordRefUnitTests.cpp line 68: AssignmentOperator, AssignWithoutParents. -/
theorem conf_ref_AssignmentOperator_AssignWithoutParents : runT Env.id [
    op .newRef,
    op .newRef,
    op (.refCopy 0 1),
    valid 0 false,
    idNull 0 true,
    op (.refReset 1),
    op (.refReset 0)] = true := by decide

/-- VaultRecordRefUnitTests.cpp line 91: AssignmentOperator, AssignWithoutParentToWithParent. -/
theorem conf_ref_AssignmentOperator_AssignWithoutParentToWithParent : runT Env.id [
    op .newVault,
    op .newRef,
    op .newRef,
    op (.addKey 0 1 8000),
    op (.createRow 0 [(1, 8000)]),
    op (.getRecord 0 1 8000 1),
    op (.refCopy 1 0),
    valid 0 false,
    idNull 0 true,
    op (.refReset 1),
    op (.refReset 0),
    op (.destroyVault 0)] = true := by decide

/-- VaultRecordRefUnitTests.cpp line 121: MoveAssignmentOperator, AssignWithoutParents. -/
theorem conf_ref_MoveAssignmentOperator_AssignWithoutParents : runT Env.id [
    op .newRef,
    op .newRef,
    op (.refMove 0 1),
    valid 0 false,
    idNull 0 true,
    op (.refReset 1),
    op (.refReset 0)] = true := by decide

/-- VaultRecordRefUnitTests.cpp line 146: MoveAssignmentOperator, AssignWithoutParentToWithParent. -/
theorem conf_ref_MoveAssignmentOperator_AssignWithoutParentToWithParent : runT Env.id [
    op .newVault,
    op .newRef,
    op .newRef,
    op (.addKey 0 1 8000),
    op (.createRow 0 [(1, 8000)]),
    op (.getRecord 0 1 8000 1),
    op (.refMove 1 0),
    valid 0 false,
    idNull 0 true,
    op (.refReset 1),
    op (.refReset 0),
    op (.destroyVault 0)] = true := by decide

/-- VaultRecordRefUnitTests.cpp line 178: OperatorComparison, CompareWithoutParents. -/
theorem conf_ref_OperatorComparison_CompareWithoutParents : runT Env.id [
    op .newRef,
    op .newRef,
    refsEq 0 1 true,
    op (.refReset 1),
    op (.refReset 0)] = true := by decide

/-- VaultRecordRefUnitTests.cpp line 184: OperatorComparison, CompareWithParentToWithoutParent. -/
theorem conf_ref_OperatorComparison_CompareWithParentToWithoutParent : runT Env.id [
    op .newVault,
    op .newRef,
    op .newRef,
    op (.addKey 0 1 8000),
    op (.createRow 0 [(1, 8000)]),
    op (.getRecord 0 1 8000 1),
    refsEq 0 1 false,
    refsEq 1 0 false,
    op (.refReset 1),
    op (.refReset 0),
    op (.destroyVault 0)] = true := by decide

/-- VaultRecordRefUnitTests.cpp line 196: OperatorComparison, Compare. -/
theorem conf_ref_OperatorComparison_Compare : runT Env.id [
    op .newVault,
    op .newRef,
    op .newRef,
    op (.addKey 0 1 8000),
    op (.createRow 0 [(1, 8000)]),
    op (.createRow 0 [(1, 8008)]),
    op (.getRecord 0 1 8000 0),
    op (.getRecord 0 1 8000 1),
    refsEq 0 1 true,
    op (.getRecord 0 1 8008 1),
    refsEq 0 1 false,
    op (.refReset 1),
    op (.refReset 0),
    op (.destroyVault 0)] = true := by decide

end MVault.Conf
