import Verif.ConfTextBase
/- Generated by conformance/gentext.py from the unit tests of the project: validation of the text model. -/
set_option maxRecDepth 100000
namespace MVault.ConfText
open MVault.W

/-- VaultUnitTests.cpp line 3994: ToJson, Default. -/
theorem conf_text_vault_ToJson_Default : runX [
    op .newVault,
    op (.addUniqueKey 0 ['A'] (.int .u64) true (fun _ _ _ => .bool false)),
    op (.addKey 0 ['B'] (.str ['n', 'o', 'n', 'e'])),
    op (.createRow 0 [(['A'], (vz 1)), (['B'], (.str ['a']))]),
    op (.createRow 0 [(['A'], (vz 2)), (['B'], (.str ['b']))]),
    op (.createRow 0 [(['A'], (vz 3)), (['B'], (.str ['c']))]),
    json false 0 false 2 true ['R', 'e', 'c', 'o', 'r', 'd'] false ['{', '"', 'R', 'e', 'c', 'o', 'r', 'd', '0', '"', ':', '{', '"', 'A', '"', ':', '3', ',', '"', 'B', '"', ':', '"', 'c', '"', '}', ',', '"', 'R', 'e', 'c', 'o', 'r', 'd', '1', '"', ':', '{', '"', 'A', '"', ':', '2', ',', '"', 'B', '"', ':', '"', 'b', '"', '}', ',', '"', 'R', 'e', 'c', 'o', 'r', 'd', '2', '"', ':', '{', '"', 'A', '"', ':', '1', ',', '"', 'B', '"', ':', '"', 'a', '"', '}', '}']] = true := by decide +kernel

/-- VaultUnitTests.cpp line 4010: ToJson, Format. -/
theorem conf_text_vault_ToJson_Format : runX [
    op .newVault,
    op (.addUniqueKey 0 ['A'] (.int .u64) true (fun _ _ _ => .bool false)),
    op (.addKey 0 ['B'] (.str ['n', 'o', 'n', 'e'])),
    op (.createRow 0 [(['A'], (vz 1)), (['B'], (.str ['a']))]),
    op (.createRow 0 [(['A'], (vz 2)), (['B'], (.str ['b']))]),
    op (.createRow 0 [(['A'], (vz 3)), (['B'], (.str ['c']))]),
    json false 0 true 2 true ['R', 'e', 'c', 'o', 'r', 'd'] false ['{', '\n', ' ', ' ', '"', 'R', 'e', 'c', 'o', 'r', 'd', '0', '"', ':', ' ', '{', '\n', ' ', ' ', ' ', ' ', '"', 'A', '"', ':', ' ', '3', ',', '\n', ' ', ' ', ' ', ' ', '"', 'B', '"', ':', ' ', '"', 'c', '"', '\n', ' ', ' ', '}', ',', '\n', ' ', ' ', '"', 'R', 'e', 'c', 'o', 'r', 'd', '1', '"', ':', ' ', '{', '\n', ' ', ' ', ' ', ' ', '"', 'A', '"', ':', ' ', '2', ',', '\n', ' ', ' ', ' ', ' ', '"', 'B', '"', ':', ' ', '"', 'b', '"', '\n', ' ', ' ', '}', ',', '\n', ' ', ' ', '"', 'R', 'e', 'c', 'o', 'r', 'd', '2', '"', ':', ' ', '{', '\n', ' ', ' ', ' ', ' ', '"', 'A', '"', ':', ' ', '1', ',', '\n', ' ', ' ', ' ', ' ', '"', 'B', '"', ':', ' ', '"', 'a', '"', '\n', ' ', ' ', '}', '\n', '}']] = true := by decide +kernel

/-- VaultUnitTests.cpp line 4039: ToJson, DiffTabSize. -/
theorem conf_text_vault_ToJson_DiffTabSize : runX [
    op .newVault,
    op (.addUniqueKey 0 ['A'] (.int .u64) true (fun _ _ _ => .bool false)),
    op (.addKey 0 ['B'] (.str ['n', 'o', 'n', 'e'])),
    op (.createRow 0 [(['A'], (vz 1)), (['B'], (.str ['a']))]),
    op (.createRow 0 [(['A'], (vz 2)), (['B'], (.str ['b']))]),
    op (.createRow 0 [(['A'], (vz 3)), (['B'], (.str ['c']))]),
    json false 0 true 1 true ['R', 'e', 'c', 'o', 'r', 'd'] false ['{', '\n', ' ', '"', 'R', 'e', 'c', 'o', 'r', 'd', '0', '"', ':', ' ', '{', '\n', ' ', ' ', '"', 'A', '"', ':', ' ', '3', ',', '\n', ' ', ' ', '"', 'B', '"', ':', ' ', '"', 'c', '"', '\n', ' ', '}', ',', '\n', ' ', '"', 'R', 'e', 'c', 'o', 'r', 'd', '1', '"', ':', ' ', '{', '\n', ' ', ' ', '"', 'A', '"', ':', ' ', '2', ',', '\n', ' ', ' ', '"', 'B', '"', ':', ' ', '"', 'b', '"', '\n', ' ', '}', ',', '\n', ' ', '"', 'R', 'e', 'c', 'o', 'r', 'd', '2', '"', ':', ' ', '{', '\n', ' ', ' ', '"', 'A', '"', ':', ' ', '1', ',', '\n', ' ', ' ', '"', 'B', '"', ':', ' ', '"', 'a', '"', '\n', ' ', '}', '\n', '}']] = true := by decide +kernel

/-- VaultUnitTests.cpp line 4068: ToJson, RecordTemplate. -/
theorem conf_text_vault_ToJson_RecordTemplate : runX [
    op .newVault,
    op (.addUniqueKey 0 ['A'] (.int .u64) true (fun _ _ _ => .bool false)),
    op (.addKey 0 ['B'] (.str ['n', 'o', 'n', 'e'])),
    op (.createRow 0 [(['A'], (vz 1)), (['B'], (.str ['a']))]),
    op (.createRow 0 [(['A'], (vz 2)), (['B'], (.str ['b']))]),
    op (.createRow 0 [(['A'], (vz 3)), (['B'], (.str ['c']))]),
    json false 0 true 2 true ['R', 'e', 'c'] false ['{', '\n', ' ', ' ', '"', 'R', 'e', 'c', '0', '"', ':', ' ', '{', '\n', ' ', ' ', ' ', ' ', '"', 'A', '"', ':', ' ', '3', ',', '\n', ' ', ' ', ' ', ' ', '"', 'B', '"', ':', ' ', '"', 'c', '"', '\n', ' ', ' ', '}', ',', '\n', ' ', ' ', '"', 'R', 'e', 'c', '1', '"', ':', ' ', '{', '\n', ' ', ' ', ' ', ' ', '"', 'A', '"', ':', ' ', '2', ',', '\n', ' ', ' ', ' ', ' ', '"', 'B', '"', ':', ' ', '"', 'b', '"', '\n', ' ', ' ', '}', ',', '\n', ' ', ' ', '"', 'R', 'e', 'c', '2', '"', ':', ' ', '{', '\n', ' ', ' ', ' ', ' ', '"', 'A', '"', ':', ' ', '1', ',', '\n', ' ', ' ', ' ', ' ', '"', 'B', '"', ':', ' ', '"', 'a', '"', '\n', ' ', ' ', '}', '\n', '}']] = true := by decide +kernel

/-- VaultUnitTests.cpp line 4097: ToJson, Array. -/
theorem conf_text_vault_ToJson_Array : runX [
    op .newVault,
    op (.addUniqueKey 0 ['A'] (.int .u64) true (fun _ _ _ => .bool false)),
    op (.addKey 0 ['B'] (.str ['n', 'o', 'n', 'e'])),
    op (.createRow 0 [(['A'], (vz 1)), (['B'], (.str ['a']))]),
    op (.createRow 0 [(['A'], (vz 2)), (['B'], (.str ['b']))]),
    op (.createRow 0 [(['A'], (vz 3)), (['B'], (.str ['c']))]),
    json false 0 false 2 true ['R', 'e', 'c', 'o', 'r', 'd'] true ['[', '{', '"', 'A', '"', ':', '3', ',', '"', 'B', '"', ':', '"', 'c', '"', '}', ',', '{', '"', 'A', '"', ':', '2', ',', '"', 'B', '"', ':', '"', 'b', '"', '}', ',', '{', '"', 'A', '"', ':', '1', ',', '"', 'B', '"', ':', '"', 'a', '"', '}', ']']] = true := by decide +kernel

/-- VaultUnitTests.cpp line 4113: ToJson, ArrayFormat. -/
theorem conf_text_vault_ToJson_ArrayFormat : runX [
    op .newVault,
    op (.addUniqueKey 0 ['A'] (.int .u64) true (fun _ _ _ => .bool false)),
    op (.addKey 0 ['B'] (.str ['n', 'o', 'n', 'e'])),
    op (.createRow 0 [(['A'], (vz 1)), (['B'], (.str ['a']))]),
    op (.createRow 0 [(['A'], (vz 2)), (['B'], (.str ['b']))]),
    op (.createRow 0 [(['A'], (vz 3)), (['B'], (.str ['c']))]),
    json false 0 true 2 true ['R', 'e', 'c', 'o', 'r', 'd'] true ['[', '\n', ' ', ' ', '{', '\n', ' ', ' ', ' ', ' ', '"', 'A', '"', ':', ' ', '3', ',', '\n', ' ', ' ', ' ', ' ', '"', 'B', '"', ':', ' ', '"', 'c', '"', '\n', ' ', ' ', '}', ',', '\n', ' ', ' ', '{', '\n', ' ', ' ', ' ', ' ', '"', 'A', '"', ':', ' ', '2', ',', '\n', ' ', ' ', ' ', ' ', '"', 'B', '"', ':', ' ', '"', 'b', '"', '\n', ' ', ' ', '}', ',', '\n', ' ', ' ', '{', '\n', ' ', ' ', ' ', ' ', '"', 'A', '"', ':', ' ', '1', ',', '\n', ' ', ' ', ' ', ' ', '"', 'B', '"', ':', ' ', '"', 'a', '"', '\n', ' ', ' ', '}', '\n', ']']] = true := by decide +kernel

/-- VaultUnitTests.cpp line 4142: ToJson, ArrayDiffTabSize. -/
theorem conf_text_vault_ToJson_ArrayDiffTabSize : runX [
    op .newVault,
    op (.addUniqueKey 0 ['A'] (.int .u64) true (fun _ _ _ => .bool false)),
    op (.addKey 0 ['B'] (.str ['n', 'o', 'n', 'e'])),
    op (.createRow 0 [(['A'], (vz 1)), (['B'], (.str ['a']))]),
    op (.createRow 0 [(['A'], (vz 2)), (['B'], (.str ['b']))]),
    op (.createRow 0 [(['A'], (vz 3)), (['B'], (.str ['c']))]),
    json false 0 true 1 true ['R', 'e', 'c', 'o', 'r', 'd'] true ['[', '\n', ' ', '{', '\n', ' ', ' ', '"', 'A', '"', ':', ' ', '3', ',', '\n', ' ', ' ', '"', 'B', '"', ':', ' ', '"', 'c', '"', '\n', ' ', '}', ',', '\n', ' ', '{', '\n', ' ', ' ', '"', 'A', '"', ':', ' ', '2', ',', '\n', ' ', ' ', '"', 'B', '"', ':', ' ', '"', 'b', '"', '\n', ' ', '}', ',', '\n', ' ', '{', '\n', ' ', ' ', '"', 'A', '"', ':', ' ', '1', ',', '\n', ' ', ' ', '"', 'B', '"', ':', ' ', '"', 'a', '"', '\n', ' ', '}', '\n', ']']] = true := by decide +kernel

/-- VaultUnitTests.cpp line 4185: ToStrings, EmptyVault. -/
theorem conf_text_vault_ToStrings_EmptyVault : runX [
    op .newVault,
    strings false 0 []] = true := by decide +kernel

/-- VaultUnitTests.cpp line 4191: ToStrings, KeysWithoutRecords. -/
theorem conf_text_vault_ToStrings_KeysWithoutRecords : runX [
    op .newVault,
    op (.addUniqueKey 0 ['A'] (.int .i32) true (fun _ _ _ => .bool false)),
    op (.addKey 0 ['B'] (.str ['n', 'o', 'n', 'e'])),
    strings false 0 []] = true := by decide +kernel

/-- VaultUnitTests.cpp line 4200: ToStrings, FilledVault. -/
theorem conf_text_vault_ToStrings_FilledVault : runX [
    op .newVault,
    op (.addUniqueKey 0 ['A'] (.int .i32) true (fun _ _ _ => .bool false)),
    op (.addKey 0 ['B'] (.str ['n', 'o', 'n', 'e'])),
    op (.createRow 0 [(['A'], (vi (1))), (['B'], (.str ['a']))]),
    op (.createRow 0 [(['A'], (vi (2))), (['B'], (.str ['b']))]),
    op (.createRow 0 [(['A'], (vi (3))), (['B'], (.str ['c']))]),
    strings false 0 [[(['A'], ['1']), (['B'], ['a'])], [(['A'], ['2']), (['B'], ['b'])], [(['A'], ['3']), (['B'], ['c'])]]] = true := by decide +kernel

/-- VaultUnitTests.cpp line 4218: Print, Empty. -/
theorem conf_text_vault_Print_Empty : runX [
    op .newVault,
    size 0 0,
    print 0 (2 ^ 64 - 1) [] false [] [['V', 'a', 'u', 'l', 't', ' ', 'd', 'o', 'e', 's', ' ', 'n', 'o', 't', ' ', 'c', 'o', 'n', 't', 'a', 'i', 'n', ' ', 'k', 'e', 'y', 's', '!']]] = true := by decide +kernel

/-- VaultUnitTests.cpp line 4226: Print, KeysWithoutRecords. -/
theorem conf_text_vault_Print_KeysWithoutRecords : runX [
    op .newVault,
    op (.addUniqueKey 0 ['A'] (.int .i32) true (fun _ _ _ => .bool false)),
    op (.addKey 0 ['B'] (.str ['n', 'o', 'n', 'e'])),
    size 0 0,
    print 0 (2 ^ 64 - 1) [] false [] [['+', '-', '-', '-', '+', '-', '-', '-', '+'],
      ['|', ' ', 'A', ' ', '|', ' ', 'B', ' ', '|'],
      ['+', '-', '-', '-', '+', '-', '-', '-', '+'],
      ['+', '-', '-', '-', '+', '-', '-', '-', '+']]] = true := by decide +kernel

/-- VaultUnitTests.cpp line 4240: Print, FilledVaultWithDefaultArgs. -/
theorem conf_text_vault_Print_FilledVaultWithDefaultArgs : runX [
    op .newVault,
    op (.addUniqueKey 0 ['A'] (.int .i32) true (fun _ _ _ => .bool false)),
    op (.addKey 0 ['B'] (.str ['n', 'o', 'n', 'e'])),
    op (.createRow 0 [(['A'], (vi (1))), (['B'], (.str ['a']))]),
    op (.createRow 0 [(['A'], (vi (2))), (['B'], (.str ['b']))]),
    op (.createRow 0 [(['A'], (vi (3))), (['B'], (.str ['c']))]),
    size 0 3,
    print 0 (2 ^ 64 - 1) [] false [] [['+', '-', '-', '-', '+', '-', '-', '-', '+'],
      ['|', ' ', 'A', ' ', '|', ' ', 'B', ' ', '|'],
      ['+', '-', '-', '-', '+', '-', '-', '-', '+'],
      ['|', ' ', '1', ' ', '|', ' ', 'a', ' ', '|'],
      ['|', ' ', '2', ' ', '|', ' ', 'b', ' ', '|'],
      ['|', ' ', '3', ' ', '|', ' ', 'c', ' ', '|'],
      ['+', '-', '-', '-', '+', '-', '-', '-', '+']]] = true := by decide +kernel

/-- VaultUnitTests.cpp line 4261: Print, NotAllRecords. -/
theorem conf_text_vault_Print_NotAllRecords : runX [
    op .newVault,
    op (.addUniqueKey 0 ['A'] (.int .i32) true (fun _ _ _ => .bool false)),
    op (.addKey 0 ['B'] (.str ['n', 'o', 'n', 'e'])),
    op (.createRow 0 [(['A'], (vi (1))), (['B'], (.str ['a']))]),
    op (.createRow 0 [(['A'], (vi (2))), (['B'], (.str ['b']))]),
    op (.createRow 0 [(['A'], (vi (3))), (['B'], (.str ['c']))]),
    size 0 3,
    print 0 2 [] false [] [['+', '-', '-', '-', '+', '-', '-', '-', '+'],
      ['|', ' ', 'A', ' ', '|', ' ', 'B', ' ', '|'],
      ['+', '-', '-', '-', '+', '-', '-', '-', '+'],
      ['|', ' ', '1', ' ', '|', ' ', 'a', ' ', '|'],
      ['|', ' ', '2', ' ', '|', ' ', 'b', ' ', '|'],
      ['$', '~', '~', '~', '$', '~', '~', '~', '$']]] = true := by decide +kernel

/-- VaultUnitTests.cpp line 4281: Print, PrimaryKey. -/
theorem conf_text_vault_Print_PrimaryKey : runX [
    op .newVault,
    op (.addUniqueKey 0 ['A'] (.int .i32) true (fun _ _ _ => .bool false)),
    op (.addKey 0 ['B'] (.str ['n', 'o', 'n', 'e'])),
    op (.createRow 0 [(['A'], (vi (1))), (['B'], (.str ['c']))]),
    op (.createRow 0 [(['A'], (vi (2))), (['B'], (.str ['b']))]),
    op (.createRow 0 [(['A'], (vi (3))), (['B'], (.str ['a']))]),
    size 0 3,
    print 0 2 ['B'] false [] [['+', '-', '-', '-', '+', '-', '-', '-', '+'],
      ['|', ' ', 'A', ' ', '|', ' ', 'B', ' ', '|'],
      ['+', '-', '-', '-', '+', '-', '-', '-', '+'],
      ['|', ' ', '3', ' ', '|', ' ', 'a', ' ', '|'],
      ['|', ' ', '2', ' ', '|', ' ', 'b', ' ', '|'],
      ['$', '~', '~', '~', '$', '~', '~', '~', '$']]] = true := by decide +kernel

/-- VaultUnitTests.cpp line 4301: Print, Reverse. -/
theorem conf_text_vault_Print_Reverse : runX [
    op .newVault,
    op (.addUniqueKey 0 ['A'] (.int .i32) true (fun _ _ _ => .bool false)),
    op (.addKey 0 ['B'] (.str ['n', 'o', 'n', 'e'])),
    op (.createRow 0 [(['A'], (vi (1))), (['B'], (.str ['a']))]),
    op (.createRow 0 [(['A'], (vi (2))), (['B'], (.str ['b']))]),
    op (.createRow 0 [(['A'], (vi (3))), (['B'], (.str ['c']))]),
    size 0 3,
    print 0 2 ['B'] true [] [['+', '-', '-', '-', '+', '-', '-', '-', '+'],
      ['|', ' ', 'A', ' ', '|', ' ', 'B', ' ', '|'],
      ['+', '-', '-', '-', '+', '-', '-', '-', '+'],
      ['|', ' ', '3', ' ', '|', ' ', 'c', ' ', '|'],
      ['|', ' ', '2', ' ', '|', ' ', 'b', ' ', '|'],
      ['$', '~', '~', '~', '$', '~', '~', '~', '$']]] = true := by decide +kernel

/-- VaultUnitTests.cpp line 4321: Print, NotAllKeys. -/
theorem conf_text_vault_Print_NotAllKeys : runX [
    op .newVault,
    op (.addUniqueKey 0 ['A'] (.int .i32) true (fun _ _ _ => .bool false)),
    op (.addKey 0 ['B'] (.str ['n', 'o', 'n', 'e'])),
    op (.addKey 0 ['C'] (.bool false)),
    op (.createRow 0 [(['A'], (vi (1))), (['B'], (.str ['a'])), (['C'], (.bool true))]),
    op (.createRow 0 [(['A'], (vi (2))), (['B'], (.str ['b'])), (['C'], (.bool false))]),
    op (.createRow 0 [(['A'], (vi (3))), (['B'], (.str ['c'])), (['C'], (.bool true))]),
    size 0 3,
    print 0 2 ['B'] true [['C'], ['B']] [['+', '-', '-', '-', '-', '-', '-', '-', '+', '-', '-', '-', '+'],
      ['|', ' ', 'C', ' ', ' ', ' ', ' ', ' ', '|', ' ', 'B', ' ', '|'],
      ['+', '-', '-', '-', '-', '-', '-', '-', '+', '-', '-', '-', '+'],
      ['|', ' ', 't', 'r', 'u', 'e', ' ', ' ', '|', ' ', 'c', ' ', '|'],
      ['|', ' ', 'f', 'a', 'l', 's', 'e', ' ', '|', ' ', 'b', ' ', '|'],
      ['$', '~', '~', '~', '~', '~', '~', '~', '$', '~', '~', '~', '$']]] = true := by decide +kernel

/-- VaultUnitTests.cpp line 4367: SaveToFile, KeysWithoutRecords. -/
theorem conf_text_vault_SaveToFile_KeysWithoutRecords : runX [
    op .newVault,
    op (.addKey 0 ['A'] (vi (0))),
    save 0 [] [','] true ['A', '\r', '\n']] = true := by decide +kernel

/-- VaultUnitTests.cpp line 4382: SaveToFile, FilledVault. -/
theorem conf_text_vault_SaveToFile_FilledVault : runX [
    op .newVault,
    op (.addKey 0 ['A'] (vi (0))),
    op (.createRow 0 [(['A'], (vi (0)))]),
    save 0 [] [','] true ['A', '\r', '\n', '0', '\r', '\n']] = true := by decide +kernel

/-- VaultUnitTests.cpp line 4399: SaveToFile, ReverseNotAllKeys. -/
theorem conf_text_vault_SaveToFile_ReverseNotAllKeys : runX [
    op .newVault,
    op (.addKey 0 ['A'] (vi (0))),
    op (.addKey 0 ['B'] (vi (0))),
    op (.addUniqueKey 0 ['C'] (.int .i32) true (fun _ _ _ => .bool false)),
    op (.createRow 0 [(['A'], (vi (0))), (['B'], (vi (1))), (['C'], (vi (2)))]),
    save 0 [['C'], ['A']] [','] true ['C', ',', 'A', '\r', '\n', '2', ',', '0', '\r', '\n']] = true := by decide +kernel

/-- VaultUnitTests.cpp line 4419: SaveToFile, Separator. -/
theorem conf_text_vault_SaveToFile_Separator : runX [
    op .newVault,
    op (.addKey 0 ['A'] (vi (0))),
    op (.addKey 0 ['B'] (vi (0))),
    op (.addUniqueKey 0 ['C'] (.int .i32) true (fun _ _ _ => .bool false)),
    op (.createRow 0 [(['A'], (vi (0))), (['B'], (vi (1))), (['C'], (vi (2)))]),
    save 0 [] [';'] true ['A', ';', 'B', ';', 'C', '\r', '\n', '0', ';', '1', ';', '2', '\r', '\n']] = true := by decide +kernel

/-- VaultUnitTests.cpp line 4439: SaveToFile, NotSaveKeys. -/
theorem conf_text_vault_SaveToFile_NotSaveKeys : runX [
    op .newVault,
    op (.addKey 0 ['A'] (vi (0))),
    op (.addKey 0 ['B'] (vi (0))),
    op (.addUniqueKey 0 ['C'] (.int .i32) true (fun _ _ _ => .bool false)),
    op (.createRow 0 [(['A'], (vi (0))), (['B'], (vi (1))), (['C'], (vi (2)))]),
    save 0 [] [','] false ['0', ',', '1', ',', '2', '\r', '\n']] = true := by decide +kernel

/-- VaultUnitTests.cpp line 4470: ReadFile, CorrectCrLf. -/
theorem conf_text_vault_ReadFile_CorrectCrLf : runX [
    op .newVault,
    op (.addKey 0 ['A'] (vi (0))),
    op (.addUniqueKey 0 ['B'] (.int .i32) true (fun _ _ _ => .bool false)),
    op (.createRow 0 [(['A'], (vi (0))), (['B'], (vi (0)))]),
    read (fun _ r => r) 0 (some ['A', ',', 'B', '\r', '\n', '1', ',', '1', '\r', '\n', '2', ',', '2']) ',' true [] true,
    strings false 0 [[(['A'], ['0']), (['B'], ['0'])], [(['A'], ['1']), (['B'], ['1'])], [(['A'], ['2']), (['B'], ['2'])]]] = true := by decide +kernel

/-- VaultUnitTests.cpp line 4491: ReadFile, CorrectLf. -/
theorem conf_text_vault_ReadFile_CorrectLf : runX [
    op .newVault,
    op (.addKey 0 ['A'] (vi (0))),
    op (.addUniqueKey 0 ['B'] (.int .i32) true (fun _ _ _ => .bool false)),
    op (.createRow 0 [(['A'], (vi (0))), (['B'], (vi (0)))]),
    read (fun _ r => r) 0 (some ['A', ',', 'B', '\n', '1', ',', '1', '\n', '2', ',', '2']) ',' true [] true,
    strings false 0 [[(['A'], ['0']), (['B'], ['0'])], [(['A'], ['1']), (['B'], ['1'])], [(['A'], ['2']), (['B'], ['2'])]]] = true := by decide +kernel

/-- VaultUnitTests.cpp line 4531: ReadFile, SemicolonSeparator. -/
theorem conf_text_vault_ReadFile_SemicolonSeparator : runX [
    op .newVault,
    op (.addKey 0 ['A'] (vi (0))),
    op (.addUniqueKey 0 ['B'] (.int .i32) true (fun _ _ _ => .bool false)),
    op (.createRow 0 [(['A'], (vi (0))), (['B'], (vi (0)))]),
    read (fun _ r => r) 0 (some ['A', ';', 'B', '\r', '\n', '1', ';', '1', '\r', '\n', '2', ';', '2']) ';' true [] true,
    strings false 0 [[(['A'], ['0']), (['B'], ['0'])], [(['A'], ['1']), (['B'], ['1'])], [(['A'], ['2']), (['B'], ['2'])]]] = true := by decide +kernel

/-- VaultUnitTests.cpp line 4552: ReadFile, NotLoadKeys. -/
theorem conf_text_vault_ReadFile_NotLoadKeys : runX [
    op .newVault,
    op (.addKey 0 ['A'] (vi (0))),
    op (.addUniqueKey 0 ['B'] (.int .i32) true (fun _ _ _ => .bool false)),
    op (.createRow 0 [(['A'], (vi (0))), (['B'], (vi (0)))]),
    read (fun _ r => r) 0 (some ['1', ',', '1', '\r', '\n', '2', ',', '2']) ',' false [] true,
    strings false 0 [[(['A'], ['0']), (['B'], ['0'])], [(['A'], ['1']), (['B'], ['1'])], [(['A'], ['2']), (['B'], ['2'])]]] = true := by decide +kernel

/-- VaultUnitTests.cpp line 4573: ReadFile, NotAllKeys. -/
theorem conf_text_vault_ReadFile_NotAllKeys : runX [
    op .newVault,
    op (.addKey 0 ['A'] (vi (0))),
    op (.addKey 0 ['B'] (vi (0))),
    op (.addUniqueKey 0 ['C'] (.int .i32) true (fun _ _ _ => .bool false)),
    op (.createRow 0 [(['A'], (vi (0))), (['B'], (vi (0))), (['C'], (vi (0)))]),
    read (fun _ r => r) 0 (some ['1', ',', '9', '\r', '\n', '2', ',', '8']) ',' false [['C'], ['A']] true,
    strings false 0 [[(['A'], ['0']), (['B'], ['0']), (['C'], ['0'])], [(['A'], ['9']), (['B'], ['0']), (['C'], ['1'])], [(['A'], ['8']), (['B'], ['0']), (['C'], ['2'])]]] = true := by decide +kernel

/-- VaultUnitTests.cpp line 4596: ReadFile, HandleRecords. -/
theorem conf_text_vault_ReadFile_HandleRecords : runX [
    op .newVault,
    op (.addKey 0 ['A'] (vi (0))),
    op (.addUniqueKey 0 ['B'] (.int .i32) true (fun _ _ _ => .bool false)),
    op (.createRow 0 [(['A'], (vi (0))), (['B'], (vi (0)))]),
    read (fun ks r => List.zipWith (fun k v => if k = ['A'] then v ++ ['0'] else v ++ ['0', '0']) ks r) 0 (some ['A', ',', 'B', '\r', '\n', '1', ',', '1', '\r', '\n', '2', ',', '2']) ',' true [] true,
    strings false 0 [[(['A'], ['0']), (['B'], ['0'])], [(['A'], ['1', '0']), (['B'], ['1', '0', '0'])], [(['A'], ['2', '0']), (['B'], ['2', '0', '0'])]]] = true := by decide +kernel

/-- VaultUnitTests.cpp line 4624: ReadFile, NotExistedFile. -/
theorem conf_text_vault_ReadFile_NotExistedFile : runX [
    op .newVault,
    read (fun _ r => r) 0 none ',' true [] false] = true := by decide +kernel

/-- VaultUnitTests.cpp line 4629: ReadFile, AllIncorrectRecords. -/
theorem conf_text_vault_ReadFile_AllIncorrectRecords : runX [
    op .newVault,
    op (.addKey 0 ['A'] (vi (0))),
    op (.addUniqueKey 0 ['B'] (.int .i32) true (fun _ _ _ => .bool false)),
    op (.createRow 0 [(['A'], (vi (0))), (['B'], (vi (0)))]),
    read (fun _ r => r) 0 (some ['A', ',', 'B', '\r', '\n', 'a', ',', '1', '\r', '\n', 'b', ',', '2']) ',' true [] true,
    strings false 0 [[(['A'], ['0']), (['B'], ['0'])]]] = true := by decide +kernel

/-- VaultUnitTests.cpp line 4646: ReadFile, NotAllIncorrectRecords. -/
theorem conf_text_vault_ReadFile_NotAllIncorrectRecords : runX [
    op .newVault,
    op (.addKey 0 ['A'] (vi (0))),
    op (.addUniqueKey 0 ['B'] (.int .i32) true (fun _ _ _ => .bool false)),
    op (.createRow 0 [(['A'], (vi (0))), (['B'], (vi (0)))]),
    read (fun _ r => r) 0 (some ['A', ',', 'B', '\r', '\n', 'a', ',', '1', '\r', '\n', '2', ',', '2']) ',' true [] true,
    strings false 0 [[(['A'], ['0']), (['B'], ['0'])], [(['A'], ['2']), (['B'], ['2'])]]] = true := by decide +kernel

/-- VaultUnitTests.cpp line 4663: ReadFile, DuplicateUniqueKeyValue. -/
theorem conf_text_vault_ReadFile_DuplicateUniqueKeyValue : runX [
    op .newVault,
    op (.addKey 0 ['A'] (vi (0))),
    op (.addUniqueKey 0 ['B'] (.int .i32) true (fun _ _ _ => .bool false)),
    op (.addUniqueKey 0 ['C'] (.int .i32) true (fun _ _ _ => .bool false)),
    op (.createRow 0 [(['A'], (vi (0))), (['B'], (vi (0))), (['C'], (vi (0)))]),
    read (fun _ r => r) 0 (some ['A', ',', 'B', ',', 'C', '\r', '\n', '1', ',', '1', ',', '1', '\r', '\n', '2', ',', '2', ',', '1']) ',' true [] true,
    strings false 0 [[(['A'], ['0']), (['B'], ['0']), (['C'], ['0'])], [(['A'], ['1']), (['B'], ['1']), (['C'], ['1'])]]] = true := by decide +kernel

/-- VaultUnitTests.cpp line 4681: GetErrorsInLastReadedFile, Correct. -/
theorem conf_text_vault_GetErrorsInLastReadedFile_Correct : runX [
    op .newVault,
    op (.addKey 0 ['A'] (vi (0))),
    op (.addUniqueKey 0 ['B'] (.int .i32) true (fun _ _ _ => .bool false)),
    read (fun _ r => r) 0 (some ['A', ',', 'B', '\r', '\n', '1', ',', '1', '\r', '\n', '2', ',', '2']) ',' true [] true,
    errors []] = true := by decide +kernel

/-- VaultUnitTests.cpp line 4697: GetErrorsInLastReadedFile, AllIncorrectRecords. -/
theorem conf_text_vault_GetErrorsInLastReadedFile_AllIncorrectRecords : runX [
    op .newVault,
    op (.addKey 0 ['A'] (vi (0))),
    op (.addUniqueKey 0 ['B'] (.int .i32) true (fun _ _ _ => .bool false)),
    read (fun _ r => r) 0 (some ['A', ',', 'B', '\r', '\n', 'a', ',', '1', '\r', '\n', '2', ',', 'b']) ',' true [] true,
    errors [(2, ['A']), (3, ['B'])]] = true := by decide +kernel

/-- VaultUnitTests.cpp line 4713: GetErrorsInLastReadedFile, NotAllIncorrectRecords. -/
theorem conf_text_vault_GetErrorsInLastReadedFile_NotAllIncorrectRecords : runX [
    op .newVault,
    op (.addKey 0 ['A'] (vi (0))),
    op (.addUniqueKey 0 ['B'] (.int .i32) true (fun _ _ _ => .bool false)),
    read (fun _ r => r) 0 (some ['A', ',', 'B', '\r', '\n', '1', ',', '1', '\r', '\n', 'a', ',', '2']) ',' true [] true,
    errors [(3, ['A'])]] = true := by decide +kernel

/-- VaultUnitTests.cpp line 4729: GetErrorsInLastReadedFile, DuplicateUniqueKeyValue. -/
theorem conf_text_vault_GetErrorsInLastReadedFile_DuplicateUniqueKeyValue : runX [
    op .newVault,
    op (.addKey 0 ['A'] (vi (0))),
    op (.addUniqueKey 0 ['B'] (.int .i32) true (fun _ _ _ => .bool false)),
    read (fun _ r => r) 0 (some ['A', ',', 'B', '\r', '\n', '1', ',', '1', '\r', '\n', '1', ',', '1']) ',' true [] true,
    errors [(2, ['B'])]] = true := by decide +kernel

/-- VaultUnitTests.cpp line 4745: GetErrorsInLastReadedFile, AllIncorrectRecordsWithoutKeys. -/
theorem conf_text_vault_GetErrorsInLastReadedFile_AllIncorrectRecordsWithoutKeys : runX [
    op .newVault,
    op (.addKey 0 ['A'] (vi (0))),
    op (.addUniqueKey 0 ['B'] (.int .i32) true (fun _ _ _ => .bool false)),
    read (fun _ r => r) 0 (some ['a', ',', '1', '\r', '\n', '2', ',', 'b']) ',' false [] true,
    errors [(1, ['A']), (2, ['B'])]] = true := by decide +kernel

/-- VaultUnitTests.cpp line 4761: GetErrorsInLastReadedFile, NotAllIncorrectRecordsWithoutKeys. -/
theorem conf_text_vault_GetErrorsInLastReadedFile_NotAllIncorrectRecordsWithoutKeys : runX [
    op .newVault,
    op (.addKey 0 ['A'] (vi (0))),
    op (.addUniqueKey 0 ['B'] (.int .i32) true (fun _ _ _ => .bool false)),
    read (fun _ r => r) 0 (some ['1', ',', '1', '\r', '\n', 'a', ',', '2']) ',' false [] true,
    errors [(2, ['A'])]] = true := by decide +kernel

/-- VaultUnitTests.cpp line 4777: GetErrorsInLastReadedFile, DuplicateUniqueKeyValueWithoutKeys. -/
theorem conf_text_vault_GetErrorsInLastReadedFile_DuplicateUniqueKeyValueWithoutKeys : runX [
    op .newVault,
    op (.addKey 0 ['A'] (vi (0))),
    op (.addUniqueKey 0 ['B'] (.int .i32) true (fun _ _ _ => .bool false)),
    read (fun _ r => r) 0 (some ['1', ',', '1', '\r', '\n', '1', ',', '1']) ',' false [] true,
    errors [(2, ['B'])]] = true := by decide +kernel

/-- VaultUnitTests.cpp line 4793: GetErrorsInLastReadedFile, AllIncorrectRecordsNotAllKeys. -/
theorem conf_text_vault_GetErrorsInLastReadedFile_AllIncorrectRecordsNotAllKeys : runX [
    op .newVault,
    op (.addKey 0 ['A'] (vi (0))),
    op (.addKey 0 ['B'] (vi (0))),
    op (.addUniqueKey 0 ['C'] (.int .i32) true (fun _ _ _ => .bool false)),
    read (fun _ r => r) 0 (some ['a', ',', '1', '\r', '\n', '2', ',', 'b']) ',' false [['C'], ['A']] true,
    errors [(1, ['C']), (2, ['A'])]] = true := by decide +kernel

/-- VaultUnitTests.cpp line 4810: GetErrorsInLastReadedFile, NotAllIncorrectRecordsNotAllKeys. -/
theorem conf_text_vault_GetErrorsInLastReadedFile_NotAllIncorrectRecordsNotAllKeys : runX [
    op .newVault,
    op (.addKey 0 ['A'] (vi (0))),
    op (.addKey 0 ['B'] (vi (0))),
    op (.addUniqueKey 0 ['C'] (.int .i32) true (fun _ _ _ => .bool false)),
    read (fun _ r => r) 0 (some ['1', ',', '1', '\r', '\n', 'a', ',', '2']) ',' false [['C'], ['A']] true,
    errors [(2, ['C'])]] = true := by decide +kernel

/-- VaultUnitTests.cpp line 4827: GetErrorsInLastReadedFile, DuplicateUniqueKeyValueNotAllKeys. -/
theorem conf_text_vault_GetErrorsInLastReadedFile_DuplicateUniqueKeyValueNotAllKeys : runX [
    op .newVault,
    op (.addKey 0 ['A'] (vi (0))),
    op (.addKey 0 ['B'] (vi (0))),
    op (.addUniqueKey 0 ['C'] (.int .i32) true (fun _ _ _ => .bool false)),
    read (fun _ r => r) 0 (some ['1', ',', '1', '\r', '\n', '1', ',', '1']) ',' false [['C'], ['A']] true,
    errors [(2, ['C'])]] = true := by decide +kernel

/-- VaultRecordSetUnitTests.cpp line 4472: ToJson, Invalid. -/
theorem conf_text_set_ToJson_Invalid : runX [
    op .newSet,
    json true 0 false 2 true ['R', 'e', 'c', 'o', 'r', 'd'] false ['{', '}']] = true := by decide +kernel

/-- VaultRecordSetUnitTests.cpp line 4477: ToJson, Default. -/
theorem conf_text_set_ToJson_Default : runX [
    op .newVault,
    op .newSet,
    op (.addKey 0 ['A'] (vi (0))),
    op (.createRow 0 []),
    op (.request 0 .Equal ['A'] (vi (0)) (vi (0)) false false none (fun _ => true) 1),
    op (.eraseKV 0 ['A'] (vi (0))),
    op (.removeKey 0 ['A']),
    op .newRef,
    op (.addUniqueKey 0 ['A'] (.int .u64) true (fun _ _ _ => .bool false)),
    op (.addKey 0 ['B'] (.str ['n', 'o', 'n', 'e'])),
    op (.createRecord 0 0 [(['A'], (vz 1)), (['B'], (.str ['a']))]),
    op (.setAddRecord 1 0),
    op (.createRecord 0 0 [(['A'], (vz 2)), (['B'], (.str ['b']))]),
    op (.setAddRecord 1 0),
    op (.createRecord 0 0 [(['A'], (vz 3)), (['B'], (.str ['c']))]),
    op (.setAddRecord 1 0),
    json true 1 false 2 true ['R', 'e', 'c', 'o', 'r', 'd'] false ['{', '"', 'R', 'e', 'c', 'o', 'r', 'd', '0', '"', ':', '{', '"', 'A', '"', ':', '3', ',', '"', 'B', '"', ':', '"', 'c', '"', '}', ',', '"', 'R', 'e', 'c', 'o', 'r', 'd', '1', '"', ':', '{', '"', 'A', '"', ':', '2', ',', '"', 'B', '"', ':', '"', 'b', '"', '}', ',', '"', 'R', 'e', 'c', 'o', 'r', 'd', '2', '"', ':', '{', '"', 'A', '"', ':', '1', ',', '"', 'B', '"', ':', '"', 'a', '"', '}', '}']] = true := by decide +kernel

/-- VaultRecordSetUnitTests.cpp line 4498: ToJson, Format. -/
theorem conf_text_set_ToJson_Format : runX [
    op .newVault,
    op .newSet,
    op (.addKey 0 ['A'] (vi (0))),
    op (.createRow 0 []),
    op (.request 0 .Equal ['A'] (vi (0)) (vi (0)) false false none (fun _ => true) 1),
    op (.eraseKV 0 ['A'] (vi (0))),
    op (.removeKey 0 ['A']),
    op .newRef,
    op (.addUniqueKey 0 ['A'] (.int .u64) true (fun _ _ _ => .bool false)),
    op (.addKey 0 ['B'] (.str ['n', 'o', 'n', 'e'])),
    op (.createRecord 0 0 [(['A'], (vz 1)), (['B'], (.str ['a']))]),
    op (.setAddRecord 1 0),
    op (.createRecord 0 0 [(['A'], (vz 2)), (['B'], (.str ['b']))]),
    op (.setAddRecord 1 0),
    op (.createRecord 0 0 [(['A'], (vz 3)), (['B'], (.str ['c']))]),
    op (.setAddRecord 1 0),
    json true 1 true 2 true ['R', 'e', 'c', 'o', 'r', 'd'] false ['{', '\n', ' ', ' ', '"', 'R', 'e', 'c', 'o', 'r', 'd', '0', '"', ':', ' ', '{', '\n', ' ', ' ', ' ', ' ', '"', 'A', '"', ':', ' ', '3', ',', '\n', ' ', ' ', ' ', ' ', '"', 'B', '"', ':', ' ', '"', 'c', '"', '\n', ' ', ' ', '}', ',', '\n', ' ', ' ', '"', 'R', 'e', 'c', 'o', 'r', 'd', '1', '"', ':', ' ', '{', '\n', ' ', ' ', ' ', ' ', '"', 'A', '"', ':', ' ', '2', ',', '\n', ' ', ' ', ' ', ' ', '"', 'B', '"', ':', ' ', '"', 'b', '"', '\n', ' ', ' ', '}', ',', '\n', ' ', ' ', '"', 'R', 'e', 'c', 'o', 'r', 'd', '2', '"', ':', ' ', '{', '\n', ' ', ' ', ' ', ' ', '"', 'A', '"', ':', ' ', '1', ',', '\n', ' ', ' ', ' ', ' ', '"', 'B', '"', ':', ' ', '"', 'a', '"', '\n', ' ', ' ', '}', '\n', '}']] = true := by decide +kernel

/-- VaultRecordSetUnitTests.cpp line 4532: ToJson, DiffTabSize. -/
theorem conf_text_set_ToJson_DiffTabSize : runX [
    op .newVault,
    op .newSet,
    op (.addKey 0 ['A'] (vi (0))),
    op (.createRow 0 []),
    op (.request 0 .Equal ['A'] (vi (0)) (vi (0)) false false none (fun _ => true) 1),
    op (.eraseKV 0 ['A'] (vi (0))),
    op (.removeKey 0 ['A']),
    op .newRef,
    op (.addUniqueKey 0 ['A'] (.int .u64) true (fun _ _ _ => .bool false)),
    op (.addKey 0 ['B'] (.str ['n', 'o', 'n', 'e'])),
    op (.createRecord 0 0 [(['A'], (vz 1)), (['B'], (.str ['a']))]),
    op (.setAddRecord 1 0),
    op (.createRecord 0 0 [(['A'], (vz 2)), (['B'], (.str ['b']))]),
    op (.setAddRecord 1 0),
    op (.createRecord 0 0 [(['A'], (vz 3)), (['B'], (.str ['c']))]),
    op (.setAddRecord 1 0),
    json true 1 true 1 true ['R', 'e', 'c', 'o', 'r', 'd'] false ['{', '\n', ' ', '"', 'R', 'e', 'c', 'o', 'r', 'd', '0', '"', ':', ' ', '{', '\n', ' ', ' ', '"', 'A', '"', ':', ' ', '3', ',', '\n', ' ', ' ', '"', 'B', '"', ':', ' ', '"', 'c', '"', '\n', ' ', '}', ',', '\n', ' ', '"', 'R', 'e', 'c', 'o', 'r', 'd', '1', '"', ':', ' ', '{', '\n', ' ', ' ', '"', 'A', '"', ':', ' ', '2', ',', '\n', ' ', ' ', '"', 'B', '"', ':', ' ', '"', 'b', '"', '\n', ' ', '}', ',', '\n', ' ', '"', 'R', 'e', 'c', 'o', 'r', 'd', '2', '"', ':', ' ', '{', '\n', ' ', ' ', '"', 'A', '"', ':', ' ', '1', ',', '\n', ' ', ' ', '"', 'B', '"', ':', ' ', '"', 'a', '"', '\n', ' ', '}', '\n', '}']] = true := by decide +kernel

/-- VaultRecordSetUnitTests.cpp line 4566: ToJson, RecordTemplate. -/
theorem conf_text_set_ToJson_RecordTemplate : runX [
    op .newVault,
    op .newSet,
    op (.addKey 0 ['A'] (vi (0))),
    op (.createRow 0 []),
    op (.request 0 .Equal ['A'] (vi (0)) (vi (0)) false false none (fun _ => true) 1),
    op (.eraseKV 0 ['A'] (vi (0))),
    op (.removeKey 0 ['A']),
    op .newRef,
    op (.addUniqueKey 0 ['A'] (.int .u64) true (fun _ _ _ => .bool false)),
    op (.addKey 0 ['B'] (.str ['n', 'o', 'n', 'e'])),
    op (.createRecord 0 0 [(['A'], (vz 1)), (['B'], (.str ['a']))]),
    op (.setAddRecord 1 0),
    op (.createRecord 0 0 [(['A'], (vz 2)), (['B'], (.str ['b']))]),
    op (.setAddRecord 1 0),
    op (.createRecord 0 0 [(['A'], (vz 3)), (['B'], (.str ['c']))]),
    op (.setAddRecord 1 0),
    json true 1 true 2 true ['R', 'e', 'c'] false ['{', '\n', ' ', ' ', '"', 'R', 'e', 'c', '0', '"', ':', ' ', '{', '\n', ' ', ' ', ' ', ' ', '"', 'A', '"', ':', ' ', '3', ',', '\n', ' ', ' ', ' ', ' ', '"', 'B', '"', ':', ' ', '"', 'c', '"', '\n', ' ', ' ', '}', ',', '\n', ' ', ' ', '"', 'R', 'e', 'c', '1', '"', ':', ' ', '{', '\n', ' ', ' ', ' ', ' ', '"', 'A', '"', ':', ' ', '2', ',', '\n', ' ', ' ', ' ', ' ', '"', 'B', '"', ':', ' ', '"', 'b', '"', '\n', ' ', ' ', '}', ',', '\n', ' ', ' ', '"', 'R', 'e', 'c', '2', '"', ':', ' ', '{', '\n', ' ', ' ', ' ', ' ', '"', 'A', '"', ':', ' ', '1', ',', '\n', ' ', ' ', ' ', ' ', '"', 'B', '"', ':', ' ', '"', 'a', '"', '\n', ' ', ' ', '}', '\n', '}']] = true := by decide +kernel

/-- VaultRecordSetUnitTests.cpp line 4601: ToJson, Array. -/
theorem conf_text_set_ToJson_Array : runX [
    op .newVault,
    op .newSet,
    op (.addKey 0 ['A'] (vi (0))),
    op (.createRow 0 []),
    op (.request 0 .Equal ['A'] (vi (0)) (vi (0)) false false none (fun _ => true) 1),
    op (.eraseKV 0 ['A'] (vi (0))),
    op (.removeKey 0 ['A']),
    op .newRef,
    op (.addUniqueKey 0 ['A'] (.int .u64) true (fun _ _ _ => .bool false)),
    op (.addKey 0 ['B'] (.str ['n', 'o', 'n', 'e'])),
    op (.createRecord 0 0 [(['A'], (vz 1)), (['B'], (.str ['a']))]),
    op (.setAddRecord 1 0),
    op (.createRecord 0 0 [(['A'], (vz 2)), (['B'], (.str ['b']))]),
    op (.setAddRecord 1 0),
    op (.createRecord 0 0 [(['A'], (vz 3)), (['B'], (.str ['c']))]),
    op (.setAddRecord 1 0),
    json true 1 false 2 true ['R', 'e', 'c', 'o', 'r', 'd'] true ['[', '{', '"', 'A', '"', ':', '3', ',', '"', 'B', '"', ':', '"', 'c', '"', '}', ',', '{', '"', 'A', '"', ':', '2', ',', '"', 'B', '"', ':', '"', 'b', '"', '}', ',', '{', '"', 'A', '"', ':', '1', ',', '"', 'B', '"', ':', '"', 'a', '"', '}', ']']] = true := by decide +kernel

/-- VaultRecordSetUnitTests.cpp line 4622: ToJson, ArrayFormat. -/
theorem conf_text_set_ToJson_ArrayFormat : runX [
    op .newVault,
    op .newSet,
    op (.addKey 0 ['A'] (vi (0))),
    op (.createRow 0 []),
    op (.request 0 .Equal ['A'] (vi (0)) (vi (0)) false false none (fun _ => true) 1),
    op (.eraseKV 0 ['A'] (vi (0))),
    op (.removeKey 0 ['A']),
    op .newRef,
    op (.addUniqueKey 0 ['A'] (.int .u64) true (fun _ _ _ => .bool false)),
    op (.addKey 0 ['B'] (.str ['n', 'o', 'n', 'e'])),
    op (.createRecord 0 0 [(['A'], (vz 1)), (['B'], (.str ['a']))]),
    op (.setAddRecord 1 0),
    op (.createRecord 0 0 [(['A'], (vz 2)), (['B'], (.str ['b']))]),
    op (.setAddRecord 1 0),
    op (.createRecord 0 0 [(['A'], (vz 3)), (['B'], (.str ['c']))]),
    op (.setAddRecord 1 0),
    json true 1 true 2 true ['R', 'e', 'c', 'o', 'r', 'd'] true ['[', '\n', ' ', ' ', '{', '\n', ' ', ' ', ' ', ' ', '"', 'A', '"', ':', ' ', '3', ',', '\n', ' ', ' ', ' ', ' ', '"', 'B', '"', ':', ' ', '"', 'c', '"', '\n', ' ', ' ', '}', ',', '\n', ' ', ' ', '{', '\n', ' ', ' ', ' ', ' ', '"', 'A', '"', ':', ' ', '2', ',', '\n', ' ', ' ', ' ', ' ', '"', 'B', '"', ':', ' ', '"', 'b', '"', '\n', ' ', ' ', '}', ',', '\n', ' ', ' ', '{', '\n', ' ', ' ', ' ', ' ', '"', 'A', '"', ':', ' ', '1', ',', '\n', ' ', ' ', ' ', ' ', '"', 'B', '"', ':', ' ', '"', 'a', '"', '\n', ' ', ' ', '}', '\n', ']']] = true := by decide +kernel

/-- VaultRecordSetUnitTests.cpp line 4656: ToJson, ArrayDiffTabSize. -/
theorem conf_text_set_ToJson_ArrayDiffTabSize : runX [
    op .newVault,
    op .newSet,
    op (.addKey 0 ['A'] (vi (0))),
    op (.createRow 0 []),
    op (.request 0 .Equal ['A'] (vi (0)) (vi (0)) false false none (fun _ => true) 1),
    op (.eraseKV 0 ['A'] (vi (0))),
    op (.removeKey 0 ['A']),
    op .newRef,
    op (.addUniqueKey 0 ['A'] (.int .u64) true (fun _ _ _ => .bool false)),
    op (.addKey 0 ['B'] (.str ['n', 'o', 'n', 'e'])),
    op (.createRecord 0 0 [(['A'], (vz 1)), (['B'], (.str ['a']))]),
    op (.setAddRecord 1 0),
    op (.createRecord 0 0 [(['A'], (vz 2)), (['B'], (.str ['b']))]),
    op (.setAddRecord 1 0),
    op (.createRecord 0 0 [(['A'], (vz 3)), (['B'], (.str ['c']))]),
    op (.setAddRecord 1 0),
    json true 1 true 1 true ['R', 'e', 'c', 'o', 'r', 'd'] true ['[', '\n', ' ', '{', '\n', ' ', ' ', '"', 'A', '"', ':', ' ', '3', ',', '\n', ' ', ' ', '"', 'B', '"', ':', ' ', '"', 'c', '"', '\n', ' ', '}', ',', '\n', ' ', '{', '\n', ' ', ' ', '"', 'A', '"', ':', ' ', '2', ',', '\n', ' ', ' ', '"', 'B', '"', ':', ' ', '"', 'b', '"', '\n', ' ', '}', ',', '\n', ' ', '{', '\n', ' ', ' ', '"', 'A', '"', ':', ' ', '1', ',', '\n', ' ', ' ', '"', 'B', '"', ':', ' ', '"', 'a', '"', '\n', ' ', '}', '\n', ']']] = true := by decide +kernel

/-- VaultRecordSetUnitTests.cpp line 4709: ToStrings, Invalid. -/
theorem conf_text_set_ToStrings_Invalid : runX [
    op .newSet,
    strings true 0 []] = true := by decide +kernel

/-- VaultRecordSetUnitTests.cpp line 4714: ToStrings, EmptySet. -/
theorem conf_text_set_ToStrings_EmptySet : runX [
    op .newVault,
    op .newSet,
    op (.addKey 0 ['A'] (vi (0))),
    op (.createRow 0 []),
    op (.request 0 .Equal ['A'] (vi (0)) (vi (0)) false false none (fun _ => true) 1),
    op (.eraseKV 0 ['A'] (vi (0))),
    op (.removeKey 0 ['A']),
    strings true 1 []] = true := by decide +kernel

/-- VaultRecordSetUnitTests.cpp line 4721: ToStrings, KeysWithoutRecords. -/
theorem conf_text_set_ToStrings_KeysWithoutRecords : runX [
    op .newVault,
    op .newSet,
    op (.addKey 0 ['A'] (vi (0))),
    op (.createRow 0 []),
    op (.request 0 .Equal ['A'] (vi (0)) (vi (0)) false false none (fun _ => true) 1),
    op (.eraseKV 0 ['A'] (vi (0))),
    op (.removeKey 0 ['A']),
    op (.addUniqueKey 0 ['A'] (.int .i32) true (fun _ _ _ => .bool false)),
    op (.addKey 0 ['B'] (.str ['n', 'o', 'n', 'e'])),
    strings true 1 []] = true := by decide +kernel

/-- VaultRecordSetUnitTests.cpp line 4731: ToStrings, FilledVault. -/
theorem conf_text_set_ToStrings_FilledVault : runX [
    op .newVault,
    op .newSet,
    op (.addKey 0 ['A'] (vi (0))),
    op (.createRow 0 []),
    op (.request 0 .Equal ['A'] (vi (0)) (vi (0)) false false none (fun _ => true) 1),
    op (.eraseKV 0 ['A'] (vi (0))),
    op (.removeKey 0 ['A']),
    op .newRef,
    op (.addUniqueKey 0 ['A'] (.int .i32) true (fun _ _ _ => .bool false)),
    op (.addKey 0 ['B'] (.str ['n', 'o', 'n', 'e'])),
    op (.createRecord 0 0 [(['A'], (vi (1))), (['B'], (.str ['a']))]),
    op (.setAddRecord 1 0),
    op (.createRecord 0 0 [(['A'], (vi (2))), (['B'], (.str ['b']))]),
    op (.setAddRecord 1 0),
    op (.createRecord 0 0 [(['A'], (vi (3))), (['B'], (.str ['c']))]),
    op (.setAddRecord 1 0),
    strings true 1 [[(['A'], ['1']), (['B'], ['a'])], [(['A'], ['2']), (['B'], ['b'])], [(['A'], ['3']), (['B'], ['c'])]]] = true := by decide +kernel

/-- VaultRecordSetUnitTests.cpp line 4761: Print, Empty. -/
theorem conf_text_set_Print_Empty : runX [
    op .newVault,
    op .newSet,
    op (.addKey 0 ['A'] (vi (0))),
    op (.createRow 0 []),
    op (.request 0 .Equal ['A'] (vi (0)) (vi (0)) false false none (fun _ => true) 1),
    op (.eraseKV 0 ['A'] (vi (0))),
    op (.removeKey 0 ['A']),
    size 1 0,
    print 1 (2 ^ 64 - 1) [] false [] [['V', 'a', 'u', 'l', 't', 'R', 'e', 'c', 'o', 'r', 'd', 'S', 'e', 't', ' ', 'd', 'o', 'e', 's', ' ', 'n', 'o', 't', ' ', 'c', 'o', 'n', 't', 'a', 'i', 'n', ' ', 'k', 'e', 'y', 's', '!']]] = true := by decide +kernel

/-- VaultRecordSetUnitTests.cpp line 4770: Print, KeysWithoutRecords. -/
theorem conf_text_set_Print_KeysWithoutRecords : runX [
    op .newVault,
    op .newSet,
    op (.addKey 0 ['A'] (vi (0))),
    op (.createRow 0 []),
    op (.request 0 .Equal ['A'] (vi (0)) (vi (0)) false false none (fun _ => true) 1),
    op (.eraseKV 0 ['A'] (vi (0))),
    op (.removeKey 0 ['A']),
    op (.addUniqueKey 0 ['A'] (.int .i32) true (fun _ _ _ => .bool false)),
    op (.addKey 0 ['B'] (.str ['n', 'o', 'n', 'e'])),
    size 1 0,
    print 1 (2 ^ 64 - 1) [] false [] [['+', '-', '-', '-', '+', '-', '-', '-', '+'],
      ['|', ' ', 'A', ' ', '|', ' ', 'B', ' ', '|'],
      ['+', '-', '-', '-', '+', '-', '-', '-', '+'],
      ['+', '-', '-', '-', '+', '-', '-', '-', '+']]] = true := by decide +kernel

/-- VaultRecordSetUnitTests.cpp line 4785: Print, FilledVaultWithDefaultArgs. -/
theorem conf_text_set_Print_FilledVaultWithDefaultArgs : runX [
    op .newVault,
    op .newSet,
    op (.addKey 0 ['A'] (vi (0))),
    op (.createRow 0 []),
    op (.request 0 .Equal ['A'] (vi (0)) (vi (0)) false false none (fun _ => true) 1),
    op (.eraseKV 0 ['A'] (vi (0))),
    op (.removeKey 0 ['A']),
    op .newRef,
    op (.addUniqueKey 0 ['A'] (.int .i32) true (fun _ _ _ => .bool false)),
    op (.addKey 0 ['B'] (.str ['n', 'o', 'n', 'e'])),
    op (.createRecord 0 0 [(['A'], (vi (1))), (['B'], (.str ['a']))]),
    op (.setAddRecord 1 0),
    op (.createRecord 0 0 [(['A'], (vi (2))), (['B'], (.str ['b']))]),
    op (.setAddRecord 1 0),
    op (.createRecord 0 0 [(['A'], (vi (3))), (['B'], (.str ['c']))]),
    op (.setAddRecord 1 0),
    size 1 3,
    print 1 (2 ^ 64 - 1) [] false [] [['+', '-', '-', '-', '+', '-', '-', '-', '+'],
      ['|', ' ', 'A', ' ', '|', ' ', 'B', ' ', '|'],
      ['+', '-', '-', '-', '+', '-', '-', '-', '+'],
      ['|', ' ', '1', ' ', '|', ' ', 'a', ' ', '|'],
      ['|', ' ', '2', ' ', '|', ' ', 'b', ' ', '|'],
      ['|', ' ', '3', ' ', '|', ' ', 'c', ' ', '|'],
      ['+', '-', '-', '-', '+', '-', '-', '-', '+']]] = true := by decide +kernel

/-- VaultRecordSetUnitTests.cpp line 4811: Print, NotAllRecords. -/
theorem conf_text_set_Print_NotAllRecords : runX [
    op .newVault,
    op .newSet,
    op (.addKey 0 ['A'] (vi (0))),
    op (.createRow 0 []),
    op (.request 0 .Equal ['A'] (vi (0)) (vi (0)) false false none (fun _ => true) 1),
    op (.eraseKV 0 ['A'] (vi (0))),
    op (.removeKey 0 ['A']),
    op .newRef,
    op (.addUniqueKey 0 ['A'] (.int .i32) true (fun _ _ _ => .bool false)),
    op (.addKey 0 ['B'] (.str ['n', 'o', 'n', 'e'])),
    op (.createRecord 0 0 [(['A'], (vi (1))), (['B'], (.str ['a']))]),
    op (.setAddRecord 1 0),
    op (.createRecord 0 0 [(['A'], (vi (2))), (['B'], (.str ['b']))]),
    op (.setAddRecord 1 0),
    op (.createRecord 0 0 [(['A'], (vi (3))), (['B'], (.str ['c']))]),
    op (.setAddRecord 1 0),
    size 1 3,
    print 1 2 [] false [] [['+', '-', '-', '-', '+', '-', '-', '-', '+'],
      ['|', ' ', 'A', ' ', '|', ' ', 'B', ' ', '|'],
      ['+', '-', '-', '-', '+', '-', '-', '-', '+'],
      ['|', ' ', '1', ' ', '|', ' ', 'a', ' ', '|'],
      ['|', ' ', '2', ' ', '|', ' ', 'b', ' ', '|'],
      ['$', '~', '~', '~', '$', '~', '~', '~', '$']]] = true := by decide +kernel

/-- VaultRecordSetUnitTests.cpp line 4836: Print, PrimaryKey. -/
theorem conf_text_set_Print_PrimaryKey : runX [
    op .newVault,
    op .newSet,
    op (.addKey 0 ['A'] (vi (0))),
    op (.createRow 0 []),
    op (.request 0 .Equal ['A'] (vi (0)) (vi (0)) false false none (fun _ => true) 1),
    op (.eraseKV 0 ['A'] (vi (0))),
    op (.removeKey 0 ['A']),
    op .newRef,
    op (.addUniqueKey 0 ['A'] (.int .i32) true (fun _ _ _ => .bool false)),
    op (.addKey 0 ['B'] (.str ['n', 'o', 'n', 'e'])),
    op (.createRecord 0 0 [(['A'], (vi (1))), (['B'], (.str ['c']))]),
    op (.setAddRecord 1 0),
    op (.createRecord 0 0 [(['A'], (vi (2))), (['B'], (.str ['b']))]),
    op (.setAddRecord 1 0),
    op (.createRecord 0 0 [(['A'], (vi (3))), (['B'], (.str ['a']))]),
    op (.setAddRecord 1 0),
    size 1 3,
    print 1 2 ['B'] false [] [['+', '-', '-', '-', '+', '-', '-', '-', '+'],
      ['|', ' ', 'A', ' ', '|', ' ', 'B', ' ', '|'],
      ['+', '-', '-', '-', '+', '-', '-', '-', '+'],
      ['|', ' ', '3', ' ', '|', ' ', 'a', ' ', '|'],
      ['|', ' ', '2', ' ', '|', ' ', 'b', ' ', '|'],
      ['$', '~', '~', '~', '$', '~', '~', '~', '$']]] = true := by decide +kernel

/-- VaultRecordSetUnitTests.cpp line 4861: Print, Reverse. -/
theorem conf_text_set_Print_Reverse : runX [
    op .newVault,
    op .newSet,
    op (.addKey 0 ['A'] (vi (0))),
    op (.createRow 0 []),
    op (.request 0 .Equal ['A'] (vi (0)) (vi (0)) false false none (fun _ => true) 1),
    op (.eraseKV 0 ['A'] (vi (0))),
    op (.removeKey 0 ['A']),
    op .newRef,
    op (.addUniqueKey 0 ['A'] (.int .i32) true (fun _ _ _ => .bool false)),
    op (.addKey 0 ['B'] (.str ['n', 'o', 'n', 'e'])),
    op (.createRecord 0 0 [(['A'], (vi (1))), (['B'], (.str ['a']))]),
    op (.setAddRecord 1 0),
    op (.createRecord 0 0 [(['A'], (vi (2))), (['B'], (.str ['b']))]),
    op (.setAddRecord 1 0),
    op (.createRecord 0 0 [(['A'], (vi (3))), (['B'], (.str ['c']))]),
    op (.setAddRecord 1 0),
    size 1 3,
    print 1 2 ['B'] true [] [['+', '-', '-', '-', '+', '-', '-', '-', '+'],
      ['|', ' ', 'A', ' ', '|', ' ', 'B', ' ', '|'],
      ['+', '-', '-', '-', '+', '-', '-', '-', '+'],
      ['|', ' ', '3', ' ', '|', ' ', 'c', ' ', '|'],
      ['|', ' ', '2', ' ', '|', ' ', 'b', ' ', '|'],
      ['$', '~', '~', '~', '$', '~', '~', '~', '$']]] = true := by decide +kernel

/-- VaultRecordSetUnitTests.cpp line 4886: Print, NotAllKeys. -/
theorem conf_text_set_Print_NotAllKeys : runX [
    op .newVault,
    op .newSet,
    op (.addKey 0 ['A'] (vi (0))),
    op (.createRow 0 []),
    op (.request 0 .Equal ['A'] (vi (0)) (vi (0)) false false none (fun _ => true) 1),
    op (.eraseKV 0 ['A'] (vi (0))),
    op (.removeKey 0 ['A']),
    op .newRef,
    op (.addUniqueKey 0 ['A'] (.int .i32) true (fun _ _ _ => .bool false)),
    op (.addKey 0 ['B'] (.str ['n', 'o', 'n', 'e'])),
    op (.addKey 0 ['C'] (.bool false)),
    op (.createRecord 0 0 [(['A'], (vi (1))), (['B'], (.str ['a'])), (['C'], (.bool true))]),
    op (.setAddRecord 1 0),
    op (.createRecord 0 0 [(['A'], (vi (2))), (['B'], (.str ['b'])), (['C'], (.bool false))]),
    op (.setAddRecord 1 0),
    op (.createRecord 0 0 [(['A'], (vi (3))), (['B'], (.str ['c'])), (['C'], (.bool true))]),
    op (.setAddRecord 1 0),
    size 1 3,
    print 1 2 ['B'] true [['C'], ['B']] [['+', '-', '-', '-', '-', '-', '-', '-', '+', '-', '-', '-', '+'],
      ['|', ' ', 'C', ' ', ' ', ' ', ' ', ' ', '|', ' ', 'B', ' ', '|'],
      ['+', '-', '-', '-', '-', '-', '-', '-', '+', '-', '-', '-', '+'],
      ['|', ' ', 't', 'r', 'u', 'e', ' ', ' ', '|', ' ', 'c', ' ', '|'],
      ['|', ' ', 'f', 'a', 'l', 's', 'e', ' ', '|', ' ', 'b', ' ', '|'],
      ['$', '~', '~', '~', '~', '~', '~', '~', '$', '~', '~', '~', '$']]] = true := by decide +kernel

/-- VaultRecordSetUnitTests.cpp line 5359: SaveToFile, FilledVault. -/
theorem conf_text_set_SaveToFile_FilledVault : runX [
    op .newVault,
    op .newSet,
    op (.addKey 0 ['A'] (vi (0))),
    op (.createRow 0 []),
    op (.request 0 .Equal ['A'] (vi (0)) (vi (0)) false false none (fun _ => true) 1),
    op (.eraseKV 0 ['A'] (vi (0))),
    op (.removeKey 0 ['A']),
    op .newRef,
    op (.addKey 0 ['A'] (vi (0))),
    op (.createRecord 0 0 [(['A'], (vi (0)))]),
    op (.setAddRecord 1 0),
    save 1 [] [','] true ['A', '\r', '\n', '0', '\r', '\n']] = true := by decide +kernel

/-- VaultRecordSetUnitTests.cpp line 5379: SaveToFile, ReverseNotAllKeys. -/
theorem conf_text_set_SaveToFile_ReverseNotAllKeys : runX [
    op .newVault,
    op .newSet,
    op (.addKey 0 ['A'] (vi (0))),
    op (.createRow 0 []),
    op (.request 0 .Equal ['A'] (vi (0)) (vi (0)) false false none (fun _ => true) 1),
    op (.eraseKV 0 ['A'] (vi (0))),
    op (.removeKey 0 ['A']),
    op .newRef,
    op (.addKey 0 ['A'] (vi (0))),
    op (.addKey 0 ['B'] (vi (0))),
    op (.addUniqueKey 0 ['C'] (.int .i32) true (fun _ _ _ => .bool false)),
    op (.createRecord 0 0 [(['A'], (vi (0))), (['B'], (vi (1))), (['C'], (vi (2)))]),
    op (.setAddRecord 1 0),
    save 1 [['C'], ['A']] [','] true ['C', ',', 'A', '\r', '\n', '2', ',', '0', '\r', '\n']] = true := by decide +kernel

/-- VaultRecordSetUnitTests.cpp line 5402: SaveToFile, Separator. -/
theorem conf_text_set_SaveToFile_Separator : runX [
    op .newVault,
    op .newSet,
    op (.addKey 0 ['A'] (vi (0))),
    op (.createRow 0 []),
    op (.request 0 .Equal ['A'] (vi (0)) (vi (0)) false false none (fun _ => true) 1),
    op (.eraseKV 0 ['A'] (vi (0))),
    op (.removeKey 0 ['A']),
    op .newRef,
    op (.addKey 0 ['A'] (vi (0))),
    op (.addKey 0 ['B'] (vi (0))),
    op (.addUniqueKey 0 ['C'] (.int .i32) true (fun _ _ _ => .bool false)),
    op (.createRecord 0 0 [(['A'], (vi (0))), (['B'], (vi (1))), (['C'], (vi (2)))]),
    op (.setAddRecord 1 0),
    save 1 [] [';'] true ['A', ';', 'B', ';', 'C', '\r', '\n', '0', ';', '1', ';', '2', '\r', '\n']] = true := by decide +kernel

/-- VaultRecordSetUnitTests.cpp line 5425: SaveToFile, NotSaveKeys. -/
theorem conf_text_set_SaveToFile_NotSaveKeys : runX [
    op .newVault,
    op .newSet,
    op (.addKey 0 ['A'] (vi (0))),
    op (.createRow 0 []),
    op (.request 0 .Equal ['A'] (vi (0)) (vi (0)) false false none (fun _ => true) 1),
    op (.eraseKV 0 ['A'] (vi (0))),
    op (.removeKey 0 ['A']),
    op .newRef,
    op (.addKey 0 ['A'] (vi (0))),
    op (.addKey 0 ['B'] (vi (0))),
    op (.addUniqueKey 0 ['C'] (.int .i32) true (fun _ _ _ => .bool false)),
    op (.createRecord 0 0 [(['A'], (vi (0))), (['B'], (vi (1))), (['C'], (vi (2)))]),
    op (.setAddRecord 1 0),
    save 1 [] [','] false ['0', ',', '1', ',', '2', '\r', '\n']] = true := by decide +kernel

/-- VaultRecordRefUnitTests.cpp line 823: GetDataAsString, Invalid. -/
theorem conf_text_ref_GetDataAsString_Invalid : runX [
    op .newRef,
    asString 0 ['A'] [] []] = true := by decide +kernel

/-- VaultRecordRefUnitTests.cpp line 835: GetDataAsString, Deleted. -/
theorem conf_text_ref_GetDataAsString_Deleted : runX [
    op .newVault,
    op .newRef,
    op .newRef,
    op (.addKey 0 ['A'] (vi (1))),
    op (.createRow 0 [(['A'], (vi (1)))]),
    op (.getRecord 0 ['A'] (vi (1)) 0),
    op (.getRecord 0 ['A'] (vi (1)) 1),
    op (.eraseRef 0 1),
    asString 0 ['A'] [] []] = true := by decide +kernel

/-- VaultRecordRefUnitTests.cpp line 855: GetDataAsString, Default. -/
theorem conf_text_ref_GetDataAsString_Default : runX [
    op .newVault,
    op .newRef,
    op (.addKey 0 ['A'] (vi (-1))),
    op (.addUniqueKey 0 ['B'] .str true (fun _ _ _ => .bool false)),
    op (.addKey 0 ['C'] (.bool true)),
    op (.createRow 0 [(['A'], (vi (1))), (['B'], (.str ['b'])), (['C'], (.bool false))]),
    op (.getRecord 0 ['A'] (vi (1)) 0),
    asString 0 ['A'] [] ['1'],
    asString 0 ['B'] ['1'] ['b'],
    asString 0 ['C'] ['b'] ['f', 'a', 'l', 's', 'e']] = true := by decide +kernel

/-- VaultRecordRefUnitTests.cpp line 894: GetDataAsString, WrongKey. -/
theorem conf_text_ref_GetDataAsString_WrongKey : runX [
    op .newVault,
    op .newRef,
    op (.addKey 0 ['A'] (vi (-1))),
    op (.addUniqueKey 0 ['B'] .str true (fun _ _ _ => .bool false)),
    op (.addKey 0 ['C'] (.bool true)),
    op (.createRow 0 [(['A'], (vi (1))), (['B'], (.str ['b'])), (['C'], (.bool false))]),
    op (.getRecord 0 ['A'] (vi (1)) 0),
    asString 0 ['Z'] [] []] = true := by decide +kernel

/-- VaultRecordRefUnitTests.cpp line 967: GetKeys, Invalid. -/
theorem conf_text_ref_GetKeys_Invalid : runX [
    op .newRef,
    keysOf 0 []] = true := by decide +kernel

/-- VaultRecordRefUnitTests.cpp line 974: GetKeys, Valid. -/
theorem conf_text_ref_GetKeys_Valid : runX [
    op .newVault,
    op .newRef,
    op (.addKey 0 ['A'] (vi (0))),
    op (.addUniqueKey 0 ['B'] .str true (fun _ _ _ => .bool false)),
    op (.createRow 0 [(['A'], (vi (0)))]),
    op (.getRecord 0 ['A'] (vi (0)) 0),
    keysOf 0 [['A'], ['B']]] = true := by decide +kernel

/-- VaultRecordRefUnitTests.cpp line 1050: ToJson, Invalid. -/
theorem conf_text_ref_ToJson_Invalid : runX [
    op .newRef,
    refJson 0 true 2 ['{', '\n', '}']] = true := by decide +kernel

/-- VaultRecordRefUnitTests.cpp line 1056: ToJson, Default. -/
theorem conf_text_ref_ToJson_Default : runX [
    op .newVault,
    op .newRef,
    op (.addKey 0 ['A'] (vi (0))),
    op (.addUniqueKey 0 ['B'] .str true (fun _ _ _ => .bool false)),
    op (.createRow 0 [(['A'], (vi (0))), (['B'], (.str ['b']))]),
    op (.getRecord 0 ['A'] (vi (0)) 0),
    refJson 0 true 2 ['{', '\n', ' ', ' ', '"', 'A', '"', ':', ' ', '0', ',', '\n', ' ', ' ', '"', 'B', '"', ':', ' ', '"', 'b', '"', '\n', '}']] = true := by decide +kernel

/-- VaultRecordRefUnitTests.cpp line 1072: ToJson, NonFormat. -/
theorem conf_text_ref_ToJson_NonFormat : runX [
    op .newVault,
    op .newRef,
    op (.addKey 0 ['A'] (vi (0))),
    op (.addUniqueKey 0 ['B'] .str true (fun _ _ _ => .bool false)),
    op (.createRow 0 [(['A'], (vi (0))), (['B'], (.str ['b']))]),
    op (.getRecord 0 ['A'] (vi (0)) 0),
    refJson 0 false 2 ['{', '"', 'A', '"', ':', '0', ',', '"', 'B', '"', ':', '"', 'b', '"', '}']] = true := by decide +kernel

/-- VaultRecordRefUnitTests.cpp line 1085: ToJson, DiffTabSize. -/
theorem conf_text_ref_ToJson_DiffTabSize : runX [
    op .newVault,
    op .newRef,
    op (.addKey 0 ['A'] (vi (0))),
    op (.addUniqueKey 0 ['B'] .str true (fun _ _ _ => .bool false)),
    op (.createRow 0 [(['A'], (vi (0))), (['B'], (.str ['b']))]),
    op (.getRecord 0 ['A'] (vi (0)) 0),
    refJson 0 true 4 ['{', '\n', ' ', ' ', ' ', ' ', '"', 'A', '"', ':', ' ', '0', ',', '\n', ' ', ' ', ' ', ' ', '"', 'B', '"', ':', ' ', '"', 'b', '"', '\n', '}']] = true := by decide +kernel

/-- VaultRecordRefUnitTests.cpp line 1101: ToString, Invalid. -/
theorem conf_text_ref_ToString_Invalid : runX [
    op .newRef,
    refStrings 0 []] = true := by decide +kernel

/-- VaultRecordRefUnitTests.cpp line 1109: ToString, Valid. -/
theorem conf_text_ref_ToString_Valid : runX [
    op .newVault,
    op .newRef,
    op (.addKey 0 ['A'] (vi (0))),
    op (.addUniqueKey 0 ['B'] .str true (fun _ _ _ => .bool false)),
    op (.createRow 0 [(['A'], (vi (0))), (['B'], (.str ['b']))]),
    op (.getRecord 0 ['A'] (vi (0)) 0),
    refStrings 0 [(['A'], ['0']), (['B'], ['b'])]] = true := by decide +kernel

end MVault.ConfText
