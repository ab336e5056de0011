{
 "claims": [
  {
   "property": "C01",
   "status": "proved",
   "theorems": [
    "MVault.Csv.C01_field_roundtrip"
   ],
   "note": ""
  },
  {
   "property": "C02",
   "status": "partial",
   "theorems": [
    "MVault.Csv.C02_table_roundtrip_exact",
    "MVault.Csv.C02_table_roundtrip_partial",
    "MVault.Csv.C02_refuted_empty_last",
    "MVault.Csv.C02_refuted_cr",
    "MVault.Csv.C02_refuted_separator"
   ],
   "note": "exact condition proved (C02_table_roundtrip_exact); false in general: an empty last field, carriage returns and separators other than ',' are lost (refutations)"
  },
  {
   "property": "C03",
   "status": "proved",
   "theorems": [
    "MVault.Csv.C03_block_reading_transparent",
    "MVault.Csv.C03_parse_independent_of_block_mode"
   ],
   "note": ""
  },
  {
   "property": "C04",
   "status": "proved",
   "theorems": [
    "MVault.Csv.C04_parsing_terminates",
    "MVault.Csv.C04_call_progress"
   ],
   "note": ""
  },
  {
   "property": "C05",
   "status": "partial",
   "theorems": [
    "MVault.Str.C05_ranges",
    "MVault.Str.C05_int_roundtrip_partial",
    "MVault.Str.C05_refuted_min",
    "MVault.Str.C05_text_injective"
   ],
   "note": "all values except the minimum of the signed 32/64-bit types, where reading overflows (undefined), refuted"
  },
  {
   "property": "C06",
   "status": "partial",
   "theorems": [
    "MVault.Str.C06_undefined_iff",
    "MVault.Str.C06_signed_accepts_iff",
    "MVault.Str.C06_rejects_iff",
    "MVault.Str.C06_accepts_numerals_partial",
    "MVault.Str.C06_rejects_non_numerals",
    "MVault.Str.C06_wraps_out_of_range",
    "MVault.Str.C06_overflow_is_undefined",
    "MVault.Str.C06_min_value_is_undefined",
    "MVault.Str.C06_refuted_accepts_out_of_range",
    "MVault.Str.C06_refuted_accepts_negative"
   ],
   "note": "rejection half proved for all texts; acceptance half false: out-of-range and negative-for-unsigned numerals are accepted and wrap, or overflow; for every text and type it is proved exactly which of accepted, refused and undefined it is (C06_signed_accepts_iff, C06_wraps_out_of_range, C06_rejects_iff, C06_undefined_iff)"
  },
  {
   "property": "C07",
   "status": "proved",
   "theorems": [
    "MVault.Str.C07_bool_string_roundtrip"
   ],
   "note": ""
  },
  {
   "property": "C08",
   "status": "proved",
   "theorems": [
    "MVault.Str.C08_hex",
    "MVault.Str.C08_hex_injective"
   ],
   "note": ""
  },
  {
   "property": "C09",
   "status": "proved",
   "theorems": [
    "MVault.Str.C09_uuid_shape",
    "MVault.Str.C09_length"
   ],
   "note": ""
  },
  {
   "property": "C10",
   "status": "partial",
   "theorems": [
    "MVault.Cont.C10_typed_container_partial",
    "MVault.Cont.C10_from_string_partial",
    "MVault.Cont.C10_refuted_wrong_type"
   ],
   "note": "everything except the answer on a wrong type: DataContainer::GetData answers true there, refuted"
  },
  {
   "property": "C11",
   "status": "partial",
   "theorems": [
    "MVault.W.C11_refuted",
    "MVault.W.C11_keys_and_types_partial",
    "MVault.W.C11_getData_partial"
   ],
   "note": "proved after all histories of ordinary operations (`Ordinary`, see DESIGN \u00a73); refuted for all histories: a failing GetRecord of a set leaves a reference working through the wrong vault, SetData then gives a record a foreign key"
  },
  {
   "property": "C12",
   "status": "proved",
   "theorems": [
    "MVault.W.C12_key_list",
    "MVault.W.C12_new_vault",
    "MVault.W.C12_addKey",
    "MVault.W.C12_addUniqueKey",
    "MVault.W.C12_removeKey",
    "MVault.W.C12_dropVault",
    "MVault.W.C12_copy",
    "MVault.W.C12_only_key_operations"
   ],
   "note": ""
  },
  {
   "property": "C13",
   "status": "proved",
   "theorems": [
    "MVault.W.C13_createRecord",
    "MVault.W.C13_createRow"
   ],
   "note": ""
  },
  {
   "property": "C14",
   "status": "partial",
   "theorems": [
    "MVault.W.C14_refuted",
    "MVault.W.C14_unique_partial"
   ],
   "note": "proved after all histories of ordinary operations (`Ordinary`, see DESIGN \u00a73) (this includes copies of vaults without unique keys and all set operations); refuted for a copied vault, whose unique keys are not enforced"
  },
  {
   "property": "C15",
   "status": "partial",
   "theorems": [
    "MVault.W.C15_createRecord_partial",
    "MVault.W.C15_createRow_partial",
    "MVault.W.C15_refuted"
   ],
   "note": "proved in all states reached by histories of ordinary operations (`Ordinary`, see DESIGN \u00a73), with the exact code and key; refuted in a copy of a vault with unique keys, where the roll-back removes an index entry of another record"
  },
  {
   "property": "C16",
   "status": "partial",
   "theorems": [
    "MVault.W.C16_failure",
    "MVault.W.C16_setData",
    "MVault.W.C16_refuted"
   ],
   "note": "proved after any history for references that work through a vault, failures included; refuted for references that GetSortedRecords of a set returned: SetData reports success and writes nothing into the record"
  },
  {
   "property": "C17",
   "status": "partial",
   "theorems": [
    "MVault.W.C17_refuted",
    "MVault.W.C17_request_partial",
    "MVault.W.C17_getRecord_partial",
    "MVault.W.C17_getRecords_partial",
    "MVault.W.C17_requestTree_partial"
   ],
   "note": "proved after all histories of ordinary operations (`Ordinary`, see DESIGN \u00a73) for all request kinds, bounds, flags, limits, predicates and hash orders; refuted after a mixed-up reference (see C11)"
  },
  {
   "property": "C18",
   "status": "partial",
   "theorems": [
    "MVault.W.C18_unique_complete_partial",
    "MVault.W.C18_refuted"
   ],
   "note": "proved after all histories of ordinary operations (`Ordinary`, see DESIGN \u00a73); refuted for copied vaults"
  },
  {
   "property": "C19",
   "status": "partial",
   "theorems": [
    "MVault.W.C19_request_complete_partial",
    "MVault.W.C19_requestTree_complete_partial",
    "MVault.W.C19_refuted",
    "MVault.W.C19_refuted_erase"
   ],
   "note": "proved for histories that never erase or change a value that another record shares for the key (`Apart`); refuted otherwise: changing or erasing by value removes the index entries of all records with the value"
  },
  {
   "property": "C20",
   "status": "partial",
   "theorems": [
    "MVault.W.C20_refuted",
    "MVault.W.C20_at_most",
    "MVault.W.C20_limit_partial"
   ],
   "note": "at-most-n after any history; the min(n, matches) count and smallest-first order after ordinary histories; refuted for copied vaults (a record entered twice)"
  },
  {
   "property": "C21",
   "status": "partial",
   "theorems": [
    "MVault.W.C21_refuted",
    "MVault.W.C21_interval",
    "MVault.W.C21_values_partial"
   ],
   "note": "the exact selection of entries by bounds and flags holds for every index (C21_interval); that the selected entries are records with these values: after ordinary histories; refuted after mixed-up references"
  },
  {
   "property": "C22",
   "status": "partial",
   "theorems": [
    "MVault.W.C22_combinators_partial",
    "MVault.W.C22_refuted"
   ],
   "note": "And = intersection, Or = union, interval fast path = generic path, for every tree and hash order after ordinary histories, when the operands are defined; refuted for operands of different types on one key: the fast path reads the second value as the first one's type"
  },
  {
   "property": "C23",
   "status": "partial",
   "theorems": [
    "MVault.W.C23_refuted",
    "MVault.W.C23_eraseRef_partial",
    "MVault.W.C23_eraseKV_partial",
    "MVault.W.C23_eraseRecords_partial"
   ],
   "note": "proved after all histories of ordinary operations (`Ordinary`, see DESIGN \u00a73); refuted after a mixed-up reference"
  },
  {
   "property": "C24",
   "status": "partial",
   "theorems": [
    "MVault.W.C24_never_freed_while_referenced",
    "MVault.W.C24_refuted",
    "MVault.W.C24_no_dangling_no_leak_partial"
   ],
   "note": "'never freed while referenced' holds after any history whatsoever; 'freed exactly when out of the vault and unreferenced' after ordinary histories; refuted for copies of detached sets, which delete records of the vault"
  },
  {
   "property": "C25",
   "status": "partial",
   "theorems": [
    "MVault.W.C25_refuted",
    "MVault.W.C25_valid_iff_member_partial"
   ],
   "note": "proved after all histories of ordinary operations (`Ordinary`, see DESIGN \u00a73); refuted for copies of detached sets"
  },
  {
   "property": "C26",
   "status": "proved",
   "theorems": [
    "MVault.W.C26_updateKey"
   ],
   "note": ""
  },
  {
   "property": "C27",
   "status": "partial",
   "theorems": [
    "MVault.W.C27_removeKey",
    "MVault.W.C27_sets_partial",
    "MVault.W.C27_sets_refuted"
   ],
   "note": "the vault half after any history; the sets half after ordinary histories; refuted after a vault move (sets keep pointing at the moved-from vault)"
  },
  {
   "property": "C28",
   "status": "proved",
   "theorems": [
    "MVault.W.C28_addKey"
   ],
   "note": ""
  },
  {
   "property": "C29",
   "status": "partial",
   "theorems": [
    "MVault.W.C29_answer",
    "MVault.W.C29_stores_partial",
    "MVault.W.C29_refuted"
   ],
   "note": "success condition after any history and all functions, orders; the stored values after ordinary histories; refuted when a copied detached set is updated as if it were a vault"
  },
  {
   "property": "C30",
   "status": "partial",
   "theorems": [
    "MVault.W.C30_refuted",
    "MVault.W.C30_dropData_partial",
    "MVault.W.C30_dropVault_partial"
   ],
   "note": "proved after all histories of ordinary operations (`Ordinary`, see DESIGN \u00a73); refuted after a vault move"
  },
  {
   "property": "C31",
   "status": "partial",
   "theorems": [
    "MVault.W.C31_careful_partial",
    "MVault.W.C31_no_duplicates_partial",
    "MVault.W.C31_refuted"
   ],
   "note": "no record twice: after ordinary histories; only valid records of the parent: after careful histories (`Careful`, DESIGN \u00a73); refuted: a set filled by Join keeps an erased record"
  },
  {
   "property": "C32",
   "status": "proved",
   "theorems": [
    "MVault.W.C32_join",
    "MVault.W.C32_exclude",
    "MVault.W.C32_intersect",
    "MVault.W.C32_union",
    "MVault.W.C32_intersection"
   ],
   "note": ""
  },
  {
   "property": "C33",
   "status": "proved",
   "theorems": [
    "MVault.W.C33_in_place",
    "MVault.W.C33_into_third"
   ],
   "note": ""
  },
  {
   "property": "C34",
   "status": "partial",
   "theorems": [
    "MVault.W.C34_sets_leave_vault_alone_partial",
    "MVault.W.C34_refuted"
   ],
   "note": "proved after all histories of ordinary operations (`Ordinary`, see DESIGN \u00a73); refuted for copies of detached sets"
  },
  {
   "property": "C35",
   "status": "partial",
   "theorems": [
    "MVault.W.C35_careful_partial",
    "MVault.W.C35_refuted"
   ],
   "note": "proved for careful histories; refuted for sets filled by Join"
  },
  {
   "property": "C36",
   "status": "partial",
   "theorems": [
    "MVault.W.C36_refuted",
    "MVault.W.C36_copy",
    "MVault.W.C36_default_not_copied",
    "MVault.W.C36_assign_partial",
    "MVault.W.C36_independent_partial"
   ],
   "note": "content of the copy after any history; copy assignment and independence after ordinary histories; UpdateKey defaults are not copied; independence refuted after a mixed-up reference"
  },
  {
   "property": "C37",
   "status": "partial",
   "theorems": [
    "MVault.W.C37_refuted",
    "MVault.W.C37_new_copy_partial",
    "MVault.W.C37_never_enforced"
   ],
   "note": "The true part: a new copy lists the same unique keys and has no duplicate values. False from then on: after any history a copy never refuses a value of a unique key (C37_never_enforced, for all values and calls; refuted by a witness with two equal records)."
  },
  {
   "property": "C38",
   "status": "partial",
   "theorems": [
    "MVault.W.C38_getSorted_partial",
    "MVault.W.C38_complete_partial",
    "MVault.W.C38_unique_complete_partial",
    "MVault.W.C38_sortBy",
    "MVault.W.C38_sortBy_partial",
    "MVault.W.C38_sortBy_calls",
    "MVault.W.C38_getSorted_loop",
    "MVault.W.C38_refuted"
   ],
   "note": "SortBy is exactly the loop over the sorted list (any history); sorted, each at most once after ordinary histories; complete when values are kept apart or the key is unique; refuted for copied vaults"
  },
  {
   "property": "C39",
   "status": "partial",
   "theorems": [
    "MVault.W.C39_failure_unchanged_partial",
    "MVault.W.C39_failure_exact_partial",
    "MVault.W.C39_refuted"
   ],
   "note": "records, values, keys, memberships unchanged after any history for every operation except SetData(params); nothing at all changed after ordinary histories for the operations listed; refuted: a failing Request clears the result set"
  },
  {
   "property": "C40",
   "status": "partial",
   "theorems": [
    "MVault.W.C40_save_read_partial",
    "MVault.W.C40_values",
    "MVault.W.C40_int_bool_string_partial",
    "MVault.W.C40_refuted_empty",
    "MVault.W.C40_refuted_return",
    "MVault.W.C40_refuted_minimum"
   ],
   "note": "proved for integer (16-64 bit), bool and text keys with exact conditions on values, names and separator; refuted: empty text in the last column, carriage return, smallest int"
  },
  {
   "property": "C41",
   "status": "partial",
   "theorems": [
    "MVault.Mtx.C41_exclusion_partial",
    "MVault.Mtx.C41_refuted_spurious",
    "MVault.Mtx.C41_writers_exclusive",
    "MVault.Mtx.C41_later_locks_wait"
   ],
   "note": "writer/writer exclusion unconditional; reader/writer exclusion provided condition_variable::wait has no spurious wake-up, refuted otherwise (wait without predicate loop); even then no thread that came after the writer gets in (C41_later_locks_wait)"
  },
  {
   "property": "C42",
   "status": "partial",
   "theorems": [
    "MVault.Mtx.C42_recursive_exclusion_partial",
    "MVault.Mtx.C42_writers_exclusive",
    "MVault.Mtx.C42_counters",
    "MVault.Mtx.C42_refuted_spurious",
    "MVault.Mtx.C42_later_locks_wait"
   ],
   "note": "without spurious wake-ups; refuted with; even then no thread that held no lock gets one while a writer is in (C42_later_locks_wait)"
  },
  {
   "property": "C43",
   "status": "partial",
   "theorems": [
    "MVault.Mtx.C43_independent_partial",
    "MVault.Mtx.C43_refuted_nested",
    "MVault.Mtx.C43_refuted_upgrade",
    "MVault.Mtx.C43_later_locks_wait"
   ],
   "note": "holds when each thread uses one mutex at a time; refuted for nested locks of two mutexes; with spurious wake-ups no thread that held no lock of m gets one while a writer of m is in (C43_later_locks_wait)"
  },
  {
   "property": "C44",
   "status": "partial",
   "theorems": [
    "MVault.W.C44_record_json_partial",
    "MVault.W.C44_vault_record_partial",
    "MVault.W.C44_invalid",
    "MVault.W.C44_refuted_name",
    "MVault.W.C44_exact",
    "MVault.W.C44_number",
    "MVault.W.C44_all_types_partial"
   ],
   "note": "all types of values (floating point to six decimals, user types without ToString as empty strings), key names and texts without characters that need escapes; exactly these: the text means the record if and only if names and texts are free of quotes, backslashes and control characters (C44_exact); refuted for key names with quotes"
  },
  {
   "property": "C45",
   "status": "proved",
   "theorems": [
    "MVault.W.C45_setDataMany"
   ],
   "note": ""
  },
  {
   "property": "C46",
   "status": "partial",
   "theorems": [
    "MVault.W.C46_getRecord_partial",
    "MVault.W.C46_refuted"
   ],
   "note": "soundness and the code on failure after ordinary histories, the 'exactly when' for keys whose values are kept apart; refuted otherwise"
  },
  {
   "property": "C47",
   "status": "partial",
   "theorems": [
    "MVault.W.C47_results_agree_partial",
    "MVault.W.C47_refuted"
   ],
   "note": "all operations except SetData with an empty parameter list, which answers success with code Idle (refuted)"
  },
  {
   "property": "C48",
   "status": "proved",
   "theorems": [
    "MVault.W.C48_defined",
    "MVault.W.C48_reference_identity"
   ],
   "note": ""
  },
  {
   "property": "C49",
   "status": "partial",
   "theorems": [
    "MVault.W.C49_refuted"
   ],
   "note": "false of the code: SetData on a unique key fails for every value in every ordinary state (C49_refuted is proved for all of them)"
  },
  {
   "property": "C50",
   "status": "partial",
   "theorems": [
    "MVault.W.C50_careful_defined_partial",
    "MVault.W.C50_careful_refs_partial",
    "MVault.W.C50_refuted_removed",
    "MVault.W.C50_refuted_index",
    "MVault.W.C50_refuted",
    "MVault.W.C50_refuted_vault"
   ],
   "note": "careful histories never meet undefined behaviour; refuted in general (four witnesses)"
  },
  {
   "property": "C51",
   "status": "proved",
   "theorems": [
    "MVault.Str.C51_decimal_operands",
    "MVault.Str.C51_reads",
    "MVault.Str.C51_overflows",
    "MVault.Str.C51_rejects",
    "MVault.Str.C51_accepts_iff",
    "MVault.Str.C51_long_fraction_is_undefined"
   ],
   "note": ""
  },
  {
   "property": "C52",
   "status": "proved",
   "theorems": [
    "MVault.Cont.C52_saver_copy_and_swap",
    "MVault.Cont.C52_swap_with_empty_keeps_stale_type"
   ],
   "note": ""
  },
  {
   "property": "C53",
   "status": "proved",
   "theorems": [
    "MVault.Mtx.C53_no_deadlock",
    "MVault.Mtx.C53_no_lost_wakeup"
   ],
   "note": ""
  },
  {
   "property": "C54",
   "status": "partial",
   "theorems": [
    "MVault.W.C54_refuted",
    "MVault.W.C54_vaults_independent_partial"
   ],
   "note": "proved after all histories of ordinary operations (`Ordinary`, see DESIGN \u00a73); refuted after a mixed-up reference"
  },
  {
   "property": "C55",
   "status": "proved",
   "theorems": [
    "MVault.W.C55_readFile_only_adds",
    "MVault.W.C55_readFile_ordinary"
   ],
   "note": ""
  },
  {
   "property": "C56",
   "status": "partial",
   "theorems": [
    "MVault.W.C56_loaded_or_reported",
    "MVault.W.C56_clash_partial",
    "MVault.W.C56_refuted"
   ],
   "note": "every row is loaded or reported exactly once after any history; that a reported unique key really clashes: after ordinary histories; refuted after a mixed-up reference"
  },
  {
   "property": "C57",
   "status": "partial",
   "theorems": [
    "MVault.W.C57_line_numbers_partial",
    "MVault.W.C57_refuted"
   ],
   "note": "exact for files without key line and for refused fields; a unique-key clash in a file with key line is reported one line too early (refuted)"
  },
  {
   "property": "C58",
   "status": "partial",
   "theorems": [
    "MVault.Str.C58_undefined_iff",
    "MVault.Str.C58_undefined_texts",
    "MVault.W.C58_defined_partial",
    "MVault.W.C58_refuted_surplus_field",
    "MVault.W.C58_refuted_overflow"
   ],
   "note": "false as stated: surplus fields without keys and numerals that overflow are undefined; after ordinary histories it is proved exactly which files are undefined (C58_undefined_iff), and which texts, for all types of values (C58_undefined_texts)"
  },
  {
   "property": "C59",
   "status": "partial",
   "theorems": [
    "MVault.W.C59_array_partial",
    "MVault.W.C59_object_partial",
    "MVault.W.C59_vault_partial",
    "MVault.W.C59_refuted_detached",
    "MVault.W.C59_refuted",
    "MVault.W.C59_array_exact",
    "MVault.W.C59_object_exact",
    "MVault.W.C59_vault_exact",
    "MVault.W.C59_all_types_partial"
   ],
   "note": "all types of values, literal texts and names; exactly these: C59_array_exact, C59_object_exact, C59_vault_exact are equivalences; refuted: detached set, names or texts that need escapes"
  },
  {
   "property": "C60",
   "status": "proved",
   "theorems": [
    "MVault.W.C60_complete",
    "MVault.W.C60_set",
    "MVault.W.C60_vault_defined",
    "MVault.W.C60_reference"
   ],
   "note": ""
  },
  {
   "property": "C61",
   "status": "partial",
   "theorems": [
    "MVault.W.C61_aligned",
    "MVault.W.C61_printAsTable_partial",
    "MVault.W.C61_default_keys",
    "MVault.W.C61_vault_records_partial",
    "MVault.W.C61_print_partial",
    "MVault.W.C61_refuted",
    "MVault.W.C61_refuted_zero"
   ],
   "note": "readable references and amount > 0; refuted: dead references, amount 0"
  },
  {
   "property": "C62",
   "status": "partial",
   "theorems": [
    "MVault.W.C62_request_partial",
    "MVault.W.C62_requestTree_partial",
    "MVault.W.C62_getRecord_partial",
    "MVault.W.C62_getRecords_partial",
    "MVault.W.C62_getSorted_partial",
    "MVault.W.C62_refuted",
    "MVault.W.C62_refuted_counter"
   ],
   "note": "careful histories; refuted: after RemoveRecord of a set, SetData puts the record back into the set's lookup"
  },
  {
   "property": "C63",
   "status": "partial",
   "theorems": [
    "MVault.W.C63_refuted",
    "MVault.W.C63_set_keys_partial",
    "MVault.W.C63_request_codes_partial"
   ],
   "note": "after ordinary histories; refuted after a vault move"
  },
  {
   "property": "C64",
   "status": "proved",
   "theorems": [
    "MVault.W.C64_invalid_stays_invalid",
    "MVault.W.C64_erased_never_returns"
   ],
   "note": ""
  },
  {
   "property": "C65",
   "status": "proved",
   "theorems": [
    "MVault.Life.C65_no_use_after_free",
    "MVault.Life.C65_count",
    "MVault.Life.C65_freed_exactly",
    "MVault.Life.C65_valid_exactly",
    "MVault.Life.C65_many"
   ],
   "note": ""
  },
  {
   "property": "C66",
   "status": "partial",
   "theorems": [
    "MVault.Life.C66_record_calls_finish_partial",
    "MVault.Life.C66_refuted",
    "MVault.Life.C66_many_partial",
    "MVault.Life.C66_refuted_setData"
   ],
   "note": "all methods except PrintRecord, ToJson, ToStrings of a reference, which lock the record before the vault: deadlock with EraseRecord and with SetData (refuted); C66_many_partial covers vaults with any number of records together with the vault lock"
  },
  {
   "property": "C67",
   "status": "proved",
   "theorems": [
    "MVault.Lin.C67_linearizable",
    "MVault.Lin.C67_order",
    "MVault.Lin.C67_reader_sees_one_state",
    "MVault.Lin.C67_vault"
   ],
   "note": ""
  },
  {
   "property": "C68",
   "status": "partial",
   "theorems": [
    "MVault.Race.C68_no_race_partial",
    "MVault.Race.C68_vault_methods",
    "MVault.Race.C68_exact_pairs",
    "MVault.Race.C68_refuted_request",
    "MVault.Race.C68_refuted_clear",
    "MVault.Race.C68_refuted_errors",
    "MVault.Race.C68_refuted_assign",
    "MVault.Race.C68_refuted_assign_source",
    "MVault.Race.C68_refuted_drop",
    "MVault.Race.C68_refuted_shared_set"
   ],
   "note": "no race among the methods marked safe when each set is used by one thread; no race among all methods of the vault itself and its references, DropVault and ReadFile included (C68_vault_methods); exact iff for two threads and any two methods; seven racing pairs refuted"
  },
  {
   "property": "C69",
   "status": "proved",
   "theorems": [
    "MVault.Cont.C69_undefined_exactly",
    "MVault.Cont.C69_no_leak",
    "MVault.Cont.C69_all_freed",
    "MVault.Cont.C69_values",
    "MVault.Cont.C69_plain_values"
   ],
   "note": ""
  },
  {
   "property": "C70",
   "status": "partial",
   "theorems": [
    "MVault.Cont.C70_called_by_reset_partial",
    "MVault.Cont.C70_refuted_destructor",
    "MVault.Cont.C70_refuted_copy",
    "MVault.Cont.C70_refuted_null"
   ],
   "note": "exact: only ResetData calls it, with the current pointer; refuted for the destructor, copies and null"
  },
  {
   "property": "C71",
   "status": "partial",
   "theorems": [
    "MVault.W.C71_with_care_partial",
    "MVault.W.C71_one_statement",
    "MVault.W.C71_refuted_stored",
    "MVault.W.C71_refuted_copy",
    "MVault.W.C71_refuted_assign"
   ],
   "note": "defined and faithful for objects that are neither copied nor assigned and outlive their users; every request written as one statement; refuted for stored, copied, assigned requests"
  },
  {
   "property": "C72",
   "status": "proved",
   "theorems": [
    "MVault.Mp.C72_whole_map",
    "MVault.Mp.C72_sorted_unique",
    "MVault.Mp.C72_unique_keys",
    "MVault.Mp.C72_equal_range",
    "MVault.Mp.C72_find",
    "MVault.Mp.C72_bounds",
    "MVault.Mp.C72_emplace",
    "MVault.Mp.C72_erase_key",
    "MVault.Mp.C72_erase_at",
    "MVault.Mp.C72_iterators_stay",
    "MVault.Mp.C72_decrement"
   ],
   "note": ""
  },
  {
   "property": "C73",
   "status": "proved",
   "theorems": [
    "MVault.W.C73_move_construct",
    "MVault.W.C73_move_assign",
    "MVault.W.C73_move_assign_ordinary"
   ],
   "note": ""
  },
  {
   "property": "C74",
   "status": "proved",
   "theorems": [
    "MVault.Mtx.C74_never_stuck",
    "MVault.Mtx.C74_lock_granted",
    "MVault.Mtx.C74_many_vaults"
   ],
   "note": ""
  },
  {
   "property": "C75",
   "status": "proved",
   "theorems": [
    "MVault.Ix.C75_add",
    "MVault.Ix.C75_erase",
    "MVault.Ix.C75_set",
    "MVault.Ix.C75_request",
    "MVault.Ix.C75_find",
    "MVault.Ix.C75_getRecords",
    "MVault.Ix.C75_sort",
    "MVault.Ix.C75_eraseRecords"
   ],
   "note": ""
  },
  {
   "property": "C76",
   "status": "proved",
   "theorems": [
    "MVault.Ix.C76_new",
    "MVault.Ix.C76_add",
    "MVault.Ix.C76_erase",
    "MVault.Ix.C76_set",
    "MVault.Ix.C76_clear",
    "MVault.Ix.C76_history",
    "MVault.Ix.C76_request",
    "MVault.Ix.C76_lookup",
    "MVault.Ix.C76_eraseRecords",
    "MVault.Ix.C76_maps_exist"
   ],
   "note": ""
  },
  {
   "property": "C77",
   "status": "proved",
   "theorems": [
    "MVault.W.C77_failures",
    "MVault.W.C77_set_many",
    "MVault.W.C77_success",
    "MVault.W.C77_add_key",
    "MVault.W.C77_create_record"
   ],
   "note": ""
  },
  {
   "property": "C78",
   "status": "proved",
   "theorems": [
    "MVault.W.C78_request",
    "MVault.W.C78_requestTree",
    "MVault.W.C78_getRecord",
    "MVault.W.C78_getRecords",
    "MVault.W.C78_eraseRecords",
    "MVault.W.C78_sorted",
    "MVault.W.C78_step",
    "MVault.W.C78_new",
    "MVault.W.C78_moved",
    "MVault.W.C78_set_many"
   ],
   "note": ""
  },
  {
   "property": "C79",
   "status": "proved",
   "theorems": [
    "MVault.W.C79_refines",
    "MVault.W.C79_history",
    "MVault.W.C79_history_exists",
    "MVault.W.C79_getRecord",
    "MVault.W.C79_getRecords",
    "MVault.W.C79_request",
    "MVault.W.C79_sorted"
   ],
   "note": ""
  },
  {
   "property": "C80",
   "status": "proved",
   "theorems": [
    "MVault.W.C80_wellformed",
    "MVault.W.C80_apart"
   ],
   "note": ""
  },
  {
   "property": "C81",
   "status": "proved",
   "theorems": [
    "MVault.W.C81_addKey_removeKey",
    "MVault.W.C81_addUniqueKey_removeKey",
    "MVault.W.C81_create_erase",
    "MVault.W.C81_set_set",
    "MVault.W.C81_set_back",
    "MVault.W.C81_set_comm",
    "MVault.W.C81_erase_comm",
    "MVault.W.C81_erase_twice"
   ],
   "note": ""
  },
  {
   "property": "C82",
   "status": "proved",
   "theorems": [
    "MVault.W.C82_answer",
    "MVault.W.C82_vaults"
   ],
   "note": ""
  },
  {
   "property": "C83",
   "status": "proved",
   "theorems": [
    "MVault.W.C83_refines",
    "MVault.W.C83_defined",
    "MVault.W.C83_history",
    "MVault.W.C83_history_exists",
    "MVault.W.C83_window"
   ],
   "note": "careful use (WorldDeep10 `Allowed`): the functions of sets that remove single records or combine two sets, and the moves of sets, are left out (moves of vaults nobody else uses are in); what they break is C31, C35, C50, C62 (refuted parts)"
  },
  {
   "property": "C84",
   "status": "proved",
   "theorems": [
    "MVault.W.C84_apart",
    "MVault.W.C84_elsewhere",
    "MVault.W.C84_narrow",
    "MVault.W.C84_order",
    "MVault.W.C84_limit"
   ],
   "note": ""
  },
  {
   "property": "C85",
   "status": "proved",
   "theorems": [
    "MVault.W.C85_defined",
    "MVault.W.C85_held",
    "MVault.W.C85_indices",
    "MVault.W.C85_gone",
    "MVault.W.C85_careful"
   ],
   "note": "gentle use; marks of joined sets and removed records are part of the history"
  },
  {
   "property": "C86",
   "status": "proved",
   "theorems": [
    "MVault.W.C86_refines",
    "MVault.W.C86_history",
    "MVault.W.C86_window",
    "MVault.W.C86_apart",
    "MVault.W.C86_order",
    "MVault.W.C86_commute",
    "MVault.W.C86_equal",
    "MVault.W.C86_search"
   ],
   "note": ""
  },
  {
   "property": "C87",
   "status": "proved",
   "theorems": [
    "MVault.Tr.C87_trace",
    "MVault.Tr.C87_names_the_call",
    "MVault.Tr.C87_limits",
    "MVault.Tr.C87_code_texts"
   ],
   "note": ""
  },
  {
   "property": "C88",
   "status": "proved",
   "theorems": [
    "MVault.Str.C88_byte_ranges",
    "MVault.W.C88_chosen_keys",
    "MVault.W.C88_unreadable",
    "MVault.W.C88_values",
    "MVault.W.C88_all_types",
    "MVault.W.C88_never_read"
   ],
   "note": ""
  },
  {
   "property": "C89",
   "status": "proved",
   "theorems": [
    "MVault.Fp.C89_accuracy",
    "MVault.Fp.C89_text_error",
    "MVault.Fp.C89_roundtrip",
    "MVault.Fp.C89_roundtrip_double",
    "MVault.Fp.C89_roundtrip_float",
    "MVault.Fp.C89_whole_numbers",
    "MVault.Fp.C89_stable_double",
    "MVault.Fp.C89_limits"
   ],
   "note": ""
  },
  {
   "property": "C90",
   "status": "proved",
   "theorems": [
    "MVault.W.C90_detached",
    "MVault.W.C90_file",
    "MVault.W.C90_strings",
    "MVault.W.C90_print",
    "MVault.W.C90_detached_texts",
    "MVault.W.C90_sortBy",
    "MVault.W.C90_all_types",
    "MVault.W.C90_json"
   ],
   "note": ""
  },
  {
   "property": "C91",
   "status": "proved",
   "theorems": [
    "MVault.Cont.C91_calls",
    "MVault.Cont.C91_order",
    "MVault.Cont.C91_sorted",
    "MVault.Cont.C91_getAll",
    "MVault.Cont.C91_get",
    "MVault.Cont.C91_getSaver",
    "MVault.Cont.C91_defined"
   ],
   "note": ""
  },
  {
   "property": "C92",
   "status": "proved",
   "theorems": [
    "MVault.Lin.C92_tables",
    "MVault.Lin.C92_reader"
   ],
   "note": "One lock guards everything the bodies touch: in the code each vault has its own lock, so the theorem applies with one vault at a time."
  },
  {
   "property": "C93",
   "status": "proved",
   "theorems": [
    "MVault.Rn.C93_goes_on",
    "MVault.Rn.C93_next_defined",
    "MVault.Rn.C93_spared",
    "MVault.Rn.C93_order",
    "MVault.Rn.C93_complete",
    "MVault.Rn.C93_calls",
    "MVault.Rn.C93_other_values",
    "MVault.Rn.C93_erase_refuted",
    "MVault.Rn.C93_set_refuted",
    "MVault.Rn.C93_endless_refuted",
    "MVault.Rn.C93_reverse_next_defined",
    "MVault.Rn.C93_reverse",
    "MVault.Rn.C93_reverse_skips_refuted",
    "MVault.Rn.C93_reverse_first_refuted",
    "MVault.Rn.C93_reverse_twice_refuted",
    "MVault.Rn.C93_reverse_goes_on",
    "MVault.Rn.C93_reverse_bound",
    "MVault.Rn.C93_reverse_complete",
    "MVault.Rn.C93_reverse_unchanged"
   ],
   "note": "The statement names the limits; both sides are proved, the limits by the theorems whose names end in refuted."
  },
  {
   "property": "C94",
   "status": "proved",
   "theorems": [
    "MVault.Mtx.C94_writer_enters",
    "MVault.Mtx.C94_reader_enters",
    "MVault.Mtx.C94_no_overtaking",
    "MVault.Mtx.C94_read_lock_returns",
    "MVault.Mtx.C94_write_lock_returns",
    "MVault.Mtx.C94_write_unlock_returns",
    "MVault.Mtx.C94_read_unlock_returns_if_writers_stop",
    "MVault.Mtx.C94_read_unlock_refuted",
    "MVault.Mtx.C94_starvation_refuted"
   ],
   "note": "The statement names the limits (starvation with an unfair std::mutex, ReadUnlock against a stream of writers); both sides are proved, the limits by the theorems whose names end in refuted."
  },
  {
   "property": "C95",
   "status": "proved",
   "theorems": [
    "MVault.W.C95_reference_keys",
    "MVault.W.C95_set_keys",
    "MVault.W.C95_set_types",
    "MVault.W.C95_set_default_refuted",
    "MVault.W.C95_text",
    "MVault.W.C95_text_invalid",
    "MVault.W.C95_text_set",
    "MVault.W.C95_nothing_left",
    "MVault.W.C95_refused_leaves",
    "MVault.W.C95_print_record",
    "MVault.W.C95_print_record_invalid",
    "MVault.W.C95_print_record_refuted",
    "MVault.W.C95_print_refuted"
   ],
   "note": "The statement names the limits (a refused AddUniqueKey, UpdateKey and sets); both sides are proved, the limits by the theorems whose names end in refuted."
  },
  {
   "property": "C96",
   "status": "proved",
   "theorems": [
    "MVault.W.C96_request_resets",
    "MVault.W.C96_assign_resets",
    "MVault.W.C96_reset_frees",
    "MVault.W.C96_new_set",
    "MVault.W.C96_assign",
    "MVault.W.C96_request",
    "MVault.W.C96_live_reference_refuted"
   ],
   "note": "The condition on references is necessary: C96_live_reference_refuted."
  },
  {
   "property": "C97",
   "status": "proved",
   "theorems": [
    "MVault.Mtx.C97_read_lock_returns",
    "MVault.Mtx.C97_write_lock_returns",
    "MVault.Mtx.C97_write_unlock_returns",
    "MVault.Mtx.C97_read_unlock_returns_if_writers_stop",
    "MVault.Mtx.C97_upgrade_returns_if_writers_stop",
    "MVault.Mtx.C97_every_call_returns",
    "MVault.Mtx.C97_read_unlock_refuted"
   ],
   "note": "C97_read_unlock_refuted shows that the condition for ReadUnlock and for the upgrade is needed."
  },
  {
   "property": "C98",
   "status": "proved",
   "theorems": [
    "MVault.Csv.C98_reads_csv",
    "MVault.Csv.C98_reads_csv_exactly",
    "MVault.Csv.C98_written_is_csv",
    "MVault.Csv.C98_blank_line_refuted",
    "MVault.Csv.C98_last_empty_refuted",
    "MVault.Csv.C98_vault_reads_table"
   ],
   "note": "C98_blank_line_refuted and C98_last_empty_refuted show that the two side conditions of the grammar are needed."
  },
  {
   "property": "C99",
   "status": "partial",
   "theorems": [
    "MVault.Csv.C99_first_file",
    "MVault.Csv.C99_reopened_partial",
    "MVault.Csv.C99_no_file",
    "MVault.Csv.C99_refuted_big_after_small",
    "MVault.Csv.C99_refuted_big_after_big",
    "MVault.Csv.C99_refuted_second_open",
    "MVault.Csv.C99_refuted_parser",
    "MVault.Csv.C99_refuted_move"
   ],
   "note": "Proved for new readers (all files) and, after any history, for all files up to BIG_FILE_SIZE; false for bigger files after an earlier file: for every earlier small file the reader goes on in the old array and out of its bounds, after a bigger file the position is not reset (exactly when something was read of it). Open on an open reader answers true and gives no character; a CsvParser cannot be closed, so its second OpenFile never gives a row. Move does not answer what its documentation says."
  },
  {
   "property": "C100",
   "status": "proved",
   "theorems": [
    "MVault.Rn.C100_order",
    "MVault.Rn.C100_within",
    "MVault.Rn.C100_complete",
    "MVault.Rn.C100_defined",
    "MVault.Rn.C100_equal",
    "MVault.Rn.C100_equal_defined",
    "MVault.Rn.C100_erase_calls",
    "MVault.Rn.C100_equal_add_refuted",
    "MVault.Rn.C100_stop_refuted",
    "MVault.Rn.C100_given_refuted",
    "MVault.Rn.C100_upper_refuted",
    "MVault.Rn.C100_dangling_refuted"
   ],
   "note": "The statement says where the guarantee ends; both sides are proved."
  },
  {
   "property": "C101",
   "status": "proved",
   "theorems": [
    "MVault.Kf.C101_calls",
    "MVault.Kf.C101_defined",
    "MVault.Kf.C101_refused",
    "MVault.Kf.C101_spares",
    "MVault.Kf.C101_plain",
    "MVault.Kf.C101_shift_refuted",
    "MVault.Kf.C101_current_refuted",
    "MVault.Kf.C101_create_refuted"
   ],
   "note": "The statement says where the guarantee ends; both sides are proved. A rehash of the set of records (which ends everything defined) is not modelled: the runs are those without one."
  },
  {
   "property": "C102",
   "status": "proved",
   "theorems": [
    "MVault.Csv.C102_reads_any",
    "MVault.Csv.C102_meaning",
    "MVault.Csv.C102_unclosed",
    "MVault.Csv.C102_stray",
    "MVault.Csv.C102_blank",
    "MVault.Csv.C102_vault_reads"
   ],
   "note": "Complete description of the parser; the grammar of C98 is the well-formed part of it."
  },
  {
   "property": "C103",
   "status": "proved",
   "theorems": [
    "MVault.Csv.C103_cut_rows",
    "MVault.Csv.C103_recovers",
    "MVault.Csv.C103_beginnings_are_safe",
    "MVault.Csv.C103_all_types",
    "MVault.Csv.C103_answer",
    "MVault.Csv.C103_old_content_refuted",
    "MVault.Csv.C103_silent_cut_refuted"
   ],
   "note": "All of the statement is proved; the theorems named refuted prove its limits (a save is neither atomic nor reported when incomplete)."
  },
  {
   "property": "C104",
   "status": "proved",
   "theorems": [
    "MVault.Mtx.C104_calls_keep_the_rules",
    "MVault.Mtx.C104_first_lock_excludes_writers",
    "MVault.Mtx.C104_copy_new_is_a_snapshot",
    "MVault.Mtx.C104_new_vault_never_waits",
    "MVault.Mtx.C104_new_vault_lock_is_new",
    "MVault.Mtx.C104_assign_source_refuted",
    "MVault.Mtx.C104_assign_target_refuted",
    "MVault.Mtx.C104_assign_gap_refuted",
    "MVault.Mtx.C104_move_source_refuted"
   ],
   "note": "All of the statement is proved; the theorems named refuted prove its limits by explicit schedules."
  },
  {
   "property": "C105",
   "status": "proved",
   "theorems": [
    "MVault.W.C105_calls",
    "MVault.W.C105_row_by_row",
    "MVault.W.C105_ordinary",
    "MVault.W.C105_no_file",
    "MVault.W.C105_is_the_changed_file",
    "MVault.W.C105_key_too_late_refuted",
    "MVault.W.C105_missing_value_refuted",
    "MVault.W.C105_nested_refuted",
    "MVault.W.C105_no_key_line_refuted"
   ],
   "note": "All of the statement is proved; the theorems named refuted prove its limits by explicit histories."
  },
  {
   "property": "C106",
   "status": "proved",
   "theorems": [
    "MVault.Mtx.C106_unlock_by_owner",
    "MVault.Mtx.C106_no_relock",
    "MVault.Mtx.C106_one_waiter",
    "MVault.Mtx.C106_user_code",
    "MVault.Mtx.C106_outermost_writers",
    "MVault.Mtx.C106_counters",
    "MVault.Mtx.C106_no_underflow"
   ],
   "note": "Locks are released in reverse order of acquisition, as the RAII classes do."
  },
  {
   "property": "C107",
   "status": "proved",
   "theorems": [
    "MVault.Str.C107_same_uuid_iff",
    "MVault.Str.C107_tmp_name",
    "MVault.Str.C107_same_tmp_name_iff",
    "MVault.Str.C107_in_tmp"
   ],
   "note": "The two random words are arguments of the model; Windows paths are not modelled."
  },
  {
   "property": "C108",
   "status": "proved",
   "theorems": [
    "MVault.W.C108_equal_iff",
    "MVault.W.C108_equal_is_equality",
    "MVault.W.C108_texts",
    "MVault.W.C108_line_tells",
    "MVault.W.C108_line_end",
    "MVault.W.C108_line_tells_all",
    "MVault.W.C108_fields",
    "MVault.W.C108_one_line",
    "MVault.W.C108_printed_answers"
   ],
   "note": "The type names are an arbitrary function of the type (std::type_index::name)."
  },
  {
   "property": "C109",
   "status": "proved",
   "theorems": [
    "MVault.W.C109_equal_formulas",
    "MVault.W.C109_lattice_laws",
    "MVault.W.C109_answered_iff",
    "MVault.W.C109_equal_meanings",
    "MVault.W.C109_split",
    "MVault.W.C109_interval",
    "MVault.W.C109_limits"
   ],
   "note": "Expressions are compared where both are answered; expressions with comparisons of different types on one key can be undefined (C22_refuted)."
  },
  {
   "property": "C110",
   "status": "proved",
   "theorems": [
    "MVault.Lp.C110_drop_vault",
    "MVault.Lp.C110_without_saving",
    "MVault.Lp.C110_exclude",
    "MVault.Lp.C110_intersect",
    "MVault.Lp.C110_drop_data",
    "MVault.Lp.C110_clear",
    "MVault.Lp.C110_join",
    "MVault.Lp.C110_dependent",
    "MVault.Lp.C110_careful"
   ],
   "note": "That every element comes once is taken from std::unordered_set (`OrderOf`). `C110_without_saving` shows what the saved iterator of DropVault is for."
  },
  {
   "property": "C111",
   "status": "proved",
   "theorems": [
    "MVault.Ad.C111_addresses_tell_apart",
    "MVault.Ad.C111_new_is_new",
    "MVault.Ad.C111_references",
    "MVault.Ad.C111_id_held",
    "MVault.Ad.C111_parent_id",
    "MVault.Ad.C111_refuted_id_reused",
    "MVault.Ad.C111_refuted_stale"
   ],
   "note": "The world model numbers records and objects for ever; this shows that the program, which uses addresses, does not see the difference in what it compares. Refuted: an id written down, and (outside careful use) a set left with a dangling pointer."
  },
  {
   "property": "C112",
   "status": "proved",
   "theorems": [
    "MVault.Mtx.C112_as_if_absent",
    "MVault.Mtx.C112_exclusion",
    "MVault.Mtx.C112_never_stuck",
    "MVault.Mtx.C112_case",
    "MVault.Mtx.C112_off_excludes_nobody",
    "MVault.Mtx.C112_which",
    "MVault.Mtx.C112_refuted_copy"
   ],
   "note": "The statement names its limits itself (a switched-off mutex excludes nobody; the copy of a set without vault). Disable while the mutex is in use is not allowed by the model: in the code it is called by constructors and assignment."
  },
  {
   "property": "C113",
   "status": "proved",
   "theorems": [
    "MVault.W.C113_by_value",
    "MVault.W.C113_later_assignments",
    "MVault.W.C113_assignment_before_call"
   ],
   "note": "Complete. Closures are functions of the variables at the time of the call, so that a capture by reference could be expressed; an example shows one that the theorems exclude."
  },
  {
   "property": "C114",
   "status": "proved",
   "theorems": [
    "MVault.W.C114_same_answer",
    "MVault.W.C114_same_contents",
    "MVault.W.C114_named",
    "MVault.W.C114_runs",
    "MVault.W.C114_request",
    "MVault.W.C114_sorted",
    "MVault.W.C114_copy",
    "MVault.W.C114_move",
    "MVault.W.C114_symm"
   ],
   "note": "Complete for ordinary use. Side condition of the copy theorem: defaults unchanged and all records found (C37, C26 and C78 say what happens otherwise). The table contains what searches see: C78 shows that two vaults with equal keys and values can differ in that."
  },
  {
   "property": "C115",
   "status": "proved",
   "theorems": [
    "MVault.W.C115_reading_finds",
    "MVault.W.C115_restored",
    "MVault.W.C115_int_bool_string"
   ],
   "note": "Complete for ordinary use and the values of C40: values whose text form is read back, clean texts, a last column that is not empty (C40 shows that each restriction is needed). Vaults in which some records are not found (C78) are restored to ones in which they are, so they are excluded."
  },
  {
   "property": "C116",
   "status": "proved",
   "theorems": [
    "MVault.W.C116_fresh",
    "MVault.W.C116_no_trace",
    "MVault.W.C116_unfound"
   ],
   "note": "Complete for ordinary use and vaults in which searches find all records; C116_unfound shows that the condition is needed, and the witness of C78 does not meet it."
  },
  {
   "property": "C117",
   "status": "partial",
   "theorems": [
    "MVault.Cont.C117_copy",
    "MVault.Cont.C117_move",
    "MVault.Cont.C117_assign_data",
    "MVault.Cont.C117_move_assign",
    "MVault.Cont.C117_rule",
    "MVault.Cont.C117_assign_rule_partial",
    "MVault.Cont.C117_copy_rule",
    "MVault.Cont.C117_refuted_early",
    "MVault.Cont.C117_refuted_never"
   ],
   "note": "Partial because the full statement is false: assignment to a record that has references sets the counter to 0, so the record deletes itself while it is referenced (C117_refuted_early) or never (C117_refuted_never). Proved for copied and moved records and for assignment to a record without references. The library itself only copies records into new ones."
  },
  {
   "property": "C118",
   "status": "proved",
   "theorems": [
    "MVault.W.C118_vault",
    "MVault.W.C118_set",
    "MVault.W.C118_set_le_vault",
    "MVault.W.C118_needs_care",
    "MVault.W.C118_create",
    "MVault.W.C118_eraseRef",
    "MVault.W.C118_eraseRecords",
    "MVault.W.C118_dropData",
    "MVault.W.C118_union_intersection",
    "MVault.W.C118_exclude_intersection"
   ],
   "note": "Complete for ordinary use; that sets are no larger than their vault needs careful use (C118_needs_care: a set filled by Join keeps a record that has left the vault)."
  },
  {
   "property": "C119",
   "status": "proved",
   "theorems": [
    "MVault.W.C119_nothing_lost",
    "MVault.W.C119_file_iff_contents",
    "MVault.W.C119_json_nothing_lost",
    "MVault.W.C119_same_lines",
    "MVault.W.C119_same_file",
    "MVault.W.C119_saved_again",
    "MVault.W.C119_same_json"
   ],
   "note": "Complete for vaults with at least one key (without keys the key line is undefined behaviour) in ordinary use."
  }
 ]
}