# MVault in Lean 4: design of the model and of the proofs

Target: mrognor/MVault (C++), sources in `/repo/Source`, read as text. Properties: `properties.jsonl` (C01 …).
Status of every claim: `MANIFEST.json`. Attempts to break the theorems with wrong programs: `seeded/LOG.jsonl`.

## 1. Layers and modules (`lean/Verif/`)

Every layer has a *model* module (definitions only, each with the `/repo` file and lines it models), *lemma* modules, and
*property* modules `Props*.lean` that hold the specification vocabulary, the property theorems `Cnn_…`, a concrete
non-trivial case beside each of them, and refutations `Cnn_refuted…` (a proof that the claim is false of the code, with a
reachable witness).

| layer | model modules | code modelled | technique |
|---|---|---|---|
| CSV text | `CsvModel` | `CsvParser/*` | character-level parser as a function; reader as two state machines |
| texts of values | `StringsModel` | `Strings/FromString.h`, `ToString.h`, `ToJson.cpp`, `Uuid/Uuid.cpp` | functions on `List Char`; C++ integer arithmetic with overflow as a separate outcome |
| containers | `ContainerModel`, `MultiModel`, `SaverHeap` | `DataSaver.*`, `DataContainer.h` | values; heap of cells with delete / copy functions |
| maps | `MapModel` | `Map.h` | two containers and the pair of iterators, positions in sorted / hash-ordered lists |
| fairness, N threads | `FairModel` | `ReadWriteMutex.cpp` 5-65 | infinite executions, weak and strong fairness |
| questions, `PrintRecord` | `AskModel` | `VaultRecordRef.cpp` 168-279, `VaultRecordSet.cpp` 152-325, `Vault.hpp` 348-372 | history layer with the index maps a refused `AddUniqueKey` leaves behind |
| locks of vaults, infinite executions | `RecFairModel` | `ReadWriteMutex.cpp` 67-132 | the steps of MutexModel with the name of the acting thread; fairness is an assumption on executions |
| file readers used again | `ReaderModel` | `StreamFileReader.*` as one object, `CsvParser::OpenFile` | object state with all members, reads outside an array are an outcome |
| function of a unique key that changes the vault | `KeyFnModel` | `Vault.hpp` 374-407, `Vault.cpp` 9-38 | the two loops over the set of records as a relation; no rehash of the set |
| the file during and after an incomplete save | `CrashModel` | `Vault.cpp` 946-1032 | every prefix of the text is a possible content; the order of the characters is kept |
| locks of copying and moving vaults | `CopyLockModel` | `Vault.cpp` 189-314, `ReadWriteMutex.cpp` 67-132 | lock operations only; the data that is copied is C36, C73 |
| record handlers of ReadFile | `HandlerModel` | `Vault.cpp` 40-180, 1041-1046 | handlers with memory that use the vaults; the file is fixed while it is read, handlers do not throw |
| reentrant sorting and requests | `ReentModel` | `Vault.hpp` 168-185, 243-258, 503-517, `Map.h` 220-224, 491-508 | loops with arbitrary changes of the map between the turns; reverse iterators by their base |
| index loops | `IndexModel`, `IndexLemmas` | the loops of `Vault.hpp` over the two maps of a key | big-step relations over `PMap` iterators; no derivation = undefined or endless |
| locks | `MutexModel` | `ReadWriteMutex.cpp` | N-thread labelled transition systems, one step per shared access |
| sizes | `SizeModel`, `PropsSize` | `Vault.cpp` 639-649, `VaultRecordSet.cpp` 288-302 | on the world model |
| records as objects | `RecordModel`, `PropsRecordCopy` | `VaultRecord.cpp` 6-98 | data as a container, mark, 64-bit counter, sets; one thread |
| records, N threads | `LifeModel`, `ManyModel` | `VaultRecord.cpp`, `VaultRecordRef.cpp`, `Vault::RemoveRecord` | the record's mutex and the vault lock, product of transition systems |
| calls, N threads | `LinModel`, `RaceModel` | locking discipline of every public method of `Vault`, `VaultRecordRef`, `VaultRecordSet` | linearizability over arbitrary statement sequences; lock-set system with exact race condition |
| request objects | `ReqHeap` | `VaultRequest.h/.hpp` as C++ objects | heap of objects, temporaries, captured references |
| world | `WorldBase`, `WorldOps`, `WorldObs`, `WorldOut` | `Vault.*`, `VaultRecord.*`, `VaultRecordRef.*`, `VaultRecordSet.*`, `VaultParamInput.*`, `VaultOperationResult.*`, evaluation of `VaultRequest` | one heap of records, vault objects, set objects and reference variables; 47 operations; `step : Option World`, `none` = undefined behaviour |
| sorting, text, files | `SortModel`, `TextModel`, `FileModel`, `ExportModel`, `JsonSpec` | `SortBy`, `GetSortedRecords`, `ToStrings`, `Print`, `PrintAsTable.h`, `ToJson`, `SaveToFile`, `ReadFile` | composition with the layers above; `JsonSpec` is an independent RFC 8259 reader |
| specifications of histories | `TableSpec`, `SetSpec`, `AlgSpec` (with `TableFacts`, `TableLaws`, `SetFacts`) | what vaults and sets should do, without reference to the code: tables of rows, sets as windows on tables, set algebra | the world is shown to refine them: `WorldTable*` (ordinary), `WorldWindow*` (careful), `WorldSim*`, `WorldGentle*` (gentle) |
| floating point | `FloatModel`, `WideModel` | `FromStringDoubleAndFloat`, `ToString<float/double>`; values of all types in files | rationals with rounding to `p` bits, ties to even |
| diagnostics | `TraceModel` | `BackTrace/*`, `ResultCodeString` | call trees with exceptions; reads past the end are an outcome |
| result objects | `ResultModel` | `VaultOperationResult.h`, `VaultOperationResult.cpp` | the five fields, comparison, printed line |
| loops over hash sets | `LoopModel` | `Vault.cpp` 9-38, 541-625, `VaultRecordSet.cpp` 259-276, 383-533, `VaultRecord.cpp` 113-122 | order of elements, iterators, invalidation by erasing and rehashing |
| addresses | `PropsIdentity` (on the world model) | `VaultRecordRef.cpp` 99-149, pointers kept in `Vault.h`, `VaultRecord.h`, `VaultRecordRef.h` | any allocator that keeps what exists at the same time apart |
| switched-off mutexes | `OffModel`, `PropsOff` | `ReadWriteMutex.cpp` 71-132 with `IsActive`, `VaultRecordSet.cpp` 13-84 (`Disable`) | sequential consistency; `Disable` only on a mutex nobody uses |
| parameters | `ParamModel`, `PropsParam` | `VaultParamInput.h/.hpp/.cpp` whole, `Vault.cpp` 428-539, `VaultRecordRef.cpp` 151-167 over the closures | copying a closure copies what it captured |
| twins | `TableTwin`, `PropsTwin`, `PropsRestore`, `PropsSaved`, `TableBuild`, `PropsRebuild` | nothing new; two tables with the same contents (over C79) | |

Lemma modules of the world layer: `WorldMaps`, `WorldCols`, `WorldKeys`, `WorldCreate`, `WorldRefs`, `WorldInv`, `WorldVault*`, `WorldSets*`, `WorldFrame*`, `WorldAsk`, `WorldReach` (invariant `Inv` of
ordinary histories), `WorldAny*` (`AI`, `NI`: invariants of all histories), `WorldFull` (`FullAt`: completeness of an index),
`WorldDeep*` (`Deep`: invariant of careful histories and progress), `WorldCount` (`CI`: reference counts after all histories).

## 2. How the code is represented

* **Undefined behaviour is an outcome**, never assumed away: use of a freed record or destroyed object, past-the-end
  dereference, signed overflow, call through an empty function, reading a value as another type. `step` returns `none` there;
  theorems are of the form "if the step is defined, then …", and separate theorems (C50, C58, C69, C71) say when it is defined.
* **Hash iteration order** is an arbitrary permutation chosen anew for every operation (`Env`), theorems quantify over it.
* **Values and types**: an arbitrary linearly ordered type `V` with a type tag `typeOf : V → Ty`; the text layers instantiate
  it with integers of 16-64 bits, bool and strings.
* **Callbacks** (predicates, unique-key functions, sort callbacks, file handlers) are arbitrary functions that do not call back
  into the vault, except in `ReentModel` (sort callbacks C93, request predicates C100) and `KeyFnModel` (functions of unique keys C101), where they may change it; unique-key functions and sort callbacks may depend on a counter / have state.
* **Threads**: every access to shared state between two lock operations is one or more separate steps; any number of threads,
  every schedule; spurious wake-ups of `condition_variable` are a separate step so that theorems can say when they matter.
* **Memory allocation** never fails; `std` containers behave as the standard says.

## 3. Histories

`Reach G w`: `w` is reached from the empty world by operations each of which satisfies the guard `G` in the state where it is
called (arguments arbitrary, orders arbitrary).

* `fun _ _ => True`: every history.
* `Ordinary` (`HReach Ordinary home w`; `home s` is the vault that set variable `s` is used with at the moment): all operations except: moving a vault with which a set is used or to whose records references refer; copying a vault *that has unique keys*; copying/moving a set without
  parent into a new one; move-assigning onto a set with records; a type-mismatching `GetRecord` of a set with a reference into
  another vault; using one set variable with two vaults at a time: a set may go
  on with another vault as soon as it is not in use (`Unused`, constructor `HReach.reuse`; by C96 it is after `Reset` when no reference got through it is at a record). Each exclusion is
  necessary: there is a `_refuted` theorem for it.
* `Careful`: ordinary, on live objects only, and without the set operations that do not register the set with the record
  or take single records out of it (Join, Union, Intersection, Exclude, Intersect, RemoveRecord(s) of sets, set moves); moves of vaults that nobody else uses are allowed.
* `Gentle`: careful use plus Join, Exclude, Intersect, Union, Intersection, RemoveRecord(s) of sets, where SetData and erasing are only
  applied to records that are in no joined set and were never taken out of a set on their own.
* `OrdinaryApart o ks`: ordinary, and for the keys `ks` of vault `o` no record is erased or changed while another record
  of the vault shares its value (the code erases index entries by value).

A property that the code does not satisfy in all histories keeps its full statement; its positive theorem is `_partial` with the
guard in the statement, and the full statement is refuted by a kernel-checked witness.

## 4. Trusted base

* Lean 4.33.0's kernel, and of Mathlib only theorems that the kernel rechecks.
* Axioms: only `propext`, `Classical.choice`, `Quot.sound` (all three standard); no further axioms, no compiled evaluation.
* The reading of the C++ by hand: that the definitions of the model modules say what the cited lines do. **Validation of this reading**: 464 of the
  project's 490 unit tests (/repo/Tests/UnitTests) are translated by `conformance/gen.py` and `conformance/gentext.py` into `Conf1.lean` … `Conf7.lean` and
  `ConfText.lean` and run on the model by the kernel, including all five fields of the results; all pass (loops of 1000 are cut to 10). These are tests
  of the model and count as nothing else. One test is refused on purpose: `SaveToFile, Empty` runs undefined behaviour (Vault.cpp line 971).
* The C++ standard library (containers, `std::mutex`, `std::condition_variable`, streams) as described in §2.

Modelled: the files listed in §1. **Not modelled**: doxygen/CMake/Examples/Tests/Benchmarks, infinities, NaN, the sign of zero and the exponent limits of floating
point values (FloatModel says where they cannot matter), locale and platform differences of file streams
(the model's file is a list of characters), allocation failure and exceptions, callbacks other than `SortBy` functions, request predicates and functions of unique keys that call back into the vault.

## 5. Findings (claims that the code breaks)

Each is proved by a `_refuted` theorem: unique-key `SetData` never succeeds (C49); changing or erasing a shared value removes index
entries of other records (C19, C46); copies lose uniqueness and updated defaults (C37, C36); sets filled by Join/Union keep dangling
pointers after an erase (C31, C35, C50); RemoveRecord of a set leaves the record registered (C62); failing Request clears the target
(C39); a copy of a detached set deletes the vault's records (C24, C25, C34); vault moves leave sets and references at the source (C27,
C30, C63); spurious wake-ups break the lock (C41), nested locks of two vaults break it (C43); RecordSetsSet is written under the read
lock and other races (C68); record/vault lock order deadlock of ToJson/ToStrings/PrintRecord with SetData or EraseRecord (C66); request temporaries dangle (C71); custom delete functions are not
called by the destructor (C70); smallest integers overflow on reading (C05, C40); empty last fields and carriage returns are lost (C02,
C40); line numbers of clashes are one too small (C57); files with surplus fields are undefined (C58); `ToJson` does not escape (C44, C59);
tables misprint dead references (C61); after a refused AddUniqueKey PrintRecord ends the program, and sets keep old defaults (C95); 8-bit keys are saved but never read (C88); floating point values of 2^31 or more make
reading undefined, 0.5 is read back as another number (C89); back traces read past their storage in deep requests (C87); wrong-type reads of DataContainer answer true (C10).

## 6. Plan per property

For each: technique; then the status and, for partial ones, what is proved and what is missing (also in MANIFEST.json).

* **C01 CSV escaping round-trips a field** (proved). Csv.runFile on the formatter's output; induction over the characters of the field. Theorems: `C01_field_roundtrip`.
* **C02 CSV table round-trip** (partial). induction over fields and rows; exact condition on the table. Exact condition proved (C02_table_roundtrip_exact); false in general: an empty last field, carriage returns and separators other than ',' are lost (refutations). Theorems: `C02_refuted_cr`, `C02_refuted_empty_last`, `C02_refuted_separator`, `C02_table_roundtrip_exact`, `C02_table_roundtrip_partial`.
* **C03 Block-wise file reading is transparent** (proved). simulation relation between the whole-file reader and the block reader. Theorems: `C03_block_reading_transparent`, `C03_parse_independent_of_block_mode`.
* **C04 CSV parsing always terminates and consumes the file** (proved). consumption measure. Theorems: `C04_call_progress`, `C04_parsing_terminates`.
* **C05 Integer text round-trip** (partial). induction over decimal digits with overflow as a separate outcome. All values except the minimum of the signed 32/64-bit types, where reading overflows (undefined), refuted. Theorems: `C05_int_roundtrip_partial`, `C05_ranges`, `C05_refuted_min`, `C05_text_injective`.
* **C06 FromString accepts exactly decimal numerals in range** (partial). induction over the text. Rejection half proved for all texts; acceptance half false: out-of-range and negative-for-unsigned numerals are accepted and wrap, or overflow; for every text and type it is proved exactly which of accepted, refused and undefined it is (C06_signed_accepts_iff, C06_wraps_out_of_range, C06_rejects_iff, C06_undefined_iff). Theorems: `C06_accepts_numerals_partial`, `C06_min_value_is_undefined`, `C06_overflow_is_undefined`, `C06_refuted_accepts_negative`, `C06_refuted_accepts_out_of_range`, `C06_rejects_iff`, `C06_rejects_non_numerals`, `C06_signed_accepts_iff`, `C06_undefined_iff`, `C06_wraps_out_of_range`.
* **C07 Bool and string text round-trip** (proved). case analysis. Theorems: `C07_bool_string_roundtrip`.
* **C08 Hex rendering is fixed width and injective** (proved). Nat/BitVec arithmetic. Theorems: `C08_hex`, `C08_hex_injective`.
* **C09 Generated UUIDs are well-formed version 4** (proved). Nat/BitVec arithmetic on the two random words. Theorems: `C09_length`, `C09_uuid_shape`.
* **C10 Typed container reads back the last write** (partial). refinement to a finite typed map. Everything except the answer on a wrong type: DataContainer::GetData answers true there, refuted. Theorems: `C10_from_string_partial`, `C10_refuted_wrong_type`, `C10_typed_container_partial`.
* **C11 Every record has exactly the vault's keys with the vault's types** (partial). inductive invariant Inv over all ordinary histories. Proved after all histories of ordinary operations (`Ordinary`, see DESIGN §3); refuted for all histories: a failing GetRecord of a set leaves a reference working through the wrong vault, SetData then gives a record a foreign key. Theorems: `C11_getData_partial`, `C11_keys_and_types_partial`, `C11_refuted`.
* **C12 Key list is faithful** (proved). invariant plus the exact effect of each key operation. Theorems: `C12_addKey`, `C12_addUniqueKey`, `C12_copy`, `C12_dropVault`, `C12_key_list`, `C12_new_vault`, `C12_only_key_operations`, `C12_removeKey`.
* **C13 CreateRecord applies template then params** (proved). exact effect of CreateRecord, after any history. Theorems: `C13_createRecord`, `C13_createRow`.
* **C14 Unique keys stay unique** (partial). inductive invariant. Proved after all histories of ordinary operations (`Ordinary`, see DESIGN §3) (this includes copies of vaults without unique keys and all set operations); refuted for a copied vault, whose unique keys are not enforced. Theorems: `C14_refuted`, `C14_unique_partial`.
* **C15 Failed CreateRecord changes nothing** (partial). case analysis over CreateRecord under the invariant. Proved in all states reached by histories of ordinary operations (`Ordinary`, see DESIGN §3), with the exact code and key; refuted in a copy of a vault with unique keys, where the roll-back removes an index entry of another record. Theorems: `C15_createRecord_partial`, `C15_createRow_partial`, `C15_refuted`.
* **C16 SetData writes one cell** (partial). exact effect of SetData, after any history. Proved after any history for references that work through a vault, failures included; refuted for references that GetSortedRecords of a set returned: SetData reports success and writes nothing into the record. Theorems: `C16_failure`, `C16_refuted`, `C16_setData`.
* **C17 Lookups are sound** (partial). invariant (index entries are current) and exact scan lemmas. Proved after all histories of ordinary operations (`Ordinary`, see DESIGN §3) for all request kinds, bounds, flags, limits, predicates and hash orders; refuted after a mixed-up reference (see C11). Theorems: `C17_getRecord_partial`, `C17_getRecords_partial`, `C17_refuted`, `C17_requestTree_partial`, `C17_request_partial`.
* **C18 Requests on unique keys are complete** (partial). invariant: unique indexes are complete. Proved after all histories of ordinary operations (`Ordinary`, see DESIGN §3); refuted for copied vaults. Theorems: `C18_refuted`, `C18_unique_complete_partial`.
* **C19 Requests are complete** (partial). invariant FullAt for keys whose values are kept apart. Proved for histories that never erase or change a value that another record shares for the key (`Apart`); refuted otherwise: changing or erasing by value removes the index entries of all records with the value. Theorems: `C19_refuted`, `C19_refuted_erase`, `C19_requestTree_complete_partial`, `C19_request_complete_partial`.
* **C20 Amount limit** (partial). exact scan lemmas. At-most-n after any history; the min(n, matches) count and smallest-first order after ordinary histories; refuted for copied vaults (a record entered twice). Theorems: `C20_at_most`, `C20_limit_partial`, `C20_refuted`.
* **C21 Interval boundaries** (partial). order reasoning on the sorted index. The exact selection of entries by bounds and flags holds for every index (C21_interval); that the selected entries are records with these values: after ordinary histories; refuted after mixed-up references. Theorems: `C21_interval`, `C21_refuted`, `C21_values_partial`.
* **C22 Request combinators are set operations** (partial). induction over request trees. And = intersection, Or = union, interval fast path = generic path, for every tree and hash order after ordinary histories, when the operands are defined; refuted for operands of different types on one key: the fast path reads the second value as the first one's type. Theorems: `C22_combinators_partial`, `C22_refuted`.
* **C23 Erasing invalidates exactly the erased records** (partial). exact effect of the three erase functions. Proved after all histories of ordinary operations (`Ordinary`, see DESIGN §3); refuted after a mixed-up reference. Theorems: `C23_eraseKV_partial`, `C23_eraseRecords_partial`, `C23_eraseRef_partial`, `C23_refuted`.
* **C24 References never dangle** (partial). counting invariant: reference count = number of reference variables. 'never freed while referenced' holds after any history whatsoever; 'freed exactly when out of the vault and unreferenced' after ordinary histories; refuted for copies of detached sets, which delete records of the vault. Theorems: `C24_never_freed_while_referenced`, `C24_no_dangling_no_leak_partial`, `C24_refuted`.
* **C25 IsValid tells vault membership** (partial). inductive invariant. Proved after all histories of ordinary operations (`Ordinary`, see DESIGN §3); refuted for copies of detached sets. Theorems: `C25_refuted`, `C25_valid_iff_member_partial`.
* **C26 UpdateKey changes only future records** (proved). exact effect. Theorems: `C26_updateKey`.
* **C27 RemoveKey removes a key everywhere** (partial). exact effect. The vault half after any history; the sets half after ordinary histories; refuted after a vault move (sets keep pointing at the moved-from vault). Theorems: `C27_removeKey`, `C27_sets_partial`, `C27_sets_refuted`.
* **C28 AddKey gives the default to every record** (proved). exact effect. Theorems: `C28_addKey`.
* **C29 AddUniqueKey with a function** (partial). loop invariant over the record iteration order. Success condition after any history and all functions, orders; the stored values after ordinary histories; refuted when a copied detached set is updated as if it were a vault. Theorems: `C29_answer`, `C29_refuted`, `C29_stores_partial`.
* **C30 DropData and DropVault** (partial). exact effect. Proved after all histories of ordinary operations (`Ordinary`, see DESIGN §3); refuted after a vault move. Theorems: `C30_dropData_partial`, `C30_dropVault_partial`, `C30_refuted`.
* **C31 A set only holds records of its parent** (partial). inductive invariant Deep. No record twice: after ordinary histories; only valid records of the parent: after careful histories (`Careful`, DESIGN §3); refuted: a set filled by Join keeps an erased record. Theorems: `C31_careful_partial`, `C31_no_duplicates_partial`, `C31_refuted`.
* **C32 Set algebra** (proved). exact effect, membership characterisation. Theorems: `C32_exclude`, `C32_intersect`, `C32_intersection`, `C32_join`, `C32_union`.
* **C33 Set algebra error codes** (proved). case analysis. Theorems: `C33_in_place`, `C33_into_third`.
* **C34 Sets never modify the vault** (partial). frame reasoning. Proved after all histories of ordinary operations (`Ordinary`, see DESIGN §3); refuted for copies of detached sets. Theorems: `C34_refuted`, `C34_sets_leave_vault_alone_partial`.
* **C35 Erased records disappear from all sets** (partial). inductive invariant Deep: every set holding a record is registered with it. Proved for careful histories; refuted for sets filled by Join. Theorems: `C35_careful_partial`, `C35_refuted`.
* **C36 Copied vault has equal content and is independent** (partial). exact effect of copying, frame reasoning for later histories. Content of the copy after any history; copy assignment and independence after ordinary histories; UpdateKey defaults are not copied; independence refuted after a mixed-up reference. Theorems: `C36_assign_partial`, `C36_copy`, `C36_default_not_copied`, `C36_independent_partial`, `C36_refuted`.
* **C37 Copied vault still enforces uniqueness** (partial). case analysis over copying and creating; witness. The true part: a new copy lists the same unique keys and has no duplicate values. False from then on: after any history a copy never refuses a value of a unique key (C37_never_enforced, for all values and calls; refuted by a witness with two equal records).. Theorems: `C37_never_enforced`, `C37_new_copy_partial`, `C37_refuted`.
* **C38 SortBy visits in order** (partial). sortedness invariant of the ordered index. SortBy is exactly the loop over the sorted list (any history); sorted, each at most once after ordinary histories; complete when values are kept apart or the key is unique; refuted for copied vaults. Theorems: `C38_complete_partial`, `C38_getSorted_loop`, `C38_getSorted_partial`, `C38_refuted`, `C38_sortBy`, `C38_sortBy_calls`, `C38_sortBy_partial`, `C38_unique_complete_partial`.
* **C39 Failing operations report why and change nothing** (partial). case analysis over all operations. Records, values, keys, memberships unchanged after any history for every operation except SetData(params); nothing at all changed after ordinary histories for the operations listed; refuted: a failing Request clears the result set. Theorems: `C39_failure_exact_partial`, `C39_failure_unchanged_partial`, `C39_refuted`.
* **C40 Save and read back a vault** (partial). composition of the file, text and world layers. Proved for integer (16-64 bit), bool and text keys with exact conditions on values, names and separator; refuted: empty text in the last column, carriage return, smallest int. Theorems: `C40_int_bool_string_partial`, `C40_refuted_empty`, `C40_refuted_minimum`, `C40_refuted_return`, `C40_save_read_partial`, `C40_values`.
* **C41 Reader/writer exclusion of ReadWriteMutex** (partial). N-thread transition system, inductive invariant. Writer/writer exclusion unconditional; reader/writer exclusion provided condition_variable::wait has no spurious wake-up, refuted otherwise (wait without predicate loop); even then no thread that came after the writer gets in (C41_later_locks_wait). Theorems: `C41_exclusion_partial`, `C41_later_locks_wait`, `C41_refuted_spurious`, `C41_writers_exclusive`.
* **C42 Reader/writer exclusion of RecursiveReadWriteMutex** (partial). invariant of the recursive wrapper over C41's system. Without spurious wake-ups; refuted with; even then no thread that held no lock gets one while a writer is in (C42_later_locks_wait). Theorems: `C42_counters`, `C42_later_locks_wait`, `C42_recursive_exclusion_partial`, `C42_refuted_spurious`, `C42_writers_exclusive`.
* **C43 Locks of different vaults are independent** (partial). two mutexes sharing the thread-local counters. Holds when each thread uses one mutex at a time; refuted for nested locks of two mutexes; with spurious wake-ups no thread that held no lock of m gets one while a writer of m is in (C43_later_locks_wait). Theorems: `C43_independent_partial`, `C43_later_locks_wait`, `C43_refuted_nested`, `C43_refuted_upgrade`.
* **C44 JSON string values** (partial). separate JSON reader (JsonSpec), text proved to parse to the record. All types of values (floating point to six decimals, user types without ToString as empty strings), key names and texts without characters that need escapes; exactly these: the text means the record if and only if names and texts are free of quotes, backslashes and control characters (C44_exact); refuted for key names with quotes. Theorems: `C44_all_types_partial`, `C44_exact`, `C44_invalid`, `C44_number`, `C44_record_json_partial`, `C44_refuted_name`, `C44_vault_record_partial`.
* **C45 SetData with several parameters stops at the first error** (proved). induction over the parameters. Theorems: `C45_setDataMany`.
* **C46 GetRecord finds a record exactly when one exists** (partial). invariants. Soundness and the code on failure after ordinary histories, the 'exactly when' for keys whose values are kept apart; refuted otherwise. Theorems: `C46_getRecord_partial`, `C46_refuted`.
* **C47 Result objects are consistent** (partial). case analysis over all operations. All operations except SetData with an empty parameter list, which answers success with code Idle (refuted). Theorems: `C47_refuted`, `C47_results_agree_partial`.
* **C48 Reference identity** (proved). case analysis. Theorems: `C48_defined`, `C48_reference_identity`.
* **C49 Unique key values can be changed to fresh values** (partial). case analysis. False of the code: SetData on a unique key fails for every value in every ordinary state (C49_refuted is proved for all of them). Theorems: `C49_refuted`.
* **C50 No undefined behaviour in ordinary use** (partial). invariant Deep + progress: step is defined. Careful histories never meet undefined behaviour; refuted in general (four witnesses). Theorems: `C50_careful_defined_partial`, `C50_careful_refs_partial`, `C50_refuted`, `C50_refuted_index`, `C50_refuted_removed`, `C50_refuted_vault`.
* **C51 Decimal fraction parsing** (proved). induction over the text. Theorems: `C51_accepts_iff`, `C51_decimal_operands`, `C51_long_fraction_is_undefined`, `C51_overflows`, `C51_reads`, `C51_rejects`.
* **C52 DataSaver copies are independent and Swap exchanges** (proved). case analysis. Theorems: `C52_saver_copy_and_swap`, `C52_swap_with_empty_keeps_stale_type`.
* **C53 No deadlock and no lost wake-up in ReadWriteMutex** (proved). ranking function on the transition system. Theorems: `C53_no_deadlock`, `C53_no_lost_wakeup`.
* **C54 Vaults are independent** (partial). frame reasoning. Proved after all histories of ordinary operations (`Ordinary`, see DESIGN §3); refuted after a mixed-up reference. Theorems: `C54_refuted`, `C54_vaults_independent_partial`.
* **C55 Reading a file only adds records** (proved). loop induction over the rows. Theorems: `C55_readFile_only_adds`, `C55_readFile_ordinary`.
* **C56 Every row of a file is loaded or reported** (partial). loop induction over the rows. Every row is loaded or reported exactly once after any history; that a reported unique key really clashes: after ordinary histories; refuted after a mixed-up reference. Theorems: `C56_clash_partial`, `C56_loaded_or_reported`, `C56_refuted`.
* **C57 Reported line numbers** (partial). loop induction. Exact for files without key line and for refused fields; a unique-key clash in a file with key line is reported one line too early (refuted). Theorems: `C57_line_numbers_partial`, `C57_refuted`.
* **C58 ReadFile copes with every file** (partial). progress. False as stated: surplus fields without keys and numerals that overflow are undefined; after ordinary histories it is proved exactly which files are undefined (C58_undefined_iff), and which texts, for all types of values (C58_undefined_texts). Theorems: `C58_defined_partial`, `C58_refuted_overflow`, `C58_refuted_surplus_field`, `C58_undefined_iff`, `C58_undefined_texts`.
* **C59 ToJson of a vault or set is valid JSON with every record** (partial). separate JSON reader. All types of values, literal texts and names; exactly these: C59_array_exact, C59_object_exact, C59_vault_exact are equivalences; refuted: detached set, names or texts that need escapes. Theorems: `C59_all_types_partial`, `C59_array_exact`, `C59_array_partial`, `C59_object_exact`, `C59_object_partial`, `C59_refuted`, `C59_refuted_detached`, `C59_vault_exact`, `C59_vault_partial`.
* **C60 ToStrings lists every record and every value** (proved). loop induction. Theorems: `C60_complete`, `C60_reference`, `C60_set`, `C60_vault_defined`.
* **C61 Printed tables are aligned and complete** (partial). layout specification `tableOf`. Readable references and amount > 0; refuted: dead references, amount 0. Theorems: `C61_aligned`, `C61_default_keys`, `C61_printAsTable_partial`, `C61_print_partial`, `C61_refuted`, `C61_refuted_zero`, `C61_vault_records_partial`.
* **C62 Lookups on a set only give records of the set** (partial). invariant Deep. Careful histories; refuted: after RemoveRecord of a set, SetData puts the record back into the set's lookup. Theorems: `C62_getRecord_partial`, `C62_getRecords_partial`, `C62_getSorted_partial`, `C62_refuted`, `C62_refuted_counter`, `C62_requestTree_partial`, `C62_request_partial`.
* **C63 An attached set has the keys of its vault** (partial). invariant Link/Deep. After ordinary histories; refuted after a vault move. Theorems: `C63_refuted`, `C63_request_codes_partial`, `C63_set_keys_partial`.
* **C64 Invalid stays invalid** (proved). frame reasoning over all operations. Theorems: `C64_erased_never_returns`, `C64_invalid_stays_invalid`.
* **C65 Record lifetime with several threads** (proved). N-thread transition system for one record and the vault lock; vaults with any number of records by projection. Theorems: `C65_count`, `C65_freed_exactly`, `C65_many`, `C65_no_use_after_free`, `C65_valid_exactly`.
* **C66 Calls on a record never block for ever** (partial). ranking function; witness. All methods except PrintRecord, ToJson, ToStrings of a reference, which lock the record before the vault: deadlock with EraseRecord and with SetData (refuted); C66_many_partial covers vaults with any number of records together with the vault lock. Theorems: `C66_many_partial`, `C66_record_calls_finish_partial`, `C66_refuted`, `C66_refuted_setData`.
* **C67 Concurrent calls behave like some sequential order** (proved). linearization points in the N-thread lock system over arbitrary statement sequences. Theorems: `C67_linearizable`, `C67_order`, `C67_reader_sees_one_state`, `C67_vault`.
* **C68 Concurrent calls do not race** (partial). lock-set system; exact condition for each pair of methods. No race among the methods marked safe when each set is used by one thread; no race among all methods of the vault itself and its references, DropVault and ReadFile included (C68_vault_methods); exact iff for two threads and any two methods; seven racing pairs refuted. Theorems: `C68_exact_pairs`, `C68_no_race_partial`, `C68_refuted_assign`, `C68_refuted_assign_source`, `C68_refuted_clear`, `C68_refuted_drop`, `C68_refuted_errors`, `C68_refuted_request`, `C68_refuted_shared_set`, `C68_vault_methods`.
* **C69 DataSaver frees exactly what it allocated** (proved). heap of cells and variables; refinement to plain values. Theorems: `C69_all_freed`, `C69_no_leak`, `C69_plain_values`, `C69_undefined_exactly`, `C69_values`.
* **C70 Custom delete functions are called once per stored value** (partial). exact call log. Exact: only ResetData calls it, with the current pointer; refuted for the destructor, copies and null. Theorems: `C70_called_by_reset_partial`, `C70_refuted_copy`, `C70_refuted_destructor`, `C70_refuted_null`.
* **C71 Request objects are memory safe and mean what was written** (partial). heap of request objects. Defined and faithful for objects that are neither copied nor assigned and outlive their users; every request written as one statement; refuted for stored, copied, assigned requests. Theorems: `C71_one_statement`, `C71_refuted_assign`, `C71_refuted_copy`, `C71_refuted_stored`, `C71_with_care_partial`.
* **C72 The map wrappers behave as one map or one multimap, as chosen at construction** (proved). node-and-iterator model of both inner containers; the STL contract (Stl) is an assumption with instances. Theorems: `C72_bounds`, `C72_decrement`, `C72_emplace`, `C72_equal_range`, `C72_erase_at`, `C72_erase_key`, `C72_find`, `C72_iterators_stay`, `C72_sorted_unique`, `C72_unique_keys`, `C72_whole_map`.
* **C73 Moving a vault hands over its keys and records** (proved). exact effect of both moves, after any history; frame reasoning and the ordinary invariant for moves of unused vaults. Theorems: `C73_move_assign`, `C73_move_assign_ordinary`, `C73_move_construct`.
* **C74 The recursive reader/writer mutex never gets stuck** (proved). invariant of the recursive mutex plus a measure of the work left in all threads. Theorems: `C74_lock_granted`, `C74_many_vaults`, `C74_never_stuck`.
* **C75 The loops over a key's index are well behaved and exact** (proved). inductive descriptions of the loops over the iterators of the map layer; induction over the stretch between two iterators. Theorems: `C75_add`, `C75_erase`, `C75_eraseRecords`, `C75_find`, `C75_getRecords`, `C75_request`, `C75_set`, `C75_sort`.
* **C76 Iterator-level indexes refine the list-level ones** (proved). simulation between the iterator-level index and the world model's column. Theorems: `C76_add`, `C76_clear`, `C76_erase`, `C76_eraseRecords`, `C76_history`, `C76_lookup`, `C76_maps_exist`, `C76_new`, `C76_request`, `C76_set`.
* **C77 Results name the key and the types involved** (proved). case analysis over all operations; induction over parameters and request trees; template and index types agree after any history. Theorems: `C77_add_key`, `C77_create_record`, `C77_failures`, `C77_set_many`, `C77_success`.
* **C78 Exactly which records lookups find** (proved). case analysis over all operations with exact effect of each index update; lookups reduced to index scans. Theorems: `C78_eraseRecords`, `C78_getRecord`, `C78_getRecords`, `C78_moved`, `C78_new`, `C78_request`, `C78_requestTree`, `C78_set_many`, `C78_sorted`, `C78_step`.
* **C79 A vault is a table: every call is a step of a small specification** (proved). refinement: per-call simulation into a table specification, then induction over the history. Theorems: `C79_getRecord`, `C79_getRecords`, `C79_history`, `C79_history_exists`, `C79_refines`, `C79_request`, `C79_sorted`.
* **C80 Vault data is always well-formed** (proved). invariant of the specification, by induction over its runs; carried to the code by C79. Theorems: `C80_apart`, `C80_wellformed`.
* **C81 Undo, overwrite and order laws** (proved). equations between tables, carried to the code by C79. Theorems: `C81_addKey_removeKey`, `C81_addUniqueKey_removeKey`, `C81_create_erase`, `C81_erase_comm`, `C81_erase_twice`, `C81_set_back`, `C81_set_comm`, `C81_set_set`.
* **C82 Answers do not depend on the order of hash tables** (proved). the specification is functional in table and call up to named choices; carried to the code by C79. Theorems: `C82_answer`, `C82_vaults`.
* **C83 Sets are windows on their vaults** (proved). forward simulation: the sets of the model are windows on the tables of C79; every careful operation is one step of SetSpec.lean. Careful use (WorldDeep10 `Allowed`): the functions of sets that remove single records or combine two sets, and the moves of sets, are left out (moves of vaults nobody else uses are in); what they break is C31, C35, C50, C62 (refuted parts). Theorems: `C83_defined`, `C83_history`, `C83_history_exists`, `C83_refines`, `C83_window`.
* **C84 Sets are independent; requests on results narrow; hash order does not matter** (proved). consequences of the specification of C83: frame, narrowing, functional steps. Theorems: `C84_apart`, `C84_elsewhere`, `C84_limit`, `C84_narrow`, `C84_order`.
* **C85 Set algebra with clean writes is memory safe and keeps every set inside its vault** (proved). invariant Good/Knows, simulation of a told world by the careful layer. Gentle use; marks of joined sets and removed records are part of the history. Theorems: `C85_careful`, `C85_defined`, `C85_gone`, `C85_held`, `C85_indices`.
* **C86 Union, intersection and difference of sets are the mathematical ones** (proved). forward simulation into AlgSpec.lean, then consequences of the specification. Theorems: `C86_apart`, `C86_commute`, `C86_equal`, `C86_history`, `C86_order`, `C86_refines`, `C86_search`, `C86_window`.
* **C87 Diagnostics of debug builds** (proved). recursion over call trees with exceptions; exact limits by witnesses. Theorems: `C87_code_texts`, `C87_limits`, `C87_names_the_call`, `C87_trace`.
* **C88 Saving chosen keys and reading them into any vault with these keys** (proved). loop induction over the rows with a conversion function; value layer WideModel for all types. Theorems: `C88_all_types`, `C88_byte_ranges`, `C88_chosen_keys`, `C88_never_read`, `C88_unreadable`, `C88_values`.
* **C89 Floating point numbers in texts** (proved). rational model of IEEE rounding; relative error bounds composed over the operations; exact evaluation for the limits. Theorems: `C89_accuracy`, `C89_limits`, `C89_roundtrip`, `C89_roundtrip_double`, `C89_roundtrip_float`, `C89_stable_double`, `C89_text_error`, `C89_whole_numbers`.
* **C90 What is exported from a set is exactly the set** (proved). the invariant of gentle histories gives the shape of the set object; the file, text, JSON and sorting theorems are then applied to it as an object. Theorems: `C90_all_types`, `C90_detached`, `C90_detached_texts`, `C90_file`, `C90_json`, `C90_print`, `C90_sortBy`, `C90_strings`.
* **C91 Multi containers keep every entry** (proved). invariant over all histories of calls; refinement of a bag (multiset) and of per-key sequences. Theorems: `C91_calls`, `C91_defined`, `C91_get`, `C91_getAll`, `C91_getSaver`, `C91_order`, `C91_sorted`.
* **C92 A vault used by several threads at once is still a table** (proved). linearizability (C67) of the lock, definedness and refinement of the table specification (C79) composed by induction over the log of completed calls. One lock guards everything the bodies touch: in the code each vault has its own lock, so the theorem applies with one vault at a time.. Theorems: `C92_reader`, `C92_tables`.
* **C93 A SortBy function may change the vault, within limits** (proved). invariant over the turns of the loop with arbitrary map changes in between; addresses of elements give identity; the reverse loop is modelled with base iterators. The statement names the limits; both sides are proved, the limits by the theorems whose names end in refuted.. Theorems: `C93_calls`, `C93_complete`, `C93_endless_refuted`, `C93_erase_refuted`, `C93_goes_on`, `C93_next_defined`, `C93_order`, `C93_other_values`, `C93_reverse`, `C93_reverse_bound`, `C93_reverse_complete`, `C93_reverse_first_refuted`, `C93_reverse_goes_on`, `C93_reverse_next_defined`, `C93_reverse_skips_refuted`, `C93_reverse_twice_refuted`, `C93_reverse_unchanged`, `C93_set_refuted`, `C93_spared`.
* **C94 Who waits for a lock gets it** (proved). infinite executions over an arbitrary thread type; weak and strong fairness; the reader counter as a descending measure; concrete periodic executions for the failing side. The statement names the limits (starvation with an unfair std::mutex, ReadUnlock against a stream of writers); both sides are proved, the limits by the theorems whose names end in refuted.. Theorems: `C94_no_overtaking`, `C94_read_lock_returns`, `C94_read_unlock_refuted`, `C94_read_unlock_returns_if_writers_stop`, `C94_reader_enters`, `C94_starvation_refuted`, `C94_write_lock_returns`, `C94_write_unlock_returns`, `C94_writer_enters`.
* **C95 Questions about keys and values agree, and PrintRecord prints the record** (proved). history invariant for the maps a refused AddUniqueKey leaves behind; case analysis of the reading functions under the world invariants. The statement names the limits (a refused AddUniqueKey, UpdateKey and sets); both sides are proved, the limits by the theorems whose names end in refuted.. Theorems: `C95_nothing_left`, `C95_print_record`, `C95_print_record_invalid`, `C95_print_record_refuted`, `C95_print_refuted`, `C95_reference_keys`, `C95_refused_leaves`, `C95_set_default_refuted`, `C95_set_keys`, `C95_set_types`, `C95_text`, `C95_text_invalid`, `C95_text_set`.
* **C96 One set variable can be used with several vaults, one after the other** (proved). commutation of Reset with the registration of the set in the new vault; a set that is not in use may change its vault in all history invariants (`HReach.reuse`). The condition on references is necessary: C96_live_reference_refuted.. Theorems: `C96_assign`, `C96_assign_resets`, `C96_live_reference_refuted`, `C96_new_set`, `C96_request`, `C96_request_resets`, `C96_reset_frees`.
* **C97 Who waits for the lock of a vault gets it** (proved). projection of an infinite execution of the recursive locks to the inner mutex of each vault: fairness and releasing carry over, so C94 applies; then the end of the outer call. C97_read_unlock_refuted shows that the condition for ReadUnlock and for the upgrade is needed.. Theorems: `C97_every_call_returns`, `C97_read_lock_returns`, `C97_read_unlock_refuted`, `C97_read_unlock_returns_if_writers_stop`, `C97_upgrade_returns_if_writers_stop`, `C97_write_lock_returns`, `C97_write_unlock_returns`.
* **C98 CSV files of other programs are read as the tables they stand for** (proved). a grammar of CSV texts (inductive relation) independent of the writer; induction over derivations with the parser as a function of the remaining text. C98_blank_line_refuted and C98_last_empty_refuted show that the two side conditions of the grammar are needed.. Theorems: `C98_blank_line_refuted`, `C98_last_empty_refuted`, `C98_reads_csv`, `C98_reads_csv_exactly`, `C98_vault_reads_table`, `C98_written_is_csv`.
* **C99 A file reader delivers the file it was opened with, also when it is used again** (partial). the reader as one object with all its members; invariants over histories of calls; the block mode by simulation with CsvModel. Proved for new readers (all files) and, after any history, for all files up to BIG_FILE_SIZE; false for bigger files after an earlier file: for every earlier small file the reader goes on in the old array and out of its bounds, after a bigger file the position is not reset (exactly when something was read of it). Open on an open reader answers true and gives no character; a CsvParser cannot be closed, so its second OpenFile never gives a row. Move does not answer what its documentation says.. Theorems: `C99_first_file`, `C99_no_file`, `C99_refuted_big_after_big`, `C99_refuted_big_after_small`, `C99_refuted_move`, `C99_refuted_parser`, `C99_refuted_second_open`, `C99_reopened_partial`.
* **C100 A Request predicate may change the vault, within limits** (proved). invariant over the turns of the loop, one proof for the ordered map and the hash map (what the predicate may do is a parameter). The statement says where the guarantee ends; both sides are proved.. Theorems: `C100_complete`, `C100_dangling_refuted`, `C100_defined`, `C100_equal`, `C100_equal_add_refuted`, `C100_equal_defined`, `C100_erase_calls`, `C100_given_refuted`, `C100_order`, `C100_stop_refuted`, `C100_upper_refuted`, `C100_within`.
* **C101 The function given to AddUniqueKey may change the vault, within limits** (proved). the two loops as a relation between their variables and the set of records; induction over the turns, for every behaviour of the function. The statement says where the guarantee ends; both sides are proved. A rehash of the set of records (which ends everything defined) is not modelled: the runs are those without one.. Theorems: `C101_calls`, `C101_create_refuted`, `C101_current_refuted`, `C101_defined`, `C101_plain`, `C101_refused`, `C101_shift_refuted`, `C101_spares`.
* **C102 What any CSV file, well-formed or not, is read as** (proved). a total grammar of texts (inductive relations, independent of the parser); induction over derivations for soundness, over the length of the text for totality. Complete description of the parser; the grammar of C98 is the well-formed part of it.. Theorems: `C102_blank`, `C102_meaning`, `C102_reads_any`, `C102_stray`, `C102_unclosed`, `C102_vault_reads`.
* **C103 A save that was cut off (crash, full disk)** (proved). grammar of C102 applied to beginnings of written texts (induction over rows and fields), then append law of the reading loop with the exact row specification of C56; reading of beginnings of numbers by induction over the digits. All of the statement is proved; the theorems named refuted prove its limits (a save is neither atomic nor reported when incomplete).. Theorems: `C103_all_types`, `C103_answer`, `C103_beginnings_are_safe`, `C103_cut_rows`, `C103_old_content_refuted`, `C103_recovers`, `C103_silent_cut_refuted`.
* **C104 Copying and moving vaults while other threads use them** (proved). simulation: every state of the copying threads maps to a state of the one-vault-at-a-time system of C43 with the vaults under construction left out; the locks of vaults under construction by an invariant of their fields. All of the statement is proved; the theorems named refuted prove its limits by explicit schedules.. Theorems: `C104_assign_gap_refuted`, `C104_assign_source_refuted`, `C104_assign_target_refuted`, `C104_calls_keep_the_rules`, `C104_copy_new_is_a_snapshot`, `C104_first_lock_excludes_writers`, `C104_move_source_refuted`, `C104_new_vault_lock_is_new`, `C104_new_vault_never_waits`.
* **C105 Record handlers of ReadFile** (proved). induction over the rows, one turn of the loop being the handler's call followed by the loop of C55 on one row; the template is kept by all calls that are not key functions (invariant of C12); the file layer by C102. All of the statement is proved; the theorems named refuted prove its limits by explicit histories.. Theorems: `C105_calls`, `C105_is_the_changed_file`, `C105_key_too_late_refuted`, `C105_missing_value_refuted`, `C105_nested_refuted`, `C105_no_file`, `C105_no_key_line_refuted`, `C105_ordinary`, `C105_row_by_row`.
* **C106 The locks keep the rules of std::mutex** (proved). inductive invariant of the transition system of C42/C43 without the one-mutex restriction: owners by program counter, place of every thread in every mutex by its call and its outermost write lock. Locks are released in reverse order of acquisition, as the RAII classes do.. Theorems: `C106_counters`, `C106_no_relock`, `C106_no_underflow`, `C106_one_waiter`, `C106_outermost_writers`, `C106_unlock_by_owner`, `C106_user_code`.
* **C107 UUIDs and temporary file names clash only if the random bits do** (proved). which bit every hexadecimal digit shows; injectivity of the pieces. The two random words are arguments of the model; Windows paths are not modelled.. Theorems: `C107_in_tmp`, `C107_same_tmp_name_iff`, `C107_same_uuid_iff`, `C107_tmp_name`.
* **C108 Result objects can be compared and printed without losing information** (proved). field-wise equality; case analysis over the fifteen codes; prefix argument for lines; C47 for the answers. The type names are an arbitrary function of the type (std::type_index::name).. Theorems: `C108_equal_iff`, `C108_equal_is_equality`, `C108_fields`, `C108_line_end`, `C108_line_tells`, `C108_line_tells_all`, `C108_one_line`, `C108_printed_answers`, `C108_texts`.
* **C109 Laws of requests** (proved). exact answers of C78/C19, expressions as formulas over their leaves. Expressions are compared where both are answered; expressions with comparisons of different types on one key can be undefined (C22_refuted).. Theorems: `C109_answered_iff`, `C109_equal_formulas`, `C109_equal_meanings`, `C109_interval`, `C109_lattice_laws`, `C109_limits`, `C109_split`.
* **C110 Loops that erase while they run** (proved). iterator-level model of the loops over a hash set; simulation with the loops of the world model. That every element comes once is taken from std::unordered_set (`OrderOf`). `C110_without_saving` shows what the saved iterator of DropVault is for.. Theorems: `C110_careful`, `C110_clear`, `C110_dependent`, `C110_drop_data`, `C110_drop_vault`, `C110_exclude`, `C110_intersect`, `C110_join`, `C110_without_saving`.
* **C111 Reused addresses do not mix up records, vaults or sets** (proved). invariant Inv + Deep: every kept pointer is to something that exists; address assignment injective on what exists. The world model numbers records and objects for ever; this shows that the program, which uses addresses, does not see the difference in what it compares. Refuted: an id written down, and (outside careful use) a set left with a dangling pointer.. Theorems: `C111_addresses_tell_apart`, `C111_id_held`, `C111_new_is_new`, `C111_parent_id`, `C111_references`, `C111_refuted_id_reused`, `C111_refuted_stale`.
* **C112 The switched-off mutex of a set does not disturb vault locking** (proved). simulation: every step with lock objects on switched-off mutexes is no step or the same step of the model without them; progress by lifting the runs of C74. The statement names its limits itself (a switched-off mutex excludes nobody; the copy of a set without vault). Disable while the mutex is in use is not allowed by the model: in the code it is called by constructors and assignment.. Theorems: `C112_as_if_absent`, `C112_case`, `C112_exclusion`, `C112_never_stuck`, `C112_off_excludes_nobody`, `C112_refuted_copy`, `C112_which`.
* **C113 A parameter stands for the value its variable held when the parameter was made** (proved). simulation between the program with closures and the program with plain values, by induction over the program. Complete. Closures are functions of the variables at the time of the call, so that a capture by reference could be expressed; an example shows one that the theorems exclude.. Theorems: `C113_assignment_before_call`, `C113_by_value`, `C113_later_assignments`.
* **C114 What a vault does depends on its contents only** (proved). bisimulation of tables with renamed rows, proved of the specification (TableTwin) and carried to the model of the code by C79. Complete for ordinary use. Side condition of the copy theorem: defaults unchanged and all records found (C37, C26 and C78 say what happens otherwise). The table contains what searches see: C78 shows that two vaults with equal keys and values can differ in that.. Theorems: `C114_copy`, `C114_move`, `C114_named`, `C114_request`, `C114_runs`, `C114_same_answer`, `C114_same_contents`, `C114_sorted`, `C114_symm`.
* **C115 A vault restored from a file behaves like the one that was saved** (proved). composition of C40 (the rows come back), C55 (nothing else changes), an invariant of reading (every record is listed under every key) and C114. Complete for ordinary use and the values of C40: values whose text form is read back, clean texts, a last column that is not empty (C40 shows that each restriction is needed). Vaults in which some records are not found (C78) are restored to ones in which they are, so they are excluded.. Theorems: `C115_int_bool_string`, `C115_reading_finds`, `C115_restored`.
* **C116 The history of a vault leaves no trace besides its contents** (proved). an invariant (defaults of unique keys are unset), construction of the fresh vault key by key and record by record through the specification of C79, and C114. Complete for ordinary use and vaults in which searches find all records; C116_unfound shows that the condition is needed, and the witness of C78 does not meet it.. Theorems: `C116_fresh`, `C116_no_trace`, `C116_unfound`.
* **C117 A copied or moved record starts a life of its own** (partial). induction on the copying loop; a relation between containers kept by every call; simulation of the counter by a rule on the number of references. Partial because the full statement is false: assignment to a record that has references sets the counter to 0, so the record deletes itself while it is referenced (C117_refuted_early) or never (C117_refuted_never). Proved for copied and moved records and for assignment to a record without references. The library itself only copies records into new ones.. Theorems: `C117_assign_data`, `C117_assign_rule_partial`, `C117_copy`, `C117_copy_rule`, `C117_move`, `C117_move_assign`, `C117_refuted_early`, `C117_refuted_never`, `C117_rule`.
* **C118 Size counts records** (proved). counting on lists without duplicates, from C13, C23, C30, C31 and C32. Complete for ordinary use; that sets are no larger than their vault needs careful use (C118_needs_care: a set filled by Join keeps a record that has left the vault).. Theorems: `C118_create`, `C118_dropData`, `C118_eraseRecords`, `C118_eraseRef`, `C118_exclude_intersection`, `C118_needs_care`, `C118_set`, `C118_set_le_vault`, `C118_union_intersection`, `C118_vault`.
* **C119 A saved file shows the contents of the vault and nothing else** (proved). explicit form of the saved file and permutations; with C114 and C115; C119_same_json for ToJson; the converse (C119_nothing_lost) by reading both files into an empty vault with the same keys. Complete for vaults with at least one key (without keys the key line is undefined behaviour) in ordinary use.. Theorems: `C119_file_iff_contents`, `C119_json_nothing_lost`, `C119_nothing_lost`, `C119_same_file`, `C119_same_json`, `C119_same_lines`, `C119_saved_again`.
