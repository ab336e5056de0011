{"id": "C01", "title": "CSV escaping round-trips a field", "statement": "A field written with the CSV formatter and read back with the CSV parser as one field of a line is returned byte for byte, whatever commas, quotes and newlines it holds, for every field text without carriage return (an empty text only when it is not the last field of its line).", "quantifier": "all field strings without '\\r', all neighbours in the line", "why_tests_cant": "The claim ranges over an unbounded set of inputs; a test run samples finitely many of them.", "anchors": ["Source/CsvParser/CsvParser.cpp:FormatStringToCsv", "Source/CsvParser/CsvParser.cpp:CsvParser::GetNextVector"]}
{"id": "C02", "title": "CSV table round-trip", "statement": "Writing any table of rows in the way SaveToFile writes it (fields formatted, joined by ',', rows ended by CR LF) and parsing the resulting file yields exactly the same rows in the same order, and then end of file.", "quantifier": "all finite tables of fields", "why_tests_cant": "The claim ranges over an unbounded set of inputs; a test run samples finitely many of them.", "anchors": ["Source/CsvParser/CsvParser.cpp", "Source/Vault.cpp:Vault::SaveToFile"]}
{"id": "C03", "title": "Block-wise file reading is transparent", "statement": "Reading a big file in blocks gives the parser exactly the same sequence of characters, look-ahead characters and end-of-file answers as reading the whole file at once, for every file content and block size.", "quantifier": "all file contents, all positive block sizes, every number of reads", "why_tests_cant": "The claim ranges over an unbounded set of inputs; a test run samples finitely many of them.", "anchors": ["Source/CsvParser/StreamFileReader.cpp"]}
{"id": "C04", "title": "CSV parsing always terminates and consumes the file", "statement": "Repeatedly asking the parser for the next line of any file terminates: every call that answers 'more' has consumed at least one character, and after at most length(file)+1 calls the parser answers 'end'.", "quantifier": "all file contents, well-formed or not", "why_tests_cant": "The claim ranges over an unbounded set of inputs; a test run samples finitely many of them.", "anchors": ["Source/CsvParser/CsvParser.cpp:CsvParser::GetNextVector"]}
{"id": "C05", "title": "Integer text round-trip", "statement": "For every integer of a supported width (16, 32, 64 bits, signed and unsigned) the text produced by ToString is accepted by FromString and gives back the same integer.", "quantifier": "all integers of each width", "why_tests_cant": "The claim ranges over an unbounded set of inputs; a test run samples finitely many of them.", "anchors": ["Source/Strings/FromString.h", "Source/Strings/ToString.h"]}
{"id": "C06", "title": "FromString accepts exactly decimal numerals in range", "statement": "FromString for an integer type answers true exactly on texts that are an optional minus sign followed by decimal digits whose value fits the type, and then stores that value.", "quantifier": "all texts", "why_tests_cant": "The claim ranges over an unbounded set of inputs; a test run samples finitely many of them.", "anchors": ["Source/Strings/FromString.h"]}
{"id": "C07", "title": "Bool and string text round-trip", "statement": "ToString followed by FromString is the identity on bool and std::string, and FromString<bool> rejects every text other than the two it recognises.", "quantifier": "all bools, all strings, all texts", "why_tests_cant": "The claim ranges over an unbounded set of inputs; a test run samples finitely many of them.", "anchors": ["Source/Strings/FromString.h", "Source/Strings/ToString.h"]}
{"id": "C08", "title": "Hex rendering is fixed width and injective", "statement": "ToHex renders every 64-bit word as exactly 16 lower-case hexadecimal digits whose value is the word, so different words have different texts.", "quantifier": "all 64-bit words", "why_tests_cant": "The claim ranges over an unbounded set of inputs; a test run samples finitely many of them.", "anchors": ["Source/Uuid/Uuid.cpp:ToHex"]}
{"id": "C09", "title": "Generated UUIDs are well-formed version 4", "statement": "Whatever the random generator returns, the generated UUID has 36 characters, dashes at positions 8, 13, 18 and 23, version digit 4 and variant digit 8, 9, a or b.", "quantifier": "all pairs of random 64-bit words", "why_tests_cant": "The claim ranges over an unbounded set of inputs; a test run samples finitely many of them.", "anchors": ["Source/Uuid/Uuid.cpp:Uuid"]}
{"id": "C10", "title": "Typed container reads back the last write", "statement": "In a DataContainer GetData<T>(k) succeeds exactly when k holds a value and its type is T, returns the most recently stored value, and leaves the output untouched on failure; AddData never overwrites; operations on one key never affect another; Size equals the number of distinct keys held.", "quantifier": "all histories of container operations", "why_tests_cant": "The claim must hold after every finite history of API calls; tests exercise a handful of histories and the number of histories is unbounded.", "anchors": ["Source/DataContainer.h", "Source/DataSaver.h"]}
{"id": "C11", "title": "Every record has exactly the vault's keys with the vault's types", "statement": "After any history of vault operations every record of the vault has a value for each vault key, of the key's type, and for no other key.", "quantifier": "all histories, all records, all keys", "why_tests_cant": "The claim must hold after every finite history of API calls; tests exercise a handful of histories and the number of histories is unbounded.", "anchors": ["Source/Vault.hpp:AddKey", "Source/Vault.cpp:RemoveKey", "Source/Vault.cpp:CreateRecord"]}
{"id": "C12", "title": "Key list is faithful", "statement": "GetKeys lists each existing key exactly once, in order of addition; IsKeyExist, GetKeyType and GetKeys always agree; GetUniqueKeys lists exactly the keys added with AddUniqueKey, sorted.", "quantifier": "all histories", "why_tests_cant": "The claim must hold after every finite history of API calls; tests exercise a handful of histories and the number of histories is unbounded.", "anchors": ["Source/Vault.cpp:GetKeys", "Source/Vault.cpp:IsKeyExist", "Source/Vault.cpp:GetUniqueKeys"]}
{"id": "C13", "title": "CreateRecord applies template then params", "statement": "A successful CreateRecord adds exactly one record, whose value for each key is the last value given for it in params and otherwise the key's current default; no other record changes.", "quantifier": "all vault states and parameter lists", "why_tests_cant": "The claim must hold after every finite history of API calls; tests exercise a handful of histories and the number of histories is unbounded.", "anchors": ["Source/Vault.cpp:CreateRecord"]}
{"id": "C14", "title": "Unique keys stay unique", "statement": "In every reachable state two different records of a vault never hold the same value for a unique key.", "quantifier": "all histories (no copy or move of the vault)", "why_tests_cant": "The claim must hold after every finite history of API calls; tests exercise a handful of histories and the number of histories is unbounded.", "anchors": ["Source/Vault.hpp:SetDataToRecord", "Source/Vault.cpp:CreateRecord"]}
{"id": "C15", "title": "Failed CreateRecord changes nothing", "statement": "When CreateRecord fails (WrongKey, WrongType, UniqueKeyValueAlredyInSet) the vault is exactly as before, including every lookup structure, and the result code names the right cause: first bad parameter, else first clashing unique key in key order.", "quantifier": "all vault states and parameter lists", "why_tests_cant": "The claim must hold after every finite history of API calls; tests exercise a handful of histories and the number of histories is unbounded.", "anchors": ["Source/Vault.cpp:CreateRecord"]}
{"id": "C16", "title": "SetData writes one cell", "statement": "A successful SetData(key, value) makes GetData(key) of that record return the value and changes no other cell of any record in any vault.", "quantifier": "all states, records, keys, values", "why_tests_cant": "The claim must hold after every finite history of API calls; tests exercise a handful of histories and the number of histories is unbounded.", "anchors": ["Source/Vault.hpp:SetDataToRecord", "Source/VaultRecordRef.hpp"]}
{"id": "C17", "title": "Lookups are sound", "statement": "Every record returned by GetRecord, GetRecords, or any Request on a vault is a valid record of that vault that really satisfies the requested condition now.", "quantifier": "all histories, all request kinds, bounds, flags, amounts, predicates", "why_tests_cant": "The claim must hold after every finite history of API calls; tests exercise a handful of histories and the number of histories is unbounded.", "anchors": ["Source/Vault.hpp:RequestRecordsSet", "Source/Vault.hpp:GetRecord", "Source/Vault.hpp:GetRecords"]}
{"id": "C18", "title": "Requests on unique keys are complete", "statement": "On a unique key every Request without limit returns exactly the records satisfying the condition.", "quantifier": "all histories", "why_tests_cant": "The claim must hold after every finite history of API calls; tests exercise a handful of histories and the number of histories is unbounded.", "anchors": ["Source/Vault.hpp:RequestRecordsSet"]}
{"id": "C19", "title": "Requests are complete", "statement": "On any key every Request without limit returns exactly the records of the vault satisfying the condition.", "quantifier": "all histories", "why_tests_cant": "The claim must hold after every finite history of API calls; tests exercise a handful of histories and the number of histories is unbounded.", "anchors": ["Source/Vault.hpp:RequestRecordsSet", "Source/Vault.hpp:SetDataToRecord", "Source/Vault.hpp:AddKey (VaultRecordErasers)"]}
{"id": "C20", "title": "Amount limit", "statement": "A Request with a limit n returns at most n records, min(n, matches) of them when no predicate is given, all of them satisfying the condition; for ordered conditions they are the n smallest.", "quantifier": "all index contents, all limits", "why_tests_cant": "The claim ranges over an unbounded set of inputs; a test run samples finitely many of them.", "anchors": ["Source/Vault.hpp:RequestRecordsSet"]}
{"id": "C21", "title": "Interval boundaries", "statement": "RequestInterval(a,b,inclA,inclB) selects v exactly when a<v<b or v=a with inclA or v=b with inclB, being empty when a>b or when a=b without both flags.", "quantifier": "all totally ordered value types, all indices and bounds", "why_tests_cant": "The claim ranges over an unbounded set of inputs; a test run samples finitely many of them.", "anchors": ["Source/Vault.hpp:RequestRecordsSet", "Source/Map.h"]}
{"id": "C22", "title": "Request combinators are set operations", "statement": "For VaultRequest trees, And gives the intersection and Or the union of what the operands give on the same vault; the interval fast path agrees with the generic path.", "quantifier": "all request trees, all vault states", "why_tests_cant": "The claim ranges over an unbounded set of inputs; a test run samples finitely many of them.", "anchors": ["Source/VaultRequest.hpp"]}
{"id": "C23", "title": "Erasing invalidates exactly the erased records", "statement": "After EraseRecord or EraseRecords exactly the erased records leave the vault; every reference to an erased record answers IsValid false, all other references keep their answers and data.", "quantifier": "all histories", "why_tests_cant": "The claim must hold after every finite history of API calls; tests exercise a handful of histories and the number of histories is unbounded.", "anchors": ["Source/Vault.cpp:RemoveRecord", "Source/VaultRecordRef.cpp:IsValid"]}
{"id": "C24", "title": "References never dangle", "statement": "While a VaultRecordRef points at a record, the record's memory is not freed; a record is freed exactly when it has left the vault and no reference points to it.", "quantifier": "all histories of vault, set and reference operations", "why_tests_cant": "The claim must hold after every finite history of API calls; tests exercise a handful of histories and the number of histories is unbounded.", "anchors": ["Source/VaultRecord.cpp", "Source/VaultRecordRef.cpp"]}
{"id": "C25", "title": "IsValid tells vault membership", "statement": "A reference is valid exactly when its record is currently stored in its vault.", "quantifier": "all histories", "why_tests_cant": "The claim must hold after every finite history of API calls; tests exercise a handful of histories and the number of histories is unbounded.", "anchors": ["Source/VaultRecordRef.cpp:IsValid", "Source/VaultRecord.cpp"]}
{"id": "C26", "title": "UpdateKey changes only future records", "statement": "UpdateKey changes the default used by later CreateRecord calls and changes no existing record, index or set; it refuses unique keys, unknown keys and wrong types with the documented code.", "quantifier": "all states", "why_tests_cant": "The claim must hold after every finite history of API calls; tests exercise a handful of histories and the number of histories is unbounded.", "anchors": ["Source/Vault.hpp:UpdateKey", "Source/Vault.hpp:GetKeyValue"]}
{"id": "C27", "title": "RemoveKey removes a key everywhere", "statement": "After RemoveKey(k) no record, request, key list or dependent set of the vault knows k, and all other keys keep their data and lookups.", "quantifier": "all states", "why_tests_cant": "The claim must hold after every finite history of API calls; tests exercise a handful of histories and the number of histories is unbounded.", "anchors": ["Source/Vault.cpp:RemoveKey"]}
{"id": "C28", "title": "AddKey gives the default to every record", "statement": "After AddKey(k, d) on a vault every existing record has d for k, lookups by k = d return all records, other keys are unaffected; adding an existing key fails and changes nothing.", "quantifier": "all states", "why_tests_cant": "The claim must hold after every finite history of API calls; tests exercise a handful of histories and the number of histories is unbounded.", "anchors": ["Source/Vault.hpp:AddKey"]}
{"id": "C29", "title": "AddUniqueKey with a function", "statement": "AddUniqueKey(k, f) succeeds exactly when f gives pairwise different values on the records and then stores them; on failure no record and no existing key is changed.", "quantifier": "all states, all functions f, all record iteration orders", "why_tests_cant": "The claim must hold after every finite history of API calls; tests exercise a handful of histories and the number of histories is unbounded.", "anchors": ["Source/Vault.hpp:AddKey"]}
{"id": "C30", "title": "DropData and DropVault", "statement": "DropData leaves the keys, empties the vault and all its sets and invalidates all references; DropVault additionally removes the keys and detaches all sets.", "quantifier": "all states", "why_tests_cant": "The claim must hold after every finite history of API calls; tests exercise a handful of histories and the number of histories is unbounded.", "anchors": ["Source/Vault.cpp:DropData", "Source/Vault.cpp:DropVault"]}
{"id": "C31", "title": "A set only holds records of its parent", "statement": "In every reachable state a VaultRecordSet holds only valid records of its parent vault, no record twice.", "quantifier": "all histories", "why_tests_cant": "The claim must hold after every finite history of API calls; tests exercise a handful of histories and the number of histories is unbounded.", "anchors": ["Source/VaultRecordSet.cpp", "Source/Vault.cpp:RemoveRecord"]}
{"id": "C32", "title": "Set algebra", "statement": "Join, Exclude, Intersect, Union and Intersection produce the mathematical union, difference and intersection of the record collections.", "quantifier": "all pairs of sets of the same vault", "why_tests_cant": "The claim ranges over an unbounded set of inputs; a test run samples finitely many of them.", "anchors": ["Source/VaultRecordSet.cpp"]}
{"id": "C33", "title": "Set algebra error codes", "statement": "Set operations on sets without parent, with different parents or with themselves return the documented code and change nothing.", "quantifier": "all pairs of sets", "why_tests_cant": "The claim ranges over an unbounded set of inputs; a test run samples finitely many of them.", "anchors": ["Source/VaultRecordSet.cpp"]}
{"id": "C34", "title": "Sets never modify the vault", "statement": "Adding, removing, clearing, resetting or combining records in a set changes neither the vault's records, their values, nor the vault's lookups.", "quantifier": "all histories of set operations", "why_tests_cant": "The claim must hold after every finite history of API calls; tests exercise a handful of histories and the number of histories is unbounded.", "anchors": ["Source/VaultRecordSet.cpp"]}
{"id": "C35", "title": "Erased records disappear from all sets", "statement": "Once a record is erased from the vault no VaultRecordSet still contains it.", "quantifier": "all histories", "why_tests_cant": "The claim must hold after every finite history of API calls; tests exercise a handful of histories and the number of histories is unbounded.", "anchors": ["Source/VaultRecord.cpp:RemoveFromDependentSets", "Source/VaultRecordSet.cpp"]}
{"id": "C36", "title": "Copied vault has equal content and is independent", "statement": "A copy of a vault has the same keys, order and record values; later operations on either do not affect the other.", "quantifier": "all states and all later histories", "why_tests_cant": "The claim must hold after every finite history of API calls; tests exercise a handful of histories and the number of histories is unbounded.", "anchors": ["Source/Vault.cpp:Vault(const Vault&)"]}
{"id": "C37", "title": "Copied vault still enforces uniqueness", "statement": "In a copy of a vault a unique key is still unique.", "quantifier": "all states and all later histories", "why_tests_cant": "The claim must hold after every finite history of API calls; tests exercise a handful of histories and the number of histories is unbounded.", "anchors": ["Source/Vault.cpp:Vault(const Vault&)", "Source/Vault.hpp:VaultKeyCopiers"]}
{"id": "C38", "title": "SortBy visits in order", "statement": "SortBy(key) visits records in non-decreasing (reverse: non-increasing) order of the key, each at most once, stops after the given amount or when the callback returns false; GetSortedRecords returns that list.", "quantifier": "all states, amounts and callbacks", "why_tests_cant": "The claim must hold after every finite history of API calls; tests exercise a handful of histories and the number of histories is unbounded.", "anchors": ["Source/Vault.cpp:SortBy", "Source/Vault.cpp:GetSortedRecords", "Source/Vault.hpp:VaultRecordSorters"]}
{"id": "C39", "title": "Failing operations report why and change nothing", "statement": "Every vault and set operation that reports a failure code other than the documented partial ones leaves records, values, keys and memberships unchanged.", "quantifier": "all states, operations and arguments", "why_tests_cant": "The claim must hold after every finite history of API calls; tests exercise a handful of histories and the number of histories is unbounded.", "anchors": ["Source/Vault.hpp", "Source/Vault.cpp", "Source/VaultRecordSet.cpp"]}
{"id": "C40", "title": "Save and read back a vault", "statement": "Saving a vault of integer, bool and string keys to a file and reading it into an empty vault with the same keys yields the same rows.", "quantifier": "all vault contents", "why_tests_cant": "The claim ranges over an unbounded set of inputs; a test run samples finitely many of them.", "anchors": ["Source/Vault.cpp:SaveToFile", "Source/Vault.cpp:ReadFile"]}
{"id": "C41", "title": "Reader/writer exclusion of ReadWriteMutex", "statement": "While a thread holds the write lock of a ReadWriteMutex no other thread holds a read or write lock on it.", "quantifier": "all numbers of threads, all interleavings, all histories", "why_tests_cant": "The claim ranges over all thread interleavings; tests run a few schedules that the OS happens to pick.", "anchors": ["Source/ReadWriteMutex.cpp:ReadWriteMutex"]}
{"id": "C42", "title": "Reader/writer exclusion of RecursiveReadWriteMutex", "statement": "With one RecursiveReadWriteMutex, whatever the nesting of read and write locks in each thread, an outermost writer excludes all other holders.", "quantifier": "all numbers of threads, nestings, interleavings", "why_tests_cant": "The claim ranges over all thread interleavings; tests run a few schedules that the OS happens to pick.", "anchors": ["Source/ReadWriteMutex.cpp:RecursiveReadWriteMutex"]}
{"id": "C43", "title": "Locks of different vaults are independent", "statement": "Holding the lock of one vault does not weaken the exclusion of another vault's lock.", "quantifier": "all numbers of mutexes and threads", "why_tests_cant": "The claim ranges over all thread interleavings; tests run a few schedules that the OS happens to pick.", "anchors": ["Source/ReadWriteMutex.cpp:RecursiveReadWriteMutexCounters"]}
{"id": "C44", "title": "JSON string values", "statement": "ToJson of a record with values free of quotes, backslashes and control characters is a well-formed JSON object with the keys in key order and the values of the record.", "quantifier": "all records", "why_tests_cant": "The claim ranges over an unbounded set of inputs; a test run samples finitely many of them.", "anchors": ["Source/Strings/ToJson.cpp", "Source/Vault.cpp:ToJson", "Source/VaultRecordRef.cpp:ToJson"]}
{"id": "C45", "title": "SetData with several parameters stops at the first error", "statement": "SetData(params) applies the parameters in order up to the first failing one, returns that failure's code and leaves the later cells untouched.", "quantifier": "all states and parameter lists", "why_tests_cant": "The claim must hold after every finite history of API calls; tests exercise a handful of histories and the number of histories is unbounded.", "anchors": ["Source/VaultRecordRef.cpp:SetData"]}
{"id": "C46", "title": "GetRecord finds a record exactly when one exists", "statement": "GetRecord(k, v) succeeds exactly when the vault has a record with value v for k; on failure the reference becomes invalid with code WrongValue.", "quantifier": "all histories", "why_tests_cant": "The claim must hold after every finite history of API calls; tests exercise a handful of histories and the number of histories is unbounded.", "anchors": ["Source/Vault.hpp:GetRecord"]}
{"id": "C47", "title": "Result objects are consistent", "statement": "Every returned VaultOperationResult has IsOperationSuccess true exactly when the code is Success.", "quantifier": "all operations, states and arguments", "why_tests_cant": "The claim ranges over an unbounded set of inputs; a test run samples finitely many of them.", "anchors": ["Source/VaultOperationResult.h", "Source/Vault.hpp"]}
{"id": "C48", "title": "Reference identity", "statement": "Two references compare equal exactly when both are invalid or both refer to the same record; the unique ids of different live records differ.", "quantifier": "all pairs of references in all reachable states", "why_tests_cant": "The claim must hold after every finite history of API calls; tests exercise a handful of histories and the number of histories is unbounded.", "anchors": ["Source/VaultRecordRef.cpp"]}
{"id": "C49", "title": "Unique key values can be changed to fresh values", "statement": "SetData on a unique key succeeds for a value no other record holds.", "quantifier": "all states", "why_tests_cant": "The claim must hold after every finite history of API calls; tests exercise a handful of histories and the number of histories is unbounded.", "anchors": ["Source/Vault.hpp:SetDataToRecord"]}
{"id": "C50", "title": "No undefined behaviour in ordinary use", "statement": "No history of vault, set and reference operations makes the library touch freed memory.", "quantifier": "all histories", "why_tests_cant": "The claim must hold after every finite history of API calls; tests exercise a handful of histories and the number of histories is unbounded.", "anchors": ["Source/Vault.cpp", "Source/VaultRecordSet.cpp", "Source/VaultRecord.cpp"]}
{"id": "C51", "title": "Decimal fraction parsing", "statement": "FromString<double> accepts exactly the texts [-]digits[.digits] (there must be something after the sign; either group of digits may be empty, so also '5.', '.5' and '.') whose two groups of digits fit an int, and computes integer part plus fraction digits over the matching power of ten; it is undefined once a group of digits overflows int, whatever follows; it rejects every other text.", "quantifier": "every text", "why_tests_cant": "unbounded set of texts; overflow shows only on long ones", "anchors": ["Source/Strings/FromString.h: FromStringDoubleAndFloat"]}
{"id": "C52", "title": "DataSaver copies are independent and Swap exchanges", "statement": "A copied DataSaver answers GetData like the original and later changes of either do not affect the other; Swap exchanges the answers of two DataSavers.", "quantifier": "every pair of savers, every stored type and value", "why_tests_cant": "must hold for every type, value and history of operations", "anchors": ["Source/DataSaver.h: DataSaver", "Source/DataSaver.cpp: Swap"]}
{"id": "C53", "title": "No deadlock and no lost wake-up in ReadWriteMutex", "statement": "From every reachable state the lock and unlock calls in progress can be continued until somebody holds the lock or all calls have returned; a writer sleeping in the condition variable always has a reader left that will notify it.", "quantifier": "every number of threads, every schedule", "why_tests_cant": "interleavings of any number of threads cannot be enumerated", "anchors": ["Source/ReadWriteMutex.cpp: ReadWriteMutex::ReadUnlock, WriteLock"]}
{"id": "C54", "title": "Vaults are independent", "statement": "An operation on one vault, or through one of its sets or references, never changes another vault: its records, their values, its keys, types and defaults and its lookup structures stay as they were.", "quantifier": "all histories, all operations, all other vaults", "why_tests_cant": "The claim must hold after every finite history of API calls; tests exercise a handful of histories and the number of histories is unbounded.", "anchors": ["Source/Vault.hpp:SetDataToRecord", "Source/VaultRecordSet.hpp:GetRecord", "Source/VaultRecordRef.hpp:SetData"]}
{"id": "C55", "title": "Reading a file only adds records", "statement": "Whatever the file contains and whatever keys, separator and record handler are given, ReadFile (when its behaviour is defined) only adds new records to the vault: every existing record keeps its values, the keys, types, defaults and unique keys stay, no other vault, set or reference changes, and the new state could have been reached by CreateRecord calls, so everything that holds after all histories holds after ReadFile.", "quantifier": "all histories, all files, all arguments", "why_tests_cant": "File contents and prior histories are unbounded; tests read a few files into a few vaults.", "anchors": ["Source/Vault.cpp:ReadFile"]}
{"id": "C56", "title": "Every row of a file is loaded or reported", "statement": "After ReadFile every row of the file that assigns at least one field has either become exactly one new record or is reported exactly once by GetErrorsInLastReadedFile, with the name of the unknown key, of the key whose text could not be converted, or of the unique key whose value already exists.", "quantifier": "all histories, all files, all arguments", "why_tests_cant": "File contents are unbounded; a test checks the report for a few files.", "anchors": ["Source/Vault.cpp:ReadFile", "Source/Vault.cpp:GetErrorsInLastReadedFile"]}
{"id": "C57", "title": "Reported line numbers", "statement": "The line number of an entry of GetErrorsInLastReadedFile is the number of the offending row in the file (the key line counts as a row).", "quantifier": "all histories, all files, all arguments", "why_tests_cant": "File contents are unbounded; tests look at a few reports.", "anchors": ["Source/Vault.cpp:ReadFile", "Source/Vault.cpp:GetErrorsInLastReadedFile"]}
{"id": "C58", "title": "ReadFile copes with every file", "statement": "ReadFile has defined behaviour for every file content.", "quantifier": "all histories, all files, all arguments", "why_tests_cant": "File contents are unbounded; no test set covers all of them.", "anchors": ["Source/Vault.cpp:ReadFile", "Source/Strings/FromString.h"]}
{"id": "C59", "title": "ToJson of a vault or set is valid JSON with every record", "statement": "ToJson of a vault or a set returns a well-formed JSON text (RFC 8259): an array, or an object if so asked, with exactly one element for every record of the vault or set, each the object of its keys in key order with the record's values.", "quantifier": "all histories, all records, all arguments of ToJson", "why_tests_cant": "The contents, key names and histories are unbounded; a test parses a few outputs.", "anchors": ["Source/Vault.cpp:ToJson", "Source/VaultRecordSet.cpp:ToJson", "Source/Strings/ToJson.cpp"]}
{"id": "C60", "title": "ToStrings lists every record and every value", "statement": "Whenever ToStrings of a vault or set returns, it has exactly one entry for every record, and each entry pairs every key, in key order, with the text of the record's current value; ToStrings of a set without vault is empty; ToStrings of a reference does so for its record and is empty when the reference has no live record. For a vault in ordinary use it always returns.", "quantifier": "all histories, all vaults, sets and references", "why_tests_cant": "Histories and contents are unbounded.", "anchors": ["Source/Vault.cpp:ToStrings", "Source/VaultRecordSet.cpp:ToStrings", "Source/VaultRecordRef.cpp:ToStrings"]}
{"id": "C61", "title": "Printed tables are aligned and complete", "statement": "PrintAsTable and Print draw a table whose lines all have the same length, with one line per printed record showing the text of each asked key in its column, every column as wide as its widest name or text, the rows in the order of the container (in sorted order for Print) up to the requested amount, and a torn bottom rule exactly when records were left out.", "quantifier": "all histories, containers, keys and amounts", "why_tests_cant": "The contents are unbounded; printed output is looked at by eye on a few samples.", "anchors": ["Source/Strings/PrintAsTable.h: PrintAsTable", "Source/Vault.cpp:Print", "Source/VaultRecordSet.cpp:Print"]}
{"id": "C62", "title": "Lookups on a set only give records of the set", "statement": "Every record that GetRecord, GetRecords, GetSortedRecords or a Request on a VaultRecordSet returns is a valid record held by that set which satisfies the requested condition now; the set asked is unchanged.", "quantifier": "all histories, all sets, keys, values, conditions, limits and predicates, all iteration orders of hash containers", "why_tests_cant": "A set keeps its own indices, which must follow every later change of the records through the vault; only an invariant over all histories shows that they do.", "anchors": ["Source/VaultRecordSet.hpp: GetRecord, GetRecords, RequestRecords, Request", "Source/VaultRecordSet.cpp: GetSortedRecords, RemoveRecord, AddRecord", "Source/Vault.hpp: SetDataToRecord, RequestRecordsSet"]}
{"id": "C63", "title": "An attached set has the keys of its vault", "statement": "A VaultRecordSet attached to a vault accepts in its lookups exactly the keys of the vault, with the vault's types, also after keys were added to or removed from the vault; a detached set has no keys.", "quantifier": "all histories, all sets and vaults", "why_tests_cant": "Keys are copied into every set when it is attached and must be kept in step by every AddKey, AddUniqueKey, RemoveKey, copy and reset, in every order.", "anchors": ["Source/Vault.hpp: AddKey, AddUniqueKey, RequestRecords", "Source/Vault.cpp: RemoveKey, DropVault", "Source/VaultRecordSet.cpp: CopySet, Reset"]}
{"id": "C64", "title": "Invalid stays invalid", "statement": "A record erased from its vault never becomes valid again, and a VaultRecordRef that is not valid stays not valid for as long as it keeps naming the same record, whatever is done to vaults, sets and other references.", "quantifier": "all histories, all records and references", "why_tests_cant": "Validity is a flag on a shared heap record that many operations reach through different paths; the claim is about every later state of every history.", "anchors": ["Source/VaultRecord.cpp: Invalidate, GetIsValid", "Source/VaultRecordRef.cpp: IsValid", "Source/Vault.cpp: RemoveRecord, DropVault, DropData"]}
{"id": "C65", "title": "Record lifetime with several threads", "statement": "When several threads create, look up, reference, read, erase and release a record concurrently, the record's memory is never touched after it was freed and never freed twice, the reference count equals the number of references, and whenever no call on the record is in progress its memory has been freed exactly if it has left the vault and nobody refers to it, and it is valid exactly if it is in the vault. (Provided the vault's condition variable has no spurious wake-ups, see C41.)", "quantifier": "every number of threads, every program of the threads, every schedule", "why_tests_cant": "Interleavings of the reference counting with erasing and with the vault's lock cannot be enumerated; a wrong order shows only in rare schedules.", "anchors": ["Source/VaultRecord.cpp: AddRef, RemoveRef, Invalidate, GetIsValid", "Source/VaultRecordRef.cpp: SetRecord, operator=, Reset", "Source/Vault.cpp: RemoveRecord, DropData, DropVault"]}
{"id": "C66", "title": "Calls on a record never block for ever", "statement": "Whatever other threads do with the same vault and record, every call on a record reference can be completed: there is no deadlock between the lock of the vault and the lock of the record.", "quantifier": "every number of threads, every program of the threads, every schedule", "why_tests_cant": "A deadlock needs a particular interleaving of two threads taking two locks.", "anchors": ["Source/VaultRecordRef.cpp: PrintRecord, ToJson, ToStrings", "Source/VaultRecord.cpp: Invalidate, AddRef, RemoveRef", "Source/Vault.cpp: RemoveRecord"]}
{"id": "C67", "title": "Concurrent calls behave like some sequential order", "statement": "When several threads call methods of one vault at the same time, those that write (AddKey, AddUniqueKey, UpdateKey, RemoveKey, CreateRecord, SetData, EraseRecord, EraseRecords, DropData, DropVault) and those that only read, every completed call has returned what it would have returned if the calls had run one after the other in the order of their completion, without interruption; calls that do not overlap keep their order; and whenever no writing call is in progress the vault is in the state that this sequential run leads to. (Provided the vault's condition variable has no spurious wake-ups, see C41, and each thread uses its own references.)", "quantifier": "every number of threads, every program of the threads, every schedule, every split of the calls into statements", "why_tests_cant": "Interleavings of multi-statement methods cannot be enumerated; a lost update shows only in rare schedules.", "anchors": ["Source/ReadWriteMutex.cpp", "Source/Vault.hpp: AddKey, UpdateKey, EraseRecord, SetDataToRecord", "Source/Vault.cpp: CreateRecord, RemoveKey, DropVault, DropData"]}
{"id": "C68", "title": "Concurrent calls do not race", "statement": "When several threads call methods of one vault, of references to its records and of its record sets at the same time, there is never a moment at which two of them may access the same memory and one of them writes it (no data race, which would be undefined behaviour).", "quantifier": "every number of threads, every program of the threads, every schedule", "why_tests_cant": "A data race shows only in particular schedules and often has no visible effect in a test run.", "anchors": ["Source/Vault.hpp", "Source/Vault.cpp", "Source/VaultRecordSet.cpp: Clear, operator==, GetErrors", "Source/ReadWriteMutex.cpp", "Source/VaultRecordRef.hpp: SetData"]}
{"id": "C69", "title": "DataSaver frees exactly what it allocated", "statement": "Whatever sequence of constructions, copies, assignments, SetData, SetDataFromString, Swap, ResetData and destructions is performed on DataSaver variables: no value is deleted twice or read after being deleted, every value that is still allocated belongs to exactly one variable, nothing is left when all variables are destroyed, each variable holds the value last given to it, and a copy is independent from the original. The only undefined calls are those on variables that do not exist (any more) and conversions of an empty variable to or from text.", "quantifier": "every sequence of operations on any number of variables, every type and value", "why_tests_cant": "Memory errors depend on the history of copies and assignments.", "anchors": ["Source/DataSaver.h", "Source/DataSaver.cpp"]}
{"id": "C70", "title": "Custom delete functions are called once per stored value", "statement": "A custom delete function given together with a value is called exactly once for that value, when the DataSaver is destroyed or reset, and never with a null pointer.", "quantifier": "every sequence of operations on any number of variables", "why_tests_cant": "Which function runs on which pointer depends on the history of copies and assignments.", "anchors": ["Source/DataSaver.h: CustomDeleteFunc, ResetData, ~DataSaver", "Source/DataSaver.h: SetData", "Source/DataSaver.cpp"]}
{"id": "C71", "title": "Request objects are memory safe and mean what was written", "statement": "A request built from comparisons with && and || may be built, copied, stored, evaluated and destroyed in any order: evaluating it never touches freed memory, carries out the expression that was written down, and afterwards all its memory is freed.", "quantifier": "every request expression of any shape and size, every order of creation, copying, evaluation and destruction", "why_tests_cant": "Use after free of temporaries depends on the compiler and usually appears to work.", "anchors": ["Source/VaultRequest.h", "Source/VaultRequest.hpp: VaultRequest, operator&&, operator||, Request, ~VaultRequest"]}
{"id": "C72", "title": "The map wrappers behave as one map or one multimap, as chosen at construction", "statement": "Every ordered or hashed map of the library, built with or without unique keys, behaves like one STL container of that kind: Emplace adds the entry exactly when the key may be repeated or is not there yet; loops from begin to end, in reverse, over EqualRange and up to or from the bounds visit exactly the entries with the keys concerned, each once and in the container's order; Find finds an entry with the key iff there is one; Erase by key or by iterator removes exactly the entries meant and the returned iterator continues behind them; Size counts the entries; an iterator stays usable and at its entry until that entry is erased, the map is cleared or, in a hash map, an entry is added; -- undoes ++.", "quantifier": "every sequence of operations on a map, all keys and values, every order in which a hash container may arrange its entries", "why_tests_cant": "Which of the two inner containers is used is decided at run time in every operation, and hash order is unspecified: tests see a few orders and sizes only.", "anchors": ["Source/Map.h: AllMapIterator, ParentMap, Map, UnorderedMap"]}
{"id": "C73", "title": "Moving a vault hands over its keys and records", "statement": "Move construction gives the new vault the keys in order, unique keys, types, defaults, records and indexes of the source, leaves the source an empty vault without keys, changes no record's values or validity, leaves every other vault and set as it was and every reference at its record. Move assignment first drops the target exactly as DropVault does and then does the same; after ordinary use the source's records keep their values and stay valid, the target's old records become invalid, and other vaults are unaffected. Moving a vault onto itself does nothing. After moving a vault that no set and no reference uses, everything promised for ordinary use keeps holding.", "quantifier": "every history before the move, every source and target vault, every hash iteration order", "why_tests_cant": "What is handed over depends on all keys, records, sets and references of both vaults at that moment; tests see a few vaults only.", "anchors": ["Source/Vault.cpp: Vault::Vault(Vault&&), Vault::operator=(Vault&&), Vault::DropVault"]}
{"id": "C74", "title": "The recursive reader/writer mutex never gets stuck", "statement": "From every reachable state of a vault's mutex the threads can go on, asking for no further locks, until every lock and unlock call has returned and every lock is released; in particular a thread waiting in ReadLock or WriteLock, also in the middle of an upgrade from reading to writing, can always still be granted the lock. Two readers that both upgrade do not block each other.", "quantifier": "every finite number of threads, every nesting depth of read and write locks in each, every schedule, with or without spurious wake-ups", "why_tests_cant": "A deadlock appears only under particular interleavings of particular nestings; tests run a few of infinitely many.", "anchors": ["Source/ReadWriteMutex.cpp: RecursiveReadWriteMutex::ReadLock, ReadUnlock, WriteLock, WriteUnlock, ReadWriteMutex::ReadLock, ReadUnlock, WriteLock, WriteUnlock"]}
{"id": "C75", "title": "The loops over a key's index are well behaved and exact", "statement": "After any sequence of adding, erasing, changing and clearing entries, whatever the values and the order inside the hash map: adding a value to the index of a key is refused exactly when the key is unique and the value is present, else it enters both maps; erasing a record's value and setting a new one end, use only valid iterators and change exactly the entries stated (from the hash map the entry of the record, from the ordered map every entry with that value); a request of any kind visits exactly the entries meeting its condition, in the order of the map, at most as many as asked for; GetRecord, GetRecords and SortBy read exactly the matching entries; EraseRecords, which erases from the map it iterates, ends, uses only valid iterators and erases exactly the matching records, at most as many as asked for (one if asked for zero), from the maps of all keys.", "quantifier": "every sequence of index operations, every type of ordered values, unique and non-unique keys, every hash iteration order, every request kind, bounds and amounts", "why_tests_cant": "Iterator validity under erasure and the effect of each loop depend on every possible content and hash order; using an invalid iterator often goes unnoticed in a test run.", "anchors": ["Source/Vault.hpp: Vault::SetDataToRecord, RequestRecordsSet, AddKey (VaultRecordAdder, VaultRecordEraser), GetRecord, GetRecords, EraseRecords", "Source/Vault.cpp: Vault::SortBy", "Source/Map.h: ParentMap, AllMapIterator"]}
{"id": "C76", "title": "Iterator-level indexes refine the list-level ones", "statement": "The maps of a key, driven through their iterators, always hold what the list-level description of the index says: a new key, adding, erasing, setting and clearing lead from related states to related states with the same answers, over any sequence; requests, GetRecord, GetRecords and EraseRecords give the records the list-level description gives for some order of the hash map; and every index a vault can have after ordinary use is held by maps a program can build.", "quantifier": "every sequence of index operations, every ordinary history of the whole library, every hash iteration order", "why_tests_cant": "A refinement relates all states and all operations of two descriptions.", "anchors": ["Source/Vault.hpp: Vault::SetDataToRecord, RequestRecordsSet, EraseRecords", "Source/Map.h: ParentMap"]}
{"id": "C77", "title": "Results name the key and the types involved", "statement": "Whenever an operation that takes keys or values answers WrongType, the result carries the key, the type the caller used (RequestedType) and the different type the key has in the vault or set asked (SavedType). Whenever it answers WrongKey, the key does not exist there, RequestedType is the caller's type and SavedType is void. A lookup, removal, update or assignment that succeeds carries the caller's type in both fields and it is the type of the key. AddKey on an existing key carries the type of the existing key. CreateRecord carries the type of a clashing unique key, or of the last parameter on success, and no saved type.", "quantifier": "every history of the library (no usage restriction), every operation that returns a result, every key, value and request tree", "why_tests_cant": "The fields depend on the keys and types present after any history and on which of several parameters or request leaves fails first.", "anchors": ["Source/VaultOperationResult.h: RequestedType, SavedType", "Source/Vault.hpp: SetDataToRecord, RequestRecords, AddKey, UpdateKey, GetRecord, GetRecords, EraseRecord, EraseRecords", "Source/Vault.cpp: CreateRecord, GetKeyType", "Source/VaultRecordSet.hpp: GetRecord, GetRecords, RemoveRecord, RemoveRecords, RequestRecords", "Source/VaultRecordRef.hpp: SetData"]}
{"id": "C78", "title": "Exactly which records lookups find", "statement": "Each key of a vault lists records in a hash index and in an ordered index. Equality requests, GetRecord, GetRecords and EraseRecords answer exactly from the records with the value that the hash index lists; the other requests and GetSortedRecords answer exactly from those the ordered index lists; request trees combine these leaf by leaf. A record is listed when it or the key is new (copies included), and listings move with a moved vault. Any other call lists exactly the record a successful SetData has just written, and strikes exactly the records whose value equals that of a listed record which the call wrote (both indexes) or erased (ordered index only); nothing else changes what is listed.", "quantifier": "every ordinary history (rules in DESIGN.md), every vault, key, record and operation, every hash order", "why_tests_cant": "It characterises the answers of all lookups after all histories; tests see a few lookups after a few histories.", "anchors": ["Source/Vault.hpp: Vault::SetDataToRecord, RequestRecordsSet, GetRecord, GetRecords, EraseRecord, EraseRecords, AddKey", "Source/Vault.cpp: Vault::RemoveRecord, CreateRecord, GetSortedRecords, Vault copy and move"]}
{"id": "C79", "title": "A vault is a table: every call is a step of a small specification", "statement": "The specification TableSpec.lean describes vaults as tables: ordered keys with type, uniqueness, default and original default, rows with values, and which rows searches by value and range requests find. Every ordinary call on a vault (AddKey, AddUniqueKey, UpdateKey, RemoveKey, CreateRecord, SetData with one or several values, GetRecord, GetRecords, EraseRecord, EraseRecords, DropData, DropVault, construction, destruction, copy, move and their assignments) gives exactly the answer, and leaves exactly the table, that the specification says; every other call (sets, references, requests, sorting) leaves all tables as they are. The events and answers of a whole ordinary history are therefore a run of the specification, and the rows that lookups, requests and sorting return are those of the table.", "quantifier": "every ordinary history (rules in DESIGN.md), every call in it, every argument, every hash order", "why_tests_cant": "It fixes answer and full effect of every call in every reachable state; tests compare a few states.", "anchors": ["Source/Vault.hpp: SetDataToRecord, AddKey, AddUniqueKey, UpdateKey, GetRecord, GetRecords, EraseRecord, EraseRecords, RequestRecords", "Source/Vault.cpp: Vault copy and move, RemoveKey, CreateRecord, DropVault, DropData, EraseRecord, GetSortedRecords, RemoveRecord", "Source/VaultRecordRef.hpp: SetData"]}
{"id": "C80", "title": "Vault data is always well-formed", "statement": "At every point of an ordinary history every vault is well-formed: no key is listed twice; the listed keys are exactly those with a type; every key has a default of its type; every record has for every key exactly one value of the key's type and none for other keys; no two records hold the same value of a unique key; searches and range requests find only records of the vault and, under unique keys, all of them; and no record belongs to two vaults.", "quantifier": "every ordinary history (rules in DESIGN.md), every vault, key, record", "why_tests_cant": "An invariant of all reachable states; tests visit a few.", "anchors": ["Source/Vault.hpp: AddKey, AddUniqueKey, UpdateKey, SetDataToRecord, EraseRecord, EraseRecords", "Source/Vault.cpp: RemoveKey, CreateRecord, RemoveRecord, DropData, DropVault, Vault copy and move"]}
{"id": "C81", "title": "Undo, overwrite and order laws", "statement": "RemoveKey undoes a successful AddKey or AddUniqueKey completely. Erasing a record just created restores everything, except that range requests and sorting lose the records whose value equals the created record's. Of two writes to a cell the last counts, and the first leaves no trace if no other record holds its value; writing the old value back restores all values. Writes to different keys commute completely, writes to different records commute in their values. Two records may be erased in either order; erasing twice answers false and changes nothing.", "quantifier": "every ordinary history before the calls, all arguments, every hash order in each call", "why_tests_cant": "Equations between whole states after arbitrary histories.", "anchors": ["Source/Vault.hpp: AddKey, SetDataToRecord, EraseRecord, EraseRecords, GetRecord, GetRecords", "Source/Vault.cpp: RemoveKey, CreateRecord, RemoveRecord, EraseRecord"]}
{"id": "C82", "title": "Answers do not depend on the order of hash tables", "statement": "Made in the same state with two different orders of the hash tables, a call on a vault gives the same answer, and leaves the same vaults unless it has to choose: which of several records with the value to erase, or in which order a counting function visits the records of a new unique key.", "quantifier": "every ordinary history, every call on a vault, every pair of hash orders", "why_tests_cant": "One run has one hash order.", "anchors": ["Source/Vault.hpp: AddKey, SetDataToRecord, EraseRecord, EraseRecords, GetRecord, GetRecords", "Source/Vault.cpp: RemoveKey, CreateRecord, RemoveRecord, EraseRecord"]}
{"id": "C83", "title": "Sets are windows on their vaults", "statement": "In careful use every call of the library is defined and does to the vaults and the record sets exactly what a small specification of tables and windows says: with the same answer. A set belongs to no vault, or to one; then it shows some rows of the vault's table, with the vault's keys, types and values. Calls on the vault (new, removed and changed keys, written and erased records, dropping, destroying, assigning the vault) do to the window what they do to the table; requests fill a set with exactly the rows their condition finds in the vault or set asked; AddRecord, Clear, Reset, copies and searches do what their names say, with one exact error code per case.", "quantifier": "every careful history, every further careful call, every hash order; keys, values, conditions, request trees and numbers of vaults, sets and records arbitrary", "why_tests_cant": "The claim is about all interleavings of calls on vaults and on any number of sets of them.", "anchors": ["Source/VaultRecordSet.cpp: CopySet, AddRecord, CheckRecord, Reset, Clear, ~VaultRecordSet", "Source/VaultRecordSet.hpp: RequestRecords, Request, GetRecord, GetRecords", "Source/Vault.hpp: RequestRecordsSet, RequestRecords, Request, SetDataToRecord, AddKey, EraseRecord, EraseRecords", "Source/Vault.cpp: RemoveRecord, RemoveKey, DropVault, DropData, operator="]}
{"id": "C84", "title": "Sets are independent; requests on results narrow; hash order does not matter", "statement": "In careful use: a call on sets changes no vault and no set but the one it is for, and a call on a vault changes only sets of that vault. Asking the result of a request with a second condition gives exactly the records of the first result that satisfy it, even records the vault's own index misses. Without a limit the answer and the content of every set do not depend on the order of the hash tables; with a limit (and no filter) the answer and the number of records do not.", "quantifier": "every careful history, every careful call on sets, every pair of hash orders, all conditions and limits", "why_tests_cant": "One run has one hash order, and other sets are unbounded in number.", "anchors": ["Source/VaultRecordSet.cpp: AddRecord, Clear, Reset, CopySet", "Source/VaultRecordSet.hpp: RequestRecords, Request", "Source/Vault.hpp: RequestRecordsSet, RequestRecords"]}
{"id": "C85", "title": "Set algebra with clean writes is memory safe and keeps every set inside its vault", "statement": "Gentle use is everything careful use allows (C83) together with Join, Exclude, Intersect, Union, Intersection, RemoveRecord and RemoveRecords on live sets, where SetData and EraseRecord/EraseRecords are only applied to clean records: records that are in no set that was filled by Join, Union or Intersection since it was last empty, and that were never taken out of a set on their own by RemoveRecord(s), Exclude or Intersect. After every gentle history every gentle call has an outcome (no freed record, vault or set is touched); every set holds only valid records of its own vault, none twice, with the vault's keys, unique keys and types; a detached set is empty; what the indices of a set list are its own records with the value they have; and a record that is in no vault is in no set. (Without the restriction this is false: C35, C50.)", "quantifier": "every finite gentle history of any number of vaults, sets and records, every hash order, every next gentle call", "why_tests_cant": "The stale back references left by the algebra only matter many calls later; a test sees one interleaving of algebra, writes and erasures.", "anchors": ["Source/VaultRecordSet.cpp: RemoveRecord, Join, Exclude, Intersect, Union, Intersection, Reset, Clear", "Source/VaultRecordSet.hpp: RemoveRecord, RemoveRecords", "Source/VaultRecordRef.hpp: SetData", "Source/Vault.hpp: EraseRecord, EraseRecords"]}
{"id": "C86", "title": "Union, intersection and difference of sets are the mathematical ones", "statement": "In gentle use every call is one step of a specification in which a set variable is a vault and a set of its records: Join adds exactly the other set's records, Exclude removes them, Intersect keeps them, Union/Intersection overwrite the result set with the union/intersection of both arguments; with different vaults (or a detached set where one is needed) they answer the documented error and change nothing that the documentation does not name; == holds exactly for sets of the same vault with the same records; RemoveRecord(s) takes away exactly the named records. Whole histories are runs of that specification. The algebra changes no vault and no other set; the result does not depend on hash order; swapping the arguments of Union or Intersection gives the same set; a request on the result finds exactly the matching records of the result.", "quantifier": "every gentle history, every gentle call, every pair of hash orders, all requests", "why_tests_cant": "The claim is about every pair of sets with every history; tests compare a handful of literal sets.", "anchors": ["Source/VaultRecordSet.cpp: Join, Exclude, Intersect, operator==, operator!=, Union, Intersection", "Source/VaultRecordSet.hpp: RemoveRecord, RemoveRecords, Request"]}
{"id": "C87", "title": "Diagnostics of debug builds", "statement": "In a debug build every back trace that a library function prints names the outermost library function, the one the user called, as long as library functions are nested less than 1022 deep; printing is then defined, and when the user's call returns or throws the trace is empty again. The limits are exact: a trace printed outside of all library functions or at a nesting of 1022 or more reads past the end of its storage. Every result code of VaultOperationResult has its own, non-empty text.", "quantifier": "every program of nested calls, returns, exceptions and prints (call trees of any shape), every earlier state of the printed text", "why_tests_cant": "The nesting depth and shape of the calls is unbounded (requests are trees); a test exercises a few call chains.", "anchors": ["Source/BackTrace/BackTrace.h", "Source/BackTrace/BackTrace.cpp: FunctionTracer, GetBackTrace, PrintBackTrace", "Source/VaultOperationResult.cpp: ResultCodeString, SetOpResult"]}
{"id": "C88", "title": "Saving chosen keys and reading them into any vault with these keys", "statement": "A vault saved with chosen keys (or all), with or without a key line, is read without error into any vault that has these keys with the same types: found by the key line, by the keys given to ReadFile, or because the vault's keys begin with them. Afterwards that vault has its old records followed by exactly one new record for each saved record, with the saved values for the saved keys and the defaults for its other keys. Integers of 16 to 64 bits (but the smallest int32_t and int64_t), booleans, clean texts and whole floating point numbers come back exactly, other floating point numbers of at most 2147483647 with an error of at most 0.0000006 + |x|/10^14 (double) or 0.0000006 (1+|x|) (float). Keys of types without FromString (int8_t, uint8_t, user types) make every row fail: no record arrives, and there is one error for each record that names the key and the line.", "quantifier": "every ordinary history of both vaults, every choice and order of keys, every hash order and block size, all values of all types", "why_tests_cant": "The number of records, keys, previous records and the text of the values are unbounded; the pairing of columns and keys has to be right in each.", "anchors": ["Source/Vault.cpp: SaveToFile, ReadFile, ReadFile implementation, GetErrorsInLastReadedFile", "Source/Strings/FromString.h", "Source/Strings/ToString.h", "Source/CsvParser"]}
{"id": "C89", "title": "Floating point numbers in texts", "statement": "FromString of float and double reads [-]digits.digits (both groups within int, at most 37 decimals) with a relative error of at most n+3 roundings, n the number of decimals. ToString writes six decimals, off by at most half a millionth. A number below 2147483648 - 0.000001 written and read back is off by at most half a millionth plus nine roundings (double up to a million: 0.0000006); whole numbers come back exactly; a double up to 4*10^8 that was read back is written as the same text again. The limits: numbers of 2147483648 or more make reading their own text undefined behaviour, numbers below half a millionth come back as 0, 0.5 comes back as 0.5 + 2^-53, and 0.3 is not read as the nearest double.", "quantifier": "all finite values, all texts of the form, IEEE round-to-nearest-even arithmetic of any precision p > 0", "why_tests_cant": "There are 2^64 doubles; an error bound has to hold for each, through a chain of roundings.", "anchors": ["Source/Strings/FromString.h: FromStringDoubleAndFloat", "Source/Strings/ToString.h: ToString<float>, ToString<double>"]}
{"id": "C90", "title": "What is exported from a set is exactly the set", "statement": "A set that was filled by requests, changed by set algebra and followed the changes of its vault exports exactly its own records, whatever else the vault contains: SaveToFile writes a file that any vault with these keys reads without error, gaining one record for each record of the set with the saved values; ToStrings has one entry for each record with every key of the vault in key order; ToJson is a valid JSON array (or object) with one object for each record; Print is the table of the set's records in the order of the primary key, cut off at the given amount; SortBy visits different live records of the set in order until the end, the amount, or the function stops it. A set without vault exports nothing and says so: false and no file, no entries, {}, a message, no calls.", "quantifier": "every gentle history (requests, set algebra, record changes), every choice of keys, key order, hash order, block size, amount and callback, all types of values", "why_tests_cant": "The history that filled the set, the number of records in and outside of the set and the texts of the values are unbounded.", "anchors": ["Source/VaultRecordSet.cpp: SaveToFile, ToStrings, ToJson, Print", "Source/VaultRecordSet.hpp: SortBy", "Source/Vault.cpp: SaveToFile, ReadFile, ToJson, Print, ToStrings"]}
{"id": "C91", "title": "Multi containers keep every entry", "statement": "DataMultiHashMap and DataMultiMap are bags of entries: AddData always adds one entry and never changes another one, SetData changes one entry of the key (or adds one if there is none) and leaves the others, EraseData removes all entries of exactly that key, GetAllData shows exactly the entries of the key, Size counts all entries, and GetData answers from an entry of the key, leaving the argument untouched when there is none or the type differs. In DataMultiMap the iteration is sorted by keys and the entries of a key keep the order of insertion. All calls are defined, except setting the text of an entry that has no value.", "quantifier": "every history of calls on a container, every key, value type, text conversion and hash order", "why_tests_cant": "The number of entries and the interleaving of additions and erasures are unbounded, and the order inside a hash table is not fixed.", "anchors": ["Source/DataContainer.h: DataContainer, DataMultiHashMap, DataMultiMap", "Source/DataSaver.h"]}
{"id": "C92", "title": "A vault used by several threads at once is still a table", "statement": "When any number of threads call the writing functions of a vault (AddKey, AddUniqueKey, UpdateKey, RemoveKey, CreateRecord, SetData, EraseRecord, EraseRecords, DropData, DropVault), directly or through references it gave out, together with reading calls, then in every schedule the completed calls, in the order of completion and with the answers they returned, are one run of the table specification; whenever no writer is in progress the content of the vault is the table at the end of that run; no call is undefined; and a reading call in progress sees the table of a single moment during its whole body.", "quantifier": "every number of threads, schedule, sequence of calls, split of the calls into steps, hash order, and history before the threads started", "why_tests_cant": "The schedules and the number of threads and calls are unbounded; a test sees only the interleavings that happened.", "anchors": ["Source/Vault.hpp: AddKey, UpdateKey, EraseRecord, EraseRecords, SetDataToRecord", "Source/Vault.cpp: CreateRecord, RemoveKey, DropData, DropVault", "Source/VaultRecordRef.hpp: SetData", "Source/ReadWriteMutex.cpp"]}
{"id": "C93", "title": "A SortBy function may change the vault, within limits", "statement": "The function given to SortBy may call the vault. Going forward, whatever it does: the entries it is given come in ascending order, each is in the index at that moment, no index entry is given twice, and at the end every entry that was there from the start to the end has been given to it. The loop stays defined exactly as long as the entry just given is still in the index after the function returns; adding records and changing or erasing records with another value of the sorted key is always safe. It breaks (proved): erasing the given record, or setting its sorted key, or doing so to any record with the same value, makes SortBy use a deleted element; adding greater values each time makes it endless. Going backward with a function that leaves the sorted key alone the records come exactly in reverse order; but erasing the given record skips the one before it, or runs off the beginning, and adding a record just above the given one gives the same record again.", "quantifier": "every index content, every sequence of calls made by the function in every turn, every number of turns", "why_tests_cant": "The calls a function may make between two steps of the loop are arbitrary; a dangling iterator usually still works in a test.", "anchors": ["Source/Vault.hpp: AddKey (VaultRecordSorters), SetDataToRecord", "Source/Vault.cpp: SortBy", "Source/Map.h: AllMapIterator, Rbegin, Rend"]}
{"id": "C94", "title": "Who waits for a lock gets it", "statement": "In every infinite run of any number of threads that lock and unlock a ReadWriteMutex in matching pairs, with spurious wake-ups allowed, if the scheduler lets every thread go on that can go on, and every thread releases what it holds: a WriteLock or ReadLock call that has got the inner mutex returns; WriteUnlock returns; from the moment a writer has got the inner mutex until it unlocks no other lock call returns, so a stream of readers cannot hold a writer off. If std::mutex is fair, every ReadLock and every WriteLock call returns. It fails (proved): with an unfair std::mutex a waiting ReadLock or WriteLock may starve; and ReadUnlock may never return, even with a fair scheduler and a fair mutex, while another thread locks and unlocks for writing again and again; it does return if writers stop coming.", "quantifier": "every set of threads (also infinite), every infinite execution, every moment at which a call is under way", "why_tests_cant": "A liveness property of infinite schedules; a test sees a finite prefix of one schedule, and its timeouts cannot tell slow from stuck.", "anchors": ["Source/ReadWriteMutex.cpp: ReadWriteMutex::ReadLock, ReadUnlock, WriteLock, WriteUnlock"]}
{"id": "C95", "title": "Questions about keys and values agree, and PrintRecord prints the record", "statement": "A reference answers IsKeyExist as the vault it works through does, and GetKeys with the keys of that vault if its record exists, with none otherwise; a set answers IsKeyExist, GetKeys and GetUniqueKeys as its vault does. After every ordinary history GetDataAsString succeeds, and fails with the same code, exactly when GetData with the right type does, and gives the text of that value, also through sets in careful histories, where GetKeyType and the code of GetKeyValue agree with the vault's. PrintRecord of an existing record prints the head line and exactly one line per key with the text of its value, provided no AddUniqueKey without function was refused because of records; on a reference without record it says so. It fails (proved): after such a refused call PrintRecord of every record ends the program, and Print of a vault without keys is undefined; and GetKeyValue of a set keeps answering the old default after UpdateKey of its vault.", "quantifier": "every history of operations, every reference, set, key and type, every order of the hash tables", "why_tests_cant": "The agreement must hold for every reachable state and key; tests compare a few values, and the project's tests never print a record after a refused call.", "anchors": ["Source/VaultRecordRef.cpp: IsKeyExist, GetKeys, GetDataAsString, PrintRecord", "Source/VaultRecordSet.cpp: IsKeyExist, GetKeys, GetUniqueKeys, GetKeyType", "Source/VaultRecordSet.hpp: GetKeyValue", "Source/Vault.hpp: AddKey, UpdateKey", "Source/Vault.cpp: Print"]}
{"id": "C96", "title": "One set variable can be used with several vaults, one after the other", "statement": "After every ordinary history a request of one vault, or of a set of it, into a set that belongs to another vault gives the same as Reset of the set followed by the request; the same for assignment of another set. After every careful history, if no reference got through the set still refers to a record, Reset of the set always works, changes no vault and frees the set; a request of any vault into the set, or an assignment of a set of any vault, then always works, gives the set exactly the rows the request finds (the rows of the assigned set), changes no vault, and the history goes on as a careful history in which the set is used with that vault, so that everything proved of careful histories holds for it. If a reference got through the set is still at a record of the old vault this fails (proved): SetData through that reference reports success, and the set, which now belongs to the new vault, finds the record of the old one.", "quantifier": "every ordinary or careful history, every vault, set, key, condition, predicate and request tree, every order of the hash tables", "why_tests_cant": "The set's registration is spread over the vault, the records and the references; that nothing of the old vault survives must hold for every history, and tests use one vault per set.", "anchors": ["Source/Vault.hpp: RequestRecords, Request", "Source/VaultRecordSet.cpp: Reset, Clear, operator=, CopySet", "Source/VaultRecordRef.hpp: SetData"]}
{"id": "C97", "title": "Who waits for the lock of a vault gets it", "statement": "Threads work with vaults through their recursive read-write locks, each thread with one vault at a time. If the scheduler and std::mutex are fair, and a thread that only runs code of its own gives back its locks at some time, then every ReadLock of a vault returns with the read lock, every WriteLock of a thread that holds no read lock returns with the write lock, and every WriteUnlock returns, also one that has to take the read lock again. ReadUnlock of the last read lock, and the WriteLock of a thread that holds a read lock (which gives the read lock back first), return if from some time on no other WriteLock call gets the inner mutex; without that condition they can run for ever although nobody waits for them (proved: a thread that leaves is kept in ReadUnlock by another thread that goes on working with the vault).", "quantifier": "every number of threads and vaults, every fair infinite execution with or without spurious wake-ups, every thread, every depth of nested locks and every moment a call is in progress", "why_tests_cant": "Starvation is a property of infinite executions; a test sees finitely many steps of the few schedules its machine happens to choose.", "anchors": ["Source/ReadWriteMutex.cpp: RecursiveReadWriteMutex::ReadLock, ReadUnlock, WriteLock, WriteUnlock, ReadWriteMutex::ReadUnlock", "Source/ReadWriteMutex.h"]}
{"id": "C98", "title": "CSV files of other programs are read as the tables they stand for", "statement": "A text that stands for a table by the rules of RFC 4180 (fields as they are if they have no special character, or in quotation marks with quotation marks doubled; any separator that is not a quotation mark or line end; each line ended by CR LF, LF or CR, the last line end optional) is parsed as exactly that table, except that an empty field at the end of a line is dropped: whatever choice of quoting and line ends is made per field and line, and whether the file is small or read block by block. Every file SaveToFile writes (fields that survive C02, at least one column) is such a text. Hence ReadFile of a vault, with any key line, given keys and row handler, gives the same records, answers and errors for every text of the same table. Two limits are proved: after a line that ends with a single LF or CR an empty line is lost, and so is a last line without line end that holds only an empty field in quotation marks.", "quantifier": "every table, every text of it, every separator, every file size and block size, every vault state, handler and choice of keys", "why_tests_cant": "The number of ways to write one table is exponential in its size; tests read a few sample files.", "anchors": ["Source/CsvParser/CsvParser.cpp: GetNextVector, FormatStringToCsv", "Source/CsvParser/StreamFileReader.cpp: Move, IsEnd, GetCurrentPos", "Source/Vault.cpp: ReadFile"]}
{"id": "C99", "title": "A file reader delivers the file it was opened with, also when it is used again", "statement": "After Open of an existing file on a closed StreamFileReader the reader delivers exactly that file from its beginning: for every n, n calls of Move are defined, after them IsEnd, GetCurrentPos, GetFileSize, GetChar, GetNextChar and the answer of Move are those of position n of the file, whatever files were opened, partly read and closed with the same reader before.", "quantifier": "every history of Open, Move and Close on one reader, every file of every size, every number of moves", "why_tests_cant": "Depends on what is left in the reader from all earlier files; the failing cases need files of more than 10 MB after other files.", "anchors": ["Source/CsvParser/StreamFileReader.cpp: Open, Move, IsEnd, GetCurrentPos, Close", "Source/CsvParser/StreamFileReader.h", "Source/CsvParser/CsvParser.cpp: OpenFile"]}
{"id": "C100", "title": "A Request predicate may change the vault, within limits", "statement": "The predicate of a Greater, GreaterOrEqual, Less, LessOrEqual or Interval request may call the vault. Whatever it does: the entries it is given come in ascending order, each is in the index at that moment, no index entry is given twice, there are no more than the amount; entries that were there from the start satisfy the condition, new ones lie at or above a matching entry of the start and at or below the first entry behind the range; when the loop has run to its end every matching entry that was there from the start and still is has been given to it. The loop stays defined exactly as long as the entry just given and the first entry behind the range stay in the index. The predicate of an Equal request may erase records (the same holds), but adding one may rehash the index. It breaks (proved): erasing the given record or any record with its value, or with the value of the first entry behind the range, makes Request use a deleted element; adding a record in an Equal request may do so too; a record added by the predicate can be taken although it does not satisfy the request; a record taken and then erased by the predicate stays in the answer.", "quantifier": "every index content, every kind of request and bounds, every sequence of calls made by the predicate in every turn, every number of turns, every choice of the hash container", "why_tests_cant": "The calls a predicate may make between two steps of the loop are arbitrary; a dangling iterator or record usually still works in a test.", "anchors": ["Source/Vault.hpp: RequestRecordsSet, Request", "Source/Map.h: AllMapIterator, LowerBound, UpperBound, EqualRange"]}
{"id": "C101", "title": "The function given to AddUniqueKey may change the vault, within limits", "statement": "The function given to AddUniqueKey may call the vault. If it only erases records, never the one it was called with, it is called for different records, in the order of the vault's set, with the numbers 0, 1, 2, ..., and in the end has been called for every record that is left; the call stays defined and is refused exactly when an answer is given again. If moreover no record that it was called for is erased, every record that is left gets the value the function gave for it, in the record and in both indexes. With a function that changes nothing this is AddUniqueKey as in the other properties. It breaks (proved): erasing a record asked before leaves the erased record in the new key's index and, if a record asked later is left, gives a record a value that the function never gave for it; erasing the record just given makes the loop use a deleted element; creating a record can make AddUniqueKey read behind the end of an array.", "quantifier": "every set of records in every order, every function, every sequence of erasures and creations in every call, every number of calls", "why_tests_cant": "What the function does to the vault in each call, and the order of the records, are arbitrary; shifted values and dangling records appear only for some of them.", "anchors": ["Source/Vault.hpp: AddKey, AddUniqueKey", "Source/Vault.cpp: RemoveRecord"]}
{"id": "C102", "title": "What any CSV file, well-formed or not, is read as", "statement": "Every file whatsoever has exactly one table by a short grammar, and the parser reads exactly that table, as a whole or block by block: a field is a run of ordinary characters and parts in quotation marks; a part stands for its content (doubled quotation marks are one), and what the field had before the part is dropped; a part that is never closed goes on to the end of the file; a line ends at CR or LF outside such parts, together with an LF after it; an empty last field of a line is dropped, and an empty last line gives no row. Hence a single stray quotation mark makes everything behind it one field of the last row, x\"y\"z is read as yz, and LF LF ends one line, not two. ReadFile gives the same for any two files that mean the same table.", "quantifier": "every file text, every separator other than quotation mark, CR and LF, every block size and threshold", "why_tests_cant": "All texts are inputs; the meaning of a quotation mark depends on everything before it in the file.", "anchors": ["Source/CsvParser/CsvParser.cpp: CsvParser::GetNextVector, CsvParser::OpenFile", "Source/Vault.cpp: ReadFile"]}
{"id": "C103", "title": "A save that was cut off (crash, full disk)", "statement": "SaveToFile empties the file when it opens it and then writes in order, so at a crash, or when the disk is full, the file holds some beginning of the text. For every such beginning: reading it is defined and answers true; under the conditions under which the complete file would be read back (C88) the vault then has its old rows, exactly one row for each of the first n saved records, where n is the number of records whose lines reached the file up to the carriage return, and at most one thing more, either one error or one row made from the cut-off line of the next record (its values are read from beginnings of the texts of that record's values, the others are defaults); the complete text, even without its last character, gives all records and nothing else. Limits, which are part of the claim: the old content of the file is gone from the opening on, so there are moments at which neither the old nor the new records can be read; SaveToFile answers false only if the file could not be opened and answers true even when only part of the text could be written; a cut value is read without an error.", "quantifier": "every ordinary history of both vaults, every set of saved keys, with and without a key line, every number of characters that reached the file, every previous content of the file, every iteration order of the records, every block size and threshold", "why_tests_cant": "Every prefix of every file is a possible crash point; the cut may fall inside quotation marks, between CR and LF, inside the key line or inside a number whose beginning is another number.", "anchors": ["Source/Vault.cpp: SaveToFile, ReadFile", "Source/CsvParser/CsvParser.cpp: FormatStringToCsv, CsvParser::GetNextVector", "Source/Strings/FromString.h: FromString"]}
{"id": "C104", "title": "Copying and moving vaults while other threads use them", "statement": "Vaults are copied and moved by some threads while others work with them, every thread otherwise with one vault at a time. Constructing a vault as a copy of h is a snapshot: from the moment the constructor has got its lock until it gives it back, also while it adds the keys to the new vault, no other thread is granted a write lock of h (provided the condition variable has no spurious wake-ups, see C41); the constructor never waits for the lock of the new vault, and when it has ended that lock is as new, although its reader count was negative meanwhile. More generally a thread that holds the lock of a vault as its first lock keeps all writers of that vault out while it runs code of its own, whatever other vaults it touches. Limits, which are part of the claim: in a = b the lock of b is not taken at all, so another thread may hold the write lock of b while b is copied; the records of a are written under a read lock, so another thread may read a meanwhile; between the removal of the old content and the keys, and between two keys, another thread may write to a; the source of a move is emptied under a read lock, so another thread may read it meanwhile.", "quantifier": "every number of threads, vaults and keys, every schedule, every history in which a thread asks for a write lock only if it holds a write lock already, or holds nothing, or the vault is the one whose lock it took first or one it is constructing (which the copy and move operations are proved to obey)", "why_tests_cant": "Schedules: whether the lock of the source is held shows only if another thread asks for it at the right moment; the counters are shared by all vaults of a thread.", "anchors": ["Source/Vault.cpp: Vault::Vault(const Vault&), operator=, Vault::Vault(Vault&&)", "Source/ReadWriteMutex.cpp: RecursiveReadWriteMutex", "Source/Vault.hpp: AddKey"]}
{"id": "C105", "title": "Record handlers of ReadFile", "statement": "ReadFile(file, separator, handler) calls the handler exactly once for every row of the file but the first, in the order of the file, with the first row as keys and the fields of the row, whatever the handler does. A handler that only changes the rows, remembering what it likes between the calls, has the effect of reading the changed file without a handler: the same records, the same errors. A handler may use the vault that is being read into (create, erase, change, look up records, drop the data) and all others, as long as it does not change the keys of that vault and does not read a file into it: each row it leaves is then loaded or reported as without it, in the vault as it is after the handler's work, and the state stays one that ordinary calls could have led to. Limits, which are part of the claim: a handler that adds a key comes too late for the row it was called with (reported as an unknown key, or stored without a value for the key); a ReadFile of the vault by the handler loses the reports about the rows before; in a file without key line the handler gets the first row of data as keys, not an empty vector as documented.", "quantifier": "every history, every file and separator, every handler with any memory of its own, any calls of vault functions by it (within the stated limits)", "why_tests_cant": "A handler is arbitrary user code with memory, called in the middle of the loop; whether the loop survives its calls depends on the whole history, the file and all it does.", "anchors": ["Source/Vault.cpp: Vault::ReadFile", "Source/Vault.h: ReadFile with recordHandler, GetErrorsInLastReadedFile"]}
{"id": "C106", "title": "The locks keep the rules of std::mutex", "statement": "However the threads of a program nest the read and write locks of any number of vaults, and also when condition variables wake up spuriously: no thread unlocks a std::mutex it does not own or locks one it owns already; at most one thread waits on the condition variable of a vault (each waits with a mutex of its own, which the standard allows for one waiter only); in user code a thread owns exactly the writer mutex of its outermost write lock and nothing else, so a thread that holds no lock blocks nobody; two threads never have their outermost write locks on the same vault; and the per-thread counters are the numbers of locks held and never run below zero.", "quantifier": "every number of threads and vaults, every schedule, every properly nested sequence of locks, with or without spurious wake-ups", "why_tests_cant": "Unlocking a foreign std::mutex or waiting with two different mutexes is undefined behaviour that usually goes unnoticed, and whether it can happen depends on all interleavings and all nestings of locks of several vaults, whose counters are shared.", "anchors": ["Source/ReadWriteMutex.cpp: ReadWriteMutex, RecursiveReadWriteMutex", "Source/ReadWriteMutex.h: ReadLock, WriteLock"]}
{"id": "C107", "title": "UUIDs and temporary file names clash only if the random bits do", "statement": "Two generated UUIDs are equal exactly when 122 of the 128 random bits drawn for them are equal (all but the four replaced by the version digit and the two shifted out for the variant); a temporary file name is /tmp/, the prefix and a UUID, two such names are equal exactly when the prefixes and those 122 bits are, and a prefix without a slash gives a file directly in /tmp.", "quantifier": "every outcome of the random device, every prefix", "why_tests_cant": "A generator that loses random bits, or names that clash for prefixes of different lengths, look right on any sample: there are 2^128 draws.", "anchors": ["Source/Uuid/Uuid.cpp: ToHex, Uuid, GenTmpFileName"]}
{"id": "C108", "title": "Result objects can be compared and printed without losing information", "statement": "Two result objects compare equal exactly when success flag, code, key and both types are equal; every code has a text of its own that is not the beginning of another one; the printed line tells the success flag and the code whatever the key and the type names look like, and is one line if they have no line feeds; what any call answers is printed as a success exactly when its code is Success (SetData without parameters apart).", "quantifier": "every pair of result objects, every key and type name, every call on every object", "why_tests_cant": "Keys are arbitrary texts that may contain anything the printed line contains, and results come from every call with every argument.", "anchors": ["Source/VaultOperationResult.h: VaultOperationResult", "Source/VaultOperationResult.cpp: operator==, ResultCodeString, Print"]}
{"id": "C109", "title": "Laws of requests", "statement": "A request expression of comparisons with && and || is answered exactly when each of its comparisons names a key with the key's type, however they are combined. Two expressions that are equal as formulas over their comparisons give the same records with every order of the hash tables; so && and || are commutative, associative, idempotent, absorb each other and distribute. While no record is erased or changed that shares its value of a used key with another record, expressions that mean the same for every record give the same records. Every value splits the listed records of its key into less and greater-or-equal (and into less-or-equal and greater) without overlap, always into the same whole; an interval gives what both one-sided requests give; a greater limit gives all the records a smaller one gives.", "quantifier": "every ordinary history, every expression, value, predicate, limit and order of hash tables", "why_tests_cant": "Expressions, records and histories are unbounded, and evaluation has a special path (intervals) that depends on the form of the expression.", "anchors": ["Source/VaultRequest.hpp: And, Or, Request", "Source/Vault.hpp: RequestRecordsSet, Request", "Source/Vault.h: RequestInterval"]}
{"id": "C110", "title": "Loops that erase while they run", "statement": "DropVault, Exclude and Intersect iterate over a hash set from which they erase as they go. They never use an iterator to an erased element, whatever order the elements come in: DropVault resets each of the vault's sets exactly once and ends with none attached and each of them empty and detached; Exclude removes exactly the records that are in the other set and Intersect exactly those that are not, and the remaining ones keep their order. The loops of DropData, Clear, Join and of erasing a record do not change the set they iterate over. All of them come to the same as \"do it once for every element\", which is how the other claims describe them.", "quantifier": "every ordinary history, every vault and pair of sets, every iteration order", "why_tests_cant": "Whether an iterator is still valid depends on what the body of the loop does to the container through several calls; a wrong loop often works by luck, and the order of elements is the library's choice.", "anchors": ["Source/Vault.cpp: RemoveRecord, DropVault, DropData", "Source/VaultRecordSet.cpp: Exclude, Intersect, Join, Reset, Clear", "Source/VaultRecord.cpp: RemoveFromDependentSets"]}
{"id": "C111", "title": "Reused addresses do not mix up records, vaults or sets", "statement": "The program knows records, vaults and sets by their addresses, and memory that was freed is given out again. In careful use this never makes one thing be taken for another: wherever two pointers to records are kept (in references, in vaults, in sets, in the indexes of keys) their addresses are equal exactly if they are about the same record, and likewise for the pointers to vaults and sets; a new record, vault or set never has an address that some kept pointer to an older one has. So == and != of references and GetRecordUniqueId are about records: two valid references have the same id exactly if they refer to the same record, and while any reference to a record is kept, even to an erased one, no other record gets its id. Two sets give the same id of their vault exactly if they belong to the same vault, or both to none. Not so for an id that was written down: once the record is erased and no reference kept, a later record may have it; and after Join a set may keep an address that a later record gets.", "quantifier": "every careful history, every choice of addresses that keeps things that exist at the same time apart, every kept pointer", "why_tests_cant": "Whether freed memory is given out again, and to what, is the allocator's choice; a test sees one allocator on one run.", "anchors": ["Source/VaultRecord.cpp: Invalidate, RemoveRef", "Source/VaultRecordRef.cpp: operator==, operator!=, GetRecordUniqueId", "Source/Vault.cpp: CreateRecord, RemoveRecord", "Source/VaultRecordSet.cpp: Reset, Clear, Join", "Source/VaultRecordSet.cpp: GetParentVaultUniqueId"]}
{"id": "C112", "title": "The switched-off mutex of a set does not disturb vault locking", "statement": "Record sets inherit the recursive mutex of a vault but switch it off. Whatever threads do with switched-off mutexes, nested in any way with locks of vaults, the vaults are locked exactly as if those lock objects had never been made: same counters, same waits, same locks. So a write lock on a vault excludes every other lock on it, and threads that each use one vault at a time can always go on until every call has returned and every lock, of either kind, is released. A switched-off mutex by itself excludes nobody. In ordinary use every vault's mutex is on and every set's is off; only the copy of a set without vault keeps its mutex on, and a request into it makes it a set of the vault with its mutex on.", "quantifier": "every number of threads, vaults and sets, every nesting of lock objects of both kinds, every schedule; every ordinary history of vault and set operations", "why_tests_cant": "The counters of the recursive mutex are per thread and shared by all mutex objects, so whether a lock object that does nothing upsets them depends on nesting and schedules without bound.", "anchors": ["Source/ReadWriteMutex.cpp: RecursiveReadWriteMutex::Disable, ReadLock, ReadUnlock, WriteLock, WriteUnlock", "Source/VaultRecordSet.cpp: CopySet, MoveSet, constructors"]}
{"id": "C113", "title": "A parameter stands for the value its variable held when the parameter was made", "statement": "A parameter given to CreateRecord or SetData is a copy. Whatever a program does with its variables and its parameter lists - assign to the variables later, copy lists, empty the original, use a list again for another call - every call that takes a parameter list does exactly what it would do with the list of plain values the variables held when the parameters were made: same result, same effect on the vault. The type a parameter reports is the type of that value.", "quantifier": "every program of assignments, parameter list operations and calls of the three functions that take parameter lists, from every state of the vault", "why_tests_cant": "Whether a stored closure keeps a copy or a reference only shows in particular interleavings of assignments and calls; a test tries some of them, and a dangling reference often still holds the old value.", "anchors": ["Source/VaultParamInput.hpp: VaultParamInput constructor", "Source/VaultParamInput.cpp: SetDataToRef, SetDataToRecord, GetDataType", "Source/Vault.cpp: Vault::CreateRecord", "Source/VaultRecordRef.cpp: VaultRecordRef::SetData"]}
{"id": "C114", "title": "What a vault does depends on its contents only", "statement": "Two vaults with the same contents - the same keys with the same types and defaults, records with the same values, found by searches alike - give the same answers to the same calls (adding, changing and removing keys, making, writing and erasing records, searching, dropping) and have the same contents again afterwards, unless the call leaves a choice among matching records; this holds for whole runs, whatever else the programs do in between. Requests find the same records, sorting gives the same values in the same order. It does not matter whether the two vaults are in one program or in two, how they came to their contents, which records were made first, how references, sets and other vaults are used, or in which order the hash tables list their entries. A copy of a vault is such a vault (if no default was changed and searches find every record), and so is a vault that another was moved to.", "quantifier": "all pairs of states reachable by ordinary calls, all pairs of vaults with the same contents, all orders of the hash tables in either, all calls and all interleaved runs", "why_tests_cant": "It compares any two histories that lead to the same contents; a test can run a few, and dependence on hidden state (counters, tree shapes, leftovers of erased records) shows only in some.", "anchors": ["Source/Vault.hpp: AddKey, AddUniqueKey, UpdateKey, GetRecord, GetRecords, EraseRecord, EraseRecords, RequestRecords", "Source/Vault.cpp: Vault copy and move, RemoveKey, CreateRecord, DropVault, DropData, EraseRecord, GetSortedRecords", "Source/VaultRecordRef.hpp: SetData", "Source/VaultRecordRef.cpp: SetData"]}
{"id": "C115", "title": "A vault restored from a file behaves like the one that was saved", "statement": "Save a vault to a file, make a vault with the same keys (order, types, defaults, uniqueness) - in the same program or after a restart - and read the file: the restored vault has the same contents as the saved one, searches and sorting included, so every later sequence of calls has the same answers on both (C114). Reading any file into a vault in which searches find every record leaves it so.", "quantifier": "all states reachable by ordinary calls in which searches find all records of the vault, all contents whose values survive their text form, all orders of the hash tables, all later runs", "why_tests_cant": "A restored vault that differs in something hidden - an entry missing in an index, a default, the uniqueness of a key - is noticed only by some later call after some later history.", "anchors": ["Source/Vault.cpp: SaveToFile, ReadFile, CreateRecord", "Source/CsvParser/CsvParser.cpp: GetNext", "Source/Vault.hpp: AddKey, AddUniqueKey"]}
{"id": "C116", "title": "The history of a vault leaves no trace besides its contents", "statement": "Whatever calls led to a vault whose searches find every record, there is a program of as many calls as it has keys and records - make the vault, add the keys, create the records - that leads, in the same program or in a new one, to a vault with the same contents; so every later run has the same answers on both. Updates, removals, dropped keys, clears, joins, files read and failed calls leave nothing else behind. The condition cannot be dropped: a vault with records that its searches miss is like no freshly filled one.", "quantifier": "all states reachable by ordinary calls, all histories of any length, all vaults in which searches find all records, all later runs, all orders of the hash tables", "why_tests_cant": "A test compares two histories; that none of the infinitely many histories leaves something hidden that some later call shows cannot be tried out.", "anchors": ["Source/Vault.cpp: CreateRecord, UpdateKey, EraseRecord, SetDataToRecord, DropVault", "Source/Vault.hpp: AddKey, AddUniqueKey, UpdateKey"]}
{"id": "C117", "title": "A copied or moved record starts a life of its own", "statement": "A record copied from another answers every reading call as the other does, now and after the same changes to both, whatever the order in which the hash table is walked; copied and moved records are valid, have no references and are in no set, and the record copied or moved from keeps its own mark, count and sets; a record assigned to itself is unchanged. A copied, moved or assigned record is deleted exactly when it has been invalidated and the last reference to it is released, in every run of taking and releasing references.", "quantifier": "all records and data with distinct keys (empty values included), all orders of the hash table, all later calls, all runs of AddRef, RemoveRef and Invalidate of any length in which only held references are released (fewer than 2^64)", "why_tests_cant": "Assignment to a record in use resets its counter, which shows only in some later run of releases: a use after free or a leak, and neither is an answer a test could compare.", "anchors": ["Source/VaultRecord.cpp: VaultRecord, operator=, AddRef, RemoveRef, Invalidate", "Source/VaultRecord.h: RefCounter, IsValid", "Source/DataContainer.h: Container"]}
{"id": "C118", "title": "Size counts records", "statement": "Size of a vault or set is the number of different records its iteration gives, and 0 for a set that has lost its vault; creating a record adds one; EraseRecord takes one away exactly when it answers true, EraseRecords takes away between one and the given amount when it succeeds and nothing otherwise; DropData leaves 0 in the vault and its sets; in careful use no set is larger than its vault; the join and the intersection of two sets have together as many records as the two sets, and excluding a set takes away as many as the two have in common.", "quantifier": "all states reachable by ordinary calls, all vaults and sets, all contents and sizes", "why_tests_cant": "A record listed twice or an element lost changes a size only in some histories; the counting laws speak about all of them and all sizes.", "anchors": ["Source/Vault.cpp: Size, CreateRecord, EraseRecord, DropData", "Source/VaultRecordSet.cpp: Size, Join, Intersect, Exclude", "Source/Vault.hpp: EraseRecords"]}
{"id": "C119", "title": "A saved file shows the contents of the vault and nothing else", "statement": "Two vaults with the same contents - in one program or two, after whatever histories - are saved to files with the same key line and the same record lines up to their order, for all chosen keys, separators and with or without the key line; if the hash tables are walked in matching order the files are equal character by character, and so are the JSON texts (except for record names that are addresses). A vault that was restored from a file is saved to the lines of that file again. And the file shows all contents: with the same keys, two vaults whose contents can stand in a file and whose searches find every record are saved to the same file, in some orders, exactly if they have the same contents. JSON arrays of integers, booleans and texts without quotes, backslashes and control characters show all contents in the same way.", "quantifier": "all states reachable by ordinary calls, all pairs of vaults with the same contents, all chosen keys and separators, all orders of the hash tables", "why_tests_cant": "The order of the lines depends on addresses and hashes, so a test cannot compare two files, and the number of histories that lead to the same contents is unbounded.", "anchors": ["Source/Vault.cpp: SaveToFile, ReadFile", "Source/CsvParser/CsvParser.cpp: GetNext", "Source/DataContainer.h: GetDataAsString"]}
