{"id": "C01", "title": "Numeric character fields survive write and read", "statement": "For a character numeric field of width N, every integer v with 0 <= v < 10^N is written as exactly N ASCII decimal digits whose decimal value is v, and reading those N bytes back yields v.", "quantifier": "every width N from 1 to 18 and every integer v in 0..10^N-1", "why_tests_cant": "There are 10^N values per width; tests check a handful of amounts.", "anchors": ["pkg/lib/converters.go: toString", "pkg/lib/converters.go: parseValue", "pkg/lib/validators.go: isNumeric"]}
{"id": "C02", "title": "A numeric value that does not fit its field is never silently changed", "statement": "Writing a numeric value that needs more digits than its field has must not produce text that reads back as a different number. (The code violates this: for every v >= 10^N the written field is the first N digits of v, so it reads back as v divided by a power of ten.) Whatever the value, the written field is exactly N bytes.", "quantifier": "every width N and every integer v, including negative and oversized ones", "why_tests_cant": "Needs all out-of-range integers, not the few in the test data.", "anchors": ["pkg/lib/converters.go: toString"]}
{"id": "C03", "title": "Alphanumeric fields survive write and read", "statement": "For an alphanumeric field of width N, every text of at most N permitted characters that does not end in a blank is written left-justified and blank-filled to exactly N bytes, passes the read-side character check, and reads back unchanged.", "quantifier": "every width N and every byte string of length <= N over the permitted alphabet", "why_tests_cant": "Infinite family of strings and widths.", "anchors": ["pkg/lib/converters.go: toString", "pkg/lib/converters.go: parseValue", "pkg/lib/validators.go: isAlphanumeric", "pkg/lib/constants.go: alphanumericRegex"]}
{"id": "C04", "title": "An alphanumeric field always occupies exactly its width in bytes", "statement": "Whatever string is stored in an alphanumeric field of width N (for example a name taken from JSON), the written field is exactly N bytes long. (Violated for text with multi-byte UTF-8 characters: the field then has N characters, hence more than N bytes, and shifts everything after it. It holds for every string whose first N characters are one byte each, and only for those.)", "quantifier": "every width N >= 0 and every byte string, valid UTF-8 or not", "why_tests_cant": "Requires all byte strings; the test data is ASCII only.", "anchors": ["pkg/lib/converters.go: toString"]}
{"id": "C05", "title": "Character dates and timestamps survive write and read", "statement": "For character date (8 digits) and timestamp (14 digits) fields, every calendar date/time in years 0-9999 (UTC, whole seconds; midnight for date fields) other than the zero time is written as MMDDYYYY / MMDDYYYYhhmmss and reads back as the same time; the zero time is written as all zeros and reads back as the zero time.", "quantifier": "every valid civil date (and time of day) in years 0..9999, plus the zero time", "why_tests_cant": "3.6 million dates and 3*10^11 timestamps.", "anchors": ["pkg/lib/converters.go: toString", "pkg/lib/converters.go: timeFromDateString", "pkg/lib/converters.go: timeFromTimestampString"]}
{"id": "C06", "title": "A character date field is accepted exactly when it is zero-filled or a real calendar date", "statement": "Reading an 8-byte date field succeeds iff the bytes are eight '0' characters or eight digits MMDDYYYY naming an existing day of the (proleptic Gregorian) calendar; the 14-byte timestamp likewise with hour < 24, minute < 60, second < 60. In every other case an error is returned.", "quantifier": "every 8-byte string and every 14-byte string", "why_tests_cant": "256^8 inputs.", "anchors": ["pkg/lib/converters.go: timeFromDateString", "pkg/lib/converters.go: timeFromTimestampString"]}
{"id": "C07", "title": "Packed dates and timestamps survive write and read", "statement": "For packed date (5 bytes) and packed timestamp (8 bytes) fields, every calendar date/time in years 0-9999, including the zero time, is written in exactly 5 / 8 bytes with the 0x00 lead and 0x73 sign byte and reads back as the same time.", "quantifier": "every valid civil date (and time of day) in years 0..9999, plus the zero time", "why_tests_cant": "Far too many dates to enumerate; needs the bit-level encode/decode identity.", "anchors": ["pkg/lib/converters.go: packedTimeString", "pkg/lib/converters.go: timeFromPackedDateString", "pkg/lib/converters.go: timeFromPackedTimestampString"]}
{"id": "C08", "title": "Packed numbers survive write and read; wider values are reduced modulo 256^N", "statement": "For a packed number field of N bytes (1 <= N <= 7), every value 0 <= v < 256^N is written as N big-endian bytes and reads back as v. A larger value reads back as v mod 256^N and a negative value as 0.", "quantifier": "every field width N and every 64-bit integer", "why_tests_cant": "2^64 values.", "anchors": ["pkg/lib/converters.go: packedNumberString", "pkg/lib/converters.go: packedNumberFromString"]}
{"id": "C09", "title": "What the reader accepts in a field", "statement": "Reading a numeric character field succeeds iff the text is an optional single sign followed only by decimal digits (at least one) with a value in the 64-bit range, and returns that value; reading an alphanumeric field succeeds iff every byte is printable ASCII other than the backtick, and returns the text without trailing blanks.", "quantifier": "every byte string of the field width", "why_tests_cant": "256^N inputs; tests use a few.", "anchors": ["pkg/lib/validators.go: isValidType", "pkg/lib/validators.go: isNumeric", "pkg/lib/validators.go: isAlphanumeric", "pkg/lib/converters.go: parseValue"]}
{"id": "C10", "title": "Layout tables tile each record and match the structs", "statement": "In each of the 14 layout tables the fields are contiguous, do not overlap (apart from the optional leading block descriptor) and end exactly at the documented record or segment length; every exported struct field has an entry whose type matches the Go type of the field, so reflection-driven parsing and printing can never hit an unset or mistyped field.", "quantifier": "every field of every record and segment format", "why_tests_cant": "A whole-table fact: tests exercise concrete records but do not establish that no offset/length/type is off for some field.", "anchors": ["pkg/lib/specifications.go: all *Format tables", "pkg/lib/converters.go: parseRecordValues", "pkg/lib/converters.go: toString"]}
{"id": "C11", "title": "Serialization does not depend on map iteration order or on the sort algorithm", "statement": "The text produced for a record is the same for every iteration order of the Go layout map and for every (not necessarily stable) sorting algorithm.", "quantifier": "every permutation of each layout table and every sort that returns an ordered permutation", "why_tests_cant": "Go randomises map iteration; a test run sees a few of the n! orders.", "anchors": ["pkg/lib/converters.go: toSpecifications"]}
{"id": "C12", "title": "Length of every serialized record", "statement": "For a record or segment whose text fields are single-byte, String() is exactly the larger of its natural length (426 / 366 / segment length, plus 4 if a block descriptor is present, plus the lengths of the appended segments) and its effective padding size, where padding sizes outside 1..65535 count as 0. Hence no descriptor value, however large or negative, makes String() allocate more than 65535 bytes beyond its natural content.", "quantifier": "every record of every type with arbitrary 64-bit descriptor words, arbitrary numeric values, and any list of appended segments", "why_tests_cant": "Unbounded integers and unbounded segment lists.", "anchors": ["pkg/lib/record.go: clampedBlockSize", "pkg/lib/base_segment.go: String", "pkg/lib/header_record.go: String", "pkg/lib/trailer_record.go: String"]}
{"id": "C13", "title": "Parsing never indexes out of range", "statement": "Parse of every record and segment type, and of a whole file, on any byte slice and either blocking flag returns a value or an ordinary error; it never slices or indexes out of bounds.", "quantifier": "every byte slice, every flag, every record/segment type and prior contents of the receiver", "why_tests_cant": "Fuzzing samples inputs; absence of panics needs all of them.", "anchors": ["pkg/lib/converters.go: parseRecordValues", "pkg/lib/base_segment.go: Parse", "pkg/lib/header_record.go: Parse", "pkg/lib/trailer_record.go: PackedTrailerRecord.Parse", "pkg/utils/file.go: IsPacked", "pkg/lib/base_segment.go: readApplicableSegments"]}
{"id": "C14", "title": "Segments survive write and read", "statement": "For each of the eight segment types, a segment whose field values fit their fields is written as exactly the documented number of bytes, and parsing these bytes, followed by anything, into a new segment gives back the same segment and reports exactly that length.", "quantifier": "every segment type and every assignment of fitting field values", "why_tests_cant": "Unbounded product of field values.", "anchors": ["pkg/lib/segment.go: *Segment Parse/String", "pkg/lib/kn_segment.go", "pkg/lib/j1_segment.go", "pkg/lib/j2_segment.go", "pkg/lib/l1_segment.go", "pkg/lib/n1_segment.go"]}
{"id": "C15", "title": "Header records survive write and read (both formats)", "statement": "A header record whose values fit, fixed blocked (character) or variable blocked (character or packed; packed headers without block descriptor are rejected by design), written with String() and read back with Parse() gives back the same header and reports the size that the header declares.", "quantifier": "every header with fitting values, both encodings, any trailing bytes after the record", "why_tests_cant": "Unbounded product of field values.", "anchors": ["pkg/lib/header_record.go: HeaderRecord.Parse/String", "pkg/lib/header_record.go: PackedHeaderRecord.Parse/String"]}
{"id": "C16", "title": "Character data records survive write and read, with their appended segments", "statement": "A character base record with fitting values and any number of valid appended segments (fixed: any declared record length at least the content; variable: block length equal to record length plus 4 and no padding) written with String() and read back gives the same base values and the same appended segments, and reports the declared size.", "quantifier": "every base record, every list of J1/J2 segments and every choice of K1-K4, L1, N1", "why_tests_cant": "Unbounded segment lists and values.", "anchors": ["pkg/lib/base_segment.go: BaseSegment.Parse/String", "pkg/lib/base_segment.go: readApplicableSegments"]}
{"id": "C17", "title": "Packed data records survive write and read, with their appended segments", "statement": "A packed base record with fitting values, a positive block descriptor at least as large as the content, and any number of valid appended segments, written with String() and read back gives the same base values and appended segments and reports the block size.", "quantifier": "every packed base record, every list of J1/J2 segments and every choice of K1-K4, L1, N1", "why_tests_cant": "Unbounded segment lists and values.", "anchors": ["pkg/lib/base_segment.go: PackedBaseSegment.Parse/String", "pkg/lib/base_segment.go: readApplicableSegments"]}
{"id": "C18", "title": "Trailer records survive write and read (both formats)", "statement": "A trailer record whose values fit, written with String() and read back with Parse(), gives the same trailer and reports its declared record length.", "quantifier": "every trailer with fitting totals, both encodings", "why_tests_cant": "Unbounded product of totals.", "anchors": ["pkg/lib/trailer_record.go: TrailerRecord.Parse/String", "pkg/lib/trailer_record.go: PackedTrailerRecord.Parse/String"]}
{"id": "C19", "title": "A serialized data record is as long as its block descriptor says", "statement": "In a variable-blocked file a reader advances by the block descriptor, so String() of a data record with block descriptor b > 0, whose content fits into b bytes and whose record descriptor is b-4, must be exactly b bytes. (Packed records satisfy this. Character records violate it whenever padding is needed: the padding stops at the record descriptor, 4 bytes short, so the next record is read from the wrong position.)", "quantifier": "every data record in either encoding with consistent descriptors", "why_tests_cant": "Only padded variable-blocked records show it; none is in the test data.", "anchors": ["pkg/lib/base_segment.go: BaseSegment.String", "pkg/lib/base_segment.go: PackedBaseSegment.String"]}
{"id": "C20", "title": "Re-reading what was written from a parsed record changes nothing", "statement": "If Parse accepts a header, trailer, data record or segment into a new value, and every negative number in a character field has as many digits as leave no room for a leading zero, there is no required character date equal to the zero time (January 1 of year 1), and a positive block descriptor if the record is packed or read as variable-blocked, then writing the parsed record and parsing it again succeeds with the same values and the same reported size (normalisation is idempotent). The three conditions are necessary, see C21.", "quantifier": "every byte slice accepted by Parse, each record type", "why_tests_cant": "All accepted inputs, including non-canonical ones (unsorted or oddly padded).", "anchors": ["pkg/lib/converters.go: parseRecordValues", "pkg/lib/converters.go: toString"]}
{"id": "C21", "title": "A record accepted by the reader can be written and read again", "statement": "Every record that Parse accepts is written by String() as text that Parse accepts again. (Violated in three ways: a numeric field holding a signed number such as '-00000005' is accepted, but is written as '0000000-5', which is rejected; a required date '01010001' is accepted, but is written as zeros, which is rejected; a variable-blocked record with block descriptor '0000' is accepted, but is written without its block descriptor. It holds if and only if the first two do not occur, for records whose block descriptor, if they have one, is positive.)", "quantifier": "every accepted record", "why_tests_cant": "Needs the unusual signed inputs; the tests have none.", "anchors": ["pkg/lib/converters.go: parseValue", "pkg/lib/converters.go: toString", "pkg/lib/validators.go: isNumeric"]}
{"id": "C22", "title": "A successful data-record parse reports at least what it consumed", "statement": "When Parse of a data record succeeds, the reported size is positive, covers the fixed part and all appended segments that were read. (Holds for packed and for fixed-blocked character records; violated for variable-blocked character records whose block descriptor is a negative number: no size check is made and even a negative size can be reported.)", "quantifier": "every byte slice", "why_tests_cant": "All malformed inputs.", "anchors": ["pkg/lib/base_segment.go: BaseSegment.Parse", "pkg/lib/base_segment.go: PackedBaseSegment.Parse"]}
{"id": "C23", "title": "Parsing a whole file always terminates", "statement": "File.Parse returns for every input. It makes at most len/366 passes over data records for packed and for fixed-blocked character input. (Violated for variable-blocked character input: there is a finite input on which File.Parse cycles between two data records for ever, appending a record each time.)", "quantifier": "every byte slice and both flags", "why_tests_cant": "Non-termination cannot be observed by a terminating test; it needs a specific malformed input.", "anchors": ["pkg/file/file_instance.go: Parse", "pkg/lib/base_segment.go: BaseSegment.Parse"]}
{"id": "C24", "title": "File.Parse leaves the caller's buffer alone", "statement": "Parsing does not change the byte slice that was passed in. (Violated: if the input contains CR or LF, the caller's bytes are shifted left over them and the tail is zeroed; it holds iff the input has no CR/LF.)", "quantifier": "every byte slice", "why_tests_cant": "Universally quantified over buffers; also an aliasing effect the tests do not look at.", "anchors": ["pkg/file/file_instance.go: Parse"]}
{"id": "C25", "title": "Appended segments behave as an append-only store", "statement": "After any sequence of AddApplicableSegment calls on a data record, GetSegments(\"j1\") and (\"j2\") return exactly the accepted J1/J2 segments in call order, GetSegments of k1..k4, l1, n1 returns the last accepted one of that kind, rejected segments (and all segments offered to headers and trailers) change nothing, and unknown names return nothing.", "quantifier": "every finite sequence of AddApplicableSegment calls", "why_tests_cant": "Histories of unbounded length.", "anchors": ["pkg/lib/base_segment.go: AddApplicableSegment", "pkg/lib/base_segment.go: GetSegments"]}
{"id": "C26", "title": "No appended segment in the input is lost when a data record is read", "statement": "If Parse of a data record succeeds then every appended segment in the input is present afterwards. (Violated for repeated K1-K4, L1, N1 segments, where only the last is kept; J1 and J2 segments are all kept, in order. Nothing is lost if and only if each of the other types occurs at most once.)", "quantifier": "every sequence of appended segments in a record", "why_tests_cant": "All segment sequences.", "anchors": ["pkg/lib/base_segment.go: readApplicableSegments", "pkg/lib/base_segment.go: AddApplicableSegment"]}
{"id": "C27", "title": "File validation is exactly: all records valid and all trailer totals right", "statement": "Validate() of a file succeeds iff the header, the trailer and every data record pass their own Validate() and each total in the trailer (all fields except the descriptor word and identifier) equals the value recomputed from the data records; in particular changing any single total of a valid file by any amount makes Validate fail.", "quantifier": "every file, every trailer total, every wrong value", "why_tests_cant": "All files times all wrong totals.", "anchors": ["pkg/file/file_instance.go: Validate", "pkg/file/file_instance.go: generatorTrailer", "pkg/file/file_instance.go: generatorPackedTrailer"]}
{"id": "C28", "title": "Malformed telephone numbers are rejected", "statement": "Validation rejects telephone numbers that are not 10-digit numbers. (Violated: the check accepts every integer whatsoever, including negative and 19-digit ones.)", "quantifier": "every 64-bit integer", "why_tests_cant": "2^64 values against a backtracking-style pattern.", "anchors": ["pkg/lib/validators.go: isPhoneNumber", "pkg/lib/constants.go: phoneRegex"]}
{"id": "C29", "title": "A valid data record is still valid after being written and read", "statement": "If Validate() accepts a data record with fitting values then it also accepts the record obtained by writing and re-reading it. (Violated when the payment history profile ends in blanks, when a required text is blank and when the identification number is a row of zeros or nines followed by blanks, all of which validation allows but reading trims. Exactly: reading back gives the record without the blanks at the ends of its texts, and of a valid record that one is valid if and only if none of these three is the case; of a valid segment it is valid if and only if no required text is blank.)", "quantifier": "every valid data record", "why_tests_cant": "All valid records, including those with trailing blanks.", "anchors": ["pkg/lib/base_segment.go: ValidatePaymentHistoryProfile, ValidateIdentificationNumber", "pkg/lib/converters.go: parseValue", "pkg/lib/base_segment.go: Validate"]}
{"id": "C30", "title": "A K2 'remove' segment with the prescribed blank name can be read", "statement": "A data record carrying a K2 segment with purchased indicator 9 and a blank-filled name, as the file format prescribes, is accepted by Parse. (Violated: it is always rejected, because the trimmed name then counts as a missing required field.)", "quantifier": "every data record containing such a segment", "why_tests_cant": "All surrounding record contents.", "anchors": ["pkg/lib/kn_segment.go: K2Segment", "pkg/lib/base_segment.go: readApplicableSegments"]}
{"id": "C31", "title": "Character and packed validation agree", "statement": "A data record is valid in character form iff the same values are valid in packed form, so converting a file never changes its validity. (Violated by payment history code 'Z', accepted only in character form; they agree on all records without it.)", "quantifier": "every data record", "why_tests_cant": "All records.", "anchors": ["pkg/lib/base_segment.go: ValidatePaymentHistoryProfile (both)", "pkg/lib/base_segment.go: Validate (both)"]}
{"id": "C32", "title": "A file only ever holds records of its own format", "statement": "After any sequence of File operations (SetRecord, AddDataRecord, SetType, Parse, generate trailer) starting from NewFile, the header, trailer and every data record are of the file's current format; a rejected SetRecord/AddDataRecord leaves the file unchanged, and every record accepted by AddDataRecord or SetRecord was valid.", "quantifier": "every finite history of API calls with arbitrary arguments", "why_tests_cant": "Histories of unbounded length.", "anchors": ["pkg/file/file_instance.go: SetRecord", "pkg/file/file_instance.go: AddDataRecord", "pkg/file/file_instance.go: SetType", "pkg/file/file_instance.go: Parse"]}
{"id": "C33", "title": "Format conversion is lossless, reversible and cannot fail", "statement": "On every file reachable through the API, SetType to a supported type succeeds, keeps all header, data-record, segment and trailer values and the record order, and converting back restores the original file; an unsupported type name is rejected and changes nothing.", "quantifier": "every reachable file and every type name", "why_tests_cant": "All files.", "anchors": ["pkg/file/file_instance.go: SetType"]}
{"id": "C34", "title": "Generated trailer totals equal the independent counts", "statement": "Every total of a generated trailer is the number of data records / segments having the stated characteristic (e.g. total for status 71 = number of data records with account status 71; SSNs counted iff 0 < ssn < 999999999; dates of birth iff not the zero date; ECOA Z over base, J1 and J2), block count = number of data records + 2.", "quantifier": "every list of data records with any appended segments", "why_tests_cant": "Unbounded lists.", "anchors": ["pkg/file/file_instance.go: generatorTrailer", "pkg/file/file_instance.go: generatorPackedTrailer", "pkg/file/file_instance.go: statisticBase", "pkg/file/file_instance.go: statisticAccountStatus"]}
{"id": "C35", "title": "Algebra of trailer totals", "statement": "Totals do not depend on the order of data records, add up when files are concatenated, are the same for a file and its converted form, the all-segment SSN and date-of-birth totals are the sums of base, J1 and J2 totals, and the 23 status totals sum to the number of data records whenever all of them pass validation (and never exceed it).", "quantifier": "every list of data records and every permutation of it", "why_tests_cant": "All lists and permutations.", "anchors": ["pkg/file/file_instance.go: generatorTrailer", "pkg/file/file_instance.go: statisticAccountStatus", "pkg/file/file_instance.go: statisticBase"]}
{"id": "C36", "title": "A generated trailer makes the file valid", "statement": "For a file with at least one data record whose header and data records are valid, GeneratorTrailer followed by SetRecord succeeds and Validate() then succeeds; with no data records SetRecord rejects the generated trailer.", "quantifier": "every file", "why_tests_cant": "All files.", "anchors": ["pkg/file/file_instance.go: GeneratorTrailer", "pkg/file/file_instance.go: SetRecord", "pkg/file/file_instance.go: Validate"]}
{"id": "C37", "title": "Concurrent serialization is deterministic", "statement": "ConcurrentString gives header, data records in order, trailer (with or without newlines) for every number of goroutines (including zero and negative) and for every interleaving of the goroutines.", "quantifier": "every file, every goroutine count, every scheduler interleaving", "why_tests_cant": "Schedules cannot be enumerated by running.", "anchors": ["pkg/file/file_instance.go: ConcurrentString"]}
{"id": "C38", "title": "The newline option only adds separators", "statement": "String(true) is String(false) with one LF after the header and after each data record and none after the trailer; if no record contains CR or LF, deleting the newlines from String(true) gives String(false).", "quantifier": "every file", "why_tests_cant": "All files.", "anchors": ["pkg/file/file_instance.go: String", "pkg/file/file_instance.go: ConcurrentString"]}
{"id": "C39", "title": "Splitting input into records does not depend on how the reader delivers it", "statement": "The sequence of records that the streaming reader extracts is the same for every way in which the underlying io.Reader chops the data into reads (including short, empty and EOF-with-data reads), as long as no record with its line breaks exceeds the 64 KiB scan buffer.", "quantifier": "every input and every sequence of read sizes", "why_tests_cant": "All chunkings.", "anchors": ["pkg/file/file.go: scanRecord", "pkg/file/file.go: NewReader"]}
{"id": "C40", "title": "Line breaks are ignored wherever they occur in the stream", "statement": "The records extracted by the streaming reader from any input equal those extracted after deleting every CR and LF from it. (Violated when a record with its line breaks is longer than the 64 KiB buffer, e.g. 65536 line feeds before a record: the stream then ends without an error. Holds if and only if this does not happen, and in all cases the extracted records are a prefix of those of the cleaned input.)", "quantifier": "every input, every placement of CR/LF", "why_tests_cant": "All placements.", "anchors": ["pkg/file/file.go: scanRecord"]}
{"id": "C41", "title": "Character files survive write and read through the streaming reader", "statement": "For every well-formed character file (fixed or variable blocked, any number of data records with any appended segments, no '{' in the text), NewFileFromReader applied to String(newline) yields the same file, for both newline settings and any chunking of the input.", "quantifier": "every well-formed character file", "why_tests_cant": "Unbounded files.", "anchors": ["pkg/file/file.go: NewFileFromReader", "pkg/file/file.go: Reader.Read", "pkg/file/file_instance.go: String"]}
{"id": "C42", "title": "Packed files survive write and read through the streaming reader", "statement": "For every well-formed packed file, NewFileFromReader applied to String(newline) yields the same file. (Violated when a binary field contains a 0x0A or 0x0D byte, e.g. a credit limit of 10: the byte is deleted as if it were a line break. Holds for all files whose serialized records contain no such byte.)", "quantifier": "every well-formed packed file", "why_tests_cant": "Unbounded files; the failing byte values must be hit.", "anchors": ["pkg/file/file.go: scanRecord", "pkg/file/file.go: NewFileFromReader", "pkg/file/file_instance.go: Parse"]}
{"id": "C43", "title": "File.Parse reads back what String wrote", "statement": "For every well-formed character file and every well-formed packed file free of CR/LF bytes, File.Parse on String(newline) of the file (into a new file of the same type) yields the same file.", "quantifier": "every well-formed file, both newline settings", "why_tests_cant": "Unbounded files.", "anchors": ["pkg/file/file_instance.go: Parse", "pkg/file/file_instance.go: String"]}
{"id": "C44", "title": "NewFileFromReader does not silently drop input", "statement": "If NewFileFromReader succeeds then all records of the input are represented in the result. (Violated: everything after the first record that does not parse as a data record but does parse as a trailer is ignored, e.g. the whole second file when two files are concatenated. The File.Parse entry point does reject such input.)", "quantifier": "every input", "why_tests_cant": "All inputs.", "anchors": ["pkg/file/file.go: Reader.Read", "pkg/file/file_instance.go: Parse"]}
{"id": "C45", "title": "A raw Metro 2 file is not mistaken for JSON", "statement": "A well-formed raw file is decoded as Metro 2. (Violated when a '{', which is a permitted character in text fields, occurs in the first 1024 bytes: the file is then decoded as JSON and rejected. Holds iff there is no '{' in the first 1024 bytes.)", "quantifier": "every well-formed file", "why_tests_cant": "All files.", "anchors": ["pkg/file/file.go: NewFileFromReader"]}
{"id": "C46", "title": "A converted file can be read back", "statement": "Converting a readable character file to packed and writing it gives a readable file. (Violated for every fixed-blocked file: the output has no block descriptor and is always rejected by the packed reader. Holds for variable-blocked files whose data records have a block descriptor equal to the record descriptor plus 4, if no number is negative and no CR/LF byte occurs in the packed form.)", "quantifier": "every well-formed character file", "why_tests_cant": "All files.", "anchors": ["pkg/file/file_instance.go: SetType", "pkg/lib/header_record.go: PackedHeaderRecord.Parse", "pkg/file/file.go: Reader.Read"]}
{"id": "C47", "title": "JSON round trip", "statement": "Marshalling a file to JSON and decoding it into a new file gives back the same header, data records, appended segments and trailer, for all valid UTF-8 texts, integers of magnitude at most 2^53 and whole-second times, provided the appended segments are valid.", "quantifier": "every file", "why_tests_cant": "Unbounded files.", "anchors": ["pkg/file/file_instance.go: UnmarshalJSON", "pkg/lib/base_segment.go: MarshalJSON/UnmarshalJSON", "pkg/utils/time.go"]}
{"id": "C48", "title": "JSON decoding does not depend on map iteration order", "statement": "Decoding a JSON file or data record gives the same result for every iteration order of the intermediate Go maps.", "quantifier": "every JSON object and every permutation of its members", "why_tests_cant": "Go randomises the order; all permutations are needed.", "anchors": ["pkg/file/file_instance.go: UnmarshalJSON", "pkg/lib/base_segment.go: UnmarshalJSON"]}
{"id": "C49", "title": "JSON format detection", "statement": "A JSON file is decoded in the format it was written from. (Holds for character files with header record descriptor 426 or no block descriptor and for packed files with a block descriptor and a record descriptor other than 426; violated otherwise.)", "quantifier": "every file", "why_tests_cant": "All descriptor values.", "anchors": ["pkg/file/file.go: NewFileFromReader"]}
{"id": "C50", "title": "HTTP outcome codes", "statement": "/validator answers 400 iff the body cannot be read as a file, 501 iff it can but validation fails, 200 otherwise; /print and /convert answer 400 iff the body cannot be read, 501 iff the requested format is unknown (or trailer generation was requested and rejected), 200 otherwise; a 200 body is exactly the requested serialization.", "quantifier": "every request", "why_tests_cant": "All bodies and parameters.", "anchors": ["pkg/server/server.go: validator", "pkg/server/server.go: print", "pkg/server/server.go: convert", "pkg/server/server.go: getFormat"]}
{"id": "C51", "title": "HTTP responses carry the declared content type", "statement": "Every response of the service that sets a Content-Type delivers it. (Violated: health, validator-success, print and error responses set it after the status line has been sent, so it never reaches the client; only /convert success and http.Error responses deliver it.)", "quantifier": "every request", "why_tests_cant": "Needs the ordering semantics of ResponseWriter for all paths.", "anchors": ["pkg/server/server.go: outputError", "pkg/server/server.go: outputSuccess", "pkg/server/server.go: outputBufferToWriter"]}
{"id": "C52", "title": "A failing input is reported", "statement": "If the reader given to NewFileFromReader fails with an error other than EOF, an error is returned. (Violated: once 1024 bytes have been delivered the scanner's error is never looked at, so a failure is taken for the end of the input; if the trailer has arrived the file is accepted although more was to come. Holds for failures within the first 1024 bytes.)", "quantifier": "every input and every point of failure", "why_tests_cant": "All failure points and inputs.", "anchors": ["pkg/file/file.go: NewFileFromReader", "pkg/file/file.go: Reader.Read"]}
{"id": "C53", "title": "Every file returned by the reader satisfies the file invariant", "statement": "For every input, Metro 2 text or JSON, complete or cut off, if NewFileFromReader returns a file then all records are of the file's format and in their places, every field has the type of its struct, and every stored segment is in the slot of its type and passes Validate.", "quantifier": "every input, every behaviour of the io.Reader, every map order", "why_tests_cant": "Inputs are arbitrary bytes; the invariant must hold whatever was accepted.", "anchors": ["pkg/file/file.go: NewFileFromReader", "pkg/file/file.go: Reader.Read", "pkg/file/file_instance.go: UnmarshalJSON", "pkg/lib/base_segment.go: AddApplicableSegment"]}
{"id": "C54", "title": "Outcomes of the commands", "statement": "`validator` reports a valid file exactly if the input is one; `print` prints exactly the requested serialization of the input and fails exactly if the input is no file or the format is unknown; `convert` writes the output exactly if the input is a file, the format is known, a requested trailer can be generated (there is a data record) and the output can be created, and then writes the file with its generated trailer in the requested type and serialization; otherwise it fails and writes nothing.", "quantifier": "every input and all flags", "why_tests_cant": "All inputs and combinations of flags.", "anchors": ["cmd/metro2/main.go: validate", "cmd/metro2/main.go: print", "cmd/metro2/main.go: convert"]}
{"id": "C55", "title": "Validation is exactly the declared field rules", "statement": "Validate accepts a header, data record, trailer or segment exactly when all its mandatory fields are present and every coded field holds one of the codes declared for it in constants.go (or is blank where blank is allowed), the payment rating is present exactly for the account statuses that call for it, and the consumer is identified by a social security number or a date of birth unless the ECOA code exempts them.", "quantifier": "all field values of all record and segment types, both formats", "why_tests_cant": "The combinations of values are unbounded; a constant that is declared but forgotten in one of the two copies of a switch, or a switch that accepts too much, only shows for that one value.", "anchors": ["pkg/lib/base_segment.go:814-989", "pkg/lib/base_segment.go:1328-1503", "pkg/lib/constants.go:12-494", "pkg/lib/validators.go:86-127", "pkg/lib/j1_segment.go:159-190", "pkg/lib/j2_segment.go:215-275", "pkg/lib/kn_segment.go:114-388", "pkg/lib/l1_segment.go:92-118"]}
{"id": "C56", "title": "Fields tagged as required are required", "statement": "A record or segment that lacks a field whose struct tag says validate:\"required\" is never accepted by Validate.", "quantifier": "all values of all record and segment types", "why_tests_cant": "The tags and the layout tables are separate declarations of the same fact; comparing them needs every field of every type, and acceptance is a statement about all values of the other fields.", "anchors": ["pkg/lib/specifications.go:20-340", "pkg/lib/j2_segment.go:18-163", "pkg/lib/validators.go:86-114"]}
{"id": "C57", "title": "Generation, address and residence codes are checked wherever they occur", "statement": "The generation code, address indicator and residence code of a data record are restricted to their documented values, as they are in J1 and J2 segments.", "quantifier": "all data records and all values of these fields", "why_tests_cant": "It is the absence of a method that a test would have to notice; that a field has no influence at all is a statement about all values.", "anchors": ["pkg/lib/base_segment.go:366-381", "pkg/lib/base_segment.go:478-499", "pkg/lib/j2_segment.go:215-250"]}
{"id": "C58", "title": "The payment history profile has only documented values", "statement": "The payment history profile of a valid data record has 24 values from the documented list, and a 'B' is never embedded within other values.", "quantifier": "all data records, both formats", "why_tests_cant": "There are 17^24 accepted profiles; the documented restriction is on positions relative to each other.", "anchors": ["pkg/lib/base_segment.go:204-228", "pkg/lib/base_segment.go:882-898", "pkg/lib/base_segment.go:1396-1412"]}
{"id": "C59", "title": "A time written to JSON is read back", "statement": "utils.Time.MarshalJSON followed by utils.Time.UnmarshalJSON gives the same time, in whatever local time zone the machine is.", "quantifier": "all existing moments with a four-digit year, all zones, all local time zones", "why_tests_cant": "The text is tried against 170 layouts in order; that none of the earlier ones takes any ISO text for something else is a statement about all texts of that shape.", "anchors": ["pkg/utils/time.go:15-24", "pkg/utils/time.go:31-43", "pkg/utils/time.go:52-223", "pkg/utils/time.go:225-240"]}
{"id": "C60", "title": "Numeric dates have one meaning", "statement": "A date given in JSON as two digits, two digits and four digits separated by dashes or slashes is read with a fixed order of day and month, and a time of day marked as afternoon is read as afternoon. A day of two digits, a short or long name of a month in whatever letters and a year of four digits are read as that day.", "quantifier": "all texts of the form, both separators, all local time zones", "why_tests_cant": "Which layout wins depends on whether the day exists when read month first; the exact rule is about all 10^8 texts per separator, and that no further layout reads them is about all 170 layouts.", "anchors": ["pkg/utils/time.go:52-223", "pkg/utils/time.go:232-236"]}
{"id": "C61", "title": "A date read from JSON exists", "statement": "Whatever text stands in a date field of a JSON document, the time that UnmarshalJSON stores is an existing second with a year between 0 and 9999, so that it fits an eight-digit date field.", "quantifier": "all JSON values", "why_tests_cant": "The input is any text, against 170 layouts with signs, fractions, names and zones.", "anchors": ["pkg/utils/time.go:15-24", "pkg/utils/time.go:225-240"]}
{"id": "C62", "title": "Parse forgets the previous content of its receiver", "statement": "Parsing into a record, segment or file that was used before gives the same result as parsing into a new one: the same error or size and, on success, the same value. No field, segment or data record of the earlier content survives.", "quantifier": "all records, segments and files that arise from any sequence of calls; all inputs", "why_tests_cant": "The claim compares all pairs of an earlier history and a later input; the existing tests only parse into new values.", "anchors": ["pkg/file/file_instance.go:202-255", "pkg/lib/converters.go:119-164", "pkg/lib/base_segment.go:537-574", "pkg/lib/base_segment.go:997-1064", "pkg/lib/header_record.go:112-127"]}
{"id": "C63", "title": "JSON documents conform to the published schema", "statement": "The JSON document that the service writes for a valid file conforms to the schema File of the OpenAPI description: required members present, members of the documented types, formats and values.", "quantifier": "all valid files, any number of records and segments", "why_tests_cant": "The schema constrains every member of every record of every file; the tests compare a few fixed documents and never read the schema.", "anchors": ["api/openapi.yaml:200-895", "pkg/lib/base_segment.go:720-746", "pkg/lib/base_segment.go:24-512", "pkg/lib/header_record.go:21-101", "pkg/lib/trailer_record.go:21-165", "pkg/utils/time.go:31-43"]}
{"id": "C64", "title": "The service follows its published description", "statement": "Every documented operation answers with a documented status only, and with 200 if the request carries a valid file and asks for a documented format.", "quantifier": "all requests to the documented operations, all contents", "why_tests_cant": "The claim is about every request body and every documented parameter value; the tests use the values of the code, not those of the description.", "anchors": ["api/openapi.yaml:22-198", "pkg/server/server.go:83-98", "pkg/server/server.go:118-241"]}
{"id": "C65", "title": "Written JSON is JSON and is read back", "statement": "The JSON texts written for a file by the service and the command (compact, indented with tabs, indented with blanks) are well-formed JSON standing for the document of the file, and reading any of them gives the same file again.", "quantifier": "all files (well-formedness), all files whose values JSON can carry and whose format can be told (reading back); any number of records, any characters", "why_tests_cant": "Escaping, invalid UTF-8, nesting and every string and number of every file are involved; the tests compare a few documents of plain letters.", "anchors": ["pkg/server/server.go:41-81", "cmd/metro2/main.go:146-161", "cmd/metro2/main.go:224-240", "pkg/file/file.go:105-134"]}
{"id": "C66", "title": "Reading JSON depends on the value only", "statement": "Two JSON texts of the same object, with any white space before them, any notation of strings and any layout, are read with the same result.", "quantifier": "all objects, all texts of them, all amounts of leading white space, all bytes after them", "why_tests_cant": "There are infinitely many notations of one document; the tests use one.", "anchors": ["pkg/file/file.go:72-134"]}
{"id": "C67", "title": "Only JSON documents are accepted as JSON", "statement": "An input with a brace among its first 1024 bytes is accepted only if it is the text of a JSON object with white space around it.", "quantifier": "all inputs, all delivery patterns of the input", "why_tests_cant": "The claim is about all byte sequences; tests can only try some.", "anchors": ["pkg/file/file.go:72-135"]}
{"id": "C68", "title": "Answers in JSON can be sent back", "statement": "The JSON that /print or /convert answers, sent as the body of a second request, carries the same (converted) file; likewise for the output of the command given to a second command.", "quantifier": "all requests and commands, all files whose values JSON can carry and whose format can be told", "why_tests_cant": "Two runs over arbitrary files are composed; the tests check single requests with fixed files.", "anchors": ["pkg/server/server.go:18-79", "pkg/server/server.go:118-241", "cmd/metro2/main.go:115-248"]}
{"id": "C69", "title": "Every field has a place of its own", "statement": "In the text of a record or segment the fields stand in the order of their declaration without overlap; changing one field changes only the bytes of its place, and a field read from a text depends only on the bytes of its place.", "quantifier": "all record and segment types, all fields but the descriptor words for writing and the block descriptor for reading, all values and all input bytes", "why_tests_cant": "Tests compare whole records with a few samples; an exchange of two fields, or a field that leaks into its neighbour for some values only, passes whenever the samples are symmetric.", "anchors": ["pkg/lib/specifications.go:20-340", "pkg/lib/converters.go:64-164", "pkg/lib/base_segment.go:24-512"]}
{"id": "C70", "title": "Validation errors name the place of the fault", "statement": "The text of every error of Validate names the field at fault and the type of the record or segment it is in; a refused segment is named together with the record that refuses it.", "quantifier": "all records, segments and files, all errors of Validate and AddApplicableSegment", "why_tests_cant": "The names are literals repeated in some fifty places; the tests assert 27 of the texts, and the wrong ones are not among them.", "anchors": ["pkg/utils/errors.go:30-93", "pkg/lib/validators.go:86-114", "pkg/lib/base_segment.go:814-989", "pkg/lib/base_segment.go:1328-1503", "pkg/lib/j1_segment.go:159-190", "pkg/lib/j2_segment.go:215-275", "pkg/file/file_instance.go:138-199"]}
{"id": "C71", "title": "Reading errors name the place of the fault", "statement": "The text of every error of Parse that is about a field names this field and the type of the record, or of the segment within the record, in which it stands.", "quantifier": "all records and segments, all input bytes", "why_tests_cant": "Errors of segments are passed on through the data record that contains them; no test looks at the text of a reading error.", "anchors": ["pkg/utils/errors.go:55-93", "pkg/lib/converters.go:119-164", "pkg/lib/validators.go:18-79", "pkg/lib/base_segment.go:537-574", "pkg/lib/base_segment.go:997-1064", "pkg/lib/base_segment.go:1505-1542"]}
{"id": "C72", "title": "Field names in errors are words, and unambiguous", "statement": "The name of a field in an error text is its Go name in small letters with an underscore before each new word and nowhere else; two texts about different fields, types or faults are different.", "quantifier": "all names of any length, all pairs of fields, types and faults", "why_tests_cant": "toSnakeCase has no test; it is two regular expression replacements whose interplay depends on the neighbours of each letter.", "anchors": ["pkg/utils/errors.go:14-21"]}
{"id": "C73", "title": "Placeholders for segments that are not needed", "statement": "A fixed-length record may report a segment it does not need as a placeholder: the segment identifier followed by blanks (docs/file-structure.md). Such a record is accepted and means the same as one without the segment.", "quantifier": "all segment types, all data records in both formats and blockings", "why_tests_cant": "No test or sample file has a placeholder; the documented rule concerns any combination of eight types.", "anchors": ["docs/file-structure.md", "pkg/lib/base_segment.go:1505-1542", "pkg/lib/validators.go:18-79"]}
{"id": "C74", "title": "Appended segments are in the documented order", "statement": "Segments occur in the order J1, J2, K1, K2, K3, K4, L1, N1 (docs/file-structure.md): records are written in this order, and a record with another order is refused.", "quantifier": "all data records, any number of segments in any order", "why_tests_cant": "The number of orders is unbounded; tests use records whose segments are in order already.", "anchors": ["docs/file-structure.md", "pkg/lib/base_segment.go:577-622", "pkg/lib/base_segment.go:1067-1116", "pkg/lib/base_segment.go:1505-1542"]}
{"id": "C75", "title": "At most one L1 segment", "statement": "There can be several segments of a type, except for L1 (docs/file-structure.md): a record with more than one L1 segment is refused, and none is ever written.", "quantifier": "all data records, any number of L1 segments", "why_tests_cant": "No test repeats a segment other than J1 and J2, and the number of repetitions is unbounded.", "anchors": ["docs/file-structure.md", "pkg/lib/base_segment.go:692-717", "pkg/lib/base_segment.go:1505-1542"]}
{"id": "C76", "title": "Validate reports the first fault", "statement": "The error of Validate is about the first field, in the order of the declaration, that is mandatory but missing or breaks its rule, and says which of the two it is; for a file it is that of the first invalid record in the order header, trailer, data records, else about the first wrong total.", "quantifier": "all records, segments and files", "why_tests_cant": "Tests break one field at a time; which of several faults is reported depends on all values and on the order of reflection.", "anchors": ["pkg/lib/validators.go:86-114", "pkg/lib/base_segment.go:630-635", "pkg/lib/base_segment.go:1124-1152", "pkg/lib/header_record.go:275-290", "pkg/lib/trailer_record.go:314-329", "pkg/file/file_instance.go:138-199"]}
{"id": "C77", "title": "The generated client reads what the service writes", "statement": "The client type File decodes the JSON document of every valid file of the service, and its getters then show the values of the file, record by record and segment by segment.", "quantifier": "all files with values that JSON can carry, any number of data records and segments, every local time zone", "why_tests_cant": "No test feeds documents of the service to the client types; which documents are refused depends on every date and number.", "anchors": ["pkg/client/model_file.go", "pkg/client/model_header_record.go:22-41", "pkg/client/model_base_segment.go", "pkg/client/model_trailer_record.go", "pkg/lib/base_segment.go:720-808", "pkg/utils/time.go:15-60"]}
{"id": "C78", "title": "The service reads what the generated client writes", "statement": "Every file of the client whose segments are valid is written as a JSON document from which the service takes exactly the values that are set, times to the nanosecond in any zone of whole minutes; fields without a value are those of a new record, and the format is the one that the descriptors of the header tell.", "quantifier": "all values of the client type File, any number of data records and segments, all iteration orders of maps", "why_tests_cant": "Every field can be set or nil, independently; tests of the client are empty stubs.", "anchors": ["pkg/client/model_file.go", "pkg/client/model_header_record.go:602-647", "pkg/client/model_base_segment.go", "pkg/file/file_instance.go", "pkg/lib/base_segment.go:1544-1573"]}
{"id": "C79", "title": "From the service to the client and back", "statement": "A file that the client can read comes back to the service unchanged when the client writes it again.", "quantifier": "all files with values that JSON can carry and that the client can hold", "why_tests_cant": "A loss shows only for particular fields and values, in files of any number of records.", "anchors": ["pkg/client/model_base_segment.go", "pkg/client/model_l1_segment.go", "pkg/lib/base_segment.go:24-512", "pkg/lib/l1_segment.go"]}
{"id": "C80", "title": "Calls of the client have the answer of the service", "statement": "Convert, Print, Validator and Health return the body of a successful answer of the service for the bytes of the file and the parameters given, and otherwise an error with the status, the body, and the body once more as its model for the documented codes; a call without a file is answered with 400.", "quantifier": "all arguments of the calls, all file contents, all boundaries of the form", "why_tests_cant": "The calls need a running server, and parameters, content types and results combine without bound.", "anchors": ["pkg/client/api_metro2_files.go:94-217", "pkg/client/api_metro2_files.go:246-316", "pkg/client/api_metro2_files.go:367-470", "pkg/client/api_metro2_files.go:506-614", "pkg/client/client.go:80-88", "pkg/client/client.go:276-418", "pkg/client/client.go:420-473", "pkg/server/server.go:18-250"]}
{"id": "C81", "title": "The client reports files that it cannot read", "statement": "If the file given to a call cannot be read to its end, the call is an error.", "quantifier": "all files and arguments", "why_tests_cant": "Needs a read error at an arbitrary place of a file.", "anchors": ["pkg/client/api_metro2_files.go:151-160", "pkg/client/client.go:321-333"]}
{"id": "C82", "title": "JSON documents that say the same are read alike", "statement": "The order of the members of a JSON object does not matter, and of repeated members only the last one counts: two documents that differ in this only, at any depth, are read into a file with the same result.", "quantifier": "all JSON documents, all chains of such changes, all files they are read into, all orders of Go maps", "why_tests_cant": "There are factorially many orders at every level of a document; tests use the order in which the library writes.", "anchors": ["pkg/file/file.go:40-48", "pkg/file/file.go:105-134", "pkg/file/file_instance.go:343-403", "pkg/lib/base_segment.go:749-808", "pkg/lib/base_segment.go:1266-1323"]}
{"id": "C83", "title": "Members that are not known are ignored", "statement": "Members whose names the library does not define, added at the top of a JSON document, in data records, or in the fields of headers, trailers, base segments and applicable segments, do not change the file that is read.", "quantifier": "all JSON documents, all numbers, places and values of such members", "why_tests_cant": "The names and values of such members are unbounded.", "anchors": ["pkg/file/file.go:40-48", "pkg/file/file.go:105-134", "pkg/file/file_instance.go:343-403", "pkg/lib/base_segment.go:749-808", "pkg/lib/base_segment.go:1266-1323", "pkg/lib/base_segment.go:1544-1573"]}
{"id": "C84", "title": "Exactly what survives being written and read", "statement": "A value, segment, header, trailer or data record comes back unchanged from being written and read by Parse into a new value if and only if it is well-formed: text of permitted characters that fits and does not end in a blank; numbers that fit, where a negative number must leave no room for a leading zero; existing seconds or days in UTC, not the zero time where a date is required; binary numbers within their bytes; segments that are valid; a block descriptor if and only if one is asked for; and, in a data record, a size word that covers the content. Block descriptors that are negative are left out.", "quantifier": "all field values of the Go types, all segments, all headers and trailers, all data records with any number of segments, both encodings and blockings", "why_tests_cant": "The values are unbounded, and an example that survives says nothing about those that do not.", "anchors": ["pkg/lib/converters.go: toString", "pkg/lib/converters.go: parseValue", "pkg/lib/converters.go: parseRecordValues", "pkg/lib/base_segment.go: BaseSegment.Parse", "pkg/lib/base_segment.go: PackedBaseSegment.Parse", "pkg/lib/header_record.go: HeaderRecord.Parse", "pkg/lib/trailer_record.go: TrailerRecord.Parse"]}
{"id": "C85", "title": "Exactly what the client can write and read back", "statement": "The client writes a file if and only if the year of every time in it has four digits and every zone is less than a day away from UTC. Client and service both read a time that exists, with whatever fraction of a second, as the same time with the seconds of its zone's offset dropped, and so as it was if and only if its zone is UTC or whole minutes away from it. The client reads its own document as the file that it wrote, with all times changed in that way, and as the very same file if and only if all its zones are UTC or whole minutes away.", "quantifier": "all values of the client type File that Go can hold with well-formed texts and existing times, any number of data records and segments", "why_tests_cant": "Times are unbounded in fraction and zone, and each of the fields can be set or nil independently; the tests of the client are empty stubs.", "anchors": ["pkg/client/model_file.go:126-142", "pkg/client/model_data_record.go:331-367", "pkg/client/model_header_record.go:22-41", "pkg/utils/time.go:15-60"]}
{"id": "C86", "title": "What does not matter to the client", "statement": "In a JSON document of a file, the client does not care for the order of members that do not mean the same, for the case of their names, for members that it does not know, or for a null that comes before any other value of its member. Changed in any of these ways, at any place and any number of times, the document is read as the same file: the one of the service still shows its values, and the one of the client itself still comes back. A null after other values of the same field takes the value from an optional field and leaves that of a required one.", "quantifier": "all JSON documents, all sequences of such changes at all places", "why_tests_cant": "The documents, the names of unknown members and the sequences of changes are unbounded; the tests of the client are empty stubs.", "anchors": ["pkg/client/model_file.go:21-25", "pkg/client/model_data_record.go:21-31", "pkg/client/model_header_record.go:22-41", "pkg/client/model_k3_segment.go", "pkg/client/client.go:420-473"]}
{"id": "C87", "title": "Written fields follow the reporting standards", "statement": "In everything that is written, each field stands in its documented place as the reporting standards say: texts left-justified, in upper case and blank-filled, numbers with leading zeros, dates as MMDDYYYY (packed values as their documented bytes), a descriptive field that is not available blank-filled and any other one zero-filled; behind the fields and the appended segments there are only blanks. (Violated in two ways: a packed date that is not available is never zero-filled but written as January 1 of the year 1, and neither writing nor Validate has texts left-justified or in upper case.)", "quantifier": "all headers, data records, trailers and segments in both formats, all fields, all numbers in the range of their field, all single-byte texts, all existing times", "why_tests_cant": "Tests compare a few whole records; a wrong filling shows only for values that the samples do not have, such as a packed date that is not available.", "anchors": ["docs/file-structure.md", "pkg/lib/converters.go:57-102", "pkg/lib/converters.go:244-303", "pkg/lib/header_record.go:130-151", "pkg/lib/base_segment.go:577-622", "pkg/lib/trailer_record.go:190-207"]}
{"id": "C88", "title": "From Metro 2 to JSON and back", "statement": "A Metro 2 text that the service (or the command) turns into JSON, and whose JSON it turns into Metro 2 again, comes back byte for byte; both requests succeed. (Violated for files with block descriptors whose header does not tell the format: a character file whose header has a record descriptor other than 426 comes back packed, and a packed file whose header has the record descriptor 426 comes back in character format. These are exactly the texts that change.)", "quantifier": "all well-formed files in both formats and blockings, with and without line breaks, through /print and /convert and the two commands in any combination, all map iteration orders and chunkings of the input", "why_tests_cant": "It joins reader, JSON encoder, JSON text, decoder, format detection and writer for every file; tests take single steps with a few files.", "anchors": ["pkg/server/server.go:18-237", "cmd/metro2/main.go:114-262", "pkg/file/file.go:72-304", "pkg/file/file_instance.go:264-420"]}
{"id": "C89", "title": "What was read is written as a text that is read in the same way", "statement": "Whatever text the reader accepts, the text written for the resulting file is accepted too, and gives the same file; so the service's answer for Metro 2, sent again, is answered by itself. (Violated in two ways: a negative number that does not fill its field is written with zeros before the minus sign and refused, and a header that announces fewer bytes than are written for it makes the rest unreadable. If every record is written in the length that it announces, which always holds without block descriptors, the file comes back exactly if every record is regular and the trailer's text is not one of a data record; a trailer with its name never is.)", "quantifier": "all texts of any length that the reader accepts, with any junk, non-canonical values, line breaks and padding in them, both formats and blockings, all chunkings of both inputs, written with and without line breaks", "why_tests_cant": "Tests read texts that the program itself could have written. The claim is about every text that is accepted, and joins scanner, format detection, record parsing, writing and reading again.", "anchors": ["pkg/file/file.go:154-304", "pkg/file/file_instance.go:264-336", "pkg/lib/base_segment.go:537-622", "pkg/lib/converters.go:25-164", "pkg/utils/file.go:26-61"]}
{"id": "C90", "title": "Exactly the well-formed files come back from their own text", "statement": "A file whose records have the lengths that they announce, and whose trailer has its name, is read from its own text exactly if all its values fit their fields, its descriptors cover its content and no record contains a CR or LF byte. Without a block descriptor nothing has to be supposed about lengths. And whatever text a file was read from, each of its records announces at least the length of a record of its format and at most the largest number that the descriptor can hold.", "quantifier": "all files, with any values, any number of data records and segments, both formats and blockings; all texts without a brace among the first 1024 bytes; all chunkings; with and without line breaks", "why_tests_cant": "Tests show files that come back. That no other file does is a claim about every file outside the well-formed ones, of any length.", "anchors": ["pkg/file/file.go:154-304", "pkg/file/file_instance.go:202-336", "pkg/lib/base_segment.go:537-622", "pkg/lib/base_segment.go:997-1503", "pkg/lib/converters.go:25-164"]}
{"id": "C91", "title": "A packed file can be taken to the character format", "statement": "SetType(\"character\"), and `/convert` with type=character, on a file that was read in the packed format gives a file whose text can be read again. (Violated: the descriptors are kept, but records of the character format have at least 426 bytes and those of the packed format 366. If any record announces less than 426 bytes, no text at all is read as the converted file; if the header does, the text of the converted file is always refused, and the service answers 200 for the conversion and 400 for what it has converted. If the converted records have the lengths that they announce, the file comes back exactly if it is well-formed in the character format.)", "quantifier": "all well-formed packed files with any number of data records and segments, all texts, chunkings and requests", "why_tests_cant": "The repository converts files but does not read the converted text. The claim that nothing is read as the converted file is about all texts.", "anchors": ["pkg/file/file_instance.go:411-459", "pkg/server/server.go:18-250", "pkg/file/file.go:154-304", "pkg/lib/specifications.go:20-340"]}
{"id": "C92", "title": "A file closed with a generated trailer can be read and is as valid as its records", "statement": "If header and data records are well-formed, the trailer from GeneratorTrailer is accepted by SetRecord, the text of the file is read as the same file, and Validate accepts it exactly if it accepts header and data records; so `/convert?generate=true` followed by `/validator` gives 200 exactly for those. (Violated for packed files: a total with a byte 10 or 13 is taken for a line break. With 8, 10, 11 or 13 data records no packed file with a generated trailer comes back. For character files it holds for up to 10^9 people; for packed files the exact condition is proved.)", "quantifier": "all files with well-formed header and any number of well-formed data records with any segments, all four combinations of format and blocking that exist, all chunkings, with and without line breaks, all requests", "why_tests_cant": "The totals depend on all data records together. Tests generate trailers for files with one or two data records; the failing numbers are among those that they do not try.", "anchors": ["pkg/file/file_instance.go:92-200", "pkg/file/file_instance.go:490-640", "pkg/file/file.go:154-304", "pkg/lib/specifications.go:163-260", "pkg/server/server.go:18-250"]}
{"id": "C93", "title": "A failing run changes no files", "statement": "The commands of the program change no file but the output of `convert`; after a success it contains exactly the file, with its generated trailer if one is asked for, in the type and in the format asked for, and if a run fails all files are as they were before. (Violated: the output is emptied before it is written; if writing fails, what was there before is lost, and a part of the text is left. In all other failures nothing is changed, and the part that is left is exactly as long as there was room for.)", "quantifier": "all command lines with any flags given or not, all contents of the disk, all paths, with any paths naming the same file, all errors of opening, reading, creating and writing", "why_tests_cant": "Tests run the commands on a few files and do not compare the rest of the disk; write errors do not happen in them.", "anchors": ["cmd/metro2/main.go:26-48", "cmd/metro2/main.go:91-248", "cmd/metro2/main.go:252-277"]}
{"id": "C94", "title": "A file can be converted in place", "statement": "What `convert` writes does not depend on which file is the output, even if it is the input itself or another name of it. A well-formed Metro 2 file that is converted to Metro 2 over itself is not changed. Converted to JSON and back, in place or not, the text comes back exactly if the descriptors of the header tell the format.", "quantifier": "all command lines of convert, all contents of the disk, all well-formed files of any length, all paths including names of the same file", "why_tests_cant": "The repository's tests convert to another path; in place conversion depends on the order of reading and creating.", "anchors": ["cmd/metro2/main.go:26-48", "cmd/metro2/main.go:169-248", "pkg/file/file.go:72-135"]}
{"id": "C95", "title": "The exit status tells if a run failed", "statement": "The program ends with exit status 0 exactly if it did what it was asked for. (Violated: the error that cobra's Execute returns is dropped, and the exit status is 0 in all cases. What holds: the standard error is empty exactly after a success, and has a line with the error otherwise.)", "quantifier": "all command lines, all contents of the disk, all errors of the operating system", "why_tests_cant": "The tests call the commands, not main.", "anchors": ["cmd/metro2/main.go:252-277", "cmd/metro2/main.go:57-248"]}
{"id": "C96", "title": "The program and the service agree", "statement": "For the same file and the same parameters, the service answers 200 exactly if the program succeeds; the answer to /convert is what `convert` writes and the answer to /print what `print` prints: the same Metro 2 text, or two JSON texts for one value; /validator answers 200 exactly if `validator` says that the file is valid. (Violated if the parameter newline is not given: the service then separates records by line breaks and the program does not.)", "quantifier": "all files of any length in Metro 2 and JSON, all requests and command lines whose parameters say the same, all ways of delivering the input", "why_tests_cant": "The tests of the service and of the program use different files and do not compare results.", "anchors": ["cmd/metro2/main.go:87-248", "pkg/server/server.go:18-250"]}
{"id": "C97", "title": "Segments and records report their sizes", "statement": "The size that Parse reports for a record or segment is the one that its accessors give afterwards (the block size if there is one, else the length; for segments the length), and it is the number of bytes in which the record is written, so that the bytes of a file can be gone through by the sizes of its records; CreateFile of these bytes gives the file back. (Violated for the number of bytes: a character record with a block descriptor whose segments leave room is 4 bytes too short, and a header that announces 426 to 429 bytes is written with 430. It holds for well-formed files and for all files with fixed-length records that were read.)", "quantifier": "all records and segments with any contents, all input texts, all files with any number of records, both formats and blockings, all ways of delivering the bytes", "why_tests_cant": "The tests compare Length and BlockSize of one sample per type with constants.", "anchors": ["pkg/lib/header_record.go:154-171", "pkg/lib/header_record.go:293-300", "pkg/lib/base_segment.go:625-645", "pkg/lib/base_segment.go:1119-1162", "pkg/lib/trailer_record.go:210-227", "pkg/lib/trailer_record.go:309-339", "pkg/lib/segment.go:18-33", "pkg/file/file_instance.go:338-340", "pkg/file/file.go:138-141"]}
{"id": "C98", "title": "Names and types of records and files", "statement": "The six record types have different names; SetRecord and AddDataRecord take a valid record exactly if its name is that of a header, trailer or data record of the file's type; GetType is the name given to NewFile, changes only by a successful SetType and is then the name given there; GetRecord finds header and trailer by their own names. The eight segment types have different names, and what AddApplicableSegment takes without an error is found by GetSegments under its name, with nothing changed under other names. (Violated for packed files: GetRecord takes neither of its names. Violated for records given as segments: AddApplicableSegment takes and drops them.)", "quantifier": "all records of all types with any contents, all names, all files and all sequences of calls", "why_tests_cant": "The tests call GetRecord with constants only and SetRecord with a few records.", "anchors": ["pkg/lib/record.go:33-44", "pkg/file/file_instance.go:37-89", "pkg/file/file_instance.go:406-488", "pkg/file/file.go:50-69", "pkg/lib/base_segment.go:648-717", "pkg/lib/segment.go:8-124"]}
{"id": "C99", "title": "Damage to one record is noticed or stays in that record", "statement": "If bytes of one record of a well-formed file are overwritten, reading the file fails, or gives the file with that one record changed and all other records as they were. (Violated: a data record that can no longer be read is tried as a trailer, and if that succeeds the rest of the file is dropped without an error; and a changed digit in the length of a record makes the next record disappear.)", "quantifier": "all well-formed files in both formats and blockings, every position of the damaged record, all damaged texts of the same length, all deliveries of the data", "why_tests_cant": "The tests damage single fields of single records; which of the possible damages cost more than the damaged record is a question about all byte strings.", "anchors": ["pkg/file/file.go:154-221", "pkg/file/file.go:237-304", "pkg/lib/trailer_record.go:175-187", "pkg/lib/base_segment.go:537-574"]}
{"id": "C100", "title": "The error text of a failed reading names the record at fault", "statement": "If a file cannot be read because of one record, the error text of Read or Parse is about that record: it names its type and the field that is wrong. A record that SetRecord or AddDataRecord refuses, a name that GetRecord does not know and a format that NewFile does not know are named in the text. (Violated for data records: their errors are dropped and the record is tried as a trailer, so that every text is about the header or the trailer or names no record; letters in a credit limit are reported as a fault in a count of the trailer.)", "quantifier": "all byte strings given to the reader and to Parse, all well-formed files in both formats and blockings with one damaged record at any position, all deliveries, all records and names", "why_tests_cant": "The tests compare a few error texts of single records; that no input at all gives a text about a data record is a statement about all inputs.", "anchors": ["pkg/file/file.go:50-69", "pkg/file/file.go:154-221", "pkg/file/file_instance.go:37-84", "pkg/file/file_instance.go:202-255", "pkg/utils/errors.go:14-93"]}
{"id": "C101", "title": "Reserved places are blank and do not matter", "statement": "The bytes of the layouts that belong to no field are the reserved places of the records and segments (bytes 281-426 of a character header, 215-231 of a character base segment, 21-29 and 408-426 of a character trailer, the corresponding ones of the packed records, and the reserved bytes of J1, J2, K2, K4, L1 and N1). Whatever the values of a record or segment are, these places are written as blanks; and whatever bytes stand there, the record or segment is read with the same values, the same appended segments, the same error and the same number of bytes.", "quantifier": "all header, data and trailer records in both formats and blockings, all eight kinds of segments, all field values, all input bytes, all previous contents of the record that reads", "why_tests_cant": "The tests compare texts that have blanks in the reserved places; that no byte in them can change the outcome of reading is a statement about all inputs.", "anchors": ["pkg/lib/converters.go:57-62", "pkg/lib/converters.go:64-76", "pkg/lib/converters.go:119-164", "pkg/lib/specifications.go:20-340"]}
{"id": "C102", "title": "Exactly what is taken for a Metro 2 file", "statement": "The streaming reader accepts an input exactly if its bytes, line breaks aside, are divided by their size words into a header, any number of data records and a trailer (the first record behind the header that is no data record), where the header has the word HEADER in capital letters behind one size word (fixed) or two (blocked), and zeros in the last two bytes of a size word mean the packed format; the file then has exactly these records, in this order, and the format that the header tells. NewFileFromReader takes an input with a brace among its first 1024 bytes for JSON and every other for such a stream; File.Parse accepts a text exactly if it consists of a header, data records each beginning where the one before says that it ends, and a trailer that ends with the text. A packed file that is accepted is blocked.", "quantifier": "all byte strings, all deliveries by the reader underneath, all files, both formats and blockings, any number of data records", "why_tests_cant": "The tests read a few files and a few damaged ones. An if-and-only-if over all byte strings says that nothing else is accepted and that nothing of this form is refused.", "anchors": ["pkg/file/file.go:71-135", "pkg/file/file.go:154-221", "pkg/file/file.go:237-304", "pkg/file/file_instance.go:202-255", "pkg/utils/file.go:26-61"]}
{"id": "C103", "title": "A refused JSON document leaves the file as it was", "statement": "Reading a JSON document into a file is all or nothing: if UnmarshalJSON returns an error, the file is as before. In detail, for accepted and refused documents alike: header and trailer take exactly the good values of the members before the first bad date, all other fields keep their values, a bad date becomes the zero time; an error is returned exactly if some member has a value that its field cannot take; no data record is removed or changed, and those added are the first ones of the list, each read whole; a single data record read from a document holds the segments of the entries before the first error, of a list with a refused element those before it, and the fields of `base` if that entry was reached; format, types and segments of the file stay sound. NewFileFromReader returns a file without an error exactly if the document is accepted, and a file that comes with an error is sound as well.", "quantifier": "all JSON documents, all files, both formats, all orders in which Go may visit a map, any number of data records", "why_tests_cant": "The tests look at files after success only. What is left after an error depends on which of infinitely many documents fails where, and on the random order of map iteration.", "anchors": ["pkg/file/file_instance.go:343-403", "pkg/file/file.go:105-134", "pkg/lib/base_segment.go:749-808", "pkg/lib/base_segment.go:1266-1323", "pkg/lib/base_segment.go:1544-1573", "pkg/utils/time.go:15-24"]}
{"id": "C104", "title": "The answer tells why an input is not taken", "statement": "An input that is not taken as a file is answered with the reason: there is exactly one reason for each such input, it does not depend on how the input is delivered, and it is the same for the service (status 400, plain text, introduced by how the input was sent) and for the program (on the error output, introduced by `Error: `). The reason of a Metro 2 text is about its header or its trailer, that of a JSON document names the part of the document that cannot be read. A file that is not valid is answered with status 501 and the field and what is wrong with it, generating totals for a file without data records with the missing total, an unknown format with that format.", "quantifier": "all requests to the three paths, all runs of the program, all inputs of any length, both formats, all deliveries of the input, all orders in which Go may visit a map", "why_tests_cant": "The tests compare a few error texts. That each of infinitely many inputs has exactly one reason, and that service and program agree on it however the input is cut into pieces, needs a proof.", "anchors": ["pkg/server/server.go:18-55", "pkg/server/server.go:118-231", "pkg/file/file.go:72-135", "pkg/file/file.go:154-221", "pkg/file/file_instance.go:343-403", "cmd/metro2/main.go:87-248"]}
{"id": "C105", "title": "The address a call of the client goes to", "statement": "The address of a server is its template with the value of each variable in its places: the value that is given, else the default; places of unknown variables stay. It does not depend on the order in which Go visits the variables. There is no address exactly if the index is out of range or a given value is not one of those allowed, and the error tells which. The servers, the index and the variables of an endpoint come before the general ones; values of a wrong type in the context are errors that name the type. A client as it comes goes to http://localhost:8080.", "quantifier": "all configurations, contexts, endpoints, templates of any length, any number of variables, all orders of the map", "why_tests_cant": "The order of map iteration is random, and the templates, values and contexts are unbounded.", "anchors": ["pkg/client/configuration.go:57-133", "pkg/client/configuration.go:140-214"]}
{"id": "C106", "title": "The values of the address of a call arrive", "statement": "The service receives for each key of the query exactly the values that the client was given, in their order, whatever bytes keys and values have; nothing is added or lost. The text of the query has only bytes that may be in an address, and depends on the values of each key only, not on the order in which Go visits the keys.", "quantifier": "all lists of keys and values, of any length and with any bytes", "why_tests_cant": "Needs all byte strings, among them those with the bytes that separate and escape, and all orders of a map.", "anchors": ["pkg/client/client.go:36-41", "pkg/client/client.go:369-382", "pkg/server/server.go:83-107"]}
{"id": "C107", "title": "Records in memory behave like values", "statement": "With pointers, slices and append as Go has them, every call (AddApplicableSegment, SetRecord, AddDataRecord, SetType, assignments to fields) returns and does to its record or file what it does to values, and changes no other record. (Violated: SetType copies structs with their slices, so that the old record and the new one, or the two copies of a record that was added twice, share an array; a segment added to one then replaces a segment of the other. Also, a file keeps pointers: a record that it took as valid may be made invalid later.) Shown: it holds without SetType, and exactly when another record changes.", "quantifier": "all sequences of calls with any arguments from a new file, all ways in which the runtime enlarges arrays", "why_tests_cant": "Depends on the spare capacity of arrays, which depends on the number of appended segments and on the runtime; the tests do not look at a record again after another one was changed.", "anchors": ["pkg/file/file_instance.go:37-89", "pkg/file/file_instance.go:411-488", "pkg/lib/base_segment.go:501-508", "pkg/lib/base_segment.go:692-717", "pkg/lib/base_segment.go:1209-1234"]}
{"id": "C108", "title": "Reader.Read and File.Parse read the same file", "statement": "For bytes that consist of records and line breaks, and with the format and blocking that the header tells, Reader.Read and File.Parse accept the same inputs and return the same file. (Violated: File.Parse hands each record all that follows it, so that one or two bytes behind the segments of a record, together with the first bytes of the next one, are taken for the name of a segment; and it does not look at the word HEADER. File.Parse also refuses records behind the trailer, which the reader ignores.) Shown: exactly when File.Parse accepts what the reader accepts, and exactly when the reader accepts a character text that File.Parse accepts.", "quantifier": "all byte sequences, both formats and blockings, all ways in which the input is delivered, all files", "why_tests_cant": "The difference depends on the last bytes of one record and the first bytes of the next one; tests compare both readers on a few regular files only.", "anchors": ["pkg/file/file.go:154-304", "pkg/file/file_instance.go:202-255", "pkg/lib/base_segment.go:537-574", "pkg/lib/base_segment.go:1505-1542"]}
{"id": "C109", "title": "64-bit arithmetic never changes a result", "statement": "Positions, sizes and counters are of type int, whose sums wrap around at 2^63. Reading a record or a file, the size to which a data record is padded, the pages for the goroutines and the totals of the trailer are nevertheless what unbounded arithmetic gives: for every text below 2^62 bytes, whatever sizes its records name and whatever numbers the file that is read into holds; for every block size, also where the sum wraps around; and for less than 2^59 data records and segments. All numbers that are read fit a word.", "quantifier": "all texts below 2^62 bytes, all records and files, all 64-bit values of their fields, both formats and blockings, all numbers of goroutines", "why_tests_cant": "A wrong result would need sizes or counts near 2^63, and which sums can come near it depends on all records read before.", "anchors": ["pkg/lib/converters.go:119-164", "pkg/lib/base_segment.go:537-574", "pkg/lib/base_segment.go:997-1075", "pkg/lib/base_segment.go:1505-1542", "pkg/file/file_instance.go:202-255", "pkg/file/file_instance.go:285-291", "pkg/file/file_instance.go:490-834"]}
{"id": "C110", "title": "Accessors of the client types", "statement": "For all 13 types and 176 fields of the generated client: after SetX, GetX gives the value and HasX is true, and no other field of any object changes; the constructor gives its arguments, in order, to the required fields and leaves the others unset; the document of a record has the member of a field exactly if the field is required or HasX is true, with what GetX returns. A nullable value comes back from its JSON text as it was. Changing a field of one object leaves all other objects as they are. (Violated: a copy of a struct holds the same pointers, so that writing through what GetXOk returns also changes the original; a nullable value that is not set comes back as set, and that of a time panics. Shown: exactly which fields a write changes, that it is one field if no struct is copied, and that nullable values come back exactly if they are set.)", "quantifier": "all types, fields and values; all sequences of constructor calls, SetX, writes through GetXOk and copies", "why_tests_cant": "The generated accessors have no tests at all in the repository; one wrong field name in 700 methods of the same shape would not be seen, and sharing shows only after a copy.", "anchors": ["pkg/client/model_header_record.go:22-683", "pkg/client/model_base_segment.go:22-1565", "pkg/client/model_data_record.go", "pkg/client/utils.go:43-343"]}
{"id": "C111", "title": "Forms arrive as they were sent", "statement": "The bytes of a form with parts that the client puts together are read by the service as the same values and the same file, whatever the order of the values, the names (quotes and backslashes included) and the contents; so the results of C80 and C81 hold for the bytes that are sent. The header Content-Length names the length of the body. (Violated: the boundary is drawn without looking at the file, so that it may occur in it, and then the file is cut; line breaks in names arrive as %0D and %0A; the length is taken before the end is written and is too small by the length of the boundary and 8. Shown: parts arrive exactly if the boundary occurs in no content at the beginning of a line.)", "quantifier": "all calls with all arguments, all orders of the form, all boundaries of digits and small letters; all lists of parts with any names and contents", "why_tests_cant": "Contents and names are unbounded; whether a content collides with the boundary depends on every byte.", "anchors": ["pkg/client/client.go:301-341", "pkg/client/api_metro2_files.go:94-164", "pkg/server/server.go:18-38", "pkg/server/server.go:83-107"]}
{"id": "C112", "title": "A response expires when its headers say", "statement": "The client computes from the headers of a response when it expires: with a date and a maximum age of so many seconds, that many seconds after the date, whatever the other directives and `Expires` say, the last maximum age counting; without a maximum age at `Expires`; without both at the zero time; without a readable date at once. (Violated: the name of the directive in other letters is not seen; an age of 2^63 nanoseconds or more, some 292 years, expires at once; values with units are read as durations, so that 1m is a millisecond, and negative ages lie in the past.)", "quantifier": "all dates in the form of HTTP, all lists of directives with any blanks and empty places between them, all ages, all clocks and local zones in which GMT is Greenwich time", "why_tests_cant": "Dates, lists of directives and ages are unbounded, and the limit of the age lies at a number that no sample would hit.", "anchors": ["pkg/client/client.go:566-584", "pkg/client/client.go:587-613"]}
{"id": "C113", "title": "Headers of a call", "statement": "A request of the client has the default headers of its configuration with their values, in whatever order the map is walked through; setting one replaces its value and leaves the others alone. The name of the client, the type, the accepted types and the length of the call stay whatever default headers there are. (Violated: a default header for one of these four comes second, so the name of the client cannot be set in this way; two default headers that differ in case only come in the order of the map.)", "quantifier": "all configurations, all calls, all names and values of headers, all orders of the map", "why_tests_cant": "Names and values are unbounded, names are compared in canonical form, and the order of a map cannot be chosen by a test.", "anchors": ["pkg/client/client.go:91-101", "pkg/client/client.go:394-417", "pkg/client/configuration.go:86-105", "pkg/client/api_metro2_files.go:113-135"]}
{"id": "C114", "title": "Layouts follow the standard", "statement": "The layout of every record and segment is the list of fields that the Metro 2 format prescribes: each field begins where the one before it ends, has the prescribed width, and the packed layout follows from the character layout by shortening descriptors, numbers and dates only. A written value stands at that place.", "quantifier": "all layouts, all fields, both formats, all records with values of fitting size", "why_tests_cant": "Two fields of the same type and width that are exchanged, or a byte moved from one to its neighbour, survive every test that writes and reads with the same table.", "anchors": ["pkg/lib/specifications.go:21-120", "pkg/lib/specifications.go:121-260", "pkg/lib/specifications.go:261-340"]}
{"id": "C115", "title": "New records", "statement": "A new header, trailer or segment has its identifier and nothing else; a new data record has no values; a new file has the records of its format and no data; no other name makes a file. None of these is valid as it is. (Violated: a new K3 segment is.)", "quantifier": "all record and segment types, both formats, all names of formats", "why_tests_cant": "Tests make new records only to fill them; what is in a field that the test sets anyway is not seen.", "anchors": ["pkg/lib/record.go:61-96", "pkg/lib/segment.go:71-124", "pkg/file/file.go:51-70"]}
{"id": "C116", "title": "Documents that the client reads", "statement": "The generated client reads a JSON document exactly if it is null or an object in which every member that the client knows, in whatever letters, is null or of the right form: texts, whole numbers of 32 or 64 bits, times, objects and lists of such. A single wrong part anywhere spoils the whole document, whatever other members say.", "quantifier": "all JSON documents", "why_tests_cant": "Documents nest three levels with more than 300 known members, each of which may be absent, null, repeated, or of any of six JSON types.", "anchors": ["pkg/client/model_file.go:21-26", "pkg/client/model_data_record.go:21-32", "pkg/client/client.go:420-480"]}
{"id": "C117", "title": "Documents that the library reads", "statement": "A JSON document is read into a file exactly if it is null or an object, all its numbers are in the range of float64, and every known member, of repeated ones the last, is null or of the right form: texts, whole numbers of 64 bits, dates (which may not be null), objects and lists of such, with valid segments. It does not matter what the file held before, nor in which order the maps are visited.", "quantifier": "all JSON documents, all files of the right types, all iteration orders", "why_tests_cant": "Documents nest three levels with more than 200 known members, each of which may be absent, null, repeated or of any of six JSON types; tests only read documents that the library wrote.", "anchors": ["pkg/file/file_instance.go:343-403", "pkg/lib/base_segment.go:749-808", "pkg/lib/base_segment.go:1544-1573", "pkg/utils/time.go:15-24", "pkg/file/file.go:105-134"]}
{"id": "C118", "title": "Texts that the client takes for times", "statement": "A text in a date field of a JSON document is taken for a time by the generated client exactly if it is a text of RFC 3339 for an existing time, and it is read as that time.", "quantifier": "all texts, all times, all local time zones", "why_tests_cant": "The texts of dates are unbounded (any number of digits of a second, any bytes in between), and tests only try texts that were written by the library.", "anchors": ["pkg/client/model_header_record.go:22-41", "pkg/client/model_base_segment.go:22-68"]}
{"id": "C119", "title": "Errors of the client tell why a file was refused", "statement": "If the service does not read the file of a call, the error that Convert, Print or Validator returns tells the reason; the errors of all calls carry the body of the answer, and once more as model for the codes that the call has a model for.", "quantifier": "all calls with all arguments, all files, all answers of the service", "why_tests_cant": "The client has no tests; reasons, calls and codes combine without bound.", "anchors": ["pkg/client/api_metro2_files.go:166-217", "pkg/client/api_metro2_files.go:430-470", "pkg/client/api_metro2_files.go:563-614", "pkg/client/client.go:620-659", "pkg/server/server.go:18-47"]}
{"id": "C120", "title": "Nullable values of the client", "statement": "Reading a document into a Nullable value of the client replaces what it held by what the document says and changes no other value; what it writes is read again as the same, set or not set. (Violated: a value that is held is overwritten in place, so that members which the document leaves out stay and everyone who has its address sees the change; a value that is not set is written as null and read as set; a NullableTime that holds nothing panics when it is written.)", "quantifier": "all record and segment types of the client, all values, all documents, all contents of memory", "why_tests_cant": "The client has no tests; who else holds an address, and which members a document leaves out, is unbounded.", "anchors": ["pkg/client/model_k1_segment.go:135-169", "pkg/client/model_file.go:144-178", "pkg/client/utils.go:43-329"]}
{"id": "C121", "title": "A reader that is asked again", "statement": "Calling Read again on the same Reader returns the next file of the stream, as a new Reader would, and a file that was returned is not changed by later calls. (Violated: all calls return the same object, and the call that finds the end of the stream removes the data records of the last file; a character file behind a packed one, and a file with fixed-length records behind one with block descriptors, are not read as they are.)", "quantifier": "all lists of well-formed files in any formats and blockings, all ways in which the input arrives, all contents of a used reader", "why_tests_cant": "The tests call Read once per Reader; the number, order and sorts of files in a stream are unbounded, and so are the ways the stream is cut into reads.", "anchors": ["pkg/file/file.go:143-234", "pkg/file/file_instance.go:411-488"]}
{"id": "C122", "title": "What a refused text leaves", "statement": "A Parse that returns an error leaves the record, segment or file as it was. (Violated: fields that stand before the one that cannot be read are replaced, a data record whose segments cannot be read has all new fields and loses its J1 and J2 segments, and a file loses all its data records even if the text is empty.)", "quantifier": "all records, segments and files, whatever they hold, all texts that are refused, both blockings", "why_tests_cant": "The tests look at the error of a refused text and not at what the object holds afterwards; the place at which reading ends and the old contents are arbitrary.", "anchors": ["pkg/lib/converters.go:119-164", "pkg/lib/base_segment.go:537-574", "pkg/lib/base_segment.go:997-1064", "pkg/lib/header_record.go:112-127", "pkg/lib/header_record.go:189-243", "pkg/lib/trailer_record.go:175-187", "pkg/lib/trailer_record.go:248-286", "pkg/lib/segment.go", "pkg/file/file_instance.go:202-255"]}
{"id": "C123", "title": "No input makes the service or the program panic", "statement": "With every step that can panic made explicit (type assertions and Int() on reflected values, slice bounds, stores into slices, strings.Repeat with a negative count, Grow with a negative size), records, segments and files whose values have the types of their structs are written without a panic, whatever the values are and for any number of goroutines. No text makes reading panic. No request makes a handler panic and no input and flags make a command panic; what they answer is what the total model says.", "quantifier": "all values of the Go types in all fields, all files, any number of goroutines, all texts with all ways of delivering them, all requests, all commands", "why_tests_cant": "A test that does not panic says nothing about other values; numbers, descriptors, block sizes, page sizes and segments are unbounded.", "anchors": ["pkg/lib/converters.go:57-102", "pkg/lib/converters.go:270-310", "pkg/lib/header_record.go:129-149", "pkg/lib/base_segment.go:576-620", "pkg/file/file_instance.go:257-335", "pkg/file/file.go:72-234", "pkg/server/server.go:18-250", "cmd/metro2/main.go:91-247"]}
{"id": "C124", "title": "Reading takes work in proportion to the text", "statement": "Reading a text of n bytes, by Record.Parse, File.Parse or Reader.Read, calls Parse of a record or segment at most n/30 + 3 times, whatever the text is, whether or not it is accepted, and however it is delivered.", "quantifier": "all texts, all records, all files, all ways of delivering a text", "why_tests_cant": "A bound on work for all inputs is about the worst text; tests time a few well-formed ones. The worst one here makes File.Parse run forever.", "anchors": ["pkg/lib/base_segment.go:549-573", "pkg/lib/base_segment.go:1040-1063", "pkg/lib/base_segment.go:1505-1543", "pkg/file/file_instance.go:202-250", "pkg/file/file.go:154-234"]}
{"id": "C125", "title": "Writing takes work in proportion to the text", "statement": "Joining the texts of the segments of a data record copies at most a fixed multiple of the length of the record.", "quantifier": "all data records with any number of segments", "why_tests_cant": "The cost grows with the square of the number of segments, which is small in every test.", "anchors": ["pkg/lib/base_segment.go:577-622", "pkg/lib/base_segment.go:1067-1116"]}
{"id": "C126", "title": "Finding the next record takes work in proportion to the data", "statement": "One call of scanRecord, which finds the next record in the buffered data of a stream, looks at no more bytes than a fixed multiple of the length of the data.", "quantifier": "all data, at the end of the stream or before it", "why_tests_cant": "The cost is quadratic only for data with many line breaks, which no test has; a test of the result does not see the cost.", "anchors": ["pkg/file/file.go:237-304"]}
{"id": "C127", "title": "The text that is written is bounded", "statement": "Whatever values a record holds, negative or huge descriptor words, texts of any length and of characters of several bytes and dates of any year among them, its text has at least its documented length and at most four times that and a block descriptor, or at most 65535 bytes if that is more. A file is written in at most 65536 bytes for each record and each segment, and a file that was read from a text is written, converted to the other format or not, in at most 180 times the length of that text.", "quantifier": "all values of the Go types of the fields, all segments, records and files, with and without line feeds; all texts that are read", "why_tests_cant": "A descriptor of any 64-bit value asks for padding; tests try a few values, and no test has characters of several bytes in all fields.", "anchors": ["pkg/lib/record.go:51-58", "pkg/lib/converters.go:57-102", "pkg/lib/base_segment.go:577-622"]}
{"id": "C128", "title": "Files are put together record by record", "statement": "The text made of the header and the trailer of a file and of any data records of files with the same format and blocking, in any order and number, with or without line feeds, is read as exactly these records. So files can be merged, split behind any record and sorted as texts; the generated trailer does not depend on the order; and two valid files merged are a valid file once the trailer is generated, with the sums of the totals of both trailers. Files with different blocking cannot be merged in this way.", "quantifier": "all streams that are read, all lists of data records taken from them, all ways in which the result is delivered", "why_tests_cant": "The tests read the files they have; that no record depends on its neighbours in a file is a statement about all records and all neighbours.", "anchors": ["pkg/file/file.go:154-221", "pkg/file/file.go:267-304", "pkg/file/file_instance.go:490-557"]}
{"id": "C129", "title": "An input that breaks off is noticed", "statement": "If only a part of an input arrives, from the beginning up to any byte, Reader.Read and NewFileFromReader refuse it or read the same file as from the whole input. It is read exactly if the header, the data records and the trailer (or the JSON object) have arrived completely; so the text of a well-formed file of which one byte is missing is refused. File.Parse accepts a part of a text of records only if nothing but line breaks is missing.", "quantifier": "all inputs that are read, Metro 2 and JSON, in both formats and blockings; every length of the part; all ways of delivery", "why_tests_cant": "There is a case for each byte of each input. A part of a file could be taken for another file, as records that cannot be read are tried as trailers.", "anchors": ["pkg/file/file.go:72-135", "pkg/file/file.go:154-221", "pkg/file/file.go:267-304", "pkg/file/file_instance.go:202-255"]}
{"id": "C130", "title": "Reading errors report the first fault and its reason", "statement": "If a text of full length is refused, the error is about the first field, in the order in which the type declares them, whose text cannot be read, and its kind says what is wrong with this text: required but not given, no number, a letter in a number, too large for 64 bits, a character that is not allowed, no date. Conversely a segment, a header or a trailer in which such a field exists is refused with exactly this error. If all fields of a data record can be read, the error is about the first segment behind them that is cut off, has such a field or is not valid, or says that the segments go beyond the announced size. A text that is too short for the record or segment is refused for its length, and a packed record without a block descriptor word for this.", "quantifier": "all texts, all segment kinds, headers, trailers and data records, both formats and blockings", "why_tests_cant": "Any field of any record can be the first faulty one, with any number of faults after it; tests look at single faults.", "anchors": ["pkg/lib/converters.go:119-164", "pkg/lib/validators.go:18-79", "pkg/lib/base_segment.go:997-1064", "pkg/lib/header_record.go:189-243", "pkg/lib/trailer_record.go:248-286"]}
