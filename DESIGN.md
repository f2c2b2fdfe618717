# Design: a Lean 4 model of moov-io/metro2 and its properties

Source under study: `/repo` (Go), read as text, never built or run.
`properties.jsonl` holds the English properties (C01 ...). `MANIFEST.json` maps each of them to
theorems. `lean/Verif` holds the model, the specifications and the proofs.
`seeded/LOG.jsonl` records every mutation attempt, including those that no theorem caught.

## 1. Trusted base

1. The Lean 4.33.0 kernel. The axioms `propext`, `Classical.choice` and `Quot.sound`; the appendix lists them per theorem.
   No own axioms, no `sorry`, no `native_decide`, no `bv_decide`.
2. The model: the claim "this Lean definition is what that Go function does". Every model
   definition cites file and lines. Simplifications stand in that comment; section 3 collects them.
3. Go library behaviour written down by hand (section 4), because neither the Go toolchain nor the
   sources of the standard library and the dependencies are part of `/repo`.
4. The specifications in `Verif/Spec`, which say what a property means.

A theorem speaks about the model. Where the code breaks an English property, the negation is
proved with a concrete witness (`_violated`), and what does hold is proved under a name ending in `_partial`. A property is
`partial` in the manifest exactly if it has such a theorem.

## 2. Module layout

* `Verif/Go/*`     Go library pieces: bytes, strconv, fmt verbs, civil time, regular expressions, `time.Parse`.
* `Verif/Model/*`  the metro2 code, function by function.
* `Verif/Spec/*`   small specifications that do not use the model's helpers.
* `Verif/Lemmas/*` helper lemmas.
* `Verif/Props/*`  the property theorems, each with a non-vacuity `example` beside it; `Props/Samples` holds concrete records.
* `Verif/Tests/*`  the repository's own tests and sample files, evaluated on the model by the kernel. They test the model, they are not proofs of
  properties, and MANIFEST.json does not list them. `Tests/Data` is generated from /repo/test/testdata by `tools/testdata.py`. Every ported assertion
  agrees with the model, except the benchmark named in section 5. The files say which tests are left out. The Go code itself was not run.
* `tools/*`        `manifest.py` and `axioms.py` rewrite MANIFEST.json and the appendix; `mutate.py`, `assemble_log.py` are the mutation harness; `client_accessors.py` writes Model/ClientTable.

| model file | Go code |
|------------|---------|
| Go/Basic, Go/Regex, Go/Time, Go/Layout | standard library |
| Model/Fields, Types, Specs | lib/specifications.go, the struct declarations in lib/*.go |
| Model/Codes, Phone | lib/constants.go, lib/validators.go |
| Model/Converter | lib/converters.go |
| Model/Segment | lib/segment.go, j1, j2, kn, l1, n1 segments |
| Model/Record | lib/record.go, header, base and trailer records |
| Model/File | file/file_instance.go |
| Model/Concurrent | `ConcurrentString` |
| Model/Scanner, Reader | file/file.go with `bufio.Scanner` |
| Model/Json | JSON methods of records and files, JSON branch of `NewFileFromReader` |
| Model/JsonState | the same with what is left in the record or file after an error |
| Model/JsonText | the text layer of `encoding/json`: first value of a stream, `Encode`, `MarshalIndent`, `Indent` |
| Model/Dates | utils/time.go |
| Model/Messages | utils/errors.go and the names passed to it |
| Model/Server | server/server.go, cmd/metro2/main.go |
| Model/Program | cmd/metro2/main.go: flags and their defaults, files, outputs, exit status |
| Model/Accessors | `Name`, `Length`, `BlockSize`, `Bytes`, `GetType`, `GetDataRecords`, `CreateFile` |
| Model/FileMessages | error texts of `Read`, `Parse` of a file, `SetRecord`, `AddDataRecord`, `GetRecord`, `NewFile` |
| Model/Answers | the reader, the service and the program with the exact texts of their errors; texts of errors of the standard library are parameters (`LibTexts`) |
| Model/ClientErrors | the errors of the calls of the generated client with text, body and model |
| Model/Nullable | the `Nullable` types of the generated client, once for any type of values, with the addresses that they hold |
| Model/ReaderState | `Reader.Read` called any number of times, with the file and the scanner after each call, also after errors |
| Model/Checked | writing, the handlers and the commands with every possible panic explicit: `strings.Repeat`, `Grow`, type assertions, `Int()` of a reflected value, slice bounds, stores into slices; out of memory is left out |
| Model/Work | reading with a counter of calls of `Parse`; joining of segments with a counter of copied bytes. Work inside one call of `Parse`, and memory, is not counted |
| Model/ScanWork | `scanRecord` with a counter of the bytes looked at |
| Model/Client | client/model_*.go: the record types in JSON |
| Model/ClientCall | client/api_metro2_files.go, client/client.go |
| Model/ClientServer | client/configuration.go |
| Model/ClientQuery | client/client.go:369-382 with `url.Values.Encode`, `url.QueryEscape`, `url.ParseQuery` |
| Model/ClientTable, Model/ClientObjects | client/model_*.go: constructors, `GetX`, `GetXOk`, `HasX`, `SetX`; client/utils.go:43-343, on objects in memory |
| Model/Multipart | client/client.go:301-341 with `multipart.Writer`; server.go:18-38 with `FormFile`, `FormValue`, `multipart.Reader`, `mime.ParseMediaType` |
| Model/Cache | client/client.go:566-613 with `time.Parse` for RFC 1123 and `time.ParseDuration` |
| Model/ClientHeaders | client/client.go:91-101, 394-417; configuration.go:74-105; the accepted types of the four calls; `textproto.CanonicalMIMEHeaderKey` and `http.Header` |
| Model/Memory | records, segments and a file as objects: lib/base_segment.go:692-717, 1209-1234, file/file_instance.go:37-72, 411-488, `append` of Go |
| Model/Word | reading of records and files, padding, paging and totals with sums reduced to signed 64-bit words: the lines of Model/Segment, Model/Record, Model/File, Model/Concurrent |

## 3. What is modelled, and how

* Layout tables: all 14, generated by script from the Go text. A struct is an association list from field name to value in
  struct order, so the reflection loops are loops over that list. `Fields.Typed` says that the list has the
  shape of its Go struct; C10 and C13 show that parsing keeps it.
* `int` and `int64` are unbounded integers in the struct; the bound of `strconv` on reading and the wrap of the packed
  encoding on writing are modelled. The model adds unbounded integers; Model/Word does the same with 64-bit words, and C109 shows that the results are the same.
* Errors are an enumeration; the texts of those about fields, lengths and segments are in Model/Messages (C70-C72). Out-of-range slicing and a failing `reflect` assignment are an explicit
  `panic` error. A slice expression is bounded by the length of its operand, not by its capacity; as no read of a record leaves that bound (C13), this makes no difference.
* `Parse` of records, segments and files returns the mutated receiver also when it fails (partial mutation).
* `slices.DeleteFunc` is modelled with what it leaves in the caller's array.
* Data records hold their segments by value, except in Model/Memory, where pointers, slices and `append` are followed. C107 says how far the values are
  right: every call does to its own record or file what the value models say; other records change only if they share an array, which only `SetType` brings about.
* A `File` always has a header and a trailer. `NewFile` sets both and no method makes them nil.
* Loops of unknown length have a fuel argument; running out of it is the separate result `none`. C23 shows that the amount is immaterial.
* `ConcurrentString` is a state machine with a step relation for the caller and each worker; any enabled step may come next. Memory is
  sequentially consistent, which C37_race_free justifies. The page size is computed in `float64` in Go; C37_any_page_size holds for every size.
* The streaming reader runs the real split function over a model of `bufio.Scanner`. The delivery of the input is an arbitrary `Plan`
  (how many bytes each `Read` returns). `Progress` says that there are never more than 100 empty reads in a row.
* JSON is modelled on trees, and on texts in Model/JsonText: scanner and decoder as one recursive descent, which is compared with the grammar of RFC 8259
  (Spec/JsonText) in both directions (`firstJson_of`, `firstJson_sound`). Theorems C41-C64 take the text layer as a parameter (the first value of
  a text, the rejection of raw Metro 2 data `RejectsRaw`, the text of a tree); C65-C68 put the model of it there. `JsonEnv` holds the two things taken from the machine:
  `refloat` (a number through `float64` and back, assumed exact up to 2^53 in `JsonEnvOk`) and `zone` (zone abbreviations of the local zone).
  C83 also assumes that a number that came back from `float64` stays the same the next time (`FloatsStable`).
  Map iteration order is an explicit permutation (C11, C48). What a record or file holds after a decoding error is in Model/JsonState (C103).
* Dates in JSON go through all 170 layouts of `parseDate` with a model of `time.Parse`.
* HTTP handlers are functions from a request to the final state of a `ResponseWriter`. `FormFile`, `FormValue`, `Query`, the text
  of errors and trees are parameters. Routes are compared literally; path cleaning redirects of the router are not modelled.
* Commands are functions from flags and input to exit state and output (Model/Server, C54). Model/Program puts them into a program: flags given or not, the disk before and after,
  both outputs, the exit status. The operating system is the parameter `Machine`: the place that a path names, what can be opened, read, created and written. No
  other program changes the disk meanwhile.
* The generated client: a value of a client type is a function from field names to optional values (`none` is a nil pointer), with tables generated by
  script from the Go text. A call is a pure function of its arguments and the service; a form with parts is the list of its values and its file, and Model/Multipart has its bytes (C111).
  Model/ClientObjects has the accessors on objects with pointers; elements of slices and fields of structs that are values of fields are part of the value, and addresses are not used again.

Not modelled: texts of errors of the standard library, read errors in the middle of a JSON text, logging, `os` apart from `Machine`, cobra's flag parsing, help and completion, TLS and the HTTP
stack below `ResponseWriter`, debug output of the generated API client (its addresses, context values, queries, headers and cache control are modelled, C105, C106, C112 and C113), build and deployment files.

## 4. Assumed Go library behaviour

* `strconv.ParseInt`, `Atoi`; `fmt.Sprintf` with `%0N.Nv`, `%-N.Ns`, `%0Nd`; `strings.TrimRight`, `ToUpper` (ASCII), `TrimSpace`, `Trim`.
* `time.Time` as civil fields with an offset. `Format` for the layouts used. `Parse` element by element (Go/Layout), without the fast path for RFC 3339,
  which gives the same results; zone names only through `JsonEnv.zone`.
* `reflect.Value.IsZero`, `FieldByName`, struct field order. `encoding/binary` big endian. `utf8` decoding.
* `safecast.Convert`: 0 and an error when out of range.
* RE2 semantics of the four regular expressions of lib/constants.go, by a matcher over an expression tree; of the two in utils/errors.go, by a direct
  transcription of leftmost, non-overlapping, greedy replacement.
* `bufio.Scanner`: buffer of 64 KiB, growth, token and error rules, 100 empty reads.
* `sync.WaitGroup`, goroutine creation, slices shared by reference.
* `slices.DeleteFunc`: shift left, zero the tail.
* `encoding/json`: struct tags, `omitempty`, field matching by case folding, replacement of invalid UTF-8, HTML escaping, decoding of numbers into
  `interface{}` as `float64`, nesting limit 10000, only the first value of a stream is looked at, layout of `Indent`. A value of a wrong type or out of range is
  noted and the decoding of the struct goes on; an error of an `UnmarshalJSON` method ends it.
* `net/url`, `net/http`: what the client sends arrives unchanged; values of the URL come before those of the form. `mime/multipart` and `mime` (Go 1.25): the writer,
  the reader, the escaping of names and `ParseMediaType` as in Model/Multipart, from memory of their sources. `io.ReadAll` returns what
  was read before an error.
* `net/http`: headers are frozen by `WriteHeader`, first `Write` sends 200. gorilla/mux: 404 and 405.
* `http.Header`: `Set`, `Add` and `Get` take the canonical form of a name (Model/ClientHeaders). The transport writes the headers of the request, the first `User-Agent`, and the
  length of the body; `Host`, `Content-Length`, `Transfer-Encoding` and `Trailer` of the request are left out. C113 ends at the request.
* `time.ParseDuration` as in Model/Cache, from memory of its source; what it makes of digits behind a point is a parameter (`float64`). The local zone GMT, if the machine has
  one, is Greenwich time (`GmtOk`).

## 5. Where the code disagrees with the expected behaviour

Each item is a theorem about the model unless marked "reading".

| what happens | theorem |
|--------------|---------|
| A number that is too long for its field loses its last digits | C02_violated |
| A text with multi-byte characters makes its field longer than its width | C04_violated |
| Packed numbers are reduced modulo 256^N | C08_packedNumber_overflow |
| A padded variable-blocked character record is 4 bytes shorter than its block descriptor | C19_violated |
| Signed numbers, the date 01010001 and the descriptor 0000 are accepted but cannot be read again after writing | C21_violated_sign, C21_violated_date, C21_violated_bdw |
| A data record can report a negative size, and `File.Parse` then never ends | C22_violated, C23_violated |
| `File.Parse` overwrites the caller's buffer if it has line breaks | C24_violated |
| A second K, L or N segment replaces the first one | C26_violated |
| Telephone numbers are never rejected | C28_violated |
| A payment history ending in blanks, a blank required text and an identification number of zeros followed by blanks are valid but not after reading back | C29_violated, C29_violated_texts |
| A K2 segment with the prescribed blank name is unreadable | C30_violated |
| Packed validation lacks payment history code Z | C31_violated, C55_violated |
| More than 64 KiB of line breaks end the stream silently | C40_violated |
| CR and LF bytes inside packed records are dropped | C42_violated |
| `File.Parse` misreads packed files if a size word looks like a segment identifier | C43_violated |
| The reader ignores everything after the first trailer | C44_violated |
| A raw file with '{' in its first 1024 bytes is taken for JSON and rejected | C45_violated |
| A fixed-blocked file converted to packed is unreadable | C46_violated |
| JSON of variable-blocked character files is decoded as packed, and packed with descriptor 426 as character | C49_violated |
| `Content-Type` is set after the headers were sent | C51_violated |
| A read error after the first 1024 bytes is taken for the end of the input | C52_violated |
| J2 first name: tag says required, table says nullable | C56_violated |
| Generation code, address indicator and residence code of data records are never checked | C57_violated |
| The payment history accepts blanks, Z and embedded B | C58_violated |
| Fractions of seconds are lost in JSON; zones with seconds move the instant by exactly those seconds | C59_violated, C59_instant_violated, C59_exact, C59_instant |
| Numeric dates in JSON: month first or day first, depending on the numbers; "p.m." is read as morning | C60_order_violated, C60_afternoon_violated |
| A re-used data record keeps old K, L and N segments; a re-used file keeps an old block descriptor and then rejects good input | C62_record_violated, C62_file_violated |
| A block descriptor left in a re-used character data record hides the segments of the next fixed-length record that is read into it | C62_segments_lost |
| A trailer of a file without data records is refused by `SetRecord` | C36_empty_refused |
| Header and trailer `Parse` do not check the record identifier | reading |
| The sample unpacked_variable_file.dat cannot be read by `Reader`: its data record has block descriptor 0426 and record descriptor 1000, and the scanner cuts it after 426 bytes. `BenchmarkFile` requires that reading succeeds; benchmarks are not part of a plain `go test`, and this prediction was not checked by running it | `example` in Tests/RepoFile |
| The published schema describes no document of a valid file (payment history profile as a single letter; `data` null; empty dates; `highestCredit` required but left out when 0; L1 documents a member that does not exist) | C63_never, C63_violated |
| White space of 1024 bytes or more before a JSON document makes it unreadable | C66_violated |
| Anything may follow a JSON document; `null` before a brace is an empty file | C67_violated, C67_null_violated |
| The description names the format `metro2`, the service only knows `metro`, and answers 501, which /print does not document | C64_metro2_refused, C64_violated |
| Errors about social security number and date of birth in J1, J2 and packed data records speak of a "base segment"; wrong totals of a packed file are called totals of a "trailer record"; a packed trailer calls itself "packed header record" | C70_record_violated, C70_segment_violated, C70_file_violated, C70_refused_segment |
| An error about a number or date that the standard library rejects names neither field nor record | reading |
| `convert` silently ignores a type name that it does not know | C50_convert, C54_convert |
| Placeholder segments, which the documentation prescribes for fixed-length records, are refused for every type | C73_never_accepted, C73_violated |
| A packed date that is not available is not zero-filled, although the code has a branch for it: the zero time has the text 01010001 | C87_unset_packed |
| Texts that begin with blanks or have small letters are valid and are written as they are, although the documentation forbids both | C87_letters_violated |
| A Metro 2 text turned into JSON and back changes its format if the header does not tell it | C88_violated |
| A file that was read can be written as a text that is refused: numbers with a minus sign, headers of 426 to 429 bytes | C89_violated |
| A packed file converted to the character format keeps its descriptors, which are too small there; the converted text is refused | C91_violated, C91_service |
| A packed file with 8, 10, 11 or 13 data records and a generated trailer is refused: a total has a byte that is taken for a line break | C92_numbers, C92_violated |
| `convert` empties its output before writing; if writing fails, the old content is lost | C93_violated |
| The error of a command is dropped in `main`: the exit status is always 0 | C95_violated |
| Without the parameter `newline` the service separates records by line breaks, the program does not | C96_violated |
| The size that a record reports is not always the number of bytes in which it is written | C97_violated, C97_block_iff |
| A data record that cannot be read is tried as a trailer; if it passes for one, the rest of the file is dropped without an error | C99_violated, C99_record |
| An error in a data record is reported as an error in the trailer; no error text of the reader is ever about a data record | C100_violated, C100_never_data |
| `GetRecord` does not know the names that header and trailer of a packed file give themselves | C98_violated |
| `AddApplicableSegment` takes a valid record in place of a segment without an error and drops it | C98_add_violated |
| After `SetType` the old and the new record share the arrays of their J1 and J2 lists; `append` to one overwrites a segment of the other | C107_violated, C107_twice_violated |
| A file keeps the pointer to a record that it took as valid, so it may hold an invalid one | C107_checked_violated |
| `File.Parse` takes the last byte or two of a data record and the first of the next one for the name of a segment; it takes a header whose name is in small letters | C108_violated |
| A copy of a struct of the client shares its optional fields: writing through what `GetXOk` returns changes both | C110_violated |
| A nullable value of the client that is not set comes back from its JSON text as set; `NullableTime.MarshalJSON` panics if the value is nil | C110_nullable |
| The `Content-Length` that the client sets is too small by the length of the boundary and 8, because it is taken before the end is written; `net/http` ignores it | C111_length |
| A file in which the boundary occurs, which is drawn without looking at the file, is cut | C111_violated |
| `CacheExpires` does not see `Max-Age`, takes ages of 292 years and more for none, and reads `max-age=1m` as a millisecond | C112_case_violated, C112_large_violated, C112_unit_violated |
| `AddDefaultHeader("User-Agent", …)` does not set the name of the client; names that differ in case only come in any order | C113_default_violated, C113_order_violated |
| A new K3 segment is valid although nothing in it is filled in | C115_valid |
| The client takes texts for times that RFC 3339 does not allow: `2024-02-29T3:30:05,5+24:60` | C118_violated, C118_exact |
| The text of an error of the client is only the status line (`400 Bad Request`); the reason has to be taken from its body | C119_violated, C119_refused_partial |
| A `Nullable` value of the client is overwritten in place by reading: the object given to `Set` changes, and members that the document leaves out keep their old values | C120_violated, C120_shared |
| An unset `Nullable` is written as `null` and read as set; a `NullableTime` that holds nothing panics when it is written | C120_returns_iff, C120_time |
| Repeated calls of `Reader.Read` return the same object each time; the call that finds the end of the stream removes the data records of the file returned before | C121_shared, C121_end, C121_lost_violated |
| `Read` asks for the file type `"metro"`, which `SetType` refuses, so that a reader that has read a packed file cannot return to the character format; a block descriptor of an earlier header stays in a later one with fixed-length records | C121_stream_iff, C121_order_violated |
| `Parse` changes the object also when it returns an error: fields before the one that cannot be read are replaced, and a file loses its data records | C122_violated, C122_file_partial |
| `String` of a data record copies a number of bytes that grows with the square of the number of segments (C125) | C125_violated, C125_exact |
| `scanRecord` strips the data from the beginning again for each position it tries, so that line breaks cost the square of their number (C126) | C126_violated, C126_exact |
| A packed data record of 370 bytes whose record descriptor says 65531 is read, although its block descriptor says 370, and is written in 65535 bytes (C127) | C127_amplified, and C127_amplified_file for files of any number of such records; the general bound is C127_read |
| `null` as a member is nothing for texts, numbers and lists, an error for dates and segments, and a new segment for `k3` | C117_file, C117_null_segment |
| Packed numbers are written in binary; the description of the format speaks of packed decimal digits. The widths are the same | reading; C114_records for the widths |
| `addFile` closes a file before it is read, so a form value given as a file always fails; no call uses it | reading |
| Segments may come in any order, although the documentation gives one; reading and writing puts them in order | C74_violated, C74_any_order |
| Several L1 segments are accepted, although the documentation allows one; all but the last are lost | C75_never_refused, C75_violated |
| "Blank filled" K2, K3 and L1 fields also accept all zeros or nines | C55_segment |
| The client refuses the documents of valid files: the zero time is written as a text that is no time for it | C77_violated, C77_accepts |
| The client types lack the processing indicator, the correction indicator and the new identification number | C79_violated, C79_exact, C79_confused |
| The client drops read errors of the file it sends: the beginning is converted as if it were the file | C81_violated, C81_ignored |
| The client answers an empty file, or one without a name, by a request without a file | C80_no_file |
| The client type of L1 segments has a member `balloonPaymentDueDate`, which the service ignores | C78_tree |
| Times in a zone that is not whole minutes away from UTC are sent by the client as other moments | C85_time, C85_time_iff |
| Two headers in a JSON document that are repeated or differ in case are merged to find the format, while the file takes one of them only | C82_violated |
| A member `HEADER` is left out of the file but decides its format; a number out of range in a member that is not known makes the document unreadable | C83_violated |
| A JSON document that is refused leaves values and data records in the file; which ones depends on the order of a map; reading the corrected document then gives data records twice | C103_violated, C103_order_violated, C103_retry_violated |
| The answer to a JSON document that is refused does not tell which part is wrong | C104_violated, C104_vague |
| The address of a server depends on the order of a map if a value has a place in it; which of two wrong values is told depends on it too; defaults are not checked | C105_violated, C105_error_violated, C105_default_violated |
| `TotalMortgageInformationSegments` counts K3 segments with agency identifier 0 | C34_generated |

## 6. Plan per property

| id | modelled | proof |
|----|----------|-------|
| C01 | toString/parseValue numeric | decimal digits lemma by induction on digits |
| C02 | same | truncation = division by power of ten; witness for violation; width for all integers; exact condition for negative numbers |
| C03 | alphanumeric write/read | list lemmas on take, replicate, trim |
| C04 | UTF-8 rune truncation | rune count induction; iff characterisation; witness |
| C05 | time format/parse | digits and calendar lemmas |
| C06 | same, as iff | case analysis on the parser against a separate calendar spec |
| C07 | packed time | big-endian bytes lemma |
| C08 | packed number | same |
| C09 | regex classes, ParseInt | iff against separate grammar |
| C10 | tables | `decide +kernel` on the complete finite tables |
| C11 | toSpecifications | uniqueness of a sorted permutation under a total antisymmetric key order |
| C12 | all String functions | length lemma by induction on the table |
| C13 | all Parse functions | panic is an explicit result; shown unreachable |
| C14-C18 | Parse after String | generic lemma over contiguous tables, then per type |
| C19 | base String | length equation; witness for character |
| C20, C21 | String after Parse | values produced by parse fit unless signed with leading zeros; witnesses; conversely, what is read again fits |
| C22 | base Parse | return value inequality; witness; exact condition by cases on the two descriptors |
| C23 | File.Parse as a step machine | measure for packed/fixed; for variable a concrete cyclic input, proved to run for ever by an invariant; exactly the inputs with a circle of positions do not end (pigeonhole) |
| C24 | DeleteFunc aliasing | iff no CR/LF |
| C25, C26 | segments store | induction on histories, refinement to a log |
| C27 | File.Validate | iff |
| C28 | phone regex | regex matcher, proof that every integer matches |
| C29-C31 | validators | case analysis; witnesses; for C29 the exact condition, by comparing each rule on a value and on the value without its trailing blanks |
| C32, C33 | File API as transition system | invariant by induction on histories |
| C34-C36 | trailer generator | fold = independent count |
| C37 | worker state machine | invariant over all interleavings |
| C38 | String | list induction |
| C39, C40 | scanner machine with arbitrary read oracle | refinement to spec tokens |
| C41-C43 | reader / File.Parse on String | composition of record round trips; exact for packed files: a record that runs into something that begins like a segment is refused, and the sizes of what was read add up to the length of the text |
| C44-C46 | same | witnesses and general lemmas; C45 and C46 as iff |
| C47-C49 | JSON trees | round trip by type; permutation lemma |
| C50, C51 | handlers | decision logic, response writer state machine |
| C52 | reader with failing input | prefix of 1024 bytes read first; scanner treats errors as end; iff |
| C53 | reader, both branches | invariant through the record readers and the JSON decoder |
| C54 | commands | decision logic |
| C55 | all Validate functions | iff with a rule table written from the constants and comments |
| C56, C57 | tags against tables, code checks | `decide +kernel` over the tables; independence of the verdict from a field |
| C58 | payment history check | characterisation of the accepted texts, iff |
| C59 | RFC 3339 text through the layouts | abstract interpretation over text shapes decides which layouts refuse; direct computation for the one that reads |
| C60 | numeric dates, twelve-hour times, dates with names of months | same; exact rule by cases on the calendar; the names in all their letterings by kernel computation, the numbers around them by the element lemmas |
| C61 | `time.Parse` | invariant of the element reader |
| C62 | Parse functions with arbitrary old contents | the field loop is independent of the old values; exact, with probe texts: two used records read all input alike if and only if they agree in the single segments and, in character records, in the block descriptor (or both are too small for any record); a used file reads like a new one if and only if it is packed or its header has no block descriptor; witnesses |
| C63 | `MarshalJSON` against the OpenAPI schemas as data | a struct conforms iff its rows are met (all structs, all values); table agreement by kernel computation |
| C64 | handlers against the documented operations | decision logic from C50 |
| C65 | `Encode`, `MarshalIndent`, `Indent` against the grammar | induction on the tree; every file has a clean tree |
| C66, C67 | first value of a stream against the grammar | completeness and soundness of the recursive descent, mutual induction; exact limit of the white space before a document, exact set of what is accepted |
| C68 | service and command, twice | composition of C50, C54 and C65 |
| C69 | layouts, writing and reading of one field | order by kernel computation; induction over contiguous rows; inversion of the field loop |
| C70 | literals of all validators | tables by cases; refutation by witnesses |
| C71 | text of the error that `Parse` returns | inversion of the field loop; induction over the segments read; witness |
| C72 | two regular expression passes | induction with the state of the search; endings of texts by kernel computation |
| C73 | readers of the eight segment types | no placeholder is read as a valid segment (kernel computation); the pieces of a record are unique |
| C74 | segment reader and writer | the field loop only looks at its own bytes; the store is known by its lists per type |
| C75 | segment reader | induction over the pieces; the last one of a type stays |
| C76 | validation loops | induction over the fields; rules field by field |
| C77 | client types, decoding | the members of a document are folded in any order; per field by cases; agreement of the tables by kernel computation |
| C78 | client types, encoding; JSON reader of the service | the document of the client carries the fields of a service record; then as C47 |
| C79 | both | composition; fields compared one by one; L1 segments stay valid |
| C80, C81 | calls, prepareRequest, handlers | the request is computed; then decision logic from C50 |
| C82 | JSON reader | induction over the changes; maps as sorted lists are equal if all their lookups are; the format by the only member of its name |
| C83 | JSON reader | induction over the changes with a relation per place of the document; reading and writing twice is the same as once |
| C84 | Parse after String | inversion of the field loop on the text that was written: each field stands in its own bytes, and a text that is read as the value shows that the value fits |
| C85 | client types, time texts | the text of a time fits no layout before RFC 3339 by abstract interpretation over its shape; members folded in any order; keys of the document are in ascending order |
| C86 | client types, decoding | induction over the changes; a value is read member by member into parts of their own, so members of different parts commute; instances for structs, data records and files |
| C87 | converter, record and segment String | the text is the concatenation of its rows, so the place of a field holds the text of its value; case analysis over the field types against an independent specification |
| C88 | reader, JSON, service, command | what can be written can be carried by JSON (every field's range by its row); then C41/C42, C65 and C50/C54 joined; the third byte of a text with block descriptors tells its format |
| C89 | reader, writer | inversion of the reader: every record was accepted from a line that begins with its length; then the written lines are again such lines, without line breaks; C20/C21 per record, and the loop over the data records stops where it did |
| C90 | reader, writer | inversion of the reader (C89) shows that a file that came back has fitting values and covered content; the other direction is C41 and C42 |
| C91 | SetType, reader, service | every record that was read announces at least 426 bytes in the character format; the scanner finds nothing in a text whose first number is smaller |
| C92 | GeneratorTrailer, SetRecord, writer, reader, Validate, service | every total is at most the number of people and blocks, so it fits; then C41 and C42, and C27 for the verdict |
| C93 | commands with the disk | the run of `convert` is reading, then one text to write (C54), then creating and writing |
| C94 | commands with the disk | the text to write is decided before the output is created; then C41, C42, C88 |
| C95 | `main`, commands | success of a run is stated for each command separately (Spec.Succeeds) |
| C96 | service, commands | both are described by what they read and give out (C50, C54); JSON texts by C65 |
| C97 | accessors, CreateFile | cases of Parse; cutting a text at the lengths of its parts, by induction; the sizes add up to the length of the text, by induction over the loop; Spec.Measured from C89 |
| C98 | accessors, file | the six names are evaluated; cases of every call |
| C99 | reader | the records of the text are known (C39), so reading is a function of the lines; a byte in a numeric or alphanumeric column of the trailer decides (C09) |
| C100 | reader, messages | texts follow the reader case by case; a text about a field determines field, type and fault (C72), so it cannot be about two types |
| C101 | converter, records, segments | rows of the tables without a struct field are written by `fillString`; the slots of the fields are disjoint from the reserved places (checked over the tables), so the field loop reads the same bytes |
| C102 | reader, scanner, file | the loops over records as relations (`FileOf`, `DataFrom`), induction over the records; HEADER behind one and behind two size words exclude each other because their places overlap |
| C103 | JSON with the state after an error | refinement of the JSON model (same result on success), induction over members, entries and data records; each member is unknown, stored, `null`, an error that is noted, or an error in a date, which ends the decoding |
| C104 | exact error texts of reader, service and program | decision logic: an inductive relation lists the reasons, which exclude each other; refinement of the models of the service and the program (same result for some choice of the texts) |
| C105 | addresses of servers | induction over the variables, with the parts of the template as invariant; decision logic for the choice in the context |
| C106 | query texts | round trip: induction over the bytes, the pairs and the keys; a sorted list without repetitions is determined by its elements |
| C107 | memory | invariant over all sequences of calls (slices fit their arrays, no J1 list shares with a J2 list); refinement of the value models; frame conditions |
| C108 | both readers | the stream is cut into records; each record is shown to read the same from its own bytes and from all that follows, unless it runs over |
| C109 | 64-bit words | every position is at most the length of the input plus a table constant; sums that do wrap are shown to end in the same error or size 0 |
| C110 | accessors of the client types | table facts by `decide +kernel` over all 13 types; invariants of the memory by induction over the calls |
| C111 | forms arrive | induction over the parts and over the content, with the remark that a boundary cannot begin in a content and end behind it |
| C112 | when a response expires | induction over the directives; the element lemmas of `time.Parse`; arithmetic of the limits |
| C113 | headers of a request | two names are one header iff they have the same canonical form; the values of a header are those given under its name |
| C114 | layouts follow the standard | one list of fields per type, from which the places in both formats are computed; table facts by `decide +kernel`; C87 for the bytes |
| C115 | new records | table facts by `decide +kernel` over all types |
| C116 | documents that the client reads | induction over the members, one lemma for all objects; inversion of the inductive description |
| C117 | documents that the library reads | reading and writing once more changes nothing (C83), so the document may be taken as normal; then part by part, as for C116 |
| C118 | texts that the client takes for times | inversion of the layout RFC 3339 element by element, in both directions |
| C119 | errors of the client tell why a file was refused | composition of the calls (C80) with the texts of the answers (C104); the negation by a witness |
| C120 | Nullable values of the client | variables with addresses; decision logic, round trip by C85, the negation by a witness |
| C121 | A reader that is asked again | induction over the files of a stream, with the scanner as state; C62 for what is left in the reader; iff and witnesses |
| C122 | What a refused text leaves | induction over the fields, the segments and the data records with the state after the error; witnesses |
| C123 | No input makes the service or the program panic | refinement: checked functions, with `none` for a panic, are the total ones on typed values; invariants of what was read |
| C124 | Reading takes work in proportion to the text | counted refinement; potential argument: 30 bytes of text for each call; violated for `File.Parse` |
| C125 | Writing takes work in proportion to the text | exact count of copied bytes; violated: quadratic in the number of segments |
| C126 | Finding the next record takes work in proportion to the data | exact count of bytes looked at; violated: quadratic in the number of line breaks |
| C127 | The text that is written is bounded | per field by width and runes; clamped padding; induction over the reader for the times |
| C128 | Files are put together record by record | from the exact description of what is read (C102); permutations; totals from C35 and C36 |
| C129 | An input that breaks off is noticed | the pieces of a part of a stream are the first pieces of the stream; C102; the first JSON value of a text and its end are unique |
| C130 | Reading errors report the first fault and its reason | induction over the loop on the fields; one case per type of field. A letter in a required number is reported as a missing number (validators.go:50-54) |

## Appendix: axioms per theorem

Generated by `tools/axioms.py` from `#print axioms`.

### Classical.choice, Quot.sound, propext

`C01_numeric_roundtrip`, `C02_negative_cut`, `C02_negative_rejected`, `C02_sign_alone`, `C02_violated`, `C02_width_partial`, `C03_alphanumeric_roundtrip`, `C04_length`, `C04_violated`, `C04_width_iff_partial`, `C05_date_roundtrip`, `C05_timestamp_roundtrip`, `C05_zero_roundtrip`, `C06_date_accepted_iff`, `C06_timestamp_accepted_iff`, `C07_packedDate_roundtrip`, `C07_packedTimestamp_roundtrip`, `C08_packedNumber_overflow`, `C08_packedNumber_roundtrip`, `C09_alphanumeric_accepted_iff`, `C09_numeric_accepted_iff`, `C100_data`, `C100_ends`, `C100_error`, `C100_header_partial`, `C100_never_data`, `C100_parse`, `C100_refused_invalid`, `C100_trailer_partial`, `C100_violated`, `C101_written_record`, `C101_written_segment`, `C102_accepted`, `C102_packed`, `C102_parse`, `C102_reader`, `C103_appends`, `C103_atomic_partial`, `C103_invariant`, `C103_reader`, `C103_values`, `C103_verdict`, `C104_agree`, `C104_delivery`, `C104_format`, `C104_format_program`, `C104_generate`, `C104_generate_program`, `C104_invalid_partial`, `C104_invalid_program_partial`, `C104_no_input`, `C104_no_output`, `C104_no_part`, `C104_one_reason`, `C104_program`, `C104_reader`, `C104_refused`, `C104_same`, `C104_same_program`, `C104_vague`, `C104_violated`, `C105_order_partial`, `C105_refused`, `C106_arrives`, `C106_order`, `C106_pairs`, `C106_request`, `C107_add`, `C107_file`, `C107_new`, `C107_others_iff`, `C107_others_partial`, `C107_unshared_partial`, `C107_values_partial`, `C108_alone`, `C108_iff`, `C108_partial`, `C108_violated`, `C109_pages`, `C109_parse`, `C109_record`, `C109_words`, `C110_json`, `C111_call_partial`, `C111_parts`, `C111_violated`, `C112_age_partial`, `C112_bare`, `C112_case_violated`, `C112_expires`, `C112_large_violated`, `C112_malformed`, `C113_add`, `C113_calls`, `C113_default_partial`, `C113_order`, `C113_own`, `C114_record_written`, `C114_segment_written`, `C116_file`, `C116_spoiled`, `C117_file`, `C117_reader`, `C118_exact`, `C118_read_partial`, `C118_violated`, `C119_refused_partial`, `C119_told`, `C119_violated`, `C11_map_order`, `C120_replaces_partial`, `C120_returns_iff`, `C120_time`, `C120_violated`, `C121_end`, `C121_first`, `C121_lost_violated`, `C121_order_violated`, `C121_shared`, `C121_stream_iff`, `C121_stream_partial`, `C121_used_partial`, `C121_violated`, `C122_data_partial`, `C122_file_kept`, `C122_file_partial`, `C122_violated`, `C123_commands`, `C123_file`, `C123_handled`, `C123_open`, `C123_reachable`, `C123_read`, `C123_service`, `C124_exact`, `C124_needed`, `C124_needed_parse`, `C124_needed_record`, `C124_no_minus`, `C124_parse_partial`, `C124_reader`, `C124_record`, `C124_same`, `C125_exact`, `C125_violated`, `C126_bound_partial`, `C126_exact`, `C126_no_breaks`, `C126_violated`, `C127_amplified_file`, `C127_contained`, `C127_file`, `C127_read`, `C127_record`, `C127_segment`, `C128_assembled`, `C128_blocking`, `C128_merged`, `C128_opened`, `C128_reordered`, `C128_split`, `C128_valid`, `C129_cut`, `C129_json`, `C129_json_written`, `C129_opened`, `C129_parse`, `C129_same`, `C129_written`, `C12_base_length`, `C12_header_length`, `C12_segment_length`, `C12_trailer_length`, `C130_appended`, `C130_data`, `C130_data_cut`, `C130_field`, `C130_header`, `C130_header_cut`, `C130_segment`, `C130_trailer`, `C13_file`, `C13_record`, `C14_segment_roundtrip`, `C15_header_fixed`, `C15_header_variable`, `C16_base_fixed`, `C16_base_variable`, `C17_base_packed`, `C18_trailer`, `C19_block_length_partial`, `C19_character_length`, `C19_violated`, `C20_record`, `C20_segment`, `C21_iff`, `C21_reread_partial`, `C22_iff`, `C22_reported_partial`, `C23_bound`, `C23_iff`, `C23_no_minus`, `C23_terminates_partial`, `C24_buffer_partial`, `C24_contents`, `C26_iff`, `C26_segments_kept_partial`, `C27_validate`, `C27_wrong_total`, `C28_ignored_base`, `C28_ignored_segment`, `C28_ten_digits_partial`, `C28_violated`, `C29_blank_history`, `C29_iff`, `C29_segment_iff`, `C29_still_valid_partial`, `C29_trimmed`, `C29_violated`, `C30_named_partial`, `C30_never_accepted`, `C31_file_iff`, `C31_file_partial`, `C31_record_iff`, `C32_reachable`, `C32_refused`, `C32_step`, `C33_back`, `C34_generated`, `C35_concat`, `C35_concat_ok`, `C35_converted`, `C35_order`, `C35_status_eq`, `C35_status_le`, `C35_sums`, `C36_generated_valid`, `C37_any_page_size`, `C37_deterministic`, `C37_progress`, `C37_race_free`, `C37_starts`, `C37_terminates`, `C39_chunking`, `C39_pieces`, `C39_records`, `C40_iff`, `C40_line_breaks_partial`, `C40_prefix`, `C40_violated`, `C41_read`, `C42_iff`, `C42_read_partial`, `C42_violated`, `C43_character`, `C43_extra_rejected`, `C43_packed_iff`, `C43_packed_partial`, `C43_used`, `C43_violated`, `C44_extra_ignored`, `C44_records_partial`, `C44_violated`, `C45_brace_rejected`, `C45_iff`, `C45_raw_partial`, `C45_violated`, `C46_fixed_unreadable`, `C46_iff`, `C46_variable_partial`, `C46_violated`, `C47_reader`, `C47_record`, `C47_tree`, `C49_detected_partial`, `C49_iff`, `C49_result`, `C49_violated`, `C50_convert`, `C50_convert_body`, `C50_print`, `C50_print_body`, `C50_routes`, `C50_validator`, `C51_delivered_partial`, `C51_lost`, `C51_violated`, `C52_early_partial`, `C52_iff`, `C52_violated`, `C53_reader`, `C54_convert`, `C54_convert_total`, `C54_print`, `C54_validator`, `C55_character`, `C55_packed_partial`, `C55_segment`, `C55_violated`, `C56_required_partial`, `C57_segments_partial`, `C58_iff`, `C58_values_partial`, `C59_exact`, `C59_iff`, `C59_instant_violated`, `C59_utc_partial`, `C59_violated`, `C59_zone_partial`, `C60_clock`, `C60_digits`, `C60_month`, `C60_number_partial`, `C60_order_violated`, `C61_exists`, `C62_file_iff`, `C62_file_partial`, `C62_file_violated`, `C62_record_iff`, `C62_violated`, `C63_exact_partial`, `C63_never`, `C63_types_partial`, `C63_violated`, `C64_documented_partial`, `C64_metro2_refused`, `C64_violated`, `C65_read`, `C65_written`, `C66_iff`, `C66_refused`, `C66_same_partial`, `C66_violated`, `C67_accepted_partial`, `C67_brace_rejected`, `C67_iff`, `C67_null_violated`, `C67_rejects_raw`, `C67_violated`, `C68_command`, `C68_convert`, `C68_print`, `C69_record_read`, `C69_record_write`, `C69_segment_read`, `C69_segment_write`, `C70_file_partial`, `C70_record_partial`, `C70_segment_partial`, `C71_data_partial`, `C71_record`, `C71_segment`, `C72_texts`, `C73_never_accepted`, `C73_omitted_partial`, `C74_any_order`, `C74_violated`, `C74_written_partial`, `C75_never_refused`, `C75_written_partial`, `C76_character`, `C76_file`, `C76_header`, `C76_packed`, `C76_segment`, `C76_trailer`, `C77_accepts`, `C77_exact`, `C77_shows_partial`, `C77_violated`, `C78_read`, `C78_tree`, `C79_back_partial`, `C79_confused`, `C79_exact`, `C79_iff`, `C79_violated`, `C80_convert`, `C80_health`, `C80_no_file`, `C80_print`, `C80_validator`, `C81_ignored`, `C81_reported_partial`, `C81_violated`, `C82_back`, `C82_file`, `C82_reader_partial`, `C82_record`, `C83_back_partial`, `C83_file_partial`, `C83_reader_partial`, `C84_data`, `C84_field`, `C84_header`, `C84_segment`, `C84_trailer`, `C85_own`, `C85_own_iff`, `C85_time`, `C85_time_iff`, `C85_written`, `C86_file`, `C86_null`, `C86_own`, `C86_shows`, `C87_block`, `C87_record`, `C87_rest`, `C87_segment`, `C87_unset_packed`, `C87_unset_record_partial`, `C87_unset_segment`, `C88_command`, `C88_fixed_partial`, `C88_service`, `C88_violated`, `C89_fixed`, `C89_iff`, `C89_named`, `C89_reread_partial`, `C89_service_partial`, `C89_violated`, `C90_announced`, `C90_fixed`, `C90_iff`, `C91_converted_partial`, `C91_iff`, `C91_never`, `C91_refused`, `C91_service`, `C91_violated`, `C92_good`, `C92_numbers`, `C92_packed_iff`, `C92_read_partial`, `C92_service_partial`, `C92_violated`, `C93_kept_partial`, `C93_output`, `C93_untouched`, `C93_violated`, `C94_anywhere`, `C94_back`, `C94_same`, `C95_told_partial`, `C95_violated`, `C96_convert_partial`, `C96_print_partial`, `C96_validator`, `C96_violated`, `C97_accepted`, `C97_block_iff`, `C97_created`, `C97_read_partial`, `C97_segment`, `C97_violated`, `C97_walk_partial`, `C98_add_partial`, `C98_get_partial`, `C98_type`, `C98_violated`, `C99_header`, `C99_kept_partial`, `C99_record`, `C99_telltale`, `C99_trailer`, `C99_violated`

### Quot.sound, propext

`C100_parse_error`, `C101_all_record`, `C101_all_segment`, `C101_ignored_record`, `C101_ignored_segment`, `C103_no_object`, `C103_order_violated`, `C103_record`, `C103_retry_violated`, `C103_success`, `C103_success_record`, `C103_untouched`, `C103_untouched_record`, `C103_violated`, `C105_chosen`, `C105_filled_partial`, `C106_bytes`, `C107_change`, `C107_checked_violated`, `C107_twice_violated`, `C107_violated`, `C109_block`, `C109_totals`, `C10_parse_well_typed`, `C110_copy`, `C110_independent_partial`, `C110_new`, `C110_set`, `C110_shared`, `C110_violated`, `C110_write`, `C111_length`, `C112_undated`, `C112_unit_violated`, `C113_default_violated`, `C114_records`, `C114_segments`, `C117_null_segment`, `C122_header_partial`, `C122_segment_partial`, `C122_trailer_partial`, `C123_record`, `C123_segment`, `C124_violated`, `C125_bound_partial`, `C127_amplified`, `C127_fourfold`, `C127_most`, `C12_padding_bounded`, `C130_unblocked`, `C13_isPacked`, `C13_segment`, `C23_fuel`, `C23_violated`, `C25_store`, `C31_same_verdict_partial`, `C33_setType`, `C34_only_data_records`, `C38_delete`, `C38_length`, `C38_separators`, `C48_file`, `C48_reader`, `C48_record`, `C55_header`, `C55_trailer`, `C57_ignored`, `C59_instant`, `C59_zero`, `C60_afternoon_violated`, `C62_header_kept`, `C62_record_partial`, `C62_segment`, `C62_segments_kept`, `C69_order`, `C70_file_violated`, `C70_misnamed`, `C70_record_violated`, `C70_segment_violated`, `C71_short_record`, `C72_camel`, `C72_distinct`, `C72_snake`, `C82_violated`, `C83_violated`, `C87_letters_violated`, `C97_parse`, `C97_walk_iff`, `C98_names`

### none

`C10_kinds_match`, `C10_names_unique`, `C10_tables_tile`, `C115_segment`, `C11_order_exists`, `C126_same`, `C98_new`

### propext

`C100_refused`, `C105_default_violated`, `C105_error_violated`, `C105_local`, `C105_no_context`, `C105_violated`, `C105_wrong_type`, `C110_nullable`, `C113_order_violated`, `C115_file`, `C115_record`, `C115_valid`, `C11_comparator`, `C11_order_unique`, `C11_text_order_independent`, `C120_shared`, `C125_same`, `C127_least`, `C130_short`, `C21_violated_bdw`, `C21_violated_date`, `C21_violated_sign`, `C22_violated`, `C24_violated`, `C25_refused`, `C25_rejected`, `C25_unknown`, `C26_violated`, `C29_violated_texts`, `C30_violated`, `C31_violated`, `C32_addDataRecord`, `C32_setRecord`, `C33_unknown`, `C36_empty_refused`, `C56_violated`, `C57_violated`, `C58_violated`, `C62_record_violated`, `C62_segments_lost`, `C70_refused_segment`, `C71_short_segment`, `C71_violated`, `C73_violated`, `C75_violated`, `C98_add_violated`, `C98_segment_names`, `C98_set`
