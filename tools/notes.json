{
 "C01": "Write and read of a numeric character field, for all widths and values.",
 "C02": "The full property is false: C02_violated shows for every width that oversized values read back as other numbers; C02_width_partial is the part that holds (exact width); C02_negative_rejected: negative values are never misread. Exact for negative numbers too: C02_negative_cut (sign and leading digits are written; the same number comes back iff nothing was cut), C02_sign_alone (a field of one byte).",
 "C03": "Write and read of an alphanumeric field.",
 "C04": "The full property is false (C04_violated, multi-byte UTF-8); C04_width_iff_partial characterises exactly the strings for which it holds.",
 "C05": "Character dates, timestamps and the zero time.",
 "C06": "Exact acceptance condition of character dates and timestamps.",
 "C07": "Packed dates and timestamps.",
 "C08": "Packed numbers, including the reduction modulo 256^N of oversized values.",
 "C09": "Exact acceptance condition of numeric and alphanumeric fields.",
 "C10": "Decided in the kernel over all 14 tables; C10_parse_well_typed is the consequence for all inputs.",
 "C11": "Any sorted permutation of a table is the list the model uses.",
 "C12": "Exact length of segments, headers, data records and trailers, and the bound on padding.",
 "C14": "All eight segment types, any trailing bytes.",
 "C15": "Character headers with and without block descriptor, packed headers with block descriptor (packed headers without one are rejected, see C46).",
 "C16": "Fixed and variable blocked character data records with any appended segments.",
 "C17": "Packed data records with any appended segments.",
 "C18": "Trailers of both encodings.",
 "C19": "The full property is false: C19_violated gives a padded variable-blocked character record that is 4 bytes short. C19_block_length_partial is the part that holds (packed records, and character records without padding); C19_character_length is the exact length.",
 "C13": "All slicing in the model is explicit and yields a panic error when out of range; no parse of a segment, record or file yields it, whatever the previous contents. C13_isPacked: IsPacked needs 8 bytes.",
 "C20": "All records and segments, both encodings; the conditions on numbers and dates are shown necessary by C21_iff, that on the block descriptor by C21_violated_bdw.",
 "C21": "The full property is false: C21_violated_sign, C21_violated_date and C21_violated_bdw are witnesses. C21_reread_partial is the part that holds (none of these three cases). C21_iff: with a positive block descriptor (or none needed) a record can be read again exactly if it is regular.",
 "C22": "The full property is false: C22_violated is a variable-blocked record for which size -500 is reported. C22_reported_partial is the part that holds. C22_iff says exactly what size is reported and when it covers what was read.",
 "C23": "The full property is false: C23_violated is a 1360-byte input on which File.Parse never ends. C23_terminates_partial is the part that holds (all but variable-blocked character input with a negative block descriptor), C23_no_minus a simple sufficient condition, C23_fuel shows that the iteration bound of the model is immaterial. C23_iff: it does not end if and only if, from behind the header, data records can be read such that the position comes back to where it was; C23_bound: if it ends, it ends within as many iterations as there are bytes, plus one.",
 "C24": "The full property is false: C24_violated. C24_buffer_partial: the buffer is unchanged iff it has no CR/LF; C24_contents: what is left in it otherwise.",
 "C25": "Any sequence of calls on any data record.",
 "C26": "The full property is false: C26_violated loses a K1 segment. C26_segments_kept_partial: for every accepted input, all J1/J2 segments in order and the last one of each other type. C26_iff: nothing is lost exactly if each type other than J1 and J2 occurs at most once.",
 "C27": "Every file whose data records are of its format (C32: all reachable files). iff characterisation, and: any single changed total makes Validate fail.",
 "C32": "Induction over all histories of SetRecord, AddDataRecord, SetType, Parse (also failing) and generated trailers from a new file, with well-typed arguments. Acceptance by SetRecord and AddDataRecord is characterised exactly. Mutation of records through retained pointers is outside the model.",
 "C33": "Stated for files all of whose records are of the file's format, which C32_reachable proves of every reachable file.",
 "C34": "Every total of Spec.total, for all lists of data records with any segments.",
 "C35": "Order, concatenation, conversion, sums over base/J1/J2, and the status totals (at most, and exactly if valid, the number of data records).",
 "C36": "Both directions: at least one data record, and none.",
 "C28": "Violated: proved that the telephone number has no influence on validation at all (data records, J1, J2), with concrete witnesses; the partial theorem says that ten-digit numbers are accepted.",
 "C29": "Violated by payment histories ending in blanks (proved for all such records), by blank required texts and by identification numbers of zeros or nines followed by blanks, with concrete witnesses. C29_trimmed: reading back gives the record without the blanks at the ends of its texts; C29_iff: of a valid record that one is valid if and only if none of the three is the case; C29_segment_iff for segments.",
 "C30": "Violated: proved that no record containing a K2 segment with a blank name is ever accepted; the partial theorem covers K2 segments with a name (zeros or nines for indicator 9).",
 "C31": "Violated by payment history code 'Z'; for all records and files without it both formats give the same verdict. Exactly: C31_record_iff and C31_file_iff (valid in packed form = valid in character form and no 'Z').",
 "C37": "State machine of caller, workers and wait group; determinism, progress, termination, absence of races and the bound on the number of workers hold for every interleaving and every page size.",
 "C38": "Full property.",
 "C43": "Full property for character files (both blockings, both newline settings), also with data after the trailer, which is reported. Violated for packed files in which a size word is the identifier of a segment (18993 = \"J1\" and others) and the record before it is not padded; the partial theorem covers all packed files without such sizes and without CR/LF bytes. C43_used extends the character case to files that were used before. C43_packed_iff makes it exact: a well-formed packed file is read back if and only if its records have no CR or LF byte and no data record that is not filled up comes before a size word that is the identifier of a segment.",
 "C39": "Full property, and more: for every input there is exactly one cutting into records, defined without reference to the buffer, and the scanner returns these records (up to the first one longer than its 64 KiB buffer) for every delivery that does not make more than 100 empty reads in a row.",
 "C40": "Violated: more than 64 KiB of line breaks before a record end the stream silently. The partial theorem covers all inputs whose records with their line breaks fit the buffer; without that condition the records are a prefix of those of the cleaned input (C40_prefix). C40_iff shows that the condition is exact.",
 "C41": "Full property, for any delivery of the input without 101 empty reads in a row, and with the weaker condition that no '{' is among the first 1024 bytes.",
 "C42": "Violated for every packed file with a CR or LF byte in one of its records (C42_iff is the exact characterisation; C42_violated the example with an amount of 10). The partial theorem covers all others.",
 "C44": "Violated: everything after the first trailer is ignored (C44_extra_ignored for every well-formed file and every continuation). The partial theorem says that the records of the result are the first ones of the input, in order and without gap.",
 "C45": "Violated exactly by the files with '{' in the first 1024 bytes: they are rejected (C45_brace_rejected), all others are read (C45_raw_partial). Assumes of encoding/json only that it rejects texts that begin with a number or have a zero byte in the third place (RejectsRaw). C45_iff joins both directions for the JSON decoder of the library.",
 "C46": "Violated for every fixed-blocked file (C46_fixed_unreadable). The partial theorem covers the variable-blocked files with consistent descriptors, without negative numbers and without CR/LF bytes in the packed form. C46_iff: a converted file whose records have the lengths they announce comes back if and only if it is well-formed in the packed format.",
 "C52": "Violated: a read error after the first 1024 bytes is treated as the end of the input (C52_violated, for every well-formed file and continuation). Errors within the first 1024 bytes are reported. C52_iff: exactly which failures are reported.",
 "C47": "Full property on JSON trees (C47_tree, C47_record), and through NewFileFromReader for a text whose first JSON value is the tree (C47_reader). Assumes of the environment that whole numbers up to 2^53 pass through float64 unchanged (JsonEnvOk); dates are read by the modelled time.Parse; the text layer of encoding/json is outside the model.",
 "C48": "Full property, for every JSON value (also malformed ones: the error is the same), for records, files and the JSON branch of NewFileFromReader.",
 "C49": "Violated for variable-blocked character files and for packed files with record descriptor 426 (C49_violated). C49_iff says exactly which files are decoded in their format, C49_result that nothing but the format is lost otherwise.",
 "C50": "net/http and gorilla/mux are modelled by their documented behaviour (response writer as a state machine, routes compared literally); FormValue, Query and FormFile are parameters. The 501 of /convert is characterised completely: unknown format, or a trailer wanted for a file without data records.",
 "C51": "Violated (C51_violated; C51_lost says for which answers, whatever the request). C51_delivered_partial is the part that holds.",
 "C53": "Float rounding and the local zone of the JSON branch are parameters (JsonEnv); no assumption about them is needed here.",
 "C54": "os and cobra are parameters (input, flags, whether the output can be created).",
 "C55": "Iff for every type. Packed data records lack the declared payment history code 'Z' (C55_violated), so the packed statement is partial. The code lists of the specification come from the constant declarations, those of the model from the case lists.",
 "C56": "Violated for the first name in J2 (the tag says required, the table nullable); proved for all other tagged fields of all types.",
 "C57": "Violated for data records: the three fields have no influence on validation. Proved for J1 and J2.",
 "C58": "Violated: blanks, 'Z' (character form) and embedded 'B's are accepted. Proved: 24 values, documented or 'Z' or blank. C58_iff: exactly which profiles keep a valid record valid.",
 "C59": "Violated: fractions of a second are lost, zones with seconds move the instant. Exact otherwise: C59_exact gives the time read back for every existing time (no fraction of a second, offset in whole minutes), C59_zero for the zero time, C59_iff says which times survive and C59_instant by how much the instant moves. time.Parse is modelled for all layouts.",
 "C60": "Exact rule proved (month first if that day exists, else day first, else refused); no fixed order (C60_order_violated); with AM and PM the hour is exactly that of the clock face (C60_clock), but 'p.m.' is read as morning (C60_afternoon_violated); the digit form of Metro 2 itself is refused in JSON (C60_digits); a date with the name of its month is read as that day whatever the letters, and refused if there is none (C60_month).",
 "C61": "Proved for every JSON value; the resolution of zone abbreviations by the local zone is a parameter assumed to give such times.",
 "C62": "Proved in full for segments. Violated for data records (K, L and N segments read earlier stay) and for character files (a block descriptor left by a variable-blocked read makes a good fixed-length text unreadable). The partial theorems cover all other used records and all used files. C62_record_iff and C62_file_iff say exactly which earlier contents can be told apart by some later reading; C62_segments_kept, C62_header_kept and C62_segments_lost show what is kept and what is hidden.",
 "C63": "Violated: no valid file has a conforming document (C63_never), because the schema lists single letters for the 24-letter payment history profile and `data` is null without records. C63_exact_partial says exactly which documents conform; C63_types_partial gives required members (highest credit excepted) and JSON types for all files with a data record. date-time is RFC 3339 without fractions and leap seconds; values are those JSON can carry.",
 "C64": "Violated: the documented format metro2 is refused with 501, and 501 is no documented status of /print. The partial theorem covers all other requests. Media types of the answers are the subject of C51.",
 "C65": "Proved: well-formedness for every file, reading back under the conditions of C47. The text layer of encoding/json is modelled.",
 "C66": "Violated: the format is told by a brace among the first 1024 bytes, so more white space before the object makes it unreadable. The partial theorem covers all texts after less than 1024 bytes of white space. C66_iff makes it exact for documents without zero bytes: read as the same file if and only if less than 1024 bytes of white space come first; C66_refused shows the refusal.",
 "C67": "Violated: the decoder stops after the first value, so anything may follow the object, and null before a brace is accepted as an empty file. The partial theorem says that the input begins with the text of an object or null. C67_rejects_raw discharges the assumption RejectsRaw of C45 and C46. C67_iff makes it exact: what is accepted begins, after white space, with null (an empty file) or with an object that would be accepted alone, with the same result.",
 "C68": "Proved by composition of C50, C54 and C65, under the conditions of C47 for the file answered.",
 "C69": "Order for all 14 layouts; writing for two values of a type that differ in one field; reading for two inputs that agree in the place of the field. The places are those of the layout tables, whose order is compared with the declarations of the Go structs.",
 "C70": "The full claim is refuted: in J1, J2 and packed data records the texts about a missing social security number or date of birth speak of a base segment in character format, and wrong totals of a packed file are called totals of a trailer in character format. The partial theorems leave out exactly these.",
 "C71": "Headers, trailers and segments: proved. Data records: an error is traced to the record or to a segment at some position of the input; partial because of the misnamed fields of C70. Errors that come from the standard library (numbers out of range, impossible dates) name no field; they are outside the claim. C71_violated: an error text that accuses the data record although the field at fault stands in a J1 segment. A text that is too short is answered by an error that names the type and the expected length (C71_short_record, C71_short_segment).",
 "C72": "The two replacement passes are proved equal to a one-pass rule for all byte strings; names of words follow. Distinctness by the fact that no ending of a text is the ending of another.",
 "C73": "Violated for every record: no data record with a placeholder of any type is accepted, in either format and blocking (C73_never_accepted). The partial theorem says that leaving segments out works.",
 "C74": "Written records are in order (C74_written_partial). The reader does not enforce the order (C74_violated) and does not notice it: C74_any_order, for every accepted record and every mixture of types that keeps the order within each type. A variable-blocked character record whose block descriptor is not positive is left out there, because its segments overlap its last field.",
 "C75": "Violated for every record with an L1 segment: any number of further ones is accepted as far as the record has room, and all but the last are lost (C75_never_refused). The partial theorem says that at most one is written.",
 "C76": "Iff for every type and for files whose data records are of the file's format (all others panic or are refused earlier).",
 "C77": "C77_exact gives the result for every file, C77_accepts says which documents are read. Violated: the zero time, which every open account has as its date of closing, is written as a text that the client refuses. Bodies of calls are text and files, so the client types are only used by callers who decode them.",
 "C78": "The hypothesis ClientFileOk asks for well-formed texts, existing times in zones of whole minutes (C85 says what happens to others), numbers up to 2^53, and segments that Validate accepts, since the service refuses others.",
 "C79": "C79_exact says what comes back: all but the processing indicator, the correction indicator and the new identification number, which the client types lack. C79_iff says when nothing is lost.",
 "C80": "mime/multipart, net/url and net/http are assumed to transport values unchanged; the address of the server, connection failures and the context are not modelled. The format in the URL hides that in the form.",
 "C81": "Violated: the read error is dropped (C81_ignored for all calls), and what could be read is sent as if it were the file. The partial theorem: an error is returned if what is left is no file.",
 "C82": "C82_file and C82_record hold for all documents whose overruled values have numbers in the range of float64 (a number out of range is an error in Go even if overruled). Violated for the reader: format detection merges headers that are repeated or differ in case, so the format may depend on the order. The partial theorem asks that the members that tell the format occur once, apart from case.",
 "C83": "Violated: a member like HEADER is not part of the file but tells its format, and a number out of range in a member that is not known is an error. The partial theorems exclude both; they also assume that a number which was written is read and written alike (FloatsStable), because the code encodes and decodes each value up to three times.",
 "C84": "Both directions, for fields, segments, headers, trailers and data records. Fields: any row of suitable width and value of the row's type that is written at all. Headers and data records: block descriptors from 0.",
 "C85": "Iff throughout. C85_written is for all client files; the others ask for values that Go can hold (int32 or int64 by field), well-formed texts, and times that exist. Locations are modelled by their offset.",
 "C86": "Names are compared as encoding/json does, including the two letters outside ASCII that fold to k and s. Members that are repeated with values other than null are left out: the client merges structs, and the model does not follow Go in reusing the elements of a repeated list.",
 "C87": "Every field of every written record and segment, by its place in the layout table; texts may be any whose written characters are single bytes. Numbers that do not fit their field are left to C02 and C08. Partial because of packed dates that are not available (C87_unset_packed gives what is written instead, for every such field); that texts are neither left-justified nor put in upper case is C87_letters_violated.",
 "C88": "Every file of Spec.GoodFile, read from its own text (no brace among the first 1024 bytes; packed texts without CR and LF bytes, see C42 and C45). C88_service and C88_command are exact: the same text comes back if and only if the header tells the format. Partial because it does not always; C88_violated has a file for each direction. C88_fixed_partial: without block descriptors there is no condition.",
 "C89": "C89_iff is exact for files whose records are all written in the length that they announce; C89_fixed shows that this always holds without block descriptors, C89_named that with a trailer of that name only regular records are needed. No brace among the first 1024 bytes of either text (see C45). C89_service_partial: two requests for Metro 2 in a row. Partial because the code violates it: C89_violated has a number with a minus sign, and a header of 428 bytes. Not shown: that a file which is not written in its announced lengths never comes back.",
 "C90": "C90_iff: with RecordIdentifier TRAILER and the announced lengths (Spec.Measured), the converse of C41 and C42; C90_fixed drops the lengths for fixed blocking; C90_announced holds for every text that is read. No brace among the first 1024 bytes (see C45). Not shown: whether a blocked file that is not written in its announced lengths can come back from its own text.",
 "C91": "C91_iff is exact for converted files written in their announced lengths; C91_converted_partial is what holds. C91_never, C91_refused and C91_service say what happens to the usual packed files; C91_violated is the witness. Partial because the code violates it.",
 "C92": "C92_good for both formats and blockings, as long as the totals fit their fields (10^9, or 256^5 in packed files); C92_read_partial and C92_service_partial for character files; C92_packed_iff is exact for packed files. Partial because the code violates it (C92_numbers, C92_violated). No brace among the first 1024 bytes (see C45).",
 "C93": "C93_untouched and C93_output describe the disk after every run exactly; C93_kept_partial is the property if writing to a created file does not fail. Partial because the code violates it (C93_violated: a full device). The operating system is a parameter (Machine): which path names which file, what can be opened, created and written.",
 "C94": "C94_anywhere for all runs that succeed, C94_same and C94_back for well-formed files (packed: without CR and LF bytes; no brace among the first 1024 bytes, see C45), C94_back is exact. Writing does not fail here, see C93.",
 "C95": "C95_told_partial is what holds: the standard error. C95_violated: an input that does not exist. Partial because the code violates it. cobra's splitting of the command line and its printing of the error are assumed as described in Model/Program.",
 "C96": "C96_validator, C96_convert_partial and C96_print_partial under equal parameters; the file is read without an error. Partial because the code violates it for the default of newline (C96_violated).",
 "C97": "C97_parse and C97_segment without conditions (any receiver); C97_walk_iff reduces going through the bytes to the sizes; C97_walk_partial for well-formed files, C97_read_partial for all fixed-length files that were read, C97_block_iff is exact for character blocks; C97_created for CreateFile. Partial because the code violates it (C97_violated). C97_accepted: what File.Parse accepts is, line breaks aside, as long as the sizes that its records report.",
 "C98": "C98_set, C98_names, C98_new, C98_type and C98_segment_names without conditions; C98_get_partial for character files, C98_add_partial for segments of the eight types. Partial because the code violates it for every packed file (C98_violated) and for records given as segments (C98_add_violated).",
 "C99": "C99_record is exact for a damaged data record whose first four bytes are intact (three cases: read as data, taken for the trailer, refused); C99_telltale and C99_kept_partial name one byte of every valid data record that rules out the bad case; C99_trailer and C99_header are exact for the other records. Partial because the code violates it (C99_violated).",
 "C100": "C100_ends and C100_never_data: no text of the reader is about a data record, whatever the input; C100_parse the same for Parse of a file. C100_error ties the texts to the errors. C100_data, C100_header_partial and C100_trailer_partial say which text a damaged record gives. Partial because the code violates it for data records (C100_violated).",
 "C101": "C101_written_record and C101_written_segment: blanks in every reserved place of what is written. C101_ignored_record and C101_ignored_segment: two inputs that differ in a reserved place only are read alike, with the same error. C101_all_record and C101_all_segment: the places listed are all the bytes of the layouts that belong to no field.",
 "C102": "C102_reader, C102_accepted and C102_parse are equivalences. What a single record accepts is the subject of C09, C15-C18, C84 and C90; how a stream is divided into records that of C39. C102_packed: packed files are always blocked.",
 "C103": "All or nothing does not hold: C103_violated (values of a refused header stay), C103_order_violated (what stays depends on the order of the map), C103_retry_violated (after a refused document the corrected one gives data records twice). C103_atomic_partial: documents that do leave the file as it was. C103_values says exactly what stays in header and trailer, C103_appends what stays of the data records, C103_record exactly what a single data record holds after a document, accepted or not; C103_no_object that documents which are no objects change nothing, and C103_untouched_record what a document leaves of a data record if it does not name it; C103_verdict when there is an error; C103_invariant what stays true. C103_success and C103_success_record tie this model, which has the state after an error, to the one used by the other JSON theorems.",
 "C104": "The reason of a JSON document does not name the part: C104_violated (a wrong header and a wrong trailer get the same answer), C104_vague (every document that is a JSON value, whose format can be told and whose numbers are in range gets the same text). C104_reader says exactly which reason an input gets, C104_one_reason that there is one, C104_refused and C104_program what the service and the program say, C104_agree that they agree. C104_invalid_partial: the misnamed fields of C70 are missing. C104_same and C104_same_program tie this model, which has the exact texts, to the one used by the other theorems about the service and the program. The texts of errors of the standard library are parameters.",
 "C105": "The order does matter: C105_violated (the value of a variable has the place of another one), C105_error_violated (which of two wrong values is told). C105_default_violated: a default that is not allowed is taken. C105_filled_partial and C105_order_partial: templates with braces only around names, names without a closing and values without an opening brace. C105_refused says exactly when there is no address and what is said then, C105_chosen, C105_no_context and C105_wrong_type which server and variables are used. Not modelled: Host and Scheme of the configuration.",
 "C106": "Removes from the trusted base that url.Values.Encode and url.ParseQuery transport values: both are modelled. C106_request ties this to the theorems about calls (C80). Not modelled: a query in the address of the server, the limit of newer versions of Go on the number of values.",
 "C107": "C107_add, C107_file and C107_change: the calls agree with the value models, sharing or not. C107_others_partial: no other record changes if it shares no array with the one of the call; C107_unshared_partial and C107_values_partial: nothing is shared without SetType; C107_others_iff: exactly when another record changes. Partial because the code violates the full statement: C107_violated, C107_twice_violated, C107_checked_violated. Parameter: the capacities chosen by the runtime, of which only is assumed that they suffice. Not modelled: Parse and JSON methods on objects, callers that append to slices obtained from a record or file, several files.",
 "C108": "C108_iff: for a stream of records and line breaks, File.Parse accepts exactly what the reader accepts, if the trailer comes last and no data record runs over into the next one (packed: and no length word is a decimal number, as the reader then divides the stream by that number). C108_alone: which character texts accepted by File.Parse the reader accepts. C108_partial: no difference for character files whose data records end in segments and blanks. Partial because the code violates the full statement both ways: C108_violated.",
 "C109": "Model/Word is the same code with every sum reduced to a signed 64-bit word and with slices by signed positions. C109_parse, C109_record, C109_block, C109_pages, C109_totals: the results are those of the unbounded model, so that all other theorems hold for words too. C109_words: what is read fits a word.",
 "C110": "Model/ClientTable is generated by tools/client_accessors.py, which matches the whole text of every model_*.go against templates and reads the name of a method and the field that it uses from different places. C110_set, C110_new, C110_copy, C110_write, C110_shared: what the calls do, for every sequence of calls before. C110_violated: a copy shares its optional fields; C110_independent_partial: without copies nothing is shared. C110_json: the accessors and the documents of Model/Client agree. C110_nullable: exactly when a nullable value comes back.",
 "C111": "Model/Multipart has the bytes: the writer and reader of mime/multipart, header lines, mime.ParseMediaType. C111_parts: parts come back exactly if no content has the boundary. C111_call_partial: the request that the handlers get from the bytes is that of Model/ClientCall, for every order of the form. C111_length: the header that the client sets is too small. C111_violated: a file with the boundary in it is cut.",
 "C112": "Exact for the name in small letters (C112_age_partial: the age counts below 2^63 nanoseconds, otherwise it is taken as zero); C112_bare, C112_malformed, C112_expires and C112_undated give the other cases. Violated for other letters (C112_case_violated), for great ages (C112_large_violated) and for values that are no numbers (C112_unit_violated).",
 "C113": "Holds for headers that the client does not set itself (C113_default_partial, C113_add, C113_order); the four that it sets are given by C113_own and C113_calls whatever the default headers are. Violated for these four as default headers (C113_default_violated) and for names that differ in case only (C113_order_violated).",
 "C114": "Proved for all layouts (C114_records, C114_segments) and carried to the written bytes (C114_record_written, C114_segment_written). The list of fields is written down from the published description of the format, apart from the tables of the code. Packed numbers: the widths agree; the code writes them in binary.",
 "C115": "Proved; the last sentence holds but for a new K3 segment, which C115_valid names as the one exception.",
 "C116": "Exact characterisation (C116_file); C116_spoiled is its consequence for a single wrong part. Which texts are times is said by C118.",
 "C117": "Exact characterisation for UnmarshalJSON (C117_file) and for the JSON branch of the reader (C117_reader). Which texts are dates is left to decodeTime (C59, C60), which segments are valid to Validate. C117_null_segment: null as a segment is refused, but for K3, where it adds an empty one.",
 "C118": "C118_exact is an exact characterisation (iff) of the texts and of the times read from them. The full statement with RFC 3339 fails: hours of one digit, a comma before the fraction, and zones up to 24:60 are taken too (C118_violated); all texts of RFC 3339 are read rightly (C118_read_partial). Leap seconds and small letters, which RFC 3339 allows, are left out of the specification.",
 "C119": "The text of the error is always the bare status line, such as 400 Bad Request, so that the reason is not in it (C119_violated). Body and Model carry the reason (C119_refused_partial); C119_told says for every call and answer what is returned.",
 "C120": "Reading is replacing if nothing was held before (C120_replaces_partial, for every type of values); otherwise C120_shared says exactly what happens, and C120_violated has a K1 segment that is changed in place. For all record and segment types C120_returns_iff says that exactly set values come back; C120_time says when a NullableTime can be written at all. What a reading with an error leaves in a value is not modelled.",
 "C121": "C121_first ties the model of repeated calls, which has the state after each call, to the model of one call used elsewhere. C121_stream_iff: exactly the streams in which no file has a lower sort than one before it (fixed-length character, character with block descriptors, packed) are returned file by file; C121_stream_partial is the case of one sort. C121_used_partial: a reader with a character file without block descriptor reads like a new one, whatever the stream brings, also with errors. C121_shared and C121_end: the earlier results are the same object as the later ones, and the end of the stream empties the last file. C121_order_violated and C121_lost_violated are concrete cases.",
 "C122": "The partial theorems say exactly what is left, for every old content: the fields before a certain one hold what the text has at their places, this one cannot be read there, and it and all behind it are as they were; a data record whose fields have all been read has the valid segments of the text up to the place where reading ended, and of the old ones those that are not repeated and not in the text; a file has the data records read from the text and none of its own. HasAt uses the relation Reads of property C09. C122_violated has a witness for each part; the one for files is every reachable file.",
 "C123": "A refinement: Model/Checked.lean writes, answers and runs with none for a panic, and the theorems say that it is some of what the total model gives. The hypothesis of the theorems on writing is only that values have the Go types of their fields, which the compiler enforces; records of a file need not even be of its format. The handlers and commands need no hypothesis but that the JSON branch is the one of Model/Json.lean. Files built by calls (Spec.Reachable) do not panic either when validated or given a trailer. An example shows that the checked functions can panic. Left out: running out of memory and panics inside the standard library.",
 "C124": "Model/Work.lean is the reading with a counter of calls of Parse; C124_same says that it is otherwise the reading of the rest of the model. C124_record and C124_reader hold for all texts. C124_exact: for a data record that is read, one call for it and one for each segment of the text; C124_needed and C124_needed_parse: no fewer calls than the file read has parts, so the counter does count. For File.Parse the full statement is false: C124_violated gives a text of 1360 bytes on which the calls exceed every number. C124_parse_partial has the bound if no data record met has a negative block descriptor, and C124_no_minus if the text has no minus sign. The work of one call of Parse is bounded by the layout (C15, C26) and is not counted further.",
 "C125": "The full statement is false. String joins the segments by += and each time copies all that was joined before: C125_exact says how many bytes for well-formed segments, and C125_violated that no factor is enough, with valid records of many J1 segments. C125_bound_partial is what holds: at most the text of the segments once for each segment. Records whose descriptor is right have at most 9999 bytes and so fewer than a hundred segments.",
 "C126": "The full statement is false: getStripedData strips the data from the beginning again for each position that it tries. C126_exact says how many bytes are looked at when a record is found; C126_violated that no factor is enough, with a valid header behind line breaks; C126_bound_partial what holds, the length twice for each line break and three times more; C126_no_breaks that three times the length is enough without line breaks. Through bufio.Scanner the data have at most 64 KiB.",
 "C127": "The times are those that time.Time can hold (years of at most twelve digits). C127_least, C127_fourfold and C127_most say that the bounds are reached, up to the reserved byte in C127_fourfold. C127_amplified and C127_amplified_file: a factor of this size (177 for each data record) is reached, by a single record and by files of any number of data records; Parse does not compare the record descriptor with the block descriptor, and String pads to what it says.",
 "C128": "For Reader.Read; File.Parse hands each record all that follows it and so depends on the neighbours, see C108. C128_blocking: the same blocking is needed.",
 "C129": "C129_same: a text that is read is read alike whatever follows. C129_cut and C129_json say exactly from which length on a part is read; C129_opened covers a part in one form of an input in the other.",
 "C130": "C130_field characterises the verdict on a single field (Spec/ReadFault.lean says what is wrong with a text); the others say that the first fault is the one reported. A letter in a required number is reported as a missing number, as strconv.Atoi gives 0. C130_data covers the fields of the base segment, C130_appended the segments behind them. C130_unblocked and C130_short cover packed records without block descriptor word and short texts, C130_header_cut and C130_data_cut blocked texts that are 1 to 4 bytes too short. Missing bytes at the reserved end of a header are no fault, as no field of the type stands there."
}