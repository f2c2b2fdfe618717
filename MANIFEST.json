{
 "claims": [
  {
   "property": "C01",
   "status": "proved",
   "theorems": [
    "Metro2.C01_numeric_roundtrip"
   ],
   "note": "Write and read of a numeric character field, for all widths and values."
  },
  {
   "property": "C02",
   "status": "partial",
   "theorems": [
    "Metro2.C02_width_partial",
    "Metro2.C02_violated",
    "Metro2.C02_negative_rejected",
    "Metro2.C02_negative_cut",
    "Metro2.C02_sign_alone"
   ],
   "note": "The full property is false: C02_violated shows for every width that oversized values read back as other numbers; C02_width_partial is the part that holds (exact width); C02_negative_rejected: negative values are never misread. Exact for negative numbers too: C02_negative_cut (sign and leading digits are written; the same number comes back iff nothing was cut), C02_sign_alone (a field of one byte)."
  },
  {
   "property": "C03",
   "status": "proved",
   "theorems": [
    "Metro2.C03_alphanumeric_roundtrip"
   ],
   "note": "Write and read of an alphanumeric field."
  },
  {
   "property": "C04",
   "status": "partial",
   "theorems": [
    "Metro2.C04_length",
    "Metro2.C04_width_iff_partial",
    "Metro2.C04_violated"
   ],
   "note": "The full property is false (C04_violated, multi-byte UTF-8); C04_width_iff_partial characterises exactly the strings for which it holds."
  },
  {
   "property": "C05",
   "status": "proved",
   "theorems": [
    "Metro2.C05_date_roundtrip",
    "Metro2.C05_timestamp_roundtrip",
    "Metro2.C05_zero_roundtrip"
   ],
   "note": "Character dates, timestamps and the zero time."
  },
  {
   "property": "C06",
   "status": "proved",
   "theorems": [
    "Metro2.C06_date_accepted_iff",
    "Metro2.C06_timestamp_accepted_iff"
   ],
   "note": "Exact acceptance condition of character dates and timestamps."
  },
  {
   "property": "C07",
   "status": "proved",
   "theorems": [
    "Metro2.C07_packedDate_roundtrip",
    "Metro2.C07_packedTimestamp_roundtrip"
   ],
   "note": "Packed dates and timestamps."
  },
  {
   "property": "C08",
   "status": "proved",
   "theorems": [
    "Metro2.C08_packedNumber_roundtrip",
    "Metro2.C08_packedNumber_overflow"
   ],
   "note": "Packed numbers, including the reduction modulo 256^N of oversized values."
  },
  {
   "property": "C09",
   "status": "proved",
   "theorems": [
    "Metro2.C09_numeric_accepted_iff",
    "Metro2.C09_alphanumeric_accepted_iff"
   ],
   "note": "Exact acceptance condition of numeric and alphanumeric fields."
  },
  {
   "property": "C10",
   "status": "proved",
   "theorems": [
    "Metro2.C10_tables_tile",
    "Metro2.C10_names_unique",
    "Metro2.C10_kinds_match",
    "Metro2.C10_parse_well_typed"
   ],
   "note": "Decided in the kernel over all 14 tables; C10_parse_well_typed is the consequence for all inputs."
  },
  {
   "property": "C11",
   "status": "proved",
   "theorems": [
    "Metro2.C11_order_unique",
    "Metro2.C11_order_exists",
    "Metro2.C11_text_order_independent",
    "Metro2.C11_comparator",
    "Metro2.C11_map_order"
   ],
   "note": "Any sorted permutation of a table is the list the model uses."
  },
  {
   "property": "C12",
   "status": "proved",
   "theorems": [
    "Metro2.C12_segment_length",
    "Metro2.C12_header_length",
    "Metro2.C12_base_length",
    "Metro2.C12_trailer_length",
    "Metro2.C12_padding_bounded"
   ],
   "note": "Exact length of segments, headers, data records and trailers, and the bound on padding."
  },
  {
   "property": "C13",
   "status": "proved",
   "theorems": [
    "Metro2.C13_segment",
    "Metro2.C13_record",
    "Metro2.C13_file",
    "Metro2.C13_isPacked"
   ],
   "note": "All slicing in the model is explicit and yields a panic error when out of range; no parse of a segment, record or file yields it, whatever the previous contents. C13_isPacked: IsPacked needs 8 bytes."
  },
  {
   "property": "C14",
   "status": "proved",
   "theorems": [
    "Metro2.C14_segment_roundtrip"
   ],
   "note": "All eight segment types, any trailing bytes."
  },
  {
   "property": "C15",
   "status": "proved",
   "theorems": [
    "Metro2.C15_header_fixed",
    "Metro2.C15_header_variable"
   ],
   "note": "Character headers with and without block descriptor, packed headers with block descriptor (packed headers without one are rejected, see C46)."
  },
  {
   "property": "C16",
   "status": "proved",
   "theorems": [
    "Metro2.C16_base_fixed",
    "Metro2.C16_base_variable"
   ],
   "note": "Fixed and variable blocked character data records with any appended segments."
  },
  {
   "property": "C17",
   "status": "proved",
   "theorems": [
    "Metro2.C17_base_packed"
   ],
   "note": "Packed data records with any appended segments."
  },
  {
   "property": "C18",
   "status": "proved",
   "theorems": [
    "Metro2.C18_trailer"
   ],
   "note": "Trailers of both encodings."
  },
  {
   "property": "C19",
   "status": "partial",
   "theorems": [
    "Metro2.C19_block_length_partial",
    "Metro2.C19_character_length",
    "Metro2.C19_violated"
   ],
   "note": "The full property is false: C19_violated gives a padded variable-blocked character record that is 4 bytes short. C19_block_length_partial is the part that holds (packed records, and character records without padding); C19_character_length is the exact length."
  },
  {
   "property": "C20",
   "status": "proved",
   "theorems": [
    "Metro2.C20_segment",
    "Metro2.C20_record"
   ],
   "note": "All records and segments, both encodings; the conditions on numbers and dates are shown necessary by C21_iff, that on the block descriptor by C21_violated_bdw."
  },
  {
   "property": "C21",
   "status": "partial",
   "theorems": [
    "Metro2.C21_iff",
    "Metro2.C21_reread_partial",
    "Metro2.C21_violated_sign",
    "Metro2.C21_violated_date",
    "Metro2.C21_violated_bdw"
   ],
   "note": "The full property is false: C21_violated_sign, C21_violated_date and C21_violated_bdw are witnesses. C21_reread_partial is the part that holds (none of these three cases). C21_iff: with a positive block descriptor (or none needed) a record can be read again exactly if it is regular."
  },
  {
   "property": "C22",
   "status": "partial",
   "theorems": [
    "Metro2.C22_reported_partial",
    "Metro2.C22_violated",
    "Metro2.C22_iff"
   ],
   "note": "The full property is false: C22_violated is a variable-blocked record for which size -500 is reported. C22_reported_partial is the part that holds. C22_iff says exactly what size is reported and when it covers what was read."
  },
  {
   "property": "C23",
   "status": "partial",
   "theorems": [
    "Metro2.C23_iff",
    "Metro2.C23_bound",
    "Metro2.C23_fuel",
    "Metro2.C23_terminates_partial",
    "Metro2.C23_no_minus",
    "Metro2.C23_violated"
   ],
   "note": "The full property is false: C23_violated is a 1360-byte input on which File.Parse never ends. C23_terminates_partial is the part that holds (all but variable-blocked character input with a negative block descriptor), C23_no_minus a simple sufficient condition, C23_fuel shows that the iteration bound of the model is immaterial. C23_iff: it does not end if and only if, from behind the header, data records can be read such that the position comes back to where it was; C23_bound: if it ends, it ends within as many iterations as there are bytes, plus one."
  },
  {
   "property": "C24",
   "status": "partial",
   "theorems": [
    "Metro2.C24_buffer_partial",
    "Metro2.C24_contents",
    "Metro2.C24_violated"
   ],
   "note": "The full property is false: C24_violated. C24_buffer_partial: the buffer is unchanged iff it has no CR/LF; C24_contents: what is left in it otherwise."
  },
  {
   "property": "C25",
   "status": "proved",
   "theorems": [
    "Metro2.C25_store",
    "Metro2.C25_rejected",
    "Metro2.C25_refused",
    "Metro2.C25_unknown"
   ],
   "note": "Any sequence of calls on any data record."
  },
  {
   "property": "C26",
   "status": "partial",
   "theorems": [
    "Metro2.C26_iff",
    "Metro2.C26_segments_kept_partial",
    "Metro2.C26_violated"
   ],
   "note": "The full property is false: C26_violated loses a K1 segment. C26_segments_kept_partial: for every accepted input, all J1/J2 segments in order and the last one of each other type. C26_iff: nothing is lost exactly if each type other than J1 and J2 occurs at most once."
  },
  {
   "property": "C27",
   "status": "proved",
   "theorems": [
    "Metro2.C27_validate",
    "Metro2.C27_wrong_total"
   ],
   "note": "Every file whose data records are of its format (C32: all reachable files). iff characterisation, and: any single changed total makes Validate fail."
  },
  {
   "property": "C28",
   "status": "partial",
   "theorems": [
    "Metro2.C28_ignored_base",
    "Metro2.C28_ignored_segment",
    "Metro2.C28_violated",
    "Metro2.C28_ten_digits_partial"
   ],
   "note": "Violated: proved that the telephone number has no influence on validation at all (data records, J1, J2), with concrete witnesses; the partial theorem says that ten-digit numbers are accepted."
  },
  {
   "property": "C29",
   "status": "partial",
   "theorems": [
    "Metro2.C29_trimmed",
    "Metro2.C29_iff",
    "Metro2.C29_violated_texts",
    "Metro2.C29_segment_iff",
    "Metro2.C29_still_valid_partial",
    "Metro2.C29_blank_history",
    "Metro2.C29_violated"
   ],
   "note": "Violated by payment histories ending in blanks (proved for all such records), by blank required texts and by identification numbers of zeros or nines followed by blanks, with concrete witnesses. C29_trimmed: reading back gives the record without the blanks at the ends of its texts; C29_iff: of a valid record that one is valid if and only if none of the three is the case; C29_segment_iff for segments."
  },
  {
   "property": "C30",
   "status": "partial",
   "theorems": [
    "Metro2.C30_never_accepted",
    "Metro2.C30_violated",
    "Metro2.C30_named_partial"
   ],
   "note": "Violated: proved that no record containing a K2 segment with a blank name is ever accepted; the partial theorem covers K2 segments with a name (zeros or nines for indicator 9)."
  },
  {
   "property": "C31",
   "status": "partial",
   "theorems": [
    "Metro2.C31_record_iff",
    "Metro2.C31_file_iff",
    "Metro2.C31_same_verdict_partial",
    "Metro2.C31_file_partial",
    "Metro2.C31_violated"
   ],
   "note": "Violated by payment history code 'Z'; for all records and files without it both formats give the same verdict. Exactly: C31_record_iff and C31_file_iff (valid in packed form = valid in character form and no 'Z')."
  },
  {
   "property": "C32",
   "status": "proved",
   "theorems": [
    "Metro2.C32_step",
    "Metro2.C32_reachable",
    "Metro2.C32_refused",
    "Metro2.C32_setRecord",
    "Metro2.C32_addDataRecord"
   ],
   "note": "Induction over all histories of SetRecord, AddDataRecord, SetType, Parse (also failing) and generated trailers from a new file, with well-typed arguments. Acceptance by SetRecord and AddDataRecord is characterised exactly. Mutation of records through retained pointers is outside the model."
  },
  {
   "property": "C33",
   "status": "proved",
   "theorems": [
    "Metro2.C33_setType",
    "Metro2.C33_back",
    "Metro2.C33_unknown"
   ],
   "note": "Stated for files all of whose records are of the file's format, which C32_reachable proves of every reachable file."
  },
  {
   "property": "C34",
   "status": "proved",
   "theorems": [
    "Metro2.C34_generated",
    "Metro2.C34_only_data_records"
   ],
   "note": "Every total of Spec.total, for all lists of data records with any segments."
  },
  {
   "property": "C35",
   "status": "proved",
   "theorems": [
    "Metro2.C35_order",
    "Metro2.C35_concat",
    "Metro2.C35_concat_ok",
    "Metro2.C35_sums",
    "Metro2.C35_status_le",
    "Metro2.C35_status_eq",
    "Metro2.C35_converted"
   ],
   "note": "Order, concatenation, conversion, sums over base/J1/J2, and the status totals (at most, and exactly if valid, the number of data records)."
  },
  {
   "property": "C36",
   "status": "proved",
   "theorems": [
    "Metro2.C36_generated_valid",
    "Metro2.C36_empty_refused"
   ],
   "note": "Both directions: at least one data record, and none."
  },
  {
   "property": "C37",
   "status": "proved",
   "theorems": [
    "Metro2.C37_deterministic",
    "Metro2.C37_any_page_size",
    "Metro2.C37_starts",
    "Metro2.C37_progress",
    "Metro2.C37_terminates",
    "Metro2.C37_race_free"
   ],
   "note": "State machine of caller, workers and wait group; determinism, progress, termination, absence of races and the bound on the number of workers hold for every interleaving and every page size."
  },
  {
   "property": "C38",
   "status": "proved",
   "theorems": [
    "Metro2.C38_separators",
    "Metro2.C38_delete",
    "Metro2.C38_length"
   ],
   "note": "Full property."
  },
  {
   "property": "C39",
   "status": "proved",
   "theorems": [
    "Metro2.C39_pieces",
    "Metro2.C39_records",
    "Metro2.C39_chunking"
   ],
   "note": "Full property, and more: for every input there is exactly one cutting into records, defined without reference to the buffer, and the scanner returns these records (up to the first one longer than its 64 KiB buffer) for every delivery that does not make more than 100 empty reads in a row."
  },
  {
   "property": "C40",
   "status": "partial",
   "theorems": [
    "Metro2.C40_iff",
    "Metro2.C40_line_breaks_partial",
    "Metro2.C40_prefix",
    "Metro2.C40_violated"
   ],
   "note": "Violated: more than 64 KiB of line breaks before a record end the stream silently. The partial theorem covers all inputs whose records with their line breaks fit the buffer; without that condition the records are a prefix of those of the cleaned input (C40_prefix). C40_iff shows that the condition is exact."
  },
  {
   "property": "C41",
   "status": "proved",
   "theorems": [
    "Metro2.C41_read"
   ],
   "note": "Full property, for any delivery of the input without 101 empty reads in a row, and with the weaker condition that no '{' is among the first 1024 bytes."
  },
  {
   "property": "C42",
   "status": "partial",
   "theorems": [
    "Metro2.C42_iff",
    "Metro2.C42_read_partial",
    "Metro2.C42_violated"
   ],
   "note": "Violated for every packed file with a CR or LF byte in one of its records (C42_iff is the exact characterisation; C42_violated the example with an amount of 10). The partial theorem covers all others."
  },
  {
   "property": "C43",
   "status": "partial",
   "theorems": [
    "Metro2.C43_character",
    "Metro2.C43_packed_partial",
    "Metro2.C43_extra_rejected",
    "Metro2.C43_violated",
    "Metro2.C43_packed_iff",
    "Metro2.C43_used"
   ],
   "note": "Full property for character files (both blockings, both newline settings), also with data after the trailer, which is reported. Violated for packed files in which a size word is the identifier of a segment (18993 = \"J1\" and others) and the record before it is not padded; the partial theorem covers all packed files without such sizes and without CR/LF bytes. C43_used extends the character case to files that were used before. C43_packed_iff makes it exact: a well-formed packed file is read back if and only if its records have no CR or LF byte and no data record that is not filled up comes before a size word that is the identifier of a segment."
  },
  {
   "property": "C44",
   "status": "partial",
   "theorems": [
    "Metro2.C44_extra_ignored",
    "Metro2.C44_records_partial",
    "Metro2.C44_violated"
   ],
   "note": "Violated: everything after the first trailer is ignored (C44_extra_ignored for every well-formed file and every continuation). The partial theorem says that the records of the result are the first ones of the input, in order and without gap."
  },
  {
   "property": "C45",
   "status": "partial",
   "theorems": [
    "Metro2.C45_raw_partial",
    "Metro2.C45_brace_rejected",
    "Metro2.C45_violated",
    "Metro2.C45_iff"
   ],
   "note": "Violated exactly by the files with '{' in the first 1024 bytes: they are rejected (C45_brace_rejected), all others are read (C45_raw_partial). Assumes of encoding/json only that it rejects texts that begin with a number or have a zero byte in the third place (RejectsRaw). C45_iff joins both directions for the JSON decoder of the library."
  },
  {
   "property": "C46",
   "status": "partial",
   "theorems": [
    "Metro2.C46_fixed_unreadable",
    "Metro2.C46_variable_partial",
    "Metro2.C46_violated",
    "Metro2.C46_iff"
   ],
   "note": "Violated for every fixed-blocked file (C46_fixed_unreadable). The partial theorem covers the variable-blocked files with consistent descriptors, without negative numbers and without CR/LF bytes in the packed form. C46_iff: a converted file whose records have the lengths they announce comes back if and only if it is well-formed in the packed format."
  },
  {
   "property": "C47",
   "status": "proved",
   "theorems": [
    "Metro2.C47_tree",
    "Metro2.C47_reader",
    "Metro2.C47_record"
   ],
   "note": "Full property on JSON trees (C47_tree, C47_record), and through NewFileFromReader for a text whose first JSON value is the tree (C47_reader). Assumes of the environment that whole numbers up to 2^53 pass through float64 unchanged (JsonEnvOk); dates are read by the modelled time.Parse; the text layer of encoding/json is outside the model."
  },
  {
   "property": "C48",
   "status": "proved",
   "theorems": [
    "Metro2.C48_file",
    "Metro2.C48_record",
    "Metro2.C48_reader"
   ],
   "note": "Full property, for every JSON value (also malformed ones: the error is the same), for records, files and the JSON branch of NewFileFromReader."
  },
  {
   "property": "C49",
   "status": "partial",
   "theorems": [
    "Metro2.C49_result",
    "Metro2.C49_iff",
    "Metro2.C49_violated",
    "Metro2.C49_detected_partial"
   ],
   "note": "Violated for variable-blocked character files and for packed files with record descriptor 426 (C49_violated). C49_iff says exactly which files are decoded in their format, C49_result that nothing but the format is lost otherwise."
  },
  {
   "property": "C50",
   "status": "proved",
   "theorems": [
    "Metro2.C50_validator",
    "Metro2.C50_print",
    "Metro2.C50_print_body",
    "Metro2.C50_convert",
    "Metro2.C50_convert_body",
    "Metro2.C50_routes"
   ],
   "note": "net/http and gorilla/mux are modelled by their documented behaviour (response writer as a state machine, routes compared literally); FormValue, Query and FormFile are parameters. The 501 of /convert is characterised completely: unknown format, or a trailer wanted for a file without data records."
  },
  {
   "property": "C51",
   "status": "partial",
   "theorems": [
    "Metro2.C51_lost",
    "Metro2.C51_delivered_partial",
    "Metro2.C51_violated"
   ],
   "note": "Violated (C51_violated; C51_lost says for which answers, whatever the request). C51_delivered_partial is the part that holds."
  },
  {
   "property": "C52",
   "status": "partial",
   "theorems": [
    "Metro2.C52_early_partial",
    "Metro2.C52_violated",
    "Metro2.C52_iff"
   ],
   "note": "Violated: a read error after the first 1024 bytes is treated as the end of the input (C52_violated, for every well-formed file and continuation). Errors within the first 1024 bytes are reported. C52_iff: exactly which failures are reported."
  },
  {
   "property": "C53",
   "status": "proved",
   "theorems": [
    "Metro2.C53_reader"
   ],
   "note": "Float rounding and the local zone of the JSON branch are parameters (JsonEnv); no assumption about them is needed here."
  },
  {
   "property": "C54",
   "status": "proved",
   "theorems": [
    "Metro2.C54_validator",
    "Metro2.C54_print",
    "Metro2.C54_convert",
    "Metro2.C54_convert_total"
   ],
   "note": "os and cobra are parameters (input, flags, whether the output can be created)."
  },
  {
   "property": "C55",
   "status": "partial",
   "theorems": [
    "Metro2.C55_character",
    "Metro2.C55_packed_partial",
    "Metro2.C55_segment",
    "Metro2.C55_header",
    "Metro2.C55_trailer",
    "Metro2.C55_violated"
   ],
   "note": "Iff for every type. Packed data records lack the declared payment history code 'Z' (C55_violated), so the packed statement is partial. The code lists of the specification come from the constant declarations, those of the model from the case lists."
  },
  {
   "property": "C56",
   "status": "partial",
   "theorems": [
    "Metro2.C56_required_partial",
    "Metro2.C56_violated"
   ],
   "note": "Violated for the first name in J2 (the tag says required, the table nullable); proved for all other tagged fields of all types."
  },
  {
   "property": "C57",
   "status": "partial",
   "theorems": [
    "Metro2.C57_ignored",
    "Metro2.C57_violated",
    "Metro2.C57_segments_partial"
   ],
   "note": "Violated for data records: the three fields have no influence on validation. Proved for J1 and J2."
  },
  {
   "property": "C58",
   "status": "partial",
   "theorems": [
    "Metro2.C58_values_partial",
    "Metro2.C58_violated",
    "Metro2.C58_iff"
   ],
   "note": "Violated: blanks, 'Z' (character form) and embedded 'B's are accepted. Proved: 24 values, documented or 'Z' or blank. C58_iff: exactly which profiles keep a valid record valid."
  },
  {
   "property": "C59",
   "status": "partial",
   "theorems": [
    "Metro2.C59_utc_partial",
    "Metro2.C59_exact",
    "Metro2.C59_zero",
    "Metro2.C59_iff",
    "Metro2.C59_instant",
    "Metro2.C59_zone_partial",
    "Metro2.C59_violated",
    "Metro2.C59_instant_violated"
   ],
   "note": "Violated: fractions of a second are lost, zones with seconds move the instant. Exact otherwise: C59_exact gives the time read back for every existing time (no fraction of a second, offset in whole minutes), C59_zero for the zero time, C59_iff says which times survive and C59_instant by how much the instant moves. time.Parse is modelled for all layouts."
  },
  {
   "property": "C60",
   "status": "partial",
   "theorems": [
    "Metro2.C60_number_partial",
    "Metro2.C60_order_violated",
    "Metro2.C60_digits",
    "Metro2.C60_clock",
    "Metro2.C60_afternoon_violated",
    "Metro2.C60_month"
   ],
   "note": "Exact rule proved (month first if that day exists, else day first, else refused); no fixed order (C60_order_violated); with AM and PM the hour is exactly that of the clock face (C60_clock), but 'p.m.' is read as morning (C60_afternoon_violated); the digit form of Metro 2 itself is refused in JSON (C60_digits); a date with the name of its month is read as that day whatever the letters, and refused if there is none (C60_month)."
  },
  {
   "property": "C61",
   "status": "proved",
   "theorems": [
    "Metro2.C61_exists"
   ],
   "note": "Proved for every JSON value; the resolution of zone abbreviations by the local zone is a parameter assumed to give such times."
  },
  {
   "property": "C62",
   "status": "partial",
   "theorems": [
    "Metro2.C62_segments_kept",
    "Metro2.C62_header_kept",
    "Metro2.C62_record_iff",
    "Metro2.C62_file_iff",
    "Metro2.C62_segments_lost",
    "Metro2.C62_segment",
    "Metro2.C62_record_partial",
    "Metro2.C62_file_partial",
    "Metro2.C62_record_violated",
    "Metro2.C62_file_violated",
    "Metro2.C62_violated"
   ],
   "note": "Proved in full for segments. Violated for data records (K, L and N segments read earlier stay) and for character files (a block descriptor left by a variable-blocked read makes a good fixed-length text unreadable). The partial theorems cover all other used records and all used files. C62_record_iff and C62_file_iff say exactly which earlier contents can be told apart by some later reading; C62_segments_kept, C62_header_kept and C62_segments_lost show what is kept and what is hidden."
  },
  {
   "property": "C63",
   "status": "partial",
   "theorems": [
    "Metro2.C63_exact_partial",
    "Metro2.C63_types_partial",
    "Metro2.C63_never",
    "Metro2.C63_violated"
   ],
   "note": "Violated: no valid file has a conforming document (C63_never), because the schema lists single letters for the 24-letter payment history profile and `data` is null without records. C63_exact_partial says exactly which documents conform; C63_types_partial gives required members (highest credit excepted) and JSON types for all files with a data record. date-time is RFC 3339 without fractions and leap seconds; values are those JSON can carry."
  },
  {
   "property": "C64",
   "status": "partial",
   "theorems": [
    "Metro2.C64_documented_partial",
    "Metro2.C64_metro2_refused",
    "Metro2.C64_violated"
   ],
   "note": "Violated: the documented format metro2 is refused with 501, and 501 is no documented status of /print. The partial theorem covers all other requests. Media types of the answers are the subject of C51."
  },
  {
   "property": "C65",
   "status": "proved",
   "theorems": [
    "Metro2.C65_written",
    "Metro2.C65_read"
   ],
   "note": "Proved: well-formedness for every file, reading back under the conditions of C47. The text layer of encoding/json is modelled."
  },
  {
   "property": "C66",
   "status": "partial",
   "theorems": [
    "Metro2.C66_same_partial",
    "Metro2.C66_violated",
    "Metro2.C66_refused",
    "Metro2.C66_iff"
   ],
   "note": "Violated: the format is told by a brace among the first 1024 bytes, so more white space before the object makes it unreadable. The partial theorem covers all texts after less than 1024 bytes of white space. C66_iff makes it exact for documents without zero bytes: read as the same file if and only if less than 1024 bytes of white space come first; C66_refused shows the refusal."
  },
  {
   "property": "C67",
   "status": "partial",
   "theorems": [
    "Metro2.C67_accepted_partial",
    "Metro2.C67_violated",
    "Metro2.C67_null_violated",
    "Metro2.C67_rejects_raw",
    "Metro2.C67_brace_rejected",
    "Metro2.C67_iff"
   ],
   "note": "Violated: the decoder stops after the first value, so anything may follow the object, and null before a brace is accepted as an empty file. The partial theorem says that the input begins with the text of an object or null. C67_rejects_raw discharges the assumption RejectsRaw of C45 and C46. C67_iff makes it exact: what is accepted begins, after white space, with null (an empty file) or with an object that would be accepted alone, with the same result."
  },
  {
   "property": "C68",
   "status": "proved",
   "theorems": [
    "Metro2.C68_print",
    "Metro2.C68_convert",
    "Metro2.C68_command"
   ],
   "note": "Proved by composition of C50, C54 and C65, under the conditions of C47 for the file answered."
  },
  {
   "property": "C69",
   "status": "proved",
   "theorems": [
    "Metro2.C69_order",
    "Metro2.C69_segment_write",
    "Metro2.C69_record_write",
    "Metro2.C69_segment_read",
    "Metro2.C69_record_read"
   ],
   "note": "Order for all 14 layouts; writing for two values of a type that differ in one field; reading for two inputs that agree in the place of the field. The places are those of the layout tables, whose order is compared with the declarations of the Go structs."
  },
  {
   "property": "C70",
   "status": "partial",
   "theorems": [
    "Metro2.C70_record_violated",
    "Metro2.C70_segment_violated",
    "Metro2.C70_record_partial",
    "Metro2.C70_segment_partial",
    "Metro2.C70_misnamed",
    "Metro2.C70_file_violated",
    "Metro2.C70_file_partial",
    "Metro2.C70_refused_segment"
   ],
   "note": "The full claim is refuted: in J1, J2 and packed data records the texts about a missing social security number or date of birth speak of a base segment in character format, and wrong totals of a packed file are called totals of a trailer in character format. The partial theorems leave out exactly these."
  },
  {
   "property": "C71",
   "status": "partial",
   "theorems": [
    "Metro2.C71_segment",
    "Metro2.C71_record",
    "Metro2.C71_data_partial",
    "Metro2.C71_short_segment",
    "Metro2.C71_short_record",
    "Metro2.C71_violated"
   ],
   "note": "Headers, trailers and segments: proved. Data records: an error is traced to the record or to a segment at some position of the input; partial because of the misnamed fields of C70. Errors that come from the standard library (numbers out of range, impossible dates) name no field; they are outside the claim. C71_violated: an error text that accuses the data record although the field at fault stands in a J1 segment. A text that is too short is answered by an error that names the type and the expected length (C71_short_record, C71_short_segment)."
  },
  {
   "property": "C72",
   "status": "proved",
   "theorems": [
    "Metro2.C72_snake",
    "Metro2.C72_camel",
    "Metro2.C72_distinct",
    "Metro2.C72_texts"
   ],
   "note": "The two replacement passes are proved equal to a one-pass rule for all byte strings; names of words follow. Distinctness by the fact that no ending of a text is the ending of another."
  },
  {
   "property": "C73",
   "status": "partial",
   "theorems": [
    "Metro2.C73_never_accepted",
    "Metro2.C73_violated",
    "Metro2.C73_omitted_partial"
   ],
   "note": "Violated for every record: no data record with a placeholder of any type is accepted, in either format and blocking (C73_never_accepted). The partial theorem says that leaving segments out works."
  },
  {
   "property": "C74",
   "status": "partial",
   "theorems": [
    "Metro2.C74_written_partial",
    "Metro2.C74_any_order",
    "Metro2.C74_violated"
   ],
   "note": "Written records are in order (C74_written_partial). The reader does not enforce the order (C74_violated) and does not notice it: C74_any_order, for every accepted record and every mixture of types that keeps the order within each type. A variable-blocked character record whose block descriptor is not positive is left out there, because its segments overlap its last field."
  },
  {
   "property": "C75",
   "status": "partial",
   "theorems": [
    "Metro2.C75_never_refused",
    "Metro2.C75_violated",
    "Metro2.C75_written_partial"
   ],
   "note": "Violated for every record with an L1 segment: any number of further ones is accepted as far as the record has room, and all but the last are lost (C75_never_refused). The partial theorem says that at most one is written."
  },
  {
   "property": "C76",
   "status": "proved",
   "theorems": [
    "Metro2.C76_character",
    "Metro2.C76_packed",
    "Metro2.C76_segment",
    "Metro2.C76_header",
    "Metro2.C76_trailer",
    "Metro2.C76_file"
   ],
   "note": "Iff for every type and for files whose data records are of the file's format (all others panic or are refused earlier)."
  },
  {
   "property": "C77",
   "status": "partial",
   "theorems": [
    "Metro2.C77_exact",
    "Metro2.C77_accepts",
    "Metro2.C77_violated",
    "Metro2.C77_shows_partial"
   ],
   "note": "C77_exact gives the result for every file, C77_accepts says which documents are read. Violated: the zero time, which every open account has as its date of closing, is written as a text that the client refuses. Bodies of calls are text and files, so the client types are only used by callers who decode them."
  },
  {
   "property": "C78",
   "status": "proved",
   "theorems": [
    "Metro2.C78_tree",
    "Metro2.C78_read"
   ],
   "note": "The hypothesis ClientFileOk asks for well-formed texts, existing times in zones of whole minutes (C85 says what happens to others), numbers up to 2^53, and segments that Validate accepts, since the service refuses others."
  },
  {
   "property": "C79",
   "status": "partial",
   "theorems": [
    "Metro2.C79_exact",
    "Metro2.C79_iff",
    "Metro2.C79_violated",
    "Metro2.C79_confused",
    "Metro2.C79_back_partial"
   ],
   "note": "C79_exact says what comes back: all but the processing indicator, the correction indicator and the new identification number, which the client types lack. C79_iff says when nothing is lost."
  },
  {
   "property": "C80",
   "status": "proved",
   "theorems": [
    "Metro2.C80_convert",
    "Metro2.C80_print",
    "Metro2.C80_validator",
    "Metro2.C80_health",
    "Metro2.C80_no_file"
   ],
   "note": "mime/multipart, net/url and net/http are assumed to transport values unchanged; the address of the server, connection failures and the context are not modelled. The format in the URL hides that in the form."
  },
  {
   "property": "C81",
   "status": "partial",
   "theorems": [
    "Metro2.C81_violated",
    "Metro2.C81_ignored",
    "Metro2.C81_reported_partial"
   ],
   "note": "Violated: the read error is dropped (C81_ignored for all calls), and what could be read is sent as if it were the file. The partial theorem: an error is returned if what is left is no file."
  },
  {
   "property": "C82",
   "status": "partial",
   "theorems": [
    "Metro2.C82_file",
    "Metro2.C82_record",
    "Metro2.C82_reader_partial",
    "Metro2.C82_back",
    "Metro2.C82_violated"
   ],
   "note": "C82_file and C82_record hold for all documents whose overruled values have numbers in the range of float64 (a number out of range is an error in Go even if overruled). Violated for the reader: format detection merges headers that are repeated or differ in case, so the format may depend on the order. The partial theorem asks that the members that tell the format occur once, apart from case."
  },
  {
   "property": "C83",
   "status": "partial",
   "theorems": [
    "Metro2.C83_file_partial",
    "Metro2.C83_reader_partial",
    "Metro2.C83_back_partial",
    "Metro2.C83_violated"
   ],
   "note": "Violated: a member like HEADER is not part of the file but tells its format, and a number out of range in a member that is not known is an error. The partial theorems exclude both; they also assume that a number which was written is read and written alike (FloatsStable), because the code encodes and decodes each value up to three times."
  },
  {
   "property": "C84",
   "status": "proved",
   "theorems": [
    "Metro2.C84_field",
    "Metro2.C84_segment",
    "Metro2.C84_header",
    "Metro2.C84_trailer",
    "Metro2.C84_data"
   ],
   "note": "Both directions, for fields, segments, headers, trailers and data records. Fields: any row of suitable width and value of the row's type that is written at all. Headers and data records: block descriptors from 0."
  },
  {
   "property": "C85",
   "status": "proved",
   "theorems": [
    "Metro2.C85_time",
    "Metro2.C85_time_iff",
    "Metro2.C85_written",
    "Metro2.C85_own",
    "Metro2.C85_own_iff"
   ],
   "note": "Iff throughout. C85_written is for all client files; the others ask for values that Go can hold (int32 or int64 by field), well-formed texts, and times that exist. Locations are modelled by their offset."
  },
  {
   "property": "C86",
   "status": "proved",
   "theorems": [
    "Metro2.C86_file",
    "Metro2.C86_shows",
    "Metro2.C86_own",
    "Metro2.C86_null"
   ],
   "note": "Names are compared as encoding/json does, including the two letters outside ASCII that fold to k and s. Members that are repeated with values other than null are left out: the client merges structs, and the model does not follow Go in reusing the elements of a repeated list."
  },
  {
   "property": "C87",
   "status": "partial",
   "theorems": [
    "Metro2.C87_segment",
    "Metro2.C87_record",
    "Metro2.C87_block",
    "Metro2.C87_rest",
    "Metro2.C87_unset_segment",
    "Metro2.C87_unset_record_partial",
    "Metro2.C87_unset_packed",
    "Metro2.C87_letters_violated"
   ],
   "note": "Every field of every written record and segment, by its place in the layout table; texts may be any whose written characters are single bytes. Numbers that do not fit their field are left to C02 and C08. Partial because of packed dates that are not available (C87_unset_packed gives what is written instead, for every such field); that texts are neither left-justified nor put in upper case is C87_letters_violated."
  },
  {
   "property": "C88",
   "status": "partial",
   "theorems": [
    "Metro2.C88_service",
    "Metro2.C88_command",
    "Metro2.C88_fixed_partial",
    "Metro2.C88_violated"
   ],
   "note": "Every file of Spec.GoodFile, read from its own text (no brace among the first 1024 bytes; packed texts without CR and LF bytes, see C42 and C45). C88_service and C88_command are exact: the same text comes back if and only if the header tells the format. Partial because it does not always; C88_violated has a file for each direction. C88_fixed_partial: without block descriptors there is no condition."
  },
  {
   "property": "C89",
   "status": "partial",
   "theorems": [
    "Metro2.C89_iff",
    "Metro2.C89_named",
    "Metro2.C89_fixed",
    "Metro2.C89_reread_partial",
    "Metro2.C89_service_partial",
    "Metro2.C89_violated"
   ],
   "note": "C89_iff is exact for files whose records are all written in the length that they announce; C89_fixed shows that this always holds without block descriptors, C89_named that with a trailer of that name only regular records are needed. No brace among the first 1024 bytes of either text (see C45). C89_service_partial: two requests for Metro 2 in a row. Partial because the code violates it: C89_violated has a number with a minus sign, and a header of 428 bytes. Not shown: that a file which is not written in its announced lengths never comes back."
  },
  {
   "property": "C90",
   "status": "proved",
   "theorems": [
    "Metro2.C90_iff",
    "Metro2.C90_fixed",
    "Metro2.C90_announced"
   ],
   "note": "C90_iff: with RecordIdentifier TRAILER and the announced lengths (Spec.Measured), the converse of C41 and C42; C90_fixed drops the lengths for fixed blocking; C90_announced holds for every text that is read. No brace among the first 1024 bytes (see C45). Not shown: whether a blocked file that is not written in its announced lengths can come back from its own text."
  },
  {
   "property": "C91",
   "status": "partial",
   "theorems": [
    "Metro2.C91_never",
    "Metro2.C91_iff",
    "Metro2.C91_converted_partial",
    "Metro2.C91_refused",
    "Metro2.C91_service",
    "Metro2.C91_violated"
   ],
   "note": "C91_iff is exact for converted files written in their announced lengths; C91_converted_partial is what holds. C91_never, C91_refused and C91_service say what happens to the usual packed files; C91_violated is the witness. Partial because the code violates it."
  },
  {
   "property": "C92",
   "status": "partial",
   "theorems": [
    "Metro2.C92_good",
    "Metro2.C92_read_partial",
    "Metro2.C92_packed_iff",
    "Metro2.C92_numbers",
    "Metro2.C92_service_partial",
    "Metro2.C92_violated"
   ],
   "note": "C92_good for both formats and blockings, as long as the totals fit their fields (10^9, or 256^5 in packed files); C92_read_partial and C92_service_partial for character files; C92_packed_iff is exact for packed files. Partial because the code violates it (C92_numbers, C92_violated). No brace among the first 1024 bytes (see C45)."
  },
  {
   "property": "C93",
   "status": "partial",
   "theorems": [
    "Metro2.C93_untouched",
    "Metro2.C93_output",
    "Metro2.C93_kept_partial",
    "Metro2.C93_violated"
   ],
   "note": "C93_untouched and C93_output describe the disk after every run exactly; C93_kept_partial is the property if writing to a created file does not fail. Partial because the code violates it (C93_violated: a full device). The operating system is a parameter (Machine): which path names which file, what can be opened, created and written."
  },
  {
   "property": "C94",
   "status": "proved",
   "theorems": [
    "Metro2.C94_anywhere",
    "Metro2.C94_same",
    "Metro2.C94_back"
   ],
   "note": "C94_anywhere for all runs that succeed, C94_same and C94_back for well-formed files (packed: without CR and LF bytes; no brace among the first 1024 bytes, see C45), C94_back is exact. Writing does not fail here, see C93."
  },
  {
   "property": "C95",
   "status": "partial",
   "theorems": [
    "Metro2.C95_told_partial",
    "Metro2.C95_violated"
   ],
   "note": "C95_told_partial is what holds: the standard error. C95_violated: an input that does not exist. Partial because the code violates it. cobra's splitting of the command line and its printing of the error are assumed as described in Model/Program."
  },
  {
   "property": "C96",
   "status": "partial",
   "theorems": [
    "Metro2.C96_validator",
    "Metro2.C96_convert_partial",
    "Metro2.C96_print_partial",
    "Metro2.C96_violated"
   ],
   "note": "C96_validator, C96_convert_partial and C96_print_partial under equal parameters; the file is read without an error. Partial because the code violates it for the default of newline (C96_violated)."
  },
  {
   "property": "C97",
   "status": "partial",
   "theorems": [
    "Metro2.C97_segment",
    "Metro2.C97_parse",
    "Metro2.C97_walk_iff",
    "Metro2.C97_walk_partial",
    "Metro2.C97_read_partial",
    "Metro2.C97_block_iff",
    "Metro2.C97_created",
    "Metro2.C97_violated",
    "Metro2.C97_accepted"
   ],
   "note": "C97_parse and C97_segment without conditions (any receiver); C97_walk_iff reduces going through the bytes to the sizes; C97_walk_partial for well-formed files, C97_read_partial for all fixed-length files that were read, C97_block_iff is exact for character blocks; C97_created for CreateFile. Partial because the code violates it (C97_violated). C97_accepted: what File.Parse accepts is, line breaks aside, as long as the sizes that its records report."
  },
  {
   "property": "C98",
   "status": "partial",
   "theorems": [
    "Metro2.C98_set",
    "Metro2.C98_names",
    "Metro2.C98_segment_names",
    "Metro2.C98_add_partial",
    "Metro2.C98_add_violated",
    "Metro2.C98_new",
    "Metro2.C98_type",
    "Metro2.C98_get_partial",
    "Metro2.C98_violated"
   ],
   "note": "C98_set, C98_names, C98_new, C98_type and C98_segment_names without conditions; C98_get_partial for character files, C98_add_partial for segments of the eight types. Partial because the code violates it for every packed file (C98_violated) and for records given as segments (C98_add_violated)."
  },
  {
   "property": "C99",
   "status": "partial",
   "theorems": [
    "Metro2.C99_record",
    "Metro2.C99_telltale",
    "Metro2.C99_kept_partial",
    "Metro2.C99_trailer",
    "Metro2.C99_header",
    "Metro2.C99_violated"
   ],
   "note": "C99_record is exact for a damaged data record whose first four bytes are intact (three cases: read as data, taken for the trailer, refused); C99_telltale and C99_kept_partial name one byte of every valid data record that rules out the bad case; C99_trailer and C99_header are exact for the other records. Partial because the code violates it (C99_violated)."
  },
  {
   "property": "C100",
   "status": "partial",
   "theorems": [
    "Metro2.C100_ends",
    "Metro2.C100_never_data",
    "Metro2.C100_error",
    "Metro2.C100_data",
    "Metro2.C100_header_partial",
    "Metro2.C100_trailer_partial",
    "Metro2.C100_parse",
    "Metro2.C100_parse_error",
    "Metro2.C100_refused",
    "Metro2.C100_refused_invalid",
    "Metro2.C100_violated"
   ],
   "note": "C100_ends and C100_never_data: no text of the reader is about a data record, whatever the input; C100_parse the same for Parse of a file. C100_error ties the texts to the errors. C100_data, C100_header_partial and C100_trailer_partial say which text a damaged record gives. Partial because the code violates it for data records (C100_violated)."
  },
  {
   "property": "C101",
   "status": "proved",
   "theorems": [
    "Metro2.C101_written_record",
    "Metro2.C101_written_segment",
    "Metro2.C101_ignored_segment",
    "Metro2.C101_ignored_record",
    "Metro2.C101_all_record",
    "Metro2.C101_all_segment"
   ],
   "note": "C101_written_record and C101_written_segment: blanks in every reserved place of what is written. C101_ignored_record and C101_ignored_segment: two inputs that differ in a reserved place only are read alike, with the same error. C101_all_record and C101_all_segment: the places listed are all the bytes of the layouts that belong to no field."
  },
  {
   "property": "C102",
   "status": "proved",
   "theorems": [
    "Metro2.C102_reader",
    "Metro2.C102_accepted",
    "Metro2.C102_parse",
    "Metro2.C102_packed"
   ],
   "note": "C102_reader, C102_accepted and C102_parse are equivalences. What a single record accepts is the subject of C09, C15-C18, C84 and C90; how a stream is divided into records that of C39. C102_packed: packed files are always blocked."
  },
  {
   "property": "C103",
   "status": "partial",
   "theorems": [
    "Metro2.C103_record",
    "Metro2.C103_success_record",
    "Metro2.C103_success",
    "Metro2.C103_verdict",
    "Metro2.C103_values",
    "Metro2.C103_appends",
    "Metro2.C103_untouched",
    "Metro2.C103_untouched_record",
    "Metro2.C103_no_object",
    "Metro2.C103_invariant",
    "Metro2.C103_reader",
    "Metro2.C103_atomic_partial",
    "Metro2.C103_violated",
    "Metro2.C103_order_violated",
    "Metro2.C103_retry_violated"
   ],
   "note": "All or nothing does not hold: C103_violated (values of a refused header stay), C103_order_violated (what stays depends on the order of the map), C103_retry_violated (after a refused document the corrected one gives data records twice). C103_atomic_partial: documents that do leave the file as it was. C103_values says exactly what stays in header and trailer, C103_appends what stays of the data records, C103_record exactly what a single data record holds after a document, accepted or not; C103_no_object that documents which are no objects change nothing, and C103_untouched_record what a document leaves of a data record if it does not name it; C103_verdict when there is an error; C103_invariant what stays true. C103_success and C103_success_record tie this model, which has the state after an error, to the one used by the other JSON theorems."
  },
  {
   "property": "C104",
   "status": "partial",
   "theorems": [
    "Metro2.C104_one_reason",
    "Metro2.C104_reader",
    "Metro2.C104_same",
    "Metro2.C104_refused",
    "Metro2.C104_no_part",
    "Metro2.C104_invalid_partial",
    "Metro2.C104_generate",
    "Metro2.C104_format",
    "Metro2.C104_vague",
    "Metro2.C104_same_program",
    "Metro2.C104_program",
    "Metro2.C104_invalid_program_partial",
    "Metro2.C104_generate_program",
    "Metro2.C104_format_program",
    "Metro2.C104_no_output",
    "Metro2.C104_no_input",
    "Metro2.C104_delivery",
    "Metro2.C104_agree",
    "Metro2.C104_violated"
   ],
   "note": "The reason of a JSON document does not name the part: C104_violated (a wrong header and a wrong trailer get the same answer), C104_vague (every document that is a JSON value, whose format can be told and whose numbers are in range gets the same text). C104_reader says exactly which reason an input gets, C104_one_reason that there is one, C104_refused and C104_program what the service and the program say, C104_agree that they agree. C104_invalid_partial: the misnamed fields of C70 are missing. C104_same and C104_same_program tie this model, which has the exact texts, to the one used by the other theorems about the service and the program. The texts of errors of the standard library are parameters."
  },
  {
   "property": "C105",
   "status": "partial",
   "theorems": [
    "Metro2.C105_filled_partial",
    "Metro2.C105_order_partial",
    "Metro2.C105_refused",
    "Metro2.C105_chosen",
    "Metro2.C105_no_context",
    "Metro2.C105_wrong_type",
    "Metro2.C105_local",
    "Metro2.C105_violated",
    "Metro2.C105_error_violated",
    "Metro2.C105_default_violated"
   ],
   "note": "The order does matter: C105_violated (the value of a variable has the place of another one), C105_error_violated (which of two wrong values is told). C105_default_violated: a default that is not allowed is taken. C105_filled_partial and C105_order_partial: templates with braces only around names, names without a closing and values without an opening brace. C105_refused says exactly when there is no address and what is said then, C105_chosen, C105_no_context and C105_wrong_type which server and variables are used. Not modelled: Host and Scheme of the configuration."
  },
  {
   "property": "C106",
   "status": "proved",
   "theorems": [
    "Metro2.C106_arrives",
    "Metro2.C106_pairs",
    "Metro2.C106_bytes",
    "Metro2.C106_order",
    "Metro2.C106_request"
   ],
   "note": "Removes from the trusted base that url.Values.Encode and url.ParseQuery transport values: both are modelled. C106_request ties this to the theorems about calls (C80). Not modelled: a query in the address of the server, the limit of newer versions of Go on the number of values."
  },
  {
   "property": "C107",
   "status": "partial",
   "theorems": [
    "Metro2.C107_add",
    "Metro2.C107_others_iff",
    "Metro2.C107_others_partial",
    "Metro2.C107_unshared_partial",
    "Metro2.C107_values_partial",
    "Metro2.C107_file",
    "Metro2.C107_new",
    "Metro2.C107_change",
    "Metro2.C107_violated",
    "Metro2.C107_twice_violated",
    "Metro2.C107_checked_violated"
   ],
   "note": "C107_add, C107_file and C107_change: the calls agree with the value models, sharing or not. C107_others_partial: no other record changes if it shares no array with the one of the call; C107_unshared_partial and C107_values_partial: nothing is shared without SetType; C107_others_iff: exactly when another record changes. Partial because the code violates the full statement: C107_violated, C107_twice_violated, C107_checked_violated. Parameter: the capacities chosen by the runtime, of which only is assumed that they suffice. Not modelled: Parse and JSON methods on objects, callers that append to slices obtained from a record or file, several files."
  },
  {
   "property": "C108",
   "status": "partial",
   "theorems": [
    "Metro2.C108_iff",
    "Metro2.C108_alone",
    "Metro2.C108_partial",
    "Metro2.C108_violated"
   ],
   "note": "C108_iff: for a stream of records and line breaks, File.Parse accepts exactly what the reader accepts, if the trailer comes last and no data record runs over into the next one (packed: and no length word is a decimal number, as the reader then divides the stream by that number). C108_alone: which character texts accepted by File.Parse the reader accepts. C108_partial: no difference for character files whose data records end in segments and blanks. Partial because the code violates the full statement both ways: C108_violated."
  },
  {
   "property": "C109",
   "status": "proved",
   "theorems": [
    "Metro2.C109_totals",
    "Metro2.C109_record",
    "Metro2.C109_parse",
    "Metro2.C109_block",
    "Metro2.C109_pages",
    "Metro2.C109_words"
   ],
   "note": "Model/Word is the same code with every sum reduced to a signed 64-bit word and with slices by signed positions. C109_parse, C109_record, C109_block, C109_pages, C109_totals: the results are those of the unbounded model, so that all other theorems hold for words too. C109_words: what is read fits a word."
  },
  {
   "property": "C110",
   "status": "partial",
   "theorems": [
    "Metro2.C110_set",
    "Metro2.C110_new",
    "Metro2.C110_copy",
    "Metro2.C110_write",
    "Metro2.C110_shared",
    "Metro2.C110_independent_partial",
    "Metro2.C110_nullable",
    "Metro2.C110_json",
    "Metro2.C110_violated"
   ],
   "note": "Model/ClientTable is generated by tools/client_accessors.py, which matches the whole text of every model_*.go against templates and reads the name of a method and the field that it uses from different places. C110_set, C110_new, C110_copy, C110_write, C110_shared: what the calls do, for every sequence of calls before. C110_violated: a copy shares its optional fields; C110_independent_partial: without copies nothing is shared. C110_json: the accessors and the documents of Model/Client agree. C110_nullable: exactly when a nullable value comes back."
  },
  {
   "property": "C111",
   "status": "partial",
   "theorems": [
    "Metro2.C111_parts",
    "Metro2.C111_call_partial",
    "Metro2.C111_length",
    "Metro2.C111_violated"
   ],
   "note": "Model/Multipart has the bytes: the writer and reader of mime/multipart, header lines, mime.ParseMediaType. C111_parts: parts come back exactly if no content has the boundary. C111_call_partial: the request that the handlers get from the bytes is that of Model/ClientCall, for every order of the form. C111_length: the header that the client sets is too small. C111_violated: a file with the boundary in it is cut."
  },
  {
   "property": "C112",
   "status": "partial",
   "theorems": [
    "Metro2.C112_age_partial",
    "Metro2.C112_bare",
    "Metro2.C112_malformed",
    "Metro2.C112_expires",
    "Metro2.C112_undated",
    "Metro2.C112_case_violated",
    "Metro2.C112_large_violated",
    "Metro2.C112_unit_violated"
   ],
   "note": "Exact for the name in small letters (C112_age_partial: the age counts below 2^63 nanoseconds, otherwise it is taken as zero); C112_bare, C112_malformed, C112_expires and C112_undated give the other cases. Violated for other letters (C112_case_violated), for great ages (C112_large_violated) and for values that are no numbers (C112_unit_violated)."
  },
  {
   "property": "C113",
   "status": "partial",
   "theorems": [
    "Metro2.C113_default_partial",
    "Metro2.C113_own",
    "Metro2.C113_calls",
    "Metro2.C113_order",
    "Metro2.C113_add",
    "Metro2.C113_default_violated",
    "Metro2.C113_order_violated"
   ],
   "note": "Holds for headers that the client does not set itself (C113_default_partial, C113_add, C113_order); the four that it sets are given by C113_own and C113_calls whatever the default headers are. Violated for these four as default headers (C113_default_violated) and for names that differ in case only (C113_order_violated)."
  },
  {
   "property": "C114",
   "status": "proved",
   "theorems": [
    "Metro2.C114_records",
    "Metro2.C114_segments",
    "Metro2.C114_record_written",
    "Metro2.C114_segment_written"
   ],
   "note": "Proved for all layouts (C114_records, C114_segments) and carried to the written bytes (C114_record_written, C114_segment_written). The list of fields is written down from the published description of the format, apart from the tables of the code. Packed numbers: the widths agree; the code writes them in binary."
  },
  {
   "property": "C115",
   "status": "proved",
   "theorems": [
    "Metro2.C115_segment",
    "Metro2.C115_record",
    "Metro2.C115_file",
    "Metro2.C115_valid"
   ],
   "note": "Proved; the last sentence holds but for a new K3 segment, which C115_valid names as the one exception."
  },
  {
   "property": "C116",
   "status": "proved",
   "theorems": [
    "Metro2.C116_file",
    "Metro2.C116_spoiled"
   ],
   "note": "Exact characterisation (C116_file); C116_spoiled is its consequence for a single wrong part. Which texts are times is said by C118."
  },
  {
   "property": "C117",
   "status": "proved",
   "theorems": [
    "Metro2.C117_file",
    "Metro2.C117_reader",
    "Metro2.C117_null_segment"
   ],
   "note": "Exact characterisation for UnmarshalJSON (C117_file) and for the JSON branch of the reader (C117_reader). Which texts are dates is left to decodeTime (C59, C60), which segments are valid to Validate. C117_null_segment: null as a segment is refused, but for K3, where it adds an empty one."
  },
  {
   "property": "C118",
   "status": "partial",
   "theorems": [
    "Metro2.C118_exact",
    "Metro2.C118_read_partial",
    "Metro2.C118_violated"
   ],
   "note": "C118_exact is an exact characterisation (iff) of the texts and of the times read from them. The full statement with RFC 3339 fails: hours of one digit, a comma before the fraction, and zones up to 24:60 are taken too (C118_violated); all texts of RFC 3339 are read rightly (C118_read_partial). Leap seconds and small letters, which RFC 3339 allows, are left out of the specification."
  },
  {
   "property": "C119",
   "status": "partial",
   "theorems": [
    "Metro2.C119_told",
    "Metro2.C119_refused_partial",
    "Metro2.C119_violated"
   ],
   "note": "The text of the error is always the bare status line, such as 400 Bad Request, so that the reason is not in it (C119_violated). Body and Model carry the reason (C119_refused_partial); C119_told says for every call and answer what is returned."
  },
  {
   "property": "C120",
   "status": "partial",
   "theorems": [
    "Metro2.C120_replaces_partial",
    "Metro2.C120_shared",
    "Metro2.C120_returns_iff",
    "Metro2.C120_time",
    "Metro2.C120_violated"
   ],
   "note": "Reading is replacing if nothing was held before (C120_replaces_partial, for every type of values); otherwise C120_shared says exactly what happens, and C120_violated has a K1 segment that is changed in place. For all record and segment types C120_returns_iff says that exactly set values come back; C120_time says when a NullableTime can be written at all. What a reading with an error leaves in a value is not modelled."
  },
  {
   "property": "C121",
   "status": "partial",
   "theorems": [
    "Metro2.C121_first",
    "Metro2.C121_used_partial",
    "Metro2.C121_stream_iff",
    "Metro2.C121_stream_partial",
    "Metro2.C121_shared",
    "Metro2.C121_end",
    "Metro2.C121_order_violated",
    "Metro2.C121_lost_violated",
    "Metro2.C121_violated"
   ],
   "note": "C121_first ties the model of repeated calls, which has the state after each call, to the model of one call used elsewhere. C121_stream_iff: exactly the streams in which no file has a lower sort than one before it (fixed-length character, character with block descriptors, packed) are returned file by file; C121_stream_partial is the case of one sort. C121_used_partial: a reader with a character file without block descriptor reads like a new one, whatever the stream brings, also with errors. C121_shared and C121_end: the earlier results are the same object as the later ones, and the end of the stream empties the last file. C121_order_violated and C121_lost_violated are concrete cases."
  },
  {
   "property": "C122",
   "status": "partial",
   "theorems": [
    "Metro2.C122_segment_partial",
    "Metro2.C122_header_partial",
    "Metro2.C122_trailer_partial",
    "Metro2.C122_data_partial",
    "Metro2.C122_file_partial",
    "Metro2.C122_file_kept",
    "Metro2.C122_violated"
   ],
   "note": "The partial theorems say exactly what is left, for every old content: the fields before a certain one hold what the text has at their places, this one cannot be read there, and it and all behind it are as they were; a data record whose fields have all been read has the valid segments of the text up to the place where reading ended, and of the old ones those that are not repeated and not in the text; a file has the data records read from the text and none of its own. HasAt uses the relation Reads of property C09. C122_violated has a witness for each part; the one for files is every reachable file."
  },
  {
   "property": "C123",
   "status": "proved",
   "theorems": [
    "Metro2.C123_segment",
    "Metro2.C123_record",
    "Metro2.C123_file",
    "Metro2.C123_read",
    "Metro2.C123_open",
    "Metro2.C123_handled",
    "Metro2.C123_service",
    "Metro2.C123_commands",
    "Metro2.C123_reachable"
   ],
   "note": "A refinement: Model/Checked.lean writes, answers and runs with none for a panic, and the theorems say that it is some of what the total model gives. The hypothesis of the theorems on writing is only that values have the Go types of their fields, which the compiler enforces; records of a file need not even be of its format. The handlers and commands need no hypothesis but that the JSON branch is the one of Model/Json.lean. Files built by calls (Spec.Reachable) do not panic either when validated or given a trailer. An example shows that the checked functions can panic. Left out: running out of memory and panics inside the standard library."
  },
  {
   "property": "C124",
   "status": "partial",
   "theorems": [
    "Metro2.C124_same",
    "Metro2.C124_record",
    "Metro2.C124_reader",
    "Metro2.C124_exact",
    "Metro2.C124_needed_record",
    "Metro2.C124_needed",
    "Metro2.C124_needed_parse",
    "Metro2.C124_parse_partial",
    "Metro2.C124_no_minus",
    "Metro2.C124_violated"
   ],
   "note": "Model/Work.lean is the reading with a counter of calls of Parse; C124_same says that it is otherwise the reading of the rest of the model. C124_record and C124_reader hold for all texts. C124_exact: for a data record that is read, one call for it and one for each segment of the text; C124_needed and C124_needed_parse: no fewer calls than the file read has parts, so the counter does count. For File.Parse the full statement is false: C124_violated gives a text of 1360 bytes on which the calls exceed every number. C124_parse_partial has the bound if no data record met has a negative block descriptor, and C124_no_minus if the text has no minus sign. The work of one call of Parse is bounded by the layout (C15, C26) and is not counted further."
  },
  {
   "property": "C125",
   "status": "partial",
   "theorems": [
    "Metro2.C125_same",
    "Metro2.C125_exact",
    "Metro2.C125_bound_partial",
    "Metro2.C125_violated"
   ],
   "note": "The full statement is false. String joins the segments by += and each time copies all that was joined before: C125_exact says how many bytes for well-formed segments, and C125_violated that no factor is enough, with valid records of many J1 segments. C125_bound_partial is what holds: at most the text of the segments once for each segment. Records whose descriptor is right have at most 9999 bytes and so fewer than a hundred segments."
  },
  {
   "property": "C126",
   "status": "partial",
   "theorems": [
    "Metro2.C126_same",
    "Metro2.C126_exact",
    "Metro2.C126_bound_partial",
    "Metro2.C126_no_breaks",
    "Metro2.C126_violated"
   ],
   "note": "The full statement is false: getStripedData strips the data from the beginning again for each position that it tries. C126_exact says how many bytes are looked at when a record is found; C126_violated that no factor is enough, with a valid header behind line breaks; C126_bound_partial what holds, the length twice for each line break and three times more; C126_no_breaks that three times the length is enough without line breaks. Through bufio.Scanner the data have at most 64 KiB."
  },
  {
   "property": "C127",
   "status": "proved",
   "theorems": [
    "Metro2.C127_segment",
    "Metro2.C127_record",
    "Metro2.C127_file",
    "Metro2.C127_contained",
    "Metro2.C127_read",
    "Metro2.C127_least",
    "Metro2.C127_fourfold",
    "Metro2.C127_most",
    "Metro2.C127_amplified",
    "Metro2.C127_amplified_file"
   ],
   "note": "The times are those that time.Time can hold (years of at most twelve digits). C127_least, C127_fourfold and C127_most say that the bounds are reached, up to the reserved byte in C127_fourfold. C127_amplified and C127_amplified_file: a factor of this size (177 for each data record) is reached, by a single record and by files of any number of data records; Parse does not compare the record descriptor with the block descriptor, and String pads to what it says."
  },
  {
   "property": "C128",
   "status": "proved",
   "theorems": [
    "Metro2.C128_assembled",
    "Metro2.C128_opened",
    "Metro2.C128_merged",
    "Metro2.C128_split",
    "Metro2.C128_reordered",
    "Metro2.C128_valid",
    "Metro2.C128_blocking"
   ],
   "note": "For Reader.Read; File.Parse hands each record all that follows it and so depends on the neighbours, see C108. C128_blocking: the same blocking is needed."
  },
  {
   "property": "C129",
   "status": "proved",
   "theorems": [
    "Metro2.C129_same",
    "Metro2.C129_cut",
    "Metro2.C129_written",
    "Metro2.C129_json",
    "Metro2.C129_json_written",
    "Metro2.C129_opened",
    "Metro2.C129_parse"
   ],
   "note": "C129_same: a text that is read is read alike whatever follows. C129_cut and C129_json say exactly from which length on a part is read; C129_opened covers a part in one form of an input in the other."
  },
  {
   "property": "C130",
   "status": "proved",
   "theorems": [
    "Metro2.C130_field",
    "Metro2.C130_segment",
    "Metro2.C130_header",
    "Metro2.C130_trailer",
    "Metro2.C130_data",
    "Metro2.C130_appended",
    "Metro2.C130_unblocked",
    "Metro2.C130_short",
    "Metro2.C130_header_cut",
    "Metro2.C130_data_cut"
   ],
   "note": "C130_field characterises the verdict on a single field (Spec/ReadFault.lean says what is wrong with a text); the others say that the first fault is the one reported. A letter in a required number is reported as a missing number, as strconv.Atoi gives 0. C130_data covers the fields of the base segment, C130_appended the segments behind them. C130_unblocked and C130_short cover packed records without block descriptor word and short texts, C130_header_cut and C130_data_cut blocked texts that are 1 to 4 bytes too short. Missing bytes at the reserved end of a header are no fault, as no field of the type stands there."
  }
 ]
}