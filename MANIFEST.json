{
 "claims": [
  {
   "property": "C01",
   "status": "proved",
   "theorems": [
    "CT.Props.C01_len_round_trip"
   ],
   "note": ""
  },
  {
   "property": "C02",
   "status": "proved",
   "theorems": [
    "CT.Props.C02_i16_round_trip",
    "CT.Props.C02_i32_round_trip",
    "CT.Props.C02_i64_round_trip"
   ],
   "note": ""
  },
  {
   "property": "C03",
   "status": "proved",
   "theorems": [
    "CT.Props.C03_canonical",
    "CT.Props.canonical_unique"
   ],
   "note": ""
  },
  {
   "property": "C04",
   "status": "proved",
   "theorems": [
    "CT.Props.C04_value",
    "CT.Props.C04_value_total",
    "CT.Props.C04_padding",
    "CT.Props.C04_overlong"
   ],
   "note": ""
  },
  {
   "property": "C05",
   "status": "proved",
   "theorems": [
    "CT.Props.C05_bool",
    "CT.Props.C05_i8",
    "CT.Props.C05_double"
   ],
   "note": ""
  },
  {
   "property": "C06",
   "status": "proved",
   "theorems": [
    "CT.Props.C06_round_trip",
    "CT.Props.C06_write_limit",
    "CT.Props.C06_read_limit"
   ],
   "note": ""
  },
  {
   "property": "C07",
   "status": "proved",
   "theorems": [
    "CT.Props.C07_read_string",
    "CT.Props.C07_returned_valid",
    "CT.Props.C07_round_trip",
    "CT.Props.C07_spec_agrees"
   ],
   "note": ""
  },
  {
   "property": "C08",
   "status": "proved",
   "theorems": [
    "CT.Props.C08_header_round_trip",
    "CT.Props.C08_last_field_id",
    "CT.Props.C08_counterexample",
    "CT.Props.C08_counterexample_decreasing"
   ],
   "note": "The round trip for every id pair is false for this code; the exact condition is proved as an equivalence."
  },
  {
   "property": "C09",
   "status": "proved",
   "theorems": [
    "CT.Props.C09_form_independence"
   ],
   "note": ""
  },
  {
   "property": "C10",
   "status": "proved",
   "theorems": [
    "CT.Props.C10_collection_header",
    "CT.Props.C10_read_bounded",
    "CT.Props.C10_read_limit",
    "CT.Props.C10_write_limit"
   ],
   "note": ""
  },
  {
   "property": "C100",
   "status": "proved",
   "theorems": [
    "CT.Props.C100_slice",
    "CT.Props.C100_reader",
    "CT.Props.C100_fill",
    "CT.Props.C100_possible",
    "CT.Props.C100_end",
    "CT.Props.C100_never",
    "CT.Props.C100_parquet"
   ],
   "note": "C100_possible and C100_parquet: builds without overflow checks, memory granted. Which error comes first for given bytes is C26-C32, C76."
  },
  {
   "property": "C101",
   "status": "proved",
   "theorems": [
    "CT.Props.C101_distinct",
    "CT.Props.C101_line",
    "CT.Props.C101_read",
    "CT.Props.C101_missing",
    "CT.Props.C101_parquet",
    "CT.Props.C101_schema",
    "CT.Props.C101_dump",
    "CT.Props.C101_message"
   ],
   "note": "ErrorStdOk states what is assumed of the standard library's Debug of CStr and ErrorKind; the text of io::Error is left open. PlainNames holds for identifiers, the names the macros allow in practice."
  },
  {
   "property": "C102",
   "status": "proved",
   "theorems": [
    "CT.Props.C102_slice",
    "CT.Props.C102_reader",
    "CT.Props.C102_slice_sse2",
    "CT.Props.C102_read",
    "CT.Props.C102_skip",
    "CT.Props.C102_otherwise",
    "CT.Props.C102_written"
   ],
   "note": "C102_slice_sse2 has the hypothesis ShortSkips of C16. The allocator must grant the bounded requests of AllocOk; C102_skip needs no allocator."
  },
  {
   "property": "C103",
   "status": "proved",
   "theorems": [
    "CT.Props.C103_value",
    "CT.Props.C103_error",
    "CT.Props.C103_parquet",
    "CT.Props.C103_message",
    "CT.Props.C103_dump",
    "CT.Props.C103_schema"
   ],
   "note": "The text of an f64, the table of characters that are printed as they are, the text of an io::Error and the names of io::ErrorKinds other than four are parameters (structures DebugStd and ErrorStd), because they belong to std."
  },
  {
   "property": "C104",
   "status": "proved",
   "theorems": [
    "CT.Props.C104_skip",
    "CT.Props.C104_skip_breaks",
    "CT.Props.C104_fill",
    "CT.Props.C104_panic",
    "CT.Props.C104_checked_panic",
    "CT.Props.C104_undefined",
    "CT.Props.C104_checked_undefined",
    "CT.Props.C104_read",
    "CT.Props.C104_end",
    "CT.Props.C104_safe",
    "CT.Props.C104_agree",
    "CT.Props.C104_counterexample"
   ],
   "note": "C104_read gives all four outcomes for builds without overflow checks. The allocator must grant the bounded requests of AllocOk. C104_counterexample: bytes that two builds read as different values."
  },
  {
   "property": "C105",
   "status": "proved",
   "theorems": [
    "CT.Props.C105_fill",
    "CT.Props.C105_reader",
    "CT.Props.C105_read",
    "CT.Props.C105_one",
    "CT.Props.C105_schema",
    "CT.Props.C105_dump",
    "CT.Props.C105_file_one"
   ],
   "note": "Allocators grant what is asked for (AllocOk; for the programs: everything). Seed: the initial value has the shape of the type, as in C16."
  },
  {
   "property": "C106",
   "status": "proved",
   "theorems": [
    "CT.Props.C106_outcome",
    "CT.Props.C106_one",
    "CT.Props.C106_shape",
    "CT.Props.C106_counterexample"
   ],
   "note": "C106_counterexample: metadata with a negative offset index offset give a panic with overflow checks and no index without."
  },
  {
   "property": "C107",
   "status": "proved",
   "theorems": [
    "CT.Props.C107_fill",
    "CT.Props.C107_reader",
    "CT.Props.C107_read",
    "CT.Props.C107_skip",
    "CT.Props.C107_one",
    "CT.Props.C107_ends",
    "CT.Props.C107_file",
    "CT.Props.C107_programs",
    "CT.Props.C107_file_ends"
   ],
   "note": "Allocations up to the limits are assumed to succeed."
  },
  {
   "property": "C108",
   "status": "proved",
   "theorems": [
    "CT.Props.C108_schema",
    "CT.Props.C108_one",
    "CT.Props.C108_accepted",
    "CT.Props.C108_program"
   ],
   "note": ""
  },
  {
   "property": "C109",
   "status": "proved",
   "theorems": [
    "CT.Props.C109_numbers",
    "CT.Props.C109_asserts",
    "CT.Props.C109_unwrap",
    "CT.Props.C109_panic",
    "CT.Props.C109_file"
   ],
   "note": ""
  },
  {
   "property": "C11",
   "status": "proved",
   "theorems": [
    "CT.Props.C11_slice_reader",
    "CT.Props.C11_slice_reader_sse2",
    "CT.Props.C11_counterexample_truncated",
    "CT.Props.C11_counterexample_overlong"
   ],
   "note": "Unconditional without SSE2; with SSE2 under exactly the stated condition, counterexamples outside it."
  },
  {
   "property": "C110",
   "status": "proved",
   "theorems": [
    "CT.Props.C110_text",
    "CT.Props.C110_slice",
    "CT.Props.C110_reader",
    "CT.Props.C110_writer",
    "CT.Props.C110_sinks"
   ],
   "note": "The interpreter covers the subset of Rust the two files use; the constructors of CompactThriftInputSlice and the trait methods that are generic over CompactThriftProtocol are parsed but not run."
  },
  {
   "property": "C111",
   "status": "proved",
   "theorems": [
    "CT.Props.C111_text",
    "CT.Props.C111_fill",
    "CT.Props.C111_write",
    "CT.Props.C111_read",
    "CT.Props.C111_written",
    "CT.Props.C111_round_trip",
    "CT.Props.C111_encodings"
   ],
   "note": "Default::default() and the methods of the input and output are the model's (the latter are C110's); impl Debug for EncodingSet is parsed but not run (C98 has its result)."
  },
  {
   "property": "C112",
   "status": "proved",
   "theorems": [
    "CT.Props.C112_text",
    "CT.Props.C112_metadata",
    "CT.Props.C112_range",
    "CT.Props.C112_chunk",
    "CT.Props.C112_index",
    "CT.Props.C112_footer",
    "CT.Props.C112_range_iff"
   ],
   "note": "Read, Seek, Vec, Option, Iterator and the integer conversions of std are built into the interpreter with their documented meaning; read_thrift of OffsetIndex and ColumnIndex is the model's (C111 has its text)."
  },
  {
   "property": "C113",
   "status": "proved",
   "theorems": [
    "CT.Props.C113_text",
    "CT.Props.C113_convert",
    "CT.Props.C113_returns",
    "CT.Props.C113_memory",
    "CT.Props.C113_bounded",
    "CT.Props.C113_reports",
    "CT.Props.C113_find",
    "CT.Props.C113_found",
    "CT.Props.C113_accessors"
   ],
   "note": "Assumes that Vec::with_capacity succeeds for fewer fields than there are elements (the code never asks for more) and that there are fewer than 2^64 elements. The methods of Vec, slices, Option and the integer conversions are built into the interpreter. pretty_print_schema and main are C114."
  },
  {
   "property": "C114",
   "status": "proved",
   "theorems": [
    "CT.Props.C114_print",
    "CT.Props.C114_indent",
    "CT.Props.C114_main",
    "CT.Props.C114_schema"
   ],
   "note": "Assumes that Vec::with_capacity succeeds for fewer than 2^32 fields. print!, println!, format strings, derived Debug, File::open, unwrap and the integer formatting are built into the interpreter; get_metadata_chunk and read_thrift are the functions of the model, whose texts are C112 and C111. Writing to standard output always succeeds."
  },
  {
   "property": "C115",
   "status": "proved",
   "theorems": [
    "CT.Props.C115_slice_reader",
    "CT.Props.C115_chunking",
    "CT.Props.C115_io_error",
    "CT.Props.C115_local_slice",
    "CT.Props.C115_local_reader",
    "CT.Props.C115_truncated",
    "CT.Props.C115_ends",
    "CT.Props.C115_returns",
    "CT.Props.C115_any_build",
    "CT.Props.C115_written",
    "CT.Props.C115_written_each",
    "CT.Props.C115_in_turn",
    "CT.Props.C115_unique"
   ],
   "note": "A program is a well-founded tree of requests, so that its own computation always ends; loops over fields are built in, with as many rounds as there are bytes; recursion of unbounded depth in the program itself is not. Skipping in a row assumes ascending field ids, no boxed bool and a type that is not bool, as in C19."
  },
  {
   "property": "C116",
   "status": "proved",
   "theorems": [
    "CT.Props.C116_written",
    "CT.Props.C116_written_iff",
    "CT.Props.C116_prefix",
    "CT.Props.C116_field",
    "CT.Props.C116_read_back",
    "CT.Props.C116_unique",
    "CT.Props.C116_skip_field",
    "CT.Props.C116_by_hand"
   ],
   "note": "The steps of a writing program do not depend on anything but its values, which are arbitrary, so a program is a list of steps. Reading back needs fields that are there (an absent optional field leaves no trace), types that are not an option of an option, and steps between ids that the reader can follow (C08: the writer's long header is wrong). Skipping unknown fields assumes ascending ids and no boxed bool, as in C19."
  },
  {
   "property": "C117",
   "status": "proved",
   "theorems": [
    "CT.Props.C117_order",
    "CT.Props.C117_laws",
    "CT.Props.C117_hash",
    "CT.Props.C117_negative"
   ],
   "note": "The derives are modelled by their documented expansion for a tuple struct with one field, and Hasher::write_i32 by its default."
  },
  {
   "property": "C118",
   "status": "proved",
   "theorems": [
    "CT.Props.C118_convert",
    "CT.Props.C118_possible",
    "CT.Props.C118_bounded",
    "CT.Props.C118_only",
    "CT.Props.C118_main",
    "CT.Props.C118_schema"
   ],
   "note": "Only Vec::with_capacity in field_from_schema_element can be refused; other allocations (strings, the growth of Vecs, formatting) always succeed in the interpreter."
  },
  {
   "property": "C119",
   "status": "proved",
   "theorems": [
    "CT.Props.C119_text",
    "CT.Props.C119_main",
    "CT.Props.C119_dump",
    "CT.Props.C119_shows",
    "CT.Props.C119_agree"
   ],
   "note": "The derived Debug output is a value function of the model (C99, C103); the text of std's formatter is not run. The path that is opened is not looked at: the world has one file, or none."
  },
  {
   "property": "C12",
   "status": "proved",
   "theorems": [
    "CT.Props.C12_chunking"
   ],
   "note": ""
  },
  {
   "property": "C120",
   "status": "proved",
   "theorems": [
    "CT.Props.C120_text",
    "CT.Props.C120_variants",
    "CT.Props.C120_from_str",
    "CT.Props.C120_accepts",
    "CT.Props.C120_from",
    "CT.Props.C120_name",
    "CT.Props.C120_error",
    "CT.Props.C120_missing"
   ],
   "note": "How std shows a CStr and the names of other ErrorKinds are parameters (ErrorStd); to_string_lossy of bytes that are not UTF-8 is stuck in both the interpreter and the model, which C74 shows not to occur for strings."
  },
  {
   "property": "C121",
   "status": "proved",
   "theorems": [
    "CT.Props.C121_dump",
    "CT.Props.C121_schema",
    "CT.Props.C121_written",
    "CT.Props.C121_tree",
    "CT.Props.C121_stored",
    "CT.Props.C121_checks",
    "CT.Props.C121_same"
   ],
   "note": "The allocator grants every request and File::open succeeds; C118 and C119_main cover the other cases. mainSteps is the step bound of C114. StdOk is what C98 assumes of std's Debug of f64."
  },
  {
   "property": "C13",
   "status": "proved",
   "theorems": [
    "CT.Props.C13_io_error",
    "CT.Props.C13_nothing_invented",
    "CT.Props.C13_incomplete"
   ],
   "note": ""
  },
  {
   "property": "C14",
   "status": "proved",
   "theorems": [
    "CT.Props.C14_slice",
    "CT.Props.C14_reader"
   ],
   "note": ""
  },
  {
   "property": "C15",
   "status": "proved",
   "theorems": [
    "CT.Props.C15_truncation_slice",
    "CT.Props.C15_truncation_reader",
    "CT.Props.C15_counterexample_panic",
    "CT.Props.C15_counterexample_ub"
   ],
   "note": ""
  },
  {
   "property": "C16",
   "status": "proved",
   "theorems": [
    "CT.Props.C16_reader",
    "CT.Props.C16_slice",
    "CT.Props.C16_read",
    "CT.Props.C16_skip",
    "CT.Props.C16_any_build",
    "CT.Props.C16_counterexample_overflow",
    "CT.Props.C16_counterexample_sse2_panic",
    "CT.Props.C16_counterexample_sse2_ub"
   ],
   "note": "Reading returns Ok or Err exactly in the builds named in the statement; the exceptions are proved as counterexamples."
  },
  {
   "property": "C17",
   "status": "proved",
   "theorems": [
    "CT.Props.C17_terminates",
    "CT.Props.C17_bound_irrelevant_slice",
    "CT.Props.C17_bound_irrelevant_reader"
   ],
   "note": ""
  },
  {
   "property": "C18",
   "status": "proved",
   "theorems": [
    "CT.Props.C18_slice",
    "CT.Props.C18_reader",
    "CT.Props.C18_slice_sse2",
    "CT.Props.C18_checked",
    "CT.Props.C18_conforming",
    "CT.Props.C18_self_delimiting",
    "CT.Props.C18_counterexample_stop"
   ],
   "note": ""
  },
  {
   "property": "C19",
   "status": "proved",
   "theorems": [
    "CT.Props.C19_value",
    "CT.Props.C19_skip_written",
    "CT.Props.C19_parquet",
    "CT.Props.C19_field"
   ],
   "note": "Boxed bool fields are excluded, see C58."
  },
  {
   "property": "C20",
   "status": "proved",
   "theorems": [
    "CT.Props.C20_sse2_varint",
    "CT.Props.C20_sse2_long",
    "CT.Props.C20_cases"
   ],
   "note": ""
  },
  {
   "property": "C21",
   "status": "proved",
   "theorems": [
    "CT.Props.C21_depth",
    "CT.Props.C21_reading"
   ],
   "note": ""
  },
  {
   "property": "C22",
   "status": "proved",
   "theorems": [
    "CT.Props.C22_fill",
    "CT.Props.C22_round_trip",
    "CT.Props.C22_identity",
    "CT.Props.C22_counterexample_gap",
    "CT.Props.C22_counterexample_bool_union"
   ],
   "note": "Holds for exactly checkable schemas; the counterexamples show the two conditions are needed."
  },
  {
   "property": "C23",
   "status": "proved",
   "theorems": [
    "CT.Props.C23_parquet_round_trip"
   ],
   "note": ""
  },
  {
   "property": "C24",
   "status": "proved",
   "theorems": [
    "CT.Props.C24_writable",
    "CT.Props.C24_reread",
    "CT.Props.C24_parquet"
   ],
   "note": ""
  },
  {
   "property": "C25",
   "status": "proved",
   "theorems": [
    "CT.Props.C25_prefix_free",
    "CT.Props.C25_injective",
    "CT.Props.C25_unshare"
   ],
   "note": ""
  },
  {
   "property": "C26",
   "status": "proved",
   "theorems": [
    "CT.Props.C26_ok_iff",
    "CT.Props.C26_missing"
   ],
   "note": ""
  },
  {
   "property": "C27",
   "status": "proved",
   "theorems": [
    "CT.Props.C27_duplicate"
   ],
   "note": ""
  },
  {
   "property": "C28",
   "status": "proved",
   "theorems": [
    "CT.Props.C28_replaces",
    "CT.Props.C28_last_wins"
   ],
   "note": ""
  },
  {
   "property": "C29",
   "status": "proved",
   "theorems": [
    "CT.Props.C29_insert",
    "CT.Props.C29_insert_skippable",
    "CT.Props.C29_insert_reader",
    "CT.Props.C29_evolution",
    "CT.Props.C29_evolution_unique",
    "CT.Props.C29_parquet"
   ],
   "note": ""
  },
  {
   "property": "C30",
   "status": "proved",
   "theorems": [
    "CT.Props.C30_wrong_type",
    "CT.Props.C30_bool_accepts",
    "CT.Props.C30_counterexample_bool",
    "CT.Props.C30_union_unchecked"
   ],
   "note": ""
  },
  {
   "property": "C31",
   "status": "proved",
   "theorems": [
    "CT.Props.C31_rejected",
    "CT.Props.C31_accepted",
    "CT.Props.C31_bool_elements"
   ],
   "note": ""
  },
  {
   "property": "C32",
   "status": "proved",
   "theorems": [
    "CT.Props.C32_ok_iff",
    "CT.Props.C32_errors"
   ],
   "note": ""
  },
  {
   "property": "C33",
   "status": "proved",
   "theorems": [
    "CT.Props.C33_enum",
    "CT.Props.C33_enum_is_i32"
   ],
   "note": ""
  },
  {
   "property": "C34",
   "status": "proved",
   "theorems": [
    "CT.Props.C34_absent",
    "CT.Props.C34_none_iff",
    "CT.Props.C34_none_bytes",
    "CT.Props.C34_none_written"
   ],
   "note": ""
  },
  {
   "property": "C35",
   "status": "proved",
   "theorems": [
    "CT.Props.C35_typed",
    "CT.Props.C35_fill"
   ],
   "note": ""
  },
  {
   "property": "C36",
   "status": "proved",
   "theorems": [
    "CT.Props.C36_weight",
    "CT.Props.C36_growth",
    "CT.Props.C36_reserve"
   ],
   "note": ""
  },
  {
   "property": "C37",
   "status": "proved",
   "theorems": [
    "CT.Props.C37_prefix",
    "CT.Props.C37_ok_iff"
   ],
   "note": ""
  },
  {
   "property": "C38",
   "status": "proved",
   "theorems": [
    "CT.Props.C38_outcome",
    "CT.Props.C38_ok_iff",
    "CT.Props.C38_errors"
   ],
   "note": ""
  },
  {
   "property": "C39",
   "status": "proved",
   "theorems": [
    "CT.Props.C39_read_set",
    "CT.Props.C39_members_bounded",
    "CT.Props.C39_iter"
   ],
   "note": ""
  },
  {
   "property": "C40",
   "status": "proved",
   "theorems": [
    "CT.Props.C40_read",
    "CT.Props.C40_write",
    "CT.Props.C40_set_as_list",
    "CT.Props.C40_list_as_set"
   ],
   "note": ""
  },
  {
   "property": "C41",
   "status": "proved",
   "theorems": [
    "CT.Props.C41_outcome",
    "CT.Props.C41_ok_iff",
    "CT.Props.C41_no_panic"
   ],
   "note": "A failed allocation aborts; that is the only other outcome. I/O errors of the file itself are passed on."
  },
  {
   "property": "C42",
   "status": "proved",
   "theorems": [
    "CT.Props.C42_file"
   ],
   "note": ""
  },
  {
   "property": "C43",
   "status": "proved",
   "theorems": [
    "CT.Props.C43_outcome",
    "CT.Props.C43_some_iff"
   ],
   "note": ""
  },
  {
   "property": "C44",
   "status": "proved",
   "theorems": [
    "CT.Props.C44_outcome",
    "CT.Props.C44_ok",
    "CT.Props.C44_fetches",
    "CT.Props.C44_panic"
   ],
   "note": ""
  },
  {
   "property": "C45",
   "status": "proved",
   "theorems": [
    "CT.Props.C45_direct",
    "CT.Props.C45_values",
    "CT.Props.C45_panic_before",
    "CT.Props.C45_panic_empty"
   ],
   "note": "A column with an offset index but no column index is also fine as long as the offset index does not precede the chunk."
  },
  {
   "property": "C46",
   "status": "proved",
   "theorems": [
    "CT.Props.C46_iff",
    "CT.Props.C46_accepted",
    "CT.Props.C46_round_trip",
    "CT.Props.C46_stable"
   ],
   "note": "C46_iff characterises success completely; C46_stable: any result can be flattened and converted again."
  },
  {
   "property": "C47",
   "status": "proved",
   "theorems": [
    "CT.Props.C47_levels"
   ],
   "note": ""
  },
  {
   "property": "C48",
   "status": "proved",
   "theorems": [
    "CT.Props.C48_indexes",
    "CT.Props.C48_distinct"
   ],
   "note": "The u32 index wraps beyond 2^32 leaves; C48_distinct excludes that by the length of the list."
  },
  {
   "property": "C49",
   "status": "proved",
   "theorems": [
    "CT.Props.C49_no_overflow",
    "CT.Props.C49_depth",
    "CT.Props.C49_too_deep",
    "CT.Props.C46_iff"
   ],
   "note": ""
  },
  {
   "property": "C50",
   "status": "proved",
   "theorems": [
    "CT.Props.C50_only_errors",
    "CT.Props.C50_bad_element",
    "CT.Props.C50_empty",
    "CT.Props.C50_trailing",
    "CT.Props.C50_truncated",
    "CT.Props.C50_root",
    "CT.Props.C50_count"
   ],
   "note": ""
  },
  {
   "property": "C51",
   "status": "proved",
   "theorems": [
    "CT.Props.C51_find",
    "CT.Props.C51_every_field"
   ],
   "note": ""
  },
  {
   "property": "C52",
   "status": "proved",
   "theorems": [
    "CT.Props.C52_decimal",
    "CT.Props.C52_physical",
    "CT.Props.C52_integer"
   ],
   "note": ""
  },
  {
   "property": "C53",
   "status": "proved",
   "theorems": [
    "CT.Props.C53_leaf",
    "CT.Props.C53_group",
    "CT.Props.C53_annotations"
   ],
   "note": ""
  },
  {
   "property": "C54",
   "status": "proved",
   "theorems": [
    "CT.Props.C54_start",
    "CT.Props.C54_ids",
    "CT.Props.C54_copied",
    "CT.Props.C54_total"
   ],
   "note": ""
  },
  {
   "property": "C55",
   "status": "proved",
   "theorems": [
    "CT.Props.C55_field",
    "CT.Props.C55_definition",
    "CT.Props.C55_terminates",
    "CT.Props.C55_acyclic",
    "CT.Props.C55_depth",
    "CT.Props.C55_cycle",
    "CT.Props.C55_counterexample"
   ],
   "note": "C55_cycle: a definition that borrows nothing and leads to a cycle is never decided."
  },
  {
   "property": "C56",
   "status": "proved",
   "theorems": [
    "CT.Props.C56_debug",
    "CT.Props.C56_distinct"
   ],
   "note": "Also without distinct values: one of the declared names."
  },
  {
   "property": "C57",
   "status": "proved",
   "theorems": [
    "CT.Props.C57_written",
    "CT.Props.C57_set_rejected"
   ],
   "note": ""
  },
  {
   "property": "C58",
   "status": "proved",
   "theorems": [
    "CT.Props.C58_written",
    "CT.Props.C58_read_back",
    "CT.Props.C58_true_rejected",
    "CT.Props.C58_skip_leaves",
    "CT.Props.C58_counterexample"
   ],
   "note": ""
  },
  {
   "property": "C59",
   "status": "proved",
   "theorems": [
    "CT.Props.C59_keeps",
    "CT.Props.C59_shared"
   ],
   "note": ""
  },
  {
   "property": "C60",
   "status": "proved",
   "theorems": [
    "CT.Props.C60_overflow_checks"
   ],
   "note": ""
  },
  {
   "property": "C61",
   "status": "proved",
   "theorems": [
    "CT.Props.C61_allocation"
   ],
   "note": ""
  },
  {
   "property": "C62",
   "status": "proved",
   "theorems": [
    "CT.Props.C62_conforming",
    "CT.Props.C62_parquet"
   ],
   "note": ""
  },
  {
   "property": "C63",
   "status": "proved",
   "theorems": [
    "CT.Props.C63_metadata",
    "CT.Props.C63_page_index"
   ],
   "note": ""
  },
  {
   "property": "C64",
   "status": "proved",
   "theorems": [
    "CT.Props.C64_short",
    "CT.Props.C64_iff",
    "CT.Props.C64_counterexample"
   ],
   "note": "A deviation of the code from the Parquet format, proved with its exact extent."
  },
  {
   "property": "C65",
   "status": "proved",
   "theorems": [
    "CT.Props.C65_outcome",
    "CT.Props.C65_stored",
    "CT.Props.C65_round_trip"
   ],
   "note": "Failed allocations are excluded in C65_stored and C65_round_trip."
  },
  {
   "property": "C66",
   "status": "proved",
   "theorems": [
    "CT.Props.C66_size"
   ],
   "note": ""
  },
  {
   "property": "C67",
   "status": "proved",
   "theorems": [
    "CT.Props.C67_decimal",
    "CT.Props.C67_hex"
   ],
   "note": ""
  },
  {
   "property": "C68",
   "status": "proved",
   "theorems": [
    "CT.Props.C68_last",
    "CT.Props.C68_keys",
    "CT.Props.C68_distinct",
    "CT.Props.C68_order"
   ],
   "note": ""
  },
  {
   "property": "C69",
   "status": "proved",
   "theorems": [
    "CT.Props.C69_declared",
    "CT.Props.C69_typedef",
    "CT.Props.C69_counterexample"
   ],
   "note": "Types as token lists."
  },
  {
   "property": "C70",
   "status": "proved",
   "theorems": [
    "CT.Props.C70_struct",
    "CT.Props.C70_union",
    "CT.Props.C70_enum",
    "CT.Props.C70_document",
    "CT.Props.C70_same",
    "CT.Props.C70_keyword_needed"
   ],
   "note": "The token model abstracts rustc's lexer; the matcher semantics of macro_rules (no backtracking out of a fragment) is part of the trusted base."
  },
  {
   "property": "C71",
   "status": "proved",
   "theorems": [
    "CT.Props.C71_types"
   ],
   "note": "No user definition may shadow one of the listed words (hypothesis hs)."
  },
  {
   "property": "C72",
   "status": "proved",
   "theorems": [
    "CT.Props.C72_format",
    "CT.Props.C72_constants"
   ],
   "note": "Closed computation on the one source file, checked by the kernel; C72_constants quantifies over the other arguments."
  },
  {
   "property": "C73",
   "status": "proved",
   "theorems": [
    "CT.Props.C73_erase",
    "CT.Props.C73_each",
    "CT.Props.C73_total",
    "CT.Props.C73_exact"
   ],
   "note": "The capacities are an instrumented copy of the conversion; C73_erase proves it returns the same results."
  },
  {
   "property": "C74",
   "status": "proved",
   "theorems": [
    "CT.Props.C74_accepts",
    "CT.Props.C74_display",
    "CT.Props.C74_missing_field"
   ],
   "note": "to_string_lossy is modelled on UTF-8 only, which C74_display proves to be the only case."
  },
  {
   "property": "C75",
   "status": "proved",
   "theorems": [
    "CT.Props.C75_migration",
    "CT.Props.C75_migration_unique",
    "CT.Props.C75_parquet",
    "CT.Props.C75_counterexample_back",
    "CT.Props.thrift_migrates"
   ],
   "note": "C88 derives the definitions of parquet.thrift from its text; the converse direction is refuted."
  },
  {
   "property": "C76",
   "status": "proved",
   "theorems": [
    "CT.Props.C76_slice",
    "CT.Props.C76_reader",
    "CT.Props.C76_slice_sse2",
    "CT.Props.C76_checked",
    "CT.Props.C76_read",
    "CT.Props.C76_read_reader",
    "CT.Props.C76_unambiguous",
    "CT.Props.C76_rejects",
    "CT.Props.C76_encodings"
   ],
   "note": "Allocation of up to 10,000,000 elements is assumed to succeed (needed for one direction only)."
  },
  {
   "property": "C77",
   "status": "proved",
   "theorems": [
    "CT.Props.C77_skip",
    "CT.Props.C77_fill",
    "CT.Props.C77_reads",
    "CT.Props.C77_unambiguous",
    "CT.Props.C77_prefix_free",
    "CT.Props.C77_set_rejected"
   ],
   "note": "The trees and their encoding (Spec/Protocol.lean) do not refer to the model. Allocation of up to 10,000,000 elements is assumed to succeed."
  },
  {
   "property": "C78",
   "status": "proved",
   "theorems": [
    "CT.Props.C78_header",
    "CT.Props.C78_written",
    "CT.Props.C78_parquet",
    "CT.Props.C78_counterexample_gap"
   ],
   "note": "Boxed booleans are excluded (their fields do not follow the protocol)."
  },
  {
   "property": "C79",
   "status": "proved",
   "theorems": [
    "CT.Props.C79_result",
    "CT.Props.C79_typed",
    "CT.Props.C79_scalar",
    "CT.Props.C79_option",
    "CT.Props.C79_refillable",
    "CT.Props.C79_retry",
    "CT.Props.C79_counterexample_retry"
   ],
   "note": "Model/Partial.lean repeats the filling functions with the value left; C79_result ties them to the model used everywhere else."
  },
  {
   "property": "C80",
   "status": "proved",
   "theorems": [
    "CT.Props.C80_cut",
    "CT.Props.C80_reader",
    "CT.Props.C80_fields"
   ],
   "note": "Allocation of up to 10,000,000 elements is assumed to succeed."
  },
  {
   "property": "C81",
   "status": "proved",
   "theorems": [
    "CT.Props.C81_fill",
    "CT.Props.C81_read",
    "CT.Props.C81_reader"
   ],
   "note": "Addresses are not modelled: a slice is identified by its bytes and its place after its length."
  },
  {
   "property": "C82",
   "status": "proved",
   "theorems": [
    "CT.Props.C82_slice",
    "CT.Props.C82_reader"
   ],
   "note": "Operations are those of CompactThriftInput (read_byte, read_double, read_binary, skip_integer, skip_binary)."
  },
  {
   "property": "C83",
   "status": "proved",
   "theorems": [
    "CT.Props.C83_shown",
    "CT.Props.C83_schema",
    "CT.Props.C83_lines",
    "CT.Props.C83_counterexample_line",
    "CT.Props.C83_counterexample_name"
   ],
   "note": "Derived Debug output as documented for core::fmt; field ids are not printed."
  },
  {
   "property": "C84",
   "status": "proved",
   "theorems": [
    "CT.Props.C84_lex",
    "CT.Props.C84_text",
    "CT.Props.C84_error",
    "CT.Props.C84_layout",
    "CT.Props.C84_document",
    "CT.Props.C84_counterexample_comment",
    "CT.Props.C84_counterexample_return"
   ],
   "note": "The lexer ANTLR generates is modelled by its documented rule (longest match, first rule); the rules are compared with regular expressions transcribed from Thrift.g4."
  },
  {
   "property": "C85",
   "status": "proved",
   "theorems": [
    "CT.Props.C85_parse",
    "CT.Props.C85_unambiguous",
    "CT.Props.C85_refused"
   ],
   "note": "ANTLR's parser is modelled by recursive descent with one token of lookahead; since the grammar is unambiguous the tree is the only one. The grammar is transcribed as the tokens of each parse tree."
  },
  {
   "property": "C86",
   "status": "proved",
   "theorems": [
    "CT.Props.C86_integer",
    "CT.Props.C86_reads",
    "CT.Props.C86_bare",
    "CT.Props.C86_layout",
    "CT.Props.C86_round_trip",
    "CT.Props.C86_every",
    "CT.Props.C86_keyed",
    "CT.Props.C86_counterexample_include"
   ],
   "note": "From the characters to the Document of Domain.kt; ids and repeated names are C54 and C68."
  },
  {
   "property": "C87",
   "status": "proved",
   "theorems": [
    "CT.Props.C87_same",
    "CT.Props.C87_accepted",
    "CT.Props.C87_counterexample_recursive",
    "CT.Props.C87_counterexample_set",
    "CT.Props.C87_counterexample_default",
    "CT.Props.C87_counterexample_type",
    "CT.Props.C87_counterexample_value"
   ],
   "note": "The templates of Generator.kt are represented by definitions, as those of the macros; their method names (fill, write, where the runtime has fill_thrift, write_thrift) and local variables are not modelled."
  },
  {
   "property": "C88",
   "status": "proved",
   "theorems": [
    "CT.Props.C88_tokens",
    "CT.Props.C88_generated",
    "CT.Props.C88_macro",
    "CT.Props.C88_reads"
   ],
   "note": "The text is a list of lines in Model/ThriftText.lean; lexer, parser and generator are evaluated on it by the kernel (decide +kernel), the rest follows from C84, C85, C75."
  },
  {
   "property": "C89",
   "status": "proved",
   "theorems": [
    "CT.Props.C89_final",
    "CT.Props.C89_no_further"
   ],
   "note": "C89_no_further covers success and failure. The position after a failure is expressed by what a reader is asked for, since the model does not keep the input after a failure."
  },
  {
   "property": "C90",
   "status": "proved",
   "theorems": [
    "CT.Props.C90_meaning",
    "CT.Props.C90_slice",
    "CT.Props.C90_reader",
    "CT.Props.C90_permuted",
    "CT.Props.C90_framed",
    "CT.Props.C90_counterexample_repeated"
   ],
   "note": "Builds without overflow checks, as C76, on which the statements about reads rest (with them, an order can make the id addition panic, C16)."
  },
  {
   "property": "C91",
   "status": "proved",
   "theorems": [
    "CT.Props.C91_shortest",
    "CT.Props.C91_slice",
    "CT.Props.C91_reader",
    "CT.Props.C91_parquet",
    "CT.Props.C91_counterexample_order"
   ],
   "note": "Slices: builds without SSE2; the condition on headers is that of C22."
  },
  {
   "property": "C92",
   "status": "proved",
   "theorems": [
    "CT.Props.C92_slice_reader",
    "CT.Props.C92_slice_reader_sse2",
    "CT.Props.C92_chunking",
    "CT.Props.C92_io_error",
    "CT.Props.C92_final",
    "CT.Props.C92_overflow_checks",
    "CT.Props.C92_allocation"
   ],
   "note": "The value left by a panic of the overflow checks or a failing allocator is not compared with the other build, which goes on."
  },
  {
   "property": "C93",
   "status": "proved",
   "theorems": [
    "CT.Props.C93_double",
    "CT.Props.C93_meaning",
    "CT.Props.C93_equivalence",
    "CT.Props.C93_round_trip",
    "CT.Props.C93_bytes",
    "CT.Props.C93_clone",
    "CT.Props.C93_counterexample_nan",
    "CT.Props.C93_counterexample_zero",
    "CT.Props.C93_counterexample_refill"
   ],
   "note": "The derived implementations and == of the standard library types are modelled by their documented meaning."
  },
  {
   "property": "C94",
   "status": "proved",
   "theorems": [
    "CT.Props.C94_in_step_slice",
    "CT.Props.C94_in_step_reader",
    "CT.Props.C94_fewer_fields",
    "CT.Props.C94_fewer_fields_reader",
    "CT.Props.C94_parquet",
    "CT.Props.C94_counterexample"
   ],
   "note": "The schema without the fields must itself be readable (schemaReads, decidable)."
  },
  {
   "property": "C95",
   "status": "proved",
   "theorems": [
    "CT.Props.C95_macro",
    "CT.Props.C95_generator",
    "CT.Props.C95_both",
    "CT.Props.C95_write_macro",
    "CT.Props.C95_write_generator",
    "CT.Props.C95_hygiene"
   ],
   "note": "For writing, one function body at a time: the functions it calls are those of the model (writeField), and by this theorem the same for their bodies."
  },
  {
   "property": "C96",
   "status": "proved",
   "theorems": [
    "CT.Props.C96_text",
    "CT.Props.C96_struct",
    "CT.Props.C96_union",
    "CT.Props.C96_enum",
    "CT.Props.C96_document",
    "CT.Props.C96_types"
   ],
   "note": "Ids written `-0` are excluded (the token differs from `0`, the meaning does not)."
  },
  {
   "property": "C97",
   "status": "proved",
   "theorems": [
    "CT.Props.C97_definition",
    "CT.Props.C97_document",
    "CT.Props.C97_read",
    "CT.Props.C97_parquet",
    "CT.Props.C97_include",
    "CT.Props.C97_typedef"
   ],
   "note": "The type definitions and includes are stated separately because Rust refuses what is written for them. The namespace of the header may not contain a line feed."
  },
  {
   "property": "C98",
   "status": "proved",
   "theorems": [
    "CT.Props.C98_text",
    "CT.Props.C98_line",
    "CT.Props.C98_format"
   ],
   "note": "Of the text of an `f64` only what Rust guarantees is assumed (`StdOk`); which characters count as printable is left open."
  },
  {
   "property": "C99",
   "status": "proved",
   "theorems": [
    "CT.Props.C99_schema",
    "CT.Props.C99_dump",
    "CT.Props.C99_any_build",
    "CT.Props.C99_schema_shows",
    "CT.Props.C99_dump_shows"
   ],
   "note": "Printing itself is assumed to succeed; the panic message on standard error is not modelled. C99_schema and C99_dump: builds without overflow checks and SSE2. Names with a line feed or ' (' make printed schemas ambiguous (C83)."
  }
 ]
}