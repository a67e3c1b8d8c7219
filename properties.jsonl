{"id": "C01", "title": "Unsigned varint round trip", "statement": "Writing any length with write_len and then reading with read_len returns the same number and leaves exactly the bytes that followed it.", "quantifier": "every 64-bit value and every sequence of following bytes, every modelled input", "why_tests_cant": "2^64 values times arbitrary suffixes", "anchors": ["runtime/src/uleb.rs:decode_uleb", "runtime/src/uleb.rs:encode_uleb", "runtime/src/protocol.rs:read_len", "runtime/src/protocol.rs:write_len"]}
{"id": "C02", "title": "Signed integer round trip", "statement": "write_i16/i32/i64 followed by read_i16/i32/i64 is the identity, leaving the following bytes untouched.", "quantifier": "every i16, i32, i64 and every suffix", "why_tests_cant": "the i64 domain and suffixes cannot be enumerated", "anchors": ["runtime/src/protocol.rs:zigzag_encode64", "runtime/src/protocol.rs:zigzag_decode64", "runtime/src/protocol.rs:read_i64", "runtime/src/protocol.rs:write_i64"]}
{"id": "C03", "title": "Integers are written in the protocol's canonical form", "statement": "The bytes written for an integer are the little-endian base-128 digits of zigzag(n) (2n for n>=0, -2n-1 for n<0), with the continuation bit on all but the last byte and no superfluous digit; i16 takes at most 3, i32 at most 5 and i64 at most 10 bytes.", "quantifier": "every i16, i32, i64, u64", "why_tests_cant": "interoperability with other implementations is a statement about all values", "anchors": ["runtime/src/uleb.rs:encode_uleb", "runtime/src/protocol.rs:zigzag_encode16", "runtime/src/protocol.rs:zigzag_encode32", "runtime/src/protocol.rs:zigzag_encode64"]}
{"id": "C04", "title": "Varint reading equals base-128 arithmetic and tolerates padding", "statement": "Reading a varint of at most ten bytes yields the sum of its base-128 digits modulo 2^64; appending padding zero digits never changes the value; reading narrower integers keeps the low 16/32 bits.", "quantifier": "every terminated varint byte sequence, including overlong ones", "why_tests_cant": "infinitely many overlong encodings", "anchors": ["runtime/src/uleb.rs:decode_uleb", "runtime/src/protocol.rs:read_i16", "runtime/src/protocol.rs:read_i32"]}
{"id": "C05", "title": "bool, i8 and double values survive the wire bit-exactly", "statement": "An element/value of type bool, i8 or double written and read back is identical (doubles bit for bit, little endian, NaN payloads included).", "quantifier": "every bool, i8, every 64-bit double pattern, every suffix", "why_tests_cant": "2^64 double patterns", "anchors": ["runtime/src/types.rs:bool", "runtime/src/types.rs:i8", "runtime/src/types.rs:f64", "runtime/src/protocol.rs:read_double", "runtime/src/protocol.rs:write_double"]}
{"id": "C06", "title": "Binary round trip and the 16 MiB limit", "statement": "write_binary of a value of at most 16 MiB followed by read_binary returns the same bytes; a longer value is refused by the writer before any of it is written, and a longer declared length is refused by the reader whatever follows.", "quantifier": "every byte string and every declared length, every suffix", "why_tests_cant": "unbounded contents and lengths", "anchors": ["runtime/src/protocol.rs:read_binary", "runtime/src/protocol.rs:write_binary", "runtime/src/protocol.rs:MAX_BINARY_LEN"]}
{"id": "C07", "title": "Strings returned are valid UTF-8, and all valid UTF-8 is accepted", "statement": "read_string succeeds exactly on those binaries that are the UTF-8 encoding of some sequence of Unicode scalar values, and returns exactly those bytes; otherwise it fails with InvalidString.", "quantifier": "every byte string", "why_tests_cant": "the unchecked conversion is sound only if this holds for every byte string", "anchors": ["runtime/src/protocol.rs:read_string"]}
{"id": "C08", "title": "Field header round trip: exact condition", "statement": "The header written for field id after last_field_id is read back as the same type and id exactly when the id difference is 1..15, or the previous id is 0 and the id is above 15. (The full wish - every id pair - is false: the long form writes the difference, the reader takes it as an absolute id.)", "quantifier": "every pair of 16-bit field ids, every type nibble, every suffix", "why_tests_cant": "2^32 pairs; the failing region is not exercised by the tests", "anchors": ["runtime/src/protocol.rs:write_field_header", "runtime/src/protocol.rs:read_field_header", "runtime/src/protocol.rs:read_full_field_id"]}
{"id": "C09", "title": "Header form independence", "statement": "A field header in short (delta) form and in long (absolute id) form that denote the same id and type lead the reader to the same result.", "quantifier": "every previous id, id, type and suffix, any padding of the long id", "why_tests_cant": "all combinations", "anchors": ["runtime/src/protocol.rs:read_field_header"]}
{"id": "C10", "title": "Collection header round trip and limit", "statement": "A list of n elements gets a one-byte header below 15 elements and a varint length from 15 on; reading the header returns the same length and element type; lengths above 10,000,000 are refused by both writer and reader.", "quantifier": "every length and element type", "why_tests_cant": "boundary at 14/15 and at the limit must hold for all lengths", "anchors": ["runtime/src/protocol.rs:read_collection_len_and_type", "runtime/src/types.rs:Vec<P>", "runtime/src/protocol.rs:MAX_COLLECTION_LEN"]}
{"id": "C11", "title": "Slice input and io::Read input agree", "statement": "For every byte string and every type, reading through CompactThriftInputSlice and through std::io::Read gives the same value and the same remaining bytes, or the same error. Holds unconditionally without the SSE2 skip; with it, whenever no skipped integer is truncated or longer than 17 bytes.", "quantifier": "every byte string, type and schema", "why_tests_cant": "two implementations must agree on an unbounded domain", "anchors": ["runtime/src/protocol.rs:CompactThriftInputSlice", "runtime/src/protocol.rs:impl CompactThriftInput for R"]}
{"id": "C12", "title": "Chunking independence of io::Read", "statement": "However the reader delivers the bytes (any split into non-empty chunks, any number of Interrupted results in between), reading gives the same value.", "quantifier": "every byte string, every split and interruption schedule, every type", "why_tests_cant": "unbounded number of schedules", "anchors": ["runtime/src/protocol.rs:impl CompactThriftInput for R", "std read_exact"]}
{"id": "C13", "title": "I/O errors surface unchanged", "statement": "If the reader fails with a hard error before the value is complete, the read fails with IO(that kind); it never succeeds and never yields another error that the complete data would not have produced.", "quantifier": "every crash point, every error kind, every type", "why_tests_cant": "all crash points", "anchors": ["runtime/src/protocol.rs:impl CompactThriftInput for R", "runtime/src/error.rs:From<IOError>"]}
{"id": "C14", "title": "Reading looks only at its own bytes", "statement": "A successful read consumes a prefix of the input; replacing or extending what follows that prefix changes neither the value nor what is left over.", "quantifier": "every input, type, schema and suffix", "why_tests_cant": "all suffixes; the SSE2 path reads 16 bytes ahead", "anchors": ["runtime/src/protocol.rs:CompactThriftInputSlice", "runtime/src/uleb.rs:skip_uleb_sse2"]}
{"id": "C15", "title": "Truncation is always detected", "statement": "If a byte string is read completely, then reading any proper prefix of it fails with IO(UnexpectedEof). True for io::Read and for slices without SSE2; with the SSE2 slice code it can instead panic or leave the buffer (counterexamples).", "quantifier": "every input, every truncation point, every type", "why_tests_cant": "every crash point of every message", "anchors": ["runtime/src/protocol.rs:read_byte", "runtime/src/uleb.rs:skip_uleb_fallback", "runtime/src/uleb.rs:skip_uleb_sse2"]}
{"id": "C16", "title": "Reading untrusted bytes never panics and is memory safe", "statement": "For every input, reading returns Ok or Err. Proved for io::Read without overflow checks; false for slices with SSE2 (panic on truncated skipped integers, out-of-bounds slice on 16 continuation bytes) and with overflow checks (field id addition).", "quantifier": "every byte string, every type", "why_tests_cant": "adversarial inputs", "anchors": ["runtime/src/uleb.rs:skip_uleb_fallback", "runtime/src/uleb.rs:skip_uleb_sse2", "runtime/src/protocol.rs:read_field_header"]}
{"id": "C17", "title": "Reading and skipping terminate on every finite input", "statement": "Every read and skip of a finite input finishes, for recursive schemas too.", "quantifier": "every finite input, every schema including recursive ones", "why_tests_cant": "non-termination cannot be observed by tests", "anchors": ["runtime/src/protocol.rs:skip_field", "runtime/src/macros.rs:fill_thrift", "runtime/src/uleb.rs:decode_uleb"]}
{"id": "C18", "title": "Skipping accepts exactly the well-formed wire values", "statement": "skip_field of a wire type succeeds exactly when the input starts with a well-formed compact-protocol value of that type (grammar given separately), and then consumes exactly that value.", "quantifier": "every byte string and every wire type", "why_tests_cant": "grammar membership over unbounded nesting", "anchors": ["runtime/src/protocol.rs:skip_field", "runtime/src/protocol.rs:skip_collection", "runtime/src/protocol.rs:skip_map"]}
{"id": "C19", "title": "Skipping a written field consumes exactly that field", "statement": "For any type and value, skipping the bytes the writer produced for it (with the wire type in its header) consumes exactly those bytes. (Fails for Box/Rc/Arc<bool> fields, see C58.)", "quantifier": "every schema, type and value", "why_tests_cant": "all values", "anchors": ["runtime/src/protocol.rs:skip_field", "runtime/src/types.rs:write_thrift"]}
{"id": "C20", "title": "The SSE2 integer skip equals the scalar one", "statement": "On any buffer of at least 16 bytes, if the varint at its start ends within its first 17 bytes the SSE2 skip drops exactly that varint; otherwise it drops 17 bytes, which leaves the buffer's bounds if only 16 are present.", "quantifier": "every buffer", "why_tests_cant": "2^128 chunks", "anchors": ["runtime/src/uleb.rs:skip_uleb_sse2", "runtime/src/uleb.rs:skip_uleb_fallback"]}
{"id": "C21", "title": "Recursion depth is bounded by the input length and by nothing smaller", "statement": "Skipping needs at most two nested calls per remaining input byte (plus two), and for every depth there is a valid input needing it: there is no depth limit. Reading needs at most one nested call of a definition's fill_thrift per remaining byte (plus one), and for a recursive struct behind Box every depth d is reached by a valid message of 2d+1 bytes.", "quantifier": "every input; every depth", "why_tests_cant": "stack use over all inputs", "anchors": ["runtime/src/protocol.rs:skip_field", "runtime/src/types.rs:287-289", "runtime/src/macros.rs:77-100"]}
{"id": "C22", "title": "Round trip for every schema", "statement": "For any well-formed set of struct/union/enum definitions (fields in increasing id order with bounded gaps, no bool union variant), writing any value and reading it back gives an equal value and consumes exactly the written bytes.", "quantifier": "every schema, every type over it, every value, every suffix", "why_tests_cant": "schemas and values are unbounded", "anchors": ["runtime/src/macros.rs:thrift_struct", "runtime/src/macros.rs:thrift_union", "runtime/src/macros.rs:thrift_enum", "runtime/src/types.rs"]}
{"id": "C23", "title": "Round trip for all Parquet metadata types", "statement": "Every value of every type declared in format.rs (FileMetaData, PageHeader, ColumnIndex, ...) that the writer accepts reads back equal.", "quantifier": "every value of each of the declared types", "why_tests_cant": "unbounded metadata", "anchors": ["parquet/src/format.rs"]}
{"id": "C24", "title": "Whatever was read can be written, and re-reading it gives the same value", "statement": "If read_thrift returns a value, write_thrift of it succeeds, and reading the result returns the same value (reading normalises in one step).", "quantifier": "every input, schema and type", "why_tests_cant": "all inputs", "anchors": ["runtime/src/types.rs", "runtime/src/macros.rs"]}
{"id": "C25", "title": "Encodings are unambiguous", "statement": "Two values of the same type with the same encoding are equal, and no encoding is a proper prefix of another value's encoding.", "quantifier": "every schema, type and pair of values", "why_tests_cant": "pairs of unbounded values", "anchors": ["runtime/src/types.rs", "runtime/src/macros.rs"]}
{"id": "C26", "title": "Required fields", "statement": "A struct read succeeds only if every required field id occurred on the wire; otherwise, when the fields themselves are readable, the error is MissingField naming the first missing one in declaration order.", "quantifier": "every input and struct definition", "why_tests_cant": "all inputs", "anchors": ["runtime/src/macros.rs:__thrift_required_check", "runtime/src/macros.rs:__thrift_required_set"]}
{"id": "C27", "title": "A repeated optional field is an error", "statement": "If an optional field that is already present occurs again, reading fails with DuplicateField, whatever the payload.", "quantifier": "every struct, position and payload", "why_tests_cant": "all histories of field occurrences", "anchors": ["runtime/src/types.rs:Option<P>"]}
{"id": "C28", "title": "A repeated required scalar field: last one wins", "statement": "For required fields of scalar, string, enum or list type, a second occurrence replaces the value of the first.", "quantifier": "every such type, both payloads", "why_tests_cant": "all payload pairs", "anchors": ["runtime/src/macros.rs:thrift_struct", "runtime/src/types.rs"]}
{"id": "C29", "title": "Unknown fields are ignored", "statement": "Inserting a well-formed field with an id the struct does not declare does not change the value read; in particular data written under a larger schema reads back as its projection.", "quantifier": "every struct, every unknown id and well-formed payload, every position", "why_tests_cant": "forward compatibility quantifies over future schemas", "anchors": ["runtime/src/macros.rs:thrift_struct", "runtime/src/protocol.rs:skip_field"]}
{"id": "C30", "title": "A known field with the wrong wire type is rejected", "statement": "For every non-bool field, a header with a different wire type gives InvalidType without touching the payload. (bool fields accept any wire type as false; union variants are not checked: counterexamples.)", "quantifier": "every field type and wire type", "why_tests_cant": "all combinations; the bool and union exceptions are untested", "anchors": ["runtime/src/protocol.rs:fill_thrift_field", "runtime/src/types.rs:bool", "runtime/src/macros.rs:thrift_union"]}
{"id": "C31", "title": "List element types", "statement": "A list is accepted only if its element wire type equals the expected one, or is 1 where booleans are expected; bool elements read as true exactly for byte 1.", "quantifier": "every element type and header", "why_tests_cant": "all combinations", "anchors": ["runtime/src/types.rs:Vec<P>", "runtime/src/types.rs:bool"]}
{"id": "C32", "title": "Unions hold exactly one known field", "statement": "Reading a union succeeds only for exactly one field with a declared id followed by a zero stop byte; empty gives InvalidType, an unknown id MissingField, a further field MissingStop.", "quantifier": "every input and union definition", "why_tests_cant": "all inputs", "anchors": ["runtime/src/macros.rs:thrift_union"]}
{"id": "C33", "title": "Unknown enum values survive", "statement": "Any 32-bit enum value, declared or not, is read, kept and written back unchanged.", "quantifier": "every i32", "why_tests_cant": "forward compatibility over all values", "anchors": ["runtime/src/macros.rs:thrift_enum"]}
{"id": "C34", "title": "Optional fields: None writes nothing, absence reads as None", "statement": "An optional field that is None contributes no bytes and leaves the id state unchanged; a field id that does not occur on the wire leaves the initial value of its field unchanged (None for a fresh struct).", "quantifier": "every struct and input", "why_tests_cant": "all inputs", "anchors": ["runtime/src/types.rs:Option<P>", "runtime/src/macros.rs:thrift_struct"]}
{"id": "C35", "title": "Reads return values of the declared type", "statement": "Every value returned by read_thrift is well-typed: struct arities, union variants in range, strings valid UTF-8, EncodingSet within 31 bits.", "quantifier": "every input, schema, type", "why_tests_cant": "all inputs", "anchors": ["runtime/src/types.rs", "runtime/src/macros.rs", "parquet/src/encodings.rs"]}
{"id": "C36", "title": "No amplification of lengths", "statement": "In any value returned, the total number of list elements and of binary/string bytes is at most the number of bytes consumed; a failing list read has reserved at most 10,000,000 elements.", "quantifier": "every input, schema, type", "why_tests_cant": "adversarial length fields", "anchors": ["runtime/src/protocol.rs:read_collection_len_and_type", "runtime/src/types.rs:Vec<P>"]}
{"id": "C37", "title": "A failing writer has received a prefix", "statement": "Whatever the sink does (short writes, Interrupted, hard error at any point), the bytes it received are a prefix of the complete encoding, and the write returns Ok exactly if it received all of it.", "quantifier": "every sink schedule, every value", "why_tests_cant": "every crash point", "anchors": ["runtime/src/protocol.rs:impl CompactThriftOutput for W", "std write_all"]}
{"id": "C38", "title": "Writer errors are exactly the documented ones", "statement": "Writing a well-typed value into memory fails only for a binary above 16 MiB, a list above 10,000,000 elements or a None in a position that must hold a value, with the respective error; otherwise it succeeds.", "quantifier": "every value of every type", "why_tests_cant": "all values", "anchors": ["runtime/src/types.rs:write_thrift", "runtime/src/protocol.rs:write_binary"]}
{"id": "C39", "title": "EncodingSet is a set", "statement": "Reading an EncodingSet yields exactly the set of encodings listed (order and multiplicity irrelevant), iter() lists it in increasing order without repetition, len() is its size; values outside 0..30 give InvalidNumber.", "quantifier": "every list of i32 and every mask", "why_tests_cant": "2^31 masks and unbounded lists", "anchors": ["parquet/src/encodings.rs:EncodingSet"]}
{"id": "C40", "title": "EncodingSet and Vec<Encoding> are wire compatible", "statement": "What an EncodingSet writes, Vec<Encoding> reads as the sorted list of its members; and what Vec<Encoding> writes (members 0..30), EncodingSet reads as the set of members.", "quantifier": "every mask, every list", "why_tests_cant": "all masks and lists", "anchors": ["parquet/src/encodings.rs:fill_thrift", "parquet/src/encodings.rs:write_thrift"]}
{"id": "C41", "title": "get_metadata_chunk returns exactly the footer metadata", "statement": "It succeeds exactly for files ending in metadata, its 32-bit little-endian length and PAR1, and returns exactly those metadata bytes; otherwise an error (never a panic).", "quantifier": "every file content", "why_tests_cant": "all files", "anchors": ["parquet/src/lib.rs:get_metadata_chunk"]}
{"id": "C42", "title": "File footer end to end", "statement": "Writing any FileMetaData value (within limits, encoded length below 2^32) followed by the footer after any prefix, then get_metadata_chunk and read_thrift, returns the value.", "quantifier": "every value and file prefix", "why_tests_cant": "all values", "anchors": ["parquet/src/lib.rs:get_metadata_chunk", "parquet/src/format.rs:FileMetaData"]}
{"id": "C43", "title": "Page index range covers and is tight", "statement": "get_page_index_range returns the smallest range containing the offset and column index of every column chunk that has both, None if there is none or they are empty, InvalidOffset if such a chunk has a negative number; the sums never overflow.", "quantifier": "every file metadata value", "why_tests_cant": "all metadata", "anchors": ["parquet/src/lib.rs:get_page_index_range"]}
{"id": "C44", "title": "get_page_index_chunk returns exactly the bytes of the range", "statement": "It returns file[range]; a range outside the file is an error; a range longer than isize::MAX panics (counterexample to panic freedom).", "quantifier": "every file and metadata", "why_tests_cant": "all files", "anchors": ["parquet/src/lib.rs:get_page_index_chunk"]}
{"id": "C45", "title": "read_page_index on the chunk that was fetched never panics", "statement": "For the chunk and offset returned by get_page_index_chunk, read_page_index does not panic on slicing or its assertions provided every column with an offset index also has a column index and lengths are positive; counterexamples otherwise.", "quantifier": "every file and metadata", "why_tests_cant": "adversarial metadata", "anchors": ["parquet/src/lib.rs:read_page_index", "parquet/src/lib.rs:read_page_index_for_column_chunk"]}
{"id": "C46", "title": "Schema conversion inverts flattening", "statement": "Flattening any schema tree (depth below the limit, valid types) into preorder elements and converting gives the tree back; and any successful conversion consumed all elements in preorder with each group having exactly its declared number of children.", "quantifier": "every element list, every tree", "why_tests_cant": "unbounded trees", "anchors": ["parquet/src/bin/schema.rs:convert_schema", "parquet/src/bin/schema.rs:convert_schema_inner"]}
{"id": "C47", "title": "Definition and repetition levels", "statement": "After conversion each field's definition (repetition) level is the number of OPTIONAL (REPEATED) elements on its path including itself.", "quantifier": "every element list and every field", "why_tests_cant": "unbounded trees", "anchors": ["parquet/src/bin/schema.rs:convert_schema_inner"]}
{"id": "C48", "title": "Leaf indexes", "statement": "The leaves of a converted schema carry the indexes 0,1,2,... in preorder.", "quantifier": "every element list", "why_tests_cant": "unbounded trees", "anchors": ["parquet/src/bin/schema.rs:field_from_schema_element"]}
{"id": "C49", "title": "Nesting limit and no level overflow", "statement": "Conversion never recurses into groups deeper than 127 levels, and the 8-bit level counters never overflow, for any element list.", "quantifier": "every element list", "why_tests_cant": "adversarial schemas", "anchors": ["parquet/src/bin/schema.rs:convert_schema_inner"]}
{"id": "C50", "title": "Malformed schemas are rejected", "statement": "Empty list, trailing elements, non-required root, negative or too large num_children, leaf without physical type, unknown repetition: each gives an error, never a panic or endless loop.", "quantifier": "every element list", "why_tests_cant": "adversarial schemas", "anchors": ["parquet/src/bin/schema.rs:convert_schema", "parquet/src/bin/schema.rs:field_from_schema_element"]}
{"id": "C51", "title": "find_field_by_path", "statement": "Returns the field reached by following, at each group, the first child with the given name; for trees with distinct sibling names every node is found by its path.", "quantifier": "every tree and path", "why_tests_cant": "unbounded trees", "anchors": ["parquet/src/bin/schema.rs:find_field_by_path"]}
{"id": "C52", "title": "Narrowing conversions in the schema are lossless", "statement": "Accepted decimal precision/scale, fixed length and integer bit width are stored without change; out-of-range ones are rejected.", "quantifier": "every i32 pair / i8", "why_tests_cant": "2^64 pairs", "anchors": ["parquet/src/bin/schema.rs:DecimalOptions", "parquet/src/bin/schema.rs:IntegerOptions", "parquet/src/bin/schema.rs:PhysicalType"]}
{"id": "C53", "title": "Logical type precedence", "statement": "A leaf's or group's logical type comes from logicalType if convertible, else from converted_type if convertible, else it is absent; unknown annotations never make the conversion fail.", "quantifier": "every element", "why_tests_cant": "all combinations", "anchors": ["parquet/src/bin/schema.rs:field_from_schema_element"]}
{"id": "C54", "title": "Generator field ids", "statement": "Explicit ids are used as given, a field without id gets the previous id plus one (starting at 0).", "quantifier": "every field list", "why_tests_cant": "unbounded lists", "anchors": ["generator/src/main/java/net/jhorstmann/compactthrift/Parser.kt:mapStructOrUnionFields", "generator/src/main/java/net/jhorstmann/compactthrift/Parser.kt:mapInteger"]}
{"id": "C55", "title": "Generator lifetime analysis", "statement": "A definition gets a lifetime parameter exactly if a string or binary is reachable through struct/union fields, for acyclic schemas; on a schema with a reference cycle the analysis can recurse for ever.", "quantifier": "every schema", "why_tests_cant": "all schemas; non-termination", "anchors": ["generator/src/main/java/net/jhorstmann/compactthrift/Generator.kt:definitionNeedsLifeTime", "generator/src/main/java/net/jhorstmann/compactthrift/Generator.kt:fieldNeedsLifeTime"]}
{"id": "C56", "title": "Generated enum Debug finds the name", "statement": "The generated lookup prints the declared name for every declared value and __UNKNOWN for every other.", "quantifier": "every enum definition with distinct values, every i32", "why_tests_cant": "all enums", "anchors": ["generator/src/main/java/net/jhorstmann/compactthrift/Generator.kt:visitEnum"]}
{"id": "C57", "title": "set<T> fields on the wire", "statement": "set<T> fields are written with the list type tag and a field carrying the protocol's set tag is rejected with InvalidType, for every element type and payload.", "quantifier": "every element type and payload", "why_tests_cant": "interoperability over all values", "anchors": ["runtime/src/macros.rs:__thrift_field_type", "runtime/src/types.rs:Vec<P>"]}
{"id": "C58", "title": "Boxed bool fields", "statement": "A struct field of type Box/Rc/Arc<bool> is written with wire type 2 plus one byte: it reads back with this library, but the protocol's TRUE header is rejected and skipping leaves the extra byte behind.", "quantifier": "both values, every id, every suffix", "why_tests_cant": "interoperability", "anchors": ["runtime/src/types.rs:Box<P>", "runtime/src/protocol.rs:write_thrift_field"]}
{"id": "C59", "title": "fill_thrift into an existing value", "statement": "Filling a struct that is not fresh keeps the fields not on the wire, fails with DuplicateField for optional fields already present, and a shared Rc/Arc field fails with DuplicateField.", "quantifier": "every initial value and input", "why_tests_cant": "all histories", "anchors": ["runtime/src/types.rs:Rc<P>", "runtime/src/types.rs:Arc<P>", "runtime/src/macros.rs:thrift_struct"]}
{"id": "C60", "title": "Overflow checks change nothing but panics", "statement": "For every read or skip, a build with overflow checks either panics or returns exactly what the build without them returns.", "quantifier": "every input, every reader behaviour, every operation, both inputs", "why_tests_cant": "compares two builds over all inputs", "anchors": ["runtime/src/protocol.rs:read_field_header", "runtime/src/uleb.rs:decode_uleb"]}
{"id": "C61", "title": "Failed allocation changes nothing but the error", "statement": "For every read or skip and every behaviour of the allocator, the result is ReserveError or exactly what an allocator that never fails gives.", "quantifier": "every allocator behaviour, every input, every operation", "why_tests_cant": "allocation failures cannot be enumerated", "anchors": ["runtime/src/types.rs:Vec<P>", "runtime/src/protocol.rs:read_binary"]}
{"id": "C62", "title": "What is written conforms to the protocol grammar", "statement": "For a schema whose field ids ascend in steps of the short or a correct long header and which has no boxed bool fields, the bytes written for a value form exactly one value of the wire type in its header, by the grammar of the compact protocol with the strict stop byte.", "quantifier": "every such schema, type and value", "why_tests_cant": "all schemas and values; conformance is a statement about a grammar, not about this reader", "anchors": ["runtime/src/types.rs:write_thrift", "runtime/src/protocol.rs:write_field_header"]}
{"id": "C63", "title": "Memory requested when fetching metadata and page indexes", "statement": "get_metadata_chunk never asks the allocator for more bytes than the file has (its outcome does not depend on the allocator beyond that); get_page_index_chunk has no such bound: metadata can make it request any size, even for an empty file, before anything is read.", "quantifier": "every file, every allocator, every size", "why_tests_cant": "The bound is about every file and the absence of any larger request; a test observes one allocation.", "anchors": ["parquet/src/lib.rs:38-57", "parquet/src/lib.rs:86-104"]}
{"id": "C64", "title": "Definition levels and the Parquet format", "statement": "The Parquet format counts optional and repeated fields in the definition level; the converted schema counts only optional ones. For every field the format's level is def_level + rep_level, so def_level is right exactly if no field on the path is repeated.", "quantifier": "every element list and every field", "why_tests_cant": "unbounded trees; no test compares with the format", "anchors": ["parquet/src/bin/schema.rs:convert_schema_inner", "parquet/src/bin/schema.rs:CommonField"]}
{"id": "C65", "title": "The schema of a file", "statement": "Reading the footer, the metadata and the schema of any file fails only with an error of one of these steps, and the conversion step itself never panics. Any schema tree whose elements are written as metadata with a footer, behind arbitrary bytes, is read back from the file unchanged.", "quantifier": "every file; every schema tree within the limits", "why_tests_cant": "all files and trees", "anchors": ["parquet/src/bin/schema.rs:main", "parquet/src/lib.rs:get_metadata_chunk"]}
{"id": "C66", "title": "Encoded sizes are bounded", "statement": "A written value takes at most the sum of fixed maxima for its parts: 1 byte per bool or i8, 3/5/10 for i16/i32/i64, 8 for double, 4 plus the length for strings, 5 plus the elements for lists, up to 4 per present field header and one stop byte per struct.", "quantifier": "every schema, type and value", "why_tests_cant": "all values", "anchors": ["runtime/src/protocol.rs:write_field_header", "runtime/src/protocol.rs:write_binary", "runtime/src/types.rs:write_thrift"]}
{"id": "C67", "title": "Integer literals of the schema language", "statement": "A decimal literal denotes its value if it is an i32 and otherwise the generator fails; a hexadecimal literal denotes its value if its magnitude is at most 2^31-1, otherwise the generator fails (so also for -0x80000000).", "quantifier": "every literal", "why_tests_cant": "all literals including the limits", "anchors": ["generator/src/main/java/net/jhorstmann/compactthrift/Parser.kt:mapInteger"]}
{"id": "C68", "title": "Repeated names in the schema", "statement": "Definitions, fields and enum values are kept in maps: with distinct names all are kept in order; a repeated name silently replaces the earlier entry, at its position.", "quantifier": "every list of definitions, fields or enum values", "why_tests_cant": "all lists", "anchors": ["generator/src/main/java/net/jhorstmann/compactthrift/Parser.kt:mapDocument", "generator/src/main/java/net/jhorstmann/compactthrift/Parser.kt:mapStructOrUnionFields", "generator/src/main/java/net/jhorstmann/compactthrift/Parser.kt:mapEnumFields"]}
{"id": "C69", "title": "Lifetimes are declared where used", "statement": "A generated struct or union declares the lifetime 'i exactly if the type of one of its fields uses it; a type alias of a borrowing type uses it without declaring it.", "quantifier": "every schema and definition", "why_tests_cant": "all schemas", "anchors": ["generator/src/main/java/net/jhorstmann/compactthrift/Generator.kt:lifetimeAnnotation", "generator/src/main/java/net/jhorstmann/compactthrift/Generator.kt:RustFieldTypeVisitor", "generator/src/main/java/net/jhorstmann/compactthrift/Generator.kt:visitTypeDef"]}
{"id": "C70", "title": "Syntax accepted by the macros", "statement": "The token munching of thrift!, thrift_struct!, thrift_union! and thrift_enum! accepts exactly the token sequences of the documented grammar (with required/optional mandatory in structs and absent in unions, contrary to the documentation) and yields the definitions the grammar assigns; default values, semicolons, comments and namespaces do not matter; more than the recursion limit of definitions in one invocation is rejected.", "quantifier": "every token sequence", "why_tests_cant": "all token sequences; equivalence with a grammar", "anchors": ["runtime/src/macros.rs:thrift", "runtime/src/macros.rs:thrift_struct", "runtime/src/macros.rs:thrift_union", "runtime/src/macros.rs:thrift_enum"]}
{"id": "C71", "title": "Types accepted by the macros", "statement": "A field type has a runtime type exactly in the listed cases: scalar words, defined names, list/set of those (a list of bytes being a binary), Box/Rc/Arc of those or of str; nothing else, in particular no nested containers and no lone byte.", "quantifier": "every type name, element name and scope of definitions", "why_tests_cant": "all names", "anchors": ["runtime/src/macros.rs:__thrift_field_type"]}
{"id": "C72", "title": "The modelled Parquet definitions are those of format.rs", "statement": "Expanding the tokens of format.rs with the model of the macros gives exactly the environment of definitions all Parquet properties speak about, and the conversions in schema.rs map each named constant of format.rs as its match arms say.", "quantifier": "every definition, field and constant of format.rs; every precision, scale and type length", "why_tests_cant": "ties the hand-transcribed definitions to the source text by proof", "anchors": ["parquet/src/format.rs", "parquet/src/bin/schema.rs:PhysicalType::try_from_schema_element", "parquet/src/bin/schema.rs:PrimitiveLogicalType", "parquet/src/bin/schema.rs:RepetitionType"]}
{"id": "C73", "title": "Memory requested by the schema conversion", "statement": "Converting schema elements to a tree requests child vectors only of capacities below the number of elements, together at most 128 times the number of elements even if the conversion fails, and on success exactly the numbers of children of the groups of the tree.", "quantifier": "every list of schema elements, valid or not", "why_tests_cant": "adversarial element lists of any length, with claimed child counts up to i32::MAX", "anchors": ["parquet/src/bin/schema.rs:field_from_schema_element", "parquet/src/bin/schema.rs:convert_schema_inner"]}
{"id": "C74", "title": "Names of missing fields are safe to build and display", "statement": "FieldName::from accepts exactly the strings ending in nul and panics otherwise; displaying a FieldName reads only inside the string it was made from, whatever lies behind it in memory, and shows its part before the first nul; for every struct and field name without nul the error built by the macro shows Struct::field.", "quantifier": "every static string, every content of the memory around it, every pair of names", "why_tests_cant": "absence of out-of-bounds reads for all memory contents", "anchors": ["runtime/src/error.rs:FieldName", "runtime/src/macros.rs:__thrift_required_check"]}
{"id": "C75", "title": "Data written by the parquet.thrift definitions is read by format.rs", "statement": "Whatever value of a type of parquet.thrift is encoded with the definitions of that file, the types of parquet/src/format.rs of the same name read those bytes completely and yield the corresponding value: fields that format.rs leaves out are skipped, lists of encodings become the set of their members, boxes and shared pointers are transparent, everything else keeps its content; the result is unique. This follows from a decidable relation between two schemas that holds for any two schemas so related. The converse does not hold: a ColumnMetaData written by format.rs lacks a field parquet.thrift requires.", "quantifier": "every pair of related schemas, every well-typed value whose encodings are below 31, slices with or without SSE2 and readers, both overflow settings", "why_tests_cant": "relates two complete schemas of 60 definitions for all values of all their types, including nested, optional and skipped fields", "anchors": ["generator/src/test/resources/parquet.thrift", "parquet/src/format.rs", "parquet/src/encodings.rs:EncodingSet", "runtime/src/macros.rs:thrift_struct"]}
{"id": "C76", "title": "Exactly which bytes a read accepts, and what they mean", "statement": "Reading a value of any type of any schema succeeds on an input exactly if some prefix of it stands in an inductively defined relation to a value; the read then returns that value and consumes exactly that prefix. The relation is given by the types and definitions alone (field headers in short and long form in any order, known fields by the first field with the id, unknown fields skipped, required fields met at least once and optional ones at most once, unions with exactly one known variant, lists with the element type, varints of which the high bits are dropped). At most one prefix is accepted and it has one meaning; an error is returned exactly when no prefix is accepted; what the writer produces is accepted.", "quantifier": "every schema whose types exist and whose defaults terminate, every type, every value read into, every input; slices without SSE2, slices with SSE2 when no skipped integer is cut off or overlong, readers however the bytes are delivered; with overflow checks the read panics or agrees", "why_tests_cant": "is an if-and-only-if over all byte strings and all schemas; rejected inputs cannot be enumerated", "anchors": ["runtime/src/protocol.rs:CompactThriftInput", "runtime/src/types.rs", "runtime/src/macros.rs:thrift_struct", "runtime/src/macros.rs:thrift_union", "parquet/src/encodings.rs:EncodingSet"]}
{"id": "C77", "title": "Any data of the compact protocol is read or skipped", "statement": "The compact protocol is specified by itself, as trees of booleans, integers, doubles, binaries, lists, sets, maps and structs with their encoding. The encoding of every such tree within the size limits is skipped exactly, as a field and as an element. If a tree represents a value of a schema - its struct fields in any order, with any further fields of any type, optional fields present or not, lists of booleans announced as type 1 or 2 - its encoding reads as exactly that value and is consumed completely. Encodings are prefix free and unambiguous. A set, which has its own type number in the protocol, is rejected where this library's schema has a set.", "quantifier": "every tree, every schema without boxed booleans, every type, value and following bytes; slices with or without SSE2 and readers, with and without overflow checks", "why_tests_cant": "other writers may nest and order unknown data arbitrarily; the space of trees is infinite", "anchors": ["runtime/src/protocol.rs:CompactThriftInput", "runtime/src/protocol.rs:skip_field", "runtime/src/macros.rs:thrift_struct", "runtime/src/macros.rs:thrift_union", "runtime/src/types.rs"]}
{"id": "C78", "title": "What is written is the encoding of a protocol tree", "statement": "The header written for a field is that of the compact protocol exactly if the id exceeds the previous one by 1 to 15, or there is no previous one and the id is above 15. For schemas in which all steps are of this kind, which the Parquet schema is, whatever is written for a value is the protocol encoding of a tree that represents this value, so every reader of the protocol can read it. For a schema with a larger gap between ids the written bytes are not those of any tree representing the value.", "quantifier": "every schema with distinct ids and no boxed booleans, every well-typed value the writer accepts, all ids and type numbers", "why_tests_cant": "conformance with the protocol is a statement about all values of all schemas; a round trip test with the same library cannot see a shared deviation", "anchors": ["runtime/src/protocol.rs:write_field_header", "runtime/src/macros.rs:thrift_struct", "runtime/src/macros.rs:thrift_union", "parquet/src/format.rs"]}
{"id": "C79", "title": "The value left behind by a failed fill", "statement": "fill_thrift works in place: an Option is first overwritten with Some of a default using ptr::write, a Vec is cleared and gets a default element before each read, a union takes the new variant before its content is read. Whatever goes wrong - any error, or a panic that unwinds - what is left in a value of a type is again a well-formed value of that type (strings are UTF-8, EncodingSet masks have valid bits only, unions hold a variant with content of its type). A scalar has kept its old value. An Option is Some, and every further fill of it is refused with DuplicateField. For types without optional fields outside lists and unions what is left can be filled again: trying again with valid data gives the right value. With optional fields it does not, even for valid data.", "quantifier": "every schema with defined defaults, every type and start value, every input (slice, reader or any other implementation), every failure", "why_tests_cant": "the failure can happen at any byte of any message; the state after an error is not looked at by round trip tests", "anchors": ["runtime/src/types.rs:Option::fill_thrift", "runtime/src/types.rs:Vec::fill_thrift", "runtime/src/macros.rs:thrift_struct", "runtime/src/macros.rs:thrift_union", "parquet/src/encodings.rs:EncodingSet::fill_thrift"]}
{"id": "C80", "title": "What a message that ends too early leaves", "statement": "Filling a value from the encoding of a value cut off at any byte is refused with UnexpectedEof, in every build and also where SSE2 skipping is used, and what is left is exactly what had arrived: every field and element that was complete, nothing of an incomplete scalar, a default value in the place where a string, list element, struct or union had begun, and the previous contents everywhere else. The same holds for readers, however they cut the bytes into chunks; if the reader fails with an error instead of ending, that error is returned and the same value is left.", "quantifier": "every schema satisfying the round trip conditions, every type and well-typed value the writer accepts, every start value that can be filled, every cut", "why_tests_cant": "there is a case for every byte of every encoding of every value", "anchors": ["runtime/src/types.rs", "runtime/src/macros.rs:thrift_struct", "runtime/src/macros.rs:thrift_union"]}
{"id": "C81", "title": "Binaries and strings are slices of the input", "statement": "After filling a value every binary and every string in it, at any depth, is empty, was there before, or is a contiguous part of exactly the bytes that were consumed, preceded there by its length: the zero-copy representation (&'i [u8], &'i str, Cow::Borrowed) borrows from the message and from nothing else, and buffers filled from a reader hold bytes the reader delivered, in their order.", "quantifier": "every schema, type, start value and input, slice or reader, every build", "why_tests_cant": "tests compare a few decoded strings; the claim is about every string in every value of every schema", "anchors": ["runtime/src/protocol.rs:read_binary", "runtime/src/protocol.rs:read_string", "runtime/src/types.rs"]}
{"id": "C82", "title": "Work is linear in the bytes consumed", "statement": "Reading, filling or skipping never performs more operations on its input than the input has bytes left, plus one that fails: with a budget of that many operations every request has the same outcome as with no budget, and a request that succeeds has used at most one operation per byte consumed. So no message, however its length fields lie, makes the decoder loop for longer than the message is long.", "quantifier": "every schema, type, value, field type, input (slice or reader), build, and every way the input could signal that the budget is used up", "why_tests_cant": "hostile length fields are 64 bit numbers in any nesting; a test that hangs shows one case, the absence of such cases cannot be tested", "anchors": ["runtime/src/protocol.rs:skip", "runtime/src/types.rs:Vec::fill_thrift", "runtime/src/macros.rs:thrift_struct"]}
{"id": "C83", "title": "Printed schemas", "statement": "The text printed by pretty_print_schema determines the schema: two schemas that print the same have the same tree, names, repetitions, physical types and logical types with all their parameters, and if both come from convert_schema also the same levels and leaf indexes; only the field ids are not shown. Every leaf has one line and every group two. This needs names without line feeds and without an opening parenthesis behind a space: file contents that violate this can make one column look like two, or a name look like a logical type.", "quantifier": "every schema tree of any depth and width", "why_tests_cant": "the claim compares all pairs of schemas; a test compares the output of one file", "anchors": ["parquet/src/bin/schema.rs:pretty_print_schema", "parquet/src/bin/schema.rs:IntegerOptions", "parquet/src/bin/schema.rs:RepetitionType"]}
{"id": "C84", "title": "Tokens of a Thrift document", "statement": "The generator's lexer splits a document into exactly the tokens the lexer rules of Thrift.g4 prescribe: at each place the longest text some rule matches, by the first rule matching it; it fails exactly where no rule matches. No character is lost. White space and comments of all three kinds can be put between any two tokens, or left out where no word or number follows another, without changing what the parser sees. A line comment at the very end without a line end, and a lone carriage return between tokens, are refused.", "quantifier": "every text; every sequence of tokens and every layout of it", "why_tests_cant": "keywords against identifiers, integers against doubles and comments inside strings interact in unboundedly many texts; the only test file is one document", "anchors": ["generator/src/main/antlr4/net/jhorstmann/compactthrift/Thrift.g4", "generator/src/main/java/net/jhorstmann/compactthrift/Parser.kt:newParser"]}
{"id": "C85", "title": "Parse trees of a Thrift document", "statement": "The generator's parser accepts exactly the sentences of the grammar in Thrift.g4 and returns the parse tree; every sentence has exactly one, so that no choice between alternatives can change the result. Everything else is refused.", "quantifier": "every sequence of tokens, every parse tree of any nesting", "why_tests_cant": "that the optional parts (ids, requirements, default values, separators) can never be attributed to a neighbouring construct is a statement about all sentences", "anchors": ["generator/src/main/antlr4/net/jhorstmann/compactthrift/Thrift.g4", "generator/src/main/java/net/jhorstmann/compactthrift/Parser.kt:newParser"]}
{"id": "C86", "title": "From text to document", "statement": "The generator reads exactly the texts that are sentences of the grammar without constants, exceptions, services, cpp_include and integers outside 32 bits (or equal to -0x80000000). Separators, cpp_type, default values, comments and white space have no influence on the document. Printing any document and reading the text, however it is laid out, gives the same document; every document with well-formed names is that of some text. Names of included files keep their quotes, so that the use lines generated for them are not Rust.", "quantifier": "every text; every document and every layout of its text", "why_tests_cant": "the only input used is one parquet.thrift; the claim covers all texts, layouts and documents", "anchors": ["generator/src/main/java/net/jhorstmann/compactthrift/Parser.kt:mapDocument", "generator/src/main/java/net/jhorstmann/compactthrift/Parser.kt:mapDefinition", "generator/src/main/java/net/jhorstmann/compactthrift/Parser.kt:mapHeader", "generator/src/main/java/net/jhorstmann/compactthrift/Parser.kt:mapInteger", "generator/src/main/java/net/jhorstmann/compactthrift/Main.kt:main"]}
{"id": "C87", "title": "The generator and thrift! agree", "statement": "Every document that both front ends understand (structs, unions and enums with explicit ids and requirements, plain or list types, distinct names other than `_` and `type`, no constants `value` or `__NAMES`) means the same to the code generator and to the thrift! macro: the definitions, with ids, requirements, names and types of all fields, of the generated code, its methods named as in the runtime, are exactly those of the expanded macro, and one refuses exactly when the other does; both refuse the other keywords of Rust. Outside: the generator recurses without end for a recursive struct the macro accepts, generates code without an implementation for sets and doubly declared names for a constant `value`, and accepts fields without id or requirement or named `type`, which the macro does not.", "quantifier": "every text and every document with such a parse tree, at every depth of calls sufficient for the lifetimes", "why_tests_cant": "the two front ends are written in different languages and only ever run on one file; agreement is a claim about all documents", "anchors": ["generator/src/main/java/net/jhorstmann/compactthrift/Generator.kt:generate", "generator/src/main/java/net/jhorstmann/compactthrift/Generator.kt:visitStruct", "generator/src/main/java/net/jhorstmann/compactthrift/Generator.kt:visitUnion", "generator/src/main/java/net/jhorstmann/compactthrift/Generator.kt:visitEnum", "runtime/src/macros.rs:thrift"]}
{"id": "C88", "title": "Code generated from parquet.thrift", "statement": "The generator accepts the text of its parquet.thrift, character by character as in the repository; the generated code has exactly 60 definitions with the expected ids, requirements, names and types, 17 of them with a lifetime, and three nested lifetime queries suffice. Given to the thrift! macro without its two namespace lines the text does not compile, because fields are named `type`, and with `type_` for these it has the same definitions. (The generated code is taken with its methods named as in the runtime.) What the generated code writes for a value of any of these types is read by parquet's format.rs as the corresponding value.", "quantifier": "the one text (1300 tokens), every value of every type in it, every depth of calls", "why_tests_cant": "parquet.thrift is only a resource, no test uses it; nothing relates it to format.rs, and the values are unboundedly many", "anchors": ["generator/src/test/resources/parquet.thrift", "generator/src/main/java/net/jhorstmann/compactthrift/Main.kt:main", "generator/src/main/java/net/jhorstmann/compactthrift/Generator.kt:generate", "parquet/src/format.rs"]}
{"id": "C89", "title": "Answers are final, and nothing is read after them", "statement": "Unless the data end too early, some prefix of the data decides the outcome of a read, be it a value or an error. Every reader that begins with that prefix gives the same outcome however it goes on (more bytes, end of file, a hard error), and is left exactly where the prefix ends: nothing after it is asked for. All of the prefix is needed: a reader that breaks before its end gives its own error. On slices, in every build, an error other than UnexpectedEof stays the same whatever is appended.", "quantifier": "every schema, type, old value or skipped type; every byte string; every way of delivering it and every continuation", "why_tests_cant": "reading ahead shows only with streams that go on, block or fail after the deciding byte; there are infinitely many inputs and continuations", "anchors": ["runtime/src/protocol.rs:CompactThriftInput for R", "runtime/src/protocol.rs:skip_field", "runtime/src/types.rs:fill_thrift", "runtime/src/macros.rs:thrift_struct"]}
{"id": "C90", "title": "The order of fields on the wire does not matter", "statement": "Every message accepted as a struct is a list of fields (id, wire type, content). Every message with the same fields in another order - fields with the same id keeping their relative order, headers in short or long form - is accepted as well and gives the same value, also when filling an existing value. If no id occurs twice, every permutation qualifies. The order among fields with the same id does matter (counterexample).", "quantifier": "every schema, struct, old value, accepted message and rearrangement; slices without SSE2 and all readers", "why_tests_cant": "writers produce one order only; the number of orders is factorial and the header bytes change with the order", "anchors": ["runtime/src/macros.rs:thrift_struct", "runtime/src/protocol.rs:read_field_header", "runtime/src/types.rs:fill_thrift_field"]}
{"id": "C91", "title": "What was read is never written longer", "statement": "If every header the schema can need conveys its id (ids ascend by 1 to 15 between fields that can follow each other, or the first id written is above 15), then whatever message is accepted as a value, writing the value takes at most as many bytes as the message had: the writer produces the shortest of all accepted encodings. With fields declared out of order this fails (counterexample: 8 bytes read, 9 written).", "quantifier": "every schema meeting that condition (C22), every type, every accepted message including unknown fields, long headers and repeated fields; every build without SSE2 for slices, every build for readers; parquet.thrift", "why_tests_cant": "minimality is about all encodings a decoder accepts, which no test enumerates", "anchors": ["runtime/src/protocol.rs:write_field_header", "runtime/src/protocol.rs:read_field_header", "runtime/src/macros.rs:thrift_struct"]}
{"id": "C92", "title": "What a failed fill leaves depends on the bytes alone", "statement": "Filling a value in place from a slice, from a reader delivering the same bytes, or from another reader that cuts them differently, gives the same value or fails in the same way leaving the same partly filled value. A reader that fails with an error where another one ends leaves the same value, with its error in the place of UnexpectedEof. A refusal for another reason than the end of input leaves a value that does not depend on anything that follows in the input. A build with overflow checks panics or leaves what the build without them leaves; a failing allocator gives ReserveError or changes nothing.", "quantifier": "every schema, type, previous value, input and way of delivering it; every build (slices with the SSE2 skip: when no skipped integer is cut off or longer than 17 bytes)", "why_tests_cant": "partly filled values are not compared by tests, and there is one for every byte of every input and every way to deliver it", "anchors": ["runtime/src/types.rs", "runtime/src/macros.rs:thrift_struct", "runtime/src/macros.rs:thrift_union", "runtime/src/protocol.rs:CompactThriftInputReader"]}
{"id": "C93", "title": "Equality and cloning of values", "statement": "The derived == on values is symmetric and transitive; a == a holds iff no double in a is NaN. a == b holds iff neither contains NaN and they agree up to the sign of zeros and reference counts. What comes back from writing and reading a value is == to it iff no double in it is NaN (so the BoundingBox of parquet.thrift with a NaN bound never comes back equal). For values without NaN and -0.0, a == b iff they are written as the same bytes. A clone is well typed, is written as the same bytes and is == to its original iff there is no NaN; but once a clone exists a value with an Rc can no longer be filled again.", "quantifier": "every schema meeting the round trip conditions, all pairs of values, every build and input", "why_tests_cant": "the claims are about all pairs of values; round trip tests with assert_eq silently assume reflexivity", "anchors": ["runtime/src/macros.rs:56", "runtime/src/macros.rs:130", "runtime/src/macros.rs:205", "parquet/src/encodings.rs:8", "runtime/src/types.rs:297-325"]}
{"id": "C94", "title": "Reading and skipping keep in step; leaving out fields", "statement": "Whatever bytes are read as a value of a type that holds no union and no boolean field, skipping a value of its wire type passes over exactly the same bytes. Hence such fields, required or not, can be left out of a schema: every message the full schema accepts is accepted by the smaller one over the same bytes, and the value read is the full value without those fields (Parquet: any of the plain fields of the metadata, all at once if wanted). The conditions matter: with a boolean field announced with another wire type, a union variant announced with another wire type, or a boxed boolean, the smaller schema refuses a message the full one accepts.", "quantifier": "every schema, every set of fields of the allowed types, every type, every input (not only well-formed writers' output), slices without SSE2 and all readers, builds without overflow checks", "why_tests_cant": "the bytes range over everything a lenient reader accepts, e.g. overlong integers, foreign headers, repeated fields; and over all subsets of fields of all schemas", "anchors": ["runtime/src/protocol.rs:148-250", "runtime/src/macros.rs:75-100", "runtime/src/types.rs:fill_thrift_field"]}
{"id": "C95", "title": "The statements of the generated code do what the model says", "statement": "The bodies of `fill_thrift` and `write_thrift` that `thrift!` expands to, and those the generator emits, executed statement by statement with their local variables (`last_field_id`, `field_type`, `stop`, one flag per required field, `input`, `output`), scopes, shadowing, `loop`/`break` and `match`, give in every case the value, the error and the value left in `*self` that the model of reading and writing gives \u2014 also when fields have the names of variables of the templates. The only difference of the two: the error for an unknown union variant has the union's name in generated code and the literal text `$struct_name` in macro code. Without macro hygiene (or the suffix `_set_` of the generator) a required field named `last_field_id` would break the code.", "quantifier": "every schema whose fields (variants) within one definition have different names, all values, all inputs, all builds; writing: all well-typed values and all sinks", "why_tests_cant": "names of fields range over all identifiers, including those of the template's own variables, and flags over any number of fields", "anchors": ["runtime/src/macros.rs:75-110", "runtime/src/macros.rs:146-185", "runtime/src/macros.rs:270-300", "generator/src/main/java/net/jhorstmann/compactthrift/Generator.kt:245-355"]}
{"id": "C96", "title": "The text of macros.rs expands to the code that is executed", "statement": "The ten macros of macros.rs, given as text, are tokenized, read as `macro_rules!` definitions and expanded. For every document that the model accepts, the expansion of `thrift!` is, definition after definition in the order of the document, exactly this Rust code: the struct (enum, newtype) with its attributes and field types, `new`, `Default`, the constants, and the implementation of `CompactThriftProtocol` whose two function bodies are, token by token including which names are the macro's own (hygiene), the statements executed in C95.", "quantifier": "all token sequences given to `thrift!` (any number of definitions, fields, attributes, any names, types and ids), every recursion limit that suffices", "why_tests_cant": "the expansion depends on arbitrary token sequences: repetitions nested in repetitions, optional parts, and the choice of rules of helper macros", "anchors": ["runtime/src/macros.rs:19-300"]}
{"id": "C97", "title": "The text the generator writes is the code that is executed", "statement": "For every Thrift document that the generator model turns into definitions, the text that Generator.kt writes (header, templates with `trimIndent` and `$`-interpolations, joined fields, footer), read by Rust's tokenizer, is a well-formed token tree sequence: the fixed header, for each definition of the document, in order, the struct, enum or newtype with its derive attributes, lifetimes, field types, default values and constants, and the implementation whose `fill` and `write` bodies are, token by token, the statements executed in C95, and the fixed footer. This holds for every document read from a file and, in particular, for parquet.thrift. Two things the text gets wrong are stated exactly: an `include` becomes `use` of a string, and a type definition has no lifetime.", "quantifier": "all Thrift documents (any number of definitions, fields, names, nested types), all depths of the lifetime search, all time stamps and namespaces without line feed", "why_tests_cant": "whether pasted strings tokenize as intended depends on what stands on both sides of every interpolation, for all names, numbers and nested types", "anchors": ["generator/src/main/java/net/jhorstmann/compactthrift/Generator.kt:1-365"]}
{"id": "C98", "title": "Derived Debug texts", "statement": "The text that `{:?}` or `{:#?}` gives for a value of a type made by the macros determines the value: two values of the same type with equal texts are equal, except for the sharing of `Rc`s and which NaN a number is. This includes nested indentation (`PadAdapter`), escaped strings, `EncodingSet`, options, boxes, unions and unknown enum values. The text from `{:?}` is one line without control characters, whatever the strings are. For the types of format.rs no condition on names is left.", "quantifier": "all environments of definitions with identifiers as names and distinct variants, all types, all pairs of values; all tables of printable characters", "why_tests_cant": "strings can contain quotes, brackets, commas and line feeds anywhere, and values nest without bound; every pair of values has to be compared", "anchors": ["runtime/src/macros.rs:56", "runtime/src/macros.rs:130", "runtime/src/macros.rs:205", "parquet/src/encodings.rs:34-38", "parquet/examples/dump.rs:11"]}
{"id": "C99", "title": "What the programs print", "statement": "The program `schema` (parquet/src/bin/schema.rs) prints, for a file whose footer starts with bytes that mean a FileMetaData, its version, number of rows, creator if there is one, and, if the elements are the flattened form of a tree of at most 127 levels with a required root, that tree; if they are not, it panics after the first lines, and if there are no metadata, before printing anything. `dump` prints the metadata or nothing. What `schema` prints determines version, rows, creator and schema (but for field ids), whatever the creator's name contains; what `dump` prints determines the metadata. In every build the programs end; ends other than success or an unwrapped error come without any output, and only from an overflow check, the SSE2 skip, or a failed allocation.", "quantifier": "all files, all behaviours of read and seek, all builds; for the exact outcome builds without overflow checks and SSE2 and files without I/O errors; for the text all metadata and all schemas whose names have no line feed and no ' ('", "why_tests_cant": "The statement is about all files and all texts: in particular that no creator's name, however it imitates a schema, makes two different files print the same.", "anchors": ["parquet/src/bin/schema.rs:649-666", "parquet/examples/dump.rs:6-13", "parquet/src/bin/schema.rs:613-647", "parquet/src/lib.rs:38-61"]}
{"id": "C100", "title": "Exactly which errors a read can report", "statement": "An error reported when a value of a type is read is the end of the input, an error reported by the reader (never `Interrupted`), or one of the errors of the type, and each of these occurs for some bytes. The errors of a type are: lengths over the limit, for strings invalid UTF-8, for `EncodingSet` a number out of range, for lists and sets a wrong element type, the failed allocation of a list, those of elements, fields and variants; for structs those of a skipped field, a missing required field by its name and a repeated field of an optional type; for unions no variant, an unknown one (always with the literal name `$struct_name`) and a missing stop. So reading never reports `MissingValue`; a struct of required numbers never reports `DuplicateField`. Reading into an existing value adds only `DuplicateField`, only for types that can be read once.", "quantifier": "all builds, definitions, types, bytes, reader behaviours and allocators; that each error occurs: all definitions with a free field id, builds without overflow checks and SSE2, all memory granted", "why_tests_cant": "that no input gives another error is a statement about all bytes and all definitions", "anchors": ["runtime/src/error.rs:10-23", "runtime/src/types.rs:21-370", "runtime/src/macros.rs:77-175", "runtime/src/macros.rs:284-298", "runtime/src/protocol.rs:66-257", "parquet/src/encodings.rs:44-61"]}
{"id": "C101", "title": "Texts of errors and messages of the programs", "statement": "The texts of `ThriftError` (`{:?}`, `{:#?}`, `{}`) differ for different errors, also for errors of reads of different types from different bytes; `{}` is one line of printable characters; a missing field is shown as `MissingField(\"Struct::field\")`. The same holds for `ParquetError`, except for the text of an `io::Error`, which is up to the system. The programs `schema` and `dump` end in `unwrap` exactly when their result is an error, and the panic message then shows that error: for files that could be opened, equal messages mean equal errors, up to the text of the `io::Error`, and errors of `read_thrift` and `ParquetError` are never confused.", "quantifier": "all errors with plain ASCII names, all definitions with such names, all builds, types, bytes and files; every Debug of `CStr`, `ErrorKind` and `io::Error` that shows plain names in quotes and kinds by different identifiers", "why_tests_cant": "that no two errors or files share a message is a statement about all pairs of them", "anchors": ["runtime/src/error.rs:10-23", "runtime/src/error.rs:53-69", "parquet/src/lib.rs:13-21", "parquet/src/bin/schema.rs:649-666", "parquet/examples/dump.rs:6-13"]}
{"id": "C102", "title": "Exactly when a build with overflow checks panics", "statement": "With overflow checks, filling a value, reading one and skipping a field panic exactly on the inputs described by a small set of rules over the bytes: somewhere on its way through the input the code meets a field header whose difference leads past field id 32767 (also in a byte with type 0, where the difference is of no use), or a varint of more than 613566756 bytes, whose shift overflows; everything before that is well-formed, what follows does not matter. On all other inputs overflow checks change nothing. What the writer produces is never such an input.", "quantifier": "all definitions without dangling references, types, previous values, byte strings and deliveries; slices without the SSE2 skip (with it: if no skipped integer is cut off or longer than 17 bytes) and readers", "why_tests_cant": "the inputs in question are rare (a known or skipped field near the largest id, or a varint of hundreds of megabytes), and that no other input panics is a statement about all inputs", "anchors": ["runtime/src/protocol.rs:94-110", "runtime/src/protocol.rs:148-257", "runtime/src/uleb.rs:5-19", "runtime/src/macros.rs:77-100"]}
{"id": "C103", "title": "The texts of values, errors and schemas, to the letter", "statement": "For every schema and every value of one of its types, `{:?}` prints on one line, and `{:#?}` on several lines indented by four spaces, exactly the tree that the value has by a separate specification: numbers in decimal notation, strings in quotes with the escapes of Rust, byte strings and lists in square brackets, `None` and `Some(..)`, a struct by its name and its fields in the order of the definition (raw identifiers without `r#`), a union by the name of the variant, an enum as `Name(number)`, an encoding set as the list of its encodings, and `Box`, `Arc` and the like by their content. The same holds for `ThriftError` (with Display and with Debug), for `ParquetError` other than an `io::Error`, and for the messages of the panics of the two programs. `pretty_print` prints for a field exactly the lines of the specification, indented by two spaces per level. `dump` prints exactly the tree of the metadata of its file.", "quantifier": "all environments whose names are identifiers, all well-typed values, all errors that reading can report, all fields of schemas at every indentation, all files without read errors; one line or several; every text of an f64 and every table of plain characters", "why_tests_cant": "A test compares one value with one expected text. The theorem compares all values of all types with an independent description, so that also a text that is wrong only for one rarely used type, one nesting, or one escaped character is excluded; round trips and injectivity (C83, C98, C101) would not notice a text that is consistently wrong.", "anchors": ["runtime/src/macros.rs:52-57", "runtime/src/macros.rs:128-131", "runtime/src/macros.rs:203-206", "runtime/src/error.rs:10-23", "runtime/src/error.rs:53-69", "parquet/src/lib.rs:13-21", "parquet/src/encodings.rs:34-38", "parquet/src/bin/schema.rs:613-661", "parquet/examples/dump.rs:6-13"]}
{"id": "C104", "title": "What the x86-64 build reads from a slice, exactly", "statement": "On x86-64 integers in skipped fields are jumped over 16 bytes at a time. Exactly the following happens, for every schema, type, initial value and input. A fill, a read and a skip accept exactly the messages of the compact protocol in which a skipped integer is either a variable-length integer of at most 16 bytes, or any 17 bytes of which the first 16 have the continuation bit. They panic exactly when a skipped integer is reached with fewer than 16 bytes left, none of which ends it (with overflow checks also in the cases of C102). They have undefined behaviour exactly when a skipped integer is reached with exactly 16 bytes left, all with the continuation bit. In all other cases they report an error. Consequently reading is defined for inputs whose last byte has no continuation bit, and all builds agree on messages whose skipped integers have at most 17 bytes; beyond that the same bytes may be read as different values.", "quantifier": "all schemas, types, initial values and inputs; builds for x86-64 with and without overflow checks; all allocators that grant what fills ask for", "why_tests_cant": "The boundary lies at inputs that are cut off inside a skipped integer at a particular distance from the end, anywhere in a message of any shape. A test that passes says nothing about other shapes, and undefined behaviour need not show in a test at all.", "anchors": ["runtime/src/protocol.rs:360-370", "runtime/src/uleb.rs:21-41", "runtime/src/protocol.rs:149-230"]}
{"id": "C105", "title": "The outcome of every read and of the programs, in every build", "statement": "In every build - for x86-64 or not, with overflow checks or not - and for every schema, type, initial value and input, a fill or read ends with exactly one outcome: a value together with the bytes left, an error, a panic, or undefined behaviour; and which one is given by one specification that knows only the schema, the bytes and the two properties of the build. Reading from a reader, however it delivers the bytes, ends as reading from a slice does in a build that is not for x86-64. The programs `schema` and `dump`, run on a file without read errors, print the schema and the metadata if reading the bytes before the footer ends with a value, and otherwise print nothing and end with the unwrapped error, the panic, or undefined behaviour.", "quantifier": "all four builds; all schemas, types, seeds and inputs; all readers without errors; all files without read errors; allocators that grant what is asked", "why_tests_cant": "Tests run in one build, usually the debug build with overflow checks, on some inputs. The theorem covers the release build for x86-64 that is normally shipped as well, says for each input which of the four outcomes occurs, and that none of the others does.", "anchors": ["runtime/src/protocol.rs:100-330", "runtime/src/protocol.rs:360-370", "runtime/src/uleb.rs:5-41", "parquet/src/lib.rs:38-57", "parquet/src/bin/schema.rs:649-666", "parquet/examples/dump.rs:6-13"]}
{"id": "C106", "title": "What read_page_index does, for any chunk, offset and metadata", "statement": "For every chunk, chunk offset and file metadata, and in every build, read_page_index ends in exactly one way, and which one is given by a specification. Columns are looked at in order. A column without one of the four fields yields None, except that its offset index, if it has one, must start in the chunk or later and have a positive length, otherwise there is a panic (with overflow checks also if its end exceeds 2^64). A column with both yields the two indexes that the bytes at the two places mean; it panics if a place is not inside the chunk; it fails as reading that index fails (C105). An error of an earlier index wins over a place outside the chunk of a later one, but not over a wrong start or length in the same column. The first column that fails ends the whole. Otherwise there is one entry per column of each row group, and it is None exactly if one of the four fields is not set.", "quantifier": "all chunks (shorter than 2^64), offsets and well-typed metadata, all four builds, all allocators that grant what is asked", "why_tests_cant": "The behaviour depends on the relation of four numbers per column to the chunk and on the bytes found there, in combination over all columns; the interesting cases (negative numbers, sums that wrap, index places outside the chunk, order of failures) do not occur in files written by ordinary writers.", "anchors": ["parquet/src/lib.rs:106-144"]}
{"id": "C107", "title": "Which error a read reports", "statement": "For every schema, type, value to fill, input and build, which error reading reports is given by a specification of what can be wrong where: reading goes through the input along the types, and the first thing that is wrong decides. For example: the end of the input inside anything is UnexpectedEof; a binary length above 16 MiB is InvalidBinaryLen with that length, even if the bytes are missing; a list length above 10 million is InvalidCollectionLen before the element type is looked at; a map length is compared only after the byte with the types, and types of keys and values only when there are entries, whereas element types of skipped lists are checked even for empty lists; an optional field that is set is DuplicateField before its wire type is looked at; of the missing required fields the first by declaration is named; a union without variant is InvalidType, with an unknown one MissingField, with a second field MissingStop. Exactly that error is reported, and only if reading does not panic; skipping an integer with SSE2 never reports an error. The programs end with the same error, or with InvalidInput or InvalidMagic if the footer is missing, and print nothing.", "quantifier": "all schemas that can be read, types, old values, inputs, deliveries by a reader, all four builds, all allocators that grant what is asked, all files that make no trouble", "why_tests_cant": "Tests compare the error of a few broken inputs; which of several defects of one input is reported, and that nothing else is, is a statement about all inputs.", "anchors": ["runtime/src/protocol.rs:100-330", "runtime/src/protocol.rs:360-370", "runtime/src/uleb.rs:5-41", "runtime/src/macros.rs:1-250", "parquet/src/lib.rs:38-57", "parquet/src/bin/schema.rs:649-666", "parquet/examples/dump.rs:6-13"]}
{"id": "C108", "title": "Which error convert_schema reports", "statement": "For every list of schema elements, convert_schema reports exactly the error that the list calls for, which is specified by going through the elements in order with the numbers of children that the open groups still lack. The first element with something wrong decides; in one element the repetition is looked at first, then the number of children, then the physical type or the depth (127 open groups). Groups still open at the end give \"Missing schema elements\", elements after the root has been closed give \"Trailing schema elements\", and a root that is not required is reported only if nothing else is wrong. A list is accepted exactly if the walk ends with no elements left and no group open and the root is required. The program schema prints the head of the metadata and then the tree, or ends with that error, in every build.", "quantifier": "all lists of elements, all builds, all files that make no trouble", "why_tests_cant": "Lists with several defects at different places and depths are unbounded in number; the recursion, which sees only what follows, has to agree with a walk through the list on all of them.", "anchors": ["parquet/src/bin/schema.rs:465-611", "parquet/src/bin/schema.rs:649-666"]}
{"id": "C109", "title": "The benchmarks run through, and their asserts cannot fail", "statement": "The benchmark of the runtime writes numbers, reads them from a slice, compares them, and reads and skips them from a slice and a reader: for every list of up to 10,000,000 numbers, in every build and however the reader delivers its bytes, all of this succeeds and the compared lists are equal; for longer lists the first unwrap panics with InvalidCollectionLen. In the benchmark of the Parquet reader, neither of the two asserts (range not empty, chunk not empty) can fail, nor the unwrap of the Option, on any file and metadata; what can panic is a range that no Vec can hold, and read_page_index. On every file that ends in written metadata and stores the page index that they point to, the benchmark runs through, however often its closures are called.", "quantifier": "all lists of numbers, all deliveries, all files, metadata and numbers of calls, all builds", "why_tests_cant": "The benchmarks are run on one list of 1000 random numbers and on one file.", "anchors": ["runtime/benches/numbers.rs:6-43", "parquet/benches/filemetadata.rs:12-54"]}
{"id": "C110", "title": "The code of uleb.rs and protocol.rs does what the model says", "statement": "The text of runtime/src/uleb.rs and runtime/src/protocol.rs, parsed as Rust and run by an interpreter that knows scopes, early returns, integer types, overflow checks, bounds checks and the std functions that are called, does exactly what the model does: every function and method that reads from a slice or from any io::Read returns the same value, leaves the same input, returns the same error, and panics in the same cases, in builds with and without overflow checks, debug assertions and SSE2; every function that writes to any io::Write returns the same and leaves the same output, also after an error; the loops and recursions end.", "quantifier": "all slices shorter than 2^63 bytes, all sequences of reads of a reader, all writers whose errors are io::Errors, all arguments, all builds", "why_tests_cant": "Tests run compiled code on samples; the equality of a model with the code it was written from has no test at all.", "anchors": ["runtime/src/uleb.rs:1-48", "runtime/src/protocol.rs:47-271", "runtime/src/protocol.rs:277-385", "runtime/src/protocol.rs:398-433"]}
{"id": "C111", "title": "The code of types.rs and encodings.rs does what the model says", "statement": "The text of runtime/src/types.rs, of parquet/src/encodings.rs and of the default methods of CompactThriftProtocol, parsed as Rust and run, does exactly what the model does. For every type built from the types of these files and the definitions of a schema: fill_thrift and fill_thrift_field end with the same value and rest of the input, or with the same error and the same contents of *self; write_thrift and write_thrift_field write the same bytes and answer the same, also after an error; read_thrift, with the code of thrift! for the definitions, is the model's, and reads back whatever the text of write_thrift wrote. EncodingSet::len, is_empty and iter give the number of members, whether there are none, and the members in increasing order.", "quantifier": "all types, all inputs, all sinks, all values (well-typed ones for writing), all methods of the element type, all schemas with distinct field names, all masks", "why_tests_cant": "Tests run compiled code on samples of values and types; the types nest without bound, and the equality of a model with the code it was written from has no test at all.", "anchors": ["runtime/src/types.rs:27-374", "parquet/src/encodings.rs:8-79", "runtime/src/protocol.rs:435-461"]}
{"id": "C112", "title": "The code of parquet/src/lib.rs does what the model says", "statement": "The text of parquet/src/lib.rs, parsed as Rust and run, does exactly what the model does. get_metadata_chunk ends with the same bytes and the same state of the file, or with the same error or panic, for every file and every way it delivers its data; get_page_index_range, get_page_index_chunk and read_page_index likewise for every metadata, every chunk and every offset. So the text itself returns a metadata chunk exactly for files that have a footer, and a range exactly when it is the smallest range around the indexes and no offset or length is negative.", "quantifier": "all files, all read chunkings and errors, all metadata values, all chunks, all offsets, all build configurations", "why_tests_cant": "Tests run compiled code on a few sample files; the equality of a model with the code it was written from, for all files and metadata, has no test at all.", "anchors": ["parquet/src/lib.rs:23-33", "parquet/src/lib.rs:35-57", "parquet/src/lib.rs:59-104", "parquet/src/lib.rs:106-144"]}
{"id": "C113", "title": "The schema conversion of parquet/src/bin/schema.rs does what the model says", "statement": "The text of parquet/src/bin/schema.rs, parsed as Rust and run, does exactly what the model does. convert_schema, with everything it calls (convert_schema_inner, field_from_schema_element and all the try_from conversions of physical, logical, converted and repetition types), returns the same tree, the same error or the same failure for every list of schema elements, asks for the same capacities in the same order, does not touch a file, and always returns an Ok or an Err of its declared type. find_field_by_path returns the same field for every tree and path, and the accessors the same values. So the text itself reports an error exactly when the specification of C108 names it, never asks for as many fields at once as there are elements, and finds the field at the end of a path taking the first child of each name.", "quantifier": "all lists of schema elements of the generated type, all field trees, all paths, all build configurations", "why_tests_cant": "The binary has no tests; the equality of a model with the code it was written from, for all schemas, has no test at all.", "anchors": ["parquet/src/bin/schema.rs:9-47", "parquet/src/bin/schema.rs:49-307", "parquet/src/bin/schema.rs:309-399", "parquet/src/bin/schema.rs:421-463", "parquet/src/bin/schema.rs:465-539", "parquet/src/bin/schema.rs:541-611"]}
{"id": "C114", "title": "The program parquet/src/bin/schema.rs, run from its text, prints what the model says", "statement": "main of parquet/src/bin/schema.rs, parsed as Rust and run on any file or on a file that cannot be opened, prints exactly what the model of C99 prints and ends as it does, where an error that is unwrapped is a panic. pretty_print_schema and print_indent, with the Display and Debug implementations they use, append exactly the text of the model for every tree and every indentation. So, without overflow checks and with memory, the text itself prints nothing and panics if the file holds no metadata; prints the head and the lines of the tree and returns if the schema is acceptable; and prints only the head and panics otherwise.", "quantifier": "all files, all failures to open one, all field trees and indentations, all build configurations, all contents already printed", "why_tests_cant": "The binary has no tests; tests would compare the output for some files, not the code with its model for all of them.", "anchors": ["parquet/src/bin/schema.rs:613-617", "parquet/src/bin/schema.rs:619-647", "parquet/src/bin/schema.rs:649-666"]}
{"id": "C115", "title": "Every program written by hand over the input trait has the properties of a single request", "statement": "Take any program that reads through CompactThriftInput: any sequence of read_byte, read_len, read_i16/32/64, read_double, read_binary, read_string, skip_integer, skip_binary, skip_field, read_field_header, the headers of lists and maps, read_thrift, fill_thrift and fill_thrift_field, each request depending on the answers so far, with loops over the fields of a struct, and ending with a value or an error. (a) Without the SSE2 skip it gives the same on a slice and on any io::Read delivering the same bytes, and in every build the chunking of a reader does not matter. (b) A reader that breaks with an error gives the result of one that ends there, with the end of the input replaced by that error. (c) If it succeeds it has consumed a prefix and depends on nothing else. (d) With any consumed byte cut off it fails with UnexpectedEof, except for the known defects of the SSE2 skip. (e) It always ends, and without overflow checks it returns a value or an error. (f) Values written one after the other append their encodings in order; each of them can be read or skipped, those read come back, and what follows is left; two rows of values of the same types with the same bytes are the same values.", "quantifier": "all programs over the trait, all answers, all slices, all readers, chunkings and errors, all schemas, types and rows of values, all build configurations", "why_tests_cant": "The programs are those that users of the crate will write; tests can only exercise particular ones on particular inputs.", "anchors": ["runtime/src/protocol.rs:52-111", "runtime/src/protocol.rs:113-146", "runtime/src/protocol.rs:209-258"]}
{"id": "C116", "title": "Every program written by hand over the output trait writes what the protocol prescribes, and it can be read back by hand", "statement": "Take any program that writes through CompactThriftOutput: any sequence of write_byte, write_len, write_i16/32/64, write_double, write_binary, write_string, write_thrift of any type and write_thrift_field with a variable for the last field id that the program may set. (a) Into a Vec it either writes exactly the bytes the protocol prescribes for its steps, in order, leaving the prescribed last field id, or it stops at the first step the library refuses with an error that this step deserves, after the bytes of all steps before. (b) Any io::Write receives a prefix of what a Vec would receive: all of it and then the result is the same, or less and then the result is an I/O error the sink has returned. (c) The mirror program, which reads headers and calls fill_thrift_field with the type read, gets back what was written, up to reference counts, and leaves what follows; on slices and readers. (d) So two programs of the same shape with the same bytes wrote the same things. (e) A struct written by hand with write_thrift_field and a final 0 is read by a loop over read_field_header that calls fill_thrift_field for the ids it knows and skip_field for the others: the loop finds exactly the fields that are there and known, in order, and stops behind the struct.", "quantifier": "all programs of steps over the trait, all schemas, types and values, all ids and last ids the reader can follow, all sinks, all sets of known ids, all slices and readers, all build configurations", "why_tests_cant": "The programs are those that users of the crate will write; tests can only exercise particular ones with particular values.", "anchors": ["runtime/src/protocol.rs:259-271", "runtime/src/protocol.rs:385-433", "runtime/src/protocol.rs:434-465"]}
{"id": "C117", "title": "Order and hash of enum types agree with equality and with the wire", "statement": "For the newtypes over i32 that thrift_enum! makes: the derived cmp, partial_cmp, <, <=, >, >= order two values as the integers on the wire for them; cmp is total, antisymmetric and transitive, max and min are the larger and smaller one; cmp is Equal, == holds and every Hasher ends in the same state exactly if the bytes written are the same, on little- and big-endian machines. The order is signed: the value -1 comes before the default 0 although it is written as 1.", "quantifier": "all values of enum types (also unnamed ones), all hashers, both byte orders", "why_tests_cant": "There are 2^64 pairs of values, and the state of every possible hasher.", "anchors": ["runtime/src/macros.rs:205-207"]}
{"id": "C118", "title": "The schema program when memory is refused", "statement": "The text of bin/schema.rs, parsed and run with an allocator that may refuse any Vec::with_capacity: convert_schema either has all its requests granted and returns what the model returns, or it ends at the first refused request as the allocator says, with exactly the requests up to this one made; it returns a tree if and only if the elements are the flat form of an acceptable tree and there is memory for the children of each of its groups; it never ends without returning for another reason; whatever is refused, the requests stay within 128 fields per element behind the first and below the number of elements each. main prints head and tree if all is granted, and exactly the head, nothing of the tree, if a request is refused.", "quantifier": "all typed lists of fewer than 2^64 elements, all files, all allocators, all builds (C118_schema: no overflow checks, no SSE2, quiet reads)", "why_tests_cant": "A test cannot make each request of each schema fail in turn; the claim is about which request is first and about what was printed before it.", "anchors": ["parquet/src/bin/schema.rs:491-539", "parquet/src/bin/schema.rs:541-589", "parquet/src/bin/schema.rs:591-611", "parquet/src/bin/schema.rs:649-666"]}
{"id": "C119", "title": "The text of examples/dump.rs, parsed and run", "statement": "The text of parquet/examples/dump.rs is parsed as Rust and its main is run on any file: it prints what the model of the program prints and ends as the model does, an unwrapped error being a panic, and makes no request for capacity. Hence without metadata in the file it panics with nothing printed, and with metadata it prints exactly the lines that the specification of {:#?} gives for them. What it prints determines the metadata up to which NaN a number is, across builds. On one file dump prints something exactly if the schema program does, whatever memory is refused to the latter, and otherwise both end alike.", "quantifier": "all files, missing files, allocators of Vec::with_capacity, builds (C119_dump: no overflow checks, no SSE2, memory for the reader, quiet reads)", "why_tests_cant": "The program has one hard-coded file and no test; the claim is about every file and compares two programs on all of them.", "anchors": ["parquet/examples/dump.rs:6-13", "parquet/src/bin/schema.rs:649-666"]}
{"id": "C120", "title": "The code of runtime/src/error.rs does what the model says", "statement": "The text of error.rs is parsed as Rust and its functions are run. The variants of the enum are exactly the errors of the model, with as many fields. From<&str> for FieldName accepts a string exactly if it ends in nul, keeps its address, panics otherwise, and reads nothing outside the string. From<&CStr> keeps the address; an io::Error or an ErrorKind becomes the error of that kind. Debug and Display of FieldName show the bytes up to the first nul, and for any memory do what the model does. Debug and Display of ThriftError, plain and alternate, show for each error the text of C101. From the literal the macros make for a required field to the shown text: accepted, and shown as Struct::field.", "quantifier": "all memories, addresses, strings, errors, formatter flags, builds; all ways std shows a CStr and an ErrorKind", "why_tests_cant": "A FieldName is a raw pointer without length: that no byte outside the string is read, whatever the memory, cannot be observed by a test; and there are infinitely many strings and errors.", "anchors": ["runtime/src/error.rs:10-23", "runtime/src/error.rs:36-51", "runtime/src/error.rs:53-69", "runtime/src/error.rs:75-85"]}
{"id": "C121", "title": "From metadata to the screen, in every build", "statement": "The programs dump and schema are run from their text on a file that makes no trouble. In every build (with or without overflow checks, with or without SSE2) what they print and how they end is determined by the outcome the bytes before the footer have in that build: a value is shown to the letter; an error or a panic prints nothing and is a panic; without a defined outcome the program has none. If the file ends in metadata the library has written and the footer, then in every build dump shows exactly these metadata, and schema prints version, rows, creator and exactly the schema tree whose flattened form was written. Every schema tree within the size limits can be stored in this way. On every file, also one with I/O errors, and with every allocator, overflow checks make a program either print nothing and panic or do exactly what it does without them. Two files for which dump prints the same, possibly in different builds, are the same to schema: it prints the same and ends in the same way.", "quantifier": "all builds, all files without I/O errors, all bytes before the metadata, all metadata, all schema trees, all sufficient step counts", "why_tests_cant": "There are infinitely many metadata, trees and files, and a test runs one build; undefined outcomes of the SSE2 build cannot be observed reliably.", "anchors": ["parquet/examples/dump.rs:6-13", "parquet/src/bin/schema.rs:649-666", "parquet/src/lib.rs:38-57", "runtime/src/uleb.rs:24-40"]}
