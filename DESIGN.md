# A Lean 4 model of compact-thrift and what is proved about it

Source: `/repo` (jhorstmann/compact-thrift, pinned). Model and proofs: `/verif/lean/Verif`.

* `Model/` – the code, function by function; every definition cites file and lines.
* `Spec/` – what the properties are stated with: wire grammar, protocol trees, varints, UTF-8, schema trees …
  These files do not use the functions of the model they are specifying (they share the data types `Ty`, `Val`, `Def`).
* `Props/` – the theorems claimed in `MANIFEST.json`, each with an `example` meeting its hypotheses.
* `Proofs/` – lemmas.
* `seeded/LOG.jsonl` – wrong programs the theorems were tried against.

## 1. Modelling decisions

* Bytes are `BitVec 8`; Rust integers are `BitVec 8/16/32/64` with Rust's wrapping / `as` semantics.
  `usize` is 64 bits. `f64` is its 64-bit pattern; no arithmetic is done on it. Kotlin `Int` is `BitVec 32`.
* A reading function is `Rd σ α := σ → Except Fail (α × σ)`: a `&mut` input becomes the state `σ`.
  `Fail` distinguishes `err e` (Rust `Err`), `panic`, `ub` (out-of-bounds `get_unchecked`),
  `diverge` (a loop/recursion that did not finish within the fuel derived from the input size; proved
  unreachable, C17) and `stuck` (ill-typed model value; proved unreachable, C16/C35).
  Where the input stands after a failure is not part of the model; C89 says it through what a reader is asked for.
* What a failing `fill_thrift` leaves in `*self` is modelled in `Model/Partial.lean`, a copy of the filling functions that
  keeps the value; `C79_result` proves the copy returns the same results.
* `Input σ` is the trait `CompactThriftInput`. Instances: the slice (with and without the SSE2 skip) and
  `std::io::Read`, the latter over a script of events (data chunks, `Interrupted`, hard errors) driven by the
  loop of `std`'s `read_exact`.
* A writing function is `Wr τ α := τ → Except ThriftError α × τ` (the sink state is kept on error). Sinks: `Vec<u8>`
  and a scripted `std::io::Write` driven by the loop of `std`'s `write_all`.
* Rust types implementing `CompactThriftProtocol` are a deep embedding `Ty`, definitions made with
  `thrift!` are `Def` in an environment (so schemas, including recursive ones, are quantified over). Values are `Val`
  with a decidable typing predicate `HasTy`.
* `Cfg` holds build configuration: overflow checks on/off, SSE2 on/off, and an allocation oracle for `try_reserve`.
  A theorem that does not restrict `cfg` holds in all builds.
* Recursion depth of the real stack is not modelled; C21 says how deep the recursion gets.
* Parquet files: contents, and scripts for each `read`/`seek` call. `PFail` adds `abort` (allocation failure).
* The code generator: from the characters of a document (lexer and parser of Thrift.g4) to token lists for types, the data the enum
  templates are filled with, and definitions standing for the code of structs and unions. What ANTLR generates is modelled by its documented
  behaviour: longest match and first rule for the lexer; recursive descent with one token of lookahead for the parser, which is the
  only possible result since the grammar is unambiguous (C85).
* For uleb.rs and protocol.rs the reading is checked: `Model/RuntimeText.lean` holds their text, `Model/RustSyntax.lean` a lexer and parser for the part of Rust
  they use, `Model/RustRun.lean` an interpreter, and C110 proves that running the text is what the model does. The interpreter's simplifications are at its head.
* For types.rs, encodings.rs and the default methods of `CompactThriftProtocol` likewise: `Model/TypesText.lean`, `Model/TypesSyntax.lean`, `Model/TypesRun.lean`
  (an interpreter of methods generic over the input or output and the element type), and C111, which puts them together with the code of `thrift!` (C95).
* For the parquet crate and its programs: `Model/PqText.lean`, `Model/DumpText.lean`, `Model/PqSyntax.lean`, `Model/PqRun.lean`, and C112, C113, C114, C118, C119. There `File::open` ignores the
  path, a file whose operation failed is as before it, and a slice or value whose reading failed cannot be used afterwards; the code modelled returns or panics at each such error.
* `macro_rules`: token trees with a matcher without backtracking; definitions are the result of expansion.

## 2. What is modelled, what is not

| File | Modelled | Left out or simplified |
|---|---|---|
| runtime/src/uleb.rs | all: `decode_uleb`, `skip_uleb` and its SSE2 version (as byte masks) | the intrinsics are their documented meaning |
| runtime/src/protocol.rs | all of both traits, slice and `Read` inputs, `Vec`/`Write` outputs, `skip_field` | SSE2 intrinsics as above |
| runtime/src/types.rs | all implementations | `Cow` borrowing is invisible except in C81 (where bytes come from); `Box`/`Rc`/`Arc` are their contents, sharing in C59 |
| runtime/src/error.rs | errors as data, `FieldName` construction and display (C74), `Debug`/`Display` text of errors (C101); its text is parsed and run (C120) | text of `io::Error` (a parameter) |
| runtime/src/macros.rs | generated `fill_thrift`, `write_thrift`, `Default`, constants, macro grammar (C70–C72), the text of the macros and its expansion (C96), the function bodies as statements with variables (C95), derived `Clone` and `PartialEq` (C93), derived `Debug` (C98), derived `Hash` and `Ord` (C117) | attribute contents |
| parquet/src/format.rs | every definition, derived from the tokens (C72) | – |
| parquet/src/encodings.rs | all | – |
| parquet/src/lib.rs | all | `File` opening |
| parquet/src/bin/schema.rs | types, conversions, `convert_schema`, `find_field_by_path`, accessors, `pretty_print_schema` with the derived `Debug` it uses (C83), `main` (C99) and its panic messages (C101); the text itself is run in C113 and C114, where the derived `Debug` is taken from the interpreter and not from the derive attributes | errors of standard output |
| parquet/examples/dump.rs | all (C99, C101); its text is parsed and run (C119) | errors of standard output |
| runtime/benches/numbers.rs, parquet/benches/filemetadata.rs | what is computed and asserted (C109) | the measuring by criterion, the random numbers, `File::open` and `read_to_end` |
| generator: Thrift.g4 | all lexer and parser rules | ANTLR itself; its error messages |
| generator: Parser.kt, Domain.kt, Main.kt | all (lexer and parser errors are exceptions, unsupported constructs fail) | reading of the file |
| generator/src/test/resources/parquet.thrift | the text, character by character (C88) | – |
| generator: Generator.kt | lifetimes, types, enums; the templates as text (C97); structs and unions as definitions, their function bodies as statements with variables (C95) | the clock; the text is modelled as characters, its encoding is not |

## 3. Plan and proof per property

| Property | Rests on | Proof |
|---|---|---|
| C01–C05 | uleb, zigzag, scalar codecs | induction over digits; bitwise extensionality for zigzag at any width |
| C06, C10 | binary and collection headers | from C01 and list lemmas |
| C07 | UTF-8 validation automaton of std | equivalence with concatenations of encoded scalar values (`Spec/Utf8.lean`) |
| C08, C09 | field headers | case analysis with `omega` and `BitVec` lemmas; C08 is an equivalence |
| C11–C16, C60, C61 | generic decoder over `Input` | one logical relation for the whole decoder (`Proofs/Sim.lean`), instantiated with different relations |
| C17, C21, C82 | fuel, operations | adequacy of the fuel by triples (`Proofs/Adequate.lean`); an input with a budget |
| C18–C20, C62 | skip functions, writer | separate inductive grammar (`Spec/Wire.lean`), soundness and completeness |
| C22–C25, C33 | generic writer and reader | mutual induction over values through `Spec/Encoding.lean` |
| C26–C32, C34–C36, C57–C59 | struct and union loops | invariants of the field loop |
| C37, C38 | writer over sinks | logical relation between sinks |
| C39, C40 | EncodingSet | bit lemmas |
| C41–C45, C63 | lib.rs over a seekable byte file | a predicate transformer for file programs, list arithmetic |
| C46–C53, C64, C65, C73 | schema.rs | induction over trees and element lists; instrumented copy for capacities, erased by C73_erase |
| C54–C56, C67–C69 | generator | list induction; graph reachability |
| C66 | writer | induction over values |
| C70–C72 | macros | a matcher for `macro_rules` patterns, compared with a grammar; `format.rs` by computation in the kernel |
| C74 | error.rs FieldName | bytes, UTF-8 of C07 |
| C75 | schema evolution | relation between schemas (`Spec/Migration.lean`), induction over reads |
| C76 | the whole decoder | decoding relation (`Spec/Decoding.lean`), soundness and completeness of reads |
| C77, C78 | the whole decoder and writer | trees of the compact protocol (`Spec/Protocol.lean`) |
| C79, C80 | failing fills | instrumented copy (`Model/Partial.lean`), erased by C79_result |
| C81 | the whole decoder | relation between consumed bytes and leaves of the value |
| C83 | `pretty_print_schema` | unique readability of the printed lines, induction over trees |
| C84 | Thrift.g4 lexer rules | regular expressions (`Spec/ThriftLexer.lean`), each scanner proved to find the longest match |
| C85 | Thrift.g4 parser rules | printing of parse trees (`Spec/ThriftParser.lean`); soundness and completeness of the parser, hence unambiguity |
| C86 | Parser.kt | C84, C85, printing of documents |
| C87 | Generator.kt and macros.rs | each definition of the common language has the same meaning on both sides |
| C88 | parquet.thrift | computation in the kernel, piece by piece; C75, C84, C85 |
| C89 | generic decoder over `Input` | simulation with readers of which only a beginning is known |
| C90 | struct loop | a message as a list of fields; adjacent fields with different ids commute in the decoding relation of C76 |
| C91 | decoder and encoder | a size function on values; potential argument over the fields of a message (the bytes spent on headers so far reach the id at hand), in the decoding relation of C76 |
| C92 | fill_thrift in place, slices and readers | simulation as for C11–C15, carried over to the functions with the value left (`Proofs/PartialSim.lean`) |
| C93 | derived PartialEq and Clone | f64 as numbers (IEEE 754), monotonicity of the magnitude in the bits; structural induction; C22, C25 |
| C94 | fill_thrift, skip_field | induction on the decoding relation of C76: into the wire grammar of C18, and into the relation of the smaller schema |
| C95 | the templates as statements with local variables (Model/Code.lean) | execution of the loop against structLoopP with an invariant on the variables; relation up to the name in one error |
| C96 | the text of macros.rs, a tokenizer, and the matching and transcribing of `macro_rules!` (Model/RustText.lean, Model/MacroText.lean, Model/MacroRules.lean) | the text is read by evaluation; matching and transcribing by induction over the fields, for arbitrary bindings |
| C97 | the templates of Generator.kt as text, `trimIndent`, `joinToString` (Model/GeneratorText.lean), and the tokenizer of C96 | every piece of text tokenizes independently of what follows it, given what it begins with; composed piece by piece, by induction over fields and definitions |
| C98 | derived `Debug` with the builders of `core::fmt` (Model/Debug.lean) | nested padding is rewritten to texts that know their depth; texts are cut apart by induction over typed values, strings by a prefix code |
| C99 | schema.rs main, dump.rs main | composition of C41, C76, C46, C83 and C98; in a printed schema only the first line starts with a letter, so the schema starts at the last such line |
| C100 | errors of all reads | a triple with the set of possible errors for each function; for occurrence, accepted bytes exist for every type (from the relation of C76) and are put before the faulty ones |
| C101 | Debug and Display of errors, panic messages of `unwrap` | texts as name and argument; both can be read back |
| C102 | overflow checks of additions and shifts while reading | panic implies a rule by the structure of the reader; a rule implies panic by induction on the rule, next to the decoding of what comes before |
| C103 | Debug, Display, pretty_print | a tree per value in Spec/Text; the model's texts are the flat text and the lines of the tree, by induction on the value, with one lemma per builder of std |
| C104 | skip_uleb_sse2, skip_uleb_fallback, all reading | the specifications of C18, C47 and C102 take the form of skipped integers and the faults as parameters; one soundness and completeness proof for all builds |
| C105 | all reading, the programs | the faults of a build as one specification; C102, C104, C76 and C60 put together |
| C106 | read_page_index, read_page_index_for_column_chunk | the closure computed case by case, C105 for the indexes, induction over the columns and row groups |
| C107 | everything that reads, readFile, schemaMain, dumpMain | every error of the model is one of the specification by induction over fuel and types; conversely by induction over the specification, each place leading to an error unless fuel runs out, which it does not |
| C108 | convert_schema, convert_schema_inner, field_from_schema_element, schemaMain | the recursion follows the walk by induction over the depth and the children; the walk is deterministic and stops once, hence the converse |
| C109 | numbersBench, pageIndexBench, filemetadataBench | composition of writing, round trip, skipping, footer and page index; the file stays quiet from call to call |
| C110 | RustSyntax (lexer and parser), RustRun (interpreter), RuntimeText | the text parses to the table by computation; symbolic execution of each function against the model, induction for loops and recursion, limits in the fuel |
| C111 | TypesSyntax, TypesText, TypesRun (interpreter of generic methods), TypesProgram | the text parses to the table by computation; symbolic execution of each method against the model, induction over element types, loops and the members of a set |
| C112 | PqSyntax, PqText, PqRun (interpreter with closures, iterators, `?` and file access), PqProgram | the text parses to the table by computation, line by line; symbolic execution of each function against the model, induction over row groups and columns |
| C113 | PqSyntax, PqText, PqRun, PqProgram (schema.rs) | symbolic execution of each conversion against the model; convert_schema_inner by induction on the depth with an inner induction over the children, find_field_by_path by induction on the path |
| C114 | PqSyntax, PqText, PqRun (format strings, printing), PqProgram (schema.rs) | symbolic execution of main in each of its ends against schemaMain; pretty_print_schema by induction on the tree, print_indent by induction on the count; C114_schema from C99 |
| C115 | Protocol, Types (through Spec/Decoder) | each request is in simulation between related inputs and shrinks the input (the lemmas behind C11-C17); both lift to programs by induction on the tree, the loop over fields by induction on its rounds; rows of values by induction from C22 and C19 |
| C116 | Protocol, Types (through Spec/Encoder and Spec/Decoder) | the bytes prescribed are a relation of their own built from the encoding of C22; each step is a sequence of chunks handed to the sink (as in C37) and the prefix follows for programs; reading back by induction over the steps, the loop over fields by induction over the fields |
| C117 | EnumOrder, Derived | the comparison of bit vectors is that of the signed integers; the integer of a zigzag varint is recovered from the bytes; four bytes determine the number |
| C118 | Refused, PqField, PqInner, PqTree, PqMain, SchemaRefused | running with an allocator commutes with cutting the list of requests at the first refusal, by induction over the depth and the loop over the children |
| C119 | DumpText, DumpRun, DumpCode | the text is parsed and its main evaluated symbolically for each way the file can fail, then C99 and C103 about the model and C118 about the schema program are applied |
| C120 | ErrorCode | the text is parsed by computation in the kernel; its functions are evaluated symbolically, by cases on the length, the last byte and the bytes found |
| C121 | EndToEnd | C119_main and C114_main carried over to the outcomes of C105 and to the files of C42 and C65 |

Properties the code violates keep their full form in `properties.jsonl` where that is possible: the exact condition is proved as
an equivalence, or the violation is a theorem with `counterexample` in its name.

## 4. What the proofs found in the code

Runtime:
* `write_field_header` writes the delta, not the id, in the long form when the last id is not 0: such fields do not round trip (C08, C22).
* `read_field_header` adds the delta to an `i16`: panics with overflow checks, wraps without (C16, C60).
* Header bytes 0x10, 0x20 … 0xF0 (type 0) end a struct like the stop byte (C18).
* SSE2 `skip_uleb`: out of bounds or panic for integers cut off or longer than 16 bytes (C11, C15, C16, C20, C104).
* Varints longer than 10 bytes are accepted; the surplus digits are or-ed into the low bits again, since the shift wraps (C04). With overflow checks the shift
  count overflows after 613566756 continuation bytes (C102).
* Boolean fields accept every wire type, variants of unions are not checked at all (C30), a bool variant of a union does not round trip (C22).
* Boxed booleans write a byte after the header although the header holds the value (C58).
* `set<T>` uses the tag of lists; the protocol's sets are refused (C57, C77).
* Skipping recurses without limit (C21).
* The name in the error of an empty union is literally `$struct_name`.
* After a failed fill the same value cannot be filled again if it has optional fields (C79).
* `macros.rs`: default values are parsed and ignored; containers cannot be nested; `byte` alone is unsupported (C70, C71).

Parquet:
* `get_page_index_chunk` allocates what the file says, and panics for ranges over `isize::MAX` (C44, C63).
* `read_page_index` panics for index ranges before the chunk or empty (C45).
* Definition levels do not count repeated fields (C64).
* `ColumnMetaData` in `format.rs` drops the required `path_in_schema`: what it writes other readers refuse (C75).
* A group may carry a physical type; a root without children needs one (C46, C50).

Generator:
* The lifetime analysis does not terminate on cyclic schemas (C55) and a typedef of `string` gets no lifetime.
* Repeated names silently replace earlier definitions (C68); `-0x80000000` throws (C67).
* A `//` comment at the end of a file without line end, and a lone carriage return, are refused (C84).
* Names of included files keep their quotes in the generated `use` (C86).
* Recursive structs overflow the generator's stack but work with `thrift!`; sets become `HashSet`, for which there is no implementation;
  missing ids and requirements are accepted by the generator only (C87).
* Of the keywords of Rust only `type` is escaped by the generator, in structs and enums but not in unions or references, and none by `thrift!`: parquet.thrift
  itself does not compile with `thrift!` for that reason (C87, C88). A constant `value` is declared twice in generated code (C87).
* `byte`, `map` and generated method names do not match the runtime; constants, exceptions and services are `TODO()`.

## 5. Trusted base

* Lean 4.33.0's kernel. No axioms are added; no `sorry`, `native_decide` or `bv_decide`. Mathlib is not imported.
* Axioms (`#print axioms` of all theorems of the manifest): none for C83_counterexample_name; only `propext` for C104_end, C110_sinks, C110_text, C111_text, C50_empty, C53_annotations, C54_copied, C64_counterexample, C70_keyword_needed, C72_format, C73_erase, C74_accepts, C83_counterexample_line, C96_text, thrift_migrates; `propext` and `Quot.sound` for C06_write_limit, C08_last_field_id, C100_end, C100_fill, C100_never, C100_reader, C100_slice, C104_agree, C104_counterexample, C106_counterexample, C109_unwrap, C10_write_limit, C111_fill, C112_text, C113_text, C117_laws, C117_negative, C119_text, C11_counterexample_overlong, C11_counterexample_truncated, C120_accepts, C120_from, C120_from_str, C120_name, C120_text, C120_variants, C15_counterexample_panic, C15_counterexample_ub, C16_counterexample_overflow, C16_counterexample_sse2_panic, C16_counterexample_sse2_ub, C18_counterexample_stop, C28_replaces, C30_bool_accepts, C31_rejected, C33_enum_is_i32, C34_absent, C39_members_bounded, C44_ok, C44_outcome, C45_panic_before, C45_panic_empty, C51_every_field, C51_find, C52_physical, C53_group, C54_ids, C54_start, C54_total, C55_acyclic, C55_counterexample, C55_cycle, C55_definition, C55_depth, C55_field, C55_terminates, C56_debug, C56_distinct, C57_written, C58_read_back, C58_skip_leaves, C58_written, C63_metadata, C68_distinct, C68_keys, C68_last, C68_order, C72_constants, C79_option, C79_refillable, C79_result, C79_scalar, C79_typed, C80_fields, C86_bare, C88_macro, C90_counterexample_repeated, C93_counterexample_refill, C94_counterexample, C95_hygiene; `propext`, `Classical.choice` and `Quot.sound` for all others.
* The reading of the Rust and Kotlin source recorded in the comments of `Model/`; for uleb.rs, protocol.rs, types.rs and encodings.rs instead the interpreters `Model/RustRun.lean` and `Model/TypesRun.lean` and their parsers (C110, C111).
* The behaviour of std: `read_exact`, `write_all`, `str::from_utf8`, `Vec::try_reserve`, `slice` indexing, `to_le_bytes`,
  `String::from_utf8_lossy`, `CStr`; Kotlin's `toInt`, `LinkedHashMap`; `macro_rules` matching without backtracking; the
  documented meaning of three SSE2 intrinsics.
* Spec files: whether they say what the protocol or the English statement says.

Checks of the reading: `Props/RepoTests.lean` runs the unit tests of the repository on the model. `Props/RepoFile.lean` reads the footer of
`parquet/data/alltypes_tiny_pages.parquet` (1721 bytes, written by parquet-mr) and a page index with the model: with the definitions of parquet.thrift it is
written back byte for byte, and the program `schema` prints its 13 columns. `seeded/LOG.jsonl` records wrong models and which theorems noticed.
