import Verif.Model.RustSyntax
/-!
# The functions of runtime/src/uleb.rs and runtime/src/protocol.rs as syntax

Produced by a script from what `parseText` returns; `C110_text` states that it does.
-/
namespace CT.Rs

def fn_decode_uleb : Fn :=
  ⟨n! "decode_uleb", [(n! "input", .other)], true, .int .u64, .block [.bind (.name n! "shift") (.lit 0 (some .u32)), .bind (.name n! "value") (.lit 0
  (some .u64)), .loop (.block [.bind (.name n! "byte") (.try (.method (.path [n! "input"]) n! "read_byte" [])), .semi (.assignOp .bor (.path [n!
  "value"]) (.method (.cast (.bin .band (.path [n! "byte"]) (.lit 127 none)) (some .u64)) n! "wrapping_shl" [.path [n! "shift"]])), .semi (.assignOp
  .add (.path [n! "shift"]) (.lit 7 none)), .ite (.bin .eq (.bin .band (.path [n! "byte"]) (.lit 128 none)) (.lit 0 none)) (.block [.semi (.ret (some
  (.call [n! "Ok"] [.path [n! "value"]])))]) none])]⟩

def fn_skip_uleb_sse2 : Fn :=
  ⟨n! "skip_uleb_sse2", [(n! "input", .other)], false, .other, .block [.semi (.mac n! "debug_assert" [.bin .ge (.method (.path [n! "input"]) n! "len"
  []) (.lit 16 none)]), .bind (.name n! "chunk") (.call [n! "_mm_loadu_si128"] [.method (.method (.path [n! "input"]) n! "as_ptr" []) n! "cast" []]),
  .bind (.name n! "mask") (.not (.call [n! "_mm_movemask_epi8"] [.path [n! "chunk"]])), .bind (.name n! "len") (.cast (.method (.bin .shl (.path [n!
  "mask"]) (.lit 1 none)) n! "trailing_zeros" []) (some .usize)), .method (.path [n! "input"]) n! "get_unchecked" [.range (some (.path [n! "len"]))
  none]]⟩

def fn_skip_uleb_fallback : Fn :=
  ⟨n! "skip_uleb_fallback", [(n! "input", .other)], false, .other, .block [.bind (.name n! "i") (.lit 0 (some .usize)), .semi (.while (.and (.bin .lt
  (.path [n! "i"]) (.method (.path [n! "input"]) n! "len" [])) (.bin .ne (.bin .band (.index (.path [n! "input"]) (.path [n! "i"])) (.lit 128 none))
  (.lit 0 none))) (.block [.semi (.assignOp .add (.path [n! "i"]) (.lit 1 none))])), .ref false (.index (.path [n! "input"]) (.range (some (.bin .add
  (.path [n! "i"]) (.lit 1 none))) none))]⟩

def fn_encode_uleb : Fn :=
  ⟨n! "encode_uleb", [(n! "output", .other), (n! "value", .int .u64)], true, .tuple [], .block [.semi (.while (.bin .gt (.path [n! "value"]) (.lit 127
  none)) (.block [.semi (.try (.method (.path [n! "output"]) n! "write_byte" [.bin .bor (.cast (.path [n! "value"]) (some .u8)) (.lit 128 none)])),
  .semi (.assignOp .shr (.path [n! "value"]) (.lit 7 none))])), .method (.path [n! "output"]) n! "write_byte" [.cast (.path [n! "value"]) (some
  .u8)]]⟩

def fn_read_full_field_id : Fn :=
  ⟨n! "read_full_field_id", [(n! "input", .other)], true, .int .i16, .block [.bind (.name n! "field_id") (.cast (.try (.call [n! "decode_uleb"] [.path
  [n! "input"]])) (some .u16)), .call [n! "Ok"] [.call [n! "zigzag_decode16"] [.path [n! "field_id"]]]]⟩

def fn_zigzag_decode16 : Fn :=
  ⟨n! "zigzag_decode16", [(n! "i", .int .u16)], false, .int .i16, .block [.bin .bxor (.cast (.bin .shr (.path [n! "i"]) (.lit 1 none)) (some .i16))
  (.neg (.cast (.bin .band (.path [n! "i"]) (.lit 1 none)) (some .i16)))]⟩

def fn_zigzag_decode32 : Fn :=
  ⟨n! "zigzag_decode32", [(n! "i", .int .u32)], false, .int .i32, .block [.bin .bxor (.cast (.bin .shr (.path [n! "i"]) (.lit 1 none)) (some .i32))
  (.neg (.cast (.bin .band (.path [n! "i"]) (.lit 1 none)) (some .i32)))]⟩

def fn_zigzag_decode64 : Fn :=
  ⟨n! "zigzag_decode64", [(n! "i", .int .u64)], false, .int .i64, .block [.bin .bxor (.cast (.bin .shr (.path [n! "i"]) (.lit 1 none)) (some .i64))
  (.neg (.cast (.bin .band (.path [n! "i"]) (.lit 1 none)) (some .i64)))]⟩

def fn_zigzag_encode16 : Fn :=
  ⟨n! "zigzag_encode16", [(n! "i", .int .i16)], false, .int .u16, .block [.cast (.bin .bxor (.bin .shl (.path [n! "i"]) (.lit 1 none)) (.bin .shr
  (.path [n! "i"]) (.lit 15 none))) (some .u16)]⟩

def fn_zigzag_encode32 : Fn :=
  ⟨n! "zigzag_encode32", [(n! "i", .int .i32)], false, .int .u32, .block [.cast (.bin .bxor (.bin .shl (.path [n! "i"]) (.lit 1 none)) (.bin .shr
  (.path [n! "i"]) (.lit 31 none))) (some .u32)]⟩

def fn_zigzag_encode64 : Fn :=
  ⟨n! "zigzag_encode64", [(n! "i", .int .i64)], false, .int .u64, .block [.cast (.bin .bxor (.bin .shl (.path [n! "i"]) (.lit 1 none)) (.bin .shr
  (.path [n! "i"]) (.lit 63 none))) (some .u64)]⟩

def fn_Input_read_len : Fn :=
  ⟨n! "read_len", [(n! "self", .other)], true, .int .usize, .block [.bind (.name n! "len") (.try (.call [n! "decode_uleb"] [.path [n! "self"]])),
  .call [n! "Ok"] [.cast (.path [n! "len"]) none]]⟩

def fn_Input_read_i16 : Fn :=
  ⟨n! "read_i16", [(n! "self", .other)], true, .int .i16, .block [.bind (.name n! "i") (.try (.call [n! "decode_uleb"] [.path [n! "self"]])), .call
  [n! "Ok"] [.call [n! "zigzag_decode16"] [.cast (.path [n! "i"]) none]]]⟩

def fn_Input_read_i32 : Fn :=
  ⟨n! "read_i32", [(n! "self", .other)], true, .int .i32, .block [.bind (.name n! "i") (.try (.call [n! "decode_uleb"] [.path [n! "self"]])), .call
  [n! "Ok"] [.call [n! "zigzag_decode32"] [.cast (.path [n! "i"]) none]]]⟩

def fn_Input_read_i64 : Fn :=
  ⟨n! "read_i64", [(n! "self", .other)], true, .int .i64, .block [.bind (.name n! "i") (.try (.call [n! "decode_uleb"] [.path [n! "self"]])), .call
  [n! "Ok"] [.call [n! "zigzag_decode64"] [.cast (.path [n! "i"]) none]]]⟩

def fn_Input_read_string : Fn :=
  ⟨n! "read_string", [(n! "self", .other)], true, .other, .block [.bind (.name n! "binary") (.try (.method (.path [n! "self"]) n! "read_binary" [])),
  .bind .wild (.try (.method (.call [n! "from_utf8"] [.method (.path [n! "binary"]) n! "as_ref" []]) n! "map_err" [.closure (.path [n! "ThriftError",
  n! "InvalidString"])])), .block [.select (.path [n! "binary"]) [(.con [n! "Cow", n! "Owned"] n! "v", .call [n! "Ok"] [.call [n! "Cow", n! "Owned"]
  [.call [n! "String", n! "from_utf8_unchecked"] [.path [n! "v"]]]]), (.con [n! "Cow", n! "Borrowed"] n! "v", .call [n! "Ok"] [.call [n! "Cow", n!
  "Borrowed"] [.call [n! "from_utf8_unchecked"] [.path [n! "v"]]]])]]]⟩

def fn_Input_skip_integer : Fn :=
  ⟨n! "skip_integer", [(n! "self", .other)], true, .tuple [], .block [.bind .wild (.try (.method (.path [n! "self"]) n! "read_i64" [])), .call [n!
  "Ok"] [.tuple []]]⟩

def fn_Input_skip_binary : Fn :=
  ⟨n! "skip_binary", [(n! "self", .other)], true, .tuple [], .block [.semi (.try (.method (.path [n! "self"]) n! "read_binary" [])), .call [n! "Ok"]
  [.tuple []]]⟩

def fn_Input_skip_field : Fn :=
  ⟨n! "skip_field", [(n! "self", .other), (n! "field_type", .int .u8)], true, .tuple [], .block [.call [n! "skip_field"] [.path [n! "self"], .path [n!
  "field_type"], .bool false]]⟩

def fn_Input_read_field_header : Fn :=
  ⟨n! "read_field_header", [(n! "self", .other), (n! "last_field_id", .other)], true, .int .u8, .block [.bind (.name n! "field_header") (.try (.method
  (.path [n! "self"]) n! "read_byte" [])), .semi (.ite (.bin .eq (.path [n! "field_header"]) (.lit 0 none)) (.block [.ret (some (.call [n! "Ok"] [.lit
  0 none]))]) none), .bind (.name n! "field_type") (.bin .band (.path [n! "field_header"]) (.lit 15 none)), .bind (.name n! "field_delta") (.bin .shr
  (.path [n! "field_header"]) (.lit 4 none)), .semi (.ite (.bin .ne (.path [n! "field_delta"]) (.lit 0 none)) (.block [.semi (.assignOp .add (.deref
  (.path [n! "last_field_id"])) (.cast (.path [n! "field_delta"]) (some .i16)))]) (some (.block [.semi (.assign (.deref (.path [n! "last_field_id"]))
  (.try (.call [n! "read_full_field_id"] [.path [n! "self"]])))]))), .call [n! "Ok"] [.path [n! "field_type"]]]⟩

def fn_read_collection_len_and_type : Fn :=
  ⟨n! "read_collection_len_and_type", [(n! "input", .other)], true, .tuple [some .u32, some .u8], .block [.bind (.name n! "header") (.try (.method
  (.path [n! "input"]) n! "read_byte" [])), .bind (.name n! "field_type") (.bin .band (.path [n! "header"]) (.lit 15 none)), .bind (.name n!
  "maybe_len") (.bin .shr (.bin .band (.path [n! "header"]) (.lit 240 none)) (.lit 4 none)), .bind (.name n! "len") (.ite (.bin .ne (.path [n!
  "maybe_len"]) (.lit 15 none)) (.block [.cast (.path [n! "maybe_len"]) (some .usize)]) (some (.block [.try (.method (.path [n! "input"]) n!
  "read_len" [])]))), .semi (.ite (.bin .gt (.path [n! "len"]) (.path [n! "MAX_COLLECTION_LEN"])) (.block [.ret (some (.call [n! "Err"] [.path [n!
  "ThriftError", n! "InvalidCollectionLen"]]))]) none), .call [n! "Ok"] [.tuple [.cast (.path [n! "len"]) (some .u32), .path [n! "field_type"]]]]⟩

def fn_read_map_len_and_types : Fn :=
  ⟨n! "read_map_len_and_types", [(n! "input", .other)], true, .tuple [some .u32, some .u8, some .u8], .block [.bind (.name n! "len") (.try (.method
  (.path [n! "input"]) n! "read_len" [])), .semi (.ite (.bin .eq (.path [n! "len"]) (.lit 0 none)) (.block [.ret (some (.call [n! "Ok"] [.tuple [.lit
  0 none, .lit 0 none, .lit 0 none]]))]) none), .bind (.name n! "entry_type") (.try (.method (.path [n! "input"]) n! "read_byte" [])), .bind (.name n!
  "key_type") (.bin .shr (.path [n! "entry_type"]) (.lit 4 none)), .bind (.name n! "val_type") (.bin .band (.path [n! "entry_type"]) (.lit 15 none)),
  .semi (.ite (.bin .gt (.path [n! "len"]) (.path [n! "MAX_COLLECTION_LEN"])) (.block [.ret (some (.call [n! "Err"] [.path [n! "ThriftError", n!
  "InvalidCollectionLen"]]))]) none), .call [n! "Ok"] [.tuple [.cast (.path [n! "len"]) (some .u32), .path [n! "key_type"], .path [n! "val_type"]]]]⟩

def fn_skip_collection : Fn :=
  ⟨n! "skip_collection", [(n! "input", .other)], true, .tuple [], .block [.bind (.names [n! "len", n! "element_type"]) (.try (.call [n!
  "read_collection_len_and_type"] [.path [n! "input"]])), .semi (.select (.path [n! "element_type"]) [(.range 1 3, .block [.for .wild (.range (some
  (.lit 0 none)) (some (.path [n! "len"]))) (.block [.bind .wild (.try (.method (.path [n! "input"]) n! "read_byte" []))])]), (.range 4 6, .block
  [.for .wild (.range (some (.lit 0 none)) (some (.path [n! "len"]))) (.block [.semi (.try (.method (.path [n! "input"]) n! "skip_integer" []))])]),
  (.lit 7, .block [.for .wild (.range (some (.lit 0 none)) (some (.path [n! "len"]))) (.block [.semi (.try (.method (.path [n! "input"]) n!
  "read_double" []))])]), (.lit 8, .block [.for .wild (.range (some (.lit 0 none)) (some (.path [n! "len"]))) (.block [.semi (.try (.method (.path [n!
  "input"]) n! "skip_binary" []))])]), (.alt (.lit 9) (.lit 10), .block [.for .wild (.range (some (.lit 0 none)) (some (.path [n! "len"]))) (.block
  [.semi (.try (.call [n! "skip_collection"] [.path [n! "input"]]))])]), (.lit 11, .block [.for .wild (.range (some (.lit 0 none)) (some (.path [n!
  "len"]))) (.block [.semi (.try (.call [n! "skip_map"] [.path [n! "input"]]))])]), (.lit 12, .block [.for .wild (.range (some (.lit 0 none)) (some
  (.path [n! "len"]))) (.block [.semi (.try (.call [n! "skip_field"] [.path [n! "input"], .lit 12 none, .bool false]))])]), (.wild, .block [.ret (some
  (.call [n! "Err"] [.path [n! "ThriftError", n! "InvalidType"]]))])]), .call [n! "Ok"] [.tuple []]]⟩

def fn_skip_map : Fn :=
  ⟨n! "skip_map", [(n! "input", .other)], true, .tuple [], .block [.bind (.names [n! "len", n! "key_type", n! "val_type"]) (.try (.call [n!
  "read_map_len_and_types"] [.path [n! "input"]])), .semi (.for .wild (.range (some (.lit 0 none)) (some (.path [n! "len"]))) (.block [.semi (.try
  (.call [n! "skip_field"] [.path [n! "input"], .path [n! "key_type"], .bool true])), .semi (.try (.call [n! "skip_field"] [.path [n! "input"], .path
  [n! "val_type"], .bool true]))])), .call [n! "Ok"] [.tuple []]]⟩

def fn_skip_field : Fn :=
  ⟨n! "skip_field", [(n! "input", .other), (n! "field_type", .int .u8), (n! "inside_collection", .other)], true, .tuple [], .block [.semi (.select
  (.path [n! "field_type"]) [(.range 1 2, .block [.ite (.path [n! "inside_collection"]) (.block [.semi (.try (.method (.path [n! "input"]) n!
  "read_byte" []))]) none]), (.lit 3, .block [.semi (.try (.method (.path [n! "input"]) n! "read_byte" []))]), (.range 4 6, .block [.semi (.try
  (.method (.path [n! "input"]) n! "skip_integer" []))]), (.lit 7, .block [.semi (.try (.method (.path [n! "input"]) n! "read_double" []))]), (.lit 8,
  .block [.semi (.try (.method (.path [n! "input"]) n! "skip_binary" []))]), (.alt (.lit 9) (.lit 10), .block [.semi (.try (.call [n!
  "skip_collection"] [.path [n! "input"]]))]), (.lit 11, .block [.semi (.try (.call [n! "skip_map"] [.path [n! "input"]]))]), (.lit 12, .block [.bind
  (.name n! "last_field_id") (.lit 0 (some .i16)), .loop (.block [.bind (.name n! "field_type") (.try (.method (.path [n! "input"]) n!
  "read_field_header" [.ref true (.path [n! "last_field_id"])])), .semi (.ite (.bin .eq (.path [n! "field_type"]) (.lit 0 none)) (.block [.semi .brk])
  none), .semi (.try (.call [n! "skip_field"] [.path [n! "input"], .path [n! "field_type"], .bool false]))])]), (.wild, .block [.ret (some (.call [n!
  "Err"] [.path [n! "ThriftError", n! "InvalidType"]]))])]), .call [n! "Ok"] [.tuple []]]⟩

def fn_write_field_header : Fn :=
  ⟨n! "write_field_header", [(n! "output", .other), (n! "field_type", .int .u8), (n! "field_id", .int .i16), (n! "last_field_id", .other)], true,
  .tuple [], .block [.bind (.name n! "field_delta") (.method (.path [n! "field_id"]) n! "wrapping_sub" [.deref (.path [n! "last_field_id"])]), .semi
  (.ite (.bin .gt (.path [n! "field_delta"]) (.lit 15 none)) (.block [.semi (.try (.method (.path [n! "output"]) n! "write_byte" [.path [n!
  "field_type"]])), .try (.method (.path [n! "output"]) n! "write_i16" [.path [n! "field_delta"]])]) (some (.block [.semi (.try (.method (.path [n!
  "output"]) n! "write_byte" [.bin .bor (.path [n! "field_type"]) (.bin .shl (.cast (.path [n! "field_delta"]) (some .u8)) (.lit 4 none))]))]))),
  .semi (.assign (.deref (.path [n! "last_field_id"])) (.path [n! "field_id"])), .call [n! "Ok"] [.tuple []]]⟩

def fn_Input_R_read_byte : Fn :=
  ⟨n! "read_byte", [(n! "self", .other)], true, .int .u8, .block [.bind (.name n! "buf") (.fill (.lit 0 (some .u8)) 1), .semi (.try (.method (.path
  [n! "self"]) n! "read_exact" [.ref true (.path [n! "buf"])])), .call [n! "Ok"] [.index (.path [n! "buf"]) (.lit 0 none)]]⟩

def fn_Input_R_read_double : Fn :=
  ⟨n! "read_double", [(n! "self", .other)], true, .other, .block [.bind (.name n! "buf") (.fill (.lit 0 (some .u8)) 8), .semi (.try (.method (.path
  [n! "self"]) n! "read_exact" [.ref true (.path [n! "buf"])])), .call [n! "Ok"] [.call [n! "f64", n! "from_le_bytes"] [.path [n! "buf"]]]]⟩

def fn_Input_R_read_binary : Fn :=
  ⟨n! "read_binary", [(n! "self", .other)], true, .other, .block [.bind (.name n! "len") (.try (.method (.path [n! "self"]) n! "read_len" [])), .semi
  (.ite (.bin .gt (.path [n! "len"]) (.path [n! "MAX_BINARY_LEN"])) (.block [.semi (.ret (some (.call [n! "Err"] [.call [n! "ThriftError", n!
  "InvalidBinaryLen"] [.path [n! "len"]]])))]) none), .bind (.name n! "buf") (.call [n! "Vec", n! "with_capacity"] [.path [n! "len"]]), .semi (.block
  [.semi (.method (.path [n! "buf"]) n! "set_len" [.path [n! "len"]])]), .semi (.try (.method (.path [n! "self"]) n! "read_exact" [.method (.path [n!
  "buf"]) n! "as_mut_slice" []])), .call [n! "Ok"] [.method (.path [n! "buf"]) n! "into" []]]⟩

def fn_Slice_own_new : Fn :=
  ⟨n! "new", [(n! "slice", .other)], false, .other, .block [.call [n! "Self"] [.path [n! "slice"]]]⟩

def fn_Slice_own_as_slice : Fn :=
  ⟨n! "as_slice", [(n! "self", .other)], false, .other, .block [.field (.path [n! "self"]) 0]⟩

def fn_From_Slice_from : Fn :=
  ⟨n! "from", [(n! "slice", .other)], false, .other, .block [.call [n! "Self"] [.path [n! "slice"]]]⟩

def fn_Input_Slice_read_byte : Fn :=
  ⟨n! "read_byte", [(n! "self", .other)], true, .int .u8, .block [.iteLet (.headRest n! "first" n! "rest") (.field (.path [n! "self"]) 0) (.block
  [.semi (.assign (.field (.path [n! "self"]) 0) (.path [n! "rest"])), .call [n! "Ok"] [.deref (.path [n! "first"])]]) (some (.block [.call [n! "Err"]
  [.call [n! "ThriftError", n! "from"] [.path [n! "ErrorKind", n! "UnexpectedEof"]]]]))]⟩

def fn_Input_Slice_read_double : Fn :=
  ⟨n! "read_double", [(n! "self", .other)], true, .other, .block [.semi (.ite (.bin .lt (.method (.field (.path [n! "self"]) 0) n! "len" []) (.lit 8
  none)) (.block [.ret (some (.call [n! "Err"] [.call [n! "ThriftError", n! "from"] [.path [n! "ErrorKind", n! "UnexpectedEof"]]]))]) none), .bind
  (.name n! "value") (.call [n! "f64", n! "from_le_bytes"] [.method (.method (.index (.field (.path [n! "self"]) 0) (.range none (some (.lit 8
  none)))) n! "try_into" []) n! "unwrap" []]), .semi (.assign (.field (.path [n! "self"]) 0) (.ref false (.index (.field (.path [n! "self"]) 0)
  (.range (some (.lit 8 none)) none)))), .call [n! "Ok"] [.path [n! "value"]]]⟩

def fn_Input_Slice_read_binary : Fn :=
  ⟨n! "read_binary", [(n! "self", .other)], true, .other, .block [.bind (.name n! "len") (.try (.method (.path [n! "self"]) n! "read_len" [])), .semi
  (.ite (.bin .gt (.path [n! "len"]) (.path [n! "MAX_BINARY_LEN"])) (.block [.semi (.ret (some (.call [n! "Err"] [.call [n! "ThriftError", n!
  "InvalidBinaryLen"] [.path [n! "len"]]])))]) none), .semi (.ite (.bin .lt (.method (.field (.path [n! "self"]) 0) n! "len" []) (.path [n! "len"]))
  (.block [.ret (some (.call [n! "Err"] [.call [n! "ThriftError", n! "from"] [.path [n! "ErrorKind", n! "UnexpectedEof"]]]))]) none), .bind (.names
  [n! "first", n! "rest"]) (.method (.call [n! "std", n! "mem", n! "take"] [.ref true (.field (.path [n! "self"]) 0)]) n! "split_at" [.path [n!
  "len"]]), .semi (.assign (.field (.path [n! "self"]) 0) (.path [n! "rest"])), .call [n! "Ok"] [.call [n! "Cow", n! "Borrowed"] [.path [n!
  "first"]]]]⟩

def fn_Input_Slice_skip_integer : Fn :=
  ⟨n! "skip_integer", [(n! "self", .other)], true, .tuple [], .block [.ite (.bin .ge (.method (.field (.path [n! "self"]) 0) n! "len" []) (.lit 16
  none)) (.block [.semi (.assign (.field (.path [n! "self"]) 0) (.block [.call [n! "skip_uleb_sse2"] [.field (.path [n! "self"]) 0]])), .call [n!
  "Ok"] [.tuple []]]) (some (.block [.semi (.assign (.field (.path [n! "self"]) 0) (.call [n! "skip_uleb_fallback"] [.field (.path [n! "self"]) 0])),
  .call [n! "Ok"] [.tuple []]]))]⟩

def fn_Input_Slice_skip_binary : Fn :=
  ⟨n! "skip_binary", [(n! "self", .other)], true, .tuple [], .block [.bind (.name n! "len") (.try (.method (.path [n! "self"]) n! "read_len" [])),
  .semi (.ite (.bin .gt (.path [n! "len"]) (.path [n! "MAX_BINARY_LEN"])) (.block [.semi (.ret (some (.call [n! "Err"] [.call [n! "ThriftError", n!
  "InvalidBinaryLen"] [.path [n! "len"]]])))]) none), .semi (.ite (.bin .lt (.method (.field (.path [n! "self"]) 0) n! "len" []) (.path [n! "len"]))
  (.block [.ret (some (.call [n! "Err"] [.call [n! "ThriftError", n! "from"] [.path [n! "ErrorKind", n! "UnexpectedEof"]]]))]) none), .semi (.assign
  (.field (.path [n! "self"]) 0) (.ref false (.index (.field (.path [n! "self"]) 0) (.range (some (.path [n! "len"])) none)))), .call [n! "Ok"]
  [.tuple []]]⟩

def fn_Output_write_string : Fn :=
  ⟨n! "write_string", [(n! "self", .other), (n! "value", .other)], true, .tuple [], .block [.method (.path [n! "self"]) n! "write_binary" [.method
  (.path [n! "value"]) n! "as_bytes" []]]⟩

def fn_Output_W_write_byte : Fn :=
  ⟨n! "write_byte", [(n! "self", .other), (n! "value", .int .u8)], true, .tuple [], .block [.semi (.try (.method (.path [n! "self"]) n! "write_all"
  [.ref false (.array [.path [n! "value"]])])), .call [n! "Ok"] [.tuple []]]⟩

def fn_Output_W_write_len : Fn :=
  ⟨n! "write_len", [(n! "self", .other), (n! "value", .int .usize)], true, .tuple [], .block [.call [n! "encode_uleb"] [.path [n! "self"], .cast
  (.path [n! "value"]) none]]⟩

def fn_Output_W_write_i16 : Fn :=
  ⟨n! "write_i16", [(n! "self", .other), (n! "value", .int .i16)], true, .tuple [], .block [.call [n! "encode_uleb"] [.path [n! "self"], .cast (.call
  [n! "zigzag_encode16"] [.path [n! "value"]]) none]]⟩

def fn_Output_W_write_i32 : Fn :=
  ⟨n! "write_i32", [(n! "self", .other), (n! "value", .int .i32)], true, .tuple [], .block [.call [n! "encode_uleb"] [.path [n! "self"], .cast (.call
  [n! "zigzag_encode32"] [.path [n! "value"]]) none]]⟩

def fn_Output_W_write_i64 : Fn :=
  ⟨n! "write_i64", [(n! "self", .other), (n! "value", .int .i64)], true, .tuple [], .block [.call [n! "encode_uleb"] [.path [n! "self"], .cast (.call
  [n! "zigzag_encode64"] [.path [n! "value"]]) none]]⟩

def fn_Output_W_write_double : Fn :=
  ⟨n! "write_double", [(n! "self", .other), (n! "value", .other)], true, .tuple [], .block [.semi (.try (.method (.path [n! "self"]) n! "write_all"
  [.ref false (.method (.path [n! "value"]) n! "to_le_bytes" [])])), .call [n! "Ok"] [.tuple []]]⟩

def fn_Output_W_write_binary : Fn :=
  ⟨n! "write_binary", [(n! "self", .other), (n! "value", .other)], true, .tuple [], .block [.semi (.ite (.bin .gt (.method (.path [n! "value"]) n!
  "len" []) (.path [n! "MAX_BINARY_LEN"])) (.block [.semi (.ret (some (.call [n! "Err"] [.call [n! "ThriftError", n! "InvalidBinaryLen"] [.method
  (.path [n! "value"]) n! "len" []]])))]) none), .semi (.try (.method (.path [n! "self"]) n! "write_len" [.method (.path [n! "value"]) n! "len" []])),
  .semi (.try (.method (.path [n! "self"]) n! "write_all" [.path [n! "value"]])), .call [n! "Ok"] [.tuple []]]⟩

def fn_Protocol_read_thrift : Fn :=
  ⟨n! "read_thrift", [(n! "input", .other)], true, .other, .block [.bind (.name n! "result") (.call [n! "Self", n! "default"] []), .semi (.try (.call
  [n! "Self", n! "fill_thrift"] [.ref true (.path [n! "result"]), .path [n! "input"]])), .call [n! "Ok"] [.path [n! "result"]]]⟩

def fn_Protocol_fill_thrift_field : Fn :=
  ⟨n! "fill_thrift_field", [(n! "self", .other), (n! "input", .other), (n! "field_type", .int .u8)], true, .tuple [], .block [.semi (.ite (.bin .ne
  (.path [n! "field_type"]) (.path [n! "Self", n! "FIELD_TYPE"])) (.block [.ret (some (.call [n! "Err"] [.path [n! "ThriftError", n!
  "InvalidType"]]))]) none), .method (.path [n! "self"]) n! "fill_thrift" [.path [n! "input"]]]⟩

def fn_Protocol_write_thrift_field : Fn :=
  ⟨n! "write_thrift_field", [(n! "self", .other), (n! "output", .other), (n! "field_id", .int .i16), (n! "last_field_id", .other)], true, .tuple [],
  .block [.semi (.try (.call [n! "write_field_header"] [.path [n! "output"], .path [n! "Self", n! "FIELD_TYPE"], .path [n! "field_id"], .path [n!
  "last_field_id"]])), .semi (.try (.method (.path [n! "self"]) n! "write_thrift" [.path [n! "output"]])), .call [n! "Ok"] [.tuple []]]⟩

def ulebItems : List Item := [
  .fn false fn_decode_uleb,
  .fn true fn_skip_uleb_sse2,
  .fn false fn_skip_uleb_fallback,
  .fn false fn_encode_uleb]

def protocolItems : List Item := [
  .const (n! "MAX_BINARY_LEN") (.int .usize) (.bin .mul (.bin .mul (.lit 16 none) (.lit 1024 none)) (.lit 1024 none)),
  .const (n! "MAX_COLLECTION_LEN") (.int .usize) (.lit 10000000 none),
  .fn false fn_read_full_field_id,
  .fn false fn_zigzag_decode16,
  .fn false fn_zigzag_decode32,
  .fn false fn_zigzag_decode64,
  .fn false fn_zigzag_encode16,
  .fn false fn_zigzag_encode32,
  .fn false fn_zigzag_encode64,
  .trait (n! "CompactThriftInput") [(false, fn_Input_read_len), (false, fn_Input_read_i16), (false, fn_Input_read_i32), (false, fn_Input_read_i64), (false, fn_Input_read_string), (false, fn_Input_skip_integer), (false, fn_Input_skip_binary), (false, fn_Input_skip_field), (false, fn_Input_read_field_header)],
  .fn false fn_read_collection_len_and_type,
  .fn false fn_read_map_len_and_types,
  .fn false fn_skip_collection,
  .fn false fn_skip_map,
  .fn false fn_skip_field,
  .fn false fn_write_field_header,
  .impl (n! "CompactThriftInput") (n! "R") [(false, fn_Input_R_read_byte), (false, fn_Input_R_read_double), (false, fn_Input_R_read_binary)],
  .impl (n! "CompactThriftInputSlice") 0 [(false, fn_Slice_own_new), (false, fn_Slice_own_as_slice)],
  .impl (n! "From") (n! "CompactThriftInputSlice") [(false, fn_From_Slice_from)],
  .impl (n! "CompactThriftInput") (n! "CompactThriftInputSlice") [(false, fn_Input_Slice_read_byte), (false, fn_Input_Slice_read_double), (false, fn_Input_Slice_read_binary), (true, fn_Input_Slice_skip_integer), (false, fn_Input_Slice_skip_binary)],
  .trait (n! "CompactThriftOutput") [(false, fn_Output_write_string)],
  .impl (n! "CompactThriftOutput") (n! "W") [(false, fn_Output_W_write_byte), (false, fn_Output_W_write_len), (false, fn_Output_W_write_i16), (false, fn_Output_W_write_i32), (false, fn_Output_W_write_i64), (false, fn_Output_W_write_double), (false, fn_Output_W_write_binary)],
  .trait (n! "CompactThriftProtocol") [(false, fn_Protocol_read_thrift), (false, fn_Protocol_fill_thrift_field), (false, fn_Protocol_write_thrift_field)]]

end CT.Rs
