import Verif.Model.TypesSyntax
/-!
# The implementations of runtime/src/types.rs and parquet/src/encodings.rs as syntax

Produced by a script from what `parseTypes` returns; `C111_text` states that it does.
-/
namespace CT.Rs

def ty_bool_fill_thrift : Fn :=
  ⟨n! "fill_thrift", [(n! "self", .other), (n! "input", .other)], true, .tuple [], .block [.bind (.name n! "byte") (.try (.method (.path [n! "input"])
  n! "read_byte" [])), .semi (.assign (.deref (.path [n! "self"])) (.bin .eq (.path [n! "byte"]) (.lit 1 none))), .call [n! "Ok"] [.tuple []]]⟩

def ty_bool_fill_thrift_field : Fn :=
  ⟨n! "fill_thrift_field", [(n! "self", .other), (n! "_input", .other), (n! "field_type", .int .u8)], true, .tuple [], .block [.semi (.assign (.deref
  (.path [n! "self"])) (.bin .eq (.path [n! "field_type"]) (.lit 1 none))), .call [n! "Ok"] [.tuple []]]⟩

def ty_bool_write_thrift : Fn :=
  ⟨n! "write_thrift", [(n! "self", .other), (n! "output", .other)], true, .tuple [], .block [.bind (.name n! "value") (.bin .add (.lit 1 none) (.cast
  (.not (.deref (.path [n! "self"]))) (some .u8))), .method (.path [n! "output"]) n! "write_byte" [.path [n! "value"]]]⟩

def ty_bool_write_thrift_field : Fn :=
  ⟨n! "write_thrift_field", [(n! "self", .other), (n! "output", .other), (n! "field_id", .int .i16), (n! "last_field_id", .other)], true, .tuple [],
  .block [.bind (.name n! "field_type") (.bin .add (.lit 1 none) (.cast (.not (.deref (.path [n! "self"]))) (some .u8))), .call [n!
  "write_field_header"] [.path [n! "output"], .path [n! "field_type"], .path [n! "field_id"], .path [n! "last_field_id"]]]⟩

def ty_i8_fill_thrift : Fn :=
  ⟨n! "fill_thrift", [(n! "self", .other), (n! "input", .other)], true, .tuple [], .block [.semi (.assign (.deref (.path [n! "self"])) (.cast (.try
  (.method (.path [n! "input"]) n! "read_byte" [])) (some .i8))), .call [n! "Ok"] [.tuple []]]⟩

def ty_i8_write_thrift : Fn :=
  ⟨n! "write_thrift", [(n! "self", .other), (n! "output", .other)], true, .tuple [], .block [.method (.path [n! "output"]) n! "write_byte" [.cast
  (.deref (.path [n! "self"])) (some .u8)]]⟩

def ty_i16_fill_thrift : Fn :=
  ⟨n! "fill_thrift", [(n! "self", .other), (n! "input", .other)], true, .tuple [], .block [.semi (.assign (.deref (.path [n! "self"])) (.try (.method
  (.path [n! "input"]) n! "read_i16" []))), .call [n! "Ok"] [.tuple []]]⟩

def ty_i16_write_thrift : Fn :=
  ⟨n! "write_thrift", [(n! "self", .other), (n! "output", .other)], true, .tuple [], .block [.method (.path [n! "output"]) n! "write_i16" [.deref
  (.path [n! "self"])]]⟩

def ty_i32_fill_thrift : Fn :=
  ⟨n! "fill_thrift", [(n! "self", .other), (n! "input", .other)], true, .tuple [], .block [.semi (.assign (.deref (.path [n! "self"])) (.try (.method
  (.path [n! "input"]) n! "read_i32" []))), .call [n! "Ok"] [.tuple []]]⟩

def ty_i32_write_thrift : Fn :=
  ⟨n! "write_thrift", [(n! "self", .other), (n! "output", .other)], true, .tuple [], .block [.method (.path [n! "output"]) n! "write_i32" [.deref
  (.path [n! "self"])]]⟩

def ty_i64_fill_thrift : Fn :=
  ⟨n! "fill_thrift", [(n! "self", .other), (n! "input", .other)], true, .tuple [], .block [.semi (.assign (.deref (.path [n! "self"])) (.try (.method
  (.path [n! "input"]) n! "read_i64" []))), .call [n! "Ok"] [.tuple []]]⟩

def ty_i64_write_thrift : Fn :=
  ⟨n! "write_thrift", [(n! "self", .other), (n! "output", .other)], true, .tuple [], .block [.method (.path [n! "output"]) n! "write_i64" [.deref
  (.path [n! "self"])]]⟩

def ty_f64_fill_thrift : Fn :=
  ⟨n! "fill_thrift", [(n! "self", .other), (n! "input", .other)], true, .tuple [], .block [.semi (.assign (.deref (.path [n! "self"])) (.try (.method
  (.path [n! "input"]) n! "read_double" []))), .call [n! "Ok"] [.tuple []]]⟩

def ty_f64_write_thrift : Fn :=
  ⟨n! "write_thrift", [(n! "self", .other), (n! "output", .other)], true, .tuple [], .block [.method (.path [n! "output"]) n! "write_double" [.deref
  (.path [n! "self"])]]⟩

def ty_vecU8_fill_thrift : Fn :=
  ⟨n! "fill_thrift", [(n! "self", .other), (n! "input", .other)], true, .tuple [], .block [.semi (.assign (.deref (.path [n! "self"])) (.method (.try
  (.method (.path [n! "input"]) n! "read_binary" [])) n! "into_owned" [])), .call [n! "Ok"] [.tuple []]]⟩

def ty_vecU8_write_thrift : Fn :=
  ⟨n! "write_thrift", [(n! "self", .other), (n! "output", .other)], true, .tuple [], .block [.method (.path [n! "output"]) n! "write_binary" [.method
  (.path [n! "self"]) n! "as_slice" []]]⟩

def ty_string_fill_thrift : Fn :=
  ⟨n! "fill_thrift", [(n! "self", .other), (n! "input", .other)], true, .tuple [], .block [.semi (.assign (.deref (.path [n! "self"])) (.method (.try
  (.method (.path [n! "input"]) n! "read_string" [])) n! "into_owned" [])), .call [n! "Ok"] [.tuple []]]⟩

def ty_string_write_thrift : Fn :=
  ⟨n! "write_thrift", [(n! "self", .other), (n! "output", .other)], true, .tuple [], .block [.method (.path [n! "output"]) n! "write_string" [.method
  (.path [n! "self"]) n! "as_str" []]]⟩

def ty_cowBytes_fill_thrift : Fn :=
  ⟨n! "fill_thrift", [(n! "self", .other), (n! "input", .other)], true, .tuple [], .block [.semi (.assign (.deref (.path [n! "self"])) (.try (.method
  (.path [n! "input"]) n! "read_binary" []))), .call [n! "Ok"] [.tuple []]]⟩

def ty_cowBytes_write_thrift : Fn :=
  ⟨n! "write_thrift", [(n! "self", .other), (n! "output", .other)], true, .tuple [], .block [.method (.path [n! "output"]) n! "write_binary" [.method
  (.path [n! "self"]) n! "as_ref" []]]⟩

def ty_cowStr_fill_thrift : Fn :=
  ⟨n! "fill_thrift", [(n! "self", .other), (n! "input", .other)], true, .tuple [], .block [.semi (.assign (.deref (.path [n! "self"])) (.try (.method
  (.path [n! "input"]) n! "read_string" []))), .call [n! "Ok"] [.tuple []]]⟩

def ty_cowStr_write_thrift : Fn :=
  ⟨n! "write_thrift", [(n! "self", .other), (n! "output", .other)], true, .tuple [], .block [.method (.path [n! "output"]) n! "write_string" [.method
  (.path [n! "self"]) n! "as_ref" []]]⟩

def ty_vec_fill_thrift : Fn :=
  ⟨n! "fill_thrift", [(n! "self", .other), (n! "input", .other)], true, .tuple [], .block [.bind (.names [n! "len", n! "element_type"]) (.try (.call
  [n! "read_collection_len_and_type"] [.path [n! "input"]])), .semi (.ite (.and (.bin .ne (.path [n! "element_type"]) (.path [n! "P", n!
  "FIELD_TYPE"])) (.not (.and (.bin .eq (.path [n! "P", n! "FIELD_TYPE"]) (.path [n! "bool", n! "FIELD_TYPE"])) (.bin .eq (.path [n! "element_type"])
  (.lit 1 none))))) (.block [.semi (.ret (some (.call [n! "Err"] [.path [n! "ThriftError", n! "InvalidType"]])))]) none), .semi (.method (.path [n!
  "self"]) n! "clear" []), .semi (.try (.method (.method (.path [n! "self"]) n! "try_reserve" [.cast (.path [n! "len"]) (some .usize)]) n! "map_err"
  [.closure (.path [n! "ThriftError", n! "ReserveError"])])), .semi (.for .wild (.range (some (.lit 0 none)) (some (.cast (.path [n! "len"]) (some
  .usize)))) (.block [.semi (.method (.path [n! "self"]) n! "extend" [.method (.range (some (.lit 0 none)) (some (.lit 1 none))) n! "map" [.closure
  (.call [n! "P", n! "default"] [])]]), .block [.semi (.try (.method (.method (.method (.path [n! "self"]) n! "last_mut" []) n! "unwrap_unchecked" [])
  n! "fill_thrift" [.path [n! "input"]]))]])), .call [n! "Ok"] [.tuple []]]⟩

def ty_vec_write_thrift : Fn :=
  ⟨n! "write_thrift", [(n! "self", .other), (n! "output", .other)], true, .tuple [], .block [.bind (.name n! "len") (.method (.path [n! "self"]) n!
  "len" []), .semi (.ite (.bin .gt (.path [n! "len"]) (.path [n! "MAX_COLLECTION_LEN"])) (.block [.semi (.ret (some (.call [n! "Err"] [.path [n!
  "ThriftError", n! "InvalidCollectionLen"]])))]) none), .semi (.ite (.bin .lt (.path [n! "len"]) (.lit 15 none)) (.block [.bind (.name n! "header")
  (.bin .bor (.path [n! "P", n! "FIELD_TYPE"]) (.bin .shl (.cast (.path [n! "len"]) (some .u8)) (.lit 4 none))), .semi (.try (.method (.path [n!
  "output"]) n! "write_byte" [.path [n! "header"]]))]) (some (.block [.semi (.try (.method (.path [n! "output"]) n! "write_byte" [.bin .bor (.path [n!
  "P", n! "FIELD_TYPE"]) (.lit 240 none)])), .semi (.try (.method (.path [n! "output"]) n! "write_len" [.path [n! "len"]]))]))), .method (.method
  (.path [n! "self"]) n! "iter" []) n! "try_for_each" [.lambda n! "value" (.block [.method (.path [n! "value"]) n! "write_thrift" [.path [n!
  "output"]]])]]⟩

def ty_option_fill_thrift : Fn :=
  ⟨n! "fill_thrift", [(n! "self", .other), (n! "input", .other)], true, .tuple [], .block [.semi (.ite (.method (.path [n! "self"]) n! "is_some" [])
  (.block [.semi (.ret (some (.call [n! "Err"] [.path [n! "ThriftError", n! "DuplicateField"]])))]) none), .semi (.block [.semi (.call [n! "std", n!
  "ptr", n! "write"] [.cast (.path [n! "self"]) none, .call [n! "Some"] [.call [n! "P", n! "default"] []]]), .semi (.try (.method (.method (.method
  (.path [n! "self"]) n! "as_mut" []) n! "unwrap_unchecked" []) n! "fill_thrift" [.path [n! "input"]]))]), .call [n! "Ok"] [.tuple []]]⟩

def ty_option_fill_thrift_field : Fn :=
  ⟨n! "fill_thrift_field", [(n! "self", .other), (n! "input", .other), (n! "field_type", .int .u8)], true, .tuple [], .block [.semi (.ite (.method
  (.path [n! "self"]) n! "is_some" []) (.block [.semi (.ret (some (.call [n! "Err"] [.path [n! "ThriftError", n! "DuplicateField"]])))]) none), .semi
  (.block [.semi (.call [n! "std", n! "ptr", n! "write"] [.cast (.path [n! "self"]) none, .call [n! "Some"] [.call [n! "P", n! "default"] []]]), .semi
  (.try (.method (.method (.method (.path [n! "self"]) n! "as_mut" []) n! "unwrap_unchecked" []) n! "fill_thrift_field" [.path [n! "input"], .path [n!
  "field_type"]]))]), .call [n! "Ok"] [.tuple []]]⟩

def ty_option_write_thrift : Fn :=
  ⟨n! "write_thrift", [(n! "self", .other), (n! "output", .other)], true, .tuple [], .block [.iteLet (.con [n! "Some"] n! "value") (.method (.path [n!
  "self"]) n! "as_ref" []) (.block [.method (.path [n! "value"]) n! "write_thrift" [.path [n! "output"]]]) (some (.block [.call [n! "Err"] [.path [n!
  "ThriftError", n! "MissingValue"]]]))]⟩

def ty_option_write_thrift_field : Fn :=
  ⟨n! "write_thrift_field", [(n! "self", .other), (n! "output", .other), (n! "field_id", .int .i16), (n! "last_field_id", .other)], true, .tuple [],
  .block [.semi (.iteLet (.con [n! "Some"] n! "value") (.method (.path [n! "self"]) n! "as_ref" []) (.block [.semi (.try (.method (.path [n! "value"])
  n! "write_thrift_field" [.path [n! "output"], .path [n! "field_id"], .path [n! "last_field_id"]]))]) none), .call [n! "Ok"] [.tuple []]]⟩

def ty_box_fill_thrift : Fn :=
  ⟨n! "fill_thrift", [(n! "self", .other), (n! "input", .other)], true, .tuple [], .block [.method (.call [n! "Box", n! "as_mut"] [.path [n! "self"]])
  n! "fill_thrift" [.path [n! "input"]]]⟩

def ty_box_write_thrift : Fn :=
  ⟨n! "write_thrift", [(n! "self", .other), (n! "output", .other)], true, .tuple [], .block [.method (.call [n! "Box", n! "as_ref"] [.path [n!
  "self"]]) n! "write_thrift" [.path [n! "output"]]]⟩

def ty_rc_fill_thrift : Fn :=
  ⟨n! "fill_thrift", [(n! "self", .other), (n! "input", .other)], true, .tuple [], .block [.method (.try (.method (.call [n! "Rc", n! "get_mut"]
  [.path [n! "self"]]) n! "ok_or" [.path [n! "ThriftError", n! "DuplicateField"]])) n! "fill_thrift" [.path [n! "input"]]]⟩

def ty_rc_write_thrift : Fn :=
  ⟨n! "write_thrift", [(n! "self", .other), (n! "output", .other)], true, .tuple [], .block [.method (.call [n! "Rc", n! "as_ref"] [.path [n!
  "self"]]) n! "write_thrift" [.path [n! "output"]]]⟩

def ty_arc_fill_thrift : Fn :=
  ⟨n! "fill_thrift", [(n! "self", .other), (n! "input", .other)], true, .tuple [], .block [.method (.try (.method (.call [n! "Arc", n! "get_mut"]
  [.path [n! "self"]]) n! "ok_or" [.path [n! "ThriftError", n! "DuplicateField"]])) n! "fill_thrift" [.path [n! "input"]]]⟩

def ty_arc_write_thrift : Fn :=
  ⟨n! "write_thrift", [(n! "self", .other), (n! "output", .other)], true, .tuple [], .block [.method (.call [n! "Arc", n! "as_ref"] [.path [n!
  "self"]]) n! "write_thrift" [.path [n! "output"]]]⟩

def ty_boxStr_fill_thrift : Fn :=
  ⟨n! "fill_thrift", [(n! "self", .other), (n! "input", .other)], true, .tuple [], .block [.semi (.assign (.deref (.path [n! "self"])) (.method
  (.method (.try (.method (.path [n! "input"]) n! "read_string" [])) n! "into_owned" []) n! "into_boxed_str" [])), .call [n! "Ok"] [.tuple []]]⟩

def ty_boxStr_write_thrift : Fn :=
  ⟨n! "write_thrift", [(n! "self", .other), (n! "output", .other)], true, .tuple [], .block [.method (.path [n! "output"]) n! "write_string" [.method
  (.path [n! "self"]) n! "as_ref" []]]⟩

def ty_rcStr_fill_thrift : Fn :=
  ⟨n! "fill_thrift", [(n! "self", .other), (n! "input", .other)], true, .tuple [], .block [.semi (.assign (.deref (.path [n! "self"])) (.select (.try
  (.method (.path [n! "input"]) n! "read_string" [])) [(.con [n! "Cow", n! "Borrowed"] n! "s", .call [n! "Rc", n! "from"] [.path [n! "s"]]), (.con [n!
  "Cow", n! "Owned"] n! "s", .call [n! "Rc", n! "from"] [.path [n! "s"]])])), .call [n! "Ok"] [.tuple []]]⟩

def ty_rcStr_write_thrift : Fn :=
  ⟨n! "write_thrift", [(n! "self", .other), (n! "output", .other)], true, .tuple [], .block [.method (.path [n! "output"]) n! "write_string" [.method
  (.path [n! "self"]) n! "as_ref" []]]⟩

def ty_arcStr_fill_thrift : Fn :=
  ⟨n! "fill_thrift", [(n! "self", .other), (n! "input", .other)], true, .tuple [], .block [.semi (.assign (.deref (.path [n! "self"])) (.select (.try
  (.method (.path [n! "input"]) n! "read_string" [])) [(.con [n! "Cow", n! "Borrowed"] n! "s", .call [n! "Arc", n! "from"] [.path [n! "s"]]), (.con
  [n! "Cow", n! "Owned"] n! "s", .call [n! "Arc", n! "from"] [.path [n! "s"]])])), .call [n! "Ok"] [.tuple []]]⟩

def ty_arcStr_write_thrift : Fn :=
  ⟨n! "write_thrift", [(n! "self", .other), (n! "output", .other)], true, .tuple [], .block [.method (.path [n! "output"]) n! "write_string" [.method
  (.path [n! "self"]) n! "as_ref" []]]⟩

def ty_own_encodingSet_len : Fn :=
  ⟨n! "len", [(n! "self", .other)], false, .int .usize, .block [.cast (.method (.field (.path [n! "self"]) 0) n! "count_ones" []) (some .usize)]⟩

def ty_own_encodingSet_is_empty : Fn :=
  ⟨n! "is_empty", [(n! "self", .other)], false, .other, .block [.bin .eq (.field (.path [n! "self"]) 0) (.lit 0 none)]⟩

def ty_own_encodingSet_iter : Fn :=
  ⟨n! "iter", [(n! "self", .other)], false, .other, .block [.bind (.name n! "mask") (.field (.path [n! "self"]) 0), .call [n! "std", n! "iter", n!
  "from_fn"] [.lambda 0 (.block [.ite (.bin .eq (.path [n! "mask"]) (.lit 0 none)) (.block [.path [n! "None"]]) (some (.block [.bind (.name n!
  "encoding") (.call [n! "Encoding"] [.cast (.method (.path [n! "mask"]) n! "trailing_zeros" []) (some .i32)]), .semi (.assignOp .band (.path [n!
  "mask"]) (.bin .sub (.path [n! "mask"]) (.lit 1 none))), .call [n! "Some"] [.path [n! "encoding"]]]))])]]⟩

def ty_debug_encodingSet_fmt : Fn :=
  ⟨n! "fmt", [(n! "self", .other), (n! "f", .other)], false, .other, .block [.method (.method (.method (.path [n! "f"]) n! "debug_list" []) n!
  "entries" [.method (.path [n! "self"]) n! "iter" []]) n! "finish" []]⟩

def ty_encodingSet_fill_thrift : Fn :=
  ⟨n! "fill_thrift", [(n! "self", .other), (n! "input", .other)], true, .tuple [], .block [.bind (.names [n! "len", n! "element_type"]) (.try (.call
  [n! "read_collection_len_and_type"] [.path [n! "input"]])), .semi (.ite (.bin .ne (.path [n! "element_type"]) (.path [n! "i32", n! "FIELD_TYPE"]))
  (.block [.semi (.ret (some (.call [n! "Err"] [.path [n! "ThriftError", n! "InvalidType"]])))]) none), .bind (.name n! "mask") (.lit 0 (some .u32)),
  .semi (.for .wild (.range (some (.lit 0 none)) (some (.cast (.path [n! "len"]) (some .usize)))) (.block [.bind (.name n! "value") (.try (.method
  (.path [n! "input"]) n! "read_i32" [])), .semi (.ite (.or (.bin .lt (.path [n! "value"]) (.lit 0 none)) (.bin .ge (.path [n! "value"]) (.lit 31
  none))) (.block [.semi (.ret (some (.call [n! "Err"] [.path [n! "ThriftError", n! "InvalidNumber"]])))]) none), .semi (.assignOp .bor (.path [n!
  "mask"]) (.bin .shl (.lit 1 none) (.path [n! "value"])))])), .semi (.assign (.field (.path [n! "self"]) 0) (.path [n! "mask"])), .call [n! "Ok"]
  [.tuple []]]⟩

def ty_encodingSet_write_thrift : Fn :=
  ⟨n! "write_thrift", [(n! "self", .other), (n! "output", .other)], true, .tuple [], .block [.bind (.name n! "len") (.method (.path [n! "self"]) n!
  "len" []), .semi (.ite (.bin .lt (.path [n! "len"]) (.lit 15 none)) (.block [.bind (.name n! "header") (.bin .bor (.path [n! "i32", n!
  "FIELD_TYPE"]) (.bin .shl (.cast (.path [n! "len"]) (some .u8)) (.lit 4 none))), .semi (.try (.method (.path [n! "output"]) n! "write_byte" [.path
  [n! "header"]]))]) (some (.block [.semi (.try (.method (.path [n! "output"]) n! "write_byte" [.bin .bor (.path [n! "i32", n! "FIELD_TYPE"]) (.lit
  240 none)])), .semi (.try (.method (.path [n! "output"]) n! "write_len" [.path [n! "len"]]))]))), .semi (.for (.name n! "item") (.method (.path [n!
  "self"]) n! "iter" []) (.block [.semi (.try (.method (.path [n! "output"]) n! "write_i32" [.field (.path [n! "item"]) 0]))])), .call [n! "Ok"]
  [.tuple []]]⟩

def typesImpls : List Impl := [
  ⟨n! "CompactThriftProtocol", n! "bool", some (.lit 2 none), [ty_bool_fill_thrift, ty_bool_fill_thrift_field, ty_bool_write_thrift, ty_bool_write_thrift_field]⟩,
  ⟨n! "CompactThriftProtocol", n! "i8", some (.lit 3 none), [ty_i8_fill_thrift, ty_i8_write_thrift]⟩,
  ⟨n! "CompactThriftProtocol", n! "i16", some (.lit 4 none), [ty_i16_fill_thrift, ty_i16_write_thrift]⟩,
  ⟨n! "CompactThriftProtocol", n! "i32", some (.lit 5 none), [ty_i32_fill_thrift, ty_i32_write_thrift]⟩,
  ⟨n! "CompactThriftProtocol", n! "i64", some (.lit 6 none), [ty_i64_fill_thrift, ty_i64_write_thrift]⟩,
  ⟨n! "CompactThriftProtocol", n! "f64", some (.lit 7 none), [ty_f64_fill_thrift, ty_f64_write_thrift]⟩,
  ⟨n! "CompactThriftProtocol", n! "Vec<u8>", some (.lit 8 none), [ty_vecU8_fill_thrift, ty_vecU8_write_thrift]⟩,
  ⟨n! "CompactThriftProtocol", n! "String", some (.lit 8 none), [ty_string_fill_thrift, ty_string_write_thrift]⟩,
  ⟨n! "CompactThriftProtocol", n! "Cow<,[u8]>", some (.lit 8 none), [ty_cowBytes_fill_thrift, ty_cowBytes_write_thrift]⟩,
  ⟨n! "CompactThriftProtocol", n! "Cow<,str>", some (.lit 8 none), [ty_cowStr_fill_thrift, ty_cowStr_write_thrift]⟩,
  ⟨n! "CompactThriftProtocol", n! "Vec<P>", some (.lit 9 none), [ty_vec_fill_thrift, ty_vec_write_thrift]⟩,
  ⟨n! "CompactThriftProtocol", n! "Option<P>", some (.path [n! "P", n! "FIELD_TYPE"]), [ty_option_fill_thrift, ty_option_fill_thrift_field, ty_option_write_thrift, ty_option_write_thrift_field]⟩,
  ⟨n! "CompactThriftProtocol", n! "Box<P>", some (.path [n! "P", n! "FIELD_TYPE"]), [ty_box_fill_thrift, ty_box_write_thrift]⟩,
  ⟨n! "CompactThriftProtocol", n! "Rc<P>", some (.path [n! "P", n! "FIELD_TYPE"]), [ty_rc_fill_thrift, ty_rc_write_thrift]⟩,
  ⟨n! "CompactThriftProtocol", n! "Arc<P>", some (.path [n! "P", n! "FIELD_TYPE"]), [ty_arc_fill_thrift, ty_arc_write_thrift]⟩,
  ⟨n! "CompactThriftProtocol", n! "Box<str>", some (.path [n! "String", n! "FIELD_TYPE"]), [ty_boxStr_fill_thrift, ty_boxStr_write_thrift]⟩,
  ⟨n! "CompactThriftProtocol", n! "Rc<str>", some (.path [n! "String", n! "FIELD_TYPE"]), [ty_rcStr_fill_thrift, ty_rcStr_write_thrift]⟩,
  ⟨n! "CompactThriftProtocol", n! "Arc<str>", some (.path [n! "String", n! "FIELD_TYPE"]), [ty_arcStr_fill_thrift, ty_arcStr_write_thrift]⟩]

def encodingsImpls : List Impl := [
  ⟨0, n! "EncodingSet", none, [ty_own_encodingSet_len, ty_own_encodingSet_is_empty, ty_own_encodingSet_iter]⟩,
  ⟨n! "Debug", n! "EncodingSet", none, [ty_debug_encodingSet_fmt]⟩,
  ⟨n! "CompactThriftProtocol", n! "EncodingSet", some (.lit 9 none), [ty_encodingSet_fill_thrift, ty_encodingSet_write_thrift]⟩]

end CT.Rs
