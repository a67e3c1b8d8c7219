import Verif.Model.PqSyntax
/-!
# The functions of parquet/src/lib.rs and parquet/src/bin/schema.rs as syntax

Produced by a script from what `parseText` returns; `C112_text` and `C113_text` state that it does.
-/
namespace CT.Pq
open CT.Rs

def pq_ParquetError_from_IOError : Fn :=
  ⟨(n! "from"), [((n! "value"), .other)], .block [.call [(n! "ParquetError"), (n! "Io")] [.path [(n! "value")]]]⟩

def pq_ParquetError_from_ThriftError : Fn :=
  ⟨(n! "from"), [((n! "value"), .other)], .block [.call [(n! "ParquetError"), (n! "Thrift")] [.path [(n! "value")]]]⟩

def pq_get_metadata_chunk : Fn :=
  ⟨(n! "get_metadata_chunk"), [((n! "input"), .other)], .block [.bind (.name (n! "_pos")) (.try (.method (.path [(n! "input")]) (n! "seek") [.call
  [(n! "SeekFrom"), (n! "End")] [.neg (.lit 8 none)]])), .bind (.name (n! "footer")) (.fill (.lit 0 (some .u8)) 8), .semi (.try (.method (.path [(n!
  "input")]) (n! "read_exact") [.ref true (.path [(n! "footer")])])), .semi (.ite (.bin .ne (.index (.path [(n! "footer")]) (.range (some (.lit 4
  none)) none)) (.path [(n! "PARQUET_MAGIC")])) (.block [.semi (.ret (some (.call [(n! "Err")] [.path [(n! "ParquetError"), (n! "InvalidMagic")]])))])
  none), .bind (.name (n! "metadata_len")) (.cast (.call [(n! "u32"), (n! "from_le_bytes")] [.method (.method (.index (.path [(n! "footer")]) (.range
  (some (.lit 0 none)) (some (.lit 4 none)))) (n! "try_into") []) (n! "unwrap") []]) (some .usize)), .semi (.try (.method (.path [(n! "input")]) (n!
  "seek") [.call [(n! "SeekFrom"), (n! "End")] [.bin .sub (.neg (.cast (.path [(n! "metadata_len")]) (some .i64))) (.lit 8 none)]])), .bind (.name (n!
  "buf")) (.call [(n! "Vec"), (n! "with_capacity")] [.path [(n! "metadata_len")]]), .semi (.block [.semi (.method (.path [(n! "buf")]) (n! "set_len")
  [.path [(n! "metadata_len")]])]), .semi (.try (.method (.path [(n! "input")]) (n! "read_exact") [.ref true (.path [(n! "buf")])])), .call [(n!
  "Ok")] [.path [(n! "buf")]]]⟩

def pq_get_page_index_range : Fn :=
  ⟨(n! "get_page_index_range"), [((n! "file_metadata"), .other)], .block [.bind (.name (n! "min")) (.path [(n! "usize"), (n! "MAX")]), .bind (.name
  (n! "max")) (.lit 0 (some .usize)), .semi (.for (.name (n! "rg")) (.ref false (.field (.path [(n! "file_metadata")]) (n! "row_groups"))) (.block
  [.for (.name (n! "c")) (.ref false (.field (.path [(n! "rg")]) (n! "columns"))) (.block [.iteLet (.tuple [.con [(n! "Some")] [.name (n! "oo")], .con
  [(n! "Some")] [.name (n! "ol")], .con [(n! "Some")] [.name (n! "co")], .con [(n! "Some")] [.name (n! "cl")]]) (.tuple [.field (.path [(n! "c")]) (n!
  "offset_index_offset"), .field (.path [(n! "c")]) (n! "offset_index_length"), .field (.path [(n! "c")]) (n! "column_index_offset"), .field (.path
  [(n! "c")]) (n! "column_index_length")]) (.block [.semi (.ite (.or (.or (.or (.bin .lt (.path [(n! "oo")]) (.lit 0 none)) (.bin .lt (.path [(n!
  "ol")]) (.lit 0 none))) (.bin .lt (.path [(n! "co")]) (.lit 0 none))) (.bin .lt (.path [(n! "cl")]) (.lit 0 none))) (.block [.semi (.ret (some
  (.call [(n! "Err")] [.path [(n! "ParquetError"), (n! "InvalidOffset")]])))]) none), .semi (.assign (.path [(n! "min")]) (.method (.path [(n!
  "min")]) (n! "min") [.cast (.path [(n! "oo")]) (some .usize)])), .semi (.assign (.path [(n! "max")]) (.method (.path [(n! "max")]) (n! "max") [.bin
  .add (.cast (.path [(n! "oo")]) (some .usize)) (.cast (.path [(n! "ol")]) (some .usize))])), .semi (.assign (.path [(n! "min")]) (.method (.path
  [(n! "min")]) (n! "min") [.cast (.path [(n! "co")]) (some .usize)])), .semi (.assign (.path [(n! "max")]) (.method (.path [(n! "max")]) (n! "max")
  [.bin .add (.cast (.path [(n! "co")]) (some .usize)) (.cast (.path [(n! "cl")]) (some .usize))]))]) none])])), .ite (.bin .lt (.path [(n! "min")])
  (.path [(n! "max")])) (.block [.call [(n! "Ok")] [.call [(n! "Some")] [.range (some (.path [(n! "min")])) (some (.path [(n! "max")]))]]]) (some
  (.block [.call [(n! "Ok")] [.path [(n! "None")]]]))]⟩

def pq_get_page_index_chunk : Fn :=
  ⟨(n! "get_page_index_chunk"), [((n! "input"), .other), ((n! "file_metadata"), .other)], .block [.iteLet (.con [(n! "Some")] [.name (n! "range")])
  (.try (.call [(n! "get_page_index_range")] [.path [(n! "file_metadata")]])) (.block [.semi (.try (.method (.path [(n! "input")]) (n! "seek") [.call
  [(n! "SeekFrom"), (n! "Start")] [.cast (.field (.path [(n! "range")]) (n! "start")) (some .u64)]])), .bind (.name (n! "buf")) (.call [(n! "Vec"),
  (n! "with_capacity")] [.method (.path [(n! "range")]) (n! "len") []]), .semi (.block [.semi (.method (.path [(n! "buf")]) (n! "set_len") [.method
  (.path [(n! "range")]) (n! "len") []])]), .semi (.try (.method (.path [(n! "input")]) (n! "read_exact") [.ref true (.path [(n! "buf")])])), .call
  [(n! "Ok")] [.call [(n! "Some")] [.tuple [.path [(n! "buf")], .path [(n! "range")]]]]]) (some (.block [.call [(n! "Ok")] [.path [(n! "None")]]]))]⟩

def pq_read_page_index_for_column_chunk : Fn :=
  ⟨(n! "read_page_index_for_column_chunk"), [((n! "chunk"), .other), ((n! "chunk_offset"), .int .usize), ((n! "column_chunks"), .other)], .block
  [.method (.method (.method (.path [(n! "column_chunks")]) (n! "iter") []) (n! "map") [.lambda (n! "cc") (.block [.bind (.name (n!
  "offset_index_range")) (.iteLet (.tuple [.con [(n! "Some")] [.name (n! "offset")], .con [(n! "Some")] [.name (n! "length")]]) (.tuple [.field (.path
  [(n! "cc")]) (n! "offset_index_offset"), .field (.path [(n! "cc")]) (n! "offset_index_length")]) (.block [.semi (.mac (n! "assert") [.bin .ge (.cast
  (.path [(n! "offset")]) (some .usize)) (.path [(n! "chunk_offset")])]), .semi (.mac (n! "assert") [.bin .gt (.path [(n! "length")]) (.lit 0 none)]),
  .bind (.name (n! "start")) (.bin .sub (.cast (.path [(n! "offset")]) (some .usize)) (.path [(n! "chunk_offset")])), .range (some (.path [(n!
  "start")])) (some (.bin .add (.path [(n! "start")]) (.cast (.path [(n! "length")]) (some .usize))))]) (some (.block [.ret (some (.call [(n! "Ok")]
  [.path [(n! "None")]]))]))), .bind (.name (n! "column_index_range")) (.iteLet (.tuple [.con [(n! "Some")] [.name (n! "offset")], .con [(n! "Some")]
  [.name (n! "length")]]) (.tuple [.field (.path [(n! "cc")]) (n! "column_index_offset"), .field (.path [(n! "cc")]) (n! "column_index_length")])
  (.block [.semi (.mac (n! "assert") [.bin .ge (.cast (.path [(n! "offset")]) (some .usize)) (.path [(n! "chunk_offset")])]), .semi (.mac (n!
  "assert") [.bin .gt (.path [(n! "length")]) (.lit 0 none)]), .bind (.name (n! "start")) (.bin .sub (.cast (.path [(n! "offset")]) (some .usize))
  (.path [(n! "chunk_offset")])), .range (some (.path [(n! "start")])) (some (.bin .add (.path [(n! "start")]) (.cast (.path [(n! "length")]) (some
  .usize))))]) (some (.block [.ret (some (.call [(n! "Ok")] [.path [(n! "None")]]))]))), .bind (.name (n! "res")) (.call [(n! "Ok")] [.call [(n!
  "Some")] [.tuple [.call [(n! "OffsetIndex"), (n! "default")] [], .call [(n! "ColumnIndex"), (n! "default")] []]]]), .semi (.select (.ref true (.path
  [(n! "res")])) [(.con [(n! "Ok")] [.con [(n! "Some")] [.tuple [.name (n! "offset_index"), .name (n! "column_index")]]], .block [.semi (.try (.method
  (.path [(n! "offset_index")]) (n! "fill_thrift") [.ref true (.call [(n! "CompactThriftInputSlice"), (n! "new")] [.ref false (.index (.path [(n!
  "chunk")]) (.path [(n! "offset_index_range")]))])])), .semi (.try (.method (.path [(n! "column_index")]) (n! "fill_thrift") [.ref true (.call [(n!
  "CompactThriftInputSlice"), (n! "new")] [.ref false (.index (.path [(n! "chunk")]) (.path [(n! "column_index_range")]))])]))]), (.wild, .block
  [.call [(n! "unreachable_unchecked")] []])]), .path [(n! "res")]])]) (n! "collect") []]⟩

def pq_read_page_index : Fn :=
  ⟨(n! "read_page_index"), [((n! "chunk"), .other), ((n! "chunk_offset"), .int .usize), ((n! "file_metadata"), .other)], .block [.method (.method
  (.method (.field (.path [(n! "file_metadata")]) (n! "row_groups")) (n! "iter") []) (n! "map") [.lambda (n! "rg") (.block [.call [(n!
  "read_page_index_for_column_chunk")] [.path [(n! "chunk")], .path [(n! "chunk_offset")], .ref false (.field (.path [(n! "rg")]) (n! "columns"))]])])
  (n! "collect") []]⟩

def pq_PhysicalType_try_from_schema_element : Fn :=
  ⟨(n! "try_from_schema_element"), [((n! "element_type"), .other), ((n! "type_length"), .other)], .block [.select (.path [(n! "element_type")])
  [(.const [(n! "Type"), (n! "BOOLEAN")], .call [(n! "Ok")] [.path [(n! "PhysicalType"), (n! "BOOLEAN")]]), (.const [(n! "Type"), (n! "BYTE_ARRAY")],
  .call [(n! "Ok")] [.path [(n! "PhysicalType"), (n! "BYTE_ARRAY")]]), (.const [(n! "Type"), (n! "INT32")], .call [(n! "Ok")] [.path [(n!
  "PhysicalType"), (n! "INT32")]]), (.const [(n! "Type"), (n! "INT64")], .call [(n! "Ok")] [.path [(n! "PhysicalType"), (n! "INT64")]]), (.const [(n!
  "Type"), (n! "INT96")], .call [(n! "Ok")] [.path [(n! "PhysicalType"), (n! "INT96")]]), (.const [(n! "Type"), (n! "FLOAT")], .call [(n! "Ok")]
  [.path [(n! "PhysicalType"), (n! "FLOAT")]]), (.const [(n! "Type"), (n! "DOUBLE")], .call [(n! "Ok")] [.path [(n! "PhysicalType"), (n! "DOUBLE")]]),
  (.const [(n! "Type"), (n! "FIXED_LEN_BYTE_ARRAY")], .block [.bind (.name (n! "len")) (.try (.method (.path [(n! "type_length")]) (n! "ok_or") [.call
  [(n! "ParquetError"), (n! "Schema")] [.str (n! "Missing length for FIXED_LEN_BYTE_ARRAY type")]])), .semi (.ite (.bin .le (.path [(n! "len")]) (.lit
  0 none)) (.block [.semi (.ret (some (.call [(n! "Err")] [.call [(n! "ParquetError"), (n! "Schema")] [.str (n!
  "Invalid length for FIXED_LEN_BYTE_ARRAY type")]])))]) none), .call [(n! "Ok")] [.call [(n! "PhysicalType"), (n! "FIXED_LEN_BYTE_ARRAY")] [.cast
  (.path [(n! "len")]) (some .u32)]]]), (.con [(n! "Type")] [.name (n! "id")], .call [(n! "Err")] [.call [(n! "ParquetError"), (n! "UnknownType")]
  [.path [(n! "id")]]])]]⟩

def pq_SchemaTimeUnit_from_TimeUnit : Fn :=
  ⟨(n! "from"), [((n! "time_unit"), .other)], .block [.select (.path [(n! "time_unit")]) [(.con [(n! "TimeUnit"), (n! "MILLIS")] [.wild], .path [(n!
  "SchemaTimeUnit"), (n! "Millis")]), (.con [(n! "TimeUnit"), (n! "MICROS")] [.wild], .path [(n! "SchemaTimeUnit"), (n! "Micros")]), (.con [(n!
  "TimeUnit"), (n! "NANOS")] [.wild], .path [(n! "SchemaTimeUnit"), (n! "Nanos")])]]⟩

def pq_TimeUnit_from_SchemaTimeUnit : Fn :=
  ⟨(n! "from"), [((n! "value"), .other)], .block [.select (.path [(n! "value")]) [(.const [(n! "SchemaTimeUnit"), (n! "Millis")], .call [(n!
  "TimeUnit"), (n! "MILLIS")] [.record [(n! "MilliSeconds")] []]), (.const [(n! "SchemaTimeUnit"), (n! "Micros")], .call [(n! "TimeUnit"), (n!
  "MICROS")] [.record [(n! "MicroSeconds")] []]), (.const [(n! "SchemaTimeUnit"), (n! "Nanos")], .call [(n! "TimeUnit"), (n! "NANOS")] [.record [(n!
  "NanoSeconds")] []])]]⟩

def pq_TimeOptions_from_TimeType : Fn :=
  ⟨(n! "from"), [((n! "time_type"), .other)], .block [.record [(n! "TimeOptions")] [((n! "is_adjusted_to_utc"), .field (.path [(n! "time_type")]) (n!
  "isAdjustedToUTC")), ((n! "time_unit"), .method (.method (.field (.path [(n! "time_type")]) (n! "unit")) (n! "clone") []) (n! "into") [])]]⟩

def pq_TimeOptions_from_TimestampType : Fn :=
  ⟨(n! "from"), [((n! "timestamp_type"), .other)], .block [.record [(n! "TimeOptions")] [((n! "is_adjusted_to_utc"), .field (.path [(n!
  "timestamp_type")]) (n! "isAdjustedToUTC")), ((n! "time_unit"), .method (.method (.field (.path [(n! "timestamp_type")]) (n! "unit")) (n! "clone")
  []) (n! "into") [])]]⟩

def pq_DecimalOptions_try_new : Fn :=
  ⟨(n! "try_new"), [((n! "precision"), .int .i32), ((n! "scale"), .int .i32)], .block [.semi (.ite (.or (.bin .le (.path [(n! "precision")]) (.lit 0
  none)) (.bin .gt (.path [(n! "precision")]) (.lit 127 none))) (.block [.semi (.ret (some (.call [(n! "Err")] [.call [(n! "ParquetError"), (n!
  "Schema")] [.str (n! "Invalid precision for Decimal type")]])))]) none), .semi (.ite (.or (.bin .lt (.path [(n! "scale")]) (.neg (.lit 128 none)))
  (.bin .gt (.path [(n! "scale")]) (.path [(n! "precision")]))) (.block [.semi (.ret (some (.call [(n! "Err")] [.call [(n! "ParquetError"), (n!
  "Schema")] [.str (n! "Invalid scale for Decimal type")]])))]) none), .call [(n! "Ok")] [.record [(n! "DecimalOptions")] [((n! "precision"), .cast
  (.path [(n! "precision")]) (some .u8)), ((n! "scale"), .cast (.path [(n! "scale")]) (some .i8))]]]⟩

def pq_DecimalOptions_try_from_DecimalType : Fn :=
  ⟨(n! "try_from"), [((n! "decimal_type"), .other)], .block [.call [(n! "DecimalOptions"), (n! "try_new")] [.field (.path [(n! "decimal_type")]) (n!
  "precision"), .field (.path [(n! "decimal_type")]) (n! "scale")]]⟩

def pq_IntegerOptions_fmt : Fn :=
  ⟨(n! "fmt"), [((n! "self"), .other), ((n! "f"), .other)], .block [.bind (.name (n! "signed")) (.ite (.field (.path [(n! "self")]) (n! "is_signed"))
  (.block [.chr 105]) (some (.block [.chr 117]))), .method (.path [(n! "f")]) (n! "write_fmt") [.mac (n! "format_args") [.str (n! "{}{}"), .path [(n!
  "signed")], .field (.path [(n! "self")]) (n! "bitwidth")]]]⟩

def pq_IntegerOptions_try_from_IntType : Fn :=
  ⟨(n! "try_from"), [((n! "int_type"), .other)], .block [.semi (.ite (.bin .le (.field (.path [(n! "int_type")]) (n! "bitWidth")) (.lit 0 none))
  (.block [.semi (.ret (some (.call [(n! "Err")] [.call [(n! "ParquetError"), (n! "Schema")] [.str (n! "Invalid bitwidth for Integer type")]])))])
  none), .call [(n! "Ok")] [.record [(n! "IntegerOptions")] [((n! "bitwidth"), .cast (.field (.path [(n! "int_type")]) (n! "bitWidth")) (some .u8)),
  ((n! "is_signed"), .field (.path [(n! "int_type")]) (n! "isSigned"))]]]⟩

def pq_PrimitiveLogicalType_try_from_converted_type : Fn :=
  ⟨(n! "try_from_converted_type"), [((n! "converted_type"), .other), ((n! "precision"), .other), ((n! "scale"), .other), ((n! "_type_length"),
  .other)], .block [.select (.deref (.path [(n! "converted_type")])) [(.const [(n! "ConvertedType"), (n! "UTF8")], .call [(n! "Ok")] [.path [(n!
  "PrimitiveLogicalType"), (n! "String")]]), (.const [(n! "ConvertedType"), (n! "ENUM")], .call [(n! "Ok")] [.path [(n! "PrimitiveLogicalType"), (n!
  "Enum")]]), (.const [(n! "ConvertedType"), (n! "DATE")], .call [(n! "Ok")] [.path [(n! "PrimitiveLogicalType"), (n! "Date")]]), (.const [(n!
  "ConvertedType"), (n! "JSON")], .call [(n! "Ok")] [.path [(n! "PrimitiveLogicalType"), (n! "Json")]]), (.const [(n! "ConvertedType"), (n! "BSON")],
  .call [(n! "Ok")] [.path [(n! "PrimitiveLogicalType"), (n! "Bson")]]), (.const [(n! "ConvertedType"), (n! "DECIMAL")], .block [.bind (.name (n!
  "precision")) (.try (.method (.path [(n! "precision")]) (n! "ok_or") [.call [(n! "ParquetError"), (n! "Schema")] [.str (n!
  "Missing precision for decimal type")]])), .bind (.name (n! "scale")) (.try (.method (.path [(n! "scale")]) (n! "ok_or") [.call [(n!
  "ParquetError"), (n! "Schema")] [.str (n! "Missing scale for decimal type")]])), .bind (.name (n! "options")) (.try (.call [(n! "DecimalOptions"),
  (n! "try_from")] [.ref false (.record [(n! "DecimalType")] [((n! "precision"), .path [(n! "precision")]), ((n! "scale"), .path [(n! "scale")])])])),
  .call [(n! "Ok")] [.call [(n! "PrimitiveLogicalType"), (n! "Decimal")] [.path [(n! "options")]]]]), (.const [(n! "ConvertedType"), (n!
  "TIME_MICROS")], .call [(n! "Ok")] [.call [(n! "PrimitiveLogicalType"), (n! "Time")] [.record [(n! "TimeOptions")] [((n! "time_unit"), .path [(n!
  "SchemaTimeUnit"), (n! "Micros")]), ((n! "is_adjusted_to_utc"), .bool true)]]]), (.const [(n! "ConvertedType"), (n! "TIME_MILLIS")], .call [(n!
  "Ok")] [.call [(n! "PrimitiveLogicalType"), (n! "Time")] [.record [(n! "TimeOptions")] [((n! "time_unit"), .path [(n! "SchemaTimeUnit"), (n!
  "Millis")]), ((n! "is_adjusted_to_utc"), .bool true)]]]), (.const [(n! "ConvertedType"), (n! "TIMESTAMP_MICROS")], .call [(n! "Ok")] [.call [(n!
  "PrimitiveLogicalType"), (n! "Timestamp")] [.record [(n! "TimeOptions")] [((n! "time_unit"), .path [(n! "SchemaTimeUnit"), (n! "Micros")]), ((n!
  "is_adjusted_to_utc"), .bool true)]]]), (.const [(n! "ConvertedType"), (n! "TIMESTAMP_MILLIS")], .call [(n! "Ok")] [.call [(n!
  "PrimitiveLogicalType"), (n! "Timestamp")] [.record [(n! "TimeOptions")] [((n! "time_unit"), .path [(n! "SchemaTimeUnit"), (n! "Millis")]), ((n!
  "is_adjusted_to_utc"), .bool true)]]]), (.const [(n! "ConvertedType"), (n! "INTERVAL")], .call [(n! "Ok")] [.path [(n! "PrimitiveLogicalType"), (n!
  "Interval")]]), (.const [(n! "ConvertedType"), (n! "INT_8")], .call [(n! "Ok")] [.call [(n! "PrimitiveLogicalType"), (n! "Integer")] [.record [(n!
  "IntegerOptions")] [((n! "bitwidth"), .lit 8 none), ((n! "is_signed"), .bool true)]]]), (.const [(n! "ConvertedType"), (n! "INT_16")], .call [(n!
  "Ok")] [.call [(n! "PrimitiveLogicalType"), (n! "Integer")] [.record [(n! "IntegerOptions")] [((n! "bitwidth"), .lit 16 none), ((n! "is_signed"),
  .bool true)]]]), (.const [(n! "ConvertedType"), (n! "INT_32")], .call [(n! "Ok")] [.call [(n! "PrimitiveLogicalType"), (n! "Integer")] [.record [(n!
  "IntegerOptions")] [((n! "bitwidth"), .lit 32 none), ((n! "is_signed"), .bool true)]]]), (.const [(n! "ConvertedType"), (n! "INT_64")], .call [(n!
  "Ok")] [.call [(n! "PrimitiveLogicalType"), (n! "Integer")] [.record [(n! "IntegerOptions")] [((n! "bitwidth"), .lit 64 none), ((n! "is_signed"),
  .bool true)]]]), (.const [(n! "ConvertedType"), (n! "UINT_8")], .call [(n! "Ok")] [.call [(n! "PrimitiveLogicalType"), (n! "Integer")] [.record [(n!
  "IntegerOptions")] [((n! "bitwidth"), .lit 8 none), ((n! "is_signed"), .bool false)]]]), (.const [(n! "ConvertedType"), (n! "UINT_16")], .call [(n!
  "Ok")] [.call [(n! "PrimitiveLogicalType"), (n! "Integer")] [.record [(n! "IntegerOptions")] [((n! "bitwidth"), .lit 16 none), ((n! "is_signed"),
  .bool false)]]]), (.const [(n! "ConvertedType"), (n! "UINT_32")], .call [(n! "Ok")] [.call [(n! "PrimitiveLogicalType"), (n! "Integer")] [.record
  [(n! "IntegerOptions")] [((n! "bitwidth"), .lit 32 none), ((n! "is_signed"), .bool false)]]]), (.const [(n! "ConvertedType"), (n! "UINT_64")], .call
  [(n! "Ok")] [.call [(n! "PrimitiveLogicalType"), (n! "Integer")] [.record [(n! "IntegerOptions")] [((n! "bitwidth"), .lit 64 none), ((n!
  "is_signed"), .bool false)]]]), (.alt (.const [(n! "ConvertedType"), (n! "MAP")]) (.const [(n! "ConvertedType"), (n! "LIST")]), .call [(n! "Err")]
  [.call [(n! "ParquetError"), (n! "Schema")] [.str (n! "Unsupported map or list converted type for primitive")]]), (.con [(n! "ConvertedType")]
  [.name (n! "id")], .call [(n! "Err")] [.call [(n! "ParquetError"), (n! "UnknownType")] [.path [(n! "id")]]])]]⟩

def pq_PrimitiveLogicalType_try_from_logical_type : Fn :=
  ⟨(n! "try_from_logical_type"), [((n! "logical_type"), .other)], .block [.call [(n! "PrimitiveLogicalType"), (n! "try_from")] [.path [(n!
  "logical_type")]]]⟩

def pq_PrimitiveLogicalType_precision : Fn :=
  ⟨(n! "precision"), [((n! "self"), .other)], .block [.select (.path [(n! "self")]) [(.con [(n! "PrimitiveLogicalType"), (n! "Decimal")] [.record [(n!
  "DecimalOptions")] [((n! "precision"), .name (n! "precision"))]], .block [.call [(n! "Some")] [.cast (.deref (.path [(n! "precision")])) none]]),
  (.wild, .path [(n! "None")])]]⟩

def pq_PrimitiveLogicalType_scale : Fn :=
  ⟨(n! "scale"), [((n! "self"), .other)], .block [.select (.path [(n! "self")]) [(.con [(n! "PrimitiveLogicalType"), (n! "Decimal")] [.record [(n!
  "DecimalOptions")] [((n! "scale"), .name (n! "scale"))]], .call [(n! "Some")] [.cast (.deref (.path [(n! "scale")])) none]), (.wild, .path [(n!
  "None")])]]⟩

def pq_PrimitiveLogicalType_try_from_LogicalType : Fn :=
  ⟨(n! "try_from"), [((n! "logical_type"), .other)], .block [.select (.path [(n! "logical_type")]) [(.con [(n! "LogicalType"), (n! "STRING")] [.wild],
  .call [(n! "Ok")] [.path [(n! "PrimitiveLogicalType"), (n! "String")]]), (.con [(n! "LogicalType"), (n! "ENUM")] [.wild], .call [(n! "Ok")] [.path
  [(n! "PrimitiveLogicalType"), (n! "Enum")]]), (.con [(n! "LogicalType"), (n! "DECIMAL")] [.name (n! "decimal_type")], .call [(n! "Ok")] [.call [(n!
  "PrimitiveLogicalType"), (n! "Decimal")] [.try (.call [(n! "DecimalOptions"), (n! "try_from")] [.path [(n! "decimal_type")]])]]), (.con [(n!
  "LogicalType"), (n! "DATE")] [.wild], .call [(n! "Ok")] [.path [(n! "PrimitiveLogicalType"), (n! "Date")]]), (.con [(n! "LogicalType"), (n! "TIME")]
  [.name (n! "time_type")], .call [(n! "Ok")] [.call [(n! "PrimitiveLogicalType"), (n! "Time")] [.method (.path [(n! "time_type")]) (n! "into") []]]),
  (.con [(n! "LogicalType"), (n! "TIMESTAMP")] [.name (n! "timestamp_type")], .block [.call [(n! "Ok")] [.call [(n! "PrimitiveLogicalType"), (n!
  "Timestamp")] [.method (.path [(n! "timestamp_type")]) (n! "into") []]]]), (.con [(n! "LogicalType"), (n! "INTEGER")] [.name (n! "int_type")], .call
  [(n! "Ok")] [.call [(n! "PrimitiveLogicalType"), (n! "Integer")] [.try (.call [(n! "IntegerOptions"), (n! "try_from")] [.path [(n!
  "int_type")]])]]), (.con [(n! "LogicalType"), (n! "UNKNOWN")] [.wild], .call [(n! "Ok")] [.path [(n! "PrimitiveLogicalType"), (n! "Unknown")]]),
  (.con [(n! "LogicalType"), (n! "JSON")] [.wild], .call [(n! "Ok")] [.path [(n! "PrimitiveLogicalType"), (n! "Json")]]), (.con [(n! "LogicalType"),
  (n! "BSON")] [.wild], .call [(n! "Ok")] [.path [(n! "PrimitiveLogicalType"), (n! "Bson")]]), (.con [(n! "LogicalType"), (n! "UUID")] [.wild], .call
  [(n! "Ok")] [.path [(n! "PrimitiveLogicalType"), (n! "UUID")]]), (.con [(n! "LogicalType"), (n! "FLOAT16")] [.wild], .call [(n! "Ok")] [.path [(n!
  "PrimitiveLogicalType"), (n! "Float16")]]), (.con [(n! "LogicalType"), (n! "GEOMETRY")] [.record [(n! "GeometryType")] [((n! "crs"), .wild)]], .call
  [(n! "Ok")] [.path [(n! "PrimitiveLogicalType"), (n! "Geometry")]]), (.con [(n! "LogicalType"), (n! "GEOGRAPHY")] [.record [(n! "GeographyType")]
  [((n! "crs"), .wild), ((n! "algorithm"), .wild)]], .call [(n! "Ok")] [.path [(n! "PrimitiveLogicalType"), (n! "Geography")]]), (.alt (.con [(n!
  "LogicalType"), (n! "MAP")] [.wild]) (.con [(n! "LogicalType"), (n! "LIST")] [.wild]), .call [(n! "Err")] [.call [(n! "ParquetError"), (n!
  "Schema")] [.str (n! "Unsupported map or list logical type for primitive")]]), (.con [(n! "LogicalType"), (n! "VARIANT")] [.wild], .call [(n!
  "Err")] [.call [(n! "ParquetError"), (n! "Schema")] [.str (n! "Unsupported variant logical type for primitive")]])]]⟩

def pq_GroupLogicalType_try_from_LogicalType : Fn :=
  ⟨(n! "try_from"), [((n! "value"), .other)], .block [.select (.path [(n! "value")]) [(.con [(n! "LogicalType"), (n! "MAP")] [.wild], .call [(n!
  "Ok")] [.path [(n! "GroupLogicalType"), (n! "Map")]]), (.con [(n! "LogicalType"), (n! "LIST")] [.wild], .call [(n! "Ok")] [.path [(n!
  "GroupLogicalType"), (n! "List")]]), (.con [(n! "LogicalType"), (n! "VARIANT")] [.record [(n! "VariantType")] [((n! "specification_version"), .name
  (n! "specification_version"))]], .call [(n! "Ok")] [.record [(n! "GroupLogicalType"), (n! "Variant")] [((n! "specification_version"), .deref (.path
  [(n! "specification_version")]))]]), (.wild, .call [(n! "Err")] [.call [(n! "ParquetError"), (n! "Schema")] [.str (n!
  "Unsupported logical type for group")]])]]⟩

def pq_GroupLogicalType_try_from_ConvertedType : Fn :=
  ⟨(n! "try_from"), [((n! "value"), .other)], .block [.select (.deref (.path [(n! "value")])) [(.const [(n! "ConvertedType"), (n! "MAP")], .call [(n!
  "Ok")] [.path [(n! "GroupLogicalType"), (n! "Map")]]), (.const [(n! "ConvertedType"), (n! "LIST")], .call [(n! "Ok")] [.path [(n!
  "GroupLogicalType"), (n! "List")]]), (.const [(n! "ConvertedType"), (n! "MAP_KEY_VALUE")], .call [(n! "Ok")] [.path [(n! "GroupLogicalType"), (n!
  "MapKeyValue")]]), (.wild, .call [(n! "Err")] [.call [(n! "ParquetError"), (n! "Schema")] [.str (n! "Unsupported converted type for group")]])]]⟩

def pq_RepetitionType_fmt : Fn :=
  ⟨(n! "fmt"), [((n! "self"), .other), ((n! "f"), .other)], .block [.select (.path [(n! "self")]) [(.const [(n! "RepetitionType"), (n! "Required")],
  .method (.path [(n! "f")]) (n! "write_str") [.str (n! "REQUIRED")]), (.const [(n! "RepetitionType"), (n! "Optional")], .method (.path [(n! "f")])
  (n! "write_str") [.str (n! "OPTIONAL")]), (.const [(n! "RepetitionType"), (n! "Repeated")], .method (.path [(n! "f")]) (n! "write_str") [.str (n!
  "REPEATED")])]]⟩

def pq_RepetitionType_try_from_FieldRepetitionType : Fn :=
  ⟨(n! "try_from"), [((n! "repetition_type"), .other)], .block [.select (.deref (.path [(n! "repetition_type")])) [(.const [(n!
  "FieldRepetitionType"), (n! "REQUIRED")], .call [(n! "Ok")] [.path [(n! "RepetitionType"), (n! "Required")]]), (.const [(n! "FieldRepetitionType"),
  (n! "OPTIONAL")], .call [(n! "Ok")] [.path [(n! "RepetitionType"), (n! "Optional")]]), (.const [(n! "FieldRepetitionType"), (n! "REPEATED")], .call
  [(n! "Ok")] [.path [(n! "RepetitionType"), (n! "Repeated")]]), (.con [(n! "FieldRepetitionType")] [.name (n! "id")], .call [(n! "Err")] [.call [(n!
  "ParquetError"), (n! "UnknownType")] [.path [(n! "id")]]])]]⟩

def pq_FieldId_from_i32 : Fn :=
  ⟨(n! "from"), [((n! "value"), .int .i32)], .block [.call [(n! "FieldId")] [.method (.path [(n! "value")]) (n! "to_ne_bytes") []]]⟩

def pq_i32_from_FieldId : Fn :=
  ⟨(n! "from"), [((n! "value"), .other)], .block [.call [(n! "i32"), (n! "from_ne_bytes")] [.field (.path [(n! "value")]) (n! "0")]]⟩

def pq_SchemaField_find_field_by_path : Fn :=
  ⟨(n! "find_field_by_path"), [((n! "self"), .other), ((n! "path"), .other)], .block [.iteLet (.con [(n! "Some")] [.tuple [.name (n! "name"), .name
  (n! "remainder")]]) (.method (.path [(n! "path")]) (n! "split_first") []) (.block [.select (.path [(n! "self")]) [(.con [(n! "SchemaField"), (n!
  "Group")] [.name (n! "field")], .method (.method (.method (.field (.path [(n! "field")]) (n! "children")) (n! "iter") []) (n! "find") [.lambda (n!
  "child") (.bin .eq (.method (.path [(n! "child")]) (n! "name") []) (.deref (.path [(n! "name")])))]) (n! "and_then") [.lambda (n! "child") (.method
  (.path [(n! "child")]) (n! "find_field_by_path") [.path [(n! "remainder")]])]), (.con [(n! "SchemaField"), (n! "Primitive")] [.wild], .block [.path
  [(n! "None")]])]]) (some (.block [.call [(n! "Some")] [.path [(n! "self")]]]))]⟩

def pq_SchemaField_common : Fn :=
  ⟨(n! "common"), [((n! "self"), .other)], .block [.select (.path [(n! "self")]) [(.con [(n! "SchemaField"), (n! "Group")] [.name (n! "field")], .ref
  false (.field (.path [(n! "field")]) (n! "common"))), (.con [(n! "SchemaField"), (n! "Primitive")] [.name (n! "field")], .ref false (.field (.path
  [(n! "field")]) (n! "common")))]]⟩

def pq_SchemaField_name : Fn :=
  ⟨(n! "name"), [((n! "self"), .other)], .block [.method (.field (.method (.path [(n! "self")]) (n! "common") []) (n! "name")) (n! "as_str") []]⟩

def pq_SchemaField_definition_level : Fn :=
  ⟨(n! "definition_level"), [((n! "self"), .other)], .block [.field (.method (.path [(n! "self")]) (n! "common") []) (n! "def_level")]⟩

def pq_SchemaField_repetition_level : Fn :=
  ⟨(n! "repetition_level"), [((n! "self"), .other)], .block [.field (.method (.path [(n! "self")]) (n! "common") []) (n! "rep_level")]⟩

def pq_SchemaField_is_optional : Fn :=
  ⟨(n! "is_optional"), [((n! "self"), .other)], .block [.bin .eq (.field (.method (.path [(n! "self")]) (n! "common") []) (n! "repetition")) (.path
  [(n! "RepetitionType"), (n! "Optional")])]⟩

def pq_field_from_schema_element : Fn :=
  ⟨(n! "field_from_schema_element"), [((n! "element"), .other), ((n! "index"), .mutInt .usize), ((n! "def_level"), .int .u8), ((n! "rep_level"), .int
  .u8), ((n! "remaining_elements"), .int .usize)], .block [.bind (.name (n! "repetition")) (.method (.try (.method (.method (.field (.path [(n!
  "element")]) (n! "repetition_type")) (n! "map") [.lambda (n! "rt") (.call [(n! "RepetitionType"), (n! "try_from")] [.ref false (.path [(n!
  "rt")])])]) (n! "transpose") [])) (n! "unwrap_or") [.path [(n! "RepetitionType"), (n! "Required")]]), .bind (.name (n! "common")) (.record [(n!
  "CommonField")] [((n! "name"), .method (.field (.path [(n! "element")]) (n! "name")) (n! "clone") []), ((n! "field_id"), .method (.field (.path [(n!
  "element")]) (n! "field_id")) (n! "map") [.path [(n! "FieldId"), (n! "from")]]), ((n! "repetition"), .path [(n! "repetition")]), ((n! "def_level"),
  .path [(n! "def_level")]), ((n! "rep_level"), .path [(n! "rep_level")])]), .bind (.name (n! "num_children")) (.method (.field (.path [(n!
  "element")]) (n! "num_children")) (n! "unwrap_or") [.lit 0 none]), .ite (.bin .eq (.path [(n! "num_children")]) (.lit 0 none)) (.block [.bind (.name
  (n! "type_")) (.try (.method (.field (.path [(n! "element")]) (n! "type_")) (n! "ok_or") [.call [(n! "ParquetError"), (n! "Schema")] [.str (n!
  "Missing physical type for SchemaElement without children")]])), .bind (.name (n! "physical_type")) (.try (.call [(n! "PhysicalType"), (n!
  "try_from_schema_element")] [.path [(n! "type_")], .field (.path [(n! "element")]) (n! "type_length")])), .bind (.name (n! "logical_type")) (.path
  [(n! "None")]), .semi (.iteLet (.con [(n! "Some")] [.name (n! "lt")]) (.method (.field (.path [(n! "element")]) (n! "logicalType")) (n! "as_ref")
  []) (.block [.semi (.assign (.path [(n! "logical_type")]) (.method (.call [(n! "PrimitiveLogicalType"), (n! "try_from_logical_type")] [.path [(n!
  "lt")]]) (n! "ok") []))]) none), .semi (.ite (.method (.path [(n! "logical_type")]) (n! "is_none") []) (.block [.iteLet (.con [(n! "Some")] [.name
  (n! "ct")]) (.method (.field (.path [(n! "element")]) (n! "converted_type")) (n! "as_ref") []) (.block [.semi (.assign (.path [(n! "logical_type")])
  (.method (.call [(n! "PrimitiveLogicalType"), (n! "try_from_converted_type")] [.path [(n! "ct")], .field (.path [(n! "element")]) (n! "precision"),
  .field (.path [(n! "element")]) (n! "scale"), .field (.path [(n! "element")]) (n! "type_length")]) (n! "ok") []))]) none]) none), .bind (.name (n!
  "field")) (.record [(n! "PrimitiveField")] [((n! "common"), .path [(n! "common")]), ((n! "physical_type"), .path [(n! "physical_type")]), ((n!
  "logical_type"), .path [(n! "logical_type")]), ((n! "index"), .cast (.deref (.path [(n! "index")])) (some .u32))]), .semi (.assignOp .add (.deref
  (.path [(n! "index")])) (.lit 1 none)), .call [(n! "Ok")] [.call [(n! "SchemaField"), (n! "Primitive")] [.path [(n! "field")]]]]) (some (.ite (.or
  (.bin .lt (.path [(n! "num_children")]) (.lit 0 none)) (.bin .gt (.cast (.path [(n! "num_children")]) (some .usize)) (.path [(n!
  "remaining_elements")]))) (.block [.call [(n! "Err")] [.call [(n! "ParquetError"), (n! "Schema")] [.str (n! "Invalid number of children")]]]) (some
  (.block [.bind (.name (n! "logical_type")) (.path [(n! "None")]), .semi (.iteLet (.con [(n! "Some")] [.name (n! "lt")]) (.method (.field (.path [(n!
  "element")]) (n! "logicalType")) (n! "as_ref") []) (.block [.semi (.assign (.path [(n! "logical_type")]) (.method (.call [(n! "GroupLogicalType"),
  (n! "try_from")] [.path [(n! "lt")]]) (n! "ok") []))]) none), .semi (.ite (.method (.path [(n! "logical_type")]) (n! "is_none") []) (.block [.iteLet
  (.con [(n! "Some")] [.name (n! "ct")]) (.method (.field (.path [(n! "element")]) (n! "converted_type")) (n! "as_ref") []) (.block [.semi (.assign
  (.path [(n! "logical_type")]) (.method (.call [(n! "GroupLogicalType"), (n! "try_from")] [.path [(n! "ct")]]) (n! "ok") []))]) none]) none), .bind
  (.name (n! "children")) (.call [(n! "Vec"), (n! "with_capacity")] [.cast (.path [(n! "num_children")]) (some .usize)]), .bind (.name (n! "field"))
  (.record [(n! "GroupField")] [((n! "common"), .path [(n! "common")]), ((n! "children"), .path [(n! "children")]), ((n! "logical_type"), .path [(n!
  "logical_type")])]), .call [(n! "Ok")] [.call [(n! "SchemaField"), (n! "Group")] [.path [(n! "field")]]]]))))]⟩

def pq_convert_schema_inner : Fn :=
  ⟨(n! "convert_schema_inner"), [((n! "elements"), .other), ((n! "index"), .mutInt .usize), ((n! "def_level"), .int .u8), ((n! "rep_level"), .int
  .u8), ((n! "nesting"), .int .u8)], .block [.semi (.ite (.method (.path [(n! "elements")]) (n! "is_empty") []) (.block [.semi (.ret (some (.call [(n!
  "Err")] [.call [(n! "ParquetError"), (n! "Schema")] [.str (n! "Missing schema elements")]])))]) none), .bind (.name (n! "root_element")) (.ref false
  (.index (.path [(n! "elements")]) (.lit 0 none))), .bind (.name (n! "remainder_elements")) (.ref false (.index (.path [(n! "elements")]) (.range
  (some (.lit 1 none)) none))), .bind (.name (n! "repetition_type")) (.method (.field (.path [(n! "root_element")]) (n! "repetition_type")) (n!
  "unwrap_or") [.path [(n! "FieldRepetitionType"), (n! "REQUIRED")]]), .bind (.name (n! "def_level")) (.bin .add (.path [(n! "def_level")]) (.cast
  (.bin .eq (.path [(n! "repetition_type")]) (.path [(n! "FieldRepetitionType"), (n! "OPTIONAL")])) (some .u8))), .bind (.name (n! "rep_level")) (.bin
  .add (.path [(n! "rep_level")]) (.cast (.bin .eq (.path [(n! "repetition_type")]) (.path [(n! "FieldRepetitionType"), (n! "REPEATED")])) (some
  .u8))), .bind (.name (n! "current")) (.try (.call [(n! "field_from_schema_element")] [.path [(n! "root_element")], .path [(n! "index")], .path [(n!
  "def_level")], .path [(n! "rep_level")], .method (.path [(n! "remainder_elements")]) (n! "len") []])), .semi (.iteLet (.con [(n! "SchemaField"), (n!
  "Group")] [.record [(n! "GroupField")] [((n! "children"), .name (n! "children"))]]) (.ref true (.path [(n! "current")])) (.block [.bind (.name (n!
  "nesting")) (.bin .add (.path [(n! "nesting")]) (.lit 1 none)), .semi (.ite (.bin .ge (.path [(n! "nesting")]) (.lit 128 none)) (.block [.semi (.ret
  (some (.call [(n! "Err")] [.call [(n! "ParquetError"), (n! "Schema")] [.str (n! "Schema is too deeply nested")]])))]) none), .bind (.name (n!
  "num_children")) (.cast (.method (.field (.path [(n! "root_element")]) (n! "num_children")) (n! "unwrap_or") [.lit 0 none]) (some .usize)), .bind
  (.name (n! "i")) (.lit 0 none), .while (.bin .lt (.path [(n! "i")]) (.path [(n! "num_children")])) (.block [.bind (.tuple [.name (n! "child_field"),
  .name (n! "remainder")]) (.try (.call [(n! "convert_schema_inner")] [.path [(n! "remainder_elements")], .path [(n! "index")], .path [(n!
  "def_level")], .path [(n! "rep_level")], .path [(n! "nesting")]])), .semi (.assign (.path [(n! "remainder_elements")]) (.path [(n! "remainder")])),
  .semi (.method (.path [(n! "children")]) (n! "push") [.path [(n! "child_field")]]), .semi (.assignOp .add (.path [(n! "i")]) (.lit 1 none))])])
  none), .call [(n! "Ok")] [.tuple [.path [(n! "current")], .path [(n! "remainder_elements")]]]]⟩

def pq_convert_schema : Fn :=
  ⟨(n! "convert_schema"), [((n! "elements"), .other)], .block [.semi (.ite (.method (.path [(n! "elements")]) (n! "is_empty") []) (.block [.semi (.ret
  (some (.call [(n! "Err")] [.call [(n! "ParquetError"), (n! "Schema")] [.str (n! "Empty schema")]])))]) none), .bind (.name (n! "index")) (.lit 0
  none), .bind (.tuple [.name (n! "root"), .name (n! "remainder")]) (.try (.call [(n! "convert_schema_inner")] [.path [(n! "elements")], .ref true
  (.path [(n! "index")]), .lit 0 none, .lit 0 none, .lit 0 none])), .ite (.not (.method (.path [(n! "remainder")]) (n! "is_empty") [])) (.block [.call
  [(n! "Err")] [.call [(n! "ParquetError"), (n! "Schema")] [.str (n! "Trailing schema elements after root group")]]]) (some (.ite (.bin .ne (.field
  (.method (.path [(n! "root")]) (n! "common") []) (n! "repetition")) (.path [(n! "RepetitionType"), (n! "Required")])) (.block [.call [(n! "Err")]
  [.call [(n! "ParquetError"), (n! "Schema")] [.str (n! "Root element must have repetition type required")]]]) (some (.block [.call [(n! "Ok")] [.path
  [(n! "root")]]]))))]⟩

def pq_print_indent : Fn :=
  ⟨(n! "print_indent"), [((n! "indent"), .int .usize)], .block [.for .wild (.range (some (.lit 0 none)) (some (.path [(n! "indent")]))) (.block [.semi
  (.mac (n! "print") [.str (n! "  ")])])]⟩

def pq_pretty_print_schema : Fn :=
  ⟨(n! "pretty_print_schema"), [((n! "field"), .other), ((n! "indent"), .int .usize)], .block [.semi (.call [(n! "print_indent")] [.path [(n!
  "indent")]]), .select (.path [(n! "field")]) [(.con [(n! "SchemaField"), (n! "Group")] [.name (n! "field")], .block [.semi (.mac (n! "print") [.str
  (n! "{} group {}"), .field (.field (.path [(n! "field")]) (n! "common")) (n! "repetition"), .field (.field (.path [(n! "field")]) (n! "common")) (n!
  "name")]), .semi (.iteLet (.con [(n! "Some")] [.name (n! "logical_type")]) (.field (.path [(n! "field")]) (n! "logical_type")) (.block [.mac (n!
  "print") [.str (n! " ({logical_type:?})")]]) none), .semi (.mac (n! "println") [.str (n! " {{")]), .semi (.for (.name (n! "child")) (.ref false
  (.field (.path [(n! "field")]) (n! "children"))) (.block [.semi (.call [(n! "pretty_print_schema")] [.path [(n! "child")], .bin .add (.path [(n!
  "indent")]) (.lit 1 none)])])), .semi (.call [(n! "print_indent")] [.path [(n! "indent")]]), .mac (n! "println") [.str (n! "}}")]]), (.con [(n!
  "SchemaField"), (n! "Primitive")] [.name (n! "field")], .block [.semi (.mac (n! "print") [.str (n! "{} {:?} {}"), .field (.field (.path [(n!
  "field")]) (n! "common")) (n! "repetition"), .field (.path [(n! "field")]) (n! "physical_type"), .field (.field (.path [(n! "field")]) (n!
  "common")) (n! "name")]), .semi (.iteLet (.con [(n! "Some")] [.name (n! "logical_type")]) (.method (.field (.path [(n! "field")]) (n!
  "logical_type")) (n! "as_ref") []) (.block [.mac (n! "print") [.str (n! " ({logical_type:?})")]]) none), .semi (.mac (n! "println") [.str 59])])]]⟩

def pq_main : Fn :=
  ⟨(n! "main"), [], .block [.bind (.name (n! "file")) (.method (.call [(n! "File"), (n! "open")] [.str (n!
  "parquet/data/alltypes_tiny_pages.parquet")]) (n! "unwrap") []), .bind (.name (n! "data")) (.method (.call [(n! "get_metadata_chunk")] [.ref true
  (.path [(n! "file")])]) (n! "unwrap") []), .bind (.name (n! "input")) (.call [(n! "CompactThriftInputSlice"), (n! "new")] [.ref false (.path [(n!
  "data")])]), .bind (.name (n! "fmd")) (.method (.call [(n! "FileMetaData"), (n! "read_thrift")] [.ref true (.path [(n! "input")])]) (n! "unwrap")
  []), .semi (.mac (n! "println") [.str (n! "version: {}"), .field (.path [(n! "fmd")]) (n! "version")]), .semi (.mac (n! "println") [.str (n!
  "num of rows: {}"), .field (.path [(n! "fmd")]) (n! "num_rows")]), .semi (.iteLet (.con [(n! "Some")] [.name (n! "created_by")]) (.method (.field
  (.path [(n! "fmd")]) (n! "created_by")) (n! "as_ref") []) (.block [.semi (.mac (n! "println") [.str (n! "created by: {created_by}")])]) none), .bind
  (.name (n! "schema")) (.method (.call [(n! "convert_schema")] [.ref false (.field (.path [(n! "fmd")]) (n! "schema"))]) (n! "unwrap") []), .semi
  (.call [(n! "pretty_print_schema")] [.ref false (.path [(n! "schema")]), .lit 0 none])]⟩

def libItems : List Item := [
  .impl (n! "From") (n! "IOError") (n! "ParquetError") [pq_ParquetError_from_IOError],
  .impl (n! "From") (n! "ThriftError") (n! "ParquetError") [pq_ParquetError_from_ThriftError],
  .const (n! "PARQUET_MAGIC") (.array [.lit 80 (some .u8), .lit 65 (some .u8), .lit 82 (some .u8), .lit 49 (some .u8)]),
  .fn pq_get_metadata_chunk,
  .fn pq_get_page_index_range,
  .fn pq_get_page_index_chunk,
  .fn pq_read_page_index_for_column_chunk,
  .fn pq_read_page_index]

def schemaItems : List Item := [
  .impl 0 0 (n! "PhysicalType") [pq_PhysicalType_try_from_schema_element],
  .impl (n! "From") (n! "TimeUnit") (n! "SchemaTimeUnit") [pq_SchemaTimeUnit_from_TimeUnit],
  .impl (n! "From") (n! "SchemaTimeUnit") (n! "TimeUnit") [pq_TimeUnit_from_SchemaTimeUnit],
  .struct (n! "TimeOptions") [((n! "is_adjusted_to_utc"), .other), ((n! "time_unit"), .other)],
  .impl (n! "From") (n! "TimeType") (n! "TimeOptions") [pq_TimeOptions_from_TimeType],
  .impl (n! "From") (n! "TimestampType") (n! "TimeOptions") [pq_TimeOptions_from_TimestampType],
  .struct (n! "DecimalOptions") [((n! "precision"), .int .u8), ((n! "scale"), .int .i8)],
  .impl 0 0 (n! "DecimalOptions") [pq_DecimalOptions_try_new],
  .impl (n! "TryFrom") (n! "DecimalType") (n! "DecimalOptions") [pq_DecimalOptions_try_from_DecimalType],
  .struct (n! "IntegerOptions") [((n! "bitwidth"), .int .u8), ((n! "is_signed"), .other)],
  .impl (n! "Debug") 0 (n! "IntegerOptions") [pq_IntegerOptions_fmt],
  .impl (n! "TryFrom") (n! "IntType") (n! "IntegerOptions") [pq_IntegerOptions_try_from_IntType],
  .impl 0 0 (n! "PrimitiveLogicalType") [pq_PrimitiveLogicalType_try_from_converted_type, pq_PrimitiveLogicalType_try_from_logical_type, pq_PrimitiveLogicalType_precision, pq_PrimitiveLogicalType_scale],
  .impl (n! "TryFrom") (n! "LogicalType") (n! "PrimitiveLogicalType") [pq_PrimitiveLogicalType_try_from_LogicalType],
  .impl (n! "TryFrom") (n! "LogicalType") (n! "GroupLogicalType") [pq_GroupLogicalType_try_from_LogicalType],
  .impl (n! "TryFrom") (n! "ConvertedType") (n! "GroupLogicalType") [pq_GroupLogicalType_try_from_ConvertedType],
  .impl (n! "Display") 0 (n! "RepetitionType") [pq_RepetitionType_fmt],
  .impl (n! "TryFrom") (n! "FieldRepetitionType") (n! "RepetitionType") [pq_RepetitionType_try_from_FieldRepetitionType],
  .impl (n! "From") (n! "i32") (n! "FieldId") [pq_FieldId_from_i32],
  .impl (n! "From") (n! "FieldId") (n! "i32") [pq_i32_from_FieldId],
  .struct (n! "CommonField") [((n! "name"), .other), ((n! "field_id"), .other), ((n! "repetition"), .other), ((n! "def_level"), .int .u8), ((n! "rep_level"), .int .u8)],
  .struct (n! "PrimitiveField") [((n! "common"), .other), ((n! "physical_type"), .other), ((n! "logical_type"), .other), ((n! "index"), .int .u32)],
  .struct (n! "GroupField") [((n! "common"), .other), ((n! "children"), .other), ((n! "logical_type"), .other)],
  .impl 0 0 (n! "SchemaField") [pq_SchemaField_find_field_by_path, pq_SchemaField_common, pq_SchemaField_name, pq_SchemaField_definition_level, pq_SchemaField_repetition_level, pq_SchemaField_is_optional],
  .fn pq_field_from_schema_element,
  .fn pq_convert_schema_inner,
  .fn pq_convert_schema,
  .fn pq_print_indent,
  .fn pq_pretty_print_schema,
  .fn pq_main]

end CT.Pq
