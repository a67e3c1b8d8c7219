import Verif.Props.GeneratorCode
import Verif.Props.Migration
import Verif.Props.ThriftPieces
import Verif.Model.ThriftText
/-!
# C88: the code generated from parquet.thrift

The lexer is evaluated on pieces of the text by the kernel, so are the parser and the generator on the tokens.
-/
namespace CT.Props
open CT CT.Macro CT.Macro.Spec CT.Gen CT.Gen.Spec

theorem ofLines_append (a b : List (List Char)) : ofLines (a ++ b) = ofLines a ++ ofLines b := by simp [ofLines]

/-! ## The pieces -/

set_option maxRecDepth 100000

def toks0 : List Tok := [
  .kw .NAMESPACE, .IDENTIFIER (chars! "cpp"), .IDENTIFIER (chars! "parquet"), .kw .NAMESPACE, .IDENTIFIER (chars! "java"),
  .IDENTIFIER (chars! "org.apache.parquet.format"), .kw .ENUM, .IDENTIFIER (chars! "Type"), .kw .LBRACE, .IDENTIFIER (chars! "BOOLEAN"), .kw .EQ,
  .INTEGER (chars! "0"), .kw .SEMI, .IDENTIFIER (chars! "INT32"), .kw .EQ, .INTEGER (chars! "1"), .kw .SEMI, .IDENTIFIER (chars! "INT64"), .kw .EQ,
  .INTEGER (chars! "2"), .kw .SEMI, .IDENTIFIER (chars! "INT96"), .kw .EQ, .INTEGER (chars! "3"), .kw .SEMI, .IDENTIFIER (chars! "FLOAT"), .kw .EQ,
  .INTEGER (chars! "4"), .kw .SEMI, .IDENTIFIER (chars! "DOUBLE"), .kw .EQ, .INTEGER (chars! "5"), .kw .SEMI, .IDENTIFIER (chars! "BYTE_ARRAY"), .kw .EQ,
  .INTEGER (chars! "6"), .kw .SEMI, .IDENTIFIER (chars! "FIXED_LEN_BYTE_ARRAY"), .kw .EQ, .INTEGER (chars! "7"), .kw .SEMI]

def toks1 : List Tok := [
  .kw .RBRACE, .kw .ENUM, .IDENTIFIER (chars! "ConvertedType"), .kw .LBRACE, .IDENTIFIER (chars! "UTF8"), .kw .EQ, .INTEGER (chars! "0"), .kw .SEMI,
  .IDENTIFIER (chars! "MAP"), .kw .EQ, .INTEGER (chars! "1"), .kw .SEMI, .IDENTIFIER (chars! "MAP_KEY_VALUE"), .kw .EQ, .INTEGER (chars! "2"), .kw .SEMI,
  .IDENTIFIER (chars! "LIST"), .kw .EQ, .INTEGER (chars! "3"), .kw .SEMI, .IDENTIFIER (chars! "ENUM"), .kw .EQ, .INTEGER (chars! "4"), .kw .SEMI,
  .IDENTIFIER (chars! "DECIMAL"), .kw .EQ, .INTEGER (chars! "5"), .kw .SEMI]

def toks2 : List Tok := [
  .IDENTIFIER (chars! "DATE"), .kw .EQ, .INTEGER (chars! "6"), .kw .SEMI, .IDENTIFIER (chars! "TIME_MILLIS"), .kw .EQ, .INTEGER (chars! "7"), .kw .SEMI,
  .IDENTIFIER (chars! "TIME_MICROS"), .kw .EQ, .INTEGER (chars! "8"), .kw .SEMI, .IDENTIFIER (chars! "TIMESTAMP_MILLIS"), .kw .EQ, .INTEGER (chars! "9"),
  .kw .SEMI, .IDENTIFIER (chars! "TIMESTAMP_MICROS"), .kw .EQ, .INTEGER (chars! "10"), .kw .SEMI]

def toks3 : List Tok := [
  .IDENTIFIER (chars! "UINT_8"), .kw .EQ, .INTEGER (chars! "11"), .kw .SEMI, .IDENTIFIER (chars! "UINT_16"), .kw .EQ, .INTEGER (chars! "12"), .kw .SEMI,
  .IDENTIFIER (chars! "UINT_32"), .kw .EQ, .INTEGER (chars! "13"), .kw .SEMI, .IDENTIFIER (chars! "UINT_64"), .kw .EQ, .INTEGER (chars! "14"), .kw .SEMI,
  .IDENTIFIER (chars! "INT_8"), .kw .EQ, .INTEGER (chars! "15"), .kw .SEMI, .IDENTIFIER (chars! "INT_16"), .kw .EQ, .INTEGER (chars! "16"), .kw .SEMI,
  .IDENTIFIER (chars! "INT_32"), .kw .EQ, .INTEGER (chars! "17"), .kw .SEMI, .IDENTIFIER (chars! "INT_64"), .kw .EQ, .INTEGER (chars! "18"), .kw .SEMI,
  .IDENTIFIER (chars! "JSON"), .kw .EQ, .INTEGER (chars! "19"), .kw .SEMI]

def toks4 : List Tok := [
  .IDENTIFIER (chars! "BSON"), .kw .EQ, .INTEGER (chars! "20"), .kw .SEMI, .IDENTIFIER (chars! "INTERVAL"), .kw .EQ, .INTEGER (chars! "21"), .kw .SEMI,
  .kw .RBRACE, .kw .ENUM, .IDENTIFIER (chars! "FieldRepetitionType"), .kw .LBRACE, .IDENTIFIER (chars! "REQUIRED"), .kw .EQ, .INTEGER (chars! "0"), .kw .SEMI,
  .IDENTIFIER (chars! "OPTIONAL"), .kw .EQ, .INTEGER (chars! "1"), .kw .SEMI, .IDENTIFIER (chars! "REPEATED"), .kw .EQ, .INTEGER (chars! "2"), .kw .SEMI,
  .kw .RBRACE, .kw .STRUCT, .IDENTIFIER (chars! "SizeStatistics"), .kw .LBRACE]

def toks5 : List Tok := [
  .INTEGER (chars! "1"), .kw .COLON, .kw .OPTIONAL, .kw .I64, .IDENTIFIER (chars! "unencoded_byte_array_data_bytes"), .kw .SEMI, .INTEGER (chars! "2"),
  .kw .COLON, .kw .OPTIONAL, .kw .LIST, .kw .LT, .kw .I64, .kw .GT, .IDENTIFIER (chars! "repetition_level_histogram"), .kw .SEMI, .INTEGER (chars! "3"),
  .kw .COLON, .kw .OPTIONAL, .kw .LIST, .kw .LT, .kw .I64, .kw .GT, .IDENTIFIER (chars! "definition_level_histogram"), .kw .SEMI, .kw .RBRACE]

def toks6 : List Tok := [
  .kw .STRUCT, .IDENTIFIER (chars! "Statistics"), .kw .LBRACE, .INTEGER (chars! "1"), .kw .COLON, .kw .OPTIONAL, .kw .BINARY, .IDENTIFIER (chars! "max"),
  .kw .SEMI, .INTEGER (chars! "2"), .kw .COLON, .kw .OPTIONAL, .kw .BINARY, .IDENTIFIER (chars! "min"), .kw .SEMI, .INTEGER (chars! "3"), .kw .COLON,
  .kw .OPTIONAL, .kw .I64, .IDENTIFIER (chars! "null_count"), .kw .SEMI, .INTEGER (chars! "4"), .kw .COLON, .kw .OPTIONAL, .kw .I64,
  .IDENTIFIER (chars! "distinct_count"), .kw .SEMI, .INTEGER (chars! "5"), .kw .COLON, .kw .OPTIONAL, .kw .BINARY, .IDENTIFIER (chars! "max_value"), .kw .SEMI,
  .INTEGER (chars! "6"), .kw .COLON, .kw .OPTIONAL, .kw .BINARY, .IDENTIFIER (chars! "min_value"), .kw .SEMI, .INTEGER (chars! "7"), .kw .COLON, .kw .OPTIONAL,
  .kw .BOOL, .IDENTIFIER (chars! "is_max_value_exact"), .kw .SEMI, .INTEGER (chars! "8"), .kw .COLON, .kw .OPTIONAL, .kw .BOOL,
  .IDENTIFIER (chars! "is_min_value_exact"), .kw .SEMI, .kw .RBRACE]

def toks7 : List Tok := [
  .kw .STRUCT, .IDENTIFIER (chars! "StringType"), .kw .LBRACE, .kw .RBRACE, .kw .STRUCT, .IDENTIFIER (chars! "UUIDType"), .kw .LBRACE, .kw .RBRACE,
  .kw .STRUCT, .IDENTIFIER (chars! "MapType"), .kw .LBRACE, .kw .RBRACE, .kw .STRUCT, .IDENTIFIER (chars! "ListType"), .kw .LBRACE, .kw .RBRACE, .kw .STRUCT,
  .IDENTIFIER (chars! "EnumType"), .kw .LBRACE, .kw .RBRACE, .kw .STRUCT, .IDENTIFIER (chars! "DateType"), .kw .LBRACE, .kw .RBRACE, .kw .STRUCT,
  .IDENTIFIER (chars! "Float16Type"), .kw .LBRACE, .kw .RBRACE, .kw .STRUCT, .IDENTIFIER (chars! "NullType"), .kw .LBRACE, .kw .RBRACE, .kw .STRUCT,
  .IDENTIFIER (chars! "DecimalType"), .kw .LBRACE, .INTEGER (chars! "1"), .kw .COLON, .kw .REQUIRED, .kw .I32, .IDENTIFIER (chars! "scale"),
  .INTEGER (chars! "2"), .kw .COLON, .kw .REQUIRED, .kw .I32, .IDENTIFIER (chars! "precision"), .kw .RBRACE, .kw .STRUCT, .IDENTIFIER (chars! "MilliSeconds"),
  .kw .LBRACE, .kw .RBRACE, .kw .STRUCT, .IDENTIFIER (chars! "MicroSeconds"), .kw .LBRACE, .kw .RBRACE, .kw .STRUCT, .IDENTIFIER (chars! "NanoSeconds"),
  .kw .LBRACE, .kw .RBRACE, .kw .UNION, .IDENTIFIER (chars! "TimeUnit"), .kw .LBRACE, .INTEGER (chars! "1"), .kw .COLON, .IDENTIFIER (chars! "MilliSeconds"),
  .IDENTIFIER (chars! "MILLIS")]

def toks8 : List Tok := [
  .INTEGER (chars! "2"), .kw .COLON, .IDENTIFIER (chars! "MicroSeconds"), .IDENTIFIER (chars! "MICROS"), .INTEGER (chars! "3"), .kw .COLON,
  .IDENTIFIER (chars! "NanoSeconds"), .IDENTIFIER (chars! "NANOS"), .kw .RBRACE, .kw .STRUCT, .IDENTIFIER (chars! "TimestampType"), .kw .LBRACE,
  .INTEGER (chars! "1"), .kw .COLON, .kw .REQUIRED, .kw .BOOL, .IDENTIFIER (chars! "isAdjustedToUTC"), .INTEGER (chars! "2"), .kw .COLON, .kw .REQUIRED,
  .IDENTIFIER (chars! "TimeUnit"), .IDENTIFIER (chars! "unit"), .kw .RBRACE, .kw .STRUCT, .IDENTIFIER (chars! "TimeType"), .kw .LBRACE, .INTEGER (chars! "1"),
  .kw .COLON, .kw .REQUIRED, .kw .BOOL, .IDENTIFIER (chars! "isAdjustedToUTC"), .INTEGER (chars! "2"), .kw .COLON, .kw .REQUIRED,
  .IDENTIFIER (chars! "TimeUnit"), .IDENTIFIER (chars! "unit"), .kw .RBRACE, .kw .STRUCT, .IDENTIFIER (chars! "IntType"), .kw .LBRACE, .INTEGER (chars! "1"),
  .kw .COLON, .kw .REQUIRED, .IDENTIFIER (chars! "i8"), .IDENTIFIER (chars! "bitWidth"), .INTEGER (chars! "2"), .kw .COLON, .kw .REQUIRED, .kw .BOOL,
  .IDENTIFIER (chars! "isSigned"), .kw .RBRACE]

def toks9 : List Tok := [
  .kw .STRUCT, .IDENTIFIER (chars! "JsonType"), .kw .LBRACE, .kw .RBRACE, .kw .STRUCT, .IDENTIFIER (chars! "BsonType"), .kw .LBRACE, .kw .RBRACE, .kw .UNION,
  .IDENTIFIER (chars! "LogicalType"), .kw .LBRACE, .INTEGER (chars! "1"), .kw .COLON, .IDENTIFIER (chars! "StringType"), .IDENTIFIER (chars! "STRING"),
  .INTEGER (chars! "2"), .kw .COLON, .IDENTIFIER (chars! "MapType"), .IDENTIFIER (chars! "MAP"), .INTEGER (chars! "3"), .kw .COLON,
  .IDENTIFIER (chars! "ListType"), .IDENTIFIER (chars! "LIST"), .INTEGER (chars! "4"), .kw .COLON, .IDENTIFIER (chars! "EnumType"),
  .IDENTIFIER (chars! "ENUM"), .INTEGER (chars! "5"), .kw .COLON, .IDENTIFIER (chars! "DecimalType"), .IDENTIFIER (chars! "DECIMAL"), .INTEGER (chars! "6"),
  .kw .COLON, .IDENTIFIER (chars! "DateType"), .IDENTIFIER (chars! "DATE"), .INTEGER (chars! "7"), .kw .COLON, .IDENTIFIER (chars! "TimeType"),
  .IDENTIFIER (chars! "TIME"), .INTEGER (chars! "8"), .kw .COLON, .IDENTIFIER (chars! "TimestampType"), .IDENTIFIER (chars! "TIMESTAMP"),
  .INTEGER (chars! "10"), .kw .COLON, .IDENTIFIER (chars! "IntType"), .IDENTIFIER (chars! "INTEGER"), .INTEGER (chars! "11"), .kw .COLON,
  .IDENTIFIER (chars! "NullType"), .IDENTIFIER (chars! "UNKNOWN"), .INTEGER (chars! "12"), .kw .COLON, .IDENTIFIER (chars! "JsonType"),
  .IDENTIFIER (chars! "JSON"), .INTEGER (chars! "13"), .kw .COLON, .IDENTIFIER (chars! "BsonType"), .IDENTIFIER (chars! "BSON"), .INTEGER (chars! "14"),
  .kw .COLON, .IDENTIFIER (chars! "UUIDType"), .IDENTIFIER (chars! "UUID")]

def toks10 : List Tok := [
  .INTEGER (chars! "15"), .kw .COLON, .IDENTIFIER (chars! "Float16Type"), .IDENTIFIER (chars! "FLOAT16"), .kw .RBRACE, .kw .STRUCT,
  .IDENTIFIER (chars! "SchemaElement"), .kw .LBRACE, .INTEGER (chars! "1"), .kw .COLON, .kw .OPTIONAL, .IDENTIFIER (chars! "Type"),
  .IDENTIFIER (chars! "type"), .kw .SEMI, .INTEGER (chars! "2"), .kw .COLON, .kw .OPTIONAL, .kw .I32, .IDENTIFIER (chars! "type_length"), .kw .SEMI,
  .INTEGER (chars! "3"), .kw .COLON, .kw .OPTIONAL, .IDENTIFIER (chars! "FieldRepetitionType"), .IDENTIFIER (chars! "repetition_type"), .kw .SEMI,
  .INTEGER (chars! "4"), .kw .COLON, .kw .REQUIRED, .kw .STRING, .IDENTIFIER (chars! "name"), .kw .SEMI, .INTEGER (chars! "5"), .kw .COLON, .kw .OPTIONAL,
  .kw .I32, .IDENTIFIER (chars! "num_children"), .kw .SEMI]

def toks11 : List Tok := [
  .INTEGER (chars! "6"), .kw .COLON, .kw .OPTIONAL, .IDENTIFIER (chars! "ConvertedType"), .IDENTIFIER (chars! "converted_type"), .kw .SEMI,
  .INTEGER (chars! "7"), .kw .COLON, .kw .OPTIONAL, .kw .I32, .IDENTIFIER (chars! "scale"), .INTEGER (chars! "8"), .kw .COLON, .kw .OPTIONAL, .kw .I32,
  .IDENTIFIER (chars! "precision"), .INTEGER (chars! "9"), .kw .COLON, .kw .OPTIONAL, .kw .I32, .IDENTIFIER (chars! "field_id"), .kw .SEMI,
  .INTEGER (chars! "10"), .kw .COLON, .kw .OPTIONAL, .IDENTIFIER (chars! "LogicalType"), .IDENTIFIER (chars! "logicalType"), .kw .RBRACE, .kw .ENUM,
  .IDENTIFIER (chars! "Encoding"), .kw .LBRACE]

def toks12 : List Tok := [
  .IDENTIFIER (chars! "PLAIN"), .kw .EQ, .INTEGER (chars! "0"), .kw .SEMI, .IDENTIFIER (chars! "PLAIN_DICTIONARY"), .kw .EQ, .INTEGER (chars! "2"), .kw .SEMI,
  .IDENTIFIER (chars! "RLE"), .kw .EQ, .INTEGER (chars! "3"), .kw .SEMI, .IDENTIFIER (chars! "BIT_PACKED"), .kw .EQ, .INTEGER (chars! "4"), .kw .SEMI,
  .IDENTIFIER (chars! "DELTA_BINARY_PACKED"), .kw .EQ, .INTEGER (chars! "5"), .kw .SEMI, .IDENTIFIER (chars! "DELTA_LENGTH_BYTE_ARRAY"), .kw .EQ,
  .INTEGER (chars! "6"), .kw .SEMI, .IDENTIFIER (chars! "DELTA_BYTE_ARRAY"), .kw .EQ, .INTEGER (chars! "7"), .kw .SEMI]

def toks13 : List Tok := [
  .IDENTIFIER (chars! "RLE_DICTIONARY"), .kw .EQ, .INTEGER (chars! "8"), .kw .SEMI, .IDENTIFIER (chars! "BYTE_STREAM_SPLIT"), .kw .EQ, .INTEGER (chars! "9"),
  .kw .SEMI, .kw .RBRACE, .kw .ENUM, .IDENTIFIER (chars! "CompressionCodec"), .kw .LBRACE, .IDENTIFIER (chars! "UNCOMPRESSED"), .kw .EQ, .INTEGER (chars! "0"),
  .kw .SEMI, .IDENTIFIER (chars! "SNAPPY"), .kw .EQ, .INTEGER (chars! "1"), .kw .SEMI, .IDENTIFIER (chars! "GZIP"), .kw .EQ, .INTEGER (chars! "2"), .kw .SEMI,
  .IDENTIFIER (chars! "LZO"), .kw .EQ, .INTEGER (chars! "3"), .kw .SEMI, .IDENTIFIER (chars! "BROTLI"), .kw .EQ, .INTEGER (chars! "4"), .kw .SEMI,
  .IDENTIFIER (chars! "LZ4"), .kw .EQ, .INTEGER (chars! "5"), .kw .SEMI, .IDENTIFIER (chars! "ZSTD"), .kw .EQ, .INTEGER (chars! "6"), .kw .SEMI,
  .IDENTIFIER (chars! "LZ4_RAW"), .kw .EQ, .INTEGER (chars! "7"), .kw .SEMI, .kw .RBRACE, .kw .ENUM, .IDENTIFIER (chars! "PageType"), .kw .LBRACE,
  .IDENTIFIER (chars! "DATA_PAGE"), .kw .EQ, .INTEGER (chars! "0"), .kw .SEMI, .IDENTIFIER (chars! "INDEX_PAGE"), .kw .EQ, .INTEGER (chars! "1"), .kw .SEMI]

def toks14 : List Tok := [
  .IDENTIFIER (chars! "DICTIONARY_PAGE"), .kw .EQ, .INTEGER (chars! "2"), .kw .SEMI, .IDENTIFIER (chars! "DATA_PAGE_V2"), .kw .EQ, .INTEGER (chars! "3"),
  .kw .SEMI, .kw .RBRACE, .kw .ENUM, .IDENTIFIER (chars! "BoundaryOrder"), .kw .LBRACE, .IDENTIFIER (chars! "UNORDERED"), .kw .EQ, .INTEGER (chars! "0"),
  .kw .SEMI, .IDENTIFIER (chars! "ASCENDING"), .kw .EQ, .INTEGER (chars! "1"), .kw .SEMI, .IDENTIFIER (chars! "DESCENDING"), .kw .EQ, .INTEGER (chars! "2"),
  .kw .SEMI, .kw .RBRACE, .kw .STRUCT, .IDENTIFIER (chars! "DataPageHeader"), .kw .LBRACE, .INTEGER (chars! "1"), .kw .COLON, .kw .REQUIRED, .kw .I32,
  .IDENTIFIER (chars! "num_values"), .INTEGER (chars! "2"), .kw .COLON, .kw .REQUIRED, .IDENTIFIER (chars! "Encoding"), .IDENTIFIER (chars! "encoding"),
  .INTEGER (chars! "3"), .kw .COLON, .kw .REQUIRED, .IDENTIFIER (chars! "Encoding"), .IDENTIFIER (chars! "definition_level_encoding"), .kw .SEMI,
  .INTEGER (chars! "4"), .kw .COLON, .kw .REQUIRED, .IDENTIFIER (chars! "Encoding"), .IDENTIFIER (chars! "repetition_level_encoding"), .kw .SEMI,
  .INTEGER (chars! "5"), .kw .COLON, .kw .OPTIONAL, .IDENTIFIER (chars! "Statistics"), .IDENTIFIER (chars! "statistics"), .kw .SEMI, .kw .RBRACE, .kw .STRUCT,
  .IDENTIFIER (chars! "IndexPageHeader"), .kw .LBRACE, .kw .RBRACE]

def toks15 : List Tok := [
  .kw .STRUCT, .IDENTIFIER (chars! "DictionaryPageHeader"), .kw .LBRACE, .INTEGER (chars! "1"), .kw .COLON, .kw .REQUIRED, .kw .I32,
  .IDENTIFIER (chars! "num_values"), .kw .SEMI, .INTEGER (chars! "2"), .kw .COLON, .kw .REQUIRED, .IDENTIFIER (chars! "Encoding"),
  .IDENTIFIER (chars! "encoding"), .INTEGER (chars! "3"), .kw .COLON, .kw .OPTIONAL, .kw .BOOL, .IDENTIFIER (chars! "is_sorted"), .kw .SEMI, .kw .RBRACE,
  .kw .STRUCT, .IDENTIFIER (chars! "DataPageHeaderV2"), .kw .LBRACE, .INTEGER (chars! "1"), .kw .COLON, .kw .REQUIRED, .kw .I32,
  .IDENTIFIER (chars! "num_values"), .INTEGER (chars! "2"), .kw .COLON, .kw .REQUIRED, .kw .I32, .IDENTIFIER (chars! "num_nulls"), .INTEGER (chars! "3"),
  .kw .COLON, .kw .REQUIRED, .kw .I32, .IDENTIFIER (chars! "num_rows"), .INTEGER (chars! "4"), .kw .COLON, .kw .REQUIRED, .IDENTIFIER (chars! "Encoding"),
  .IDENTIFIER (chars! "encoding"), .INTEGER (chars! "5"), .kw .COLON, .kw .REQUIRED, .kw .I32, .IDENTIFIER (chars! "definition_levels_byte_length"), .kw .SEMI,
  .INTEGER (chars! "6"), .kw .COLON, .kw .REQUIRED, .kw .I32, .IDENTIFIER (chars! "repetition_levels_byte_length"), .kw .SEMI, .INTEGER (chars! "7"),
  .kw .COLON, .kw .OPTIONAL, .kw .BOOL, .IDENTIFIER (chars! "is_compressed"), .kw .EQ, .IDENTIFIER (chars! "true"), .kw .SEMI]

def toks16 : List Tok := [
  .INTEGER (chars! "8"), .kw .COLON, .kw .OPTIONAL, .IDENTIFIER (chars! "Statistics"), .IDENTIFIER (chars! "statistics"), .kw .SEMI, .kw .RBRACE, .kw .STRUCT,
  .IDENTIFIER (chars! "SplitBlockAlgorithm"), .kw .LBRACE, .kw .RBRACE, .kw .UNION, .IDENTIFIER (chars! "BloomFilterAlgorithm"), .kw .LBRACE,
  .INTEGER (chars! "1"), .kw .COLON, .IDENTIFIER (chars! "SplitBlockAlgorithm"), .IDENTIFIER (chars! "BLOCK"), .kw .SEMI, .kw .RBRACE, .kw .STRUCT,
  .IDENTIFIER (chars! "XxHash"), .kw .LBRACE, .kw .RBRACE, .kw .UNION, .IDENTIFIER (chars! "BloomFilterHash"), .kw .LBRACE, .INTEGER (chars! "1"), .kw .COLON,
  .IDENTIFIER (chars! "XxHash"), .IDENTIFIER (chars! "XXHASH"), .kw .SEMI, .kw .RBRACE, .kw .STRUCT, .IDENTIFIER (chars! "Uncompressed"), .kw .LBRACE,
  .kw .RBRACE, .kw .UNION, .IDENTIFIER (chars! "BloomFilterCompression"), .kw .LBRACE, .INTEGER (chars! "1"), .kw .COLON, .IDENTIFIER (chars! "Uncompressed"),
  .IDENTIFIER (chars! "UNCOMPRESSED"), .kw .SEMI, .kw .RBRACE, .kw .STRUCT, .IDENTIFIER (chars! "BloomFilterHeader"), .kw .LBRACE]

def toks17 : List Tok := [
  .INTEGER (chars! "1"), .kw .COLON, .kw .REQUIRED, .kw .I32, .IDENTIFIER (chars! "numBytes"), .kw .SEMI, .INTEGER (chars! "2"), .kw .COLON, .kw .REQUIRED,
  .IDENTIFIER (chars! "BloomFilterAlgorithm"), .IDENTIFIER (chars! "algorithm"), .kw .SEMI, .INTEGER (chars! "3"), .kw .COLON, .kw .REQUIRED,
  .IDENTIFIER (chars! "BloomFilterHash"), .IDENTIFIER (chars! "hash"), .kw .SEMI, .INTEGER (chars! "4"), .kw .COLON, .kw .REQUIRED,
  .IDENTIFIER (chars! "BloomFilterCompression"), .IDENTIFIER (chars! "compression"), .kw .SEMI, .kw .RBRACE, .kw .STRUCT, .IDENTIFIER (chars! "PageHeader"),
  .kw .LBRACE, .INTEGER (chars! "1"), .kw .COLON, .kw .REQUIRED, .IDENTIFIER (chars! "PageType"), .IDENTIFIER (chars! "type"), .INTEGER (chars! "2"),
  .kw .COLON, .kw .REQUIRED, .kw .I32, .IDENTIFIER (chars! "uncompressed_page_size"), .INTEGER (chars! "3"), .kw .COLON, .kw .REQUIRED, .kw .I32,
  .IDENTIFIER (chars! "compressed_page_size"), .INTEGER (chars! "4"), .kw .COLON, .kw .OPTIONAL, .kw .I32, .IDENTIFIER (chars! "crc")]

def toks18 : List Tok := [
  .INTEGER (chars! "5"), .kw .COLON, .kw .OPTIONAL, .IDENTIFIER (chars! "DataPageHeader"), .IDENTIFIER (chars! "data_page_header"), .kw .SEMI,
  .INTEGER (chars! "6"), .kw .COLON, .kw .OPTIONAL, .IDENTIFIER (chars! "IndexPageHeader"), .IDENTIFIER (chars! "index_page_header"), .kw .SEMI,
  .INTEGER (chars! "7"), .kw .COLON, .kw .OPTIONAL, .IDENTIFIER (chars! "DictionaryPageHeader"), .IDENTIFIER (chars! "dictionary_page_header"), .kw .SEMI,
  .INTEGER (chars! "8"), .kw .COLON, .kw .OPTIONAL, .IDENTIFIER (chars! "DataPageHeaderV2"), .IDENTIFIER (chars! "data_page_header_v2"), .kw .SEMI,
  .kw .RBRACE, .kw .STRUCT, .IDENTIFIER (chars! "KeyValue"), .kw .LBRACE, .INTEGER (chars! "1"), .kw .COLON, .kw .REQUIRED, .kw .STRING,
  .IDENTIFIER (chars! "key"), .INTEGER (chars! "2"), .kw .COLON, .kw .OPTIONAL, .kw .STRING, .IDENTIFIER (chars! "value"), .kw .RBRACE, .kw .STRUCT,
  .IDENTIFIER (chars! "SortingColumn"), .kw .LBRACE, .INTEGER (chars! "1"), .kw .COLON, .kw .REQUIRED, .kw .I32, .IDENTIFIER (chars! "column_idx"),
  .INTEGER (chars! "2"), .kw .COLON, .kw .REQUIRED, .kw .BOOL, .IDENTIFIER (chars! "descending"), .INTEGER (chars! "3"), .kw .COLON, .kw .REQUIRED, .kw .BOOL,
  .IDENTIFIER (chars! "nulls_first"), .kw .RBRACE, .kw .STRUCT, .IDENTIFIER (chars! "PageEncodingStats"), .kw .LBRACE, .INTEGER (chars! "1"), .kw .COLON,
  .kw .REQUIRED, .IDENTIFIER (chars! "PageType"), .IDENTIFIER (chars! "page_type"), .kw .SEMI, .INTEGER (chars! "2"), .kw .COLON, .kw .REQUIRED,
  .IDENTIFIER (chars! "Encoding"), .IDENTIFIER (chars! "encoding"), .kw .SEMI]

def toks19 : List Tok := [
  .INTEGER (chars! "3"), .kw .COLON, .kw .REQUIRED, .kw .I32, .IDENTIFIER (chars! "count"), .kw .SEMI, .kw .RBRACE, .kw .STRUCT,
  .IDENTIFIER (chars! "ColumnMetaData"), .kw .LBRACE, .INTEGER (chars! "1"), .kw .COLON, .kw .REQUIRED, .IDENTIFIER (chars! "Type"),
  .IDENTIFIER (chars! "type"), .INTEGER (chars! "2"), .kw .COLON, .kw .REQUIRED, .kw .LIST, .kw .LT, .IDENTIFIER (chars! "Encoding"), .kw .GT,
  .IDENTIFIER (chars! "encodings"), .INTEGER (chars! "3"), .kw .COLON, .kw .REQUIRED, .kw .LIST, .kw .LT, .kw .STRING, .kw .GT,
  .IDENTIFIER (chars! "path_in_schema"), .INTEGER (chars! "4"), .kw .COLON, .kw .REQUIRED, .IDENTIFIER (chars! "CompressionCodec"),
  .IDENTIFIER (chars! "codec"), .INTEGER (chars! "5"), .kw .COLON, .kw .REQUIRED, .kw .I64, .IDENTIFIER (chars! "num_values"), .INTEGER (chars! "6"),
  .kw .COLON, .kw .REQUIRED, .kw .I64, .IDENTIFIER (chars! "total_uncompressed_size"), .INTEGER (chars! "7"), .kw .COLON, .kw .REQUIRED, .kw .I64,
  .IDENTIFIER (chars! "total_compressed_size"), .INTEGER (chars! "8"), .kw .COLON, .kw .OPTIONAL, .kw .LIST, .kw .LT, .IDENTIFIER (chars! "KeyValue"), .kw .GT,
  .IDENTIFIER (chars! "key_value_metadata"), .INTEGER (chars! "9"), .kw .COLON, .kw .REQUIRED, .kw .I64, .IDENTIFIER (chars! "data_page_offset"),
  .INTEGER (chars! "10"), .kw .COLON, .kw .OPTIONAL, .kw .I64, .IDENTIFIER (chars! "index_page_offset")]

def toks20 : List Tok := [
  .INTEGER (chars! "11"), .kw .COLON, .kw .OPTIONAL, .kw .I64, .IDENTIFIER (chars! "dictionary_page_offset"), .INTEGER (chars! "12"), .kw .COLON,
  .kw .OPTIONAL, .IDENTIFIER (chars! "Statistics"), .IDENTIFIER (chars! "statistics"), .kw .SEMI, .INTEGER (chars! "13"), .kw .COLON, .kw .OPTIONAL, .kw .LIST,
  .kw .LT, .IDENTIFIER (chars! "PageEncodingStats"), .kw .GT, .IDENTIFIER (chars! "encoding_stats"), .kw .SEMI, .INTEGER (chars! "14"), .kw .COLON,
  .kw .OPTIONAL, .kw .I64, .IDENTIFIER (chars! "bloom_filter_offset"), .kw .SEMI, .INTEGER (chars! "15"), .kw .COLON, .kw .OPTIONAL, .kw .I32,
  .IDENTIFIER (chars! "bloom_filter_length"), .kw .SEMI, .INTEGER (chars! "16"), .kw .COLON, .kw .OPTIONAL, .IDENTIFIER (chars! "SizeStatistics"),
  .IDENTIFIER (chars! "size_statistics"), .kw .SEMI, .kw .RBRACE, .kw .STRUCT, .IDENTIFIER (chars! "EncryptionWithFooterKey"), .kw .LBRACE, .kw .RBRACE,
  .kw .STRUCT, .IDENTIFIER (chars! "EncryptionWithColumnKey"), .kw .LBRACE, .INTEGER (chars! "1"), .kw .COLON, .kw .REQUIRED, .kw .LIST, .kw .LT, .kw .STRING,
  .kw .GT, .IDENTIFIER (chars! "path_in_schema")]

def toks21 : List Tok := [
  .INTEGER (chars! "2"), .kw .COLON, .kw .OPTIONAL, .kw .BINARY, .IDENTIFIER (chars! "key_metadata"), .kw .RBRACE, .kw .UNION,
  .IDENTIFIER (chars! "ColumnCryptoMetaData"), .kw .LBRACE, .INTEGER (chars! "1"), .kw .COLON, .IDENTIFIER (chars! "EncryptionWithFooterKey"),
  .IDENTIFIER (chars! "ENCRYPTION_WITH_FOOTER_KEY"), .INTEGER (chars! "2"), .kw .COLON, .IDENTIFIER (chars! "EncryptionWithColumnKey"),
  .IDENTIFIER (chars! "ENCRYPTION_WITH_COLUMN_KEY"), .kw .RBRACE, .kw .STRUCT, .IDENTIFIER (chars! "ColumnChunk"), .kw .LBRACE, .INTEGER (chars! "1"),
  .kw .COLON, .kw .OPTIONAL, .kw .STRING, .IDENTIFIER (chars! "file_path"), .INTEGER (chars! "2"), .kw .COLON, .kw .REQUIRED, .kw .I64,
  .IDENTIFIER (chars! "file_offset"), .INTEGER (chars! "3"), .kw .COLON, .kw .OPTIONAL, .IDENTIFIER (chars! "ColumnMetaData"),
  .IDENTIFIER (chars! "meta_data"), .INTEGER (chars! "4"), .kw .COLON, .kw .OPTIONAL, .kw .I64, .IDENTIFIER (chars! "offset_index_offset"),
  .INTEGER (chars! "5"), .kw .COLON, .kw .OPTIONAL, .kw .I32, .IDENTIFIER (chars! "offset_index_length"), .INTEGER (chars! "6"), .kw .COLON, .kw .OPTIONAL,
  .kw .I64, .IDENTIFIER (chars! "column_index_offset"), .INTEGER (chars! "7"), .kw .COLON, .kw .OPTIONAL, .kw .I32, .IDENTIFIER (chars! "column_index_length"),
  .INTEGER (chars! "8"), .kw .COLON, .kw .OPTIONAL, .IDENTIFIER (chars! "ColumnCryptoMetaData"), .IDENTIFIER (chars! "crypto_metadata"), .INTEGER (chars! "9"),
  .kw .COLON, .kw .OPTIONAL, .kw .BINARY, .IDENTIFIER (chars! "encrypted_column_metadata")]

def toks22 : List Tok := [
  .kw .RBRACE, .kw .STRUCT, .IDENTIFIER (chars! "RowGroup"), .kw .LBRACE, .INTEGER (chars! "1"), .kw .COLON, .kw .REQUIRED, .kw .LIST, .kw .LT,
  .IDENTIFIER (chars! "ColumnChunk"), .kw .GT, .IDENTIFIER (chars! "columns"), .INTEGER (chars! "2"), .kw .COLON, .kw .REQUIRED, .kw .I64,
  .IDENTIFIER (chars! "total_byte_size"), .INTEGER (chars! "3"), .kw .COLON, .kw .REQUIRED, .kw .I64, .IDENTIFIER (chars! "num_rows"), .INTEGER (chars! "4"),
  .kw .COLON, .kw .OPTIONAL, .kw .LIST, .kw .LT, .IDENTIFIER (chars! "SortingColumn"), .kw .GT, .IDENTIFIER (chars! "sorting_columns"), .INTEGER (chars! "5"),
  .kw .COLON, .kw .OPTIONAL, .kw .I64, .IDENTIFIER (chars! "file_offset"), .INTEGER (chars! "6"), .kw .COLON, .kw .OPTIONAL, .kw .I64,
  .IDENTIFIER (chars! "total_compressed_size"), .INTEGER (chars! "7"), .kw .COLON, .kw .OPTIONAL, .kw .I16, .IDENTIFIER (chars! "ordinal"), .kw .RBRACE,
  .kw .STRUCT, .IDENTIFIER (chars! "TypeDefinedOrder"), .kw .LBRACE, .kw .RBRACE]

def toks23 : List Tok := [
  .kw .UNION, .IDENTIFIER (chars! "ColumnOrder"), .kw .LBRACE]

def toks24 : List Tok := [
  .INTEGER (chars! "1"), .kw .COLON, .IDENTIFIER (chars! "TypeDefinedOrder"), .IDENTIFIER (chars! "TYPE_ORDER"), .kw .SEMI, .kw .RBRACE, .kw .STRUCT,
  .IDENTIFIER (chars! "PageLocation"), .kw .LBRACE, .INTEGER (chars! "1"), .kw .COLON, .kw .REQUIRED, .kw .I64, .IDENTIFIER (chars! "offset"),
  .INTEGER (chars! "2"), .kw .COLON, .kw .REQUIRED, .kw .I32, .IDENTIFIER (chars! "compressed_page_size"), .INTEGER (chars! "3"), .kw .COLON, .kw .REQUIRED,
  .kw .I64, .IDENTIFIER (chars! "first_row_index"), .kw .RBRACE, .kw .STRUCT, .IDENTIFIER (chars! "OffsetIndex"), .kw .LBRACE, .INTEGER (chars! "1"),
  .kw .COLON, .kw .REQUIRED, .kw .LIST, .kw .LT, .IDENTIFIER (chars! "PageLocation"), .kw .GT, .IDENTIFIER (chars! "page_locations"), .INTEGER (chars! "2"),
  .kw .COLON, .kw .OPTIONAL, .kw .LIST, .kw .LT, .kw .I64, .kw .GT, .IDENTIFIER (chars! "unencoded_byte_array_data_bytes"), .kw .RBRACE, .kw .STRUCT,
  .IDENTIFIER (chars! "ColumnIndex"), .kw .LBRACE]

def toks25 : List Tok := [
  .INTEGER (chars! "1"), .kw .COLON, .kw .REQUIRED, .kw .LIST, .kw .LT, .kw .BOOL, .kw .GT, .IDENTIFIER (chars! "null_pages"), .INTEGER (chars! "2"),
  .kw .COLON, .kw .REQUIRED, .kw .LIST, .kw .LT, .kw .BINARY, .kw .GT, .IDENTIFIER (chars! "min_values"), .INTEGER (chars! "3"), .kw .COLON, .kw .REQUIRED,
  .kw .LIST, .kw .LT, .kw .BINARY, .kw .GT, .IDENTIFIER (chars! "max_values"), .INTEGER (chars! "4"), .kw .COLON, .kw .REQUIRED,
  .IDENTIFIER (chars! "BoundaryOrder"), .IDENTIFIER (chars! "boundary_order"), .INTEGER (chars! "5"), .kw .COLON, .kw .OPTIONAL, .kw .LIST, .kw .LT, .kw .I64,
  .kw .GT, .IDENTIFIER (chars! "null_counts")]

def toks26 : List Tok := [
  .INTEGER (chars! "6"), .kw .COLON, .kw .OPTIONAL, .kw .LIST, .kw .LT, .kw .I64, .kw .GT, .IDENTIFIER (chars! "repetition_level_histograms"), .kw .SEMI,
  .INTEGER (chars! "7"), .kw .COLON, .kw .OPTIONAL, .kw .LIST, .kw .LT, .kw .I64, .kw .GT, .IDENTIFIER (chars! "definition_level_histograms"), .kw .SEMI,
  .kw .RBRACE, .kw .STRUCT, .IDENTIFIER (chars! "AesGcmV1"), .kw .LBRACE, .INTEGER (chars! "1"), .kw .COLON, .kw .OPTIONAL, .kw .BINARY,
  .IDENTIFIER (chars! "aad_prefix"), .INTEGER (chars! "2"), .kw .COLON, .kw .OPTIONAL, .kw .BINARY, .IDENTIFIER (chars! "aad_file_unique"),
  .INTEGER (chars! "3"), .kw .COLON, .kw .OPTIONAL, .kw .BOOL, .IDENTIFIER (chars! "supply_aad_prefix"), .kw .RBRACE, .kw .STRUCT,
  .IDENTIFIER (chars! "AesGcmCtrV1"), .kw .LBRACE, .INTEGER (chars! "1"), .kw .COLON, .kw .OPTIONAL, .kw .BINARY, .IDENTIFIER (chars! "aad_prefix"),
  .INTEGER (chars! "2"), .kw .COLON, .kw .OPTIONAL, .kw .BINARY, .IDENTIFIER (chars! "aad_file_unique"), .INTEGER (chars! "3"), .kw .COLON, .kw .OPTIONAL,
  .kw .BOOL, .IDENTIFIER (chars! "supply_aad_prefix"), .kw .RBRACE, .kw .UNION, .IDENTIFIER (chars! "EncryptionAlgorithm"), .kw .LBRACE, .INTEGER (chars! "1"),
  .kw .COLON, .IDENTIFIER (chars! "AesGcmV1"), .IDENTIFIER (chars! "AES_GCM_V1"), .INTEGER (chars! "2"), .kw .COLON, .IDENTIFIER (chars! "AesGcmCtrV1"),
  .IDENTIFIER (chars! "AES_GCM_CTR_V1"), .kw .RBRACE]

def toks27 : List Tok := [
  .kw .STRUCT, .IDENTIFIER (chars! "FileMetaData"), .kw .LBRACE, .INTEGER (chars! "1"), .kw .COLON, .kw .REQUIRED, .kw .I32, .IDENTIFIER (chars! "version"),
  .INTEGER (chars! "2"), .kw .COLON, .kw .REQUIRED, .kw .LIST, .kw .LT, .IDENTIFIER (chars! "SchemaElement"), .kw .GT, .IDENTIFIER (chars! "schema"),
  .kw .SEMI, .INTEGER (chars! "3"), .kw .COLON, .kw .REQUIRED, .kw .I64, .IDENTIFIER (chars! "num_rows"), .INTEGER (chars! "4"), .kw .COLON, .kw .REQUIRED,
  .kw .LIST, .kw .LT, .IDENTIFIER (chars! "RowGroup"), .kw .GT, .IDENTIFIER (chars! "row_groups"), .INTEGER (chars! "5"), .kw .COLON, .kw .OPTIONAL, .kw .LIST,
  .kw .LT, .IDENTIFIER (chars! "KeyValue"), .kw .GT, .IDENTIFIER (chars! "key_value_metadata"), .INTEGER (chars! "6"), .kw .COLON, .kw .OPTIONAL, .kw .STRING,
  .IDENTIFIER (chars! "created_by")]

def toks28 : List Tok := [
  .INTEGER (chars! "7"), .kw .COLON, .kw .OPTIONAL, .kw .LIST, .kw .LT, .IDENTIFIER (chars! "ColumnOrder"), .kw .GT, .IDENTIFIER (chars! "column_orders"),
  .kw .SEMI, .INTEGER (chars! "8"), .kw .COLON, .kw .OPTIONAL, .IDENTIFIER (chars! "EncryptionAlgorithm"), .IDENTIFIER (chars! "encryption_algorithm"),
  .INTEGER (chars! "9"), .kw .COLON, .kw .OPTIONAL, .kw .BINARY, .IDENTIFIER (chars! "footer_signing_key_metadata"), .kw .RBRACE, .kw .STRUCT,
  .IDENTIFIER (chars! "FileCryptoMetaData"), .kw .LBRACE, .INTEGER (chars! "1"), .kw .COLON, .kw .REQUIRED, .IDENTIFIER (chars! "EncryptionAlgorithm"),
  .IDENTIFIER (chars! "encryption_algorithm"), .INTEGER (chars! "2"), .kw .COLON, .kw .OPTIONAL, .kw .BINARY, .IDENTIFIER (chars! "key_metadata"), .kw .RBRACE]

theorem piece0 (b : List Char) : tokens (ofLines text0 ++ b) = (tokens b).map (toks0 ++ ·) := tokens_piece (by decide +kernel) b

theorem piece1 (b : List Char) : tokens (ofLines text1 ++ b) = (tokens b).map (toks1 ++ ·) := tokens_piece (by decide +kernel) b

theorem piece2 (b : List Char) : tokens (ofLines text2 ++ b) = (tokens b).map (toks2 ++ ·) := tokens_piece (by decide +kernel) b

theorem piece3 (b : List Char) : tokens (ofLines text3 ++ b) = (tokens b).map (toks3 ++ ·) := tokens_piece (by decide +kernel) b

theorem piece4 (b : List Char) : tokens (ofLines text4 ++ b) = (tokens b).map (toks4 ++ ·) := tokens_piece (by decide +kernel) b

theorem piece5 (b : List Char) : tokens (ofLines text5 ++ b) = (tokens b).map (toks5 ++ ·) := tokens_piece (by decide +kernel) b

theorem piece6 (b : List Char) : tokens (ofLines text6 ++ b) = (tokens b).map (toks6 ++ ·) := tokens_piece (by decide +kernel) b

theorem piece7 (b : List Char) : tokens (ofLines text7 ++ b) = (tokens b).map (toks7 ++ ·) := tokens_piece (by decide +kernel) b

theorem piece8 (b : List Char) : tokens (ofLines text8 ++ b) = (tokens b).map (toks8 ++ ·) := tokens_piece (by decide +kernel) b

theorem piece9 (b : List Char) : tokens (ofLines text9 ++ b) = (tokens b).map (toks9 ++ ·) := tokens_piece (by decide +kernel) b

theorem piece10 (b : List Char) : tokens (ofLines text10 ++ b) = (tokens b).map (toks10 ++ ·) := tokens_piece (by decide +kernel) b

theorem piece11 (b : List Char) : tokens (ofLines text11 ++ b) = (tokens b).map (toks11 ++ ·) := tokens_piece (by decide +kernel) b

theorem piece12 (b : List Char) : tokens (ofLines text12 ++ b) = (tokens b).map (toks12 ++ ·) := tokens_piece (by decide +kernel) b

theorem piece13 (b : List Char) : tokens (ofLines text13 ++ b) = (tokens b).map (toks13 ++ ·) := tokens_piece (by decide +kernel) b

theorem piece14 (b : List Char) : tokens (ofLines text14 ++ b) = (tokens b).map (toks14 ++ ·) := tokens_piece (by decide +kernel) b

theorem piece15 (b : List Char) : tokens (ofLines text15 ++ b) = (tokens b).map (toks15 ++ ·) := tokens_piece (by decide +kernel) b

theorem piece16 (b : List Char) : tokens (ofLines text16 ++ b) = (tokens b).map (toks16 ++ ·) := tokens_piece (by decide +kernel) b

theorem piece17 (b : List Char) : tokens (ofLines text17 ++ b) = (tokens b).map (toks17 ++ ·) := tokens_piece (by decide +kernel) b

theorem piece18 (b : List Char) : tokens (ofLines text18 ++ b) = (tokens b).map (toks18 ++ ·) := tokens_piece (by decide +kernel) b

theorem piece19 (b : List Char) : tokens (ofLines text19 ++ b) = (tokens b).map (toks19 ++ ·) := tokens_piece (by decide +kernel) b

theorem piece20 (b : List Char) : tokens (ofLines text20 ++ b) = (tokens b).map (toks20 ++ ·) := tokens_piece (by decide +kernel) b

theorem piece21 (b : List Char) : tokens (ofLines text21 ++ b) = (tokens b).map (toks21 ++ ·) := tokens_piece (by decide +kernel) b

theorem piece22 (b : List Char) : tokens (ofLines text22 ++ b) = (tokens b).map (toks22 ++ ·) := tokens_piece (by decide +kernel) b

theorem piece23 (b : List Char) : tokens (ofLines text23 ++ b) = (tokens b).map (toks23 ++ ·) := tokens_piece (by decide +kernel) b

theorem piece24 (b : List Char) : tokens (ofLines text24 ++ b) = (tokens b).map (toks24 ++ ·) := tokens_piece (by decide +kernel) b

theorem piece25 (b : List Char) : tokens (ofLines text25 ++ b) = (tokens b).map (toks25 ++ ·) := tokens_piece (by decide +kernel) b

theorem piece26 (b : List Char) : tokens (ofLines text26 ++ b) = (tokens b).map (toks26 ++ ·) := tokens_piece (by decide +kernel) b

theorem piece27 (b : List Char) : tokens (ofLines text27 ++ b) = (tokens b).map (toks27 ++ ·) := tokens_piece (by decide +kernel) b

theorem piece28 (b : List Char) : tokens (ofLines text28 ++ b) = (tokens b).map (toks28 ++ ·) := tokens_piece (by decide +kernel) b

/-- The tokens of parquet.thrift -/
def parquetToks : List Tok :=
  toks0 ++ toks1 ++ toks2 ++ toks3 ++ toks4 ++ toks5 ++ toks6 ++ toks7 ++ toks8 ++ toks9 ++ toks10 ++ toks11 ++ toks12 ++ toks13 ++
  toks14 ++ toks15 ++ toks16 ++ toks17 ++ toks18 ++ toks19 ++ toks20 ++ toks21 ++ toks22 ++ toks23 ++ toks24 ++ toks25 ++ toks26 ++
  toks27 ++ toks28

/-- C88: the tokens of the file. -/
theorem C88_tokens : tokens parquetText = some parquetToks := by
  unfold parquetText parquetLines parquetToks
  simp only [ofLines_append, List.append_assoc]
  rw [← List.append_nil (ofLines text28)]
  rw [piece0, piece1, piece2, piece3, piece4, piece5, piece6, piece7, piece8, piece9, piece10, piece11, piece12, piece13, piece14, piece15, piece16, piece17, piece18, piece19, piece20, piece21, piece22, piece23, piece24, piece25, piece26, piece27, piece28]
  rfl

end CT.Props
