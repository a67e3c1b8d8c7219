import Verif.Model.Macros
/-!
# The tokens of parquet/src/format.rs

The argument of `thrift!` in format.rs, token by token, produced by a script; `d1, d2` is a doc comment (an attribute to macros), other
comments are not tokens.
-/
namespace CT.Format
open CT.Macro

/-- `#` of the attribute a doc comment is -/
abbrev d1 : TT := .punct '#'
/-- the rest of it, `[doc = "..."]` -/
abbrev d2 : TT := .group .bracket [.ident "doc", .punct '=', .lit .text]
abbrev i (s : String) : TT := .ident s
abbrev n (x : Nat) : TT := .lit (.int x)
abbrev p (c : Char) : TT := .punct c
abbrev b (ts : List TT) : TT := .group .brace ts

/-- format.rs:25-40 -/
def kType : List TT := [d1, d2, i "enum", i "Type", b [
    i "BOOLEAN", p '=', n 0, p ';', i "INT32", p '=', n 1, p ';', i "INT64", p '=', n 2, p ';', i "INT96", p '=',
    n 3, p ';', i "FLOAT", p '=', n 4, p ';', i "DOUBLE", p '=', n 5, p ';', i "BYTE_ARRAY", p '=', n 6, p ';',
    i "FIXED_LEN_BYTE_ARRAY", p '=', n 7, p ';']]

/-- format.rs:42-177 -/
def kConvertedType : List TT := [d1, d2, i "enum", i "ConvertedType", b [
    d1, d2, i "UTF8", p '=', n 0, p ';', d1, d2, i "MAP", p '=', n 1, p ';', d1, d2, i "MAP_KEY_VALUE", p '=', n 2,
    p ';', d1, d2, i "LIST", p '=', n 3, p ';', d1, d2, i "ENUM", p '=', n 4, p ';', d1, d2, i "DECIMAL", p '=',
    n 5, p ';', d1, d2, i "DATE", p '=', n 6, p ';', d1, d2, i "TIME_MILLIS", p '=', n 7, p ';', d1, d2,
    i "TIME_MICROS", p '=', n 8, p ';', d1, d2, i "TIMESTAMP_MILLIS", p '=', n 9, p ';', d1, d2,
    i "TIMESTAMP_MICROS", p '=', n 10, p ';', d1, d2, i "UINT_8", p '=', n 11, p ';', i "UINT_16", p '=', n 12,
    p ';', i "UINT_32", p '=', n 13, p ';', i "UINT_64", p '=', n 14, p ';', d1, d2, i "INT_8", p '=', n 15, p ';',
    i "INT_16", p '=', n 16, p ';', i "INT_32", p '=', n 17, p ';', i "INT_64", p '=', n 18, p ';', d1, d2,
    i "JSON", p '=', n 19, p ';', d1, d2, i "BSON", p '=', n 20, p ';', d1, d2, i "INTERVAL", p '=', n 21, p ';']]

/-- format.rs:179-191 -/
def kFieldRepetitionType : List TT := [d1, d2, i "enum", i "FieldRepetitionType", b [
    d1, d2, i "REQUIRED", p '=', n 0, p ';', d1, d2, i "OPTIONAL", p '=', n 1, p ';', d1, d2, i "REPEATED", p '=',
    n 2, p ';']]

/-- format.rs:193-237 -/
def kSizeStatistics : List TT := [d1, d2, i "struct", i "SizeStatistics", b [
    d1, d2, n 1, p ':', i "optional", i "i64", i "unencoded_byte_array_data_bytes", p ';', d1, d2, n 2, p ':',
    i "optional", i "list", p '<', i "i64", p '>', i "repetition_level_histogram", p ';', d1, d2, n 3, p ':',
    i "optional", i "list", p '<', i "i64", p '>', i "definition_level_histogram", p ';']]

/-- format.rs:239-252 -/
def kBoundingBox : List TT := [d1, d2, i "struct", i "BoundingBox", b [
    n 1, p ':', i "required", i "double", i "xmin", p ';', n 2, p ':', i "required", i "double", i "xmax", p ';',
    n 3, p ':', i "required", i "double", i "ymin", p ';', n 4, p ':', i "required", i "double", i "ymax", p ';',
    n 5, p ':', i "optional", i "double", i "zmin", p ';', n 6, p ':', i "optional", i "double", i "zmax", p ';',
    n 7, p ':', i "optional", i "double", i "mmin", p ';', n 8, p ':', i "optional", i "double", i "mmax", p ';']]

/-- format.rs:254-260 -/
def kGeospatialStatistics : List TT := [d1, d2, i "struct", i "GeospatialStatistics", b [
    d1, d2, n 1, p ':', i "optional", i "BoundingBox", i "bbox", p ';', d1, d2, n 2, p ':', i "optional", i "list",
    p '<', i "i32", p '>', i "geospatial_types", p ';']]

/-- format.rs:262-311 -/
def kStatistics : List TT := [d1, d2, i "struct", i "Statistics", b [
    d1, d2, n 1, p ':', i "optional", i "binary", i "max", p ';', n 2, p ':', i "optional", i "binary", i "min",
    p ';', d1, d2, n 3, p ':', i "optional", i "i64", i "null_count", p ';', d1, d2, n 4, p ':', i "optional",
    i "i64", i "distinct_count", p ';', d1, d2, n 5, p ':', i "optional", i "binary", i "max_value", p ';', n 6,
    p ':', i "optional", i "binary", i "min_value", p ';', d1, d2, n 7, p ':', i "optional", i "bool",
    i "is_max_value_exact", p ';', d1, d2, n 8, p ':', i "optional", i "bool", i "is_min_value_exact", p ';']]

/-- format.rs:313-314 -/
def kStringType : List TT := [d1, d2, i "struct", i "StringType", b []]

/-- format.rs:315-315 -/
def kUUIDType : List TT := [i "struct", i "UUIDType", b []]

/-- format.rs:316-316 -/
def kMapType : List TT := [i "struct", i "MapType", b []]

/-- format.rs:317-317 -/
def kListType : List TT := [i "struct", i "ListType", b []]

/-- format.rs:318-318 -/
def kEnumType : List TT := [i "struct", i "EnumType", b []]

/-- format.rs:319-319 -/
def kDateType : List TT := [i "struct", i "DateType", b []]

/-- format.rs:320-320 -/
def kFloat16Type : List TT := [i "struct", i "Float16Type", b []]

/-- format.rs:322-329 -/
def kNullType : List TT := [d1, d2, i "struct", i "NullType", b []]

/-- format.rs:331-345 -/
def kDecimalType : List TT := [d1, d2, i "struct", i "DecimalType", b [
    n 1, p ':', i "required", i "i32", i "scale", n 2, p ':', i "required", i "i32", i "precision"]]

/-- format.rs:347-348 -/
def kMilliSeconds : List TT := [d1, d2, i "struct", i "MilliSeconds", b []]

/-- format.rs:349-349 -/
def kMicroSeconds : List TT := [i "struct", i "MicroSeconds", b []]

/-- format.rs:350-350 -/
def kNanoSeconds : List TT := [i "struct", i "NanoSeconds", b []]

/-- format.rs:351-355 -/
def kTimeUnit : List TT := [i "union", i "TimeUnit", b [
    n 1, p ':', i "MilliSeconds", i "MILLIS", n 2, p ':', i "MicroSeconds", i "MICROS", n 3, p ':',
    i "NanoSeconds", i "NANOS"]]

/-- format.rs:357-365 -/
def kTimestampType : List TT := [d1, d2, i "struct", i "TimestampType", b [
    n 1, p ':', i "required", i "bool", i "isAdjustedToUTC", n 2, p ':', i "required", i "TimeUnit", i "unit"]]

/-- format.rs:367-375 -/
def kTimeType : List TT := [d1, d2, i "struct", i "TimeType", b [
    n 1, p ':', i "required", i "bool", i "isAdjustedToUTC", n 2, p ':', i "required", i "TimeUnit", i "unit"]]

/-- format.rs:377-387 -/
def kIntType : List TT := [d1, d2, i "struct", i "IntType", b [
    n 1, p ':', i "required", i "i8", i "bitWidth", n 2, p ':', i "required", i "bool", i "isSigned"]]

/-- format.rs:389-395 -/
def kJsonType : List TT := [d1, d2, i "struct", i "JsonType", b []]

/-- format.rs:397-403 -/
def kBsonType : List TT := [d1, d2, i "struct", i "BsonType", b []]

/-- format.rs:405-412 -/
def kVariantType : List TT := [d1, d2, i "struct", i "VariantType", b [
    n 1, p ':', i "optional", i "i8", i "specification_version"]]

/-- format.rs:414-421 -/
def kEdgeInterpolationAlgorithm : List TT := [d1, d2, i "enum", i "EdgeInterpolationAlgorithm", b [
    i "SPHERICAL", p '=', n 0, p ';', i "VINCENTY", p '=', n 1, p ';', i "THOMAS", p '=', n 2, p ';', i "ANDOYER",
    p '=', n 3, p ';', i "KARNEY", p '=', n 4, p ';']]

/-- format.rs:423-439 -/
def kGeometryType : List TT := [d1, d2, i "struct", i "GeometryType", b [
    n 1, p ':', i "optional", i "string", i "crs", p ';']]

/-- format.rs:441-461 -/
def kGeographyType : List TT := [d1, d2, i "struct", i "GeographyType", b [
    n 1, p ':', i "optional", i "string", i "crs", p ';', n 2, p ':', i "optional", i "EdgeInterpolationAlgorithm",
    i "algorithm", p ';']]

/-- format.rs:463-496 -/
def kLogicalType : List TT := [d1, d2, i "union", i "LogicalType", b [
    n 1, p ':', i "StringType", i "STRING", n 2, p ':', i "MapType", i "MAP", n 3, p ':', i "ListType", i "LIST",
    n 4, p ':', i "EnumType", i "ENUM", n 5, p ':', i "DecimalType", i "DECIMAL", n 6, p ':', i "DateType",
    i "DATE", n 7, p ':', i "TimeType", i "TIME", n 8, p ':', i "TimestampType", i "TIMESTAMP", n 10, p ':',
    i "IntType", i "INTEGER", n 11, p ':', i "NullType", i "UNKNOWN", n 12, p ':', i "JsonType", i "JSON", n 13,
    p ':', i "BsonType", i "BSON", n 14, p ':', i "UUIDType", i "UUID", n 15, p ':', i "Float16Type", i "FLOAT16",
    n 16, p ':', i "VariantType", i "VARIANT", n 17, p ':', i "GeometryType", i "GEOMETRY", n 18, p ':',
    i "GeographyType", i "GEOGRAPHY"]]

/-- format.rs:498-558 -/
def kSchemaElement : List TT := [d1, d2, i "struct", i "SchemaElement", b [
    d1, d2, n 1, p ':', i "optional", i "Type", i "type_", p ';', d1, d2, n 2, p ':', i "optional", i "i32",
    i "type_length", p ';', d1, d2, n 3, p ':', i "optional", i "FieldRepetitionType", i "repetition_type", p ';',
    d1, d2, n 4, p ':', i "required", i "string", i "name", p ';', d1, d2, n 5, p ':', i "optional", i "i32",
    i "num_children", p ';', d1, d2, n 6, p ':', i "optional", i "ConvertedType", i "converted_type", p ';',
    d1, d2, n 7, p ':', i "optional", i "i32", i "scale", n 8, p ':', i "optional", i "i32", i "precision", d1, d2,
    n 9, p ':', i "optional", i "i32", i "field_id", p ';', d1, d2, n 10, p ':', i "optional", i "LogicalType",
    i "logicalType"]]

/-- format.rs:560-630 -/
def kEncoding : List TT := [d1, d2, i "enum", i "Encoding", b [
    d1, d2, i "PLAIN", p '=', n 0, p ';', d1, d2, d1, d2, i "PLAIN_DICTIONARY", p '=', n 2, p ';', d1, d2, i "RLE",
    p '=', n 3, p ';', d1, d2, i "BIT_PACKED", p '=', n 4, p ';', d1, d2, i "DELTA_BINARY_PACKED", p '=', n 5,
    p ';', d1, d2, i "DELTA_LENGTH_BYTE_ARRAY", p '=', n 6, p ';', d1, d2, i "DELTA_BYTE_ARRAY", p '=', n 7, p ';',
    d1, d2, i "RLE_DICTIONARY", p '=', n 8, p ';', d1, d2, i "BYTE_STREAM_SPLIT", p '=', n 9, p ';']]

/-- format.rs:632-650 -/
def kCompressionCodec : List TT := [d1, d2, i "enum", i "CompressionCodec", b [
    i "UNCOMPRESSED", p '=', n 0, p ';', i "SNAPPY", p '=', n 1, p ';', i "GZIP", p '=', n 2, p ';', i "LZO",
    p '=', n 3, p ';', i "BROTLI", p '=', n 4, p ';', i "LZ4", p '=', n 5, p ';', i "ZSTD", p '=', n 6, p ';',
    i "LZ4_RAW", p '=', n 7, p ';']]

/-- format.rs:652-657 -/
def kPageType : List TT := [i "enum", i "PageType", b [
    i "DATA_PAGE", p '=', n 0, p ';', i "INDEX_PAGE", p '=', n 1, p ';', i "DICTIONARY_PAGE", p '=', n 2, p ';',
    i "DATA_PAGE_V2", p '=', n 3, p ';']]

/-- format.rs:659-667 -/
def kBoundaryOrder : List TT := [d1, d2, i "enum", i "BoundaryOrder", b [
    i "UNORDERED", p '=', n 0, p ';', i "ASCENDING", p '=', n 1, p ';', i "DESCENDING", p '=', n 2, p ';']]

/-- format.rs:669-691 -/
def kDataPageHeader : List TT := [d1, d2, i "struct", i "DataPageHeader", b [
    d1, d2, n 1, p ':', i "required", i "i32", i "num_values", d1, d2, n 2, p ':', i "required", i "Encoding",
    i "encoding", d1, d2, n 3, p ':', i "required", i "Encoding", i "definition_level_encoding", p ';', d1, d2,
    n 4, p ':', i "required", i "Encoding", i "repetition_level_encoding", p ';', d1, d2, n 5, p ':', i "optional",
    i "Statistics", i "statistics", p ';']]

/-- format.rs:693-695 -/
def kIndexPageHeader : List TT := [i "struct", i "IndexPageHeader", b []]

/-- format.rs:697-711 -/
def kDictionaryPageHeader : List TT := [d1, d2, i "struct", i "DictionaryPageHeader", b [
    d1, d2, n 1, p ':', i "required", i "i32", i "num_values", p ';', d1, d2, n 2, p ':', i "required",
    i "Encoding", i "encoding", d1, d2, n 3, p ':', i "optional", i "bool", i "is_sorted", p ';']]

/-- format.rs:713-749 -/
def kDataPageHeaderV2 : List TT := [d1, d2, i "struct", i "DataPageHeaderV2", b [
    d1, d2, n 1, p ':', i "required", i "i32", i "num_values", d1, d2, n 2, p ':', i "required", i "i32",
    i "num_nulls", d1, d2, n 3, p ':', i "required", i "i32", i "num_rows", d1, d2, n 4, p ':', i "required",
    i "Encoding", i "encoding", d1, d2, n 5, p ':', i "required", i "i32", i "definition_levels_byte_length",
    p ';', d1, d2, n 6, p ':', i "required", i "i32", i "repetition_levels_byte_length", p ';', d1, d2, n 7, p ':',
    i "optional", i "bool", i "is_compressed", p '=', i "true", p ';', d1, d2, n 8, p ':', i "optional",
    i "Statistics", i "statistics", p ';']]

/-- format.rs:751-752 -/
def kSplitBlockAlgorithm : List TT := [d1, d2, i "struct", i "SplitBlockAlgorithm", b []]

/-- format.rs:753-757 -/
def kBloomFilterAlgorithm : List TT := [d1, d2, i "union", i "BloomFilterAlgorithm", b [
    d1, d2, n 1, p ':', i "SplitBlockAlgorithm", i "BLOCK", p ';']]

/-- format.rs:759-762 -/
def kXxHash : List TT := [d1, d2, i "struct", i "XxHash", b []]

/-- format.rs:764-771 -/
def kBloomFilterHash : List TT := [d1, d2, i "union", i "BloomFilterHash", b [
    d1, d2, n 1, p ':', i "XxHash", i "XXHASH", p ';']]

/-- format.rs:773-776 -/
def kUncompressed : List TT := [d1, d2, i "struct", i "Uncompressed", b []]

/-- format.rs:777-779 -/
def kBloomFilterCompression : List TT := [i "union", i "BloomFilterCompression", b [
    n 1, p ':', i "Uncompressed", i "UNCOMPRESSED", p ';']]

/-- format.rs:781-794 -/
def kBloomFilterHeader : List TT := [d1, d2, i "struct", i "BloomFilterHeader", b [
    d1, d2, n 1, p ':', i "required", i "i32", i "numBytes", p ';', d1, d2, n 2, p ':', i "required",
    i "BloomFilterAlgorithm", i "algorithm", p ';', d1, d2, n 3, p ':', i "required", i "BloomFilterHash",
    i "hash", p ';', d1, d2, n 4, p ':', i "required", i "BloomFilterCompression", i "compression", p ';']]

/-- format.rs:796-830 -/
def kPageHeader : List TT := [i "struct", i "PageHeader", b [
    d1, d2, n 1, p ':', i "required", i "PageType", i "type_", d1, d2, n 2, p ':', i "required", i "i32",
    i "uncompressed_page_size", d1, d2, n 3, p ':', i "required", i "i32", i "compressed_page_size", d1, d2, n 4,
    p ':', i "optional", i "i32", i "crc", n 5, p ':', i "optional", i "DataPageHeader", i "data_page_header",
    p ';', n 6, p ':', i "optional", i "IndexPageHeader", i "index_page_header", p ';', n 7, p ':', i "optional",
    i "DictionaryPageHeader", i "dictionary_page_header", p ';', n 8, p ':', i "optional", i "DataPageHeaderV2",
    i "data_page_header_v2", p ';']]

/-- format.rs:832-838 -/
def kKeyValue : List TT := [d1, d2, i "struct", i "KeyValue", b [
    n 1, p ':', i "required", i "string", i "key", n 2, p ':', i "optional", i "string", i "value"]]

/-- format.rs:840-853 -/
def kSortingColumn : List TT := [d1, d2, i "struct", i "SortingColumn", b [
    d1, d2, n 1, p ':', i "required", i "i32", i "column_idx", d1, d2, n 2, p ':', i "required", i "bool",
    i "descending", d1, d2, n 3, p ':', i "required", i "bool", i "nulls_first"]]

/-- format.rs:855-869 -/
def kPageEncodingStats : List TT := [d1, d2, i "struct", i "PageEncodingStats", b [
    d1, d2, n 1, p ':', i "required", i "PageType", i "page_type", p ';', d1, d2, n 2, p ':', i "required",
    i "Encoding", i "encoding", p ';', d1, d2, n 3, p ':', i "required", i "i32", i "count", p ';']]

/-- format.rs:871-941 -/
def kColumnMetaData : List TT := [d1, d2, i "struct", i "ColumnMetaData", b [
    d1, d2, n 1, p ':', i "required", i "Type", i "type_", d1, d2, n 2, p ':', i "required", i "EncodingSet",
    i "encodings", d1, d2, n 4, p ':', i "required", i "CompressionCodec", i "codec", d1, d2, n 5, p ':',
    i "required", i "i64", i "num_values", d1, d2, n 6, p ':', i "required", i "i64", i "total_uncompressed_size",
    d1, d2, n 7, p ':', i "required", i "i64", i "total_compressed_size", d1, d2, n 8, p ':', i "optional",
    i "list", p '<', i "KeyValue", p '>', i "key_value_metadata", d1, d2, n 9, p ':', i "required", i "i64",
    i "data_page_offset", d1, d2, n 11, p ':', i "optional", i "i64", i "dictionary_page_offset", d1, d2, n 12,
    p ':', i "optional", i "Statistics", i "statistics", p ';', d1, d2, n 13, p ':', i "optional", i "list", p '<',
    i "PageEncodingStats", p '>', i "encoding_stats", p ';', d1, d2, n 14, p ':', i "optional", i "i64",
    i "bloom_filter_offset", p ';', d1, d2, n 15, p ':', i "optional", i "i32", i "bloom_filter_length", p ';',
    d1, d2, n 16, p ':', i "optional", i "SizeStatistics", i "size_statistics", p ';', d1, d2, n 17, p ':',
    i "optional", i "Box", p '<', i "GeospatialStatistics", p '>', i "geospatial_statistics", p ';']]

/-- format.rs:943-944 -/
def kEncryptionWithFooterKey : List TT := [i "struct", i "EncryptionWithFooterKey", b []]

/-- format.rs:946-952 -/
def kEncryptionWithColumnKey : List TT := [i "struct", i "EncryptionWithColumnKey", b [
    d1, d2, n 1, p ':', i "required", i "list", p '<', i "string", p '>', i "path_in_schema", d1, d2, n 2, p ':',
    i "optional", i "binary", i "key_metadata"]]

/-- format.rs:954-957 -/
def kColumnCryptoMetaData : List TT := [i "union", i "ColumnCryptoMetaData", b [
    n 1, p ':', i "EncryptionWithFooterKey", i "ENCRYPTION_WITH_FOOTER_KEY", n 2, p ':',
    i "EncryptionWithColumnKey", i "ENCRYPTION_WITH_COLUMN_KEY"]]

/-- format.rs:959-1000 -/
def kColumnChunk : List TT := [i "struct", i "ColumnChunk", b [
    d1, d2, n 1, p ':', i "optional", i "string", i "file_path", d1, d2, n 2, p ':', i "required", i "i64",
    i "file_offset", p '=', n 0, d1, d2, n 3, p ':', i "optional", i "ColumnMetaData", i "meta_data", d1, d2, n 4,
    p ':', i "optional", i "i64", i "offset_index_offset", d1, d2, n 5, p ':', i "optional", i "i32",
    i "offset_index_length", d1, d2, n 6, p ':', i "optional", i "i64", i "column_index_offset", d1, d2, n 7,
    p ':', i "optional", i "i32", i "column_index_length", d1, d2, n 8, p ':', i "optional", i "Box", p '<',
    i "ColumnCryptoMetaData", p '>', i "crypto_metadata", d1, d2, n 9, p ':', i "optional", i "binary",
    i "encrypted_column_metadata"]]

/-- format.rs:1002-1029 -/
def kRowGroup : List TT := [i "struct", i "RowGroup", b [
    d1, d2, n 1, p ':', i "required", i "list", p '<', i "ColumnChunk", p '>', i "columns", d1, d2, n 2, p ':',
    i "required", i "i64", i "total_byte_size", d1, d2, n 3, p ':', i "required", i "i64", i "num_rows", d1, d2,
    n 4, p ':', i "optional", i "list", p '<', i "SortingColumn", p '>', i "sorting_columns", d1, d2, n 5, p ':',
    i "optional", i "i64", i "file_offset", d1, d2, n 6, p ':', i "optional", i "i64", i "total_compressed_size",
    d1, d2, n 7, p ':', i "optional", i "i16", i "ordinal"]]

/-- format.rs:1031-1032 -/
def kTypeDefinedOrder : List TT := [d1, d2, i "struct", i "TypeDefinedOrder", b []]

/-- format.rs:1034-1103 -/
def kColumnOrder : List TT := [d1, d2, i "union", i "ColumnOrder", b [
    d1, d2, n 1, p ':', i "TypeDefinedOrder", i "TYPE_ORDER", p ';']]

/-- format.rs:1105-1121 -/
def kPageLocation : List TT := [i "struct", i "PageLocation", b [
    d1, d2, n 1, p ':', i "required", i "i64", i "offset", d1, d2, n 2, p ':', i "required", i "i32",
    i "compressed_page_size", d1, d2, n 3, p ':', i "required", i "i64", i "first_row_index"]]

/-- format.rs:1123-1143 -/
def kOffsetIndex : List TT := [d1, d2, i "struct", i "OffsetIndex", b [
    d1, d2, n 1, p ':', i "required", i "list", p '<', i "PageLocation", p '>', i "page_locations", d1, d2, n 2,
    p ':', i "optional", i "list", p '<', i "i64", p '>', i "unencoded_byte_array_data_bytes"]]

/-- format.rs:1145-1215 -/
def kColumnIndex : List TT := [d1, d2, i "struct", i "ColumnIndex", b [
    d1, d2, n 1, p ':', i "required", i "list", p '<', i "bool", p '>', i "null_pages", d1, d2, n 2, p ':',
    i "required", i "list", p '<', i "binary", p '>', i "min_values", n 3, p ':', i "required", i "list", p '<',
    i "binary", p '>', i "max_values", d1, d2, n 4, p ':', i "required", i "BoundaryOrder", i "boundary_order",
    d1, d2, n 5, p ':', i "optional", i "list", p '<', i "i64", p '>', i "null_counts", d1, d2, n 6, p ':',
    i "optional", i "list", p '<', i "i64", p '>', i "repetition_level_histograms", p ';', d1, d2, n 7, p ':',
    i "optional", i "list", p '<', i "i64", p '>', i "definition_level_histograms", p ';']]

/-- format.rs:1217-1227 -/
def kAesGcmV1 : List TT := [i "struct", i "AesGcmV1", b [
    d1, d2, n 1, p ':', i "optional", i "binary", i "aad_prefix", d1, d2, n 2, p ':', i "optional", i "binary",
    i "aad_file_unique", d1, d2, n 3, p ':', i "optional", i "bool", i "supply_aad_prefix"]]

/-- format.rs:1229-1239 -/
def kAesGcmCtrV1 : List TT := [i "struct", i "AesGcmCtrV1", b [
    d1, d2, n 1, p ':', i "optional", i "binary", i "aad_prefix", d1, d2, n 2, p ':', i "optional", i "binary",
    i "aad_file_unique", d1, d2, n 3, p ':', i "optional", i "bool", i "supply_aad_prefix"]]

/-- format.rs:1241-1244 -/
def kEncryptionAlgorithm : List TT := [i "union", i "EncryptionAlgorithm", b [
    n 1, p ':', i "AesGcmV1", i "AES_GCM_V1", n 2, p ':', i "AesGcmCtrV1", i "AES_GCM_CTR_V1"]]

/-- format.rs:1246-1306 -/
def kFileMetaData : List TT := [d1, d2, i "struct", i "FileMetaData", b [
    d1, d2, n 1, p ':', i "required", i "i32", i "version", d1, d2, n 2, p ':', i "required", i "list", p '<',
    i "SchemaElement", p '>', i "schema", p ';', d1, d2, n 3, p ':', i "required", i "i64", i "num_rows", d1, d2,
    n 4, p ':', i "required", i "list", p '<', i "RowGroup", p '>', i "row_groups", d1, d2, n 5, p ':',
    i "optional", i "list", p '<', i "KeyValue", p '>', i "key_value_metadata", d1, d2, n 6, p ':', i "optional",
    i "string", i "created_by", d1, d2, n 7, p ':', i "optional", i "list", p '<', i "ColumnOrder", p '>',
    i "column_orders", p ';', d1, d2, n 8, p ':', i "optional", i "EncryptionAlgorithm", i "encryption_algorithm",
    d1, d2, n 9, p ':', i "optional", i "binary", i "footer_signing_key_metadata"]]

/-- format.rs:1308-1320 -/
def kFileCryptoMetaData : List TT := [d1, d2, i "struct", i "FileCryptoMetaData", b [
    d1, d2, n 1, p ':', i "required", i "EncryptionAlgorithm", i "encryption_algorithm", d1, d2, n 2, p ':',
    i "optional", i "binary", i "key_metadata"]]

/-- format.rs:24-1321: the argument of `thrift!` -/
def formatTokens : List TT :=
  kType ++ kConvertedType ++ kFieldRepetitionType ++ kSizeStatistics ++ kBoundingBox ++ kGeospatialStatistics ++
  kStatistics ++ kStringType ++ kUUIDType ++ kMapType ++ kListType ++ kEnumType ++
  kDateType ++ kFloat16Type ++ kNullType ++ kDecimalType ++ kMilliSeconds ++ kMicroSeconds ++
  kNanoSeconds ++ kTimeUnit ++ kTimestampType ++ kTimeType ++ kIntType ++ kJsonType ++
  kBsonType ++ kVariantType ++ kEdgeInterpolationAlgorithm ++ kGeometryType ++ kGeographyType ++ kLogicalType ++
  kSchemaElement ++ kEncoding ++ kCompressionCodec ++ kPageType ++ kBoundaryOrder ++ kDataPageHeader ++
  kIndexPageHeader ++ kDictionaryPageHeader ++ kDataPageHeaderV2 ++ kSplitBlockAlgorithm ++ kBloomFilterAlgorithm ++ kXxHash ++
  kBloomFilterHash ++ kUncompressed ++ kBloomFilterCompression ++ kBloomFilterHeader ++ kPageHeader ++ kKeyValue ++
  kSortingColumn ++ kPageEncodingStats ++ kColumnMetaData ++ kEncryptionWithFooterKey ++ kEncryptionWithColumnKey ++ kColumnCryptoMetaData ++
  kColumnChunk ++ kRowGroup ++ kTypeDefinedOrder ++ kColumnOrder ++ kPageLocation ++ kOffsetIndex ++
  kColumnIndex ++ kAesGcmV1 ++ kAesGcmCtrV1 ++ kEncryptionAlgorithm ++ kFileMetaData ++ kFileCryptoMetaData

end CT.Format
