import Verif.Model.FormatTokens
/-!
# The tokens of generator/src/test/resources/parquet.thrift

The definitions of parquet.thrift, token by token as generator/src/main/antlr/Thrift.g4 splits them (comments are not tokens), produced by a script.
The two `namespace` headers at the top of the file are left out.
-/
namespace CT.Format.Thrift
open CT.Macro CT.Format

/-- parquet.thrift:32-41 -/
def kType : List TT := [i "enum", i "Type", b [
    i "BOOLEAN", p '=', n 0, p ';', i "INT32", p '=', n 1, p ';', i "INT64", p '=', n 2, p ';', i "INT96", p '=',
    n 3, p ';', i "FLOAT", p '=', n 4, p ';', i "DOUBLE", p '=', n 5, p ';', i "BYTE_ARRAY", p '=', n 6, p ';',
    i "FIXED_LEN_BYTE_ARRAY", p '=', n 7, p ';']]

/-- parquet.thrift:49-178 -/
def kConvertedType : List TT := [i "enum", i "ConvertedType", b [
    i "UTF8", p '=', n 0, p ';', i "MAP", p '=', n 1, p ';', i "MAP_KEY_VALUE", p '=', n 2, p ';', i "LIST", p '=',
    n 3, p ';', i "ENUM", p '=', n 4, p ';', i "DECIMAL", p '=', n 5, p ';', i "DATE", p '=', n 6, p ';',
    i "TIME_MILLIS", p '=', n 7, p ';', i "TIME_MICROS", p '=', n 8, p ';', i "TIMESTAMP_MILLIS", p '=', n 9,
    p ';', i "TIMESTAMP_MICROS", p '=', n 10, p ';', i "UINT_8", p '=', n 11, p ';', i "UINT_16", p '=', n 12,
    p ';', i "UINT_32", p '=', n 13, p ';', i "UINT_64", p '=', n 14, p ';', i "INT_8", p '=', n 15, p ';',
    i "INT_16", p '=', n 16, p ';', i "INT_32", p '=', n 17, p ';', i "INT_64", p '=', n 18, p ';', i "JSON",
    p '=', n 19, p ';', i "BSON", p '=', n 20, p ';', i "INTERVAL", p '=', n 21, p ';']]

/-- parquet.thrift:183-192 -/
def kFieldRepetitionType : List TT := [i "enum", i "FieldRepetitionType", b [
    i "REQUIRED", p '=', n 0, p ';', i "OPTIONAL", p '=', n 1, p ';', i "REPEATED", p '=', n 2, p ';']]

/-- parquet.thrift:202-238 -/
def kSizeStatistics : List TT := [i "struct", i "SizeStatistics", b [
    n 1, p ':', i "optional", i "i64", i "unencoded_byte_array_data_bytes", p ';', n 2, p ':', i "optional",
    i "list", p '<', i "i64", p '>', i "repetition_level_histogram", p ';', n 3, p ':', i "optional", i "list",
    p '<', i "i64", p '>', i "definition_level_histogram", p ';']]

/-- parquet.thrift:244-282 -/
def kStatistics : List TT := [i "struct", i "Statistics", b [
    n 1, p ':', i "optional", i "binary", i "max", p ';', n 2, p ':', i "optional", i "binary", i "min", p ';',
    n 3, p ':', i "optional", i "i64", i "null_count", p ';', n 4, p ':', i "optional", i "i64",
    i "distinct_count", p ';', n 5, p ':', i "optional", i "binary", i "max_value", p ';', n 6, p ':',
    i "optional", i "binary", i "min_value", p ';', n 7, p ':', i "optional", i "bool", i "is_max_value_exact",
    p ';', n 8, p ':', i "optional", i "bool", i "is_min_value_exact", p ';']]

/-- parquet.thrift:285-285 -/
def kStringType : List TT := [i "struct", i "StringType", b []]

/-- parquet.thrift:286-286 -/
def kUUIDType : List TT := [i "struct", i "UUIDType", b []]

/-- parquet.thrift:287-287 -/
def kMapType : List TT := [i "struct", i "MapType", b []]

/-- parquet.thrift:288-288 -/
def kListType : List TT := [i "struct", i "ListType", b []]

/-- parquet.thrift:289-289 -/
def kEnumType : List TT := [i "struct", i "EnumType", b []]

/-- parquet.thrift:290-290 -/
def kDateType : List TT := [i "struct", i "DateType", b []]

/-- parquet.thrift:291-291 -/
def kFloat16Type : List TT := [i "struct", i "Float16Type", b []]

/-- parquet.thrift:300-300 -/
def kNullType : List TT := [i "struct", i "NullType", b []]

/-- parquet.thrift:313-316 -/
def kDecimalType : List TT := [i "struct", i "DecimalType", b [
    n 1, p ':', i "required", i "i32", i "scale", n 2, p ':', i "required", i "i32", i "precision"]]

/-- parquet.thrift:319-319 -/
def kMilliSeconds : List TT := [i "struct", i "MilliSeconds", b []]

/-- parquet.thrift:320-320 -/
def kMicroSeconds : List TT := [i "struct", i "MicroSeconds", b []]

/-- parquet.thrift:321-321 -/
def kNanoSeconds : List TT := [i "struct", i "NanoSeconds", b []]

/-- parquet.thrift:322-326 -/
def kTimeUnit : List TT := [i "union", i "TimeUnit", b [
    n 1, p ':', i "MilliSeconds", i "MILLIS", n 2, p ':', i "MicroSeconds", i "MICROS", n 3, p ':',
    i "NanoSeconds", i "NANOS"]]

/-- parquet.thrift:333-336 -/
def kTimestampType : List TT := [i "struct", i "TimestampType", b [
    n 1, p ':', i "required", i "bool", i "isAdjustedToUTC", n 2, p ':', i "required", i "TimeUnit", i "unit"]]

/-- parquet.thrift:343-346 -/
def kTimeType : List TT := [i "struct", i "TimeType", b [
    n 1, p ':', i "required", i "bool", i "isAdjustedToUTC", n 2, p ':', i "required", i "TimeUnit", i "unit"]]

/-- parquet.thrift:355-358 -/
def kIntType : List TT := [i "struct", i "IntType", b [
    n 1, p ':', i "required", i "i8", i "bitWidth", n 2, p ':', i "required", i "bool", i "isSigned"]]

/-- parquet.thrift:365-366 -/
def kJsonType : List TT := [i "struct", i "JsonType", b []]

/-- parquet.thrift:373-374 -/
def kBsonType : List TT := [i "struct", i "BsonType", b []]

/-- parquet.thrift:383-406 -/
def kLogicalType : List TT := [i "union", i "LogicalType", b [
    n 1, p ':', i "StringType", i "STRING", n 2, p ':', i "MapType", i "MAP", n 3, p ':', i "ListType", i "LIST",
    n 4, p ':', i "EnumType", i "ENUM", n 5, p ':', i "DecimalType", i "DECIMAL", n 6, p ':', i "DateType",
    i "DATE", n 7, p ':', i "TimeType", i "TIME", n 8, p ':', i "TimestampType", i "TIMESTAMP", n 10, p ':',
    i "IntType", i "INTEGER", n 11, p ':', i "NullType", i "UNKNOWN", n 12, p ':', i "JsonType", i "JSON", n 13,
    p ':', i "BsonType", i "BSON", n 14, p ':', i "UUIDType", i "UUID", n 15, p ':', i "Float16Type", i "FLOAT16"]]

/-- parquet.thrift:414-468 -/
def kSchemaElement : List TT := [i "struct", i "SchemaElement", b [
    n 1, p ':', i "optional", i "Type", i "type", p ';', n 2, p ':', i "optional", i "i32", i "type_length", p ';',
    n 3, p ':', i "optional", i "FieldRepetitionType", i "repetition_type", p ';', n 4, p ':', i "required",
    i "string", i "name", p ';', n 5, p ':', i "optional", i "i32", i "num_children", p ';', n 6, p ':',
    i "optional", i "ConvertedType", i "converted_type", p ';', n 7, p ':', i "optional", i "i32", i "scale", n 8,
    p ':', i "optional", i "i32", i "precision", n 9, p ':', i "optional", i "i32", i "field_id", p ';', n 10,
    p ':', i "optional", i "LogicalType", i "logicalType"]]

/-- parquet.thrift:475-540 -/
def kEncoding : List TT := [i "enum", i "Encoding", b [
    i "PLAIN", p '=', n 0, p ';', i "PLAIN_DICTIONARY", p '=', n 2, p ';', i "RLE", p '=', n 3, p ';',
    i "BIT_PACKED", p '=', n 4, p ';', i "DELTA_BINARY_PACKED", p '=', n 5, p ';', i "DELTA_LENGTH_BYTE_ARRAY",
    p '=', n 6, p ';', i "DELTA_BYTE_ARRAY", p '=', n 7, p ';', i "RLE_DICTIONARY", p '=', n 8, p ';',
    i "BYTE_STREAM_SPLIT", p '=', n 9, p ';']]

/-- parquet.thrift:551-560 -/
def kCompressionCodec : List TT := [i "enum", i "CompressionCodec", b [
    i "UNCOMPRESSED", p '=', n 0, p ';', i "SNAPPY", p '=', n 1, p ';', i "GZIP", p '=', n 2, p ';', i "LZO",
    p '=', n 3, p ';', i "BROTLI", p '=', n 4, p ';', i "LZ4", p '=', n 5, p ';', i "ZSTD", p '=', n 6, p ';',
    i "LZ4_RAW", p '=', n 7, p ';']]

/-- parquet.thrift:562-567 -/
def kPageType : List TT := [i "enum", i "PageType", b [
    i "DATA_PAGE", p '=', n 0, p ';', i "INDEX_PAGE", p '=', n 1, p ';', i "DICTIONARY_PAGE", p '=', n 2, p ';',
    i "DATA_PAGE_V2", p '=', n 3, p ';']]

/-- parquet.thrift:573-577 -/
def kBoundaryOrder : List TT := [i "enum", i "BoundaryOrder", b [
    i "UNORDERED", p '=', n 0, p ';', i "ASCENDING", p '=', n 1, p ';', i "DESCENDING", p '=', n 2, p ';']]

/-- parquet.thrift:580-595 -/
def kDataPageHeader : List TT := [i "struct", i "DataPageHeader", b [
    n 1, p ':', i "required", i "i32", i "num_values", n 2, p ':', i "required", i "Encoding", i "encoding", n 3,
    p ':', i "required", i "Encoding", i "definition_level_encoding", p ';', n 4, p ':', i "required",
    i "Encoding", i "repetition_level_encoding", p ';', n 5, p ':', i "optional", i "Statistics", i "statistics",
    p ';']]

/-- parquet.thrift:597-599 -/
def kIndexPageHeader : List TT := [i "struct", i "IndexPageHeader", b []]

/-- parquet.thrift:606-615 -/
def kDictionaryPageHeader : List TT := [i "struct", i "DictionaryPageHeader", b [
    n 1, p ':', i "required", i "i32", i "num_values", p ';', n 2, p ':', i "required", i "Encoding", i "encoding",
    n 3, p ':', i "optional", i "bool", i "is_sorted", p ';']]

/-- parquet.thrift:622-649 -/
def kDataPageHeaderV2 : List TT := [i "struct", i "DataPageHeaderV2", b [
    n 1, p ':', i "required", i "i32", i "num_values", n 2, p ':', i "required", i "i32", i "num_nulls", n 3,
    p ':', i "required", i "i32", i "num_rows", n 4, p ':', i "required", i "Encoding", i "encoding", n 5, p ':',
    i "required", i "i32", i "definition_levels_byte_length", p ';', n 6, p ':', i "required", i "i32",
    i "repetition_levels_byte_length", p ';', n 7, p ':', i "optional", i "bool", i "is_compressed", p '=',
    i "true", p ';', n 8, p ':', i "optional", i "Statistics", i "statistics", p ';']]

/-- parquet.thrift:652-652 -/
def kSplitBlockAlgorithm : List TT := [i "struct", i "SplitBlockAlgorithm", b []]

/-- parquet.thrift:654-657 -/
def kBloomFilterAlgorithm : List TT := [i "union", i "BloomFilterAlgorithm", b [
    n 1, p ':', i "SplitBlockAlgorithm", i "BLOCK", p ';']]

/-- parquet.thrift:662-662 -/
def kXxHash : List TT := [i "struct", i "XxHash", b []]

/-- parquet.thrift:668-671 -/
def kBloomFilterHash : List TT := [i "union", i "BloomFilterHash", b [
    n 1, p ':', i "XxHash", i "XXHASH", p ';']]

/-- parquet.thrift:676-676 -/
def kUncompressed : List TT := [i "struct", i "Uncompressed", b []]

/-- parquet.thrift:677-679 -/
def kBloomFilterCompression : List TT := [i "union", i "BloomFilterCompression", b [
    n 1, p ':', i "Uncompressed", i "UNCOMPRESSED", p ';']]

/-- parquet.thrift:685-694 -/
def kBloomFilterHeader : List TT := [i "struct", i "BloomFilterHeader", b [
    n 1, p ':', i "required", i "i32", i "numBytes", p ';', n 2, p ':', i "required", i "BloomFilterAlgorithm",
    i "algorithm", p ';', n 3, p ':', i "required", i "BloomFilterHash", i "hash", p ';', n 4, p ':', i "required",
    i "BloomFilterCompression", i "compression", p ';']]

/-- parquet.thrift:696-730 -/
def kPageHeader : List TT := [i "struct", i "PageHeader", b [
    n 1, p ':', i "required", i "PageType", i "type", n 2, p ':', i "required", i "i32",
    i "uncompressed_page_size", n 3, p ':', i "required", i "i32", i "compressed_page_size", n 4, p ':',
    i "optional", i "i32", i "crc", n 5, p ':', i "optional", i "DataPageHeader", i "data_page_header", p ';', n 6,
    p ':', i "optional", i "IndexPageHeader", i "index_page_header", p ';', n 7, p ':', i "optional",
    i "DictionaryPageHeader", i "dictionary_page_header", p ';', n 8, p ':', i "optional", i "DataPageHeaderV2",
    i "data_page_header_v2", p ';']]

/-- parquet.thrift:735-738 -/
def kKeyValue : List TT := [i "struct", i "KeyValue", b [
    n 1, p ':', i "required", i "string", i "key", n 2, p ':', i "optional", i "string", i "value"]]

/-- parquet.thrift:743-753 -/
def kSortingColumn : List TT := [i "struct", i "SortingColumn", b [
    n 1, p ':', i "required", i "i32", i "column_idx", n 2, p ':', i "required", i "bool", i "descending", n 3,
    p ':', i "required", i "bool", i "nulls_first"]]

/-- parquet.thrift:758-769 -/
def kPageEncodingStats : List TT := [i "struct", i "PageEncodingStats", b [
    n 1, p ':', i "required", i "PageType", i "page_type", p ';', n 2, p ':', i "required", i "Encoding",
    i "encoding", p ';', n 3, p ':', i "required", i "i32", i "count", p ';']]

/-- parquet.thrift:774-836 -/
def kColumnMetaData : List TT := [i "struct", i "ColumnMetaData", b [
    n 1, p ':', i "required", i "Type", i "type", n 2, p ':', i "required", i "list", p '<', i "Encoding", p '>',
    i "encodings", n 3, p ':', i "required", i "list", p '<', i "string", p '>', i "path_in_schema", n 4, p ':',
    i "required", i "CompressionCodec", i "codec", n 5, p ':', i "required", i "i64", i "num_values", n 6, p ':',
    i "required", i "i64", i "total_uncompressed_size", n 7, p ':', i "required", i "i64",
    i "total_compressed_size", n 8, p ':', i "optional", i "list", p '<', i "KeyValue", p '>',
    i "key_value_metadata", n 9, p ':', i "required", i "i64", i "data_page_offset", n 10, p ':', i "optional",
    i "i64", i "index_page_offset", n 11, p ':', i "optional", i "i64", i "dictionary_page_offset", n 12, p ':',
    i "optional", i "Statistics", i "statistics", p ';', n 13, p ':', i "optional", i "list", p '<',
    i "PageEncodingStats", p '>', i "encoding_stats", p ';', n 14, p ':', i "optional", i "i64",
    i "bloom_filter_offset", p ';', n 15, p ':', i "optional", i "i32", i "bloom_filter_length", p ';', n 16,
    p ':', i "optional", i "SizeStatistics", i "size_statistics", p ';']]

/-- parquet.thrift:838-839 -/
def kEncryptionWithFooterKey : List TT := [i "struct", i "EncryptionWithFooterKey", b []]

/-- parquet.thrift:841-847 -/
def kEncryptionWithColumnKey : List TT := [i "struct", i "EncryptionWithColumnKey", b [
    n 1, p ':', i "required", i "list", p '<', i "string", p '>', i "path_in_schema", n 2, p ':', i "optional",
    i "binary", i "key_metadata"]]

/-- parquet.thrift:849-852 -/
def kColumnCryptoMetaData : List TT := [i "union", i "ColumnCryptoMetaData", b [
    n 1, p ':', i "EncryptionWithFooterKey", i "ENCRYPTION_WITH_FOOTER_KEY", n 2, p ':',
    i "EncryptionWithColumnKey", i "ENCRYPTION_WITH_COLUMN_KEY"]]

/-- parquet.thrift:854-886 -/
def kColumnChunk : List TT := [i "struct", i "ColumnChunk", b [
    n 1, p ':', i "optional", i "string", i "file_path", n 2, p ':', i "required", i "i64", i "file_offset", n 3,
    p ':', i "optional", i "ColumnMetaData", i "meta_data", n 4, p ':', i "optional", i "i64",
    i "offset_index_offset", n 5, p ':', i "optional", i "i32", i "offset_index_length", n 6, p ':', i "optional",
    i "i64", i "column_index_offset", n 7, p ':', i "optional", i "i32", i "column_index_length", n 8, p ':',
    i "optional", i "ColumnCryptoMetaData", i "crypto_metadata", n 9, p ':', i "optional", i "binary",
    i "encrypted_column_metadata"]]

/-- parquet.thrift:888-915 -/
def kRowGroup : List TT := [i "struct", i "RowGroup", b [
    n 1, p ':', i "required", i "list", p '<', i "ColumnChunk", p '>', i "columns", n 2, p ':', i "required",
    i "i64", i "total_byte_size", n 3, p ':', i "required", i "i64", i "num_rows", n 4, p ':', i "optional",
    i "list", p '<', i "SortingColumn", p '>', i "sorting_columns", n 5, p ':', i "optional", i "i64",
    i "file_offset", n 6, p ':', i "optional", i "i64", i "total_compressed_size", n 7, p ':', i "optional",
    i "i16", i "ordinal"]]

/-- parquet.thrift:918-918 -/
def kTypeDefinedOrder : List TT := [i "struct", i "TypeDefinedOrder", b []]

/-- parquet.thrift:932-985 -/
def kColumnOrder : List TT := [i "union", i "ColumnOrder", b [
    n 1, p ':', i "TypeDefinedOrder", i "TYPE_ORDER", p ';']]

/-- parquet.thrift:987-1002 -/
def kPageLocation : List TT := [i "struct", i "PageLocation", b [
    n 1, p ':', i "required", i "i64", i "offset", n 2, p ':', i "required", i "i32", i "compressed_page_size",
    n 3, p ':', i "required", i "i64", i "first_row_index"]]

/-- parquet.thrift:1004-1017 -/
def kOffsetIndex : List TT := [i "struct", i "OffsetIndex", b [
    n 1, p ':', i "required", i "list", p '<', i "PageLocation", p '>', i "page_locations", n 2, p ':',
    i "optional", i "list", p '<', i "i64", p '>', i "unencoded_byte_array_data_bytes"]]

/-- parquet.thrift:1023-1075 -/
def kColumnIndex : List TT := [i "struct", i "ColumnIndex", b [
    n 1, p ':', i "required", i "list", p '<', i "bool", p '>', i "null_pages", n 2, p ':', i "required", i "list",
    p '<', i "binary", p '>', i "min_values", n 3, p ':', i "required", i "list", p '<', i "binary", p '>',
    i "max_values", n 4, p ':', i "required", i "BoundaryOrder", i "boundary_order", n 5, p ':', i "optional",
    i "list", p '<', i "i64", p '>', i "null_counts", n 6, p ':', i "optional", i "list", p '<', i "i64", p '>',
    i "repetition_level_histograms", p ';', n 7, p ':', i "optional", i "list", p '<', i "i64", p '>',
    i "definition_level_histograms", p ';']]

/-- parquet.thrift:1077-1087 -/
def kAesGcmV1 : List TT := [i "struct", i "AesGcmV1", b [
    n 1, p ':', i "optional", i "binary", i "aad_prefix", n 2, p ':', i "optional", i "binary",
    i "aad_file_unique", n 3, p ':', i "optional", i "bool", i "supply_aad_prefix"]]

/-- parquet.thrift:1089-1099 -/
def kAesGcmCtrV1 : List TT := [i "struct", i "AesGcmCtrV1", b [
    n 1, p ':', i "optional", i "binary", i "aad_prefix", n 2, p ':', i "optional", i "binary",
    i "aad_file_unique", n 3, p ':', i "optional", i "bool", i "supply_aad_prefix"]]

/-- parquet.thrift:1101-1104 -/
def kEncryptionAlgorithm : List TT := [i "union", i "EncryptionAlgorithm", b [
    n 1, p ':', i "AesGcmV1", i "AES_GCM_V1", n 2, p ':', i "AesGcmCtrV1", i "AES_GCM_CTR_V1"]]

/-- parquet.thrift:1109-1166 -/
def kFileMetaData : List TT := [i "struct", i "FileMetaData", b [
    n 1, p ':', i "required", i "i32", i "version", n 2, p ':', i "required", i "list", p '<', i "SchemaElement",
    p '>', i "schema", p ';', n 3, p ':', i "required", i "i64", i "num_rows", n 4, p ':', i "required", i "list",
    p '<', i "RowGroup", p '>', i "row_groups", n 5, p ':', i "optional", i "list", p '<', i "KeyValue", p '>',
    i "key_value_metadata", n 6, p ':', i "optional", i "string", i "created_by", n 7, p ':', i "optional",
    i "list", p '<', i "ColumnOrder", p '>', i "column_orders", p ';', n 8, p ':', i "optional",
    i "EncryptionAlgorithm", i "encryption_algorithm", n 9, p ':', i "optional", i "binary",
    i "footer_signing_key_metadata"]]

/-- parquet.thrift:1169-1180 -/
def kFileCryptoMetaData : List TT := [i "struct", i "FileCryptoMetaData", b [
    n 1, p ':', i "required", i "EncryptionAlgorithm", i "encryption_algorithm", n 2, p ':', i "optional",
    i "binary", i "key_metadata"]]

/-- parquet.thrift:26-1181: the definitions -/
def thriftTokens : List TT :=
  kType ++ kConvertedType ++ kFieldRepetitionType ++ kSizeStatistics ++ kStatistics ++ kStringType ++
  kUUIDType ++ kMapType ++ kListType ++ kEnumType ++ kDateType ++ kFloat16Type ++
  kNullType ++ kDecimalType ++ kMilliSeconds ++ kMicroSeconds ++ kNanoSeconds ++ kTimeUnit ++
  kTimestampType ++ kTimeType ++ kIntType ++ kJsonType ++ kBsonType ++ kLogicalType ++
  kSchemaElement ++ kEncoding ++ kCompressionCodec ++ kPageType ++ kBoundaryOrder ++ kDataPageHeader ++
  kIndexPageHeader ++ kDictionaryPageHeader ++ kDataPageHeaderV2 ++ kSplitBlockAlgorithm ++ kBloomFilterAlgorithm ++ kXxHash ++
  kBloomFilterHash ++ kUncompressed ++ kBloomFilterCompression ++ kBloomFilterHeader ++ kPageHeader ++ kKeyValue ++
  kSortingColumn ++ kPageEncodingStats ++ kColumnMetaData ++ kEncryptionWithFooterKey ++ kEncryptionWithColumnKey ++ kColumnCryptoMetaData ++
  kColumnChunk ++ kRowGroup ++ kTypeDefinedOrder ++ kColumnOrder ++ kPageLocation ++ kOffsetIndex ++
  kColumnIndex ++ kAesGcmV1 ++ kAesGcmCtrV1 ++ kEncryptionAlgorithm ++ kFileMetaData ++ kFileCryptoMetaData

/-! ## The definitions

The same definitions as an environment, in the order of the file; that the generator and, up to fields named `type`, the macro make these of the file is C88. -/

/-- parquet.thrift:32-41 -/
def dType : Def := .enum "Type"
/-- parquet.thrift:49-178 -/
def dConvertedType : Def := .enum "ConvertedType"
/-- parquet.thrift:183-192 -/
def dFieldRepetitionType : Def := .enum "FieldRepetitionType"
/-- parquet.thrift:202-238 -/
def dSizeStatistics : Def := .struct "SizeStatistics" [⟨1, false, "unencoded_byte_array_data_bytes", .i64⟩, ⟨2, false, "repetition_level_histogram", .list .i64⟩, ⟨3,
    false, "definition_level_histogram", .list .i64⟩]
/-- parquet.thrift:244-282 -/
def dStatistics : Def := .struct "Statistics" [⟨1, false, "max", .binary⟩, ⟨2, false, "min", .binary⟩, ⟨3, false, "null_count", .i64⟩, ⟨4, false, "distinct_count",
    .i64⟩, ⟨5, false, "max_value", .binary⟩, ⟨6, false, "min_value", .binary⟩, ⟨7, false, "is_max_value_exact", .bool⟩, ⟨8, false,
    "is_min_value_exact", .bool⟩]
/-- parquet.thrift:285-285 -/
def dStringType : Def := .struct "StringType" []
/-- parquet.thrift:286-286 -/
def dUUIDType : Def := .struct "UUIDType" []
/-- parquet.thrift:287-287 -/
def dMapType : Def := .struct "MapType" []
/-- parquet.thrift:288-288 -/
def dListType : Def := .struct "ListType" []
/-- parquet.thrift:289-289 -/
def dEnumType : Def := .struct "EnumType" []
/-- parquet.thrift:290-290 -/
def dDateType : Def := .struct "DateType" []
/-- parquet.thrift:291-291 -/
def dFloat16Type : Def := .struct "Float16Type" []
/-- parquet.thrift:300-300 -/
def dNullType : Def := .struct "NullType" []
/-- parquet.thrift:313-316 -/
def dDecimalType : Def := .struct "DecimalType" [⟨1, true, "scale", .i32⟩, ⟨2, true, "precision", .i32⟩]
/-- parquet.thrift:319-319 -/
def dMilliSeconds : Def := .struct "MilliSeconds" []
/-- parquet.thrift:320-320 -/
def dMicroSeconds : Def := .struct "MicroSeconds" []
/-- parquet.thrift:321-321 -/
def dNanoSeconds : Def := .struct "NanoSeconds" []
/-- parquet.thrift:322-326 -/
def dTimeUnit : Def := .union "TimeUnit" [⟨1, "MILLIS", .named 14⟩, ⟨2, "MICROS", .named 15⟩, ⟨3, "NANOS", .named 16⟩]
/-- parquet.thrift:333-336 -/
def dTimestampType : Def := .struct "TimestampType" [⟨1, true, "isAdjustedToUTC", .bool⟩, ⟨2, true, "unit", .named 17⟩]
/-- parquet.thrift:343-346 -/
def dTimeType : Def := .struct "TimeType" [⟨1, true, "isAdjustedToUTC", .bool⟩, ⟨2, true, "unit", .named 17⟩]
/-- parquet.thrift:355-358 -/
def dIntType : Def := .struct "IntType" [⟨1, true, "bitWidth", .i8⟩, ⟨2, true, "isSigned", .bool⟩]
/-- parquet.thrift:365-366 -/
def dJsonType : Def := .struct "JsonType" []
/-- parquet.thrift:373-374 -/
def dBsonType : Def := .struct "BsonType" []
/-- parquet.thrift:383-406 -/
def dLogicalType : Def := .union "LogicalType" [⟨1, "STRING", .named 5⟩, ⟨2, "MAP", .named 7⟩, ⟨3, "LIST", .named 8⟩, ⟨4, "ENUM", .named 9⟩, ⟨5, "DECIMAL", .named
    13⟩, ⟨6, "DATE", .named 10⟩, ⟨7, "TIME", .named 19⟩, ⟨8, "TIMESTAMP", .named 18⟩, ⟨10, "INTEGER", .named 20⟩, ⟨11, "UNKNOWN", .named 12⟩,
    ⟨12, "JSON", .named 21⟩, ⟨13, "BSON", .named 22⟩, ⟨14, "UUID", .named 6⟩, ⟨15, "FLOAT16", .named 11⟩]
/-- parquet.thrift:414-468 -/
def dSchemaElement : Def := .struct "SchemaElement" [⟨1, false, "type", .named 0⟩, ⟨2, false, "type_length", .i32⟩, ⟨3, false, "repetition_type", .named 2⟩, ⟨4, true,
    "name", .string⟩, ⟨5, false, "num_children", .i32⟩, ⟨6, false, "converted_type", .named 1⟩, ⟨7, false, "scale", .i32⟩, ⟨8, false,
    "precision", .i32⟩, ⟨9, false, "field_id", .i32⟩, ⟨10, false, "logicalType", .named 23⟩]
/-- parquet.thrift:475-540 -/
def dEncoding : Def := .enum "Encoding"
/-- parquet.thrift:551-560 -/
def dCompressionCodec : Def := .enum "CompressionCodec"
/-- parquet.thrift:562-567 -/
def dPageType : Def := .enum "PageType"
/-- parquet.thrift:573-577 -/
def dBoundaryOrder : Def := .enum "BoundaryOrder"
/-- parquet.thrift:580-595 -/
def dDataPageHeader : Def := .struct "DataPageHeader" [⟨1, true, "num_values", .i32⟩, ⟨2, true, "encoding", .named 25⟩, ⟨3, true, "definition_level_encoding", .named
    25⟩, ⟨4, true, "repetition_level_encoding", .named 25⟩, ⟨5, false, "statistics", .named 4⟩]
/-- parquet.thrift:597-599 -/
def dIndexPageHeader : Def := .struct "IndexPageHeader" []
/-- parquet.thrift:606-615 -/
def dDictionaryPageHeader : Def := .struct "DictionaryPageHeader" [⟨1, true, "num_values", .i32⟩, ⟨2, true, "encoding", .named 25⟩, ⟨3, false, "is_sorted", .bool⟩]
/-- parquet.thrift:622-649 -/
def dDataPageHeaderV2 : Def := .struct "DataPageHeaderV2" [⟨1, true, "num_values", .i32⟩, ⟨2, true, "num_nulls", .i32⟩, ⟨3, true, "num_rows", .i32⟩, ⟨4, true, "encoding",
    .named 25⟩, ⟨5, true, "definition_levels_byte_length", .i32⟩, ⟨6, true, "repetition_levels_byte_length", .i32⟩, ⟨7, false, "is_compressed",
    .bool⟩, ⟨8, false, "statistics", .named 4⟩]
/-- parquet.thrift:652-652 -/
def dSplitBlockAlgorithm : Def := .struct "SplitBlockAlgorithm" []
/-- parquet.thrift:654-657 -/
def dBloomFilterAlgorithm : Def := .union "BloomFilterAlgorithm" [⟨1, "BLOCK", .named 33⟩]
/-- parquet.thrift:662-662 -/
def dXxHash : Def := .struct "XxHash" []
/-- parquet.thrift:668-671 -/
def dBloomFilterHash : Def := .union "BloomFilterHash" [⟨1, "XXHASH", .named 35⟩]
/-- parquet.thrift:676-676 -/
def dUncompressed : Def := .struct "Uncompressed" []
/-- parquet.thrift:677-679 -/
def dBloomFilterCompression : Def := .union "BloomFilterCompression" [⟨1, "UNCOMPRESSED", .named 37⟩]
/-- parquet.thrift:685-694 -/
def dBloomFilterHeader : Def := .struct "BloomFilterHeader" [⟨1, true, "numBytes", .i32⟩, ⟨2, true, "algorithm", .named 34⟩, ⟨3, true, "hash", .named 36⟩, ⟨4, true,
    "compression", .named 38⟩]
/-- parquet.thrift:696-730 -/
def dPageHeader : Def := .struct "PageHeader" [⟨1, true, "type", .named 27⟩, ⟨2, true, "uncompressed_page_size", .i32⟩, ⟨3, true, "compressed_page_size", .i32⟩, ⟨4,
    false, "crc", .i32⟩, ⟨5, false, "data_page_header", .named 29⟩, ⟨6, false, "index_page_header", .named 30⟩, ⟨7, false,
    "dictionary_page_header", .named 31⟩, ⟨8, false, "data_page_header_v2", .named 32⟩]
/-- parquet.thrift:735-738 -/
def dKeyValue : Def := .struct "KeyValue" [⟨1, true, "key", .string⟩, ⟨2, false, "value", .string⟩]
/-- parquet.thrift:743-753 -/
def dSortingColumn : Def := .struct "SortingColumn" [⟨1, true, "column_idx", .i32⟩, ⟨2, true, "descending", .bool⟩, ⟨3, true, "nulls_first", .bool⟩]
/-- parquet.thrift:758-769 -/
def dPageEncodingStats : Def := .struct "PageEncodingStats" [⟨1, true, "page_type", .named 27⟩, ⟨2, true, "encoding", .named 25⟩, ⟨3, true, "count", .i32⟩]
/-- parquet.thrift:774-836 -/
def dColumnMetaData : Def := .struct "ColumnMetaData" [⟨1, true, "type", .named 0⟩, ⟨2, true, "encodings", .list (.named 25)⟩, ⟨3, true, "path_in_schema", .list
    .string⟩, ⟨4, true, "codec", .named 26⟩, ⟨5, true, "num_values", .i64⟩, ⟨6, true, "total_uncompressed_size", .i64⟩, ⟨7, true,
    "total_compressed_size", .i64⟩, ⟨8, false, "key_value_metadata", .list (.named 41)⟩, ⟨9, true, "data_page_offset", .i64⟩, ⟨10, false,
    "index_page_offset", .i64⟩, ⟨11, false, "dictionary_page_offset", .i64⟩, ⟨12, false, "statistics", .named 4⟩, ⟨13, false, "encoding_stats",
    .list (.named 43)⟩, ⟨14, false, "bloom_filter_offset", .i64⟩, ⟨15, false, "bloom_filter_length", .i32⟩, ⟨16, false, "size_statistics",
    .named 3⟩]
/-- parquet.thrift:838-839 -/
def dEncryptionWithFooterKey : Def := .struct "EncryptionWithFooterKey" []
/-- parquet.thrift:841-847 -/
def dEncryptionWithColumnKey : Def := .struct "EncryptionWithColumnKey" [⟨1, true, "path_in_schema", .list .string⟩, ⟨2, false, "key_metadata", .binary⟩]
/-- parquet.thrift:849-852 -/
def dColumnCryptoMetaData : Def := .union "ColumnCryptoMetaData" [⟨1, "ENCRYPTION_WITH_FOOTER_KEY", .named 45⟩, ⟨2, "ENCRYPTION_WITH_COLUMN_KEY", .named 46⟩]
/-- parquet.thrift:854-886 -/
def dColumnChunk : Def := .struct "ColumnChunk" [⟨1, false, "file_path", .string⟩, ⟨2, true, "file_offset", .i64⟩, ⟨3, false, "meta_data", .named 44⟩, ⟨4, false,
    "offset_index_offset", .i64⟩, ⟨5, false, "offset_index_length", .i32⟩, ⟨6, false, "column_index_offset", .i64⟩, ⟨7, false,
    "column_index_length", .i32⟩, ⟨8, false, "crypto_metadata", .named 47⟩, ⟨9, false, "encrypted_column_metadata", .binary⟩]
/-- parquet.thrift:888-915 -/
def dRowGroup : Def := .struct "RowGroup" [⟨1, true, "columns", .list (.named 48)⟩, ⟨2, true, "total_byte_size", .i64⟩, ⟨3, true, "num_rows", .i64⟩, ⟨4, false,
    "sorting_columns", .list (.named 42)⟩, ⟨5, false, "file_offset", .i64⟩, ⟨6, false, "total_compressed_size", .i64⟩, ⟨7, false, "ordinal",
    .i16⟩]
/-- parquet.thrift:918-918 -/
def dTypeDefinedOrder : Def := .struct "TypeDefinedOrder" []
/-- parquet.thrift:932-985 -/
def dColumnOrder : Def := .union "ColumnOrder" [⟨1, "TYPE_ORDER", .named 50⟩]
/-- parquet.thrift:987-1002 -/
def dPageLocation : Def := .struct "PageLocation" [⟨1, true, "offset", .i64⟩, ⟨2, true, "compressed_page_size", .i32⟩, ⟨3, true, "first_row_index", .i64⟩]
/-- parquet.thrift:1004-1017 -/
def dOffsetIndex : Def := .struct "OffsetIndex" [⟨1, true, "page_locations", .list (.named 52)⟩, ⟨2, false, "unencoded_byte_array_data_bytes", .list .i64⟩]
/-- parquet.thrift:1023-1075 -/
def dColumnIndex : Def := .struct "ColumnIndex" [⟨1, true, "null_pages", .list .bool⟩, ⟨2, true, "min_values", .list .binary⟩, ⟨3, true, "max_values", .list .binary⟩,
    ⟨4, true, "boundary_order", .named 28⟩, ⟨5, false, "null_counts", .list .i64⟩, ⟨6, false, "repetition_level_histograms", .list .i64⟩, ⟨7,
    false, "definition_level_histograms", .list .i64⟩]
/-- parquet.thrift:1077-1087 -/
def dAesGcmV1 : Def := .struct "AesGcmV1" [⟨1, false, "aad_prefix", .binary⟩, ⟨2, false, "aad_file_unique", .binary⟩, ⟨3, false, "supply_aad_prefix", .bool⟩]
/-- parquet.thrift:1089-1099 -/
def dAesGcmCtrV1 : Def := .struct "AesGcmCtrV1" [⟨1, false, "aad_prefix", .binary⟩, ⟨2, false, "aad_file_unique", .binary⟩, ⟨3, false, "supply_aad_prefix", .bool⟩]
/-- parquet.thrift:1101-1104 -/
def dEncryptionAlgorithm : Def := .union "EncryptionAlgorithm" [⟨1, "AES_GCM_V1", .named 55⟩, ⟨2, "AES_GCM_CTR_V1", .named 56⟩]
/-- parquet.thrift:1109-1166 -/
def dFileMetaData : Def := .struct "FileMetaData" [⟨1, true, "version", .i32⟩, ⟨2, true, "schema", .list (.named 24)⟩, ⟨3, true, "num_rows", .i64⟩, ⟨4, true,
    "row_groups", .list (.named 49)⟩, ⟨5, false, "key_value_metadata", .list (.named 41)⟩, ⟨6, false, "created_by", .string⟩, ⟨7, false,
    "column_orders", .list (.named 51)⟩, ⟨8, false, "encryption_algorithm", .named 57⟩, ⟨9, false, "footer_signing_key_metadata", .binary⟩]
/-- parquet.thrift:1169-1180 -/
def dFileCryptoMetaData : Def := .struct "FileCryptoMetaData" [⟨1, true, "encryption_algorithm", .named 57⟩, ⟨2, false, "key_metadata", .binary⟩]

/-- parquet.thrift: all definitions -/
def env : List Def :=
  [dType, dConvertedType, dFieldRepetitionType, dSizeStatistics, dStatistics, dStringType, dUUIDType, dMapType, dListType, dEnumType,
   dDateType, dFloat16Type, dNullType, dDecimalType, dMilliSeconds, dMicroSeconds, dNanoSeconds, dTimeUnit, dTimestampType, dTimeType,
   dIntType, dJsonType, dBsonType, dLogicalType, dSchemaElement, dEncoding, dCompressionCodec, dPageType, dBoundaryOrder, dDataPageHeader,
   dIndexPageHeader, dDictionaryPageHeader, dDataPageHeaderV2, dSplitBlockAlgorithm, dBloomFilterAlgorithm, dXxHash, dBloomFilterHash,
   dUncompressed, dBloomFilterCompression, dBloomFilterHeader, dPageHeader, dKeyValue, dSortingColumn, dPageEncodingStats, dColumnMetaData,
   dEncryptionWithFooterKey, dEncryptionWithColumnKey, dColumnCryptoMetaData, dColumnChunk, dRowGroup, dTypeDefinedOrder, dColumnOrder,
   dPageLocation, dOffsetIndex, dColumnIndex, dAesGcmV1, dAesGcmCtrV1, dEncryptionAlgorithm, dFileMetaData, dFileCryptoMetaData]

end CT.Format.Thrift
