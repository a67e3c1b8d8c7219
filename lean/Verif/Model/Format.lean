import Verif.Model.Types
/-!
# Parquet metadata definitions: parquet/src/format.rs

Every `enum`, `struct` and `union` of the file, in the order: enums, then the rest as in the file (which lists every
definition before its uses). Default values after `=` are dropped: the macro ignores them.
`t<Name>` is the type, `d<Name>` its definition; the position in `parquetEnv` ties them together.
-/
namespace CT.Format

abbrev tType : Ty := .named 0
abbrev tConvertedType : Ty := .named 1
abbrev tFieldRepetitionType : Ty := .named 2
abbrev tEdgeInterpolationAlgorithm : Ty := .named 3
abbrev tEncoding : Ty := .named 4
abbrev tCompressionCodec : Ty := .named 5
abbrev tPageType : Ty := .named 6
abbrev tBoundaryOrder : Ty := .named 7
abbrev tSizeStatistics : Ty := .named 8
abbrev tBoundingBox : Ty := .named 9
abbrev tGeospatialStatistics : Ty := .named 10
abbrev tStatistics : Ty := .named 11
abbrev tStringType : Ty := .named 12
abbrev tUUIDType : Ty := .named 13
abbrev tMapType : Ty := .named 14
abbrev tListType : Ty := .named 15
abbrev tEnumType : Ty := .named 16
abbrev tDateType : Ty := .named 17
abbrev tFloat16Type : Ty := .named 18
abbrev tNullType : Ty := .named 19
abbrev tDecimalType : Ty := .named 20
abbrev tMilliSeconds : Ty := .named 21
abbrev tMicroSeconds : Ty := .named 22
abbrev tNanoSeconds : Ty := .named 23
abbrev tTimeUnit : Ty := .named 24
abbrev tTimestampType : Ty := .named 25
abbrev tTimeType : Ty := .named 26
abbrev tIntType : Ty := .named 27
abbrev tJsonType : Ty := .named 28
abbrev tBsonType : Ty := .named 29
abbrev tVariantType : Ty := .named 30
abbrev tGeometryType : Ty := .named 31
abbrev tGeographyType : Ty := .named 32
abbrev tLogicalType : Ty := .named 33
abbrev tSchemaElement : Ty := .named 34
abbrev tDataPageHeader : Ty := .named 35
abbrev tIndexPageHeader : Ty := .named 36
abbrev tDictionaryPageHeader : Ty := .named 37
abbrev tDataPageHeaderV2 : Ty := .named 38
abbrev tSplitBlockAlgorithm : Ty := .named 39
abbrev tBloomFilterAlgorithm : Ty := .named 40
abbrev tXxHash : Ty := .named 41
abbrev tBloomFilterHash : Ty := .named 42
abbrev tUncompressed : Ty := .named 43
abbrev tBloomFilterCompression : Ty := .named 44
abbrev tBloomFilterHeader : Ty := .named 45
abbrev tPageHeader : Ty := .named 46
abbrev tKeyValue : Ty := .named 47
abbrev tSortingColumn : Ty := .named 48
abbrev tPageEncodingStats : Ty := .named 49
abbrev tColumnMetaData : Ty := .named 50
abbrev tEncryptionWithFooterKey : Ty := .named 51
abbrev tEncryptionWithColumnKey : Ty := .named 52
abbrev tColumnCryptoMetaData : Ty := .named 53
abbrev tColumnChunk : Ty := .named 54
abbrev tRowGroup : Ty := .named 55
abbrev tTypeDefinedOrder : Ty := .named 56
abbrev tColumnOrder : Ty := .named 57
abbrev tPageLocation : Ty := .named 58
abbrev tOffsetIndex : Ty := .named 59
abbrev tColumnIndex : Ty := .named 60
abbrev tAesGcmV1 : Ty := .named 61
abbrev tAesGcmCtrV1 : Ty := .named 62
abbrev tEncryptionAlgorithm : Ty := .named 63
abbrev tFileMetaData : Ty := .named 64
abbrev tFileCryptoMetaData : Ty := .named 65

/-- format.rs:31-40 -/
def dType : Def := .enum "Type"
/-- format.rs:48-177 -/
def dConvertedType : Def := .enum "ConvertedType"
/-- format.rs:182-191 -/
def dFieldRepetitionType : Def := .enum "FieldRepetitionType"
/-- format.rs:415-421 -/
def dEdgeInterpolationAlgorithm : Def := .enum "EdgeInterpolationAlgorithm"
/-- format.rs:565-630 -/
def dEncoding : Def := .enum "Encoding"
/-- format.rs:641-650 -/
def dCompressionCodec : Def := .enum "CompressionCodec"
/-- format.rs:652-657 -/
def dPageType : Def := .enum "PageType"
/-- format.rs:663-667 -/
def dBoundaryOrder : Def := .enum "BoundaryOrder"
/-- format.rs:201-237 -/
def dSizeStatistics : Def := .struct "SizeStatistics"
  [⟨1, false, "unencoded_byte_array_data_bytes", .i64⟩,
   ⟨2, false, "repetition_level_histogram", .list .i64⟩,
   ⟨3, false, "definition_level_histogram", .list .i64⟩]
/-- format.rs:243-252 -/
def dBoundingBox : Def := .struct "BoundingBox"
  [⟨1, true, "xmin", .double⟩,
   ⟨2, true, "xmax", .double⟩,
   ⟨3, true, "ymin", .double⟩,
   ⟨4, true, "ymax", .double⟩,
   ⟨5, false, "zmin", .double⟩,
   ⟨6, false, "zmax", .double⟩,
   ⟨7, false, "mmin", .double⟩,
   ⟨8, false, "mmax", .double⟩]
/-- format.rs:255-260 -/
def dGeospatialStatistics : Def := .struct "GeospatialStatistics"
  [⟨1, false, "bbox", tBoundingBox⟩,
   ⟨2, false, "geospatial_types", .list .i32⟩]
/-- format.rs:266-311 -/
def dStatistics : Def := .struct "Statistics"
  [⟨1, false, "max", .binary⟩,
   ⟨2, false, "min", .binary⟩,
   ⟨3, false, "null_count", .i64⟩,
   ⟨4, false, "distinct_count", .i64⟩,
   ⟨5, false, "max_value", .binary⟩,
   ⟨6, false, "min_value", .binary⟩,
   ⟨7, false, "is_max_value_exact", .bool⟩,
   ⟨8, false, "is_min_value_exact", .bool⟩]
/-- format.rs:314 -/
def dStringType : Def := .struct "StringType"
  []
/-- format.rs:315 -/
def dUUIDType : Def := .struct "UUIDType"
  []
/-- format.rs:316 -/
def dMapType : Def := .struct "MapType"
  []
/-- format.rs:317 -/
def dListType : Def := .struct "ListType"
  []
/-- format.rs:318 -/
def dEnumType : Def := .struct "EnumType"
  []
/-- format.rs:319 -/
def dDateType : Def := .struct "DateType"
  []
/-- format.rs:320 -/
def dFloat16Type : Def := .struct "Float16Type"
  []
/-- format.rs:329 -/
def dNullType : Def := .struct "NullType"
  []
/-- format.rs:342-345 -/
def dDecimalType : Def := .struct "DecimalType"
  [⟨1, true, "scale", .i32⟩,
   ⟨2, true, "precision", .i32⟩]
/-- format.rs:348 -/
def dMilliSeconds : Def := .struct "MilliSeconds"
  []
/-- format.rs:349 -/
def dMicroSeconds : Def := .struct "MicroSeconds"
  []
/-- format.rs:350 -/
def dNanoSeconds : Def := .struct "NanoSeconds"
  []
/-- format.rs:351-355 -/
def dTimeUnit : Def := .union "TimeUnit"
  [⟨1, "MILLIS", tMilliSeconds⟩,
   ⟨2, "MICROS", tMicroSeconds⟩,
   ⟨3, "NANOS", tNanoSeconds⟩]
/-- format.rs:362-365 -/
def dTimestampType : Def := .struct "TimestampType"
  [⟨1, true, "isAdjustedToUTC", .bool⟩,
   ⟨2, true, "unit", tTimeUnit⟩]
/-- format.rs:372-375 -/
def dTimeType : Def := .struct "TimeType"
  [⟨1, true, "isAdjustedToUTC", .bool⟩,
   ⟨2, true, "unit", tTimeUnit⟩]
/-- format.rs:384-387 -/
def dIntType : Def := .struct "IntType"
  [⟨1, true, "bitWidth", .i8⟩,
   ⟨2, true, "isSigned", .bool⟩]
/-- format.rs:394-395 -/
def dJsonType : Def := .struct "JsonType"
  []
/-- format.rs:402-403 -/
def dBsonType : Def := .struct "BsonType"
  []
/-- format.rs:408-412 -/
def dVariantType : Def := .struct "VariantType"
  [⟨1, false, "specification_version", .i8⟩]
/-- format.rs:437-439 -/
def dGeometryType : Def := .struct "GeometryType"
  [⟨1, false, "crs", .string⟩]
/-- format.rs:458-461 -/
def dGeographyType : Def := .struct "GeographyType"
  [⟨1, false, "crs", .string⟩,
   ⟨2, false, "algorithm", tEdgeInterpolationAlgorithm⟩]
/-- format.rs:470-496 -/
def dLogicalType : Def := .union "LogicalType"
  [⟨1, "STRING", tStringType⟩,
   ⟨2, "MAP", tMapType⟩,
   ⟨3, "LIST", tListType⟩,
   ⟨4, "ENUM", tEnumType⟩,
   ⟨5, "DECIMAL", tDecimalType⟩,
   ⟨6, "DATE", tDateType⟩,
   ⟨7, "TIME", tTimeType⟩,
   ⟨8, "TIMESTAMP", tTimestampType⟩,
   ⟨10, "INTEGER", tIntType⟩,
   ⟨11, "UNKNOWN", tNullType⟩,
   ⟨12, "JSON", tJsonType⟩,
   ⟨13, "BSON", tBsonType⟩,
   ⟨14, "UUID", tUUIDType⟩,
   ⟨15, "FLOAT16", tFloat16Type⟩,
   ⟨16, "VARIANT", tVariantType⟩,
   ⟨17, "GEOMETRY", tGeometryType⟩,
   ⟨18, "GEOGRAPHY", tGeographyType⟩]
/-- format.rs:504-558 -/
def dSchemaElement : Def := .struct "SchemaElement"
  [⟨1, false, "type_", tType⟩,
   ⟨2, false, "type_length", .i32⟩,
   ⟨3, false, "repetition_type", tFieldRepetitionType⟩,
   ⟨4, true, "name", .string⟩,
   ⟨5, false, "num_children", .i32⟩,
   ⟨6, false, "converted_type", tConvertedType⟩,
   ⟨7, false, "scale", .i32⟩,
   ⟨8, false, "precision", .i32⟩,
   ⟨9, false, "field_id", .i32⟩,
   ⟨10, false, "logicalType", tLogicalType⟩]
/-- format.rs:670-691 -/
def dDataPageHeader : Def := .struct "DataPageHeader"
  [⟨1, true, "num_values", .i32⟩,
   ⟨2, true, "encoding", tEncoding⟩,
   ⟨3, true, "definition_level_encoding", tEncoding⟩,
   ⟨4, true, "repetition_level_encoding", tEncoding⟩,
   ⟨5, false, "statistics", tStatistics⟩]
/-- format.rs:693-695 -/
def dIndexPageHeader : Def := .struct "IndexPageHeader"
  []
/-- format.rs:702-711 -/
def dDictionaryPageHeader : Def := .struct "DictionaryPageHeader"
  [⟨1, true, "num_values", .i32⟩,
   ⟨2, true, "encoding", tEncoding⟩,
   ⟨3, false, "is_sorted", .bool⟩]
/-- format.rs:718-749 -/
def dDataPageHeaderV2 : Def := .struct "DataPageHeaderV2"
  [⟨1, true, "num_values", .i32⟩,
   ⟨2, true, "num_nulls", .i32⟩,
   ⟨3, true, "num_rows", .i32⟩,
   ⟨4, true, "encoding", tEncoding⟩,
   ⟨5, true, "definition_levels_byte_length", .i32⟩,
   ⟨6, true, "repetition_levels_byte_length", .i32⟩,
   ⟨7, false, "is_compressed", .bool⟩,
   ⟨8, false, "statistics", tStatistics⟩]
/-- format.rs:752 -/
def dSplitBlockAlgorithm : Def := .struct "SplitBlockAlgorithm"
  []
/-- format.rs:754-757 -/
def dBloomFilterAlgorithm : Def := .union "BloomFilterAlgorithm"
  [⟨1, "BLOCK", tSplitBlockAlgorithm⟩]
/-- format.rs:762 -/
def dXxHash : Def := .struct "XxHash"
  []
/-- format.rs:768-771 -/
def dBloomFilterHash : Def := .union "BloomFilterHash"
  [⟨1, "XXHASH", tXxHash⟩]
/-- format.rs:776 -/
def dUncompressed : Def := .struct "Uncompressed"
  []
/-- format.rs:777-779 -/
def dBloomFilterCompression : Def := .union "BloomFilterCompression"
  [⟨1, "UNCOMPRESSED", tUncompressed⟩]
/-- format.rs:785-794 -/
def dBloomFilterHeader : Def := .struct "BloomFilterHeader"
  [⟨1, true, "numBytes", .i32⟩,
   ⟨2, true, "algorithm", tBloomFilterAlgorithm⟩,
   ⟨3, true, "hash", tBloomFilterHash⟩,
   ⟨4, true, "compression", tBloomFilterCompression⟩]
/-- format.rs:796-830 -/
def dPageHeader : Def := .struct "PageHeader"
  [⟨1, true, "type_", tPageType⟩,
   ⟨2, true, "uncompressed_page_size", .i32⟩,
   ⟨3, true, "compressed_page_size", .i32⟩,
   ⟨4, false, "crc", .i32⟩,
   ⟨5, false, "data_page_header", tDataPageHeader⟩,
   ⟨6, false, "index_page_header", tIndexPageHeader⟩,
   ⟨7, false, "dictionary_page_header", tDictionaryPageHeader⟩,
   ⟨8, false, "data_page_header_v2", tDataPageHeaderV2⟩]
/-- format.rs:835-838 -/
def dKeyValue : Def := .struct "KeyValue"
  [⟨1, true, "key", .string⟩,
   ⟨2, false, "value", .string⟩]
/-- format.rs:843-853 -/
def dSortingColumn : Def := .struct "SortingColumn"
  [⟨1, true, "column_idx", .i32⟩,
   ⟨2, true, "descending", .bool⟩,
   ⟨3, true, "nulls_first", .bool⟩]
/-- format.rs:858-869 -/
def dPageEncodingStats : Def := .struct "PageEncodingStats"
  [⟨1, true, "page_type", tPageType⟩,
   ⟨2, true, "encoding", tEncoding⟩,
   ⟨3, true, "count", .i32⟩]
/-- format.rs:874-941 -/
def dColumnMetaData : Def := .struct "ColumnMetaData"
  [⟨1, true, "type_", tType⟩,
   ⟨2, true, "encodings", .encodingSet⟩,
   ⟨4, true, "codec", tCompressionCodec⟩,
   ⟨5, true, "num_values", .i64⟩,
   ⟨6, true, "total_uncompressed_size", .i64⟩,
   ⟨7, true, "total_compressed_size", .i64⟩,
   ⟨8, false, "key_value_metadata", .list tKeyValue⟩,
   ⟨9, true, "data_page_offset", .i64⟩,
   ⟨11, false, "dictionary_page_offset", .i64⟩,
   ⟨12, false, "statistics", tStatistics⟩,
   ⟨13, false, "encoding_stats", .list tPageEncodingStats⟩,
   ⟨14, false, "bloom_filter_offset", .i64⟩,
   ⟨15, false, "bloom_filter_length", .i32⟩,
   ⟨16, false, "size_statistics", tSizeStatistics⟩,
   ⟨17, false, "geospatial_statistics", .box tGeospatialStatistics⟩]
/-- format.rs:943-944 -/
def dEncryptionWithFooterKey : Def := .struct "EncryptionWithFooterKey"
  []
/-- format.rs:946-952 -/
def dEncryptionWithColumnKey : Def := .struct "EncryptionWithColumnKey"
  [⟨1, true, "path_in_schema", .list .string⟩,
   ⟨2, false, "key_metadata", .binary⟩]
/-- format.rs:954-957 -/
def dColumnCryptoMetaData : Def := .union "ColumnCryptoMetaData"
  [⟨1, "ENCRYPTION_WITH_FOOTER_KEY", tEncryptionWithFooterKey⟩,
   ⟨2, "ENCRYPTION_WITH_COLUMN_KEY", tEncryptionWithColumnKey⟩]
/-- format.rs:959-1000 -/
def dColumnChunk : Def := .struct "ColumnChunk"
  [⟨1, false, "file_path", .string⟩,
   ⟨2, true, "file_offset", .i64⟩,
   ⟨3, false, "meta_data", tColumnMetaData⟩,
   ⟨4, false, "offset_index_offset", .i64⟩,
   ⟨5, false, "offset_index_length", .i32⟩,
   ⟨6, false, "column_index_offset", .i64⟩,
   ⟨7, false, "column_index_length", .i32⟩,
   ⟨8, false, "crypto_metadata", .box tColumnCryptoMetaData⟩,
   ⟨9, false, "encrypted_column_metadata", .binary⟩]
/-- format.rs:1002-1029 -/
def dRowGroup : Def := .struct "RowGroup"
  [⟨1, true, "columns", .list tColumnChunk⟩,
   ⟨2, true, "total_byte_size", .i64⟩,
   ⟨3, true, "num_rows", .i64⟩,
   ⟨4, false, "sorting_columns", .list tSortingColumn⟩,
   ⟨5, false, "file_offset", .i64⟩,
   ⟨6, false, "total_compressed_size", .i64⟩,
   ⟨7, false, "ordinal", .i16⟩]
/-- format.rs:1032 -/
def dTypeDefinedOrder : Def := .struct "TypeDefinedOrder"
  []
/-- format.rs:1046-1103 -/
def dColumnOrder : Def := .union "ColumnOrder"
  [⟨1, "TYPE_ORDER", tTypeDefinedOrder⟩]
/-- format.rs:1105-1121 -/
def dPageLocation : Def := .struct "PageLocation"
  [⟨1, true, "offset", .i64⟩,
   ⟨2, true, "compressed_page_size", .i32⟩,
   ⟨3, true, "first_row_index", .i64⟩]
/-- format.rs:1130-1143 -/
def dOffsetIndex : Def := .struct "OffsetIndex"
  [⟨1, true, "page_locations", .list tPageLocation⟩,
   ⟨2, false, "unencoded_byte_array_data_bytes", .list .i64⟩]
/-- format.rs:1155-1215 -/
def dColumnIndex : Def := .struct "ColumnIndex"
  [⟨1, true, "null_pages", .list .bool⟩,
   ⟨2, true, "min_values", .list .binary⟩,
   ⟨3, true, "max_values", .list .binary⟩,
   ⟨4, true, "boundary_order", tBoundaryOrder⟩,
   ⟨5, false, "null_counts", .list .i64⟩,
   ⟨6, false, "repetition_level_histograms", .list .i64⟩,
   ⟨7, false, "definition_level_histograms", .list .i64⟩]
/-- format.rs:1217-1227 -/
def dAesGcmV1 : Def := .struct "AesGcmV1"
  [⟨1, false, "aad_prefix", .binary⟩,
   ⟨2, false, "aad_file_unique", .binary⟩,
   ⟨3, false, "supply_aad_prefix", .bool⟩]
/-- format.rs:1229-1239 -/
def dAesGcmCtrV1 : Def := .struct "AesGcmCtrV1"
  [⟨1, false, "aad_prefix", .binary⟩,
   ⟨2, false, "aad_file_unique", .binary⟩,
   ⟨3, false, "supply_aad_prefix", .bool⟩]
/-- format.rs:1241-1244 -/
def dEncryptionAlgorithm : Def := .union "EncryptionAlgorithm"
  [⟨1, "AES_GCM_V1", tAesGcmV1⟩,
   ⟨2, "AES_GCM_CTR_V1", tAesGcmCtrV1⟩]
/-- format.rs:1249-1306 -/
def dFileMetaData : Def := .struct "FileMetaData"
  [⟨1, true, "version", .i32⟩,
   ⟨2, true, "schema", .list tSchemaElement⟩,
   ⟨3, true, "num_rows", .i64⟩,
   ⟨4, true, "row_groups", .list tRowGroup⟩,
   ⟨5, false, "key_value_metadata", .list tKeyValue⟩,
   ⟨6, false, "created_by", .string⟩,
   ⟨7, false, "column_orders", .list tColumnOrder⟩,
   ⟨8, false, "encryption_algorithm", tEncryptionAlgorithm⟩,
   ⟨9, false, "footer_signing_key_metadata", .binary⟩]
/-- format.rs:1309-1320 -/
def dFileCryptoMetaData : Def := .struct "FileCryptoMetaData"
  [⟨1, true, "encryption_algorithm", tEncryptionAlgorithm⟩,
   ⟨2, false, "key_metadata", .binary⟩]

/-- All definitions of format.rs. -/
def parquetEnv : List Def :=
  [dType, dConvertedType, dFieldRepetitionType, dEdgeInterpolationAlgorithm, dEncoding,
   dCompressionCodec, dPageType, dBoundaryOrder, dSizeStatistics, dBoundingBox,
   dGeospatialStatistics, dStatistics, dStringType, dUUIDType, dMapType,
   dListType, dEnumType, dDateType, dFloat16Type, dNullType,
   dDecimalType, dMilliSeconds, dMicroSeconds, dNanoSeconds, dTimeUnit,
   dTimestampType, dTimeType, dIntType, dJsonType, dBsonType,
   dVariantType, dGeometryType, dGeographyType, dLogicalType, dSchemaElement,
   dDataPageHeader, dIndexPageHeader, dDictionaryPageHeader, dDataPageHeaderV2, dSplitBlockAlgorithm,
   dBloomFilterAlgorithm, dXxHash, dBloomFilterHash, dUncompressed, dBloomFilterCompression,
   dBloomFilterHeader, dPageHeader, dKeyValue, dSortingColumn, dPageEncodingStats,
   dColumnMetaData, dEncryptionWithFooterKey, dEncryptionWithColumnKey, dColumnCryptoMetaData, dColumnChunk,
   dRowGroup, dTypeDefinedOrder, dColumnOrder, dPageLocation, dOffsetIndex,
   dColumnIndex, dAesGcmV1, dAesGcmCtrV1, dEncryptionAlgorithm, dFileMetaData,
   dFileCryptoMetaData]

end CT.Format
