import Lean.Elab.Term
/-!
# generator/src/test/resources/parquet.thrift

The text of the file, line by line, produced by a script.
-/
namespace CT.Gen

open Lean in
/-- The characters of a string literal -/
macro "chars! " s:str : term => do
  let cs := s.getString.toList.toArray.map fun c => Syntax.mkCharLit c
  `([$[$cs],*])

/-- Every line ends with a line feed. -/
def ofLines (ls : List (List Char)) : List Char := (ls.map fun l => l ++ ['\n']).flatten

/-- parquet.thrift:1-40 -/
def text0 : List (List Char) := [
  chars! "/**",
  chars! " * Licensed to the Apache Software Foundation (ASF) under one",
  chars! " * or more contributor license agreements.  See the NOTICE file",
  chars! " * distributed with this work for additional information",
  chars! " * regarding copyright ownership.  The ASF licenses this file",
  chars! " * to you under the Apache License, Version 2.0 (the",
  chars! " * \"License\"); you may not use this file except in compliance",
  chars! " * with the License.  You may obtain a copy of the License at",
  chars! " *",
  chars! " *     http://www.apache.org/licenses/LICENSE-2.0",
  chars! " *",
  chars! " * Unless required by applicable law or agreed to in writing,",
  chars! " * software distributed under the License is distributed on an",
  chars! " * \"AS IS\" BASIS, WITHOUT WARRANTIES OR CONDITIONS OF ANY",
  chars! " * KIND, either express or implied.  See the License for the",
  chars! " * specific language governing permissions and limitations",
  chars! " * under the License.",
  chars! " */",
  chars! "",
  chars! "/**",
  chars! " * File format description for the parquet file format",
  chars! " */",
  chars! "namespace cpp parquet",
  chars! "namespace java org.apache.parquet.format",
  chars! "",
  chars! "/**",
  chars! " * Types supported by Parquet.  These types are intended to be used in combination",
  chars! " * with the encodings to control the on disk storage format.",
  chars! " * For example INT16 is not included as a type since a good encoding of INT32",
  chars! " * would handle this.",
  chars! " */",
  chars! "enum Type {",
  chars! "  BOOLEAN = 0;",
  chars! "  INT32 = 1;",
  chars! "  INT64 = 2;",
  chars! "  INT96 = 3;  // deprecated, only used by legacy implementations.",
  chars! "  FLOAT = 4;",
  chars! "  DOUBLE = 5;",
  chars! "  BYTE_ARRAY = 6;",
  chars! "  FIXED_LEN_BYTE_ARRAY = 7;"]

/-- parquet.thrift:41-80 -/
def text1 : List (List Char) := [
  chars! "}",
  chars! "",
  chars! "/**",
  chars! " * DEPRECATED: Common types used by frameworks(e.g. hive, pig) using parquet.",
  chars! " * ConvertedType is superseded by LogicalType.  This enum should not be extended.",
  chars! " *",
  chars! " * See LogicalTypes.md for conversion between ConvertedType and LogicalType.",
  chars! " */",
  chars! "enum ConvertedType {",
  chars! "  /** a BYTE_ARRAY actually contains UTF8 encoded chars */",
  chars! "  UTF8 = 0;",
  chars! "",
  chars! "  /** a map is converted as an optional field containing a repeated key/value pair */",
  chars! "  MAP = 1;",
  chars! "",
  chars! "  /** a key/value pair is converted into a group of two fields */",
  chars! "  MAP_KEY_VALUE = 2;",
  chars! "",
  chars! "  /** a list is converted into an optional field containing a repeated field for its",
  chars! "   * values */",
  chars! "  LIST = 3;",
  chars! "",
  chars! "  /** an enum is converted into a binary field */",
  chars! "  ENUM = 4;",
  chars! "",
  chars! "  /**",
  chars! "   * A decimal value.",
  chars! "   *",
  chars! "   * This may be used to annotate binary or fixed primitive types. The",
  chars! "   * underlying byte array stores the unscaled value encoded as two's",
  chars! "   * complement using big-endian byte order (the most significant byte is the",
  chars! "   * zeroth element). The value of the decimal is the value * 10^{-scale}.",
  chars! "   *",
  chars! "   * This must be accompanied by a (maximum) precision and a scale in the",
  chars! "   * SchemaElement. The precision specifies the number of digits in the decimal",
  chars! "   * and the scale stores the location of the decimal point. For example 1.23",
  chars! "   * would have precision 3 (3 total digits) and scale 2 (the decimal point is",
  chars! "   * 2 digits over).",
  chars! "   */",
  chars! "  DECIMAL = 5;"]

/-- parquet.thrift:81-120 -/
def text2 : List (List Char) := [
  chars! "",
  chars! "  /**",
  chars! "   * A Date",
  chars! "   *",
  chars! "   * Stored as days since Unix epoch, encoded as the INT32 physical type.",
  chars! "   *",
  chars! "   */",
  chars! "  DATE = 6;",
  chars! "",
  chars! "  /**",
  chars! "   * A time",
  chars! "   *",
  chars! "   * The total number of milliseconds since midnight.  The value is stored",
  chars! "   * as an INT32 physical type.",
  chars! "   */",
  chars! "  TIME_MILLIS = 7;",
  chars! "",
  chars! "  /**",
  chars! "   * A time.",
  chars! "   *",
  chars! "   * The total number of microseconds since midnight.  The value is stored as",
  chars! "   * an INT64 physical type.",
  chars! "   */",
  chars! "  TIME_MICROS = 8;",
  chars! "",
  chars! "  /**",
  chars! "   * A date/time combination",
  chars! "   *",
  chars! "   * Date and time recorded as milliseconds since the Unix epoch.  Recorded as",
  chars! "   * a physical type of INT64.",
  chars! "   */",
  chars! "  TIMESTAMP_MILLIS = 9;",
  chars! "",
  chars! "  /**",
  chars! "   * A date/time combination",
  chars! "   *",
  chars! "   * Date and time recorded as microseconds since the Unix epoch.  The value is",
  chars! "   * stored as an INT64 physical type.",
  chars! "   */",
  chars! "  TIMESTAMP_MICROS = 10;"]

/-- parquet.thrift:121-162 -/
def text3 : List (List Char) := [
  chars! "",
  chars! "",
  chars! "  /**",
  chars! "   * An unsigned integer value.",
  chars! "   *",
  chars! "   * The number describes the maximum number of meaningful data bits in",
  chars! "   * the stored value. 8, 16 and 32 bit values are stored using the",
  chars! "   * INT32 physical type.  64 bit values are stored using the INT64",
  chars! "   * physical type.",
  chars! "   *",
  chars! "   */",
  chars! "  UINT_8 = 11;",
  chars! "  UINT_16 = 12;",
  chars! "  UINT_32 = 13;",
  chars! "  UINT_64 = 14;",
  chars! "",
  chars! "  /**",
  chars! "   * A signed integer value.",
  chars! "   *",
  chars! "   * The number describes the maximum number of meaningful data bits in",
  chars! "   * the stored value. 8, 16 and 32 bit values are stored using the",
  chars! "   * INT32 physical type.  64 bit values are stored using the INT64",
  chars! "   * physical type.",
  chars! "   *",
  chars! "   */",
  chars! "  INT_8 = 15;",
  chars! "  INT_16 = 16;",
  chars! "  INT_32 = 17;",
  chars! "  INT_64 = 18;",
  chars! "",
  chars! "  /**",
  chars! "   * An embedded JSON document",
  chars! "   *",
  chars! "   * A JSON document embedded within a single UTF8 column.",
  chars! "   */",
  chars! "  JSON = 19;",
  chars! "",
  chars! "  /**",
  chars! "   * An embedded BSON document",
  chars! "   *",
  chars! "   * A BSON document embedded within a single BINARY column.",
  chars! "   */"]

/-- parquet.thrift:163-202 -/
def text4 : List (List Char) := [
  chars! "  BSON = 20;",
  chars! "",
  chars! "  /**",
  chars! "   * An interval of time",
  chars! "   *",
  chars! "   * This type annotates data stored as a FIXED_LEN_BYTE_ARRAY of length 12",
  chars! "   * This data is composed of three separate little endian unsigned",
  chars! "   * integers.  Each stores a component of a duration of time.  The first",
  chars! "   * integer identifies the number of months associated with the duration,",
  chars! "   * the second identifies the number of days associated with the duration",
  chars! "   * and the third identifies the number of milliseconds associated with",
  chars! "   * the provided duration.  This duration of time is independent of any",
  chars! "   * particular timezone or date.",
  chars! "   */",
  chars! "  INTERVAL = 21;",
  chars! "}",
  chars! "",
  chars! "/**",
  chars! " * Representation of Schemas",
  chars! " */",
  chars! "enum FieldRepetitionType {",
  chars! "  /** This field is required (can not be null) and each record has exactly 1 value. */",
  chars! "  REQUIRED = 0;",
  chars! "",
  chars! "  /** The field is optional (can be null) and each record has 0 or 1 values. */",
  chars! "  OPTIONAL = 1;",
  chars! "",
  chars! "  /** The field is repeated and can contain 0 or more values */",
  chars! "  REPEATED = 2;",
  chars! "}",
  chars! "",
  chars! "/**",
  chars! " * A structure for capturing metadata for estimating the unencoded,",
  chars! " * uncompressed size of data written. This is useful for readers to estimate",
  chars! " * how much memory is needed to reconstruct data in their memory model and for",
  chars! " * fine grained filter pushdown on nested structures (the histograms contained",
  chars! " * in this structure can help determine the number of nulls at a particular",
  chars! " * nesting level and maximum length of lists).",
  chars! " */",
  chars! "struct SizeStatistics {"]

/-- parquet.thrift:203-243 -/
def text5 : List (List Char) := [
  chars! "   /**",
  chars! "    * The number of physical bytes stored for BYTE_ARRAY data values assuming",
  chars! "    * no encoding. This is exclusive of the bytes needed to store the length of",
  chars! "    * each byte array. In other words, this field is equivalent to the `(size",
  chars! "    * of PLAIN-ENCODING the byte array values) - (4 bytes * number of values",
  chars! "    * written)`. To determine unencoded sizes of other types readers can use",
  chars! "    * schema information multiplied by the number of non-null and null values.",
  chars! "    * The number of null/non-null values can be inferred from the histograms",
  chars! "    * below.",
  chars! "    *",
  chars! "    * For example, if a column chunk is dictionary-encoded with dictionary",
  chars! "    * [\"a\", \"bc\", \"cde\"], and a data page contains the indices [0, 0, 1, 2],",
  chars! "    * then this value for that data page should be 7 (1 + 1 + 2 + 3).",
  chars! "    *",
  chars! "    * This field should only be set for types that use BYTE_ARRAY as their",
  chars! "    * physical type.",
  chars! "    */",
  chars! "   1: optional i64 unencoded_byte_array_data_bytes;",
  chars! "   /**",
  chars! "    * When present, there is expected to be one element corresponding to each",
  chars! "    * repetition (i.e. size=max repetition_level+1) where each element",
  chars! "    * represents the number of times the repetition level was observed in the",
  chars! "    * data.",
  chars! "    *",
  chars! "    * This field may be omitted if max_repetition_level is 0 without loss",
  chars! "    * of information.",
  chars! "    **/",
  chars! "   2: optional list<i64> repetition_level_histogram;",
  chars! "   /**",
  chars! "    * Same as repetition_level_histogram except for definition levels.",
  chars! "    *",
  chars! "    * This field may be omitted if max_definition_level is 0 or 1 without",
  chars! "    * loss of information.",
  chars! "    **/",
  chars! "   3: optional list<i64> definition_level_histogram;",
  chars! "}",
  chars! "",
  chars! "/**",
  chars! " * Statistics per row group and per page",
  chars! " * All fields are optional.",
  chars! " */"]

/-- parquet.thrift:244-283 -/
def text6 : List (List Char) := [
  chars! "struct Statistics {",
  chars! "   /**",
  chars! "    * DEPRECATED: min and max value of the column. Use min_value and max_value.",
  chars! "    *",
  chars! "    * Values are encoded using PLAIN encoding, except that variable-length byte",
  chars! "    * arrays do not include a length prefix.",
  chars! "    *",
  chars! "    * These fields encode min and max values determined by signed comparison",
  chars! "    * only. New files should use the correct order for a column's logical type",
  chars! "    * and store the values in the min_value and max_value fields.",
  chars! "    *",
  chars! "    * To support older readers, these may be set when the column order is",
  chars! "    * signed.",
  chars! "    */",
  chars! "   1: optional binary max;",
  chars! "   2: optional binary min;",
  chars! "   /** count of null value in the column */",
  chars! "   3: optional i64 null_count;",
  chars! "   /** count of distinct values occurring */",
  chars! "   4: optional i64 distinct_count;",
  chars! "   /**",
  chars! "    * Lower and upper bound values for the column, determined by its ColumnOrder.",
  chars! "    *",
  chars! "    * These may be the actual minimum and maximum values found on a page or column",
  chars! "    * chunk, but can also be (more compact) values that do not exist on a page or",
  chars! "    * column chunk. For example, instead of storing \"Blart Versenwald III\", a writer",
  chars! "    * may set min_value=\"B\", max_value=\"C\". Such more compact values must still be",
  chars! "    * valid values within the column's logical type.",
  chars! "    *",
  chars! "    * Values are encoded using PLAIN encoding, except that variable-length byte",
  chars! "    * arrays do not include a length prefix.",
  chars! "    */",
  chars! "   5: optional binary max_value;",
  chars! "   6: optional binary min_value;",
  chars! "   /** If true, max_value is the actual maximum value for a column */",
  chars! "   7: optional bool is_max_value_exact;",
  chars! "   /** If true, min_value is the actual minimum value for a column */",
  chars! "   8: optional bool is_min_value_exact;",
  chars! "}",
  chars! ""]

/-- parquet.thrift:284-323 -/
def text7 : List (List Char) := [
  chars! "/** Empty structs to use as logical type annotations */",
  chars! "struct StringType {}  // allowed for BINARY, must be encoded with UTF-8",
  chars! "struct UUIDType {}    // allowed for FIXED[16], must encoded raw UUID bytes",
  chars! "struct MapType {}     // see LogicalTypes.md",
  chars! "struct ListType {}    // see LogicalTypes.md",
  chars! "struct EnumType {}    // allowed for BINARY, must be encoded with UTF-8",
  chars! "struct DateType {}    // allowed for INT32",
  chars! "struct Float16Type {} // allowed for FIXED[2], must encoded raw FLOAT16 bytes",
  chars! "",
  chars! "/**",
  chars! " * Logical type to annotate a column that is always null.",
  chars! " *",
  chars! " * Sometimes when discovering the schema of existing data, values are always",
  chars! " * null and the physical type can't be determined. This annotation signals",
  chars! " * the case where the physical type was guessed from all null values.",
  chars! " */",
  chars! "struct NullType {}    // allowed for any physical type, only null values stored",
  chars! "",
  chars! "/**",
  chars! " * Decimal logical type annotation",
  chars! " *",
  chars! " * Scale must be zero or a positive integer less than or equal to the precision.",
  chars! " * Precision must be a non-zero positive integer.",
  chars! " *",
  chars! " * To maintain forward-compatibility in v1, implementations using this logical",
  chars! " * type must also set scale and precision on the annotated SchemaElement.",
  chars! " *",
  chars! " * Allowed for physical types: INT32, INT64, FIXED, and BINARY",
  chars! " */",
  chars! "struct DecimalType {",
  chars! "  1: required i32 scale",
  chars! "  2: required i32 precision",
  chars! "}",
  chars! "",
  chars! "/** Time units for logical types */",
  chars! "struct MilliSeconds {}",
  chars! "struct MicroSeconds {}",
  chars! "struct NanoSeconds {}",
  chars! "union TimeUnit {",
  chars! "  1: MilliSeconds MILLIS"]

/-- parquet.thrift:324-364 -/
def text8 : List (List Char) := [
  chars! "  2: MicroSeconds MICROS",
  chars! "  3: NanoSeconds NANOS",
  chars! "}",
  chars! "",
  chars! "/**",
  chars! " * Timestamp logical type annotation",
  chars! " *",
  chars! " * Allowed for physical types: INT64",
  chars! " */",
  chars! "struct TimestampType {",
  chars! "  1: required bool isAdjustedToUTC",
  chars! "  2: required TimeUnit unit",
  chars! "}",
  chars! "",
  chars! "/**",
  chars! " * Time logical type annotation",
  chars! " *",
  chars! " * Allowed for physical types: INT32 (millis), INT64 (micros, nanos)",
  chars! " */",
  chars! "struct TimeType {",
  chars! "  1: required bool isAdjustedToUTC",
  chars! "  2: required TimeUnit unit",
  chars! "}",
  chars! "",
  chars! "/**",
  chars! " * Integer logical type annotation",
  chars! " *",
  chars! " * bitWidth must be 8, 16, 32, or 64.",
  chars! " *",
  chars! " * Allowed for physical types: INT32, INT64",
  chars! " */",
  chars! "struct IntType {",
  chars! "  1: required i8 bitWidth",
  chars! "  2: required bool isSigned",
  chars! "}",
  chars! "",
  chars! "/**",
  chars! " * Embedded JSON logical type annotation",
  chars! " *",
  chars! " * Allowed for physical types: BINARY",
  chars! " */"]

/-- parquet.thrift:365-404 -/
def text9 : List (List Char) := [
  chars! "struct JsonType {",
  chars! "}",
  chars! "",
  chars! "/**",
  chars! " * Embedded BSON logical type annotation",
  chars! " *",
  chars! " * Allowed for physical types: BINARY",
  chars! " */",
  chars! "struct BsonType {",
  chars! "}",
  chars! "",
  chars! "/**",
  chars! " * LogicalType annotations to replace ConvertedType.",
  chars! " *",
  chars! " * To maintain compatibility, implementations using LogicalType for a",
  chars! " * SchemaElement must also set the corresponding ConvertedType (if any)",
  chars! " * from the following table.",
  chars! " */",
  chars! "union LogicalType {",
  chars! "  1:  StringType STRING       // use ConvertedType UTF8",
  chars! "  2:  MapType MAP             // use ConvertedType MAP",
  chars! "  3:  ListType LIST           // use ConvertedType LIST",
  chars! "  4:  EnumType ENUM           // use ConvertedType ENUM",
  chars! "  5:  DecimalType DECIMAL     // use ConvertedType DECIMAL + SchemaElement.{scale, precision}",
  chars! "  6:  DateType DATE           // use ConvertedType DATE",
  chars! "",
  chars! "  // use ConvertedType TIME_MICROS for TIME(isAdjustedToUTC = *, unit = MICROS)",
  chars! "  // use ConvertedType TIME_MILLIS for TIME(isAdjustedToUTC = *, unit = MILLIS)",
  chars! "  7:  TimeType TIME",
  chars! "",
  chars! "  // use ConvertedType TIMESTAMP_MICROS for TIMESTAMP(isAdjustedToUTC = *, unit = MICROS)",
  chars! "  // use ConvertedType TIMESTAMP_MILLIS for TIMESTAMP(isAdjustedToUTC = *, unit = MILLIS)",
  chars! "  8:  TimestampType TIMESTAMP",
  chars! "",
  chars! "  // 9: reserved for INTERVAL",
  chars! "  10: IntType INTEGER         // use ConvertedType INT_* or UINT_*",
  chars! "  11: NullType UNKNOWN        // no compatible ConvertedType",
  chars! "  12: JsonType JSON           // use ConvertedType JSON",
  chars! "  13: BsonType BSON           // use ConvertedType BSON",
  chars! "  14: UUIDType UUID           // no compatible ConvertedType"]

/-- parquet.thrift:405-444 -/
def text10 : List (List Char) := [
  chars! "  15: Float16Type FLOAT16     // no compatible ConvertedType",
  chars! "}",
  chars! "",
  chars! "/**",
  chars! " * Represents a element inside a schema definition.",
  chars! " *  - if it is a group (inner node) then type is undefined and num_children is defined",
  chars! " *  - if it is a primitive type (leaf) then type is defined and num_children is undefined",
  chars! " * the nodes are listed in depth first traversal order.",
  chars! " */",
  chars! "struct SchemaElement {",
  chars! "  /** Data type for this field. Not set if the current element is a non-leaf node */",
  chars! "  1: optional Type type;",
  chars! "",
  chars! "  /** If type is FIXED_LEN_BYTE_ARRAY, this is the byte length of the values.",
  chars! "   * Otherwise, if specified, this is the maximum bit length to store any of the values.",
  chars! "   * (e.g. a low cardinality INT col could have this set to 3).  Note that this is",
  chars! "   * in the schema, and therefore fixed for the entire file.",
  chars! "   */",
  chars! "  2: optional i32 type_length;",
  chars! "",
  chars! "  /** repetition of the field. The root of the schema does not have a repetition_type.",
  chars! "   * All other nodes must have one */",
  chars! "  3: optional FieldRepetitionType repetition_type;",
  chars! "",
  chars! "  /** Name of the field in the schema */",
  chars! "  4: required string name;",
  chars! "",
  chars! "  /** Nested fields.  Since thrift does not support nested fields,",
  chars! "   * the nesting is flattened to a single list by a depth-first traversal.",
  chars! "   * The children count is used to construct the nested relationship.",
  chars! "   * This field is not set when the element is a primitive type",
  chars! "   */",
  chars! "  5: optional i32 num_children;",
  chars! "",
  chars! "  /**",
  chars! "   * DEPRECATED: When the schema is the result of a conversion from another model.",
  chars! "   * Used to record the original type to help with cross conversion.",
  chars! "   *",
  chars! "   * This is superseded by logicalType.",
  chars! "   */"]

/-- parquet.thrift:445-484 -/
def text11 : List (List Char) := [
  chars! "  6: optional ConvertedType converted_type;",
  chars! "",
  chars! "  /**",
  chars! "   * DEPRECATED: Used when this column contains decimal data.",
  chars! "   * See the DECIMAL converted type for more details.",
  chars! "   *",
  chars! "   * This is superseded by using the DecimalType annotation in logicalType.",
  chars! "   */",
  chars! "  7: optional i32 scale",
  chars! "  8: optional i32 precision",
  chars! "",
  chars! "  /** When the original schema supports field ids, this will save the",
  chars! "   * original field id in the parquet schema",
  chars! "   */",
  chars! "  9: optional i32 field_id;",
  chars! "",
  chars! "  /**",
  chars! "   * The logical type of this SchemaElement",
  chars! "   *",
  chars! "   * LogicalType replaces ConvertedType, but ConvertedType is still required",
  chars! "   * for some logical types to ensure forward-compatibility in format v1.",
  chars! "   */",
  chars! "  10: optional LogicalType logicalType",
  chars! "}",
  chars! "",
  chars! "/**",
  chars! " * Encodings supported by Parquet.  Not all encodings are valid for all types.  These",
  chars! " * enums are also used to specify the encoding of definition and repetition levels.",
  chars! " * See the accompanying doc for the details of the more complicated encodings.",
  chars! " */",
  chars! "enum Encoding {",
  chars! "  /** Default encoding.",
  chars! "   * BOOLEAN - 1 bit per value. 0 is false; 1 is true.",
  chars! "   * INT32 - 4 bytes per value.  Stored as little-endian.",
  chars! "   * INT64 - 8 bytes per value.  Stored as little-endian.",
  chars! "   * FLOAT - 4 bytes per value.  IEEE. Stored as little-endian.",
  chars! "   * DOUBLE - 8 bytes per value.  IEEE. Stored as little-endian.",
  chars! "   * BYTE_ARRAY - 4 byte length stored as little endian, followed by bytes.",
  chars! "   * FIXED_LEN_BYTE_ARRAY - Just the bytes.",
  chars! "   */"]

/-- parquet.thrift:485-524 -/
def text12 : List (List Char) := [
  chars! "  PLAIN = 0;",
  chars! "",
  chars! "  /** Group VarInt encoding for INT32/INT64.",
  chars! "   * This encoding is deprecated. It was never used",
  chars! "   */",
  chars! "  //  GROUP_VAR_INT = 1;",
  chars! "",
  chars! "  /**",
  chars! "   * Deprecated: Dictionary encoding. The values in the dictionary are encoded in the",
  chars! "   * plain type.",
  chars! "   * in a data page use RLE_DICTIONARY instead.",
  chars! "   * in a Dictionary page use PLAIN instead",
  chars! "   */",
  chars! "  PLAIN_DICTIONARY = 2;",
  chars! "",
  chars! "  /** Group packed run length encoding. Usable for definition/repetition levels",
  chars! "   * encoding and Booleans (on one bit: 0 is false; 1 is true.)",
  chars! "   */",
  chars! "  RLE = 3;",
  chars! "",
  chars! "  /** Bit packed encoding.  This can only be used if the data has a known max",
  chars! "   * width.  Usable for definition/repetition levels encoding.",
  chars! "   */",
  chars! "  BIT_PACKED = 4;",
  chars! "",
  chars! "  /** Delta encoding for integers. This can be used for int columns and works best",
  chars! "   * on sorted data",
  chars! "   */",
  chars! "  DELTA_BINARY_PACKED = 5;",
  chars! "",
  chars! "  /** Encoding for byte arrays to separate the length values and the data. The lengths",
  chars! "   * are encoded using DELTA_BINARY_PACKED",
  chars! "   */",
  chars! "  DELTA_LENGTH_BYTE_ARRAY = 6;",
  chars! "",
  chars! "  /** Incremental-encoded byte array. Prefix lengths are encoded using DELTA_BINARY_PACKED.",
  chars! "   * Suffixes are stored as delta length byte arrays.",
  chars! "   */",
  chars! "  DELTA_BYTE_ARRAY = 7;",
  chars! ""]

/-- parquet.thrift:525-564 -/
def text13 : List (List Char) := [
  chars! "  /** Dictionary encoding: the ids are encoded using the RLE encoding",
  chars! "   */",
  chars! "  RLE_DICTIONARY = 8;",
  chars! "",
  chars! "  /** Encoding for fixed-width data (FLOAT, DOUBLE, INT32, INT64, FIXED_LEN_BYTE_ARRAY).",
  chars! "      K byte-streams are created where K is the size in bytes of the data type.",
  chars! "      The individual bytes of a value are scattered to the corresponding stream and",
  chars! "      the streams are concatenated.",
  chars! "      This itself does not reduce the size of the data but can lead to better compression",
  chars! "      afterwards.",
  chars! "",
  chars! "      Added in 2.8 for FLOAT and DOUBLE.",
  chars! "      Support for INT32, INT64 and FIXED_LEN_BYTE_ARRAY added in 2.11.",
  chars! "   */",
  chars! "  BYTE_STREAM_SPLIT = 9;",
  chars! "}",
  chars! "",
  chars! "/**",
  chars! " * Supported compression algorithms.",
  chars! " *",
  chars! " * Codecs added in format version X.Y can be read by readers based on X.Y and later.",
  chars! " * Codec support may vary between readers based on the format version and",
  chars! " * libraries available at runtime.",
  chars! " *",
  chars! " * See Compression.md for a detailed specification of these algorithms.",
  chars! " */",
  chars! "enum CompressionCodec {",
  chars! "  UNCOMPRESSED = 0;",
  chars! "  SNAPPY = 1;",
  chars! "  GZIP = 2;",
  chars! "  LZO = 3;",
  chars! "  BROTLI = 4;  // Added in 2.4",
  chars! "  LZ4 = 5;     // DEPRECATED (Added in 2.4)",
  chars! "  ZSTD = 6;    // Added in 2.4",
  chars! "  LZ4_RAW = 7; // Added in 2.9",
  chars! "}",
  chars! "",
  chars! "enum PageType {",
  chars! "  DATA_PAGE = 0;",
  chars! "  INDEX_PAGE = 1;"]

/-- parquet.thrift:565-605 -/
def text14 : List (List Char) := [
  chars! "  DICTIONARY_PAGE = 2;",
  chars! "  DATA_PAGE_V2 = 3;",
  chars! "}",
  chars! "",
  chars! "/**",
  chars! " * Enum to annotate whether lists of min/max elements inside ColumnIndex",
  chars! " * are ordered and if so, in which direction.",
  chars! " */",
  chars! "enum BoundaryOrder {",
  chars! "  UNORDERED = 0;",
  chars! "  ASCENDING = 1;",
  chars! "  DESCENDING = 2;",
  chars! "}",
  chars! "",
  chars! "/** Data page header */",
  chars! "struct DataPageHeader {",
  chars! "  /** Number of values, including NULLs, in this data page. **/",
  chars! "  1: required i32 num_values",
  chars! "",
  chars! "  /** Encoding used for this data page **/",
  chars! "  2: required Encoding encoding",
  chars! "",
  chars! "  /** Encoding used for definition levels **/",
  chars! "  3: required Encoding definition_level_encoding;",
  chars! "",
  chars! "  /** Encoding used for repetition levels **/",
  chars! "  4: required Encoding repetition_level_encoding;",
  chars! "",
  chars! "  /** Optional statistics for the data in this page **/",
  chars! "  5: optional Statistics statistics;",
  chars! "}",
  chars! "",
  chars! "struct IndexPageHeader {",
  chars! "  // TODO",
  chars! "}",
  chars! "",
  chars! "/**",
  chars! " * The dictionary page must be placed at the first position of the column chunk",
  chars! " * if it is partly or completely dictionary encoded. At most one dictionary page",
  chars! " * can be placed in a column chunk.",
  chars! " **/"]

/-- parquet.thrift:606-645 -/
def text15 : List (List Char) := [
  chars! "struct DictionaryPageHeader {",
  chars! "  /** Number of values in the dictionary **/",
  chars! "  1: required i32 num_values;",
  chars! "",
  chars! "  /** Encoding using this dictionary page **/",
  chars! "  2: required Encoding encoding",
  chars! "",
  chars! "  /** If true, the entries in the dictionary are sorted in ascending order **/",
  chars! "  3: optional bool is_sorted;",
  chars! "}",
  chars! "",
  chars! "/**",
  chars! " * New page format allowing reading levels without decompressing the data",
  chars! " * Repetition and definition levels are uncompressed",
  chars! " * The remaining section containing the data is compressed if is_compressed is true",
  chars! " **/",
  chars! "struct DataPageHeaderV2 {",
  chars! "  /** Number of values, including NULLs, in this data page. **/",
  chars! "  1: required i32 num_values",
  chars! "  /** Number of NULL values, in this data page.",
  chars! "      Number of non-null = num_values - num_nulls which is also the number of values in the data section **/",
  chars! "  2: required i32 num_nulls",
  chars! "  /** Number of rows in this data page. which means pages change on record boundaries (r = 0) **/",
  chars! "  3: required i32 num_rows",
  chars! "  /** Encoding used for data in this page **/",
  chars! "  4: required Encoding encoding",
  chars! "",
  chars! "  // repetition levels and definition levels are always using RLE (without size in it)",
  chars! "",
  chars! "  /** Length of the definition levels */",
  chars! "  5: required i32 definition_levels_byte_length;",
  chars! "  /** Length of the repetition levels */",
  chars! "  6: required i32 repetition_levels_byte_length;",
  chars! "",
  chars! "  /**  Whether the values are compressed.",
  chars! "  Which means the section of the page between",
  chars! "  definition_levels_byte_length + repetition_levels_byte_length + 1 and compressed_page_size (included)",
  chars! "  is compressed with the compression_codec.",
  chars! "  If missing it is considered compressed */",
  chars! "  7: optional bool is_compressed = true;"]

/-- parquet.thrift:646-685 -/
def text16 : List (List Char) := [
  chars! "",
  chars! "  /** Optional statistics for the data in this page **/",
  chars! "  8: optional Statistics statistics;",
  chars! "}",
  chars! "",
  chars! "/** Block-based algorithm type annotation. **/",
  chars! "struct SplitBlockAlgorithm {}",
  chars! "/** The algorithm used in Bloom filter. **/",
  chars! "union BloomFilterAlgorithm {",
  chars! "  /** Block-based Bloom filter. **/",
  chars! "  1: SplitBlockAlgorithm BLOCK;",
  chars! "}",
  chars! "",
  chars! "/** Hash strategy type annotation. xxHash is an extremely fast non-cryptographic hash",
  chars! " * algorithm. It uses 64 bits version of xxHash.",
  chars! " **/",
  chars! "struct XxHash {}",
  chars! "",
  chars! "/**",
  chars! " * The hash function used in Bloom filter. This function takes the hash of a column value",
  chars! " * using plain encoding.",
  chars! " **/",
  chars! "union BloomFilterHash {",
  chars! "  /** xxHash Strategy. **/",
  chars! "  1: XxHash XXHASH;",
  chars! "}",
  chars! "",
  chars! "/**",
  chars! " * The compression used in the Bloom filter.",
  chars! " **/",
  chars! "struct Uncompressed {}",
  chars! "union BloomFilterCompression {",
  chars! "  1: Uncompressed UNCOMPRESSED;",
  chars! "}",
  chars! "",
  chars! "/**",
  chars! "  * Bloom filter header is stored at beginning of Bloom filter data of each column",
  chars! "  * and followed by its bitset.",
  chars! "  **/",
  chars! "struct BloomFilterHeader {"]

/-- parquet.thrift:686-725 -/
def text17 : List (List Char) := [
  chars! "  /** The size of bitset in bytes **/",
  chars! "  1: required i32 numBytes;",
  chars! "  /** The algorithm for setting bits. **/",
  chars! "  2: required BloomFilterAlgorithm algorithm;",
  chars! "  /** The hash function used for Bloom filter. **/",
  chars! "  3: required BloomFilterHash hash;",
  chars! "  /** The compression used in the Bloom filter **/",
  chars! "  4: required BloomFilterCompression compression;",
  chars! "}",
  chars! "",
  chars! "struct PageHeader {",
  chars! "  /** the type of the page: indicates which of the *_header fields is set **/",
  chars! "  1: required PageType type",
  chars! "",
  chars! "  /** Uncompressed page size in bytes (not including this header) **/",
  chars! "  2: required i32 uncompressed_page_size",
  chars! "",
  chars! "  /** Compressed (and potentially encrypted) page size in bytes, not including this header **/",
  chars! "  3: required i32 compressed_page_size",
  chars! "",
  chars! "  /** The 32-bit CRC checksum for the page, to be be calculated as follows:",
  chars! "   *",
  chars! "   * - The standard CRC32 algorithm is used (with polynomial 0x04C11DB7,",
  chars! "   *   the same as in e.g. GZip).",
  chars! "   * - All page types can have a CRC (v1 and v2 data pages, dictionary pages,",
  chars! "   *   etc.).",
  chars! "   * - The CRC is computed on the serialization binary representation of the page",
  chars! "   *   (as written to disk), excluding the page header. For example, for v1",
  chars! "   *   data pages, the CRC is computed on the concatenation of repetition levels,",
  chars! "   *   definition levels and column values (optionally compressed, optionally",
  chars! "   *   encrypted).",
  chars! "   * - The CRC computation therefore takes place after any compression",
  chars! "   *   and encryption steps, if any.",
  chars! "   *",
  chars! "   * If enabled, this allows for disabling checksumming in HDFS if only a few",
  chars! "   * pages need to be read.",
  chars! "   */",
  chars! "  4: optional i32 crc",
  chars! "",
  chars! "  // Headers for page specific data.  One only will be set."]

/-- parquet.thrift:726-765 -/
def text18 : List (List Char) := [
  chars! "  5: optional DataPageHeader data_page_header;",
  chars! "  6: optional IndexPageHeader index_page_header;",
  chars! "  7: optional DictionaryPageHeader dictionary_page_header;",
  chars! "  8: optional DataPageHeaderV2 data_page_header_v2;",
  chars! "}",
  chars! "",
  chars! "/**",
  chars! " * Wrapper struct to store key values",
  chars! " */",
  chars! " struct KeyValue {",
  chars! "  1: required string key",
  chars! "  2: optional string value",
  chars! "}",
  chars! "",
  chars! "/**",
  chars! " * Wrapper struct to specify sort order",
  chars! " */",
  chars! "struct SortingColumn {",
  chars! "  /** The column index (in this row group) **/",
  chars! "  1: required i32 column_idx",
  chars! "",
  chars! "  /** If true, indicates this column is sorted in descending order. **/",
  chars! "  2: required bool descending",
  chars! "",
  chars! "  /** If true, nulls will come before non-null values, otherwise,",
  chars! "   * nulls go at the end. */",
  chars! "  3: required bool nulls_first",
  chars! "}",
  chars! "",
  chars! "/**",
  chars! " * statistics of a given page type and encoding",
  chars! " */",
  chars! "struct PageEncodingStats {",
  chars! "",
  chars! "  /** the page type (data/dic/...) **/",
  chars! "  1: required PageType page_type;",
  chars! "",
  chars! "  /** encoding of the page **/",
  chars! "  2: required Encoding encoding;",
  chars! ""]

/-- parquet.thrift:766-805 -/
def text19 : List (List Char) := [
  chars! "  /** number of pages of this type with this encoding **/",
  chars! "  3: required i32 count;",
  chars! "",
  chars! "}",
  chars! "",
  chars! "/**",
  chars! " * Description for column metadata",
  chars! " */",
  chars! "struct ColumnMetaData {",
  chars! "  /** Type of this column **/",
  chars! "  1: required Type type",
  chars! "",
  chars! "  /** Set of all encodings used for this column. The purpose is to validate",
  chars! "   * whether we can decode those pages. **/",
  chars! "  2: required list<Encoding> encodings",
  chars! "",
  chars! "  /** Path in schema **/",
  chars! "  3: required list<string> path_in_schema",
  chars! "",
  chars! "  /** Compression codec **/",
  chars! "  4: required CompressionCodec codec",
  chars! "",
  chars! "  /** Number of values in this column **/",
  chars! "  5: required i64 num_values",
  chars! "",
  chars! "  /** total byte size of all uncompressed pages in this column chunk (including the headers) **/",
  chars! "  6: required i64 total_uncompressed_size",
  chars! "",
  chars! "  /** total byte size of all compressed, and potentially encrypted, pages",
  chars! "   *  in this column chunk (including the headers) **/",
  chars! "  7: required i64 total_compressed_size",
  chars! "",
  chars! "  /** Optional key/value metadata **/",
  chars! "  8: optional list<KeyValue> key_value_metadata",
  chars! "",
  chars! "  /** Byte offset from beginning of file to first data page **/",
  chars! "  9: required i64 data_page_offset",
  chars! "",
  chars! "  /** Byte offset from beginning of file to root index page **/",
  chars! "  10: optional i64 index_page_offset"]

/-- parquet.thrift:806-845 -/
def text20 : List (List Char) := [
  chars! "",
  chars! "  /** Byte offset from the beginning of file to first (only) dictionary page **/",
  chars! "  11: optional i64 dictionary_page_offset",
  chars! "",
  chars! "  /** optional statistics for this column chunk */",
  chars! "  12: optional Statistics statistics;",
  chars! "",
  chars! "  /** Set of all encodings used for pages in this column chunk.",
  chars! "   * This information can be used to determine if all data pages are",
  chars! "   * dictionary encoded for example **/",
  chars! "  13: optional list<PageEncodingStats> encoding_stats;",
  chars! "",
  chars! "  /** Byte offset from beginning of file to Bloom filter data. **/",
  chars! "  14: optional i64 bloom_filter_offset;",
  chars! "",
  chars! "  /** Size of Bloom filter data including the serialized header, in bytes.",
  chars! "   * Added in 2.10 so readers may not read this field from old files and",
  chars! "   * it can be obtained after the BloomFilterHeader has been deserialized.",
  chars! "   * Writers should write this field so readers can read the bloom filter",
  chars! "   * in a single I/O.",
  chars! "   */",
  chars! "  15: optional i32 bloom_filter_length;",
  chars! "",
  chars! "  /**",
  chars! "   * Optional statistics to help estimate total memory when converted to in-memory",
  chars! "   * representations. The histograms contained in these statistics can",
  chars! "   * also be useful in some cases for more fine-grained nullability/list length",
  chars! "   * filter pushdown.",
  chars! "   */",
  chars! "  16: optional SizeStatistics size_statistics;",
  chars! "}",
  chars! "",
  chars! "struct EncryptionWithFooterKey {",
  chars! "}",
  chars! "",
  chars! "struct EncryptionWithColumnKey {",
  chars! "  /** Column path in schema **/",
  chars! "  1: required list<string> path_in_schema",
  chars! "",
  chars! "  /** Retrieval metadata of column encryption key **/"]

/-- parquet.thrift:846-885 -/
def text21 : List (List Char) := [
  chars! "  2: optional binary key_metadata",
  chars! "}",
  chars! "",
  chars! "union ColumnCryptoMetaData {",
  chars! "  1: EncryptionWithFooterKey ENCRYPTION_WITH_FOOTER_KEY",
  chars! "  2: EncryptionWithColumnKey ENCRYPTION_WITH_COLUMN_KEY",
  chars! "}",
  chars! "",
  chars! "struct ColumnChunk {",
  chars! "  /** File where column data is stored.  If not set, assumed to be same file as",
  chars! "    * metadata.  This path is relative to the current file.",
  chars! "    **/",
  chars! "  1: optional string file_path",
  chars! "",
  chars! "  /** Byte offset in file_path to the ColumnMetaData **/",
  chars! "  2: required i64 file_offset",
  chars! "",
  chars! "  /** Column metadata for this chunk. This is the same content as what is at",
  chars! "   * file_path/file_offset.  Having it here has it replicated in the file",
  chars! "   * metadata.",
  chars! "   **/",
  chars! "  3: optional ColumnMetaData meta_data",
  chars! "",
  chars! "  /** File offset of ColumnChunk's OffsetIndex **/",
  chars! "  4: optional i64 offset_index_offset",
  chars! "",
  chars! "  /** Size of ColumnChunk's OffsetIndex, in bytes **/",
  chars! "  5: optional i32 offset_index_length",
  chars! "",
  chars! "  /** File offset of ColumnChunk's ColumnIndex **/",
  chars! "  6: optional i64 column_index_offset",
  chars! "",
  chars! "  /** Size of ColumnChunk's ColumnIndex, in bytes **/",
  chars! "  7: optional i32 column_index_length",
  chars! "",
  chars! "  /** Crypto metadata of encrypted columns **/",
  chars! "  8: optional ColumnCryptoMetaData crypto_metadata",
  chars! "",
  chars! "  /** Encrypted column metadata for this chunk **/",
  chars! "  9: optional binary encrypted_column_metadata"]

/-- parquet.thrift:886-931 -/
def text22 : List (List Char) := [
  chars! "}",
  chars! "",
  chars! "struct RowGroup {",
  chars! "  /** Metadata for each column chunk in this row group.",
  chars! "   * This list must have the same order as the SchemaElement list in FileMetaData.",
  chars! "   **/",
  chars! "  1: required list<ColumnChunk> columns",
  chars! "",
  chars! "  /** Total byte size of all the uncompressed column data in this row group **/",
  chars! "  2: required i64 total_byte_size",
  chars! "",
  chars! "  /** Number of rows in this row group **/",
  chars! "  3: required i64 num_rows",
  chars! "",
  chars! "  /** If set, specifies a sort ordering of the rows in this RowGroup.",
  chars! "   * The sorting columns can be a subset of all the columns.",
  chars! "   */",
  chars! "  4: optional list<SortingColumn> sorting_columns",
  chars! "",
  chars! "  /** Byte offset from beginning of file to first page (data or dictionary)",
  chars! "   * in this row group **/",
  chars! "  5: optional i64 file_offset",
  chars! "",
  chars! "  /** Total byte size of all compressed (and potentially encrypted) column data",
  chars! "   *  in this row group **/",
  chars! "  6: optional i64 total_compressed_size",
  chars! "",
  chars! "  /** Row group ordinal in the file **/",
  chars! "  7: optional i16 ordinal",
  chars! "}",
  chars! "",
  chars! "/** Empty struct to signal the order defined by the physical or logical type */",
  chars! "struct TypeDefinedOrder {}",
  chars! "",
  chars! "/**",
  chars! " * Union to specify the order used for the min_value and max_value fields for a",
  chars! " * column. This union takes the role of an enhanced enum that allows rich",
  chars! " * elements (which will be needed for a collation-based ordering in the future).",
  chars! " *",
  chars! " * Possible values are:",
  chars! " * * TypeDefinedOrder - the column uses the order defined by its logical or",
  chars! " *                      physical type (if there is no logical type).",
  chars! " *",
  chars! " * If the reader does not support the value of this union, min and max stats",
  chars! " * for this column should be ignored.",
  chars! " */"]

/-- parquet.thrift:932-983 -/
def text23 : List (List Char) := [
  chars! "union ColumnOrder {",
  chars! "",
  chars! "  /**",
  chars! "   * The sort orders for logical types are:",
  chars! "   *   UTF8 - unsigned byte-wise comparison",
  chars! "   *   INT8 - signed comparison",
  chars! "   *   INT16 - signed comparison",
  chars! "   *   INT32 - signed comparison",
  chars! "   *   INT64 - signed comparison",
  chars! "   *   UINT8 - unsigned comparison",
  chars! "   *   UINT16 - unsigned comparison",
  chars! "   *   UINT32 - unsigned comparison",
  chars! "   *   UINT64 - unsigned comparison",
  chars! "   *   DECIMAL - signed comparison of the represented value",
  chars! "   *   DATE - signed comparison",
  chars! "   *   TIME_MILLIS - signed comparison",
  chars! "   *   TIME_MICROS - signed comparison",
  chars! "   *   TIMESTAMP_MILLIS - signed comparison",
  chars! "   *   TIMESTAMP_MICROS - signed comparison",
  chars! "   *   INTERVAL - undefined",
  chars! "   *   JSON - unsigned byte-wise comparison",
  chars! "   *   BSON - unsigned byte-wise comparison",
  chars! "   *   ENUM - unsigned byte-wise comparison",
  chars! "   *   LIST - undefined",
  chars! "   *   MAP - undefined",
  chars! "   *",
  chars! "   * In the absence of logical types, the sort order is determined by the physical type:",
  chars! "   *   BOOLEAN - false, true",
  chars! "   *   INT32 - signed comparison",
  chars! "   *   INT64 - signed comparison",
  chars! "   *   INT96 (only used for legacy timestamps) - undefined",
  chars! "   *   FLOAT - signed comparison of the represented value (*)",
  chars! "   *   DOUBLE - signed comparison of the represented value (*)",
  chars! "   *   BYTE_ARRAY - unsigned byte-wise comparison",
  chars! "   *   FIXED_LEN_BYTE_ARRAY - unsigned byte-wise comparison",
  chars! "   *",
  chars! "   * (*) Because the sorting order is not specified properly for floating",
  chars! "   *     point values (relations vs. total ordering) the following",
  chars! "   *     compatibility rules should be applied when reading statistics:",
  chars! "   *     - If the min is a NaN, it should be ignored.",
  chars! "   *     - If the max is a NaN, it should be ignored.",
  chars! "   *     - If the min is +0, the row group may contain -0 values as well.",
  chars! "   *     - If the max is -0, the row group may contain +0 values as well.",
  chars! "   *     - When looking for NaN values, min and max should be ignored.",
  chars! "   *",
  chars! "   *     When writing statistics the following rules should be followed:",
  chars! "   *     - NaNs should not be written to min or max statistics fields.",
  chars! "   *     - If the computed max value is zero (whether negative or positive),",
  chars! "   *       `+0.0` should be written into the max statistics field.",
  chars! "   *     - If the computed min value is zero (whether negative or positive),",
  chars! "   *       `-0.0` should be written into the min statistics field.",
  chars! "   */"]

/-- parquet.thrift:984-1023 -/
def text24 : List (List Char) := [
  chars! "  1: TypeDefinedOrder TYPE_ORDER;",
  chars! "}",
  chars! "",
  chars! "struct PageLocation {",
  chars! "  /** Offset of the page in the file **/",
  chars! "  1: required i64 offset",
  chars! "",
  chars! "  /**",
  chars! "   * Size of the page, including header. Sum of compressed_page_size and header",
  chars! "   * length",
  chars! "   */",
  chars! "  2: required i32 compressed_page_size",
  chars! "",
  chars! "  /**",
  chars! "   * Index within the RowGroup of the first row of the page; this means pages",
  chars! "   * change on record boundaries (r = 0).",
  chars! "   */",
  chars! "  3: required i64 first_row_index",
  chars! "}",
  chars! "",
  chars! "struct OffsetIndex {",
  chars! "  /**",
  chars! "   * PageLocations, ordered by increasing PageLocation.offset. It is required",
  chars! "   * that page_locations[i].first_row_index < page_locations[i+1].first_row_index.",
  chars! "   */",
  chars! "  1: required list<PageLocation> page_locations",
  chars! "  /**",
  chars! "   * Unencoded/uncompressed size for BYTE_ARRAY types.",
  chars! "   *",
  chars! "   * See documention for unencoded_byte_array_data_bytes in SizeStatistics for",
  chars! "   * more details on this field.",
  chars! "   */",
  chars! "  2: optional list<i64> unencoded_byte_array_data_bytes",
  chars! "}",
  chars! "",
  chars! "/**",
  chars! " * Description for ColumnIndex.",
  chars! " * Each <array-field>[i] refers to the page at OffsetIndex.page_locations[i]",
  chars! " */",
  chars! "struct ColumnIndex {"]

/-- parquet.thrift:1024-1068 -/
def text25 : List (List Char) := [
  chars! "  /**",
  chars! "   * A list of Boolean values to determine the validity of the corresponding",
  chars! "   * min and max values. If true, a page contains only null values, and writers",
  chars! "   * have to set the corresponding entries in min_values and max_values to",
  chars! "   * byte[0], so that all lists have the same length. If false, the",
  chars! "   * corresponding entries in min_values and max_values must be valid.",
  chars! "   */",
  chars! "  1: required list<bool> null_pages",
  chars! "",
  chars! "  /**",
  chars! "   * Two lists containing lower and upper bounds for the values of each page",
  chars! "   * determined by the ColumnOrder of the column. These may be the actual",
  chars! "   * minimum and maximum values found on a page, but can also be (more compact)",
  chars! "   * values that do not exist on a page. For example, instead of storing \"\"Blart",
  chars! "   * Versenwald III\", a writer may set min_values[i]=\"B\", max_values[i]=\"C\".",
  chars! "   * Such more compact values must still be valid values within the column's",
  chars! "   * logical type. Readers must make sure that list entries are populated before",
  chars! "   * using them by inspecting null_pages.",
  chars! "   */",
  chars! "  2: required list<binary> min_values",
  chars! "  3: required list<binary> max_values",
  chars! "",
  chars! "  /**",
  chars! "   * Stores whether both min_values and max_values are ordered and if so, in",
  chars! "   * which direction. This allows readers to perform binary searches in both",
  chars! "   * lists. Readers cannot assume that max_values[i] <= min_values[i+1], even",
  chars! "   * if the lists are ordered.",
  chars! "   */",
  chars! "  4: required BoundaryOrder boundary_order",
  chars! "",
  chars! "  /** A list containing the number of null values for each page **/",
  chars! "  5: optional list<i64> null_counts",
  chars! "",
  chars! "  /**",
  chars! "   * Contains repetition level histograms for each page",
  chars! "   * concatenated together.  The repetition_level_histogram field on",
  chars! "   * SizeStatistics contains more details.",
  chars! "   *",
  chars! "   * When present the length should always be (number of pages *",
  chars! "   * (max_repetition_level + 1)) elements.",
  chars! "   *",
  chars! "   * Element 0 is the first element of the histogram for the first page.",
  chars! "   * Element (max_repetition_level + 1) is the first element of the histogram",
  chars! "   * for the second page.",
  chars! "   **/"]

/-- parquet.thrift:1069-1108 -/
def text26 : List (List Char) := [
  chars! "   6: optional list<i64> repetition_level_histograms;",
  chars! "   /**",
  chars! "    * Same as repetition_level_histograms except for definitions levels.",
  chars! "    **/",
  chars! "   7: optional list<i64> definition_level_histograms;",
  chars! "",
  chars! "}",
  chars! "",
  chars! "struct AesGcmV1 {",
  chars! "  /** AAD prefix **/",
  chars! "  1: optional binary aad_prefix",
  chars! "",
  chars! "  /** Unique file identifier part of AAD suffix **/",
  chars! "  2: optional binary aad_file_unique",
  chars! "",
  chars! "  /** In files encrypted with AAD prefix without storing it,",
  chars! "   * readers must supply the prefix **/",
  chars! "  3: optional bool supply_aad_prefix",
  chars! "}",
  chars! "",
  chars! "struct AesGcmCtrV1 {",
  chars! "  /** AAD prefix **/",
  chars! "  1: optional binary aad_prefix",
  chars! "",
  chars! "  /** Unique file identifier part of AAD suffix **/",
  chars! "  2: optional binary aad_file_unique",
  chars! "",
  chars! "  /** In files encrypted with AAD prefix without storing it,",
  chars! "   * readers must supply the prefix **/",
  chars! "  3: optional bool supply_aad_prefix",
  chars! "}",
  chars! "",
  chars! "union EncryptionAlgorithm {",
  chars! "  1: AesGcmV1 AES_GCM_V1",
  chars! "  2: AesGcmCtrV1 AES_GCM_CTR_V1",
  chars! "}",
  chars! "",
  chars! "/**",
  chars! " * Description for file metadata",
  chars! " */"]

/-- parquet.thrift:1109-1151 -/
def text27 : List (List Char) := [
  chars! "struct FileMetaData {",
  chars! "  /** Version of this file **/",
  chars! "  1: required i32 version",
  chars! "",
  chars! "  /** Parquet schema for this file.  This schema contains metadata for all the columns.",
  chars! "   * The schema is represented as a tree with a single root.  The nodes of the tree",
  chars! "   * are flattened to a list by doing a depth-first traversal.",
  chars! "   * The column metadata contains the path in the schema for that column which can be",
  chars! "   * used to map columns to nodes in the schema.",
  chars! "   * The first element is the root **/",
  chars! "  2: required list<SchemaElement> schema;",
  chars! "",
  chars! "  /** Number of rows in this file **/",
  chars! "  3: required i64 num_rows",
  chars! "",
  chars! "  /** Row groups in this file **/",
  chars! "  4: required list<RowGroup> row_groups",
  chars! "",
  chars! "  /** Optional key/value metadata **/",
  chars! "  5: optional list<KeyValue> key_value_metadata",
  chars! "",
  chars! "  /** String for application that wrote this file.  This should be in the format",
  chars! "   * <Application> version <App Version> (build <App Build Hash>).",
  chars! "   * e.g. impala version 1.0 (build 6cf94d29b2b7115df4de2c06e2ab4326d721eb55)",
  chars! "   **/",
  chars! "  6: optional string created_by",
  chars! "",
  chars! "  /**",
  chars! "   * Sort order used for the min_value and max_value fields in the Statistics",
  chars! "   * objects and the min_values and max_values fields in the ColumnIndex",
  chars! "   * objects of each column in this file. Sort orders are listed in the order",
  chars! "   * matching the columns in the schema. The indexes are not necessary the same",
  chars! "   * though, because only leaf nodes of the schema are represented in the list",
  chars! "   * of sort orders.",
  chars! "   *",
  chars! "   * Without column_orders, the meaning of the min_value and max_value fields",
  chars! "   * in the Statistics object and the ColumnIndex object is undefined. To ensure",
  chars! "   * well-defined behaviour, if these fields are written to a Parquet file,",
  chars! "   * column_orders must be written as well.",
  chars! "   *",
  chars! "   * The obsolete min and max fields in the Statistics object are always sorted",
  chars! "   * by signed comparison regardless of column_orders.",
  chars! "   */"]

/-- parquet.thrift:1152-1181 -/
def text28 : List (List Char) := [
  chars! "  7: optional list<ColumnOrder> column_orders;",
  chars! "",
  chars! "  /**",
  chars! "   * Encryption algorithm. This field is set only in encrypted files",
  chars! "   * with plaintext footer. Files with encrypted footer store algorithm id",
  chars! "   * in FileCryptoMetaData structure.",
  chars! "   */",
  chars! "  8: optional EncryptionAlgorithm encryption_algorithm",
  chars! "",
  chars! "  /**",
  chars! "   * Retrieval metadata of key used for signing the footer.",
  chars! "   * Used only in encrypted files with plaintext footer.",
  chars! "   */",
  chars! "  9: optional binary footer_signing_key_metadata",
  chars! "}",
  chars! "",
  chars! "/** Crypto metadata for files with encrypted footer **/",
  chars! "struct FileCryptoMetaData {",
  chars! "  /**",
  chars! "   * Encryption algorithm. This field is only used for files",
  chars! "   * with encrypted footer. Files with plaintext footer store algorithm id",
  chars! "   * inside footer (FileMetaData structure).",
  chars! "   */",
  chars! "  1: required EncryptionAlgorithm encryption_algorithm",
  chars! "",
  chars! "  /** Retrieval metadata of key used for encryption of footer,",
  chars! "   *  and (possibly) columns **/",
  chars! "  2: optional binary key_metadata",
  chars! "}",
  chars! ""]

/-- The lines of parquet.thrift -/
def parquetLines : List (List Char) :=
  text0 ++ text1 ++ text2 ++ text3 ++ text4 ++ text5 ++ text6 ++ text7 ++ text8 ++ text9 ++ text10 ++ text11 ++ text12 ++ text13 ++ text14 ++
  text15 ++ text16 ++ text17 ++ text18 ++ text19 ++ text20 ++ text21 ++ text22 ++ text23 ++ text24 ++ text25 ++ text26 ++ text27 ++ text28

/-- The file, as read by Main.kt:8 -/
def parquetText : List Char := ofLines parquetLines

end CT.Gen
