import Verif.Proofs.PqRun
import Verif.Spec.SchemaCode
/-!
# The conversions of parquet/src/bin/schema.rs, run
-/
namespace CT.Pq
open CT CT.Parquet CT.Schema
open CT.Rs (Name ITy BinOp)

/-! ## What is found in the program and in format.rs -/

@[pq] theorem sc_fn_Ok : assoc schemaProg.fns (n! "Ok") = none := (rfl)
@[pq] theorem sc_fn_Err : assoc schemaProg.fns (n! "Err") = none := (rfl)
@[pq] theorem sc_fn_Some : assoc schemaProg.fns (n! "Some") = none := (rfl)
@[pq] theorem sc_fn_FieldId : assoc schemaProg.fns (n! "FieldId") = none := (rfl)
@[pq] theorem sc_fn_field_from_schema_element : assoc schemaProg.fns (n! "field_from_schema_element") = some pq_field_from_schema_element := (rfl)
@[pq] theorem sc_fn_convert_schema_inner : assoc schemaProg.fns (n! "convert_schema_inner") = some pq_convert_schema_inner := (rfl)
@[pq] theorem sc_fn_convert_schema : assoc schemaProg.fns (n! "convert_schema") = some pq_convert_schema := (rfl)
@[pq] theorem sc_consts (x : Name) : assoc schemaProg.consts x = none := (rfl)
@[pq] theorem sc_impl_0 (f s : Name) : implFn 0 f s schemaProg.impls = none := (rfl)
@[pq] theorem sc_impl_ParquetError (f s : Name) : implFn (n! "ParquetError") f s schemaProg.impls = none := (rfl)
@[pq] theorem sc_impl_Type (f s : Name) : implFn (n! "Type") f s schemaProg.impls = none := (rfl)
@[pq] theorem sc_impl_ConvertedType (f s : Name) : implFn (n! "ConvertedType") f s schemaProg.impls = none := (rfl)
@[pq] theorem sc_impl_FieldRepetitionType (f s : Name) : implFn (n! "FieldRepetitionType") f s schemaProg.impls = none := (rfl)
@[pq] theorem sc_impl_LogicalType (f s : Name) : implFn (n! "LogicalType") f s schemaProg.impls = none := (rfl)
@[pq] theorem sc_impl_Vec (f s : Name) : implFn (n! "Vec") f s schemaProg.impls = none := (rfl)
@[pq] theorem sc_impl_Some (f s : Name) : implFn (n! "Some") f s schemaProg.impls = none := (rfl)
@[pq] theorem sc_impl_None (f s : Name) : implFn (n! "None") f s schemaProg.impls = none := (rfl)
@[pq] theorem sc_impl_Ok (f s : Name) : implFn (n! "Ok") f s schemaProg.impls = none := (rfl)
@[pq] theorem sc_impl_Err (f s : Name) : implFn (n! "Err") f s schemaProg.impls = none := (rfl)
@[pq] theorem sc_impl_SchemaElement (f s : Name) : implFn (n! "SchemaElement") f s schemaProg.impls = none := (rfl)
@[pq] theorem sc_impl_DecimalType (f s : Name) : implFn (n! "DecimalType") f s schemaProg.impls = none := (rfl)
@[pq] theorem sc_impl_IntType (f s : Name) : implFn (n! "IntType") f s schemaProg.impls = none := (rfl)
@[pq] theorem sc_impl_TimeType (f s : Name) : implFn (n! "TimeType") f s schemaProg.impls = none := (rfl)
@[pq] theorem sc_impl_TimestampType (f s : Name) : implFn (n! "TimestampType") f s schemaProg.impls = none := (rfl)
@[pq] theorem sc_impl_CommonField (f s : Name) : implFn (n! "CommonField") f s schemaProg.impls = none := (rfl)
@[pq] theorem sc_impl_GroupField (f s : Name) : implFn (n! "GroupField") f s schemaProg.impls = none := (rfl)
@[pq] theorem sc_impl_PrimitiveField (f s : Name) : implFn (n! "PrimitiveField") f s schemaProg.impls = none := (rfl)
@[pq] theorem sc_PhysicalType_BOOLEAN (s : Name) : implFn (n! "PhysicalType") (n! "BOOLEAN") s schemaProg.impls = none := (rfl)
@[pq] theorem sc_PhysicalType_BYTE_ARRAY (s : Name) : implFn (n! "PhysicalType") (n! "BYTE_ARRAY") s schemaProg.impls = none := (rfl)
@[pq] theorem sc_PhysicalType_INT32 (s : Name) : implFn (n! "PhysicalType") (n! "INT32") s schemaProg.impls = none := (rfl)
@[pq] theorem sc_PhysicalType_INT64 (s : Name) : implFn (n! "PhysicalType") (n! "INT64") s schemaProg.impls = none := (rfl)
@[pq] theorem sc_PhysicalType_INT96 (s : Name) : implFn (n! "PhysicalType") (n! "INT96") s schemaProg.impls = none := (rfl)
@[pq] theorem sc_PhysicalType_FLOAT (s : Name) : implFn (n! "PhysicalType") (n! "FLOAT") s schemaProg.impls = none := (rfl)
@[pq] theorem sc_PhysicalType_DOUBLE (s : Name) : implFn (n! "PhysicalType") (n! "DOUBLE") s schemaProg.impls = none := (rfl)
@[pq] theorem sc_PhysicalType_FIXED_LEN_BYTE_ARRAY (s : Name) : implFn (n! "PhysicalType") (n! "FIXED_LEN_BYTE_ARRAY") s schemaProg.impls = none := (rfl)
@[pq] theorem sc_PhysicalType_try_from_schema_element (s : Name) : implFn (n! "PhysicalType") (n! "try_from_schema_element") s schemaProg.impls = some pq_PhysicalType_try_from_schema_element := (rfl)
@[pq] theorem sc_SchemaTimeUnit (f : Name) : implFn (n! "SchemaTimeUnit") f (n! "i32") schemaProg.impls = none := (rfl)
@[pq] theorem sc_DecimalOptions_try_new (s : Name) : implFn (n! "DecimalOptions") (n! "try_new") s schemaProg.impls = some pq_DecimalOptions_try_new := (rfl)
@[pq] theorem sc_DecimalOptions_try_from_DecimalType : implFn (n! "DecimalOptions") (n! "try_from") (n! "DecimalType") schemaProg.impls = some pq_DecimalOptions_try_from_DecimalType := (rfl)
@[pq] theorem sc_IntegerOptions_try_from_IntType : implFn (n! "IntegerOptions") (n! "try_from") (n! "IntType") schemaProg.impls = some pq_IntegerOptions_try_from_IntType := (rfl)
@[pq] theorem sc_PrimitiveLogicalType_String_i32 : implFn (n! "PrimitiveLogicalType") (n! "String") (n! "i32") schemaProg.impls = none := (rfl)
@[pq] theorem sc_PrimitiveLogicalType_Enum_i32 : implFn (n! "PrimitiveLogicalType") (n! "Enum") (n! "i32") schemaProg.impls = none := (rfl)
@[pq] theorem sc_PrimitiveLogicalType_Date_i32 : implFn (n! "PrimitiveLogicalType") (n! "Date") (n! "i32") schemaProg.impls = none := (rfl)
@[pq] theorem sc_PrimitiveLogicalType_Json_i32 : implFn (n! "PrimitiveLogicalType") (n! "Json") (n! "i32") schemaProg.impls = none := (rfl)
@[pq] theorem sc_PrimitiveLogicalType_Bson_i32 : implFn (n! "PrimitiveLogicalType") (n! "Bson") (n! "i32") schemaProg.impls = none := (rfl)
@[pq] theorem sc_PrimitiveLogicalType_Interval_i32 : implFn (n! "PrimitiveLogicalType") (n! "Interval") (n! "i32") schemaProg.impls = none := (rfl)
@[pq] theorem sc_PrimitiveLogicalType_Unknown_i32 : implFn (n! "PrimitiveLogicalType") (n! "Unknown") (n! "i32") schemaProg.impls = none := (rfl)
@[pq] theorem sc_PrimitiveLogicalType_UUID_i32 : implFn (n! "PrimitiveLogicalType") (n! "UUID") (n! "i32") schemaProg.impls = none := (rfl)
@[pq] theorem sc_PrimitiveLogicalType_Float16_i32 : implFn (n! "PrimitiveLogicalType") (n! "Float16") (n! "i32") schemaProg.impls = none := (rfl)
@[pq] theorem sc_PrimitiveLogicalType_Geometry_i32 : implFn (n! "PrimitiveLogicalType") (n! "Geometry") (n! "i32") schemaProg.impls = none := (rfl)
@[pq] theorem sc_PrimitiveLogicalType_Geography_i32 : implFn (n! "PrimitiveLogicalType") (n! "Geography") (n! "i32") schemaProg.impls = none := (rfl)
@[pq] theorem sc_PrimitiveLogicalType_Decimal_DecimalOptions : implFn (n! "PrimitiveLogicalType") (n! "Decimal") (n! "DecimalOptions") schemaProg.impls = none := (rfl)
@[pq] theorem sc_PrimitiveLogicalType_Time_TimeOptions : implFn (n! "PrimitiveLogicalType") (n! "Time") (n! "TimeOptions") schemaProg.impls = none := (rfl)
@[pq] theorem sc_PrimitiveLogicalType_Timestamp_TimeOptions : implFn (n! "PrimitiveLogicalType") (n! "Timestamp") (n! "TimeOptions") schemaProg.impls = none := (rfl)
@[pq] theorem sc_PrimitiveLogicalType_Integer_IntegerOptions : implFn (n! "PrimitiveLogicalType") (n! "Integer") (n! "IntegerOptions") schemaProg.impls = none := (rfl)
@[pq] theorem sc_PrimitiveLogicalType_try_from_logical_type_LogicalType : implFn (n! "PrimitiveLogicalType") (n! "try_from_logical_type") (n! "LogicalType") schemaProg.impls = some pq_PrimitiveLogicalType_try_from_logical_type := (rfl)
@[pq] theorem sc_PrimitiveLogicalType_try_from_converted_type_ConvertedType : implFn (n! "PrimitiveLogicalType") (n! "try_from_converted_type") (n! "ConvertedType") schemaProg.impls = some pq_PrimitiveLogicalType_try_from_converted_type := (rfl)
@[pq] theorem sc_PrimitiveLogicalType_try_from_LogicalType : implFn (n! "PrimitiveLogicalType") (n! "try_from") (n! "LogicalType") schemaProg.impls = some pq_PrimitiveLogicalType_try_from_LogicalType := (rfl)
@[pq] theorem sc_GroupLogicalType_List_i32 : implFn (n! "GroupLogicalType") (n! "List") (n! "i32") schemaProg.impls = none := (rfl)
@[pq] theorem sc_GroupLogicalType_Map_i32 : implFn (n! "GroupLogicalType") (n! "Map") (n! "i32") schemaProg.impls = none := (rfl)
@[pq] theorem sc_GroupLogicalType_MapKeyValue_i32 : implFn (n! "GroupLogicalType") (n! "MapKeyValue") (n! "i32") schemaProg.impls = none := (rfl)
@[pq] theorem sc_GroupLogicalType_try_from_LogicalType : implFn (n! "GroupLogicalType") (n! "try_from") (n! "LogicalType") schemaProg.impls = some pq_GroupLogicalType_try_from_LogicalType := (rfl)
@[pq] theorem sc_GroupLogicalType_try_from_ConvertedType : implFn (n! "GroupLogicalType") (n! "try_from") (n! "ConvertedType") schemaProg.impls = some pq_GroupLogicalType_try_from_ConvertedType := (rfl)
@[pq] theorem sc_RepetitionType_Required_i32 : implFn (n! "RepetitionType") (n! "Required") (n! "i32") schemaProg.impls = none := (rfl)
@[pq] theorem sc_RepetitionType_Optional_i32 : implFn (n! "RepetitionType") (n! "Optional") (n! "i32") schemaProg.impls = none := (rfl)
@[pq] theorem sc_RepetitionType_Repeated_i32 : implFn (n! "RepetitionType") (n! "Repeated") (n! "i32") schemaProg.impls = none := (rfl)
@[pq] theorem sc_RepetitionType_try_from_FieldRepetitionType : implFn (n! "RepetitionType") (n! "try_from") (n! "FieldRepetitionType") schemaProg.impls = some pq_RepetitionType_try_from_FieldRepetitionType := (rfl)
@[pq] theorem sc_FieldId_from_i32 : implFn (n! "FieldId") (n! "from") (n! "i32") schemaProg.impls = some pq_FieldId_from_i32 := (rfl)
@[pq] theorem sc_i32_to_ne_bytes_0 : implFn (n! "i32") (n! "to_ne_bytes") 0 schemaProg.impls = none := (rfl)
@[pq] theorem sc_TimeUnit_clone_0 : implFn (n! "TimeUnit") (n! "clone") 0 schemaProg.impls = none := (rfl)
@[pq] theorem sc_TimeUnit_into_0 : implFn (n! "TimeUnit") (n! "into") 0 schemaProg.impls = none := (rfl)
@[pq] theorem sc_SchemaField_Primitive_PrimitiveField : implFn (n! "SchemaField") (n! "Primitive") (n! "PrimitiveField") schemaProg.impls = none := (rfl)
@[pq] theorem sc_SchemaField_Group_GroupField : implFn (n! "SchemaField") (n! "Group") (n! "GroupField") schemaProg.impls = none := (rfl)
@[pq] theorem sc_SchemaField_find_field_by_path (s : Name) : implFn (n! "SchemaField") (n! "find_field_by_path") s schemaProg.impls = some pq_SchemaField_find_field_by_path := (rfl)
@[pq] theorem sc_SchemaField_common (s : Name) : implFn (n! "SchemaField") (n! "common") s schemaProg.impls = some pq_SchemaField_common := (rfl)
@[pq] theorem sc_SchemaField_name (s : Name) : implFn (n! "SchemaField") (n! "name") s schemaProg.impls = some pq_SchemaField_name := (rfl)
@[pq] theorem sc_SchemaField_definition_level (s : Name) : implFn (n! "SchemaField") (n! "definition_level") s schemaProg.impls = some pq_SchemaField_definition_level := (rfl)
@[pq] theorem sc_SchemaField_repetition_level (s : Name) : implFn (n! "SchemaField") (n! "repetition_level") s schemaProg.impls = some pq_SchemaField_repetition_level := (rfl)
@[pq] theorem sc_SchemaField_is_optional (s : Name) : implFn (n! "SchemaField") (n! "is_optional") s schemaProg.impls = some pq_SchemaField_is_optional := (rfl)
@[pq] theorem sc_from_TimeType : fromFn none (n! "TimeType") schemaProg.impls = some pq_TimeOptions_from_TimeType := (rfl)
@[pq] theorem sc_from_TimestampType : fromFn none (n! "TimestampType") schemaProg.impls = some pq_TimeOptions_from_TimestampType := (rfl)
@[pq] theorem sc_from_TimeUnit : fromFn none (n! "TimeUnit") schemaProg.impls = some pq_SchemaTimeUnit_from_TimeUnit := (rfl)
@[pq ↓] theorem sc_Type_BOOLEAN : enumConst schemaProg.enums [(n! "Type"), (n! "BOOLEAN")] = some ((n! "Type"), 0) := (rfl)
@[pq ↓] theorem sc_Type_INT32 : enumConst schemaProg.enums [(n! "Type"), (n! "INT32")] = some ((n! "Type"), 1) := (rfl)
@[pq ↓] theorem sc_Type_INT64 : enumConst schemaProg.enums [(n! "Type"), (n! "INT64")] = some ((n! "Type"), 2) := (rfl)
@[pq ↓] theorem sc_Type_INT96 : enumConst schemaProg.enums [(n! "Type"), (n! "INT96")] = some ((n! "Type"), 3) := (rfl)
@[pq ↓] theorem sc_Type_FLOAT : enumConst schemaProg.enums [(n! "Type"), (n! "FLOAT")] = some ((n! "Type"), 4) := (rfl)
@[pq ↓] theorem sc_Type_DOUBLE : enumConst schemaProg.enums [(n! "Type"), (n! "DOUBLE")] = some ((n! "Type"), 5) := (rfl)
@[pq ↓] theorem sc_Type_BYTE_ARRAY : enumConst schemaProg.enums [(n! "Type"), (n! "BYTE_ARRAY")] = some ((n! "Type"), 6) := (rfl)
@[pq ↓] theorem sc_Type_FIXED_LEN_BYTE_ARRAY : enumConst schemaProg.enums [(n! "Type"), (n! "FIXED_LEN_BYTE_ARRAY")] = some ((n! "Type"), 7) := (rfl)
@[pq ↓] theorem sc_ConvertedType_UTF8 : enumConst schemaProg.enums [(n! "ConvertedType"), (n! "UTF8")] = some ((n! "ConvertedType"), 0) := (rfl)
@[pq ↓] theorem sc_ConvertedType_MAP : enumConst schemaProg.enums [(n! "ConvertedType"), (n! "MAP")] = some ((n! "ConvertedType"), 1) := (rfl)
@[pq ↓] theorem sc_ConvertedType_MAP_KEY_VALUE : enumConst schemaProg.enums [(n! "ConvertedType"), (n! "MAP_KEY_VALUE")] = some ((n! "ConvertedType"), 2) := (rfl)
@[pq ↓] theorem sc_ConvertedType_LIST : enumConst schemaProg.enums [(n! "ConvertedType"), (n! "LIST")] = some ((n! "ConvertedType"), 3) := (rfl)
@[pq ↓] theorem sc_ConvertedType_ENUM : enumConst schemaProg.enums [(n! "ConvertedType"), (n! "ENUM")] = some ((n! "ConvertedType"), 4) := (rfl)
@[pq ↓] theorem sc_ConvertedType_DECIMAL : enumConst schemaProg.enums [(n! "ConvertedType"), (n! "DECIMAL")] = some ((n! "ConvertedType"), 5) := (rfl)
@[pq ↓] theorem sc_ConvertedType_DATE : enumConst schemaProg.enums [(n! "ConvertedType"), (n! "DATE")] = some ((n! "ConvertedType"), 6) := (rfl)
@[pq ↓] theorem sc_ConvertedType_TIME_MILLIS : enumConst schemaProg.enums [(n! "ConvertedType"), (n! "TIME_MILLIS")] = some ((n! "ConvertedType"), 7) := (rfl)
@[pq ↓] theorem sc_ConvertedType_TIME_MICROS : enumConst schemaProg.enums [(n! "ConvertedType"), (n! "TIME_MICROS")] = some ((n! "ConvertedType"), 8) := (rfl)
@[pq ↓] theorem sc_ConvertedType_TIMESTAMP_MILLIS : enumConst schemaProg.enums [(n! "ConvertedType"), (n! "TIMESTAMP_MILLIS")] = some ((n! "ConvertedType"), 9) := (rfl)
@[pq ↓] theorem sc_ConvertedType_TIMESTAMP_MICROS : enumConst schemaProg.enums [(n! "ConvertedType"), (n! "TIMESTAMP_MICROS")] = some ((n! "ConvertedType"), 10) := (rfl)
@[pq ↓] theorem sc_ConvertedType_UINT_8 : enumConst schemaProg.enums [(n! "ConvertedType"), (n! "UINT_8")] = some ((n! "ConvertedType"), 11) := (rfl)
@[pq ↓] theorem sc_ConvertedType_UINT_16 : enumConst schemaProg.enums [(n! "ConvertedType"), (n! "UINT_16")] = some ((n! "ConvertedType"), 12) := (rfl)
@[pq ↓] theorem sc_ConvertedType_UINT_32 : enumConst schemaProg.enums [(n! "ConvertedType"), (n! "UINT_32")] = some ((n! "ConvertedType"), 13) := (rfl)
@[pq ↓] theorem sc_ConvertedType_UINT_64 : enumConst schemaProg.enums [(n! "ConvertedType"), (n! "UINT_64")] = some ((n! "ConvertedType"), 14) := (rfl)
@[pq ↓] theorem sc_ConvertedType_INT_8 : enumConst schemaProg.enums [(n! "ConvertedType"), (n! "INT_8")] = some ((n! "ConvertedType"), 15) := (rfl)
@[pq ↓] theorem sc_ConvertedType_INT_16 : enumConst schemaProg.enums [(n! "ConvertedType"), (n! "INT_16")] = some ((n! "ConvertedType"), 16) := (rfl)
@[pq ↓] theorem sc_ConvertedType_INT_32 : enumConst schemaProg.enums [(n! "ConvertedType"), (n! "INT_32")] = some ((n! "ConvertedType"), 17) := (rfl)
@[pq ↓] theorem sc_ConvertedType_INT_64 : enumConst schemaProg.enums [(n! "ConvertedType"), (n! "INT_64")] = some ((n! "ConvertedType"), 18) := (rfl)
@[pq ↓] theorem sc_ConvertedType_JSON : enumConst schemaProg.enums [(n! "ConvertedType"), (n! "JSON")] = some ((n! "ConvertedType"), 19) := (rfl)
@[pq ↓] theorem sc_ConvertedType_BSON : enumConst schemaProg.enums [(n! "ConvertedType"), (n! "BSON")] = some ((n! "ConvertedType"), 20) := (rfl)
@[pq ↓] theorem sc_ConvertedType_INTERVAL : enumConst schemaProg.enums [(n! "ConvertedType"), (n! "INTERVAL")] = some ((n! "ConvertedType"), 21) := (rfl)
@[pq ↓] theorem sc_FieldRepetitionType_REQUIRED : enumConst schemaProg.enums [(n! "FieldRepetitionType"), (n! "REQUIRED")] = some ((n! "FieldRepetitionType"), 0) := (rfl)
@[pq ↓] theorem sc_FieldRepetitionType_OPTIONAL : enumConst schemaProg.enums [(n! "FieldRepetitionType"), (n! "OPTIONAL")] = some ((n! "FieldRepetitionType"), 1) := (rfl)
@[pq ↓] theorem sc_FieldRepetitionType_REPEATED : enumConst schemaProg.enums [(n! "FieldRepetitionType"), (n! "REPEATED")] = some ((n! "FieldRepetitionType"), 2) := (rfl)
@[pq] theorem sc_enum_PhysicalType : assoc schemaProg.enums (n! "PhysicalType") = none := (rfl)
@[pq] theorem sc_enum_SchemaTimeUnit : assoc schemaProg.enums (n! "SchemaTimeUnit") = none := (rfl)
@[pq] theorem sc_enum_PrimitiveLogicalType : assoc schemaProg.enums (n! "PrimitiveLogicalType") = none := (rfl)
@[pq] theorem sc_enum_GroupLogicalType : assoc schemaProg.enums (n! "GroupLogicalType") = none := (rfl)
@[pq] theorem sc_enum_RepetitionType : assoc schemaProg.enums (n! "RepetitionType") = none := (rfl)
@[pq] theorem sc_enum_FieldId : assoc schemaProg.enums (n! "FieldId") = none := (rfl)
@[pq] theorem sc_enum_ParquetError : assoc schemaProg.enums (n! "ParquetError") = none := (rfl)
@[pq] theorem sc_struct_TimeOptions : assoc schemaProg.structs (n! "TimeOptions") = some [((n! "is_adjusted_to_utc"), .other), ((n! "time_unit"), .other)] := (rfl)
@[pq] theorem sc_struct_DecimalOptions : assoc schemaProg.structs (n! "DecimalOptions") = some [((n! "precision"), .int .u8), ((n! "scale"), .int .i8)] := (rfl)
@[pq] theorem sc_struct_IntegerOptions : assoc schemaProg.structs (n! "IntegerOptions") = some [((n! "bitwidth"), .int .u8), ((n! "is_signed"), .other)] := (rfl)
@[pq] theorem sc_struct_CommonField : assoc schemaProg.structs (n! "CommonField") = some [((n! "name"), .other), ((n! "field_id"), .other), ((n! "repetition"), .other), ((n! "def_level"), .int .u8), ((n! "rep_level"), .int .u8)] := (rfl)
@[pq] theorem sc_struct_PrimitiveField : assoc schemaProg.structs (n! "PrimitiveField") = some [((n! "common"), .other), ((n! "physical_type"), .other), ((n! "logical_type"), .other), ((n! "index"), .int .u32)] := (rfl)
@[pq] theorem sc_struct_GroupField : assoc schemaProg.structs (n! "GroupField") = some [((n! "common"), .other), ((n! "children"), .other), ((n! "logical_type"), .other)] := (rfl)
@[pq] theorem sc_struct_DecimalType : assoc schemaProg.structs (n! "DecimalType") = none := (rfl)
@[pq] theorem nameAt_0 : nameAt 0 = (n! "Type") := (rfl)
@[pq] theorem nameAt_1 : nameAt 1 = (n! "ConvertedType") := (rfl)
@[pq] theorem nameAt_2 : nameAt 2 = (n! "FieldRepetitionType") := (rfl)
@[pq] theorem nameAt_20 : nameAt 20 = (n! "DecimalType") := (rfl)
@[pq] theorem nameAt_24 : nameAt 24 = (n! "TimeUnit") := (rfl)
@[pq] theorem nameAt_25 : nameAt 25 = (n! "TimestampType") := (rfl)
@[pq] theorem nameAt_26 : nameAt 26 = (n! "TimeType") := (rfl)
@[pq] theorem nameAt_27 : nameAt 27 = (n! "IntType") := (rfl)
@[pq] theorem nameAt_30 : nameAt 30 = (n! "VariantType") := (rfl)
@[pq] theorem nameAt_31 : nameAt 31 = (n! "GeometryType") := (rfl)
@[pq] theorem nameAt_32 : nameAt 32 = (n! "GeographyType") := (rfl)
@[pq] theorem nameAt_33 : nameAt 33 = (n! "LogicalType") := (rfl)
@[pq] theorem nameAt_34 : nameAt 34 = (n! "SchemaElement") := (rfl)
@[pq] theorem fieldAt_scale (s p : BitVec 32) : fieldAt 20 [.i32 s, .i32 p] (n! "scale") = some (.base (.i32 s)) := (rfl)
@[pq] theorem fieldAt_precision (s p : BitVec 32) : fieldAt 20 [.i32 s, .i32 p] (n! "precision") = some (.base (.i32 p)) := (rfl)
@[pq] theorem fieldAt_utc25 (b : Bool) (u : Val) : fieldAt 25 [.bool b, u] (n! "isAdjustedToUTC") = some (.base (.bool b)) := (rfl)
@[pq] theorem fieldAt_unit25 (b : Bool) (i : Nat) (u : Val) : fieldAt 25 [.bool b, .union i u] (n! "unit") = some (.obj (.named 24) (.union i u)) := (rfl)
@[pq] theorem fieldAt_utc26 (b : Bool) (u : Val) : fieldAt 26 [.bool b, u] (n! "isAdjustedToUTC") = some (.base (.bool b)) := (rfl)
@[pq] theorem fieldAt_unit26 (b : Bool) (i : Nat) (u : Val) : fieldAt 26 [.bool b, .union i u] (n! "unit") = some (.obj (.named 24) (.union i u)) := (rfl)
@[pq] theorem fieldAt_bitWidth (x : BitVec 8) (b : Bool) : fieldAt 27 [.i8 x, .bool b] (n! "bitWidth") = some (.base (.i8 x)) := (rfl)
@[pq] theorem fieldAt_isSigned (x : BitVec 8) (b : Bool) : fieldAt 27 [.i8 x, .bool b] (n! "isSigned") = some (.base (.bool b)) := (rfl)
@[pq] theorem fieldAt_versionN : fieldAt 30 [.none] (n! "specification_version") = some .none := (rfl)
@[pq] theorem fieldAt_versionS (x : BitVec 8) : fieldAt 30 [.some (.i8 x)] (n! "specification_version") = some (.some (.base (.i8 x))) := (rfl)
@[pq] theorem fieldAt_crs31 (v : Val) : fieldAt 31 [v] (n! "crs") = some (wrap (.option .string) v) := (rfl)
@[pq] theorem fieldAt_crs32 (v u : Val) : fieldAt 32 [v, u] (n! "crs") = some (wrap (.option .string) v) := (rfl)
@[pq] theorem fieldAt_algorithm (v u : Val) : fieldAt 32 [v, u] (n! "algorithm") = some (wrap (.option Format.tEdgeInterpolationAlgorithm) u) := (rfl)
@[pq] theorem variantAt_MILLIS (v : Val) : variantAt 24 0 v = some ([n! "TimeUnit", n! "MILLIS"], wrap (.named 21) v) := (rfl)
@[pq] theorem variantAt_MICROS (v : Val) : variantAt 24 1 v = some ([n! "TimeUnit", n! "MICROS"], wrap (.named 22) v) := (rfl)
@[pq] theorem variantAt_NANOS (v : Val) : variantAt 24 2 v = some ([n! "TimeUnit", n! "NANOS"], wrap (.named 23) v) := (rfl)
@[pq] theorem variantAt_STRING (v : Val) : variantAt 33 0 v = some ([n! "LogicalType", n! "STRING"], wrap Format.tStringType v) := (rfl)
@[pq] theorem variantAt_MAP (v : Val) : variantAt 33 1 v = some ([n! "LogicalType", n! "MAP"], wrap Format.tMapType v) := (rfl)
@[pq] theorem variantAt_LIST (v : Val) : variantAt 33 2 v = some ([n! "LogicalType", n! "LIST"], wrap Format.tListType v) := (rfl)
@[pq] theorem variantAt_ENUM (v : Val) : variantAt 33 3 v = some ([n! "LogicalType", n! "ENUM"], wrap Format.tEnumType v) := (rfl)
@[pq] theorem variantAt_DECIMAL (v : Val) : variantAt 33 4 v = some ([n! "LogicalType", n! "DECIMAL"], wrap Format.tDecimalType v) := (rfl)
@[pq] theorem variantAt_DATE (v : Val) : variantAt 33 5 v = some ([n! "LogicalType", n! "DATE"], wrap Format.tDateType v) := (rfl)
@[pq] theorem variantAt_TIME (v : Val) : variantAt 33 6 v = some ([n! "LogicalType", n! "TIME"], wrap Format.tTimeType v) := (rfl)
@[pq] theorem variantAt_TIMESTAMP (v : Val) : variantAt 33 7 v = some ([n! "LogicalType", n! "TIMESTAMP"], wrap Format.tTimestampType v) := (rfl)
@[pq] theorem variantAt_INTEGER (v : Val) : variantAt 33 8 v = some ([n! "LogicalType", n! "INTEGER"], wrap Format.tIntType v) := (rfl)
@[pq] theorem variantAt_UNKNOWN (v : Val) : variantAt 33 9 v = some ([n! "LogicalType", n! "UNKNOWN"], wrap Format.tNullType v) := (rfl)
@[pq] theorem variantAt_JSON (v : Val) : variantAt 33 10 v = some ([n! "LogicalType", n! "JSON"], wrap Format.tJsonType v) := (rfl)
@[pq] theorem variantAt_BSON (v : Val) : variantAt 33 11 v = some ([n! "LogicalType", n! "BSON"], wrap Format.tBsonType v) := (rfl)
@[pq] theorem variantAt_UUID (v : Val) : variantAt 33 12 v = some ([n! "LogicalType", n! "UUID"], wrap Format.tUUIDType v) := (rfl)
@[pq] theorem variantAt_FLOAT16 (v : Val) : variantAt 33 13 v = some ([n! "LogicalType", n! "FLOAT16"], wrap Format.tFloat16Type v) := (rfl)
@[pq] theorem variantAt_VARIANT (v : Val) : variantAt 33 14 v = some ([n! "LogicalType", n! "VARIANT"], wrap Format.tVariantType v) := (rfl)
@[pq] theorem variantAt_GEOMETRY (v : Val) : variantAt 33 15 v = some ([n! "LogicalType", n! "GEOMETRY"], wrap Format.tGeometryType v) := (rfl)
@[pq] theorem variantAt_GEOGRAPHY (v : Val) : variantAt 33 16 v = some ([n! "LogicalType", n! "GEOGRAPHY"], wrap Format.tGeographyType v) := (rfl)

end CT.Pq
