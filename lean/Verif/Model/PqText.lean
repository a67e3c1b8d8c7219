import Verif.Model.PqSyntax
import Verif.Model.MacroText
/-!
# The text of parquet/src/lib.rs and parquet/src/bin/schema.rs

Line by line, produced by a script.
-/
namespace CT.Pq
open CT.Rust (joinLines)

/-- parquet/src/lib.rs:1-100 -/
def libText0 : List (List Char) := [
  text! "use std::hint::unreachable_unchecked;",
  text! "use std::io::{Read, Seek, SeekFrom, Error as IOError};",
  text! "use std::ops::Range;",
  text! "use compact_thrift_runtime::{CompactThriftProtocol, CompactThriftInputSlice, ThriftError};",
  text! "use crate::format::{ColumnChunk, ColumnIndex, FileMetaData, OffsetIndex};",
  text! "",
  text! "#[rustfmt::skip]",
  text! "pub mod format;",
  text! "mod encodings;",
  text! "",
  text! "pub use encodings::EncodingSet;",
  text! "",
  text! "#[derive(Debug)]",
  text! "pub enum ParquetError {",
  text! "    Thrift(ThriftError),",
  text! "    InvalidMagic,",
  text! "    Io(IOError),",
  text! "    InvalidOffset,",
  text! "    Schema(&'static str),",
  text! "    UnknownType(i32),",
  text! "}",
  text! "",
  text! "impl From<IOError> for ParquetError {",
  text! "    fn from(value: IOError) -> Self {",
  text! "        Self::Io(value)",
  text! "    }",
  text! "}",
  text! "",
  text! "impl From<ThriftError> for ParquetError {",
  text! "    fn from(value: ThriftError) -> Self {",
  text! "        Self::Thrift(value)",
  text! "    }",
  text! "}",
  text! "",
  text! "const PARQUET_MAGIC: [u8; 4] = [b'P', b'A', b'R', b'1'];",
  text! "",
  text! "#[expect(clippy::uninit_vec)]",
  text! "pub fn get_metadata_chunk<R: Read + Seek>(input: &mut R) -> Result<Vec<u8>, ParquetError> {",
  text! "    let _pos = input.seek(SeekFrom::End(-8))?;",
  text! "    let mut footer = [0_u8; 8];",
  text! "    input.read_exact(&mut footer)?;",
  text! "    if footer[4..] != PARQUET_MAGIC {",
  text! "        return Err(ParquetError::InvalidMagic);",
  text! "    }",
  text! "",
  text! "    let metadata_len = u32::from_le_bytes(footer[0..4].try_into().unwrap()) as usize;",
  text! "    input.seek(SeekFrom::End(-(metadata_len as i64) - 8))?;",
  text! "",
  text! "    let mut buf = Vec::with_capacity(metadata_len);",
  text! "    // Safety: Readers should not look at uninitialized bytes, only write into the slice",
  text! "    unsafe {",
  text! "        buf.set_len(metadata_len);",
  text! "    }",
  text! "",
  text! "    input.read_exact(&mut buf)?;",
  text! "    Ok(buf)",
  text! "}",
  text! "",
  text! "pub fn get_page_index_range(file_metadata: &FileMetaData) -> Result<Option<Range<usize>>, ParquetError> {",
  text! "    let mut min = usize::MAX;",
  text! "    let mut max = 0_usize;",
  text! "",
  text! "    for rg in &file_metadata.row_groups {",
  text! "        for c in &rg.columns {",
  text! "            if let (Some(oo), Some(ol), Some(co), Some(cl)) = (c.offset_index_offset, c.offset_index_length, c.column_index_offset, c.column_index_length) {",
  text! "                if oo < 0 || ol < 0 || co < 0 || cl < 0 {",
  text! "                    return Err(ParquetError::InvalidOffset);",
  text! "                }",
  text! "",
  text! "                min = min.min(oo as usize);",
  text! "                max = max.max(oo as usize + ol as usize);",
  text! "",
  text! "                min = min.min(co as usize);",
  text! "                max = max.max(co as usize + cl as usize);",
  text! "            }",
  text! "        }",
  text! "    }",
  text! "",
  text! "    if min < max {",
  text! "        Ok(Some(min..max))",
  text! "    } else {",
  text! "        Ok(None)",
  text! "    }",
  text! "}",
  text! "",
  text! "#[expect(clippy::uninit_vec)]",
  text! "#[expect(clippy::type_complexity)]",
  text! "pub fn get_page_index_chunk<R: Read + Seek>(input: &mut R, file_metadata: &FileMetaData) -> Result<Option<(Vec<u8>, Range<usize>)>, ParquetError> {",
  text! "    if let Some(range) = get_page_index_range(file_metadata)? {",
  text! "        input.seek(SeekFrom::Start(range.start as u64))?;",
  text! "",
  text! "        let mut buf = Vec::with_capacity(range.len());",
  text! "        // Safety: Readers should not look at uninitialized bytes, only write into the slice",
  text! "        unsafe {",
  text! "            buf.set_len(range.len());",
  text! "        }",
  text! "",
  text! "        input.read_exact(&mut buf)?;",
  text! "",
  text! "        Ok(Some((buf, range)))"]

/-- parquet/src/lib.rs:101-162 -/
def libText1 : List (List Char) := [
  text! "    } else {",
  text! "        Ok(None)",
  text! "    }",
  text! "}",
  text! "",
  text! "fn read_page_index_for_column_chunk(chunk: &[u8], chunk_offset: usize, column_chunks: &[ColumnChunk]) -> Result<Vec<Option<(OffsetIndex, ColumnIndex)>>, ParquetError> {",
  text! "    column_chunks.iter().map(|cc| {",
  text! "        let offset_index_range = if let (Some(offset), Some(length)) = (cc.offset_index_offset, cc.offset_index_length) {",
  text! "            assert!(offset as usize >= chunk_offset);",
  text! "            assert!(length > 0);",
  text! "            let start = offset as usize - chunk_offset;",
  text! "            start..start+length as usize",
  text! "        } else {",
  text! "            return Ok(None)",
  text! "        };",
  text! "        let column_index_range = if let (Some(offset), Some(length)) = (cc.column_index_offset, cc.column_index_length) {",
  text! "            assert!(offset as usize >= chunk_offset);",
  text! "            assert!(length > 0);",
  text! "            let start = offset as usize - chunk_offset;",
  text! "            start..start+length as usize",
  text! "        } else {",
  text! "            return Ok(None)",
  text! "        };",
  text! "",
  text! "        let mut res = Ok(Some((OffsetIndex::default(), ColumnIndex::default())));",
  text! "",
  text! "        match &mut res {",
  text! "            Ok(Some((offset_index, column_index))) => {",
  text! "                offset_index.fill_thrift(&mut CompactThriftInputSlice::new(&chunk[offset_index_range]))?;",
  text! "                column_index.fill_thrift(&mut CompactThriftInputSlice::new(&chunk[column_index_range]))?;",
  text! "            }",
  text! "            _ => unsafe { unreachable_unchecked() }",
  text! "        }",
  text! "",
  text! "        res",
  text! "    }).collect()",
  text! "}",
  text! "",
  text! "#[expect(clippy::type_complexity)]",
  text! "pub fn read_page_index(chunk: &[u8], chunk_offset: usize, file_metadata: &FileMetaData) -> Result<Vec<Vec<Option<(OffsetIndex, ColumnIndex)>>>, ParquetError> {",
  text! "    file_metadata.row_groups.iter().map(|rg| {",
  text! "        read_page_index_for_column_chunk(chunk, chunk_offset, &rg.columns)",
  text! "    }).collect()",
  text! "}",
  text! "",
  text! "#[cfg(test)]",
  text! "mod tests {",
  text! "    use std::fs::File;",
  text! "    use compact_thrift_runtime::{CompactThriftProtocol, CompactThriftInputSlice};",
  text! "    use crate::format::FileMetaData;",
  text! "    use crate::get_metadata_chunk;",
  text! "",
  text! "    #[test]",
  text! "    fn test_read_metadata() {",
  text! "        let mut file = File::open(\"data/alltypes_tiny_pages.parquet\").unwrap();",
  text! "        let metadata_chunk = get_metadata_chunk(&mut file).unwrap();",
  text! "        dbg!(metadata_chunk.len());",
  text! "",
  text! "        let mut input = CompactThriftInputSlice::new(&metadata_chunk);",
  text! "        let metadata = FileMetaData::read_thrift(&mut input).unwrap();",
  text! "        dbg!(&metadata);",
  text! "    }"]

/-- parquet/src/lib.rs -/
def libText : List Char := joinLines (libText0 ++ libText1) ++ text! "}"

/-- parquet/src/bin/schema.rs:1-100 -/
def schemaText0 : List (List Char) := [
  text! "use compact_thrift_runtime::{CompactThriftInputSlice, CompactThriftProtocol};",
  text! "use compact_thrift_parquet::format::{ConvertedType, DecimalType, FieldRepetitionType, FileMetaData, GeographyType, GeometryType, IntType, LogicalType, MicroSeconds, MilliSeconds, NanoSeconds, SchemaElement, TimeType, TimeUnit, TimestampType, Type, VariantType};",
  text! "use compact_thrift_parquet::{get_metadata_chunk, ParquetError};",
  text! "use std::fmt::{Debug, Display, Formatter};",
  text! "use std::fs::File;",
  text! "",
  text! "#[derive(Debug, Clone, Copy)]",
  text! "#[allow(non_camel_case_types)]",
  text! "pub enum PhysicalType {",
  text! "    BOOLEAN,",
  text! "    INT32,",
  text! "    INT64,",
  text! "    INT96,",
  text! "    FLOAT,",
  text! "    DOUBLE,",
  text! "    BYTE_ARRAY,",
  text! "    FIXED_LEN_BYTE_ARRAY(u32),",
  text! "}",
  text! "",
  text! "impl PhysicalType {",
  text! "    fn try_from_schema_element(",
  text! "        element_type: Type,",
  text! "        type_length: Option<i32>,",
  text! "    ) -> Result<PhysicalType, ParquetError> {",
  text! "        match element_type {",
  text! "            Type::BOOLEAN => Ok(PhysicalType::BOOLEAN),",
  text! "            Type::BYTE_ARRAY => Ok(PhysicalType::BYTE_ARRAY),",
  text! "            Type::INT32 => Ok(PhysicalType::INT32),",
  text! "            Type::INT64 => Ok(PhysicalType::INT64),",
  text! "            Type::INT96 => Ok(PhysicalType::INT96),",
  text! "            Type::FLOAT => Ok(PhysicalType::FLOAT),",
  text! "            Type::DOUBLE => Ok(PhysicalType::DOUBLE),",
  text! "            Type::FIXED_LEN_BYTE_ARRAY => {",
  text! "                let len = type_length.ok_or(ParquetError::Schema(",
  text! "                    \"Missing length for FIXED_LEN_BYTE_ARRAY type\",",
  text! "                ))?;",
  text! "                if len <= 0 {",
  text! "                    return Err(ParquetError::Schema(",
  text! "                        \"Invalid length for FIXED_LEN_BYTE_ARRAY type\",",
  text! "                    ));",
  text! "                }",
  text! "                Ok(PhysicalType::FIXED_LEN_BYTE_ARRAY(len as u32))",
  text! "            }",
  text! "            Type(id) => Err(ParquetError::UnknownType(id)),",
  text! "        }",
  text! "    }",
  text! "}",
  text! "",
  text! "#[derive(Debug, Clone, Copy, PartialEq)]",
  text! "pub enum SchemaTimeUnit {",
  text! "    Millis,",
  text! "    Micros,",
  text! "    Nanos,",
  text! "}",
  text! "",
  text! "impl From<TimeUnit> for SchemaTimeUnit {",
  text! "    fn from(time_unit: TimeUnit) -> Self {",
  text! "        match time_unit {",
  text! "            TimeUnit::MILLIS(_) => SchemaTimeUnit::Millis,",
  text! "            TimeUnit::MICROS(_) => SchemaTimeUnit::Micros,",
  text! "            TimeUnit::NANOS(_) => SchemaTimeUnit::Nanos,",
  text! "        }",
  text! "    }",
  text! "}",
  text! "",
  text! "impl From<SchemaTimeUnit> for TimeUnit {",
  text! "    fn from(value: SchemaTimeUnit) -> Self {",
  text! "        match value {",
  text! "            SchemaTimeUnit::Millis => TimeUnit::MILLIS(MilliSeconds {}),",
  text! "            SchemaTimeUnit::Micros => TimeUnit::MICROS(MicroSeconds {}),",
  text! "            SchemaTimeUnit::Nanos => TimeUnit::NANOS(NanoSeconds {}),",
  text! "        }",
  text! "    }",
  text! "}",
  text! "",
  text! "#[derive(Debug, Clone, Copy, PartialEq)]",
  text! "pub struct TimeOptions {",
  text! "    is_adjusted_to_utc: bool,",
  text! "    time_unit: SchemaTimeUnit,",
  text! "}",
  text! "",
  text! "impl From<&TimeType> for TimeOptions {",
  text! "    fn from(time_type: &TimeType) -> Self {",
  text! "        Self {",
  text! "            is_adjusted_to_utc: time_type.isAdjustedToUTC,",
  text! "            time_unit: time_type.unit.clone().into(),",
  text! "        }",
  text! "    }",
  text! "}",
  text! "",
  text! "impl From<&TimestampType> for TimeOptions {",
  text! "    fn from(timestamp_type: &TimestampType) -> Self {",
  text! "        Self {",
  text! "            is_adjusted_to_utc: timestamp_type.isAdjustedToUTC,",
  text! "            time_unit: timestamp_type.unit.clone().into(),",
  text! "        }",
  text! "    }",
  text! "}",
  text! "",
  text! "#[derive(Debug, Clone, Copy, PartialEq)]"]

/-- parquet/src/bin/schema.rs:101-200 -/
def schemaText1 : List (List Char) := [
  text! "pub struct DecimalOptions {",
  text! "    precision: u8,",
  text! "    scale: i8,",
  text! "}",
  text! "",
  text! "impl DecimalOptions {",
  text! "    pub fn try_new(precision: i32, scale: i32) -> Result<Self, ParquetError> {",
  text! "        if precision <= 0 || precision > 127 {",
  text! "            return Err(ParquetError::Schema(\"Invalid precision for Decimal type\"));",
  text! "        }",
  text! "        if scale < -128 || scale > precision {",
  text! "            return Err(ParquetError::Schema(\"Invalid scale for Decimal type\"));",
  text! "        }",
  text! "        Ok(Self {",
  text! "            precision: precision as u8,",
  text! "            scale: scale as i8,",
  text! "        })",
  text! "    }",
  text! "}",
  text! "",
  text! "impl TryFrom<&DecimalType> for DecimalOptions {",
  text! "    type Error = ParquetError;",
  text! "",
  text! "    fn try_from(decimal_type: &DecimalType) -> Result<Self, Self::Error> {",
  text! "        Self::try_new(decimal_type.precision, decimal_type.scale)",
  text! "    }",
  text! "}",
  text! "#[derive(Clone, Copy, PartialEq)]",
  text! "pub struct IntegerOptions {",
  text! "    bitwidth: u8,",
  text! "    is_signed: bool,",
  text! "}",
  text! "",
  text! "impl Debug for IntegerOptions {",
  text! "    fn fmt(&self, f: &mut Formatter<'_>) -> std::fmt::Result {",
  text! "        let signed = if self.is_signed { 'i' } else { 'u' };",
  text! "        f.write_fmt(format_args!(\"{}{}\", signed, self.bitwidth))",
  text! "    }",
  text! "}",
  text! "",
  text! "impl TryFrom<&IntType> for IntegerOptions {",
  text! "    type Error = ParquetError;",
  text! "",
  text! "    fn try_from(int_type: &IntType) -> Result<Self, Self::Error> {",
  text! "        // according to thrift schema, \"bitWidth must be 8, 16, 32, or 64\"",
  text! "        // but type_length in combination with converted type does not have such restriction",
  text! "        if int_type.bitWidth <= 0 {",
  text! "            return Err(ParquetError::Schema(\"Invalid bitwidth for Integer type\"));",
  text! "        }",
  text! "        Ok(Self {",
  text! "            bitwidth: int_type.bitWidth as u8,",
  text! "            is_signed: int_type.isSigned,",
  text! "        })",
  text! "    }",
  text! "}",
  text! "#[derive(Debug, PartialEq, Clone, Copy)]",
  text! "pub enum PrimitiveLogicalType {",
  text! "    String,",
  text! "    Enum,",
  text! "    Decimal(DecimalOptions),",
  text! "    Date,",
  text! "    Time(TimeOptions),",
  text! "    Timestamp(TimeOptions),",
  text! "    Interval,",
  text! "    Integer(IntegerOptions),",
  text! "    Unknown,",
  text! "    Json,",
  text! "    Bson,",
  text! "    UUID,",
  text! "    Float16,",
  text! "    Geometry,",
  text! "    Geography,",
  text! "}",
  text! "",
  text! "impl PrimitiveLogicalType {",
  text! "    pub fn try_from_converted_type(",
  text! "        converted_type: &ConvertedType,",
  text! "        precision: Option<i32>,",
  text! "        scale: Option<i32>,",
  text! "        _type_length: Option<i32>,",
  text! "    ) -> Result<PrimitiveLogicalType, ParquetError> {",
  text! "        match *converted_type {",
  text! "            ConvertedType::UTF8 => Ok(PrimitiveLogicalType::String),",
  text! "            ConvertedType::ENUM => Ok(PrimitiveLogicalType::Enum),",
  text! "            ConvertedType::DATE => Ok(PrimitiveLogicalType::Date),",
  text! "            ConvertedType::JSON => Ok(PrimitiveLogicalType::Json),",
  text! "            ConvertedType::BSON => Ok(PrimitiveLogicalType::Bson),",
  text! "            ConvertedType::DECIMAL => {",
  text! "                let precision =",
  text! "                    precision.ok_or(ParquetError::Schema(\"Missing precision for decimal type\"))?;",
  text! "                let scale = scale.ok_or(ParquetError::Schema(\"Missing scale for decimal type\"))?;",
  text! "                let options = DecimalOptions::try_from(&DecimalType { precision, scale })?;",
  text! "                Ok(PrimitiveLogicalType::Decimal(options))",
  text! "            }",
  text! "            ConvertedType::TIME_MICROS => Ok(PrimitiveLogicalType::Time(TimeOptions {",
  text! "                time_unit: SchemaTimeUnit::Micros,",
  text! "                is_adjusted_to_utc: true,",
  text! "            })),",
  text! "            ConvertedType::TIME_MILLIS => Ok(PrimitiveLogicalType::Time(TimeOptions {",
  text! "                time_unit: SchemaTimeUnit::Millis,"]

/-- parquet/src/bin/schema.rs:201-300 -/
def schemaText2 : List (List Char) := [
  text! "                is_adjusted_to_utc: true,",
  text! "            })),",
  text! "            ConvertedType::TIMESTAMP_MICROS => Ok(PrimitiveLogicalType::Timestamp(TimeOptions {",
  text! "                time_unit: SchemaTimeUnit::Micros,",
  text! "                is_adjusted_to_utc: true,",
  text! "            })),",
  text! "            ConvertedType::TIMESTAMP_MILLIS => Ok(PrimitiveLogicalType::Timestamp(TimeOptions {",
  text! "                time_unit: SchemaTimeUnit::Millis,",
  text! "                is_adjusted_to_utc: true,",
  text! "            })),",
  text! "            ConvertedType::INTERVAL => Ok(PrimitiveLogicalType::Interval),",
  text! "            // TODO: consider SchemaElement::type_len for bitwidth",
  text! "            ConvertedType::INT_8 => Ok(PrimitiveLogicalType::Integer(IntegerOptions {",
  text! "                bitwidth: 8,",
  text! "                is_signed: true,",
  text! "            })),",
  text! "            ConvertedType::INT_16 => Ok(PrimitiveLogicalType::Integer(IntegerOptions {",
  text! "                bitwidth: 16,",
  text! "                is_signed: true,",
  text! "            })),",
  text! "            ConvertedType::INT_32 => Ok(PrimitiveLogicalType::Integer(IntegerOptions {",
  text! "                bitwidth: 32,",
  text! "                is_signed: true,",
  text! "            })),",
  text! "            ConvertedType::INT_64 => Ok(PrimitiveLogicalType::Integer(IntegerOptions {",
  text! "                bitwidth: 64,",
  text! "                is_signed: true,",
  text! "            })),",
  text! "            ConvertedType::UINT_8 => Ok(PrimitiveLogicalType::Integer(IntegerOptions {",
  text! "                bitwidth: 8,",
  text! "                is_signed: false,",
  text! "            })),",
  text! "            ConvertedType::UINT_16 => Ok(PrimitiveLogicalType::Integer(IntegerOptions {",
  text! "                bitwidth: 16,",
  text! "                is_signed: false,",
  text! "            })),",
  text! "            ConvertedType::UINT_32 => Ok(PrimitiveLogicalType::Integer(IntegerOptions {",
  text! "                bitwidth: 32,",
  text! "                is_signed: false,",
  text! "            })),",
  text! "            ConvertedType::UINT_64 => Ok(PrimitiveLogicalType::Integer(IntegerOptions {",
  text! "                bitwidth: 64,",
  text! "                is_signed: false,",
  text! "            })),",
  text! "            ConvertedType::MAP | ConvertedType::LIST => Err(ParquetError::Schema(",
  text! "                \"Unsupported map or list converted type for primitive\",",
  text! "            )),",
  text! "            ConvertedType(id) => Err(ParquetError::UnknownType(id)),",
  text! "        }",
  text! "    }",
  text! "",
  text! "    pub fn try_from_logical_type(logical_type: &LogicalType) -> Result<Self, ParquetError> {",
  text! "        Self::try_from(logical_type)",
  text! "    }",
  text! "",
  text! "    pub fn precision(&self) -> Option<i32> {",
  text! "        match self {",
  text! "            PrimitiveLogicalType::Decimal(DecimalOptions { precision, .. }) => {",
  text! "                Some(*precision as _)",
  text! "            }",
  text! "            _ => None,",
  text! "        }",
  text! "    }",
  text! "",
  text! "    pub fn scale(&self) -> Option<i32> {",
  text! "        match self {",
  text! "            PrimitiveLogicalType::Decimal(DecimalOptions { scale, .. }) => Some(*scale as _),",
  text! "            _ => None,",
  text! "        }",
  text! "    }",
  text! "}",
  text! "",
  text! "impl TryFrom<&LogicalType> for PrimitiveLogicalType {",
  text! "    type Error = ParquetError;",
  text! "",
  text! "    fn try_from(logical_type: &LogicalType) -> Result<Self, Self::Error> {",
  text! "        match logical_type {",
  text! "            LogicalType::STRING(_) => Ok(PrimitiveLogicalType::String),",
  text! "            LogicalType::ENUM(_) => Ok(PrimitiveLogicalType::Enum),",
  text! "            LogicalType::DECIMAL(decimal_type) => Ok(PrimitiveLogicalType::Decimal(",
  text! "                DecimalOptions::try_from(decimal_type)?,",
  text! "            )),",
  text! "            LogicalType::DATE(_) => Ok(PrimitiveLogicalType::Date),",
  text! "            LogicalType::TIME(time_type) => Ok(PrimitiveLogicalType::Time(time_type.into())),",
  text! "            LogicalType::TIMESTAMP(timestamp_type) => {",
  text! "                Ok(PrimitiveLogicalType::Timestamp(timestamp_type.into()))",
  text! "            }",
  text! "            LogicalType::INTEGER(int_type) => Ok(PrimitiveLogicalType::Integer(",
  text! "                IntegerOptions::try_from(int_type)?,",
  text! "            )),",
  text! "            LogicalType::UNKNOWN(_) => Ok(PrimitiveLogicalType::Unknown),",
  text! "            LogicalType::JSON(_) => Ok(PrimitiveLogicalType::Json),",
  text! "            LogicalType::BSON(_) => Ok(PrimitiveLogicalType::Bson),",
  text! "            LogicalType::UUID(_) => Ok(PrimitiveLogicalType::UUID),",
  text! "            LogicalType::FLOAT16(_) => Ok(PrimitiveLogicalType::Float16),",
  text! "            LogicalType::GEOMETRY(GeometryType { crs: _ }) => Ok(PrimitiveLogicalType::Geometry),",
  text! "            LogicalType::GEOGRAPHY(GeographyType { crs: _, algorithm: _ }) => Ok(PrimitiveLogicalType::Geography),",
  text! "            LogicalType::MAP(_) | LogicalType::LIST(_) => Err(ParquetError::Schema(",
  text! "                \"Unsupported map or list logical type for primitive\",",
  text! "            )),"]

/-- parquet/src/bin/schema.rs:301-400 -/
def schemaText3 : List (List Char) := [
  text! "            LogicalType::VARIANT(_) => Err(ParquetError::Schema(",
  text! "                \"Unsupported variant logical type for primitive\",",
  text! "            )),",
  text! "        }",
  text! "    }",
  text! "}",
  text! "",
  text! "#[derive(Debug, Clone, Copy, PartialEq)]",
  text! "pub enum GroupLogicalType {",
  text! "    List,",
  text! "    Map,",
  text! "    MapKeyValue,",
  text! "    Variant {",
  text! "        specification_version: Option<i8>,",
  text! "    },",
  text! "}",
  text! "",
  text! "impl TryFrom<&LogicalType> for GroupLogicalType {",
  text! "    type Error = ParquetError;",
  text! "",
  text! "    fn try_from(value: &LogicalType) -> Result<Self, Self::Error> {",
  text! "        match value {",
  text! "            LogicalType::MAP(_) => Ok(GroupLogicalType::Map),",
  text! "            LogicalType::LIST(_) => Ok(GroupLogicalType::List),",
  text! "            LogicalType::VARIANT(VariantType { specification_version }) => Ok(GroupLogicalType::Variant{ specification_version: *specification_version }),",
  text! "            _ => Err(ParquetError::Schema(\"Unsupported logical type for group\")),",
  text! "        }",
  text! "    }",
  text! "}",
  text! "",
  text! "impl TryFrom<&ConvertedType> for GroupLogicalType {",
  text! "    type Error = ParquetError;",
  text! "",
  text! "    fn try_from(value: &ConvertedType) -> Result<Self, Self::Error> {",
  text! "        match *value {",
  text! "            ConvertedType::MAP => Ok(GroupLogicalType::Map),",
  text! "            ConvertedType::LIST => Ok(GroupLogicalType::List),",
  text! "            ConvertedType::MAP_KEY_VALUE => Ok(GroupLogicalType::MapKeyValue),",
  text! "            _ => Err(ParquetError::Schema(\"Unsupported converted type for group\")),",
  text! "        }",
  text! "    }",
  text! "}",
  text! "",
  text! "#[derive(Debug, Clone, Copy, PartialEq)]",
  text! "pub enum RepetitionType {",
  text! "    Required,",
  text! "    Optional,",
  text! "    Repeated,",
  text! "}",
  text! "",
  text! "impl Display for RepetitionType {",
  text! "    fn fmt(&self, f: &mut Formatter<'_>) -> std::fmt::Result {",
  text! "        match self {",
  text! "            RepetitionType::Required => f.write_str(\"REQUIRED\"),",
  text! "            RepetitionType::Optional => f.write_str(\"OPTIONAL\"),",
  text! "            RepetitionType::Repeated => f.write_str(\"REPEATED\"),",
  text! "        }",
  text! "    }",
  text! "}",
  text! "",
  text! "impl TryFrom<&FieldRepetitionType> for RepetitionType {",
  text! "    type Error = ParquetError;",
  text! "",
  text! "    fn try_from(repetition_type: &FieldRepetitionType) -> Result<Self, Self::Error> {",
  text! "        match *repetition_type {",
  text! "            FieldRepetitionType::REQUIRED => Ok(RepetitionType::Required),",
  text! "            FieldRepetitionType::OPTIONAL => Ok(RepetitionType::Optional),",
  text! "            FieldRepetitionType::REPEATED => Ok(RepetitionType::Repeated),",
  text! "            FieldRepetitionType(id) => Err(ParquetError::UnknownType(id)),",
  text! "        }",
  text! "    }",
  text! "}",
  text! "",
  text! "/// An i32 without the alignment requirements, to reduce the size of CommonField.",
  text! "#[derive(Debug, Clone, Copy, PartialEq)]",
  text! "pub struct FieldId([u8; 4]);",
  text! "",
  text! "impl From<i32> for FieldId {",
  text! "    fn from(value: i32) -> Self {",
  text! "        Self(value.to_ne_bytes())",
  text! "    }",
  text! "}",
  text! "",
  text! "impl From<FieldId> for i32 {",
  text! "    fn from(value: FieldId) -> Self {",
  text! "        i32::from_ne_bytes(value.0)",
  text! "    }",
  text! "}",
  text! "",
  text! "#[derive(Debug)]",
  text! "pub struct CommonField {",
  text! "    pub name: String,",
  text! "    pub field_id: Option<FieldId>,",
  text! "    pub repetition: RepetitionType,",
  text! "    /// the definition level at which a value is non-null",
  text! "    pub def_level: u8,",
  text! "    /// the repetition level at which a value continues a previous list item",
  text! "    pub rep_level: u8,",
  text! "}",
  text! ""]

/-- parquet/src/bin/schema.rs:401-500 -/
def schemaText4 : List (List Char) := [
  text! "#[derive(Debug)]",
  text! "pub struct PrimitiveField {",
  text! "    pub common: CommonField,",
  text! "    pub physical_type: PhysicalType,",
  text! "    pub logical_type: Option<PrimitiveLogicalType>,",
  text! "    pub index: u32,",
  text! "}",
  text! "",
  text! "#[derive(Debug)]",
  text! "pub struct GroupField {",
  text! "    pub common: CommonField,",
  text! "    pub children: Vec<SchemaField>,",
  text! "    pub logical_type: Option<GroupLogicalType>,",
  text! "}",
  text! "",
  text! "#[derive(Debug)]",
  text! "pub enum SchemaField {",
  text! "    Group(GroupField),",
  text! "    Primitive(PrimitiveField),",
  text! "}",
  text! "",
  text! "impl SchemaField {",
  text! "    pub fn find_field_by_path<'field>(&'field self, path: &[&str]) -> Option<&'field SchemaField> {",
  text! "        if let Some((name, remainder)) = path.split_first() {",
  text! "            match self {",
  text! "                SchemaField::Group(field) => field",
  text! "                    .children",
  text! "                    .iter()",
  text! "                    .find(|child| child.name() == *name)",
  text! "                    .and_then(|child| child.find_field_by_path(remainder)),",
  text! "                SchemaField::Primitive(_) => {",
  text! "                    // return an error instead?",
  text! "                    None",
  text! "                }",
  text! "            }",
  text! "        } else {",
  text! "            Some(self)",
  text! "        }",
  text! "    }",
  text! "",
  text! "    pub fn common(&self) -> &CommonField {",
  text! "        match self {",
  text! "            SchemaField::Group(field) => &field.common,",
  text! "            SchemaField::Primitive(field) => &field.common,",
  text! "        }",
  text! "    }",
  text! "",
  text! "    pub fn name(&self) -> &str {",
  text! "        self.common().name.as_str()",
  text! "    }",
  text! "",
  text! "    pub fn definition_level(&self) -> u8 {",
  text! "        self.common().def_level",
  text! "    }",
  text! "",
  text! "    pub fn repetition_level(&self) -> u8 {",
  text! "        self.common().rep_level",
  text! "    }",
  text! "",
  text! "    pub fn is_optional(&self) -> bool {",
  text! "        self.common().repetition == RepetitionType::Optional",
  text! "    }",
  text! "}",
  text! "",
  text! "fn field_from_schema_element(",
  text! "    element: &SchemaElement,",
  text! "    index: &mut usize,",
  text! "    def_level: u8,",
  text! "    rep_level: u8,",
  text! "    remaining_elements: usize,",
  text! ") -> Result<SchemaField, ParquetError> {",
  text! "    let repetition = element",
  text! "        .repetition_type",
  text! "        .map(|rt| RepetitionType::try_from(&rt))",
  text! "        .transpose()?",
  text! "        .unwrap_or(RepetitionType::Required);",
  text! "    let common = CommonField {",
  text! "        name: element.name.clone(),",
  text! "        field_id: element.field_id.map(FieldId::from),",
  text! "        repetition,",
  text! "        def_level,",
  text! "        rep_level,",
  text! "    };",
  text! "",
  text! "    let num_children = element.num_children.unwrap_or(0);",
  text! "    if num_children == 0 {",
  text! "        let type_ = element.type_.ok_or(ParquetError::Schema(",
  text! "            \"Missing physical type for SchemaElement without children\",",
  text! "        ))?;",
  text! "        let physical_type = PhysicalType::try_from_schema_element(type_, element.type_length)?;",
  text! "",
  text! "        // ignore errors during logical type handling to be forward compatible",
  text! "        let mut logical_type: Option<PrimitiveLogicalType> = None;",
  text! "        if let Some(lt) = element.logicalType.as_ref() {",
  text! "            logical_type = PrimitiveLogicalType::try_from_logical_type(lt).ok();",
  text! "        }",
  text! "        if logical_type.is_none() {",
  text! "            if let Some(ct) = element.converted_type.as_ref() {",
  text! "                logical_type = PrimitiveLogicalType::try_from_converted_type(",
  text! "                    ct,"]

/-- parquet/src/bin/schema.rs:501-600 -/
def schemaText5 : List (List Char) := [
  text! "                    element.precision,",
  text! "                    element.scale,",
  text! "                    element.type_length,",
  text! "                )",
  text! "                .ok();",
  text! "            }",
  text! "        }",
  text! "",
  text! "        let field = PrimitiveField {",
  text! "            common,",
  text! "            physical_type,",
  text! "            logical_type,",
  text! "            index: *index as u32,",
  text! "        };",
  text! "        *index += 1;",
  text! "        Ok(SchemaField::Primitive(field))",
  text! "    } else if num_children < 0 || num_children as usize > remaining_elements {",
  text! "        Err(ParquetError::Schema(\"Invalid number of children\"))",
  text! "    } else {",
  text! "        // ignore errors during logical type handling to be forward compatible",
  text! "        let mut logical_type: Option<GroupLogicalType> = None;",
  text! "        if let Some(lt) = element.logicalType.as_ref() {",
  text! "            logical_type = GroupLogicalType::try_from(lt).ok();",
  text! "        }",
  text! "        if logical_type.is_none() {",
  text! "            if let Some(ct) = element.converted_type.as_ref() {",
  text! "                logical_type = GroupLogicalType::try_from(ct).ok();",
  text! "            }",
  text! "        }",
  text! "",
  text! "        let children = Vec::with_capacity(num_children as usize);",
  text! "        let field = GroupField {",
  text! "            common,",
  text! "            children,",
  text! "            logical_type,",
  text! "        };",
  text! "        Ok(SchemaField::Group(field))",
  text! "    }",
  text! "}",
  text! "",
  text! "fn convert_schema_inner<'schema>(",
  text! "    elements: &'schema [SchemaElement],",
  text! "    index: &mut usize,",
  text! "    def_level: u8,",
  text! "    rep_level: u8,",
  text! "    nesting: u8,",
  text! ") -> Result<(SchemaField, &'schema [SchemaElement]), ParquetError> {",
  text! "    if elements.is_empty() {",
  text! "        return Err(ParquetError::Schema(\"Missing schema elements\"));",
  text! "    }",
  text! "",
  text! "    let root_element = &elements[0];",
  text! "    let mut remainder_elements = &elements[1..];",
  text! "",
  text! "    let repetition_type = root_element",
  text! "        .repetition_type",
  text! "        .unwrap_or(FieldRepetitionType::REQUIRED);",
  text! "    // cannot overflow because nesting level has a lower limit than u8::MAX",
  text! "    let def_level = def_level + (repetition_type == FieldRepetitionType::OPTIONAL) as u8;",
  text! "    let rep_level = rep_level + (repetition_type == FieldRepetitionType::REPEATED) as u8;",
  text! "",
  text! "    let mut current = field_from_schema_element(",
  text! "        root_element,",
  text! "        index,",
  text! "        def_level,",
  text! "        rep_level,",
  text! "        remainder_elements.len(),",
  text! "    )?;",
  text! "",
  text! "    if let SchemaField::Group(GroupField { children, .. }) = &mut current {",
  text! "        // limit recursion",
  text! "        let nesting = nesting + 1;",
  text! "        if nesting >= 128 {",
  text! "            return Err(ParquetError::Schema(\"Schema is too deeply nested\"));",
  text! "        };",
  text! "",
  text! "        let num_children = root_element.num_children.unwrap_or(0) as usize;",
  text! "",
  text! "        let mut i = 0;",
  text! "        while i < num_children {",
  text! "            let (child_field, remainder) =",
  text! "                convert_schema_inner(remainder_elements, index, def_level, rep_level, nesting)?;",
  text! "            remainder_elements = remainder;",
  text! "            children.push(child_field);",
  text! "            i += 1;",
  text! "        }",
  text! "    }",
  text! "    Ok((current, remainder_elements))",
  text! "}",
  text! "",
  text! "fn convert_schema(elements: &[SchemaElement]) -> Result<SchemaField, ParquetError> {",
  text! "    if elements.is_empty() {",
  text! "        return Err(ParquetError::Schema(\"Empty schema\"));",
  text! "    }",
  text! "",
  text! "    let mut index = 0;",
  text! "",
  text! "    let (root, remainder) = convert_schema_inner(elements, &mut index, 0, 0, 0)?;",
  text! "",
  text! "    if !remainder.is_empty() {"]

/-- parquet/src/bin/schema.rs:601-666 -/
def schemaText6 : List (List Char) := [
  text! "        Err(ParquetError::Schema(",
  text! "            \"Trailing schema elements after root group\",",
  text! "        ))",
  text! "    } else if root.common().repetition != RepetitionType::Required {",
  text! "        Err(ParquetError::Schema(",
  text! "            \"Root element must have repetition type required\",",
  text! "        ))",
  text! "    } else {",
  text! "        Ok(root)",
  text! "    }",
  text! "}",
  text! "",
  text! "fn print_indent(indent: usize) {",
  text! "    for _ in 0..indent {",
  text! "        print!(\"  \");",
  text! "    }",
  text! "}",
  text! "",
  text! "fn pretty_print_schema(field: &SchemaField, indent: usize) {",
  text! "    print_indent(indent);",
  text! "    match field {",
  text! "        SchemaField::Group(field) => {",
  text! "            print!(\"{} group {}\", field.common.repetition, field.common.name);",
  text! "            if let Some(logical_type) = field.logical_type {",
  text! "                print!(\" ({logical_type:?})\")",
  text! "            }",
  text! "",
  text! "            println!(\" {{\");",
  text! "            for child in &field.children {",
  text! "                pretty_print_schema(child, indent + 1);",
  text! "            }",
  text! "",
  text! "            print_indent(indent);",
  text! "            println!(\"}}\")",
  text! "        }",
  text! "        SchemaField::Primitive(field) => {",
  text! "            print!(",
  text! "                \"{} {:?} {}\",",
  text! "                field.common.repetition, field.physical_type, field.common.name",
  text! "            );",
  text! "            if let Some(logical_type) = field.logical_type.as_ref() {",
  text! "                print!(\" ({logical_type:?})\")",
  text! "            }",
  text! "            println!(\";\");",
  text! "        }",
  text! "    }",
  text! "}",
  text! "",
  text! "pub fn main() {",
  text! "    let mut file = File::open(\"parquet/data/alltypes_tiny_pages.parquet\").unwrap();",
  text! "    let data = get_metadata_chunk(&mut file).unwrap();",
  text! "    let mut input = CompactThriftInputSlice::new(&data);",
  text! "",
  text! "    let fmd = FileMetaData::read_thrift(&mut input).unwrap();",
  text! "",
  text! "    println!(\"version: {}\", fmd.version);",
  text! "    println!(\"num of rows: {}\", fmd.num_rows);",
  text! "",
  text! "    if let Some(created_by) = fmd.created_by.as_ref() {",
  text! "        println!(\"created by: {created_by}\");",
  text! "    }",
  text! "",
  text! "    let schema = convert_schema(&fmd.schema).unwrap();",
  text! "",
  text! "    pretty_print_schema(&schema, 0);",
  text! "}"]

/-- parquet/src/bin/schema.rs -/
def schemaText : List Char := joinLines (schemaText0 ++ schemaText1 ++ schemaText2 ++ schemaText3 ++ schemaText4 ++ schemaText5 ++ schemaText6)

end CT.Pq
