import Verif.Model.RustSyntax
import Verif.Model.MacroText
/-!
# The text of runtime/src/uleb.rs and runtime/src/protocol.rs

Line by line, produced by a script.
-/
namespace CT.Rs
open CT.Rust (joinLines)

/-- uleb.rs:1-48 -/
def ulebText0 : List (List Char) := [
  text! "use crate::CompactThriftInput;",
  text! "use crate::CompactThriftOutput;",
  text! "use crate::ThriftError;",
  text! "",
  text! "pub(crate) fn decode_uleb<'i, I: CompactThriftInput<'i> + ?Sized>(input: &mut I) -> Result<u64, ThriftError> {",
  text! "    let mut shift = 0_u32;",
  text! "    let mut value = 0_u64;",
  text! "    loop {",
  text! "        let byte = input.read_byte()?;",
  text! "",
  text! "        // overlong sequences are not treated as an error for performance reasons",
  text! "        value |= ((byte & 0x7F) as u64).wrapping_shl(shift);",
  text! "        shift += 7;",
  text! "",
  text! "        if (byte & 0x80) == 0 {",
  text! "            return Ok(value);",
  text! "        }",
  text! "    }",
  text! "}",
  text! "",
  text! "/// Safety: `input` needs to contain at least 16 bytes",
  text! "#[cfg(target_feature = \"sse2\")]",
  text! "#[inline]",
  text! "pub(crate) unsafe fn skip_uleb_sse2(input: &[u8]) -> &[u8] {",
  text! "    use std::arch::x86_64::*;",
  text! "    debug_assert!(input.len() >= 16);",
  text! "    let chunk = _mm_loadu_si128(input.as_ptr().cast());",
  text! "    let mask = !_mm_movemask_epi8(chunk);",
  text! "    let len = (mask << 1).trailing_zeros() as usize;",
  text! "    input.get_unchecked(len..)",
  text! "}",
  text! "",
  text! "#[inline(never)]",
  text! "pub(crate) fn skip_uleb_fallback(input: &[u8]) -> &[u8] {",
  text! "    let mut i = 0_usize;",
  text! "    while i < input.len() && (input[i] & 0x80) != 0 {",
  text! "        i += 1;",
  text! "    }",
  text! "    &input[i+1..]",
  text! "}",
  text! "",
  text! "pub(crate) fn encode_uleb<O: CompactThriftOutput + ?Sized>(output: &mut O, mut value: u64) -> Result<(), ThriftError> {",
  text! "    while value > 0x7F {",
  text! "        output.write_byte((value as u8) | 0x80)?;",
  text! "        value >>= 7;",
  text! "    }",
  text! "    output.write_byte(value as u8)",
  text! "}"]

/-- runtime/src/uleb.rs -/
def ulebText : List Char := joinLines (ulebText0)

/-- protocol.rs:1-60 -/
def protocolText0 : List (List Char) := [
  text! "use std::borrow::Cow;",
  text! "",
  text! "use std::io::ErrorKind;",
  text! "use std::io::Read;",
  text! "use std::io::Write;",
  text! "",
  text! "use std::str::from_utf8_unchecked;",
  text! "use std::str::from_utf8;",
  text! "",
  text! "use crate::ThriftError;",
  text! "use crate::uleb::*;",
  text! "",
  text! "pub const MAX_BINARY_LEN: usize = 16*1024*1024;",
  text! "pub const MAX_COLLECTION_LEN: usize = 10_000_000;",
  text! "",
  text! "#[inline(never)] // full field ids are uncommon and inlining this bloats the code",
  text! "fn read_full_field_id<'i, I: CompactThriftInput<'i> + ?Sized>(input: &mut I) -> Result<i16, ThriftError> {",
  text! "    let field_id = decode_uleb(input)? as u16;",
  text! "    Ok(zigzag_decode16(field_id))",
  text! "}",
  text! "",
  text! "#[inline(always)]",
  text! "fn zigzag_decode16(i: u16) -> i16 {",
  text! "    (i >> 1) as i16 ^ -((i & 1) as i16)",
  text! "}",
  text! "",
  text! "#[inline(always)]",
  text! "fn zigzag_decode32(i: u32) -> i32 {",
  text! "    (i >> 1) as i32 ^ -((i & 1) as i32)",
  text! "}",
  text! "",
  text! "#[inline(always)]",
  text! "fn zigzag_decode64(i: u64) -> i64 {",
  text! "    (i >> 1) as i64 ^ -((i & 1) as i64)",
  text! "}",
  text! "",
  text! "#[inline(always)]",
  text! "fn zigzag_encode16(i: i16) -> u16 {",
  text! "    ((i << 1) ^ (i >> 15)) as u16",
  text! "}",
  text! "",
  text! "#[inline(always)]",
  text! "fn zigzag_encode32(i: i32) -> u32 {",
  text! "    ((i << 1) ^ (i >> 31)) as u32",
  text! "}",
  text! "",
  text! "#[inline(always)]",
  text! "fn zigzag_encode64(i: i64) -> u64 {",
  text! "    ((i << 1) ^ (i >> 63)) as u64",
  text! "}",
  text! "",
  text! "pub trait CompactThriftInput<'i> {",
  text! "    fn read_byte(&mut self) -> Result<u8, ThriftError>;",
  text! "    fn read_len(&mut self) -> Result<usize, ThriftError> {",
  text! "        let len = decode_uleb(self)?;",
  text! "        Ok(len as _)",
  text! "    }",
  text! "    fn read_i16(&mut self) -> Result<i16, ThriftError> {",
  text! "        let i = decode_uleb(self)?;",
  text! "        Ok(zigzag_decode16(i as _))"]

/-- protocol.rs:61-120 -/
def protocolText1 : List (List Char) := [
  text! "    }",
  text! "    fn read_i32(&mut self) -> Result<i32, ThriftError> {",
  text! "        let i = decode_uleb(self)?;",
  text! "        Ok(zigzag_decode32(i as _))",
  text! "    }",
  text! "    fn read_i64(&mut self) -> Result<i64, ThriftError> {",
  text! "        let i = decode_uleb(self)?;",
  text! "        Ok(zigzag_decode64(i as _))",
  text! "    }",
  text! "    fn read_double(&mut self) -> Result<f64, ThriftError>;",
  text! "    fn read_binary(&mut self) -> Result<Cow<'i, [u8]>, ThriftError>;",
  text! "    fn read_string(&mut self) -> Result<Cow<'i, str>, ThriftError> {",
  text! "        let binary = self.read_binary()?;",
  text! "        let _ = from_utf8(binary.as_ref()).map_err(|_| ThriftError::InvalidString)?;",
  text! "        // Safety: just checked for valid utf8",
  text! "        unsafe {",
  text! "            match binary {",
  text! "                Cow::Owned(v) => Ok(Cow::Owned(String::from_utf8_unchecked(v))),",
  text! "                Cow::Borrowed(v) => Ok(Cow::Borrowed(from_utf8_unchecked(v))),",
  text! "            }",
  text! "        }",
  text! "    }",
  text! "    fn skip_integer(&mut self) -> Result<(), ThriftError> {",
  text! "        let _ = self.read_i64()?;",
  text! "        Ok(())",
  text! "    }",
  text! "    fn skip_binary(&mut self) -> Result<(), ThriftError> {",
  text! "        self.read_binary()?;",
  text! "        Ok(())",
  text! "    }",
  text! "    fn skip_field(&mut self, field_type: u8) -> Result<(), ThriftError> {",
  text! "        skip_field(self, field_type, false)",
  text! "    }",
  text! "    fn read_field_header(&mut self, last_field_id: &mut i16) -> Result<u8, ThriftError> {",
  text! "        let field_header = self.read_byte()?;",
  text! "",
  text! "        if field_header == 0 {",
  text! "            return Ok(0)",
  text! "        }",
  text! "",
  text! "        let field_type = field_header & 0x0F;",
  text! "        let field_delta = field_header >> 4;",
  text! "        if field_delta != 0 {",
  text! "            *last_field_id += field_delta as i16;",
  text! "        } else {",
  text! "            *last_field_id = read_full_field_id(self)?;",
  text! "        }",
  text! "",
  text! "        Ok(field_type)",
  text! "    }",
  text! "}",
  text! "",
  text! "pub fn read_collection_len_and_type<'i, T: CompactThriftInput<'i> + ?Sized>(input: &mut T) -> Result<(u32, u8), ThriftError> {",
  text! "    let header = input.read_byte()?;",
  text! "    let field_type = header & 0x0F;",
  text! "    let maybe_len = (header & 0xF0) >> 4;",
  text! "    let len = if maybe_len != 0x0F {",
  text! "        // high bits set high if count and type encoded separately",
  text! "        maybe_len as usize",
  text! "    } else {"]

/-- protocol.rs:121-180 -/
def protocolText2 : List (List Char) := [
  text! "        input.read_len()?",
  text! "    };",
  text! "",
  text! "    if len > MAX_COLLECTION_LEN {",
  text! "        return Err(ThriftError::InvalidCollectionLen)",
  text! "    }",
  text! "",
  text! "    Ok((len as u32, field_type))",
  text! "}",
  text! "",
  text! "pub fn read_map_len_and_types<'i, T: CompactThriftInput<'i> + ?Sized>(input: &mut T) -> Result<(u32, u8, u8), ThriftError> {",
  text! "    let len = input.read_len()?;",
  text! "    if len == 0 {",
  text! "        return Ok((0, 0, 0))",
  text! "    }",
  text! "    let entry_type = input.read_byte()?;",
  text! "    // TODO: check order of nibbles",
  text! "    let key_type = entry_type >> 4;",
  text! "    let val_type = entry_type & 0x0F;",
  text! "",
  text! "    if len > MAX_COLLECTION_LEN {",
  text! "        return Err(ThriftError::InvalidCollectionLen)",
  text! "    }",
  text! "",
  text! "    Ok((len as u32, key_type, val_type))",
  text! "}",
  text! "",
  text! "fn skip_collection<'i, T: CompactThriftInput<'i> + ?Sized>(input: &mut T) -> Result<(), ThriftError> {",
  text! "    let (len, element_type) = read_collection_len_and_type(input)?;",
  text! "    match element_type {",
  text! "        1..=3 => {",
  text! "            // TRUE, FALSE, i8 stored as single byte",
  text! "            for _ in 0..len {",
  text! "                let _ = input.read_byte()?;",
  text! "            }",
  text! "        }",
  text! "        4..=6 => {",
  text! "            // since we do not error on overlong sequences,",
  text! "            // skipping for all integer types works the same.",
  text! "            for _ in 0..len {",
  text! "                input.skip_integer()?;",
  text! "            }",
  text! "        }",
  text! "        7 => {",
  text! "            for _ in 0..len {",
  text! "                input.read_double()?;",
  text! "            }",
  text! "        }",
  text! "        8 => {",
  text! "            // thrift does not distinguish binary and string types in field_type,",
  text! "            // consequently there is no utf8 validation for skipped strings.",
  text! "            for _ in 0..len {",
  text! "                input.skip_binary()?;",
  text! "            }",
  text! "        }",
  text! "        9 | 10 => {",
  text! "            // list | set",
  text! "            for _ in 0..len {",
  text! "                skip_collection(input)?;",
  text! "            }"]

/-- protocol.rs:181-240 -/
def protocolText3 : List (List Char) := [
  text! "        }",
  text! "        11 => {",
  text! "            // map",
  text! "            for _ in 0..len {",
  text! "                skip_map(input)?;",
  text! "            }",
  text! "        }",
  text! "        12 => {",
  text! "            for _ in 0..len {",
  text! "                skip_field(input, 12, false)?;",
  text! "            }",
  text! "        }",
  text! "        _ => {",
  text! "            return Err(ThriftError::InvalidType)",
  text! "        }",
  text! "    }",
  text! "    Ok(())",
  text! "}",
  text! "",
  text! "fn skip_map<'i, T: CompactThriftInput<'i> + ?Sized>(input: &mut T) -> Result<(), ThriftError> {",
  text! "    let (len, key_type, val_type) = read_map_len_and_types(input)?;",
  text! "    for _ in 0..len {",
  text! "        skip_field(input, key_type, true)?;",
  text! "        skip_field(input, val_type, true)?;",
  text! "    }",
  text! "    Ok(())",
  text! "}",
  text! "",
  text! "pub(crate) fn skip_field<'i, T: CompactThriftInput<'i> + ?Sized>(input: &mut T, field_type: u8, inside_collection: bool) -> Result<(), ThriftError> {",
  text! "    match field_type {",
  text! "        1..=2 => {",
  text! "            // boolean stored inside the field header outside of collections",
  text! "            if inside_collection {",
  text! "                input.read_byte()?;",
  text! "            }",
  text! "        }",
  text! "        3 => {",
  text! "            input.read_byte()?;",
  text! "        }",
  text! "        4..=6 => {",
  text! "            // since we do not error on overlong sequences,",
  text! "            // skipping for all integer types works the same.",
  text! "            input.skip_integer()?;",
  text! "        }",
  text! "        7 => {",
  text! "            input.read_double()?;",
  text! "        }",
  text! "        8 => {",
  text! "            // thrift does not distinguish binary and string types in field_type,",
  text! "            // consequently there is no utf8 validation for skipped strings.",
  text! "            input.skip_binary()?;",
  text! "        }",
  text! "        9 | 10 => {",
  text! "            // list | set",
  text! "            skip_collection(input)?;",
  text! "        }",
  text! "        11 => {",
  text! "            // map",
  text! "            skip_map(input)?;",
  text! "        }"]

/-- protocol.rs:241-300 -/
def protocolText4 : List (List Char) := [
  text! "        12 => {",
  text! "            // struct | union",
  text! "            let mut last_field_id = 0_i16;",
  text! "            loop {",
  text! "                let field_type = input.read_field_header(&mut last_field_id)?;",
  text! "                if field_type == 0 {",
  text! "                    break;",
  text! "                }",
  text! "                skip_field(input, field_type, false)?;",
  text! "            }",
  text! "        }",
  text! "        _ => {",
  text! "            return Err(ThriftError::InvalidType)",
  text! "        }",
  text! "    }",
  text! "    Ok(())",
  text! "}",
  text! "",
  text! "#[inline]",
  text! "pub(crate) fn write_field_header<T: CompactThriftOutput>(output: &mut T, field_type: u8, field_id: i16, last_field_id: &mut i16) -> Result<(), ThriftError> {",
  text! "    let field_delta = field_id.wrapping_sub(*last_field_id);",
  text! "",
  text! "    if field_delta > 15 {",
  text! "        output.write_byte(field_type)?;",
  text! "        output.write_i16(field_delta)?",
  text! "    } else {",
  text! "        output.write_byte(field_type | ((field_delta as u8) << 4))?;",
  text! "    }",
  text! "    *last_field_id = field_id;",
  text! "    Ok(())",
  text! "}",
  text! "",
  text! "",
  text! "impl<R: Read + ?Sized> CompactThriftInput<'static> for R {",
  text! "    #[inline]",
  text! "    fn read_byte(&mut self) -> Result<u8, ThriftError> {",
  text! "        let mut buf = [0_u8; 1];",
  text! "        self.read_exact(&mut buf)?;",
  text! "        Ok(buf[0])",
  text! "    }",
  text! "",
  text! "    fn read_double(&mut self) -> Result<f64, ThriftError> {",
  text! "        let mut buf = [0_u8; 8];",
  text! "        self.read_exact(&mut buf)?;",
  text! "        Ok(f64::from_le_bytes(buf))",
  text! "    }",
  text! "",
  text! "    #[expect(clippy::uninit_vec)]",
  text! "    fn read_binary(&mut self) -> Result<Cow<'static, [u8]>, ThriftError> {",
  text! "        let len = self.read_len()?;",
  text! "        if len > MAX_BINARY_LEN {",
  text! "            return Err(ThriftError::InvalidBinaryLen(len));",
  text! "        }",
  text! "        let mut buf = Vec::with_capacity(len);",
  text! "        // Safety: we trust the Read implementation to only write into buf,",
  text! "        // and not to look at uninitialized bytes",
  text! "        unsafe {",
  text! "            buf.set_len(len);",
  text! "        }",
  text! "        self.read_exact(buf.as_mut_slice())?;"]

/-- protocol.rs:301-360 -/
def protocolText5 : List (List Char) := [
  text! "        Ok(buf.into())",
  text! "    }",
  text! "",
  text! "}",
  text! "",
  text! "#[derive(Clone)]",
  text! "pub struct CompactThriftInputSlice<'a>(&'a [u8]);",
  text! "",
  text! "impl <'a> CompactThriftInputSlice<'a> {",
  text! "    pub fn new(slice: &'a [u8]) -> Self {",
  text! "        Self(slice)",
  text! "    }",
  text! "",
  text! "    pub fn as_slice(&self) -> &'a [u8] {",
  text! "        self.0",
  text! "    }",
  text! "}",
  text! "",
  text! "impl <'a> From<&'a [u8]> for CompactThriftInputSlice<'a> {",
  text! "    fn from(slice: &'a [u8]) -> Self {",
  text! "        Self(slice)",
  text! "    }",
  text! "}",
  text! "",
  text! "impl <'i> CompactThriftInput<'i> for CompactThriftInputSlice<'i> {",
  text! "    #[inline]",
  text! "    fn read_byte(&mut self) -> Result<u8, ThriftError> {",
  text! "        if let [first, rest @ ..] = self.0 {",
  text! "            self.0 = rest;",
  text! "            Ok(*first)",
  text! "        } else {",
  text! "            Err(ThriftError::from(ErrorKind::UnexpectedEof))",
  text! "        }",
  text! "    }",
  text! "",
  text! "    #[inline]",
  text! "    fn read_double(&mut self) -> Result<f64, ThriftError> {",
  text! "        if self.0.len() < 8 {",
  text! "            return Err(ThriftError::from(ErrorKind::UnexpectedEof))",
  text! "        }",
  text! "        let value = f64::from_le_bytes(self.0[..8].try_into().unwrap());",
  text! "        self.0 = &self.0[8..];",
  text! "        Ok(value)",
  text! "    }",
  text! "",
  text! "    #[inline]",
  text! "    fn read_binary(&mut self) -> Result<Cow<'i, [u8]>, ThriftError> {",
  text! "        let len = self.read_len()?;",
  text! "        if len > MAX_BINARY_LEN {",
  text! "            return Err(ThriftError::InvalidBinaryLen(len));",
  text! "        }",
  text! "        if self.0.len() < len {",
  text! "            return Err(ThriftError::from(ErrorKind::UnexpectedEof))",
  text! "        }",
  text! "        let (first, rest) = std::mem::take(&mut self.0).split_at(len);",
  text! "        self.0 = rest;",
  text! "        Ok(Cow::Borrowed(first))",
  text! "    }",
  text! "",
  text! "    #[inline]"]

/-- protocol.rs:361-420 -/
def protocolText6 : List (List Char) := [
  text! "    #[cfg(target_feature = \"sse2\")]",
  text! "    fn skip_integer(&mut self) -> Result<(), ThriftError> {",
  text! "        if self.0.len() >= 16 {",
  text! "            self.0 = unsafe { skip_uleb_sse2(self.0) };",
  text! "            Ok(())",
  text! "        } else {",
  text! "            self.0 = skip_uleb_fallback(self.0);",
  text! "            Ok(())",
  text! "        }",
  text! "    }",
  text! "",
  text! "    fn skip_binary(&mut self) -> Result<(), ThriftError> {",
  text! "        let len = self.read_len()?;",
  text! "        if len > MAX_BINARY_LEN {",
  text! "            return Err(ThriftError::InvalidBinaryLen(len));",
  text! "        }",
  text! "        if self.0.len() < len {",
  text! "            return Err(ThriftError::from(ErrorKind::UnexpectedEof))",
  text! "        }",
  text! "        self.0 = &self.0[len..];",
  text! "        Ok(())",
  text! "    }",
  text! "}",
  text! "",
  text! "pub trait CompactThriftOutput {",
  text! "    fn write_byte(&mut self, value: u8) -> Result<(), ThriftError>;",
  text! "    fn write_len(&mut self, value: usize) -> Result<(), ThriftError>;",
  text! "    fn write_i16(&mut self, value: i16) -> Result<(), ThriftError>;",
  text! "    fn write_i32(&mut self, value: i32) -> Result<(), ThriftError>;",
  text! "    fn write_i64(&mut self, value: i64) -> Result<(), ThriftError>;",
  text! "    fn write_double(&mut self, value: f64) -> Result<(), ThriftError>;",
  text! "    fn write_binary(&mut self, value: &[u8]) -> Result<(), ThriftError>;",
  text! "    fn write_string(&mut self, value: &str) -> Result<(), ThriftError> {",
  text! "        self.write_binary(value.as_bytes())",
  text! "    }",
  text! "}",
  text! "",
  text! "impl <W: Write> CompactThriftOutput for W {",
  text! "    fn write_byte(&mut self, value: u8) -> Result<(), ThriftError> {",
  text! "        self.write_all(&[value])?;",
  text! "        Ok(())",
  text! "    }",
  text! "",
  text! "    fn write_len(&mut self, value: usize) -> Result<(), ThriftError> {",
  text! "        encode_uleb(self, value as _)",
  text! "    }",
  text! "",
  text! "    fn write_i16(&mut self, value: i16) -> Result<(), ThriftError> {",
  text! "        encode_uleb(self, zigzag_encode16(value) as _)",
  text! "    }",
  text! "",
  text! "    fn write_i32(&mut self, value: i32) -> Result<(), ThriftError> {",
  text! "        encode_uleb(self, zigzag_encode32(value) as _)",
  text! "    }",
  text! "",
  text! "    fn write_i64(&mut self, value: i64) -> Result<(), ThriftError> {",
  text! "        encode_uleb(self, zigzag_encode64(value) as _)",
  text! "    }",
  text! "",
  text! "    fn write_double(&mut self, value: f64) -> Result<(), ThriftError> {"]

/-- protocol.rs:421-461 -/
def protocolText7 : List (List Char) := [
  text! "        self.write_all(&value.to_le_bytes())?;",
  text! "        Ok(())",
  text! "    }",
  text! "",
  text! "    fn write_binary(&mut self, value: &[u8]) -> Result<(), ThriftError> {",
  text! "        if value.len() > MAX_BINARY_LEN {",
  text! "            return Err(ThriftError::InvalidBinaryLen(value.len()));",
  text! "        }",
  text! "        self.write_len(value.len())?;",
  text! "        self.write_all(value)?;",
  text! "        Ok(())",
  text! "    }",
  text! "}",
  text! "",
  text! "pub trait CompactThriftProtocol<'i> {",
  text! "    // In the compact protocol the tags for field and element types are currently the same.",
  text! "    // The documentation states \"there is _no guarantee_ that this will",
  text! "    // remain true after new types are added\".",
  text! "    const FIELD_TYPE: u8;",
  text! "",
  text! "    fn read_thrift<T: CompactThriftInput<'i>>(input: &mut T) -> Result<Self, ThriftError> where Self: Default{",
  text! "        let mut result = Self::default();",
  text! "        Self::fill_thrift(&mut result, input)?;",
  text! "        Ok(result)",
  text! "    }",
  text! "    fn fill_thrift<T: CompactThriftInput<'i>>(&mut self, input: &mut T) -> Result<(), ThriftError>;",
  text! "    #[inline]",
  text! "    fn fill_thrift_field<T: CompactThriftInput<'i>>(&mut self, input: &mut T, field_type: u8) -> Result<(), ThriftError> {",
  text! "        if field_type != Self::FIELD_TYPE {",
  text! "            return Err(ThriftError::InvalidType)",
  text! "        }",
  text! "        self.fill_thrift(input)",
  text! "    }",
  text! "    fn write_thrift<T: CompactThriftOutput>(&self, output: &mut T) -> Result<(), ThriftError>;",
  text! "    #[inline]",
  text! "    fn write_thrift_field<T: CompactThriftOutput>(&self, output: &mut T, field_id: i16, last_field_id: &mut i16) -> Result<(), ThriftError> {",
  text! "        write_field_header(output, Self::FIELD_TYPE, field_id, last_field_id)?;",
  text! "        self.write_thrift(output)?;",
  text! "        Ok(())",
  text! "    }",
  text! "}"]

/-- runtime/src/protocol.rs -/
def protocolText : List Char := joinLines (protocolText0 ++ protocolText1 ++ protocolText2 ++ protocolText3 ++ protocolText4 ++ protocolText5 ++ protocolText6 ++ protocolText7)

end CT.Rs
