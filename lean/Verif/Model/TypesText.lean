import Verif.Model.RustSyntax
import Verif.Model.MacroText
/-!
# The text of runtime/src/types.rs and parquet/src/encodings.rs

Line by line, produced by a script.
-/
namespace CT.Rs
open CT.Rust (joinLines)

/-- types.rs:1-100 -/
def typesText0 : List (List Char) := [
  text! "use std::borrow::Cow;",
  text! "use std::rc::Rc;",
  text! "use std::sync::Arc;",
  text! "use crate::protocol::*;",
  text! "use crate::ThriftError;",
  text! "",
  text! "/// For structs, the following field-types can be encoded:",
  text! "///",
  text! "///  - BOOLEAN_TRUE, encoded as 1",
  text! "///  - BOOLEAN_FALSE, encoded as 2",
  text! "///",
  text! "/// For lists and sets the following element-types are used (see note 1 below):",
  text! "///",
  text! "///  - BOOL, encoded as 1 or 2 (see note below)",
  text! "///",
  text! "/// The only valid value in the original spec was 2, but due to an widespread implementation",
  text! "/// bug the defacto standard across large parts of the library became 1 instead.",
  text! "/// As a result, both values are now allowed.",
  text! "///",
  text! "/// Element values of type bool are sent as an int8; true as 1 and false as 2.",
  text! "///",
  text! "/// Previous versions of the spec said true is 1 and false is 0,",
  text! "/// so we are a bit more lenient and support both when reading.",
  text! "impl <'i> CompactThriftProtocol<'i> for bool {",
  text! "    const FIELD_TYPE: u8 = 2; // TRUE = 1, FALSE = 2",
  text! "",
  text! "    #[inline]",
  text! "    fn fill_thrift<T: CompactThriftInput<'i>>(&mut self, input: &mut T) -> Result<(), ThriftError> {",
  text! "        let byte = input.read_byte()?;",
  text! "        *self = byte == 1;",
  text! "        Ok(())",
  text! "    }",
  text! "",
  text! "    #[inline]",
  text! "    fn fill_thrift_field<T: CompactThriftInput<'i>>(&mut self, _input: &mut T, field_type: u8) -> Result<(), ThriftError> {",
  text! "        *self = field_type == 1;",
  text! "        Ok(())",
  text! "    }",
  text! "",
  text! "    #[inline]",
  text! "    fn write_thrift<T: CompactThriftOutput>(&self, output: &mut T) -> Result<(), ThriftError> {",
  text! "        let value = 1 + (!*self) as u8;",
  text! "        output.write_byte(value)",
  text! "    }",
  text! "",
  text! "    fn write_thrift_field<T: CompactThriftOutput>(&self, output: &mut T, field_id: i16, last_field_id: &mut i16) -> Result<(), ThriftError> {",
  text! "        let field_type = 1 + (!*self) as u8;",
  text! "        write_field_header(output, field_type, field_id, last_field_id)",
  text! "    }",
  text! "}",
  text! "",
  text! "impl <'i> CompactThriftProtocol<'i> for i8 {",
  text! "    const FIELD_TYPE: u8 = 3;",
  text! "",
  text! "    #[inline]",
  text! "    fn fill_thrift<T: CompactThriftInput<'i>>(&mut self, input: &mut T) -> Result<(), ThriftError> {",
  text! "        *self = input.read_byte()? as i8;",
  text! "        Ok(())",
  text! "    }",
  text! "",
  text! "    #[inline]",
  text! "    fn write_thrift<T: CompactThriftOutput>(&self, output: &mut T) -> Result<(), ThriftError> {",
  text! "        output.write_byte(*self as u8)",
  text! "    }",
  text! "}",
  text! "",
  text! "impl <'i> CompactThriftProtocol<'i> for i16 {",
  text! "    const FIELD_TYPE: u8 = 4;",
  text! "",
  text! "    #[inline]",
  text! "    fn fill_thrift<T: CompactThriftInput<'i>>(&mut self, input: &mut T) -> Result<(), ThriftError> {",
  text! "        *self = input.read_i16()?;",
  text! "        Ok(())",
  text! "    }",
  text! "",
  text! "    #[inline]",
  text! "    fn write_thrift<T: CompactThriftOutput>(&self, output: &mut T) -> Result<(), ThriftError> {",
  text! "        output.write_i16(*self)",
  text! "    }",
  text! "}",
  text! "",
  text! "impl <'i> CompactThriftProtocol<'i> for i32 {",
  text! "    const FIELD_TYPE: u8 = 5;",
  text! "",
  text! "    #[inline]",
  text! "    fn fill_thrift<T: CompactThriftInput<'i>>(&mut self, input: &mut T) -> Result<(), ThriftError> {",
  text! "        *self = input.read_i32()?;",
  text! "        Ok(())",
  text! "    }",
  text! "",
  text! "    #[inline]",
  text! "    fn write_thrift<T: CompactThriftOutput>(&self, output: &mut T) -> Result<(), ThriftError> {",
  text! "        output.write_i32(*self)",
  text! "    }",
  text! "}",
  text! "",
  text! "impl <'i> CompactThriftProtocol<'i> for i64 {",
  text! "    const FIELD_TYPE: u8 = 6;",
  text! "",
  text! "    #[inline]"]

/-- types.rs:101-200 -/
def typesText1 : List (List Char) := [
  text! "    fn fill_thrift<T: CompactThriftInput<'i>>(&mut self, input: &mut T) -> Result<(), ThriftError> {",
  text! "        *self = input.read_i64()?;",
  text! "        Ok(())",
  text! "    }",
  text! "",
  text! "    #[inline]",
  text! "    fn write_thrift<T: CompactThriftOutput>(&self, output: &mut T) -> Result<(), ThriftError> {",
  text! "        output.write_i64(*self)",
  text! "    }",
  text! "}",
  text! "",
  text! "impl <'i> CompactThriftProtocol<'i> for f64 {",
  text! "    const FIELD_TYPE: u8 = 7;",
  text! "",
  text! "    #[inline]",
  text! "    fn fill_thrift<T: CompactThriftInput<'i>>(&mut self, input: &mut T) -> Result<(), ThriftError> {",
  text! "        *self = input.read_double()?;",
  text! "        Ok(())",
  text! "    }",
  text! "",
  text! "    #[inline]",
  text! "    fn write_thrift<T: CompactThriftOutput>(&self, output: &mut T) -> Result<(), ThriftError> {",
  text! "        output.write_double(*self)",
  text! "    }",
  text! "}",
  text! "",
  text! "impl <'i> CompactThriftProtocol<'i> for Vec<u8> {",
  text! "    const FIELD_TYPE: u8 = 8;",
  text! "",
  text! "    #[inline]",
  text! "    fn fill_thrift<T: CompactThriftInput<'i>>(&mut self, input: &mut T) -> Result<(), ThriftError> {",
  text! "        *self = input.read_binary()?.into_owned();",
  text! "        Ok(())",
  text! "    }",
  text! "",
  text! "    #[inline]",
  text! "    fn write_thrift<T: CompactThriftOutput>(&self, output: &mut T) -> Result<(), ThriftError> {",
  text! "        output.write_binary(self.as_slice())",
  text! "    }",
  text! "}",
  text! "",
  text! "impl <'i> CompactThriftProtocol<'i> for String {",
  text! "    // Same type as for Binary.",
  text! "    const FIELD_TYPE: u8 = 8;",
  text! "",
  text! "    #[inline]",
  text! "    fn fill_thrift<T: CompactThriftInput<'i>>(&mut self, input: &mut T) -> Result<(), ThriftError> {",
  text! "        *self = input.read_string()?.into_owned();",
  text! "        Ok(())",
  text! "    }",
  text! "",
  text! "    #[inline]",
  text! "    fn write_thrift<T: CompactThriftOutput>(&self, output: &mut T) -> Result<(), ThriftError> {",
  text! "        output.write_string(self.as_str())",
  text! "    }",
  text! "}",
  text! "",
  text! "impl <'i> CompactThriftProtocol<'i> for Cow<'i, [u8]> {",
  text! "    const FIELD_TYPE: u8 = 8;",
  text! "",
  text! "    #[inline]",
  text! "    fn fill_thrift<T: CompactThriftInput<'i>>(&mut self, input: &mut T) -> Result<(), ThriftError> {",
  text! "        *self = input.read_binary()?;",
  text! "        Ok(())",
  text! "    }",
  text! "",
  text! "    #[inline]",
  text! "    fn write_thrift<T: CompactThriftOutput>(&self, output: &mut T) -> Result<(), ThriftError> {",
  text! "        output.write_binary(self.as_ref())",
  text! "    }",
  text! "}",
  text! "",
  text! "impl <'i> CompactThriftProtocol<'i> for Cow<'i, str> {",
  text! "    const FIELD_TYPE: u8 = 8;",
  text! "",
  text! "    #[inline]",
  text! "    fn fill_thrift<T: CompactThriftInput<'i>>(&mut self, input: &mut T) -> Result<(), ThriftError> {",
  text! "        *self = input.read_string()?;",
  text! "        Ok(())",
  text! "    }",
  text! "",
  text! "    #[inline]",
  text! "    fn write_thrift<T: CompactThriftOutput>(&self, output: &mut T) -> Result<(), ThriftError> {",
  text! "        output.write_string(self.as_ref())",
  text! "    }",
  text! "}",
  text! "",
  text! "impl <'i, P: CompactThriftProtocol<'i> + Default> CompactThriftProtocol<'i> for Vec<P> {",
  text! "    const FIELD_TYPE: u8 = 9;",
  text! "",
  text! "    fn fill_thrift<T: CompactThriftInput<'i>>(&mut self, input: &mut T) -> Result<(), ThriftError> {",
  text! "        let (len, element_type) = read_collection_len_and_type(input)?;",
  text! "        // Special case for boolean elements:",
  text! "        // The only valid value in the original spec was 2, but due to a widespread implementation",
  text! "        // bug the defacto standard across large parts of the library became 1 instead.",
  text! "        if element_type != P::FIELD_TYPE && !(P::FIELD_TYPE == bool::FIELD_TYPE && element_type == 1) {",
  text! "            return Err(ThriftError::InvalidType);",
  text! "        }",
  text! "        self.clear();",
  text! "        self.try_reserve(len as usize).map_err(|_| ThriftError::ReserveError)?;"]

/-- types.rs:201-300 -/
def typesText2 : List (List Char) := [
  text! "",
  text! "        for _ in 0..len as usize {",
  text! "            // workaround for unnecessary memcpy calls when using Vec::push(P::default()) with larger structs",
  text! "            // https://github.com/rust-lang/rust/issues/125632",
  text! "            self.extend((0..1).map(|_| P::default()));",
  text! "            // Safety: we just pushed an element",
  text! "            unsafe {",
  text! "                self.last_mut().unwrap_unchecked().fill_thrift(input)?;",
  text! "            }",
  text! "        }",
  text! "",
  text! "        Ok(())",
  text! "    }",
  text! "",
  text! "    fn write_thrift<T: CompactThriftOutput>(&self, output: &mut T) -> Result<(), ThriftError> {",
  text! "        let len = self.len();",
  text! "        if len > MAX_COLLECTION_LEN {",
  text! "            return Err(ThriftError::InvalidCollectionLen);",
  text! "        }",
  text! "",
  text! "        if len < 15 {",
  text! "            let header = P::FIELD_TYPE | ((len as u8) << 4);",
  text! "            output.write_byte(header)?;",
  text! "        } else {",
  text! "            output.write_byte(P::FIELD_TYPE | 0xF0)?;",
  text! "            output.write_len(len)?;",
  text! "        }",
  text! "        self.iter().try_for_each(|value| {",
  text! "            value.write_thrift(output)",
  text! "        })",
  text! "    }",
  text! "}",
  text! "",
  text! "impl <'i, P: CompactThriftProtocol<'i> + Default> CompactThriftProtocol<'i> for Option<P> {",
  text! "    const FIELD_TYPE: u8 = P::FIELD_TYPE;",
  text! "",
  text! "    #[inline]",
  text! "    fn fill_thrift<T: CompactThriftInput<'i>>(&mut self, input: &mut T) -> Result<(), ThriftError> {",
  text! "        if self.is_some() {",
  text! "            return Err(ThriftError::DuplicateField);",
  text! "        }",
  text! "        // Safety: avoid generating drop calls, content is always None because of check above",
  text! "        unsafe {",
  text! "            std::ptr::write(self as *mut _, Some(P::default()));",
  text! "            self.as_mut().unwrap_unchecked().fill_thrift(input)?;",
  text! "        }",
  text! "        Ok(())",
  text! "    }",
  text! "",
  text! "    #[inline]",
  text! "    fn fill_thrift_field<T: CompactThriftInput<'i>>(&mut self, input: &mut T, field_type: u8) -> Result<(), ThriftError> {",
  text! "        if self.is_some() {",
  text! "            return Err(ThriftError::DuplicateField);",
  text! "        }",
  text! "        // Safety: avoid generating drop calls, content is always None because of check above",
  text! "        unsafe {",
  text! "            std::ptr::write(self as *mut _, Some(P::default()));",
  text! "            self.as_mut().unwrap_unchecked().fill_thrift_field(input, field_type)?;",
  text! "        }",
  text! "        Ok(())",
  text! "    }",
  text! "",
  text! "",
  text! "    #[inline]",
  text! "    fn write_thrift<T: CompactThriftOutput>(&self, output: &mut T) -> Result<(), ThriftError> {",
  text! "        if let Some(value) = self.as_ref() {",
  text! "            value.write_thrift(output)",
  text! "        } else {",
  text! "            Err(ThriftError::MissingValue)",
  text! "        }",
  text! "    }",
  text! "",
  text! "    #[inline]",
  text! "    fn write_thrift_field<T: CompactThriftOutput>(&self, output: &mut T, field_id: i16, last_field_id: &mut i16) -> Result<(), ThriftError> {",
  text! "        // only write if present",
  text! "        if let Some(value) = self.as_ref() {",
  text! "            value.write_thrift_field(output, field_id, last_field_id)?;",
  text! "        }",
  text! "        Ok(())",
  text! "    }",
  text! "}",
  text! "",
  text! "impl <'i, P: CompactThriftProtocol<'i> + Default> CompactThriftProtocol<'i> for Box<P> {",
  text! "    const FIELD_TYPE: u8 = P::FIELD_TYPE;",
  text! "",
  text! "    #[inline]",
  text! "    fn fill_thrift<T: CompactThriftInput<'i>>(&mut self, input: &mut T) -> Result<(), ThriftError> {",
  text! "        Box::as_mut(self).fill_thrift(input)",
  text! "    }",
  text! "",
  text! "    #[inline]",
  text! "    fn write_thrift<T: CompactThriftOutput>(&self, output: &mut T) -> Result<(), ThriftError> {",
  text! "        Box::as_ref(self).write_thrift(output)",
  text! "    }",
  text! "}",
  text! "",
  text! "impl <'i, P: CompactThriftProtocol<'i> + Default> CompactThriftProtocol<'i> for Rc<P> {",
  text! "    const FIELD_TYPE: u8 = P::FIELD_TYPE;",
  text! "",
  text! "    #[inline]"]

/-- types.rs:301-399 -/
def typesText3 : List (List Char) := [
  text! "    fn fill_thrift<T: CompactThriftInput<'i>>(&mut self, input: &mut T) -> Result<(), ThriftError> {",
  text! "        Rc::get_mut(self).ok_or(ThriftError::DuplicateField)?.fill_thrift(input)",
  text! "    }",
  text! "",
  text! "    #[inline]",
  text! "    fn write_thrift<T: CompactThriftOutput>(&self, output: &mut T) -> Result<(), ThriftError> {",
  text! "        Rc::as_ref(self).write_thrift(output)",
  text! "    }",
  text! "}",
  text! "",
  text! "impl <'i, P: CompactThriftProtocol<'i> + Default> CompactThriftProtocol<'i> for Arc<P> {",
  text! "    const FIELD_TYPE: u8 = P::FIELD_TYPE;",
  text! "",
  text! "    #[inline]",
  text! "    fn fill_thrift<T: CompactThriftInput<'i>>(&mut self, input: &mut T) -> Result<(), ThriftError> {",
  text! "        Arc::get_mut(self).ok_or(ThriftError::DuplicateField)?.fill_thrift(input)",
  text! "    }",
  text! "",
  text! "    #[inline]",
  text! "    fn write_thrift<T: CompactThriftOutput>(&self, output: &mut T) -> Result<(), ThriftError> {",
  text! "        Arc::as_ref(self).write_thrift(output)",
  text! "    }",
  text! "}",
  text! "",
  text! "impl <'i> CompactThriftProtocol<'i> for Box<str> {",
  text! "    const FIELD_TYPE: u8 = String::FIELD_TYPE;",
  text! "",
  text! "    #[inline]",
  text! "    fn fill_thrift<T: CompactThriftInput<'i>>(&mut self, input: &mut T) -> Result<(), ThriftError> {",
  text! "        *self = input.read_string()?.into_owned().into_boxed_str();",
  text! "        Ok(())",
  text! "    }",
  text! "",
  text! "    #[inline]",
  text! "    fn write_thrift<T: CompactThriftOutput>(&self, output: &mut T) -> Result<(), ThriftError> {",
  text! "        output.write_string(self.as_ref())",
  text! "    }",
  text! "}",
  text! "",
  text! "impl <'i> CompactThriftProtocol<'i> for Rc<str> {",
  text! "    const FIELD_TYPE: u8 = String::FIELD_TYPE;",
  text! "",
  text! "    #[inline]",
  text! "    fn fill_thrift<T: CompactThriftInput<'i>>(&mut self, input: &mut T) -> Result<(), ThriftError> {",
  text! "        *self = match input.read_string()? {",
  text! "            Cow::Borrowed(s) => Rc::from(s),",
  text! "            Cow::Owned(s) => Rc::from(s),",
  text! "        };",
  text! "        Ok(())",
  text! "    }",
  text! "",
  text! "    #[inline]",
  text! "    fn write_thrift<T: CompactThriftOutput>(&self, output: &mut T) -> Result<(), ThriftError> {",
  text! "        output.write_string(self.as_ref())",
  text! "    }",
  text! "}",
  text! "",
  text! "impl <'i> CompactThriftProtocol<'i> for Arc<str> {",
  text! "    const FIELD_TYPE: u8 = String::FIELD_TYPE;",
  text! "",
  text! "    #[inline]",
  text! "    fn fill_thrift<T: CompactThriftInput<'i>>(&mut self, input: &mut T) -> Result<(), ThriftError> {",
  text! "        *self = match input.read_string()? {",
  text! "            Cow::Borrowed(s) => Arc::from(s),",
  text! "            Cow::Owned(s) => Arc::from(s),",
  text! "        };",
  text! "        Ok(())",
  text! "    }",
  text! "",
  text! "    #[inline]",
  text! "    fn write_thrift<T: CompactThriftOutput>(&self, output: &mut T) -> Result<(), ThriftError> {",
  text! "        output.write_string(self.as_ref())",
  text! "    }",
  text! "}",
  text! "",
  text! "",
  text! "#[cfg(test)]",
  text! "mod tests {",
  text! "    use crate::{CompactThriftInputSlice, CompactThriftProtocol};",
  text! "",
  text! "    #[test]",
  text! "    fn test_encode_boolean_list() {",
  text! "        let mut output = vec![];",
  text! "        vec![false, true, true].write_thrift(&mut output).unwrap();",
  text! "        assert_eq!(&output, &[0b0011_0010, 2, 1, 1]);",
  text! "    }",
  text! "    #[test]",
  text! "    fn test_decode_boolean_list_tag1() {",
  text! "        let input = vec![0b0011_0001_u8, 2, 1, 0];",
  text! "        let values = Vec::<bool>::read_thrift(&mut CompactThriftInputSlice::new(&input)).unwrap();",
  text! "        assert_eq!(&values, &[false, true, false]);",
  text! "    }",
  text! "    #[test]",
  text! "    fn test_decode_boolean_list_tag2() {",
  text! "        let input = vec![0b0011_0010_u8, 2, 1, 0];",
  text! "        let values = Vec::<bool>::read_thrift(&mut CompactThriftInputSlice::new(&input)).unwrap();",
  text! "        assert_eq!(&values, &[false, true, false]);",
  text! "    }",
  text! "}"]

/-- types.rs -/
def typesText : List Char := joinLines (typesText0 ++ typesText1 ++ typesText2 ++ typesText3)

/-- encodings.rs:1-100 -/
def encodingsText0 : List (List Char) := [
  text! "use crate::format::Encoding;",
  text! "use compact_thrift_runtime::{",
  text! "    read_collection_len_and_type, CompactThriftInput, CompactThriftOutput, CompactThriftProtocol,",
  text! "    ThriftError,",
  text! "};",
  text! "use std::fmt::{Debug, Formatter};",
  text! "",
  text! "#[derive(Default, Clone, Copy, PartialEq)]",
  text! "pub struct EncodingSet(u32);",
  text! "",
  text! "impl EncodingSet {",
  text! "    pub fn len(&self) -> usize {",
  text! "        self.0.count_ones() as usize",
  text! "    }",
  text! "",
  text! "    pub fn is_empty(&self) -> bool {",
  text! "        self.0 == 0",
  text! "    }",
  text! "",
  text! "    pub fn iter(&self) -> impl Iterator<Item = Encoding> {",
  text! "        let mut mask = self.0;",
  text! "        std::iter::from_fn(move || {",
  text! "            if mask == 0 {",
  text! "                None",
  text! "            } else {",
  text! "                let encoding = Encoding(mask.trailing_zeros() as i32);",
  text! "                mask &= mask - 1;",
  text! "                Some(encoding)",
  text! "            }",
  text! "        })",
  text! "    }",
  text! "}",
  text! "",
  text! "impl Debug for EncodingSet {",
  text! "    fn fmt(&self, f: &mut Formatter<'_>) -> std::fmt::Result {",
  text! "        f.debug_list().entries(self.iter()).finish()",
  text! "    }",
  text! "}",
  text! "",
  text! "impl<'i> CompactThriftProtocol<'i> for EncodingSet {",
  text! "    const FIELD_TYPE: u8 = 9;",
  text! "",
  text! "    #[inline]",
  text! "    fn fill_thrift<T: CompactThriftInput<'i>>(&mut self, input: &mut T) -> Result<(), ThriftError> {",
  text! "        let (len, element_type) = read_collection_len_and_type(input)?;",
  text! "        if element_type != i32::FIELD_TYPE {",
  text! "            return Err(ThriftError::InvalidType);",
  text! "        }",
  text! "",
  text! "        let mut mask = 0_u32;",
  text! "        for _ in 0..len as usize {",
  text! "            let value = input.read_i32()?;",
  text! "            if value < 0 || value >= 31 {",
  text! "                return Err(ThriftError::InvalidNumber);",
  text! "            }",
  text! "            mask |= 1 << value;",
  text! "        }",
  text! "        self.0 = mask;",
  text! "",
  text! "        Ok(())",
  text! "    }",
  text! "",
  text! "    #[inline]",
  text! "    fn write_thrift<T: CompactThriftOutput>(&self, output: &mut T) -> Result<(), ThriftError> {",
  text! "        let len = self.len();",
  text! "        if len < 15 {",
  text! "            let header = i32::FIELD_TYPE | ((len as u8) << 4);",
  text! "            output.write_byte(header)?;",
  text! "        } else {",
  text! "            output.write_byte(i32::FIELD_TYPE | 0xF0)?;",
  text! "            output.write_len(len)?;",
  text! "        }",
  text! "        for item in self.iter() {",
  text! "            output.write_i32(item.0)?;",
  text! "        }",
  text! "        Ok(())",
  text! "    }",
  text! "}",
  text! "",
  text! "#[cfg(test)]",
  text! "mod tests {",
  text! "    use crate::encodings::EncodingSet;",
  text! "    use crate::format::Encoding;",
  text! "    use compact_thrift_runtime::{CompactThriftInputSlice, CompactThriftProtocol};",
  text! "",
  text! "    fn test_roundtrip(encodings: Vec<Encoding>) {",
  text! "        let mut buf = vec![];",
  text! "        encodings.write_thrift(&mut buf).unwrap();",
  text! "        let set = EncodingSet::read_thrift(&mut CompactThriftInputSlice::new(&buf)).unwrap();",
  text! "        let vec = set.iter().collect::<Vec<_>>();",
  text! "        assert_eq!(vec, encodings);",
  text! "",
  text! "        let mut buf = vec![];",
  text! "        set.write_thrift(&mut buf).unwrap();",
  text! "        let vec = Vec::<Encoding>::read_thrift(&mut CompactThriftInputSlice::new(&buf)).unwrap();",
  text! "        assert_eq!(vec, encodings);",
  text! "    }",
  text! "",
  text! "    #[test]",
  text! "    fn test_empty_encodings() {"]

/-- encodings.rs:101-128 -/
def encodingsText1 : List (List Char) := [
  text! "        test_roundtrip(vec![])",
  text! "    }",
  text! "",
  text! "    #[test]",
  text! "    fn test_plain() {",
  text! "        test_roundtrip(vec![Encoding::PLAIN])",
  text! "    }",
  text! "",
  text! "    #[test]",
  text! "    fn test_rle() {",
  text! "        test_roundtrip(vec![Encoding::RLE])",
  text! "    }",
  text! "",
  text! "    #[test]",
  text! "    fn test_multi() {",
  text! "        test_roundtrip(vec![",
  text! "            Encoding::PLAIN,",
  text! "            Encoding::RLE_DICTIONARY,",
  text! "            Encoding::BYTE_STREAM_SPLIT,",
  text! "        ])",
  text! "    }",
  text! "",
  text! "    #[test]",
  text! "    #[should_panic(expected = \"InvalidNumber\")]",
  text! "    fn test_invalid() {",
  text! "        test_roundtrip(vec![Encoding(32)])",
  text! "    }",
  text! "}"]

/-- encodings.rs -/
def encodingsText : List Char := joinLines (encodingsText0 ++ encodingsText1)

end CT.Rs
