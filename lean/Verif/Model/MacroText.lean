import Lean.Elab.Term
/-!
# The text of the macros: runtime/src/macros.rs

Line by line, produced by a script. Left out: the attributes and comments before the macros, and the tests (300-368).
-/
namespace CT.Rust

open Lean in
/-- The characters of a string literal -/
elab "text! " s:str : term => return toExpr s.getString.toList

/-- Every line ends with a line feed. -/
def joinLines (ls : List (List Char)) : List Char := (ls.map fun l => l ++ ['\n']).flatten

/-- macros.rs:20-38 `thrift!` -/
def textThrift : List (List Char) := [
  text! "macro_rules! thrift {",
  text! "    ($(#[$($def_attrs:meta)*])* struct $identifier:ident { $($definitions:tt)* } $($remainder:tt)*) => {",
  text! "        $crate::thrift_struct!($(#[$($def_attrs)*])* struct $identifier { $($definitions)* });",
  text! "        $crate::thrift!($($remainder)*);",
  text! "    };",
  text! "    ($(#[$($def_attrs:meta)*])* union $identifier:ident { $($definitions:tt)* } $($remainder:tt)*) => {",
  text! "        $crate::thrift_union!($(#[$($def_attrs)*])* union $identifier { $($definitions)* });",
  text! "        $crate::thrift!($($remainder)*);",
  text! "    };",
  text! "    ($(#[$($def_attrs:meta)*])* enum $identifier:ident { $($definitions:tt)* } $($remainder:tt)*) => {",
  text! "        $crate::thrift_enum!($(#[$($def_attrs)*])* enum $identifier { $($definitions)* });",
  text! "        $crate::thrift!($($remainder)*);",
  text! "    };",
  text! "    ($(#[$($def_attrs:meta)*])* namespace $identifier:ident $namespace:ident $($remainder:tt)*) => {",
  text! "        $crate::thrift!($($remainder)*);",
  text! "    };",
  text! "",
  text! "    () => {};",
  text! "}"]

/-- macros.rs:53-112 `thrift_struct!` -/
def textThriftStruct : List (List Char) := [
  text! "macro_rules! thrift_struct {",
  text! "    ($(#[$($def_attrs:meta)*])* struct $identifier:ident { $($(#[$($field_attrs:meta)*])* $field_id:literal : $required_or_optional:ident $field_type:ident $(< $element_type:ident >)? $field_name:ident $(= $default_value:literal)? $(;)?)* }) => {",
  text! "        $(#[cfg_attr(not(doctest), $($def_attrs)*)])*",
  text! "        #[derive(Default, Clone, Debug, PartialEq)]",
  text! "        #[allow(non_camel_case_types)]",
  text! "        #[allow(non_snake_case)]",
  text! "        pub struct $identifier {",
  text! "            $($(#[cfg_attr(not(doctest), $($field_attrs)*)])* pub $field_name: $crate::__thrift_required_or_optional!($required_or_optional $crate::__thrift_field_type!($field_type $($element_type)?))),*",
  text! "        }",
  text! "",
  text! "        impl $identifier {",
  text! "            #[allow(clippy::too_many_arguments)]",
  text! "            pub fn new($($field_name: impl Into<$crate::__thrift_required_or_optional!($required_or_optional $crate::__thrift_field_type!($field_type $($element_type)?))>),*) -> Self {",
  text! "                Self {",
  text! "                    $($field_name: $field_name.into(),)*",
  text! "                }",
  text! "            }",
  text! "        }",
  text! "",
  text! "        #[allow(non_snake_case)]",
  text! "        impl <'i> $crate::CompactThriftProtocol<'i> for $identifier {",
  text! "            const FIELD_TYPE: u8 = 12;",
  text! "",
  text! "            #[inline(never)]",
  text! "            fn fill_thrift<T: $crate::CompactThriftInput<'i>>(&mut self, input: &mut T) -> std::result::Result<(), $crate::ThriftError> {",
  text! "                let mut last_field_id = 0_i16;",
  text! "                $($crate::__thrift_required_flag!($required_or_optional $field_name);)*",
  text! "                loop {",
  text! "                    let field_type = input.read_field_header(&mut last_field_id)?;",
  text! "                    if field_type == 0 {",
  text! "                        break;",
  text! "                    }",
  text! "",
  text! "                    match last_field_id {",
  text! "                        $($field_id => {",
  text! "                            $crate::__thrift_required_set!($required_or_optional $field_name);",
  text! "                            self.$field_name.fill_thrift_field(input, field_type)?;",
  text! "                        }),*",
  text! "                        _ => {",
  text! "                            input.skip_field(field_type)?;",
  text! "                        }",
  text! "                    }",
  text! "                }",
  text! "",
  text! "                $($crate::__thrift_required_check!($required_or_optional $identifier $field_name);)*",
  text! "",
  text! "                Ok(())",
  text! "            }",
  text! "",
  text! "            fn write_thrift<T: $crate::CompactThriftOutput>(&self, output: &mut T) -> std::result::Result<(), $crate::ThriftError> {",
  text! "                #[allow(unused_variables)]",
  text! "                #[allow(unused_mut)]",
  text! "                let mut last_field_id = 0_i16;",
  text! "                $(self.$field_name.write_thrift_field(output, $field_id, &mut last_field_id)?;)*",
  text! "                output.write_byte(0)?;",
  text! "                Ok(())",
  text! "            }",
  text! "        }",
  text! "    }",
  text! "}"]

/-- macros.rs:127-187 `thrift_union!` -/
def textThriftUnion : List (List Char) := [
  text! "macro_rules! thrift_union {",
  text! "    ($(#[$($def_attrs:meta)*])* union $identifier:ident { $($(#[$($field_attrs:meta)*])* $field_id:literal : $field_type:ident $(< $element_type:ident >)? $field_name:ident $(;)?)* }) => {",
  text! "        $(#[cfg_attr(not(doctest), $($def_attrs)*)])*",
  text! "        #[derive(Clone, Debug, PartialEq)]",
  text! "        #[allow(non_camel_case_types)]",
  text! "        #[allow(non_snake_case)]",
  text! "        pub enum $identifier {",
  text! "            $($(#[cfg_attr(not(doctest), $($field_attrs)*)])* $field_name($crate::__thrift_field_type!($field_type $($element_type)?))),*",
  text! "        }",
  text! "",
  text! "        impl Default for $identifier {",
  text! "            fn default() -> Self {",
  text! "                $crate::__thrift_union_default!($($field_name;)*)",
  text! "            }",
  text! "        }",
  text! "",
  text! "        #[allow(non_snake_case)]",
  text! "        impl <'i> $crate::CompactThriftProtocol<'i> for $identifier {",
  text! "            const FIELD_TYPE: u8 = 12;",
  text! "",
  text! "            #[inline(never)]",
  text! "            fn fill_thrift<T: $crate::CompactThriftInput<'i>>(&mut self, input: &mut T) -> std::result::Result<(), $crate::ThriftError> {",
  text! "                let mut last_field_id = 0_i16;",
  text! "                let field_type = input.read_field_header(&mut last_field_id)?;",
  text! "",
  text! "                if field_type == 0 {",
  text! "                    return Err($crate::ThriftError::InvalidType);",
  text! "                }",
  text! "",
  text! "                match last_field_id {",
  text! "                    $($field_id => {",
  text! "                        *self = Self::$field_name(Default::default());",
  text! "                        #[allow(unreachable_patterns)]",
  text! "                        match self {",
  text! "                            Self::$field_name(inner) => inner.fill_thrift(input)?,",
  text! "                            _ => unsafe { std::hint::unreachable_unchecked() },",
  text! "                        }",
  text! "                    }),*",
  text! "                    _ => {",
  text! "                        return Err($crate::ThriftError::MissingField(concat!(stringify!($struct_name), \"\\0\").into()))",
  text! "                    }",
  text! "                }",
  text! "                let stop = input.read_byte()?;",
  text! "                if stop != 0 {",
  text! "                    return Err($crate::ThriftError::MissingStop)",
  text! "                }",
  text! "",
  text! "                Ok(())",
  text! "            }",
  text! "",
  text! "            fn write_thrift<T: $crate::CompactThriftOutput>(&self, output: &mut T) -> std::result::Result<(), $crate::ThriftError> {",
  text! "                let mut last_field_id = 0_i16;",
  text! "                match self {",
  text! "                    $(Self::$field_name(inner) => inner.write_thrift_field(output, $field_id, &mut last_field_id)?),*",
  text! "                }",
  text! "                output.write_byte(0)?;",
  text! "                Ok(())",
  text! "            }",
  text! "        }",
  text! "    }",
  text! "}"]

/-- macros.rs:202-235 `thrift_enum!` -/
def textThriftEnum : List (List Char) := [
  text! "macro_rules! thrift_enum {",
  text! "    ($(#[$($def_attrs:meta)*])* enum $identifier:ident { $($(#[$($field_attrs:meta)*])* $field_name:ident = $field_value:literal;)* }) => {",
  text! "        $(#[$($def_attrs)*])*",
  text! "        #[derive(Default, Debug, Copy, Clone, Eq, Hash, Ord, PartialEq, PartialOrd)]",
  text! "        #[allow(non_camel_case_types)]",
  text! "        pub struct $identifier(pub i32);",
  text! "",
  text! "        impl From<i32> for $identifier {",
  text! "            #[inline]",
  text! "            fn from(value: i32) -> Self {",
  text! "                Self(value)",
  text! "            }",
  text! "        }",
  text! "",
  text! "        impl $identifier {",
  text! "            $(pub const $field_name: Self = Self($field_value);)*",
  text! "        }",
  text! "",
  text! "        impl <'i> $crate::CompactThriftProtocol<'i> for $identifier {",
  text! "            const FIELD_TYPE: u8 = 5; // i32",
  text! "",
  text! "            #[inline]",
  text! "            fn fill_thrift<T: $crate::CompactThriftInput<'i>>(&mut self, input: &mut T) -> std::result::Result<(), $crate::ThriftError> {",
  text! "                self.0 = input.read_i32()?;",
  text! "                Ok(())",
  text! "            }",
  text! "",
  text! "            #[inline]",
  text! "            fn write_thrift<T: $crate::CompactThriftOutput>(&self, output: &mut T) -> std::result::Result<(), $crate::ThriftError> {",
  text! "                output.write_i32(self.0)",
  text! "            }",
  text! "        }",
  text! "    }",
  text! "}"]

/-- macros.rs:239-246 `__thrift_union_default!` -/
def textThriftUnionDefault : List (List Char) := [
  text! "macro_rules! __thrift_union_default {",
  text! "    ($head:ident; $($tail:ident;)*) => {",
  text! "        Self::$head(Default::default())",
  text! "    };",
  text! "    () => {",
  text! "        Self",
  text! "    };",
  text! "}"]

/-- macros.rs:250-261 `__thrift_field_type!` -/
def textThriftFieldType : List (List Char) := [
  text! "macro_rules! __thrift_field_type {",
  text! "    (list $element_type:ident) => { Vec< $crate::__thrift_field_type!($element_type) > };",
  text! "    (set $element_type:ident) => { Vec< $crate::__thrift_field_type!($element_type) > };",
  text! "    (binary) => { Vec<u8> };",
  text! "    (string) => { String };",
  text! "    (byte) => { u8 };",
  text! "    (double) => { f64 };",
  text! "    ($field_type:ty) => { $field_type }; // this covers bool | i8 | i16 | i32 | i64",
  text! "    (Box $element_type:ident) => { std::boxed::Box< $crate::__thrift_field_type!($element_type) > };",
  text! "    (Rc $element_type:ident) => { std::rc::Rc< $crate::__thrift_field_type!($element_type) > };",
  text! "    (Arc $element_type:ident) => { std::sync::Arc< $crate::__thrift_field_type!($element_type) > };",
  text! "}"]

/-- macros.rs:266-269 `__thrift_required_or_optional!` -/
def textThriftRequiredOrOptional : List (List Char) := [
  text! "macro_rules! __thrift_required_or_optional {",
  text! "    (required $field_type:ty) => { $field_type };",
  text! "    (optional $field_type:ty) => { Option<$field_type> };",
  text! "}"]

/-- macros.rs:274-277 `__thrift_required_flag!` -/
def textThriftRequiredFlag : List (List Char) := [
  text! "macro_rules! __thrift_required_flag {",
  text! "    (required $field_name:ident) => { let mut $field_name = false; };",
  text! "    (optional $field_name:ident) => {};",
  text! "}"]

/-- macros.rs:282-285 `__thrift_required_set!` -/
def textThriftRequiredSet : List (List Char) := [
  text! "macro_rules! __thrift_required_set {",
  text! "    (required $field_name:ident) => { $field_name = true; };",
  text! "    (optional $field_name:ident) => {};",
  text! "}"]

/-- macros.rs:291-298 `__thrift_required_check!` -/
def textThriftRequiredCheck : List (List Char) := [
  text! "macro_rules! __thrift_required_check {",
  text! "    (required $struct_name:ident $field_name:ident) => {",
  text! "        if !$field_name {",
  text! "            return Err($crate::ThriftError::MissingField(concat!(stringify!($struct_name), \"::\", stringify!($field_name), \"\\0\").into()))",
  text! "        }",
  text! "    };",
  text! "    (optional $struct_name:ident $field_name:ident) => {};",
  text! "}"]

end CT.Rust
