import Verif.Model.MacroRules
/-!
# The rules of the macros of macros.rs, read

Produced by a script from what `readMacro` returns; `C96_text` states that it does.
-/
namespace CT.Rust

/-- `thrift!`, rule 1: pattern -/
def pThrift0 : List P :=
  [.rep [.tok (.op (text! "#")), .group .bracket [.rep [.var (text! "def_attrs") .meta_] false]] false, .tok (.ident false (text! "struct")),
   .var (text! "identifier") .ident, .group .brace [.rep [.var (text! "definitions") .tt] false], .rep [.var (text! "remainder") .tt] false]

/-- `thrift!`, rule 1: right hand side -/
def tThrift0 : List T :=
  [.call (text! "thrift_struct") [.rep [.tok (.op (text! "#")), .group .bracket [.rep [.var (text! "def_attrs")] none]] none,
   .tok (.ident false (text! "struct")), .var (text! "identifier"), .group .brace [.rep [.var (text! "definitions")] none]],
   .call (text! "thrift") [.rep [.var (text! "remainder")] none]]

/-- `thrift!`, rule 2: pattern -/
def pThrift1 : List P :=
  [.rep [.tok (.op (text! "#")), .group .bracket [.rep [.var (text! "def_attrs") .meta_] false]] false, .tok (.ident false (text! "union")),
   .var (text! "identifier") .ident, .group .brace [.rep [.var (text! "definitions") .tt] false], .rep [.var (text! "remainder") .tt] false]

/-- `thrift!`, rule 2: right hand side -/
def tThrift1 : List T :=
  [.call (text! "thrift_union") [.rep [.tok (.op (text! "#")), .group .bracket [.rep [.var (text! "def_attrs")] none]] none,
   .tok (.ident false (text! "union")), .var (text! "identifier"), .group .brace [.rep [.var (text! "definitions")] none]],
   .call (text! "thrift") [.rep [.var (text! "remainder")] none]]

/-- `thrift!`, rule 3: pattern -/
def pThrift2 : List P :=
  [.rep [.tok (.op (text! "#")), .group .bracket [.rep [.var (text! "def_attrs") .meta_] false]] false, .tok (.ident false (text! "enum")),
   .var (text! "identifier") .ident, .group .brace [.rep [.var (text! "definitions") .tt] false], .rep [.var (text! "remainder") .tt] false]

/-- `thrift!`, rule 3: right hand side -/
def tThrift2 : List T :=
  [.call (text! "thrift_enum") [.rep [.tok (.op (text! "#")), .group .bracket [.rep [.var (text! "def_attrs")] none]] none,
   .tok (.ident false (text! "enum")), .var (text! "identifier"), .group .brace [.rep [.var (text! "definitions")] none]],
   .call (text! "thrift") [.rep [.var (text! "remainder")] none]]

/-- `thrift!`, rule 4: pattern -/
def pThrift3 : List P :=
  [.rep [.tok (.op (text! "#")), .group .bracket [.rep [.var (text! "def_attrs") .meta_] false]] false, .tok (.ident false (text! "namespace")),
   .var (text! "identifier") .ident, .var (text! "namespace") .ident, .rep [.var (text! "remainder") .tt] false]

/-- `thrift!`, rule 4: right hand side -/
def tThrift3 : List T :=
  [.call (text! "thrift") [.rep [.var (text! "remainder")] none]]

/-- `thrift!`, rule 5: pattern -/
def pThrift4 : List P :=
  []

/-- `thrift!`, rule 5: right hand side -/
def tThrift4 : List T :=
  []

/-- `thrift!` -/
def rulesThrift : Rules := [(pThrift0, tThrift0), (pThrift1, tThrift1), (pThrift2, tThrift2), (pThrift3, tThrift3), (pThrift4, tThrift4)]

/-- `thrift_struct!`, rule 1: pattern -/
def pThriftStruct : List P :=
  [.rep [.tok (.op (text! "#")), .group .bracket [.rep [.var (text! "def_attrs") .meta_] false]] false, .tok (.ident false (text! "struct")),
   .var (text! "identifier") .ident, .group .brace [.rep [.rep [.tok (.op (text! "#")),
   .group .bracket [.rep [.var (text! "field_attrs") .meta_] false]] false, .var (text! "field_id") .literal, .tok (.op (text! ":")),
   .var (text! "required_or_optional") .ident, .var (text! "field_type") .ident, .rep [.tok (.op (text! "<")), .var (text! "element_type") .ident,
   .tok (.op (text! ">"))] true, .var (text! "field_name") .ident, .rep [.tok (.op (text! "=")), .var (text! "default_value") .literal] true,
   .rep [.tok (.op (text! ";"))] true] false]]

/-- `thrift_struct!`, rule 1: right hand side -/
def tThriftStruct : List T :=
  [.rep [.tok (.op (text! "#")), .group .bracket [.tok (.ident false (text! "cfg_attr")), .group .paren [.tok (.ident false (text! "not")),
   .group .paren [.tok (.ident false (text! "doctest"))], .tok (.op (text! ",")), .rep [.var (text! "def_attrs")] none]]] none,
   .tok (.op (text! "#")), .group .bracket [.tok (.ident false (text! "derive")), .group .paren [.tok (.ident false (text! "Default")),
   .tok (.op (text! ",")), .tok (.ident false (text! "Clone")), .tok (.op (text! ",")), .tok (.ident false (text! "Debug")), .tok (.op (text! ",")),
   .tok (.ident false (text! "PartialEq"))]], .tok (.op (text! "#")), .group .bracket [.tok (.ident false (text! "allow")),
   .group .paren [.tok (.ident false (text! "non_camel_case_types"))]], .tok (.op (text! "#")), .group .bracket [.tok (.ident false (text! "allow")),
   .group .paren [.tok (.ident false (text! "non_snake_case"))]], .tok (.ident false (text! "pub")), .tok (.ident false (text! "struct")),
   .var (text! "identifier"), .group .brace [.rep [.rep [.tok (.op (text! "#")), .group .bracket [.tok (.ident false (text! "cfg_attr")),
   .group .paren [.tok (.ident false (text! "not")), .group .paren [.tok (.ident false (text! "doctest"))], .tok (.op (text! ",")),
   .rep [.var (text! "field_attrs")] none]]] none, .tok (.ident false (text! "pub")), .var (text! "field_name"), .tok (.op (text! ":")),
   .call (text! "__thrift_required_or_optional") [.var (text! "required_or_optional"), .call (text! "__thrift_field_type") [.var (text! "field_type"),
   .rep [.var (text! "element_type")] none]]] (some (.op (text! ",")))], .tok (.ident false (text! "impl")), .var (text! "identifier"),
   .group .brace [.tok (.op (text! "#")), .group .bracket [.tok (.ident false (text! "allow")), .group .paren [.tok (.ident false (text! "clippy")),
   .tok (.op (text! "::")), .tok (.ident false (text! "too_many_arguments"))]], .tok (.ident false (text! "pub")), .tok (.ident false (text! "fn")),
   .tok (.ident false (text! "new")), .group .paren [.rep [.var (text! "field_name"), .tok (.op (text! ":")), .tok (.ident false (text! "impl")),
   .tok (.ident false (text! "Into")), .tok (.op (text! "<")), .call (text! "__thrift_required_or_optional") [.var (text! "required_or_optional"),
   .call (text! "__thrift_field_type") [.var (text! "field_type"), .rep [.var (text! "element_type")] none]],
   .tok (.op (text! ">"))] (some (.op (text! ",")))], .tok (.op (text! "->")), .tok (.ident false (text! "Self")),
   .group .brace [.tok (.ident false (text! "Self")), .group .brace [.rep [.var (text! "field_name"), .tok (.op (text! ":")),
   .var (text! "field_name"), .tok (.op (text! ".")), .tok (.ident false (text! "into")), .group .paren [], .tok (.op (text! ","))] none]]],
   .tok (.op (text! "#")), .group .bracket [.tok (.ident false (text! "allow")), .group .paren [.tok (.ident false (text! "non_snake_case"))]],
   .tok (.ident false (text! "impl")), .tok (.op (text! "<")), .tok (.life (text! "i")), .tok (.op (text! ">")), .crate, .tok (.op (text! "::")),
   .tok (.ident false (text! "CompactThriftProtocol")), .tok (.op (text! "<")), .tok (.life (text! "i")), .tok (.op (text! ">")),
   .tok (.ident false (text! "for")), .var (text! "identifier"), .group .brace [.tok (.ident false (text! "const")),
   .tok (.ident false (text! "FIELD_TYPE")), .tok (.op (text! ":")), .tok (.ident false (text! "u8")), .tok (.op (text! "=")),
   .tok (.num 12 (text! "")), .tok (.op (text! ";")), .tok (.op (text! "#")), .group .bracket [.tok (.ident false (text! "inline")),
   .group .paren [.tok (.ident false (text! "never"))]], .tok (.ident false (text! "fn")), .tok (.ident false (text! "fill_thrift")),
   .tok (.op (text! "<")), .tok (.ident false (text! "T")), .tok (.op (text! ":")), .crate, .tok (.op (text! "::")),
   .tok (.ident false (text! "CompactThriftInput")), .tok (.op (text! "<")), .tok (.life (text! "i")), .tok (.op (text! ">")), .tok (.op (text! ">")),
   .group .paren [.tok (.op (text! "&")), .tok (.ident false (text! "mut")), .tok (.ident false (text! "self")), .tok (.op (text! ",")),
   .tok (.ident false (text! "input")), .tok (.op (text! ":")), .tok (.op (text! "&")), .tok (.ident false (text! "mut")),
   .tok (.ident false (text! "T"))], .tok (.op (text! "->")), .tok (.ident false (text! "std")), .tok (.op (text! "::")),
   .tok (.ident false (text! "result")), .tok (.op (text! "::")), .tok (.ident false (text! "Result")), .tok (.op (text! "<")), .group .paren [],
   .tok (.op (text! ",")), .crate, .tok (.op (text! "::")), .tok (.ident false (text! "ThriftError")), .tok (.op (text! ">")),
   .group .brace [.tok (.ident false (text! "let")), .tok (.ident false (text! "mut")), .tok (.ident false (text! "last_field_id")),
   .tok (.op (text! "=")), .tok (.num 0 (text! "i16")), .tok (.op (text! ";")),
   .rep [.call (text! "__thrift_required_flag") [.var (text! "required_or_optional"), .var (text! "field_name")]] none,
   .tok (.ident false (text! "loop")), .group .brace [.tok (.ident false (text! "let")), .tok (.ident false (text! "field_type")),
   .tok (.op (text! "=")), .tok (.ident false (text! "input")), .tok (.op (text! ".")), .tok (.ident false (text! "read_field_header")),
   .group .paren [.tok (.op (text! "&")), .tok (.ident false (text! "mut")), .tok (.ident false (text! "last_field_id"))], .tok (.op (text! "?")),
   .tok (.op (text! ";")), .tok (.ident false (text! "if")), .tok (.ident false (text! "field_type")), .tok (.op (text! "==")),
   .tok (.num 0 (text! "")), .group .brace [.tok (.ident false (text! "break")), .tok (.op (text! ";"))], .tok (.ident false (text! "match")),
   .tok (.ident false (text! "last_field_id")), .group .brace [.rep [.var (text! "field_id"), .tok (.op (text! "=>")),
   .group .brace [.call (text! "__thrift_required_set") [.var (text! "required_or_optional"), .var (text! "field_name")],
   .tok (.ident false (text! "self")), .tok (.op (text! ".")), .var (text! "field_name"), .tok (.op (text! ".")),
   .tok (.ident false (text! "fill_thrift_field")), .group .paren [.tok (.ident false (text! "input")), .tok (.op (text! ",")),
   .tok (.ident false (text! "field_type"))], .tok (.op (text! "?")), .tok (.op (text! ";"))]] (some (.op (text! ","))),
   .tok (.ident false (text! "_")), .tok (.op (text! "=>")), .group .brace [.tok (.ident false (text! "input")), .tok (.op (text! ".")),
   .tok (.ident false (text! "skip_field")), .group .paren [.tok (.ident false (text! "field_type"))], .tok (.op (text! "?")),
   .tok (.op (text! ";"))]]], .rep [.call (text! "__thrift_required_check") [.var (text! "required_or_optional"), .var (text! "identifier"),
   .var (text! "field_name")]] none, .tok (.ident false (text! "Ok")), .group .paren [.group .paren []]], .tok (.ident false (text! "fn")),
   .tok (.ident false (text! "write_thrift")), .tok (.op (text! "<")), .tok (.ident false (text! "T")), .tok (.op (text! ":")), .crate,
   .tok (.op (text! "::")), .tok (.ident false (text! "CompactThriftOutput")), .tok (.op (text! ">")), .group .paren [.tok (.op (text! "&")),
   .tok (.ident false (text! "self")), .tok (.op (text! ",")), .tok (.ident false (text! "output")), .tok (.op (text! ":")), .tok (.op (text! "&")),
   .tok (.ident false (text! "mut")), .tok (.ident false (text! "T"))], .tok (.op (text! "->")), .tok (.ident false (text! "std")),
   .tok (.op (text! "::")), .tok (.ident false (text! "result")), .tok (.op (text! "::")), .tok (.ident false (text! "Result")),
   .tok (.op (text! "<")), .group .paren [], .tok (.op (text! ",")), .crate, .tok (.op (text! "::")), .tok (.ident false (text! "ThriftError")),
   .tok (.op (text! ">")), .group .brace [.tok (.op (text! "#")), .group .bracket [.tok (.ident false (text! "allow")),
   .group .paren [.tok (.ident false (text! "unused_variables"))]], .tok (.op (text! "#")), .group .bracket [.tok (.ident false (text! "allow")),
   .group .paren [.tok (.ident false (text! "unused_mut"))]], .tok (.ident false (text! "let")), .tok (.ident false (text! "mut")),
   .tok (.ident false (text! "last_field_id")), .tok (.op (text! "=")), .tok (.num 0 (text! "i16")), .tok (.op (text! ";")),
   .rep [.tok (.ident false (text! "self")), .tok (.op (text! ".")), .var (text! "field_name"), .tok (.op (text! ".")),
   .tok (.ident false (text! "write_thrift_field")), .group .paren [.tok (.ident false (text! "output")), .tok (.op (text! ",")),
   .var (text! "field_id"), .tok (.op (text! ",")), .tok (.op (text! "&")), .tok (.ident false (text! "mut")),
   .tok (.ident false (text! "last_field_id"))], .tok (.op (text! "?")), .tok (.op (text! ";"))] none, .tok (.ident false (text! "output")),
   .tok (.op (text! ".")), .tok (.ident false (text! "write_byte")), .group .paren [.tok (.num 0 (text! ""))], .tok (.op (text! "?")),
   .tok (.op (text! ";")), .tok (.ident false (text! "Ok")), .group .paren [.group .paren []]]]]

/-- `thrift_struct!` -/
def rulesThriftStruct : Rules := [(pThriftStruct, tThriftStruct)]

/-- `thrift_union!`, rule 1: pattern -/
def pThriftUnion : List P :=
  [.rep [.tok (.op (text! "#")), .group .bracket [.rep [.var (text! "def_attrs") .meta_] false]] false, .tok (.ident false (text! "union")),
   .var (text! "identifier") .ident, .group .brace [.rep [.rep [.tok (.op (text! "#")),
   .group .bracket [.rep [.var (text! "field_attrs") .meta_] false]] false, .var (text! "field_id") .literal, .tok (.op (text! ":")),
   .var (text! "field_type") .ident, .rep [.tok (.op (text! "<")), .var (text! "element_type") .ident, .tok (.op (text! ">"))] true,
   .var (text! "field_name") .ident, .rep [.tok (.op (text! ";"))] true] false]]

/-- `thrift_union!`, rule 1: right hand side -/
def tThriftUnion : List T :=
  [.rep [.tok (.op (text! "#")), .group .bracket [.tok (.ident false (text! "cfg_attr")), .group .paren [.tok (.ident false (text! "not")),
   .group .paren [.tok (.ident false (text! "doctest"))], .tok (.op (text! ",")), .rep [.var (text! "def_attrs")] none]]] none,
   .tok (.op (text! "#")), .group .bracket [.tok (.ident false (text! "derive")), .group .paren [.tok (.ident false (text! "Clone")),
   .tok (.op (text! ",")), .tok (.ident false (text! "Debug")), .tok (.op (text! ",")), .tok (.ident false (text! "PartialEq"))]],
   .tok (.op (text! "#")), .group .bracket [.tok (.ident false (text! "allow")), .group .paren [.tok (.ident false (text! "non_camel_case_types"))]],
   .tok (.op (text! "#")), .group .bracket [.tok (.ident false (text! "allow")), .group .paren [.tok (.ident false (text! "non_snake_case"))]],
   .tok (.ident false (text! "pub")), .tok (.ident false (text! "enum")), .var (text! "identifier"),
   .group .brace [.rep [.rep [.tok (.op (text! "#")), .group .bracket [.tok (.ident false (text! "cfg_attr")),
   .group .paren [.tok (.ident false (text! "not")), .group .paren [.tok (.ident false (text! "doctest"))], .tok (.op (text! ",")),
   .rep [.var (text! "field_attrs")] none]]] none, .var (text! "field_name"),
   .group .paren [.call (text! "__thrift_field_type") [.var (text! "field_type"),
   .rep [.var (text! "element_type")] none]]] (some (.op (text! ",")))], .tok (.ident false (text! "impl")), .tok (.ident false (text! "Default")),
   .tok (.ident false (text! "for")), .var (text! "identifier"), .group .brace [.tok (.ident false (text! "fn")),
   .tok (.ident false (text! "default")), .group .paren [], .tok (.op (text! "->")), .tok (.ident false (text! "Self")),
   .group .brace [.call (text! "__thrift_union_default") [.rep [.var (text! "field_name"), .tok (.op (text! ";"))] none]]], .tok (.op (text! "#")),
   .group .bracket [.tok (.ident false (text! "allow")), .group .paren [.tok (.ident false (text! "non_snake_case"))]],
   .tok (.ident false (text! "impl")), .tok (.op (text! "<")), .tok (.life (text! "i")), .tok (.op (text! ">")), .crate, .tok (.op (text! "::")),
   .tok (.ident false (text! "CompactThriftProtocol")), .tok (.op (text! "<")), .tok (.life (text! "i")), .tok (.op (text! ">")),
   .tok (.ident false (text! "for")), .var (text! "identifier"), .group .brace [.tok (.ident false (text! "const")),
   .tok (.ident false (text! "FIELD_TYPE")), .tok (.op (text! ":")), .tok (.ident false (text! "u8")), .tok (.op (text! "=")),
   .tok (.num 12 (text! "")), .tok (.op (text! ";")), .tok (.op (text! "#")), .group .bracket [.tok (.ident false (text! "inline")),
   .group .paren [.tok (.ident false (text! "never"))]], .tok (.ident false (text! "fn")), .tok (.ident false (text! "fill_thrift")),
   .tok (.op (text! "<")), .tok (.ident false (text! "T")), .tok (.op (text! ":")), .crate, .tok (.op (text! "::")),
   .tok (.ident false (text! "CompactThriftInput")), .tok (.op (text! "<")), .tok (.life (text! "i")), .tok (.op (text! ">")), .tok (.op (text! ">")),
   .group .paren [.tok (.op (text! "&")), .tok (.ident false (text! "mut")), .tok (.ident false (text! "self")), .tok (.op (text! ",")),
   .tok (.ident false (text! "input")), .tok (.op (text! ":")), .tok (.op (text! "&")), .tok (.ident false (text! "mut")),
   .tok (.ident false (text! "T"))], .tok (.op (text! "->")), .tok (.ident false (text! "std")), .tok (.op (text! "::")),
   .tok (.ident false (text! "result")), .tok (.op (text! "::")), .tok (.ident false (text! "Result")), .tok (.op (text! "<")), .group .paren [],
   .tok (.op (text! ",")), .crate, .tok (.op (text! "::")), .tok (.ident false (text! "ThriftError")), .tok (.op (text! ">")),
   .group .brace [.tok (.ident false (text! "let")), .tok (.ident false (text! "mut")), .tok (.ident false (text! "last_field_id")),
   .tok (.op (text! "=")), .tok (.num 0 (text! "i16")), .tok (.op (text! ";")), .tok (.ident false (text! "let")),
   .tok (.ident false (text! "field_type")), .tok (.op (text! "=")), .tok (.ident false (text! "input")), .tok (.op (text! ".")),
   .tok (.ident false (text! "read_field_header")), .group .paren [.tok (.op (text! "&")), .tok (.ident false (text! "mut")),
   .tok (.ident false (text! "last_field_id"))], .tok (.op (text! "?")), .tok (.op (text! ";")), .tok (.ident false (text! "if")),
   .tok (.ident false (text! "field_type")), .tok (.op (text! "==")), .tok (.num 0 (text! "")), .group .brace [.tok (.ident false (text! "return")),
   .tok (.ident false (text! "Err")), .group .paren [.crate, .tok (.op (text! "::")), .tok (.ident false (text! "ThriftError")),
   .tok (.op (text! "::")), .tok (.ident false (text! "InvalidType"))], .tok (.op (text! ";"))], .tok (.ident false (text! "match")),
   .tok (.ident false (text! "last_field_id")), .group .brace [.rep [.var (text! "field_id"), .tok (.op (text! "=>")),
   .group .brace [.tok (.op (text! "*")), .tok (.ident false (text! "self")), .tok (.op (text! "=")), .tok (.ident false (text! "Self")),
   .tok (.op (text! "::")), .var (text! "field_name"), .group .paren [.tok (.ident false (text! "Default")), .tok (.op (text! "::")),
   .tok (.ident false (text! "default")), .group .paren []], .tok (.op (text! ";")), .tok (.op (text! "#")),
   .group .bracket [.tok (.ident false (text! "allow")), .group .paren [.tok (.ident false (text! "unreachable_patterns"))]],
   .tok (.ident false (text! "match")), .tok (.ident false (text! "self")), .group .brace [.tok (.ident false (text! "Self")),
   .tok (.op (text! "::")), .var (text! "field_name"), .group .paren [.tok (.ident false (text! "inner"))], .tok (.op (text! "=>")),
   .tok (.ident false (text! "inner")), .tok (.op (text! ".")), .tok (.ident false (text! "fill_thrift")),
   .group .paren [.tok (.ident false (text! "input"))], .tok (.op (text! "?")), .tok (.op (text! ",")), .tok (.ident false (text! "_")),
   .tok (.op (text! "=>")), .tok (.ident false (text! "unsafe")), .group .brace [.tok (.ident false (text! "std")), .tok (.op (text! "::")),
   .tok (.ident false (text! "hint")), .tok (.op (text! "::")), .tok (.ident false (text! "unreachable_unchecked")), .group .paren []],
   .tok (.op (text! ","))]]] (some (.op (text! ","))), .tok (.ident false (text! "_")), .tok (.op (text! "=>")),
   .group .brace [.tok (.ident false (text! "return")), .tok (.ident false (text! "Err")), .group .paren [.crate, .tok (.op (text! "::")),
   .tok (.ident false (text! "ThriftError")), .tok (.op (text! "::")), .tok (.ident false (text! "MissingField")),
   .group .paren [.call (text! "concat") [.call (text! "stringify") [.var (text! "struct_name")], .tok (.op (text! ",")), .tok (.str (text! "\x00"))],
   .tok (.op (text! ".")), .tok (.ident false (text! "into")), .group .paren []]]]], .tok (.ident false (text! "let")),
   .tok (.ident false (text! "stop")), .tok (.op (text! "=")), .tok (.ident false (text! "input")), .tok (.op (text! ".")),
   .tok (.ident false (text! "read_byte")), .group .paren [], .tok (.op (text! "?")), .tok (.op (text! ";")), .tok (.ident false (text! "if")),
   .tok (.ident false (text! "stop")), .tok (.op (text! "!=")), .tok (.num 0 (text! "")), .group .brace [.tok (.ident false (text! "return")),
   .tok (.ident false (text! "Err")), .group .paren [.crate, .tok (.op (text! "::")), .tok (.ident false (text! "ThriftError")),
   .tok (.op (text! "::")), .tok (.ident false (text! "MissingStop"))]], .tok (.ident false (text! "Ok")), .group .paren [.group .paren []]],
   .tok (.ident false (text! "fn")), .tok (.ident false (text! "write_thrift")), .tok (.op (text! "<")), .tok (.ident false (text! "T")),
   .tok (.op (text! ":")), .crate, .tok (.op (text! "::")), .tok (.ident false (text! "CompactThriftOutput")), .tok (.op (text! ">")),
   .group .paren [.tok (.op (text! "&")), .tok (.ident false (text! "self")), .tok (.op (text! ",")), .tok (.ident false (text! "output")),
   .tok (.op (text! ":")), .tok (.op (text! "&")), .tok (.ident false (text! "mut")), .tok (.ident false (text! "T"))], .tok (.op (text! "->")),
   .tok (.ident false (text! "std")), .tok (.op (text! "::")), .tok (.ident false (text! "result")), .tok (.op (text! "::")),
   .tok (.ident false (text! "Result")), .tok (.op (text! "<")), .group .paren [], .tok (.op (text! ",")), .crate, .tok (.op (text! "::")),
   .tok (.ident false (text! "ThriftError")), .tok (.op (text! ">")), .group .brace [.tok (.ident false (text! "let")),
   .tok (.ident false (text! "mut")), .tok (.ident false (text! "last_field_id")), .tok (.op (text! "=")), .tok (.num 0 (text! "i16")),
   .tok (.op (text! ";")), .tok (.ident false (text! "match")), .tok (.ident false (text! "self")),
   .group .brace [.rep [.tok (.ident false (text! "Self")), .tok (.op (text! "::")), .var (text! "field_name"),
   .group .paren [.tok (.ident false (text! "inner"))], .tok (.op (text! "=>")), .tok (.ident false (text! "inner")), .tok (.op (text! ".")),
   .tok (.ident false (text! "write_thrift_field")), .group .paren [.tok (.ident false (text! "output")), .tok (.op (text! ",")),
   .var (text! "field_id"), .tok (.op (text! ",")), .tok (.op (text! "&")), .tok (.ident false (text! "mut")),
   .tok (.ident false (text! "last_field_id"))], .tok (.op (text! "?"))] (some (.op (text! ",")))], .tok (.ident false (text! "output")),
   .tok (.op (text! ".")), .tok (.ident false (text! "write_byte")), .group .paren [.tok (.num 0 (text! ""))], .tok (.op (text! "?")),
   .tok (.op (text! ";")), .tok (.ident false (text! "Ok")), .group .paren [.group .paren []]]]]

/-- `thrift_union!` -/
def rulesThriftUnion : Rules := [(pThriftUnion, tThriftUnion)]

/-- `thrift_enum!`, rule 1: pattern -/
def pThriftEnum : List P :=
  [.rep [.tok (.op (text! "#")), .group .bracket [.rep [.var (text! "def_attrs") .meta_] false]] false, .tok (.ident false (text! "enum")),
   .var (text! "identifier") .ident, .group .brace [.rep [.rep [.tok (.op (text! "#")),
   .group .bracket [.rep [.var (text! "field_attrs") .meta_] false]] false, .var (text! "field_name") .ident, .tok (.op (text! "=")),
   .var (text! "field_value") .literal, .tok (.op (text! ";"))] false]]

/-- `thrift_enum!`, rule 1: right hand side -/
def tThriftEnum : List T :=
  [.rep [.tok (.op (text! "#")), .group .bracket [.rep [.var (text! "def_attrs")] none]] none, .tok (.op (text! "#")),
   .group .bracket [.tok (.ident false (text! "derive")), .group .paren [.tok (.ident false (text! "Default")), .tok (.op (text! ",")),
   .tok (.ident false (text! "Debug")), .tok (.op (text! ",")), .tok (.ident false (text! "Copy")), .tok (.op (text! ",")),
   .tok (.ident false (text! "Clone")), .tok (.op (text! ",")), .tok (.ident false (text! "Eq")), .tok (.op (text! ",")),
   .tok (.ident false (text! "Hash")), .tok (.op (text! ",")), .tok (.ident false (text! "Ord")), .tok (.op (text! ",")),
   .tok (.ident false (text! "PartialEq")), .tok (.op (text! ",")), .tok (.ident false (text! "PartialOrd"))]], .tok (.op (text! "#")),
   .group .bracket [.tok (.ident false (text! "allow")), .group .paren [.tok (.ident false (text! "non_camel_case_types"))]],
   .tok (.ident false (text! "pub")), .tok (.ident false (text! "struct")), .var (text! "identifier"),
   .group .paren [.tok (.ident false (text! "pub")), .tok (.ident false (text! "i32"))], .tok (.op (text! ";")), .tok (.ident false (text! "impl")),
   .tok (.ident false (text! "From")), .tok (.op (text! "<")), .tok (.ident false (text! "i32")), .tok (.op (text! ">")),
   .tok (.ident false (text! "for")), .var (text! "identifier"), .group .brace [.tok (.op (text! "#")),
   .group .bracket [.tok (.ident false (text! "inline"))], .tok (.ident false (text! "fn")), .tok (.ident false (text! "from")),
   .group .paren [.tok (.ident false (text! "value")), .tok (.op (text! ":")), .tok (.ident false (text! "i32"))], .tok (.op (text! "->")),
   .tok (.ident false (text! "Self")), .group .brace [.tok (.ident false (text! "Self")), .group .paren [.tok (.ident false (text! "value"))]]],
   .tok (.ident false (text! "impl")), .var (text! "identifier"), .group .brace [.rep [.tok (.ident false (text! "pub")),
   .tok (.ident false (text! "const")), .var (text! "field_name"), .tok (.op (text! ":")), .tok (.ident false (text! "Self")), .tok (.op (text! "=")),
   .tok (.ident false (text! "Self")), .group .paren [.var (text! "field_value")], .tok (.op (text! ";"))] none], .tok (.ident false (text! "impl")),
   .tok (.op (text! "<")), .tok (.life (text! "i")), .tok (.op (text! ">")), .crate, .tok (.op (text! "::")),
   .tok (.ident false (text! "CompactThriftProtocol")), .tok (.op (text! "<")), .tok (.life (text! "i")), .tok (.op (text! ">")),
   .tok (.ident false (text! "for")), .var (text! "identifier"), .group .brace [.tok (.ident false (text! "const")),
   .tok (.ident false (text! "FIELD_TYPE")), .tok (.op (text! ":")), .tok (.ident false (text! "u8")), .tok (.op (text! "=")),
   .tok (.num 5 (text! "")), .tok (.op (text! ";")), .tok (.op (text! "#")), .group .bracket [.tok (.ident false (text! "inline"))],
   .tok (.ident false (text! "fn")), .tok (.ident false (text! "fill_thrift")), .tok (.op (text! "<")), .tok (.ident false (text! "T")),
   .tok (.op (text! ":")), .crate, .tok (.op (text! "::")), .tok (.ident false (text! "CompactThriftInput")), .tok (.op (text! "<")),
   .tok (.life (text! "i")), .tok (.op (text! ">")), .tok (.op (text! ">")), .group .paren [.tok (.op (text! "&")), .tok (.ident false (text! "mut")),
   .tok (.ident false (text! "self")), .tok (.op (text! ",")), .tok (.ident false (text! "input")), .tok (.op (text! ":")), .tok (.op (text! "&")),
   .tok (.ident false (text! "mut")), .tok (.ident false (text! "T"))], .tok (.op (text! "->")), .tok (.ident false (text! "std")),
   .tok (.op (text! "::")), .tok (.ident false (text! "result")), .tok (.op (text! "::")), .tok (.ident false (text! "Result")),
   .tok (.op (text! "<")), .group .paren [], .tok (.op (text! ",")), .crate, .tok (.op (text! "::")), .tok (.ident false (text! "ThriftError")),
   .tok (.op (text! ">")), .group .brace [.tok (.ident false (text! "self")), .tok (.op (text! ".")), .tok (.num 0 (text! "")),
   .tok (.op (text! "=")), .tok (.ident false (text! "input")), .tok (.op (text! ".")), .tok (.ident false (text! "read_i32")), .group .paren [],
   .tok (.op (text! "?")), .tok (.op (text! ";")), .tok (.ident false (text! "Ok")), .group .paren [.group .paren []]], .tok (.op (text! "#")),
   .group .bracket [.tok (.ident false (text! "inline"))], .tok (.ident false (text! "fn")), .tok (.ident false (text! "write_thrift")),
   .tok (.op (text! "<")), .tok (.ident false (text! "T")), .tok (.op (text! ":")), .crate, .tok (.op (text! "::")),
   .tok (.ident false (text! "CompactThriftOutput")), .tok (.op (text! ">")), .group .paren [.tok (.op (text! "&")),
   .tok (.ident false (text! "self")), .tok (.op (text! ",")), .tok (.ident false (text! "output")), .tok (.op (text! ":")), .tok (.op (text! "&")),
   .tok (.ident false (text! "mut")), .tok (.ident false (text! "T"))], .tok (.op (text! "->")), .tok (.ident false (text! "std")),
   .tok (.op (text! "::")), .tok (.ident false (text! "result")), .tok (.op (text! "::")), .tok (.ident false (text! "Result")),
   .tok (.op (text! "<")), .group .paren [], .tok (.op (text! ",")), .crate, .tok (.op (text! "::")), .tok (.ident false (text! "ThriftError")),
   .tok (.op (text! ">")), .group .brace [.tok (.ident false (text! "output")), .tok (.op (text! ".")), .tok (.ident false (text! "write_i32")),
   .group .paren [.tok (.ident false (text! "self")), .tok (.op (text! ".")), .tok (.num 0 (text! ""))]]]]

/-- `thrift_enum!` -/
def rulesThriftEnum : Rules := [(pThriftEnum, tThriftEnum)]

/-- `__thrift_union_default!`, rule 1: pattern -/
def pThriftUnionDefault0 : List P :=
  [.var (text! "head") .ident, .tok (.op (text! ";")), .rep [.var (text! "tail") .ident, .tok (.op (text! ";"))] false]

/-- `__thrift_union_default!`, rule 1: right hand side -/
def tThriftUnionDefault0 : List T :=
  [.tok (.ident false (text! "Self")), .tok (.op (text! "::")), .var (text! "head"), .group .paren [.tok (.ident false (text! "Default")),
   .tok (.op (text! "::")), .tok (.ident false (text! "default")), .group .paren []]]

/-- `__thrift_union_default!`, rule 2: pattern -/
def pThriftUnionDefault1 : List P :=
  []

/-- `__thrift_union_default!`, rule 2: right hand side -/
def tThriftUnionDefault1 : List T :=
  [.tok (.ident false (text! "Self"))]

/-- `__thrift_union_default!` -/
def rulesThriftUnionDefault : Rules := [(pThriftUnionDefault0, tThriftUnionDefault0), (pThriftUnionDefault1, tThriftUnionDefault1)]

/-- `__thrift_field_type!`, rule 1: pattern -/
def pThriftFieldType0 : List P :=
  [.tok (.ident false (text! "list")), .var (text! "element_type") .ident]

/-- `__thrift_field_type!`, rule 1: right hand side -/
def tThriftFieldType0 : List T :=
  [.tok (.ident false (text! "Vec")), .tok (.op (text! "<")), .call (text! "__thrift_field_type") [.var (text! "element_type")],
   .tok (.op (text! ">"))]

/-- `__thrift_field_type!`, rule 2: pattern -/
def pThriftFieldType1 : List P :=
  [.tok (.ident false (text! "set")), .var (text! "element_type") .ident]

/-- `__thrift_field_type!`, rule 2: right hand side -/
def tThriftFieldType1 : List T :=
  [.tok (.ident false (text! "Vec")), .tok (.op (text! "<")), .call (text! "__thrift_field_type") [.var (text! "element_type")],
   .tok (.op (text! ">"))]

/-- `__thrift_field_type!`, rule 3: pattern -/
def pThriftFieldType2 : List P :=
  [.tok (.ident false (text! "binary"))]

/-- `__thrift_field_type!`, rule 3: right hand side -/
def tThriftFieldType2 : List T :=
  [.tok (.ident false (text! "Vec")), .tok (.op (text! "<")), .tok (.ident false (text! "u8")), .tok (.op (text! ">"))]

/-- `__thrift_field_type!`, rule 4: pattern -/
def pThriftFieldType3 : List P :=
  [.tok (.ident false (text! "string"))]

/-- `__thrift_field_type!`, rule 4: right hand side -/
def tThriftFieldType3 : List T :=
  [.tok (.ident false (text! "String"))]

/-- `__thrift_field_type!`, rule 5: pattern -/
def pThriftFieldType4 : List P :=
  [.tok (.ident false (text! "byte"))]

/-- `__thrift_field_type!`, rule 5: right hand side -/
def tThriftFieldType4 : List T :=
  [.tok (.ident false (text! "u8"))]

/-- `__thrift_field_type!`, rule 6: pattern -/
def pThriftFieldType5 : List P :=
  [.tok (.ident false (text! "double"))]

/-- `__thrift_field_type!`, rule 6: right hand side -/
def tThriftFieldType5 : List T :=
  [.tok (.ident false (text! "f64"))]

/-- `__thrift_field_type!`, rule 7: pattern -/
def pThriftFieldType6 : List P :=
  [.var (text! "field_type") .ty]

/-- `__thrift_field_type!`, rule 7: right hand side -/
def tThriftFieldType6 : List T :=
  [.var (text! "field_type")]

/-- `__thrift_field_type!`, rule 8: pattern -/
def pThriftFieldType7 : List P :=
  [.tok (.ident false (text! "Box")), .var (text! "element_type") .ident]

/-- `__thrift_field_type!`, rule 8: right hand side -/
def tThriftFieldType7 : List T :=
  [.tok (.ident false (text! "std")), .tok (.op (text! "::")), .tok (.ident false (text! "boxed")), .tok (.op (text! "::")),
   .tok (.ident false (text! "Box")), .tok (.op (text! "<")), .call (text! "__thrift_field_type") [.var (text! "element_type")],
   .tok (.op (text! ">"))]

/-- `__thrift_field_type!`, rule 9: pattern -/
def pThriftFieldType8 : List P :=
  [.tok (.ident false (text! "Rc")), .var (text! "element_type") .ident]

/-- `__thrift_field_type!`, rule 9: right hand side -/
def tThriftFieldType8 : List T :=
  [.tok (.ident false (text! "std")), .tok (.op (text! "::")), .tok (.ident false (text! "rc")), .tok (.op (text! "::")),
   .tok (.ident false (text! "Rc")), .tok (.op (text! "<")), .call (text! "__thrift_field_type") [.var (text! "element_type")],
   .tok (.op (text! ">"))]

/-- `__thrift_field_type!`, rule 10: pattern -/
def pThriftFieldType9 : List P :=
  [.tok (.ident false (text! "Arc")), .var (text! "element_type") .ident]

/-- `__thrift_field_type!`, rule 10: right hand side -/
def tThriftFieldType9 : List T :=
  [.tok (.ident false (text! "std")), .tok (.op (text! "::")), .tok (.ident false (text! "sync")), .tok (.op (text! "::")),
   .tok (.ident false (text! "Arc")), .tok (.op (text! "<")), .call (text! "__thrift_field_type") [.var (text! "element_type")],
   .tok (.op (text! ">"))]

/-- `__thrift_field_type!` -/
def rulesThriftFieldType : Rules := [(pThriftFieldType0, tThriftFieldType0), (pThriftFieldType1, tThriftFieldType1), (pThriftFieldType2, tThriftFieldType2), (pThriftFieldType3, tThriftFieldType3), (pThriftFieldType4, tThriftFieldType4), (pThriftFieldType5, tThriftFieldType5), (pThriftFieldType6, tThriftFieldType6), (pThriftFieldType7, tThriftFieldType7), (pThriftFieldType8, tThriftFieldType8), (pThriftFieldType9, tThriftFieldType9)]

/-- `__thrift_required_or_optional!`, rule 1: pattern -/
def pThriftRequiredOrOptional0 : List P :=
  [.tok (.ident false (text! "required")), .var (text! "field_type") .ty]

/-- `__thrift_required_or_optional!`, rule 1: right hand side -/
def tThriftRequiredOrOptional0 : List T :=
  [.var (text! "field_type")]

/-- `__thrift_required_or_optional!`, rule 2: pattern -/
def pThriftRequiredOrOptional1 : List P :=
  [.tok (.ident false (text! "optional")), .var (text! "field_type") .ty]

/-- `__thrift_required_or_optional!`, rule 2: right hand side -/
def tThriftRequiredOrOptional1 : List T :=
  [.tok (.ident false (text! "Option")), .tok (.op (text! "<")), .var (text! "field_type"), .tok (.op (text! ">"))]

/-- `__thrift_required_or_optional!` -/
def rulesThriftRequiredOrOptional : Rules := [(pThriftRequiredOrOptional0, tThriftRequiredOrOptional0), (pThriftRequiredOrOptional1, tThriftRequiredOrOptional1)]

/-- `__thrift_required_flag!`, rule 1: pattern -/
def pThriftRequiredFlag0 : List P :=
  [.tok (.ident false (text! "required")), .var (text! "field_name") .ident]

/-- `__thrift_required_flag!`, rule 1: right hand side -/
def tThriftRequiredFlag0 : List T :=
  [.tok (.ident false (text! "let")), .tok (.ident false (text! "mut")), .var (text! "field_name"), .tok (.op (text! "=")),
   .tok (.ident false (text! "false")), .tok (.op (text! ";"))]

/-- `__thrift_required_flag!`, rule 2: pattern -/
def pThriftRequiredFlag1 : List P :=
  [.tok (.ident false (text! "optional")), .var (text! "field_name") .ident]

/-- `__thrift_required_flag!`, rule 2: right hand side -/
def tThriftRequiredFlag1 : List T :=
  []

/-- `__thrift_required_flag!` -/
def rulesThriftRequiredFlag : Rules := [(pThriftRequiredFlag0, tThriftRequiredFlag0), (pThriftRequiredFlag1, tThriftRequiredFlag1)]

/-- `__thrift_required_set!`, rule 1: pattern -/
def pThriftRequiredSet0 : List P :=
  [.tok (.ident false (text! "required")), .var (text! "field_name") .ident]

/-- `__thrift_required_set!`, rule 1: right hand side -/
def tThriftRequiredSet0 : List T :=
  [.var (text! "field_name"), .tok (.op (text! "=")), .tok (.ident false (text! "true")), .tok (.op (text! ";"))]

/-- `__thrift_required_set!`, rule 2: pattern -/
def pThriftRequiredSet1 : List P :=
  [.tok (.ident false (text! "optional")), .var (text! "field_name") .ident]

/-- `__thrift_required_set!`, rule 2: right hand side -/
def tThriftRequiredSet1 : List T :=
  []

/-- `__thrift_required_set!` -/
def rulesThriftRequiredSet : Rules := [(pThriftRequiredSet0, tThriftRequiredSet0), (pThriftRequiredSet1, tThriftRequiredSet1)]

/-- `__thrift_required_check!`, rule 1: pattern -/
def pThriftRequiredCheck0 : List P :=
  [.tok (.ident false (text! "required")), .var (text! "struct_name") .ident, .var (text! "field_name") .ident]

/-- `__thrift_required_check!`, rule 1: right hand side -/
def tThriftRequiredCheck0 : List T :=
  [.tok (.ident false (text! "if")), .tok (.op (text! "!")), .var (text! "field_name"), .group .brace [.tok (.ident false (text! "return")),
   .tok (.ident false (text! "Err")), .group .paren [.crate, .tok (.op (text! "::")), .tok (.ident false (text! "ThriftError")),
   .tok (.op (text! "::")), .tok (.ident false (text! "MissingField")),
   .group .paren [.call (text! "concat") [.call (text! "stringify") [.var (text! "struct_name")], .tok (.op (text! ",")), .tok (.str (text! "::")),
   .tok (.op (text! ",")), .call (text! "stringify") [.var (text! "field_name")], .tok (.op (text! ",")), .tok (.str (text! "\x00"))],
   .tok (.op (text! ".")), .tok (.ident false (text! "into")), .group .paren []]]]]

/-- `__thrift_required_check!`, rule 2: pattern -/
def pThriftRequiredCheck1 : List P :=
  [.tok (.ident false (text! "optional")), .var (text! "struct_name") .ident, .var (text! "field_name") .ident]

/-- `__thrift_required_check!`, rule 2: right hand side -/
def tThriftRequiredCheck1 : List T :=
  []

/-- `__thrift_required_check!` -/
def rulesThriftRequiredCheck : Rules := [(pThriftRequiredCheck0, tThriftRequiredCheck0), (pThriftRequiredCheck1, tThriftRequiredCheck1)]

/-- All macros -/
def macroTable : List (List Char × Rules) :=
  [(text! "thrift", rulesThrift),
   (text! "thrift_struct", rulesThriftStruct),
   (text! "thrift_union", rulesThriftUnion),
   (text! "thrift_enum", rulesThriftEnum),
   (text! "__thrift_union_default", rulesThriftUnionDefault),
   (text! "__thrift_field_type", rulesThriftFieldType),
   (text! "__thrift_required_or_optional", rulesThriftRequiredOrOptional),
   (text! "__thrift_required_flag", rulesThriftRequiredFlag),
   (text! "__thrift_required_set", rulesThriftRequiredSet),
   (text! "__thrift_required_check", rulesThriftRequiredCheck)]

end CT.Rust
