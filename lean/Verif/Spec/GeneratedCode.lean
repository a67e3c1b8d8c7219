import Verif.Spec.RustCode
import Verif.Model.GeneratorCode
/-!
# The items of the generator

What the text the generator writes should be, as token trees: the items around the functions of `Model/Code.lean`.
-/
namespace CT.Rust.Spec
open CT CT.Rust CT.Code CT.Gen

/-- `<'i>` or nothing -/
def lifetime (b : Bool) : List Tree := if b then code (text! "<'i>") else []

/-- The type of a field; `needs` tells the names that have a lifetime. -/
def genTypeCode (needs : String → Bool) : FieldType → List Tree
  | .base .BOOL => code (text! "bool")
  | .base .BYTE => code (text! "u8")
  | .base .I16 => code (text! "i16")
  | .base .I32 => code (text! "i32")
  | .base .I64 => code (text! "i64")
  | .base .DOUBLE => code (text! "f64")
  | .base .STRING => code (text! "Cow<'i, str>")
  | .base .BINARY => code (text! "Cow<'i, [u8]>")
  | .named s => [word s.toList] ++ lifetime (needs s)
  | .list t => code (text! "Vec<") ++ genTypeCode needs t ++ code (text! ">")
  | .set t => code (text! "HashSet<") ++ genTypeCode needs t ++ code (text! ">")
  | .map k v => code (text! "HashMap<") ++ genTypeCode needs k ++ code (text! ",") ++ genTypeCode needs v ++ code (text! ">")

/-- Fields that are not required are options. -/
def genFieldCode (needs : String → Bool) (f : Gen.Field) : List Tree :=
  if f.req = .REQUIRED then genTypeCode needs f.type else code (text! "Option<") ++ genTypeCode needs f.type ++ code (text! ">")

/-- The implementation of the protocol -/
def genImpl (id : String) (life : Bool) (fieldType : List Char) (attrs wattrs fill write : List Tree) : List Tree :=
  code (text! "impl <'i> CompactThriftProtocol<'i> for") ++ [name ofGenerator id] ++ lifetime life ++ group .brace (
    code (text! "const FIELD_TYPE: u8 =") ++ code fieldType ++ code (text! ";") ++
    attrs ++ code (text! "fn fill<T: CompactThriftInput<'i>>(&mut self, input: &mut T) -> Result<(), ThriftError>") ++ group .brace (fill ++ code (text! "Ok(())")) ++
    wattrs ++ code (text! "fn write<T: CompactThriftOutput>(&self, output: &mut T) -> Result<(), ThriftError>") ++ group .brace write)

/-- The items of a struct -/
def genStruct (needs : String → Bool) (life : Bool) (id : String) (fs : List Gen.Field) (fill write : List Tree) : List Tree :=
  code (text! "#[derive(Default, Clone, Debug, PartialEq)] #[allow(non_camel_case_types)] #[allow(non_snake_case)] pub struct") ++ [name ofGenerator id] ++ lifetime life ++
  group .brace (fs.map fun f => code (text! "pub") ++ [name ofGenerator f.identifier] ++ code (text! ":") ++ genFieldCode needs f ++ code (text! ",")).flatten ++
  code (text! "impl") ++ lifetime life ++ [name ofGenerator id] ++ lifetime life ++ group .brace (
    code (text! "#[allow(non_camel_case_types)] #[allow(non_snake_case)] pub fn new") ++
    group .paren (joinWith (some (.op [','])) (fs.map fun f => [name ofGenerator f.identifier] ++ code (text! ": impl Into<") ++ genFieldCode needs f ++ code (text! ">"))) ++
    code (text! "-> Self") ++ group .brace (code (text! "Self") ++
      group .brace (fs.map fun f => [name ofGenerator f.identifier] ++ code (text! ":") ++ [name ofGenerator f.identifier] ++ code (text! ".into(),")).flatten)) ++
  genImpl id life (text! "12") (code (text! "#[inline(never)] #[allow(non_snake_case)]")) [] fill (write ++ code (text! "Ok(())"))

/-- The items of a union; the default is the first variant. -/
def genUnion (needs : String → Bool) (life : Bool) (id : String) (first : String) (us : List Gen.Field) (fill write : List Tree) : List Tree :=
  code (text! "#[derive(Clone, Debug, PartialEq)] #[allow(non_camel_case_types)] #[allow(non_snake_case)] pub enum") ++ [name ofGenerator id] ++ lifetime life ++
  group .brace (us.map fun u => [name ofGenerator u.identifier] ++ group .paren (genTypeCode needs u.type) ++ code (text! ",")).flatten ++
  code (text! "impl") ++ lifetime life ++ code (text! "Default for") ++ [name ofGenerator id] ++ lifetime life ++ group .brace (
    code (text! "fn default() -> Self") ++ group .brace (code (text! "Self::") ++ [name ofGenerator first] ++ code (text! "(Default::default())"))) ++
  genImpl id life (text! "12") [] [] fill write

/-- The items of an enum; `table` is sorted by the values. -/
def genEnum (id : String) (constants : List (String × BitVec 32)) (table : List (BitVec 32 × String)) (fill write : List Tree) : List Tree :=
  code (text! "#[derive(Default, Copy, Clone, Eq, Hash, Ord, PartialEq, PartialOrd)] #[allow(non_camel_case_types)] pub struct") ++ [name ofGenerator id] ++
  code (text! "(pub i32); impl") ++ [name ofGenerator id] ++ group .brace (
    (constants.map fun c => code (text! "pub const") ++ [name ofGenerator c.1] ++ code (text! ": Self = Self") ++ group .paren (literal true c.2.toInt) ++ code (text! ";")).flatten ++
    code (text! "const __NAMES: &'static [(i32, &'static str)] = &") ++
    group .bracket (table.map fun r => group .paren (literal true r.1.toInt ++ code (text! ",") ++ [.tok (.str r.2.toList) true]) ++ code (text! ",")).flatten ++
    code (text! "; #[inline] pub fn value(&self) -> i32 { self.0 }")) ++
  code (text! "impl From<i32> for") ++ [name ofGenerator id] ++ code (text! "{ #[inline] fn from(value: i32) -> Self { Self(value) } }") ++
  code (text! "impl std::fmt::Debug for") ++ [name ofGenerator id] ++ code (text! "{
      fn fmt(&self, f: &mut std::fmt::Formatter) -> Result<(), std::fmt::Error> {
        let name = match Self::__NAMES.binary_search_by_key(&self.0, |(i, _)| *i) { Ok(i) => &Self::__NAMES[i].1, Err(_) => \"__UNKNOWN\", };
        f.debug_tuple(name).field(&self.0).finish()
      }
    }") ++
  genImpl id false (text! "5") (code (text! "#[inline]")) (code (text! "#[inline]")) fill write

/-- The code for a definition whose meaning is `d` -/
inductive GenCode (needs : String → Bool) (life : Definition → Bool) : Definition → Def → List Tree → Prop where
  | struct {id : String} {fs : List (String × Gen.Field)} {d : Def} :
      GenCode needs life (.struct id fs) d
        (genStruct needs (life (.struct id fs)) id (fs.map (·.2)) (stmt ofGenerator (generatorFill d)) (wstmt ofGenerator false (generatorWrite d)))
  | union {id k : String} {u : Gen.Field} {us : List (String × Gen.Field)} {d : Def} :
      GenCode needs life (.union id ((k, u) :: us)) d
        (genUnion needs (life (.union id ((k, u) :: us))) id u.identifier (u :: us.map (·.2)) (stmt ofGenerator (generatorFill d)) (wstmt ofGenerator true (generatorWrite d)))
  | enum {id : String} {fs : List (String × EnumField)} {d : Def} :
      GenCode needs life (.enum id fs) d
        (genEnum id (fs.map fun f => (f.2.identifier, f.2.value)) (names fs) (stmt ofGenerator (generatorFill d)) (wstmt ofGenerator true (generatorWrite d)))

/-- The code for the definitions of a document, one after the other -/
inductive GenItems (needs : String → Bool) (life : Definition → Bool) : Document → List Def → List Tree → Prop where
  | nil : GenItems needs life [] [] []
  | cons {k : String} {x : Definition} {xs : Document} {d : Def} {ds : List Def} {ts us : List Tree} :
      GenCode needs life x d ts → GenItems needs life xs ds us → GenItems needs life ((k, x) :: xs) (d :: ds) (ts ++ us)

/-- What is before the definitions -/
def genHeader : List Tree := code (text! "#[allow(non_snake_case)] use std::borrow::Cow; use compact_thrift_runtime::*;")

/-- What comes after them -/
def genFooter : List Tree := code (text! "#[cfg(test)] mod tests { #[test] fn test_compile() {} }")

end CT.Rust.Spec
