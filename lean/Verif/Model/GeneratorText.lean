import Verif.Model.ThriftParser
import Verif.Model.GeneratorCode
import Verif.Model.MacroText
/-!
# The text the generator writes: generator/src/main/java/net/jhorstmann/compactthrift/Generator.kt

The templates are quoted with their white space; what is between the pieces of a template is what Kotlin interpolates there. `none` stands for an exception
(`depth` is how deep calls can nest). The line separator is a line feed. Constants, exceptions and services do not get here (`mapDefinition` throws).
-/
namespace CT.Gen
open CT.Rust

/-! ## `trimIndent` of Kotlin's standard library -/

/-- `Char.isWhitespace` -/
def isWhitespace (c : Char) : Bool :=
  let n := c.toNat
  (9 ≤ n && n ≤ 13) || (28 ≤ n && n ≤ 32) || n == 0xA0 || n == 0x1680 || (0x2000 ≤ n && n ≤ 0x200A) || n == 0x2028 || n == 0x2029 || n == 0x202F ||
  n == 0x205F || n == 0x3000

/-- `lines`, of a text without carriage returns -/
def textLines : List Char → List (List Char)
  | [] => [[]]
  | c :: cs =>
    if c = '\n' then [] :: textLines cs
    else match textLines cs with
      | [] => [[c]]
      | l :: ls => (c :: l) :: ls

def isBlank (l : List Char) : Bool := l.all isWhitespace

/-- `indentWidth` -/
def indentWidth (l : List Char) : Nat := (l.takeWhile isWhitespace).length

/-- `lines.filter(String::isNotBlank).map(String::indentWidth).min() ?: 0` -/
def minCommonIndent (ls : List (List Char)) : Nat := (((ls.filter fun l => !isBlank l).map indentWidth).min?).getD 0

/-- `reindent`: the first and the last line are left out if they are blank. -/
def dropFirst : List (List Char) → List (List Char)
  | [] => []
  | l :: ls => if isBlank l then ls else l :: ls

def dropLast (ls : List (List Char)) : List (List Char) := (dropFirst ls.reverse).reverse

/-- `joinToString("\n")` -/
def joinNl : List (List Char) → List Char
  | [] => []
  | [l] => l
  | l :: ls => l ++ '\n' :: joinNl ls

/-- `String.trimIndent` -/
def trimIndent (s : List Char) : List Char :=
  let ls := textLines s
  joinNl ((dropLast (dropFirst ls)).map fun l => l.drop (minCommonIndent ls))

/-- `StringBuilder.appendln` -/
def appendln (s : List Char) : List Char := s ++ ['\n']

/-! ## Generator.kt:8-77 -/

/-- Generator.kt:8-14 `rustIdentifier` -/
def rustIdentifier (identifier : String) : List Char := if identifier = "type" then text! "r#" ++ identifier.toList else identifier.toList

/-- Generator.kt:42-48 `lifetimeAnnotation` -/
def lifetimeText (document : Document) (depth : Nat) : Option Definition → Option (List Char)
  | none => some []
  | some d => (definitionNeedsLifeTime document depth d).map fun b => if b then text! "<'i>" else []

/-- Generator.kt:54-77 `RustFieldTypeVisitor` -/
def fieldTypeText (document : Document) (depth : Nat) : FieldType → Option (List Char)
  | .named name => (lifetimeText document depth (get? name document)).map (name.toList ++ ·)
  | .base .BOOL => some (text! "bool")
  | .base .BYTE => some (text! "u8")
  | .base .I16 => some (text! "i16")
  | .base .I32 => some (text! "i32")
  | .base .I64 => some (text! "i64")
  | .base .DOUBLE => some (text! "f64")
  | .base .STRING => some (text! "Cow<'i, str>")
  | .base .BINARY => some (text! "Cow<'i, [u8]>")
  | .map k v => (fieldTypeText document depth k).bind fun k => (fieldTypeText document depth v).map fun v => text! "HashMap<" ++ k ++ text! ", " ++ v ++ text! ">"
  | .set t => (fieldTypeText document depth t).map fun t => text! "HashSet<" ++ t ++ text! ">"
  | .list t => (fieldTypeText document depth t).map fun t => text! "Vec<" ++ t ++ text! ">"

/-- Generator.kt:143-151 `rustType` -/
def rustTypeText (document : Document) (depth : Nat) (fieldType : FieldType) (req : FieldReq) : Option (List Char) :=
  (fieldTypeText document depth fieldType).map fun type => if req = .REQUIRED then type else text! "Option<" ++ type ++ text! ">"

/-- `"$value"` of an `Int` -/
def intText (n : BitVec 32) : List Char := if n.toInt < 0 then '-' :: Nat.toDigits 10 n.toInt.natAbs else Nat.toDigits 10 n.toInt.natAbs

/-! ## Generator.kt:103-138 -/

/-- Generator.kt:107-118 `finish` -/
def finishText : List Char := appendln (trimIndent (text! "
            #[cfg(test)]
            mod tests {
                #[test]
                fn test_compile() {

                }
            }
        "))

/-- `replace(".", "::")` -/
def dotsToColons (s : List Char) : List Char := (s.map fun c => if c = '.' then [':', ':'] else [c]).flatten

/-- Generator.kt:123 -/
def rustNamespace (header : Header) : Option String :=
  match get? "rust" header.namespaces with
  | some n => some n
  | none => get? "*" header.namespaces

/-- Generator.kt:121-134 `visitHeader`; `now` is what `Instant.now()` is as a string. -/
def headerText (now : List Char) (header : Header) : List Char :=
  let namespace_ := rustNamespace header
  let prefix_ := match namespace_ with
    | some n => dotsToColons n.toList ++ text! "::"
    | none => []
  appendln (text! "#[allow(non_snake_case)]") ++
  appendln (text! "// Generated on " ++ now) ++
  (match namespace_ with
    | some n => appendln (text! "// namepace=" ++ n.toList)
    | none => []) ++
  (header.includes.map fun it => appendln (text! "use crate::" ++ prefix_ ++ it.toList ++ text! ";")).flatten ++
  appendln (text! "use std::borrow::Cow;") ++
  appendln (text! "use compact_thrift_runtime::*;")

/-! ## Generator.kt:141-355 -/

/-- Generator.kt:160-164 `visitTypeDef` -/
def typedefText (identifier : String) (type : List Char) : List Char := appendln (trimIndent (text! "
            pub type " ++ rustIdentifier identifier ++ text! " = " ++ type ++ text! ";
        "))

/-- Generator.kt:166-224 `visitEnum` -/
def enumText (identifier : String) (fields : List EnumField) : List Char :=
  appendln (trimIndent (text! "
            #[derive(Default, Copy, Clone, Eq, Hash, Ord, PartialEq, PartialOrd)]
            #[allow(non_camel_case_types)]
            pub struct " ++ rustIdentifier identifier ++ text! "(pub i32);

            impl " ++ rustIdentifier identifier ++ text! " {" ++ (fields.map fun it => text! "
                pub const " ++ rustIdentifier it.identifier ++ text! ": Self = Self(" ++ intText it.value ++ text! ");").flatten ++ text! "
                
                const __NAMES: &'static [(i32, &'static str)] = &[" ++ ((fields.mergeSort fun a b => BitVec.sle a.value b.value).map fun it => text! "
                     (" ++ intText it.value ++ text! ", \"" ++ it.identifier.toList ++ text! "\"),").flatten ++ text! "
                 ];
                
                #[inline]
                pub fn value(&self) -> i32 {
                    self.0
                }
            }")) ++
  appendln (trimIndent (text! "
            impl From<i32> for " ++ rustIdentifier identifier ++ text! " {
                #[inline]
                fn from(value: i32) -> Self {
                    Self(value)
                }
            }")) ++
  appendln (trimIndent (text! "
            impl std::fmt::Debug for " ++ rustIdentifier identifier ++ text! " {
                fn fmt(&self, f: &mut std::fmt::Formatter) -> Result<(), std::fmt::Error> {
                    let name = match Self::__NAMES.binary_search_by_key(&self.0, |(i, _)| *i) {
                        Ok(i) => &Self::__NAMES[i].1,
                        Err(_) => \"__UNKNOWN\",
                    };
                    f.debug_tuple(name).field(&self.0).finish()
                }
            }")) ++
  appendln (trimIndent (text! "
            impl <'i> CompactThriftProtocol<'i> for " ++ rustIdentifier identifier ++ text! " {
                const FIELD_TYPE: u8 = 5; // i32
                
                #[inline]
                fn fill<T: CompactThriftInput<'i>>(&mut self, input: &mut T) -> Result<(), ThriftError> {
                    self.0 = input.read_i32()?;
                    Ok(())
                }

                #[inline]
                fn write<T: CompactThriftOutput>(&self, output: &mut T) -> Result<(), ThriftError> {
                    output.write_i32(self.0)
                }
            }

        "))

/-- Generator.kt:226-288 `visitStruct`; the fields with their types -/
def structText (identifier : String) (lifetimeAnnotation : List Char) (fields : List (Field × List Char)) : List Char :=
  let required := fields.filter fun it => it.1.req = .REQUIRED
  appendln (trimIndent (text! "
            #[derive(Default, Clone, Debug, PartialEq)]
            #[allow(non_camel_case_types)]
            #[allow(non_snake_case)]
            pub struct " ++ rustIdentifier identifier ++ lifetimeAnnotation ++ text! " {" ++ (fields.map fun it => text! "
                pub " ++ rustIdentifier it.1.identifier ++ text! ": " ++ it.2 ++ text! ",").flatten ++ text! "
            }
            
            impl" ++ lifetimeAnnotation ++ text! " " ++ rustIdentifier identifier ++ lifetimeAnnotation ++ text! " {
                #[allow(non_camel_case_types)]
                #[allow(non_snake_case)]
                pub fn new(" ++ joinComma (fields.map fun it => rustIdentifier it.1.identifier ++ text! ": impl Into<" ++ it.2 ++ text! ">") ++ text! ") -> Self {
                    Self {" ++ (fields.map fun it => text! "
                        " ++ rustIdentifier it.1.identifier ++ text! ": " ++ rustIdentifier it.1.identifier ++ text! ".into(),").flatten ++ text! "
                    }
                }
            }
            
            impl <'i> CompactThriftProtocol<'i> for " ++ rustIdentifier identifier ++ lifetimeAnnotation ++ text! " {
                const FIELD_TYPE: u8 = 12;
                
                #[inline(never)]
                #[allow(non_snake_case)]
                fn fill<T: CompactThriftInput<'i>>(&mut self, input: &mut T) -> Result<(), ThriftError> {" ++ (required.map fun it => text! "
                    let mut " ++ rustIdentifier it.1.identifier ++ text! "_set_: bool = false;").flatten ++ text! "
                    let mut last_field_id = 0_i16;
                    loop {
                        let field_type = input.read_field_header(&mut last_field_id)?;
                        if field_type == 0 {
                            break;
                        }
                        
                        match last_field_id {" ++ (fields.map fun it => text! "
                            " ++ intText it.1.id ++ text! " => {
                                " ++ (if it.1.req = .REQUIRED then rustIdentifier it.1.identifier ++ text! "_set_ = true;" else []) ++ text! "
                                self." ++ rustIdentifier it.1.identifier ++ text! ".fill_field(input, field_type)?;
                            }").flatten ++ text! "
                            _ => {
                                input.skip_field(field_type)?;
                            }
                        }
                    }
                    " ++ (required.map fun it => text! "
                    if !" ++ rustIdentifier it.1.identifier ++ text! "_set_ {
                        return Err(ThriftError::MissingField(c\"" ++ identifier.toList ++ text! "::" ++ it.1.identifier.toList ++ text! "\".into()))
                    }
                    ").flatten ++ text! "
                    
                    Ok(())
                }
                
                fn write<T: CompactThriftOutput>(&self, output: &mut T) -> Result<(), ThriftError> {
                    " ++ (if fields.isEmpty then [] else text! "let mut last_field_id = 0_i16;") ++ (fields.map fun it => text! "
                    self." ++ rustIdentifier it.1.identifier ++ text! ".write_field(output, " ++ intText it.1.id ++ text! ", &mut last_field_id)?;").flatten ++ text! "
                    output.write_byte(0)?;
                    Ok(())
                }
            }"))
where
  /-- `joinToString(", ")` -/
  joinComma : List (List Char) → List Char
    | [] => []
    | [s] => s
    | s :: ss => s ++ text! ", " ++ joinComma ss

/-- Generator.kt:290-355 `visitUnion`; the fields with their types -/
def unionText (identifier : String) (lifetimeAnnotation : List Char) (first : Field) (fields : List (Field × List Char)) : List Char :=
  appendln (trimIndent (text! "
            #[derive(Clone, Debug, PartialEq)]
            #[allow(non_camel_case_types)]
            #[allow(non_snake_case)]
            pub enum " ++ identifier.toList ++ lifetimeAnnotation ++ text! " {" ++ (fields.map fun it => text! "
                " ++ it.1.identifier.toList ++ text! "(" ++ it.2 ++ text! "),").flatten ++ text! "
            }")) ++
  appendln (trimIndent (text! "
            impl" ++ lifetimeAnnotation ++ text! " Default for " ++ identifier.toList ++ lifetimeAnnotation ++ text! " {
                fn default() -> Self {
                    Self::" ++ first.identifier.toList ++ text! "(Default::default())
                }
            }
            ")) ++
  appendln (trimIndent (text! "
            impl <'i> CompactThriftProtocol<'i> for " ++ identifier.toList ++ lifetimeAnnotation ++ text! " {
                const FIELD_TYPE: u8 = 12;
                fn fill<T: CompactThriftInput<'i>>(&mut self, input: &mut T) -> Result<(), ThriftError> {
                    let mut last_field_id = 0_i16;
                    let field_type = input.read_field_header(&mut last_field_id)?;
                        
                    if field_type == 0 {
                        return Err(ThriftError::InvalidType);
                    }
                        
                    match last_field_id {" ++ (fields.map fun it => text! "
                        " ++ intText it.1.id ++ text! " => {
                            *self = Self::" ++ it.1.identifier.toList ++ text! "(Default::default());
                            #[allow(unreachable_patterns)]
                            match self {
                                Self::" ++ it.1.identifier.toList ++ text! "(inner) => inner.fill(input)?,
                                _ => unsafe { std::hint::unreachable_unchecked() },
                            }
                        }").flatten ++ text! "
                        _ => {
                            return Err(ThriftError::MissingField(c\"" ++ identifier.toList ++ text! "\".into()))
                        }
                    }
                    let stop = input.read_byte()?;
                    if stop != 0 {
                        return Err(ThriftError::MissingStop)
                    }
                    
                    Ok(())
                }
                
                fn write<T: CompactThriftOutput>(&self, output: &mut T) -> Result<(), ThriftError> {
                    let mut last_field_id = 0_i16;
                    match self {" ++ (fields.map fun it => text! "
                        Self::" ++ it.1.identifier.toList ++ text! "(inner) => inner.write_field(output, " ++ intText it.1.id ++ text! ", &mut last_field_id)?, ").flatten ++ text! "
                    }
                    // STOP
                    output.write_byte(0)
                }
            }
        "))

/-- A field with its type; Generator.kt:234, 241, 301 -/
def typedField (document : Document) (depth : Nat) (req : Field → FieldReq) (f : Field) : Option (Field × List Char) :=
  (rustTypeText document depth f.type (req f)).map fun t => (f, t)

/-- Generator.kt:136-138 `visitDefinition` -/
def definitionText (document : Document) (depth : Nat) : Definition → Option (List Char)
  | .typedef identifier t => (rustTypeText document depth t .REQUIRED).map (typedefText identifier)
  | .enum identifier fields => some (enumText identifier (fields.map (·.2)))
  | .struct identifier fields => do
    let lifetimeAnnotation ← lifetimeText document depth (some (.struct identifier fields))
    let fs ← (fields.map (·.2)).mapM (typedField document depth Field.req)
    pure (structText identifier lifetimeAnnotation fs)
  | .union identifier fields => do
    let lifetimeAnnotation ← lifetimeText document depth (some (.union identifier fields))
    let fs ← (fields.map (·.2)).mapM (typedField document depth fun _ => .REQUIRED)
    -- `fields.values.first()`
    let first ← (fields.map (·.2)).head?
    pure (unionText identifier lifetimeAnnotation first fs)

/-- Generator.kt:98-101 `generate`; Domain.kt:4-10: the header, the definitions, `finish` -/
def generateText (now : List Char) (header : Header) (document : Document) (depth : Nat) : Option (List Char) := do
  let ds ← (document.map (·.2)).mapM (definitionText document depth)
  pure (headerText now header ++ ds.flatten ++ finishText)

end CT.Gen
