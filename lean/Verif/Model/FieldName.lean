import Verif.Model.Types
/-!
# Names of missing fields

runtime/src/error.rs:25-62. A `FieldName` is a pointer without length; displaying it looks for the terminating nul byte.
-/
namespace CT

/-- Memory: the byte at an address, if there is one that may be read. -/
abbrev Mem := Nat → Option Byte

/-- error.rs:27-30 -/
structure FieldName where
  name : Nat
deriving DecidableEq

/-- error.rs:44-51 `From<&'static str>`, the string given by its address and length. -/
def FieldName.ofStr (mem : Mem) (ptr len : Nat) : Except Fail FieldName :=
  if len = 0 then .error .panic
  else match mem (ptr + (len - 1)) with
    | none => .error .ub
    | some b => if b = 0 then .ok ⟨ptr⟩ else .error .panic

/-- `CStr::from_ptr(p).to_bytes()`: everything before the next nul byte; reading an address that may not be read is undefined behaviour.
The first argument bounds the search. -/
def cstr (mem : Mem) : Nat → Nat → Except Fail Bytes
  | 0, _ => .error .diverge
  | fuel + 1, p =>
    match mem p with
    | none => .error .ub
    | some b =>
      if b = 0 then .ok []
      else match cstr mem fuel (p + 1) with
        | .error x => .error x
        | .ok bs => .ok (b :: bs)

/-- error.rs:59-62 `Display`: `to_string_lossy` returns UTF-8 unchanged. Simplification: its treatment of anything else is not modelled. -/
def FieldName.display (mem : Mem) (fuel : Nat) (f : FieldName) : Except Fail Bytes :=
  match cstr mem fuel f.name with
  | .error x => .error x
  | .ok bs => if utf8Valid bs then .ok bs else .error .stuck

/-- macros.rs:294 `concat!(stringify!($struct_name), "::", stringify!($field_name), "\0")` -/
def missingFieldLiteral (structName fieldName : String) : String := structName ++ "::" ++ fieldName ++ "\x00"

end CT
