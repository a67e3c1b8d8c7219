import Verif.Proofs.Normal
/-!
# The items of the generator, read from its text
-/
namespace CT.Props
open CT CT.Rust CT.Rust.Spec CT.Gen

/-! ## The statements of the templates, field by field -/

/-- `let mut x_set_: bool = false;` -/
def flagTree (s : String) : List Tree :=
  code (text! "let mut") ++ [localVar (Code.Style.generator.flag s)] ++ code (text! ": bool") ++ code (text! "=") ++ code (text! "false") ++ code (text! ";")

theorem stmt_flags (fs : List CT.Field) (z : Code.Stmt) :
    stmt ofGenerator (Code.Style.generator.flags fs z) = ((fs.filter fun f => f.required).map fun f => flagTree f.name).flatten ++ stmt ofGenerator z := by
  induction fs with
  | nil => rfl
  | cons f fs ih =>
    rw [Code.Style.flags]
    split
    · rename_i h
      rw [stmt, ih, List.filter_cons_of_pos h, List.map_cons, List.flatten_cons]
      code_simp [flagTree, binder]
      rfl
    · rename_i h
      rw [ih, List.filter_cons_of_neg h]

/-- `x_set_ = true;` -/
def setTree (f : CT.Field) : List Tree :=
  if f.required then [localVar (Code.Style.generator.flag f.name)] ++ code (text! "=") ++ code (text! "true") ++ code (text! ";") else []

/-- `id => { … }` -/
def armTree (f : CT.Field) : List Tree :=
  literal true f.id.toInt ++ code (text! "=>") ++ group .brace (setTree f ++ (code (text! "self.") ++ [name ofGenerator f.name] ++ code (text! ".fill_field(input, field_type)?;")))

theorem stmt_fieldArm (f : CT.Field) : stmt ofGenerator (Code.Style.generator.fieldArm f) =
    setTree f ++ (code (text! "self.") ++ [name ofGenerator f.name] ++ code (text! ".fill_field(input, field_type)?;")) := by
  rw [Code.Style.fieldArm, stmt, stmt]
  congr 1
  · rw [setTree]
    split
    · rw [stmt]
      code_simp []
    · rfl

theorem arms_cons (id : BitVec 16) (a : Code.Stmt) (rest : Code.Arms) :
    arms ofGenerator (.arm id a rest) = literal true id.toInt ++ code (text! "=>") ++ group .brace (stmt ofGenerator a) ++ arms ofGenerator rest := by
  cases rest with
  | other b => rw [arms, arms]; rfl
  | arm => rw [arms]; · simp only [ofGenerator, List.append_nil]
           · intro b h; cases h

theorem arms_fieldArms (fs : List CT.Field) : arms ofGenerator (Code.Style.generator.fieldArms fs) =
    (fs.map armTree).flatten ++ code (text! "_ => { input.skip_field(field_type)?; }") := by
  induction fs with
  | nil => rfl
  | cons f fs ih => rw [Code.Style.fieldArms, arms_cons, ih, stmt_fieldArm, List.map_cons, List.flatten_cons, armTree]
                    simp only [List.append_assoc]

/-- `if !x_set_ { return Err(…) }` -/
def checkTree (id : String) (s : String) : List Tree :=
  code (text! "if !") ++ [localVar (Code.Style.generator.flag s)] ++
    group .brace (code (text! "return Err") ++ group .paren (code (text! "ThriftError::MissingField") ++
      group .paren ([.tok (.cstr (id ++ "::" ++ s).toList) true] ++ code (text! ".into()"))))

theorem stmt_checks (id : String) (fs : List CT.Field) :
    stmt ofGenerator (Code.Style.generator.checks id fs) = ((fs.filter fun f => f.required).map fun f => checkTree id f.name).flatten := by
  induction fs with
  | nil => rfl
  | cons f fs ih =>
    rw [Code.Style.checks, stmt, ih]
    split
    · rename_i h
      rw [List.filter_cons_of_pos h, List.map_cons, List.flatten_cons]
      congr 1
    · rename_i h
      rw [List.filter_cons_of_neg h]
      rfl

/-- `self.x.write_field(…)?;` -/
def writeTree (f : CT.Field) : List Tree :=
  code (text! "self.") ++ [name ofGenerator f.name] ++ code (text! ".write_field") ++ group .paren (code (text! "output,") ++ literal true f.id.toInt ++ code (text! ", &mut last_field_id")) ++
    code (text! "?;")

theorem wstmt_fields (fs : List CT.Field) (z : Code.WStmt) :
    wstmt ofGenerator false (Code.wseqs (fs.map fun f => .writeField f.name (Code.Style.generator.own "output") f.id (Code.Style.generator.own "last_field_id")) z) =
      (fs.map writeTree).flatten ++ wstmt ofGenerator false z := by
  induction fs with
  | nil => rfl
  | cons f fs ih =>
    rw [List.map_cons, Code.wseqs, wstmt, ih, List.map_cons, List.flatten_cons, List.append_assoc]
    congr 1
    rw [wstmt, writeTree]
    code_simp [group, word]
    rfl

/-- The body of `fill` of a struct -/
theorem stmt_struct (id : String) (fs : List CT.Field) : stmt ofGenerator (Code.generatorFill (.struct id fs)) =
    ((fs.filter fun f => f.required).map fun f => flagTree f.name).flatten ++
    code (text! "let mut last_field_id = 0_i16; loop") ++ group .brace (
      code (text! "let field_type = input.read_field_header(&mut last_field_id)?; if field_type == 0 { break; } match last_field_id") ++
      group .brace ((fs.map armTree).flatten ++ code (text! "_ => { input.skip_field(field_type)?; }"))) ++
    ((fs.filter fun f => f.required).map fun f => checkTree id f.name).flatten := by
  rw [Code.generatorFill, Code.Style.structFillGenerator, stmt_flags, stmt, stmt, stmt_checks, stmt, Code.Style.structRound, stmt, stmt, stmt, stmt.eq_8, arms_fieldArms]
  code_simp [group]

/-- The body of `write` of a struct -/
theorem wstmt_struct (id : String) (fs : List CT.Field) : wstmt ofGenerator false (Code.generatorWrite (.struct id fs)) =
    (if fs.isEmpty then [] else code (text! "let mut last_field_id = 0_i16;")) ++ (fs.map writeTree).flatten ++ code (text! "output.write_byte(0)?;") := by
  rw [Code.generatorWrite, Code.Style.structWrite]
  cases fs with
  | nil => rfl
  | cons f fs =>
    simp only [Bool.false_or, List.isEmpty_cons, Bool.not_false, if_true, Bool.false_eq_true, if_false]
    rw [wstmt, wstmt_fields, wstmt]
    code_simp [group]
    rfl

/-- `id => { *self = …; match self { … } }` -/
def variantTree (u : CT.Variant) : List Tree :=
  literal true u.id.toInt ++ code (text! "=>") ++ group .brace (code (text! "*self = Self::") ++ [name ofGenerator u.name] ++
    code (text! "(Default::default()); #[allow(unreachable_patterns)] match self") ++
    group .brace (code (text! "Self::") ++ [name ofGenerator u.name] ++ code (text! "(inner) => inner.fill(input)?, _ => unsafe { std::hint::unreachable_unchecked() },")))

theorem arms_variantArms (id : String) (us : List CT.Variant) : arms ofGenerator (Code.Style.generator.variantArms id us) =
    (us.map variantTree).flatten ++ (code (text! "_ =>") ++ group .brace (code (text! "return Err") ++ group .paren (code (text! "ThriftError::MissingField") ++
      group .paren ([.tok (.cstr id.toList) true] ++ code (text! ".into()"))))) := by
  induction us with
  | nil => rfl
  | cons u us ih =>
    rw [Code.Style.variantArms, arms_cons, ih, List.map_cons, List.flatten_cons, variantTree, stmt, stmt, stmt]
    code_simp [group, word]
    rfl

/-- The body of `fill` of a union -/
theorem stmt_union (id : String) (us : List CT.Variant) : stmt ofGenerator (Code.generatorFill (.union id us)) =
    code (text! "let mut last_field_id = 0_i16; let field_type = input.read_field_header(&mut last_field_id)?;
      if field_type == 0 { return Err(ThriftError::InvalidType); } match last_field_id") ++
    group .brace ((us.map variantTree).flatten ++ (code (text! "_ =>") ++ group .brace (code (text! "return Err") ++ group .paren (code (text! "ThriftError::MissingField") ++
      group .paren ([.tok (.cstr id.toList) true] ++ code (text! ".into()")))))) ++
    code (text! "let stop = input.read_byte()?; if stop != 0 { return Err(ThriftError::MissingStop) }") := by
  rw [Code.generatorFill, Code.Style.unionFill, stmt, stmt, stmt, stmt, stmt, stmt.eq_8, arms_variantArms]
  code_simp [group]

/-- `Self::x(inner) => inner.write_field(…)?,` -/
def wvariantTree (u : CT.Variant) : List Tree :=
  code (text! "Self::") ++ [name ofGenerator u.name] ++ code (text! "(inner) => inner.write_field") ++
    group .paren (code (text! "output,") ++ literal true u.id.toInt ++ code (text! ", &mut last_field_id")) ++ code (text! "?,")

theorem warms_variants (us : List CT.Variant) : warms ofGenerator true (Code.Style.generator.writeArms us) = (us.map wvariantTree).flatten := by
  induction us with
  | nil => rfl
  | cons u us ih =>
    rw [Code.Style.writeArms, warms, ih, List.map_cons, List.flatten_cons, wvariantTree]
    · code_simp [group, word]
      rfl
    · intro h; cases h

/-- The body of `write` of a union -/
theorem wstmt_union (id : String) (us : List CT.Variant) : wstmt ofGenerator true (Code.generatorWrite (.union id us)) =
    code (text! "let mut last_field_id = 0_i16; match self") ++ group .brace (us.map wvariantTree).flatten ++ code (text! "output.write_byte(0)") := by
  rw [Code.generatorWrite, Code.Style.unionWrite, wstmt, wstmt, wstmt, show ofGenerator.trailing = true from rfl, warms_variants]
  code_simp [group]
  rfl

end CT.Props
