import Verif.Proofs.GeneratedStruct
/-!
# The items of unions and enums, read from the text of the generator
-/
namespace CT.Props
open CT CT.Rust CT.Rust.Spec CT.Gen

/-! ## Unions -/

/-- A field of the document, its type as text, and the variant of the union -/
structure VariantOk (needs : String → Bool) (z : Gen.Field × List Char × CT.Variant) : Prop where
  ok : rustIdent z.1.identifier = true
  name : z.2.2.name = z.1.identifier
  id : z.2.2.id.toInt = z.1.id.toInt
  type : Chunk brk z.2.1 (flat (genTypeCode needs z.1.type))
  fine : fine (genTypeCode needs z.1.type) = true

/-- `X(T),` -/
def vdeclTree (needs : String → Bool) (f : Gen.Field) : List Tree := [name ofGenerator f.identifier] ++ group .paren (genTypeCode needs f.type) ++ code (text! ",")

theorem chunk_vdecl {needs : String → Bool} {z : Gen.Field × List Char × CT.Variant} (h : VariantOk needs z) :
    Chunk any (text! "
                " ++ z.1.identifier.toList ++ text! "(" ++ z.2.1 ++ text! "),") (flat (vdeclTree needs z.1)) := by
  simp only [List.append_assoc]
  refine Chunk.to (.lit rfl (.part (chunk_plain h.ok) ⟨_, _, rfl, rfl⟩ (.lit rfl (.part h.type ⟨_, _, rfl, rfl⟩ (.litEnd1 ',' (.inl rfl) rfl))))) ?_
  code_simp [vdeclTree, flat_append, flat_group, flat, flat1]

set_option maxRecDepth 100000 in
theorem chunk_variant {needs : String → Bool} {z : Gen.Field × List Char × CT.Variant} (h : VariantOk needs z) :
    Chunk any (text! "
                        " ++ intText z.1.id ++ text! " => {
                            *self = Self::" ++ z.1.identifier.toList ++ text! "(Default::default());
                            #[allow(unreachable_patterns)]
                            match self {
                                Self::" ++ z.1.identifier.toList ++ text! "(inner) => inner.fill(input)?,
                                _ => unsafe { std::hint::unreachable_unchecked() },
                            }
                        }") (flat (variantTree z.2.2)) := by
  simp only [List.append_assoc]
  refine Chunk.to (.lit rfl (.part (chunk_int _) ⟨_, _, rfl, rfl⟩ (.lit rfl (.part (chunk_plain h.ok) ⟨_, _, rfl, rfl⟩ (.lit rfl
    (.part (chunk_plain h.ok) ⟨_, _, rfl, rfl⟩ (.lit1 rfl))))))) ?_
  rw [variantTree, h.name, h.id]
  code_simp [flat_append, flat_group, flat, flat1]

theorem chunk_wvariant {needs : String → Bool} {z : Gen.Field × List Char × CT.Variant} (h : VariantOk needs z) :
    Chunk any (text! "
                        Self::" ++ z.1.identifier.toList ++ text! "(inner) => inner.write_field(output, " ++ intText z.1.id ++ text! ", &mut last_field_id)?, ") (flat (wvariantTree z.2.2)) := by
  simp only [List.append_assoc]
  refine Chunk.to (.lit rfl (.part (chunk_plain h.ok) ⟨_, _, rfl, rfl⟩ (.lit rfl (.part (chunk_int _) ⟨_, _, rfl, rfl⟩ (.lit1 rfl))))) ?_
  rw [wvariantTree, h.name, h.id]
  code_simp [flat_append, flat_group, flat, flat1]

theorem Writes.of {s : List Char} {ts : List Tree} (h : Chunk any s (flat ts)) (hf : fine ts = true) : Writes (appendln (trimIndent s)) ts := ⟨trim_run (Chunk.run h), hf⟩

set_option maxRecDepth 100000 in
theorem writes_union {needs : String → Bool} {zs : List (Gen.Field × List Char × CT.Variant)} {id : String} {first : Gen.Field} (b : Bool) (hid : rustIdent id = true)
    (hfirst : rustIdent first.identifier = true) (h : ∀ z ∈ zs, VariantOk needs z) :
    Writes (unionText id (if b then text! "<'i>" else []) first (zs.map fun z => (z.1, z.2.1)))
      (genUnion needs b id first.identifier (zs.map (·.1)) (stmt ofGenerator (Code.generatorFill (.union id (zs.map (·.2.2)))))
        (wstmt ofGenerator true (Code.generatorWrite (.union id (zs.map (·.2.2)))))) := by
  have he : genUnion needs b id first.identifier (zs.map (·.1)) (stmt ofGenerator (Code.generatorFill (.union id (zs.map (·.2.2)))))
        (wstmt ofGenerator true (Code.generatorWrite (.union id (zs.map (·.2.2))))) =
      (code (text! "#[derive(Clone, Debug, PartialEq)] #[allow(non_camel_case_types)] #[allow(non_snake_case)] pub enum") ++ [name ofGenerator id] ++ lifetime b ++
        group .brace (zs.map fun z => vdeclTree needs z.1).flatten) ++
      (code (text! "impl") ++ lifetime b ++ code (text! "Default for") ++ [name ofGenerator id] ++ lifetime b ++ group .brace (
        code (text! "fn default() -> Self") ++ group .brace (code (text! "Self::") ++ [name ofGenerator first.identifier] ++ code (text! "(Default::default())")))) ++
      genImpl id b (text! "12") [] [] (stmt ofGenerator (Code.generatorFill (.union id (zs.map (·.2.2))))) (wstmt ofGenerator true (Code.generatorWrite (.union id (zs.map (·.2.2))))) := by
    rw [genUnion, List.map_map]
    simp only [List.append_assoc]
    rfl
  rw [unionText, he]
  simp only [List.map_map, Function.comp_def]
  refine Writes.append (Writes.append (.of ?_ ?_) (.of ?_ ?_)) (.of ?_ ?_)
  · simp only [List.append_assoc]
    refine Chunk.to (.lit rfl <| .partLt b (chunk_plain hid) ⟨_, _, rfl, rfl⟩ <| .lit rfl <|
      .then (.flatten (g := fun z : Gen.Field × List Char × CT.Variant => flat (vdeclTree needs z.1)) fun z hz => by simpa only [List.append_assoc] using chunk_vdecl (h z hz)) <| .lit1 rfl) ?_
    code_simp [flat_append, flat_group, flat_flatten, flat, flat1]
  · code_simp [fine_append, fine_group, fine_map, fine, fine1, fine_name, fine_life, fine_literal, Bool.and_eq_true, Bool.true_and, Bool.and_true, vdeclTree]
    exact fun z hz => (h z hz).fine
  · simp only [List.append_assoc]
    refine Chunk.to (.partLt b (Chunk.fix (.word (text! "impl")) rfl) ⟨_, _, rfl, rfl⟩ <| .lit rfl <| .partLt b (chunk_plain hid) ⟨_, _, rfl, rfl⟩ <| .lit rfl <| .part (chunk_plain hfirst) ⟨_, _, rfl, rfl⟩ <| .lit1 rfl) ?_
    code_simp [flat_append, flat_group, flat_flatten, flat, flat1]
  · code_simp [fine_append, fine_group, fine_map, fine, fine1, fine_name, fine_life, fine_literal, Bool.and_eq_true, Bool.true_and, Bool.and_true]
  · simp only [List.append_assoc]
    refine Chunk.to (.lit rfl <| .partLt b (chunk_plain hid) ⟨_, _, rfl, rfl⟩ <| .lit rfl <| .then (.flatten (g := fun z : Gen.Field × List Char × CT.Variant => flat (variantTree z.2.2)) fun z hz => by simpa only [List.append_assoc] using chunk_variant (h z hz)) <|
      .quote true rfl (quotable_word (wordy_of hid).1) rfl <| .lit rfl <|
      .then (.flatten (g := fun z : Gen.Field × List Char × CT.Variant => flat (wvariantTree z.2.2)) fun z hz => by simpa only [List.append_assoc] using chunk_wvariant (h z hz)) <| .lit1 rfl) ?_
    rw [genImpl, stmt_union, wstmt_union]
    simp only [List.map_map, Function.comp_def]
    code_simp [flat_append, flat_group, flat_flatten, flat, flat1, if_true]
  · rw [genImpl, stmt_union, wstmt_union]
    simp only [List.map_map, Function.comp_def]
    code_simp [fine_append, fine_group, fine_map, fine, fine1, fine_name, fine_life, fine_literal, Bool.and_eq_true, Bool.true_and, Bool.and_true, variantTree, wvariantTree]
    exact ⟨fun _ _ => trivial, fun _ _ => trivial⟩

/-! ## Enums -/

/-- `pub const X: Self = Self(value);` -/
def constTree (f : EnumField) : List Tree :=
  code (text! "pub const") ++ [name ofGenerator f.identifier] ++ code (text! ": Self = Self") ++ group .paren (literal true f.value.toInt) ++ code (text! ";")

theorem chunk_const {f : EnumField} (h : escapedOk f.identifier = true) : Chunk any (text! "
                pub const " ++ rustIdentifier f.identifier ++ text! ": Self = Self(" ++ intText f.value ++ text! ");") (flat (constTree f)) := by
  simp only [List.append_assoc]
  refine Chunk.to (.lit rfl (.part (chunk_name h) ⟨_, _, rfl, rfl⟩ (.lit rfl (.part (chunk_int _) ⟨_, _, rfl, rfl⟩ (.litEnd1 ';' (.inr rfl) rfl))))) ?_
  code_simp [constTree, flat_append, flat_group, flat, flat1]

/-- `(value, "X"),` -/
def rowTree (f : EnumField) : List Tree := group .paren (literal true f.value.toInt ++ code (text! ",") ++ [.tok (.str f.identifier.toList) true]) ++ code (text! ",")

theorem chunk_row {f : EnumField} (h : escapedOk f.identifier = true) : Chunk any (text! "
                     (" ++ intText f.value ++ text! ", \"" ++ f.identifier.toList ++ text! "\"),") (flat (rowTree f)) := by
  simp only [List.append_assoc]
  have := Chunk.quote (F := any) (pre := text! ", \"") (r := []) (post := text! "\"),") false rfl (quotable_name h) rfl (by rw [List.append_nil]; exact .litEnd1 ',' (.inl rfl) rfl)
  rw [List.append_nil] at this
  refine Chunk.to (.lit rfl (.part (chunk_int _) ⟨_, _, rfl, rfl⟩ this)) ?_
  code_simp [rowTree, flat_append, flat_group, flat, flat1, Bool.false_eq_true, if_false]

set_option maxRecDepth 100000 in
theorem writes_enum {id : String} {fs : List (String × EnumField)} (hid : escapedOk id = true) (h : ∀ f ∈ fs, escapedOk f.2.identifier = true) :
    Writes (enumText id (fs.map (·.2)))
      (genEnum id (fs.map fun f => (f.2.identifier, f.2.value)) (names fs) (stmt ofGenerator (Code.generatorFill (.enum id))) (wstmt ofGenerator true (Code.generatorWrite (.enum id)))) := by
  have hs : ∀ f ∈ (fs.map (·.2)).mergeSort fun a b => BitVec.sle a.value b.value, escapedOk f.identifier = true := by
    intro f hf
    have := List.mem_mergeSort.mp hf
    obtain ⟨p, hp, rfl⟩ := List.mem_map.mp this
    exact h p hp
  have he : genEnum id (fs.map fun f => (f.2.identifier, f.2.value)) (names fs) (stmt ofGenerator (Code.generatorFill (.enum id))) (wstmt ofGenerator true (Code.generatorWrite (.enum id))) =
      (code (text! "#[derive(Default, Copy, Clone, Eq, Hash, Ord, PartialEq, PartialOrd)] #[allow(non_camel_case_types)] pub struct") ++ [name ofGenerator id] ++
        code (text! "(pub i32); impl") ++ [name ofGenerator id] ++ group .brace (
          (fs.map fun f => constTree f.2).flatten ++ code (text! "const __NAMES: &'static [(i32, &'static str)] = &") ++
          group .bracket (((fs.map (·.2)).mergeSort fun a b => BitVec.sle a.value b.value).map rowTree).flatten ++
          code (text! "; #[inline] pub fn value(&self) -> i32 { self.0 }"))) ++
      (code (text! "impl From<i32> for") ++ [name ofGenerator id] ++ code (text! "{ #[inline] fn from(value: i32) -> Self { Self(value) } }")) ++
      (code (text! "impl std::fmt::Debug for") ++ [name ofGenerator id] ++ code (text! "{
        fn fmt(&self, f: &mut std::fmt::Formatter) -> Result<(), std::fmt::Error> {
          let name = match Self::__NAMES.binary_search_by_key(&self.0, |(i, _)| *i) { Ok(i) => &Self::__NAMES[i].1, Err(_) => \"__UNKNOWN\", };
          f.debug_tuple(name).field(&self.0).finish()
        }
      }")) ++
      genImpl id false (text! "5") (code (text! "#[inline]")) (code (text! "#[inline]")) (stmt ofGenerator (Code.generatorFill (.enum id)))
        (wstmt ofGenerator true (Code.generatorWrite (.enum id))) := by
    rw [genEnum, names, List.map_map, List.map_map]
    unfold rowTree constTree
    code_simp [genImpl, group, Function.comp_def]
  rw [enumText, he]
  simp only [List.map_map, Function.comp_def]
  refine Writes.append (Writes.append (Writes.append (.of ?_ ?_) (.of ?_ ?_)) (.of ?_ ?_)) (.of ?_ ?_)
  · simp only [List.append_assoc]
    refine Chunk.to (.lit rfl <| .part (chunk_name hid) ⟨_, _, rfl, rfl⟩ <| .lit rfl <| .part (chunk_name hid) ⟨_, _, rfl, rfl⟩ <| .lit rfl <|
      .then (.flatten (g := fun f : String × EnumField => flat (constTree f.2)) fun f hf => by simpa only [List.append_assoc] using chunk_const (h f hf)) <| .lit rfl <|
      .then (.flatten (g := fun f : EnumField => flat (rowTree f)) fun f hf => by simpa only [List.append_assoc] using chunk_row (hs f hf)) <| .lit1 rfl) ?_
    code_simp [flat_append, flat_group, flat_flatten, flat, flat1]
  · code_simp [fine_append, fine_group, fine_map, fine, fine1, fine_name, fine_life, fine_literal, Bool.and_eq_true, Bool.true_and, Bool.and_true, constTree, rowTree]
    exact ⟨fun _ _ => trivial, fun _ _ => trivial⟩
  · simp only [List.append_assoc]
    refine Chunk.to (.lit rfl <| .part (chunk_name hid) ⟨_, _, rfl, rfl⟩ <| .lit1 rfl) ?_
    code_simp [flat_append, flat, flat1]
  · code_simp [fine_append, fine_group, fine_map, fine, fine1, fine_name, fine_life, fine_literal, Bool.and_eq_true, Bool.true_and, Bool.and_true]
  · simp only [List.append_assoc]
    refine Chunk.to (.lit rfl <| .part (chunk_name hid) ⟨_, _, rfl, rfl⟩ <| .lit1 rfl) ?_
    code_simp [flat_append, flat, flat1]
  · code_simp [fine_append, fine_group, fine_map, fine, fine1, fine_name, fine_life, fine_literal, Bool.and_eq_true, Bool.true_and, Bool.and_true]
  · simp only [List.append_assoc]
    refine Chunk.to (.lit rfl <| .part (chunk_name hid) ⟨_, _, rfl, rfl⟩ <| .lit1 rfl) ?_
    rw [genImpl]
    simp only [Code.generatorFill, Code.generatorWrite]
    code_simp [flat_append, flat_group, flat, flat1]
  · rw [genImpl]
    simp only [Code.generatorFill, Code.generatorWrite]
    code_simp [fine_append, fine_group, fine_map, fine, fine1, fine_name, fine_life, fine_literal, Bool.and_eq_true, Bool.true_and, Bool.and_true]

/-! ## What is around the definitions -/

set_option maxRecDepth 100000 in
theorem writes_footer : Writes finishText genFooter := .of (.to (.lit1 rfl) rfl) rfl

theorem run_comment {s : List Char} (h : ∀ c ∈ s, c ≠ '\n') : run .comment s = some ([], .comment) := by
  induction s with
  | nil => rfl
  | cons c s ih =>
    rw [run, step, if_neg (by simpa using h c (by simp)), Option.bind_some]
    simp [ih fun d hd => h d (by simp [hd])]

theorem writes_comment {pre s : List Char} (hp : run .between pre = some ([], .comment)) (h : ∀ c ∈ s, c ≠ '\n') : Writes (appendln (pre ++ s)) [] := by
  refine ⟨?_, rfl⟩
  rw [appendln, run_append, run_append, hp, Option.bind_some, run_comment h]
  rfl

theorem writes_header {now : List Char} {header : Header} (hn : ∀ c ∈ now, c ≠ '\n') (hi : header.includes = []) (hs : ∀ s, rustNamespace header = some s → ∀ c ∈ s.toList, c ≠ '\n') :
    Writes (headerText now header) genHeader := by
  rw [headerText, hi, show genHeader = ((((code (text! "#[allow(non_snake_case)]") ++ []) ++ []) ++ []) ++ code (text! "use std::borrow::Cow;")) ++ code (text! "use compact_thrift_runtime::*;") from rfl]
  refine Writes.append (Writes.append (Writes.append (Writes.append (Writes.append ⟨rfl, rfl⟩ (writes_comment rfl hn)) ?_) ⟨rfl, rfl⟩) ⟨rfl, rfl⟩) ⟨rfl, rfl⟩
  cases hr : rustNamespace header with
  | none => exact ⟨rfl, rfl⟩
  | some s => exact writes_comment rfl (hs s hr)

end CT.Props
