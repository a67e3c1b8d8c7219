import Verif.Proofs.PqTree
import Verif.Proofs.PqParse
import Verif.Props.SchemaReports
/-!
# C113: the code of parquet/src/bin/schema.rs does what the model says

The text of schema.rs is parsed as Rust; `convert_schema` and the methods of `SchemaField` are run, on any list of elements and on any tree of fields.
-/
namespace CT.Props
open CT CT.Parquet CT.Schema CT.Pq CT.Spec

/-- C113: the file parses, and `schemaItems` is what it parses to. -/
theorem C113_text : parseText schemaText = some schemaItems := parse_schema

theorem runText_schema {f : Rs.Name} {fn : Pq.Fn} (h : assoc schemaProg.fns f = some fn) (cfg : Cfg) (cap : Nat → Except PFail Unit) (n : Nat) (vs : List V) (w : World) :
    runText cfg cap schemaText f n vs w = runFn (eval cfg cap schemaProg n) fn vs w :=
  runText_eq parse_schema h cfg _ n vs w

theorem runMethodText_eq {text : List Char} {items : List Pq.Item} (hp : parseText text = some items) {t f : Rs.Name} {fn : Pq.Fn} (h : implFn t f 0 (progOf items).impls = some fn)
    (cfg : Cfg) (capacity : Nat → Except PFail Unit) (n : Nat) (vs : List V) (w : World) :
    runMethodText cfg capacity text t f n vs w = runFn (eval cfg capacity (progOf items) n) fn vs w := by
  unfold runMethodText
  rw [hp]
  dsimp only
  rw [h]

theorem runMethod_schema {t f : Rs.Name} {fn : Pq.Fn} (h : implFn t f 0 schemaProg.impls = some fn) (cfg : Cfg) (cap : Nat → Except PFail Unit) (n : Nat) (vs : List V) (w : World) :
    runMethodText cfg cap schemaText t f n vs w = runFn (eval cfg cap schemaProg n) fn vs w :=
  runMethodText_eq parse_schema h cfg _ n vs w

/-- The number of nested steps that is enough for a schema of so many elements. -/
def schemaSteps (k : Nat) : Nat := 1000 * (k + 150) + 50

/-- C113: `convert_schema`, schema.rs:591-611, on every list of elements: the same tree, the same error or the same failure as the model;
of the memory nothing is assumed but that fewer fields than there are elements can be had. -/
theorem C113_convert (cfg : Cfg) (cap : Nat → Except PFail Unit) {ws : List Val} {es : List Element} (ht : ∀ w ∈ ws, HasTy Format.parquetEnv w Format.tSchemaElement)
    (he : ws.mapM elementOfVal = some es) (hl : es.length < 2 ^ 64) (hcap : ∀ k, k < es.length → cap k = .ok ()) (w : World) (n : Nat) (hn : schemaSteps es.length ≤ n) :
    asValue (runText cfg cap schemaText (n! "convert_schema") n [elementsV ws] w) = (convertSchema cfg es).map fieldV := by
  rw [runText_schema (fn := pq_convert_schema) rfl, ← C73_erase]
  have h := run_convertSchema cfg cap (elements_typed ht he) (Nat.le_refl _) hl (F := 1000 * (es.length + 150)) (Nat.le_refl _)
  rw [withMemory_all fun k hk => hcap k (C73_each cfg es k hk)] at h
  rcases hc : convertSchemaCap cfg es with ⟨caps, x | f⟩
  · rw [hc] at h
    rcases h with ⟨q, us, rfl, _, h⟩ | ⟨_, h⟩
    · rw [elementsV, h n w hn]; rfl
    · rw [elementsV, h n w hn]; rfl
  · rw [hc] at h
    rw [elementsV, h n w hn]; rfl

theorem sample_typed : ∀ w ∈ sampleElements.map elementVal, HasTy Format.parquetEnv w Format.tSchemaElement := by
  have h : ∀ e ∈ sampleElements, utf8Valid e.name = true := by decide
  intro w hw
  obtain ⟨e, he, rfl⟩ := List.mem_map.1 hw
  exact elementVal_typed e (h e he)

example (cfg : Cfg) (w : World) : asValue (runText cfg (fun _ => .ok ()) schemaText (n! "convert_schema") (schemaSteps sampleElements.length) [elementsV (sampleElements.map elementVal)] w) =
    .ok (fieldV sampleTree) := by
  rw [C113_convert cfg _ sample_typed (mapM_elementVal _) (by decide) (fun _ _ => rfl) w _ (Nat.le_refl _), sample_converts]; rfl

/-- C113: it never panics and never ends otherwise than by returning: an `Ok` or an `Err` of the type it declares. -/
theorem C113_returns (cfg : Cfg) (cap : Nat → Except PFail Unit) {ws : List Val} {es : List Element} (ht : ∀ w ∈ ws, HasTy Format.parquetEnv w Format.tSchemaElement)
    (he : ws.mapM elementOfVal = some es) (hl : es.length < 2 ^ 64) (hcap : ∀ k, k < es.length → cap k = .ok ()) (w : World) (n : Nat) (hn : schemaSteps es.length ≤ n) :
    (∃ f w', runText cfg cap schemaText (n! "convert_schema") n [elementsV ws] w = .ret (.ok (fieldV f)) [elementsV ws] w') ∨
    ∃ e x w', runText cfg cap schemaText (n! "convert_schema") n [elementsV ws] w = .ret (.err e) [elementsV ws] w' ∧ errorOf e = .err x := by
  rw [runText_schema (fn := pq_convert_schema) rfl]
  have h := run_convertSchema cfg cap (elements_typed ht he) (Nat.le_refl _) hl (F := 1000 * (es.length + 150)) (Nat.le_refl _)
  rw [withMemory_all fun k hk => hcap k (C73_each cfg es k hk)] at h
  have hx := C50_only_errors cfg es
  rw [← C73_erase] at hx
  rcases hc : convertSchemaCap cfg es with ⟨caps, x | f⟩
  · rw [hc] at h hx
    have hx' : ∃ y, x = .err y := by
      rcases hx with ⟨_, hx⟩ | ⟨_, hx⟩ | ⟨_, hx⟩ <;> cases hx <;> exact ⟨_, rfl⟩
    obtain ⟨y, rfl⟩ := hx'
    rcases h with ⟨q, us, hq, _, h⟩ | ⟨h | ⟨k, hk, h⟩, _⟩
    · exact .inr ⟨_, y, _, h n w hn, hq.symm⟩
    · cases h
    · rw [hcap k (C73_each cfg es k (by rw [hc]; exact hk))] at h
      cases h
  · rw [hc] at h
    exact .inl ⟨f, _, h n w hn⟩

example (cfg : Cfg) (w : World) : ∃ e x w', runText cfg (fun _ => .ok ()) schemaText (n! "convert_schema") (schemaSteps 0) [elementsV []] w = .ret (.err e) [elementsV []] w' ∧ errorOf e = .err x := by
  rcases C113_returns cfg (fun _ => .ok ()) (ws := []) (es := []) (fun _ h => nomatch h) rfl (by decide) (fun _ _ => rfl) w _ (Nat.le_refl _) with ⟨f, w', h⟩ | h
  · have := C113_convert cfg (fun _ => .ok ()) (ws := []) (es := []) (fun _ h => nomatch h) rfl (by decide) (fun _ _ => rfl) w _ (Nat.le_refl _)
    rw [h] at this
    cases this
  · exact h

/-- C113: the capacities it asks for, in order and also if it fails, are those of the model, and it does not touch a file. -/
theorem C113_memory (cfg : Cfg) (cap : Nat → Except PFail Unit) {ws : List Val} {es : List Element} (ht : ∀ w ∈ ws, HasTy Format.parquetEnv w Format.tSchemaElement)
    (he : ws.mapM elementOfVal = some es) (hl : es.length < 2 ^ 64) (hcap : ∀ k, k < es.length → cap k = .ok ()) (w : World) (n : Nat) (hn : schemaSteps es.length ≤ n) :
    (runText cfg cap schemaText (n! "convert_schema") n [elementsV ws] w).world = { w with caps := w.caps ++ (convertSchemaCap cfg es).1 } := by
  rw [runText_schema (fn := pq_convert_schema) rfl]
  have h := run_convertSchema cfg cap (elements_typed ht he) (Nat.le_refl _) hl (F := 1000 * (es.length + 150)) (Nat.le_refl _)
  rw [withMemory_all fun k hk => hcap k (C73_each cfg es k hk)] at h
  rcases hc : convertSchemaCap cfg es with ⟨caps, x | f⟩
  · rw [hc] at h
    rcases h with ⟨q, us, rfl, _, h⟩ | ⟨_, h⟩
    · rw [elementsV, h n w hn]; rfl
    · rw [elementsV, h n w hn]; rfl
  · rw [hc] at h
    rw [elementsV, h n w hn]; rfl

example (cfg : Cfg) (w : World) : (runText cfg (fun _ => .ok ()) schemaText (n! "convert_schema") (schemaSteps sampleElements.length) [elementsV (sampleElements.map elementVal)] w).world =
    { w with caps := w.caps ++ groupSizes sampleTree } := by
  rw [C113_memory cfg _ sample_typed (mapM_elementVal _) (by decide) (fun _ _ => rfl) w _ (Nat.le_refl _), (C73_exact (sample_converts cfg)).1]

/-- C113: so the text itself asks for no more than 128 fields for each element behind the first, and never for as many at once as there are elements. -/
theorem C113_bounded (cfg : Cfg) (cap : Nat → Except PFail Unit) {ws : List Val} {es : List Element} (ht : ∀ w ∈ ws, HasTy Format.parquetEnv w Format.tSchemaElement)
    (he : ws.mapM elementOfVal = some es) (hl : es.length < 2 ^ 64) (hcap : ∀ k, k < es.length → cap k = .ok ()) (f : File) (n : Nat) (hn : schemaSteps es.length ≤ n) :
    (runText cfg cap schemaText (n! "convert_schema") n [elementsV ws] ⟨f, [], [], none⟩).world.caps.sum ≤ 128 * (es.length - 1) ∧
    ∀ c ∈ (runText cfg cap schemaText (n! "convert_schema") n [elementsV ws] ⟨f, [], [], none⟩).world.caps, c < es.length := by
  rw [C113_memory cfg cap ht he hl hcap _ n hn, List.nil_append]
  exact ⟨C73_total cfg es, C73_each cfg es⟩

example (cfg : Cfg) (f : File) : (runText cfg (fun _ => .ok ()) schemaText (n! "convert_schema") (schemaSteps sampleElements.length) [elementsV (sampleElements.map elementVal)] ⟨f, [], [], none⟩).world.caps.sum ≤
    128 * (sampleElements.length - 1) :=
  (C113_bounded cfg _ sample_typed (mapM_elementVal _) (by decide) (fun _ _ => rfl) f _ (Nat.le_refl _)).1

/-- C113: the text reports an error of a schema exactly if the specification of C108 names it. -/
theorem C113_reports (cfg : Cfg) (cap : Nat → Except PFail Unit) {ws : List Val} {es : List Element} (ht : ∀ w ∈ ws, HasTy Format.parquetEnv w Format.tSchemaElement)
    (he : ws.mapM elementOfVal = some es) (hl : es.length < 2 ^ 64) (hcap : ∀ k, k < es.length → cap k = .ok ()) (w : World) (n : Nat) (hn : schemaSteps es.length ≤ n) (x : ParquetError) :
    asValue (runText cfg cap schemaText (n! "convert_schema") n [elementsV ws] w) = .error (.err x) ↔ SchemaReports es x := by
  rw [C113_convert cfg cap ht he hl hcap w n hn, ← C108_schema cfg es x]
  cases convertSchema cfg es <;> simp [Except.map]

example (cfg : Cfg) (w : World) : asValue (runText cfg (fun _ => .ok ()) schemaText (n! "convert_schema") (schemaSteps 0) [elementsV []] w) = .error (.err (.schema "Empty schema")) :=
  (C113_reports cfg _ (es := []) (by simp) rfl (by decide) (fun _ _ => rfl) w _ (Nat.le_refl _) _).2 (.empty rfl)

/-- C113: `find_field_by_path`, schema.rs:423-439, for every tree and path. -/
theorem C113_find (cfg : Cfg) (cap : Nat → Except PFail Unit) (f : SField) (p : List Bytes) (w : World) (n : Nat) (hn : 60 * (p.length + 1) ≤ n) :
    runMethodText cfg cap schemaText (n! "SchemaField") (n! "find_field_by_path") n [fieldV f, pathV p] w = .ret (optV fieldV (findFieldByPath f p)) [fieldV f, pathV p] w := by
  rw [runMethod_schema (fn := pq_SchemaField_find_field_by_path) rfl]
  exact run_find cfg cap p f n w hn

/-- C113: so the text itself returns the field at the end of the path, taking the first child of each name, and `None` if there is none. -/
theorem C113_found (cfg : Cfg) (cap : Nat → Except PFail Unit) (f : SField) (p : List Bytes) (w : World) (n : Nat) (hn : 60 * (p.length + 1) ≤ n) :
    (∀ g, Follows f p g → runMethodText cfg cap schemaText (n! "SchemaField") (n! "find_field_by_path") n [fieldV f, pathV p] w = .ret (.some (fieldV g)) [fieldV f, pathV p] w) ∧
    ((∀ g, ¬ Follows f p g) → runMethodText cfg cap schemaText (n! "SchemaField") (n! "find_field_by_path") n [fieldV f, pathV p] w = .ret .none [fieldV f, pathV p] w) := by
  rw [C113_find cfg cap f p w n hn]
  refine ⟨fun g hg => ?_, fun h => ?_⟩
  · rw [(C51_find p f g).2 hg]; rfl
  · cases hf : findFieldByPath f p with
    | none => rfl
    | some g => exact absurd ((C51_find p f g).1 hf) (h g)

example (cfg : Cfg) (cap : Nat → Except PFail Unit) (w : World) (c : Common) (l : Option GroupLogicalType) (a b : SField) (ha : a.common.name ≠ b.common.name) :
    runMethodText cfg cap schemaText (n! "SchemaField") (n! "find_field_by_path") 120 [fieldV (.group c [a, b] l), pathV [b.common.name]] w =
      .ret (.some (fieldV b)) [fieldV (.group c [a, b] l), pathV [b.common.name]] w :=
  (C113_found cfg cap _ _ w 120 (by simp)).1 b (.step c l [a] b [] _ _ _ (by simpa using ha) rfl (.here _))

/-- C113: `name`, `definition_level`, `repetition_level` and `is_optional`, schema.rs:448-462. -/
theorem C113_accessors (cfg : Cfg) (cap : Nat → Except PFail Unit) (f : SField) (w : World) (n : Nat) (hn : 20 ≤ n) :
    runMethodText cfg cap schemaText (n! "SchemaField") (n! "name") n [fieldV f] w = .ret (.base (.bytes f.common.name)) [fieldV f] w ∧
    runMethodText cfg cap schemaText (n! "SchemaField") (n! "definition_level") n [fieldV f] w = .ret (.base (.u8 f.common.defLevel)) [fieldV f] w ∧
    runMethodText cfg cap schemaText (n! "SchemaField") (n! "repetition_level") n [fieldV f] w = .ret (.base (.u8 f.common.repLevel)) [fieldV f] w ∧
    runMethodText cfg cap schemaText (n! "SchemaField") (n! "is_optional") n [fieldV f] w = .ret (.base (.bool (decide (f.common.repetition = .Optional)))) [fieldV f] w := by
  obtain ⟨k, rfl⟩ := Nat.exists_eq_add_of_le hn
  rw [runMethod_schema (fn := pq_SchemaField_name) rfl, runMethod_schema (fn := pq_SchemaField_definition_level) rfl,
    runMethod_schema (fn := pq_SchemaField_repetition_level) rfl, runMethod_schema (fn := pq_SchemaField_is_optional) rfl, Nat.add_comm]
  exact ⟨run_name cfg cap f k w, run_definitionLevel cfg cap f k w, run_repetitionLevel cfg cap f k w, run_isOptional cfg cap f k w⟩

example (cfg : Cfg) (cap : Nat → Except PFail Unit) (w : World) :
    runMethodText cfg cap schemaText (n! "SchemaField") (n! "is_optional") 20 [fieldV (.primitive ⟨[0x61], none, .Optional, 1, 0⟩ .INT32 none 0)] w =
      .ret (.base (.bool true)) [fieldV (.primitive ⟨[0x61], none, .Optional, 1, 0⟩ .INT32 none 0)] w :=
  (C113_accessors cfg cap _ w 20 (Nat.le_refl _)).2.2.2

end CT.Props
