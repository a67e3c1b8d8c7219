import Verif.Props.SchemaMain
/-!
# C118: the schema program if memory is refused

`field_from_schema_element` calls `Vec::with_capacity` (schema.rs:531). The text of schema.rs is run with an allocator that may refuse any of these requests, in any way.
-/
namespace CT.Props
open CT CT.Parquet CT.Schema CT.Pq CT.Spec CT.Programs CT.Props.Programs

section
variable (cfg : Cfg) (cap : Nat → Except PFail Unit) {ws : List Val} {es : List Element} (ht : ∀ w ∈ ws, HasTy Format.parquetEnv w Format.tSchemaElement)
  (he : ws.mapM elementOfVal = some es) (hl : es.length < 2 ^ 64) (w : World) (n : Nat) (hn : schemaSteps es.length ≤ n)
include ht he hl hn

/-- C118: `convert_schema`, schema.rs:591-611, on every list of elements and with every allocator: either all requests of the model are granted, and it does what the model does, or it ends at the
first that is refused, as the allocator says, having made the requests up to this one and nothing else. -/
theorem C118_convert :
    ((∀ k ∈ (convertSchemaCap cfg es).1, cap k = .ok ()) ∧
      asValue (runText cfg cap schemaText (n! "convert_schema") n [elementsV ws] w) = (convertSchema cfg es).map fieldV ∧
      ∃ v, runText cfg cap schemaText (n! "convert_schema") n [elementsV ws] w = .ret v [elementsV ws] { w with caps := w.caps ++ (convertSchemaCap cfg es).1 }) ∨
    ∃ a k b x, (convertSchemaCap cfg es).1 = a ++ k :: b ∧ (∀ j ∈ a, cap j = .ok ()) ∧ cap k = .error x ∧
      runText cfg cap schemaText (n! "convert_schema") n [elementsV ws] w = .fail x { w with caps := w.caps ++ (a ++ [k]) } := by
  rw [runText_schema (fn := pq_convert_schema) rfl, ← C73_erase]
  have h := run_convertSchema cfg cap (elements_typed ht he) (Nat.le_refl _) hl (F := 1000 * (es.length + 150)) (Nat.le_refl _)
  cases hg : (granted cap (convertSchemaCap cfg es).1).2 with
  | some x =>
    obtain ⟨a, k, b, h1, h2, h3, h4⟩ := granted_some hg
    rw [show withMemory cap (convertSchemaCap cfg es) = (a ++ [k], .error x) by simp only [withMemory, hg, h4]] at h
    refine .inr ⟨a, k, b, x, h1, h2, h3, ?_⟩
    rcases h with ⟨_, _, _, h, _⟩ | ⟨_, h⟩
    · rw [h k (by simp)] at h3; cases h3
    · exact h n w hn
  | none =>
    obtain ⟨_, hall⟩ := granted_none hg
    rw [withMemory_all hall] at h
    refine .inl ⟨hall, ?_⟩
    have hx := C50_only_errors cfg es
    rw [← C73_erase] at hx
    rcases hc : convertSchemaCap cfg es with ⟨caps, x | f⟩
    · rw [hc] at h hall hx
      rcases h with ⟨q, us, rfl, _, h⟩ | ⟨rfl | ⟨k, hk, h⟩, _⟩
      · rw [elementsV, h n w hn]; exact ⟨rfl, _, rfl⟩
      · rcases hx with ⟨_, hx⟩ | ⟨_, hx⟩ | ⟨_, hx⟩ <;> cases hx
      · rw [hall k hk] at h; cases h
    · rw [hc] at h
      rw [elementsV, h n w hn]; exact ⟨rfl, _, rfl⟩

/-- C118: so it returns a tree exactly if the elements describe one that can be had and there is memory for the children of each of its groups. -/
theorem C118_possible (v : V) : asValue (runText cfg cap schemaText (n! "convert_schema") n [elementsV ws] w) = .ok v ↔
    ∃ root, v = fieldV root ∧ (Flat root es ∧ LevelsOk root ∧ IndexesOk root ∧ height root ≤ 127 ∧ root.common.repetition = .Required) ∧ ∀ k ∈ groupSizes root, cap k = .ok () := by
  rcases C118_convert cfg cap ht he hl w n hn with ⟨h1, h2, _⟩ | ⟨a, k, b, x, h1, h2, h3, h4⟩
  · rw [h2]
    constructor
    · intro h
      cases hc : convertSchema cfg es with
      | error x => rw [hc] at h; cases h
      | ok root =>
        rw [hc] at h
        cases h
        exact ⟨root, rfl, (C46_iff cfg es root).1 hc, (C73_exact hc).1 ▸ h1⟩
    · rintro ⟨root, rfl, h, _⟩
      rw [(C46_iff cfg es root).2 h]
      rfl
  · rw [h4]
    constructor
    · intro h; cases h
    · rintro ⟨root, rfl, h, hg⟩
      have := (C73_exact ((C46_iff cfg es root).2 h)).1
      rw [hg k (by rw [← this, h1]; simp)] at h3
      cases h3

/-- C118: whatever the allocator does, it is asked for no more than 128 fields for each element behind the first, and never for as many at once as there are elements. -/
theorem C118_bounded (hw : w.caps = []) : (runText cfg cap schemaText (n! "convert_schema") n [elementsV ws] w).world.caps.sum ≤ 128 * (es.length - 1) ∧
    ∀ c ∈ (runText cfg cap schemaText (n! "convert_schema") n [elementsV ws] w).world.caps, c < es.length := by
  have ht' := C73_total cfg es
  have he' := C73_each cfg es
  rcases C118_convert cfg cap ht he hl w n hn with ⟨_, _, v, h⟩ | ⟨a, k, b, x, h1, h2, h3, h4⟩
  · rw [h, FnOut.world, hw, List.nil_append]
    exact ⟨ht', he'⟩
  · rw [h4]
    rw [h1] at ht' he'
    simp only [FnOut.world, hw, List.nil_append]
    simp only [List.sum_append, List.sum_cons, List.sum_nil] at ht' ⊢
    refine ⟨by omega, fun c hc => he' c ?_⟩
    rcases List.mem_append.1 hc with hc | hc
    · exact List.mem_append_left _ hc
    · rw [List.mem_singleton.1 hc]; simp

/-- C118: it ends otherwise than by returning only if a request was refused, and then as the allocator says; there is no other panic, in any build. -/
theorem C118_only {x : PFail} {w' : World} (h : runText cfg cap schemaText (n! "convert_schema") n [elementsV ws] w = .fail x w') : ∃ k, k < es.length ∧ cap k = .error x := by
  rcases C118_convert cfg cap ht he hl w n hn with ⟨_, _, v, h2⟩ | ⟨a, k, b, y, h1, h2, h3, h4⟩
  · rw [h2] at h
    cases h
  · rw [h4] at h
    cases h
    exact ⟨k, C73_each cfg es k (by rw [h1]; simp), h3⟩
end

/-- The sample of C46 has a root of two children, one of them a group; the memory for the two is refused. -/
example (cfg : Cfg) (f : File) : asValue (runText cfg (fun k => if k = 2 then .error .panic else .ok ()) schemaText (n! "convert_schema") (schemaSteps sampleElements.length) [elementsV (sampleElements.map elementVal)] ⟨f, [], [], none⟩) =
    .error .panic := by
  have h := C118_convert cfg (fun k => if k = 2 then .error .panic else .ok ()) sample_typed (mapM_elementVal _) (by decide) ⟨f, [], [], none⟩ _ (Nat.le_refl _)
  rw [(C73_exact (sample_converts cfg)).1] at h
  rcases h with ⟨h, _⟩ | ⟨a, k, b, x, _, _, h, h'⟩
  · exact absurd (h 2 (by decide)) (by simp)
  · rw [h']
    split at h <;> cases h
    rfl

/-- The same where only requests for more are refused. -/
example (cfg : Cfg) (w : World) : asValue (runText cfg (fun k => if 3 ≤ k then .error .panic else .ok ()) schemaText (n! "convert_schema") (schemaSteps sampleElements.length) [elementsV (sampleElements.map elementVal)] w) =
    .ok (fieldV sampleTree) :=
  (C118_possible cfg _ sample_typed (mapM_elementVal _) (by decide) w _ (Nat.le_refl _) _).2 ⟨sampleTree, rfl, (C46_iff cfg _ _).1 (sample_converts cfg), fun k hk => if_neg ((by decide : ∀ k ∈ groupSizes sampleTree, ¬ 3 ≤ k) k hk)⟩

/-- C118: `main`, schema.rs:649-666, on every file, in every build and with every allocator: if all requests are granted it prints what the model prints and ends as the model does,
where an error that is unwrapped is a panic; if one is refused it has printed the head, and nothing of the tree, and ends there as the allocator says. -/
theorem C118_main (cfg : Cfg) (cap : Nat → Except PFail Unit) (w : World) (n : Nat) (hn : mainSteps ≤ n) :
    ((∀ fmd v sch r c es, readFile cfg w.opened = .ok fmd → MetadataFields fmd v sch r c → sch.mapM elementOfVal = some es → ∀ k ∈ (convertSchemaCap cfg es).1, cap k = .ok ()) ∧
      asRun (runText cfg cap schemaText (n! "main") n [] w) = unwrapped w.out (schemaMain cfg w.opened)) ∨
    ∃ fmd v sch r c es a k b x, readFile cfg w.opened = .ok fmd ∧ MetadataFields fmd v sch r c ∧ sch.mapM elementOfVal = some es ∧ es.length < 2 ^ 32 ∧
      (convertSchemaCap cfg es).1 = a ++ k :: b ∧ (∀ j ∈ a, cap j = .ok ()) ∧ cap k = .error x ∧
      asRun (runText cfg cap schemaText (n! "main") n [] w) = ⟨w.out ++ printHead v r c, .error x⟩ ∧
      (runText cfg cap schemaText (n! "main") n [] w).world.caps = w.caps ++ (a ++ [k]) :=
  main_cases cfg cap w n hn

/-- C118: so, without overflow checks, with memory for the metadata and on a file whose reads do not fail, for the tree the metadata describe: if there is memory for the children of each group the text prints the lines
of the head and of the tree and returns; if not, it prints the lines of the head and ends as the allocator says at the first group, in the order of the elements, for which there is none. -/
theorem C118_schema {cfg : Cfg} (hov : cfg.overflowChecks = false) (hs : cfg.sse2 = false) (ha : ∀ n, cfg.alloc n = true) (cap : Nat → Except PFail Unit)
    {f : File} (hq : Quiet f) (n : Nat) (hn : mainSteps ≤ n) {fmd : Val} {version : BitVec 32} {schema : List Val} {rows : BitVec 64} {created : Option Bytes} {elements : List Element}
    (hm : HoldsMetadata f.data fmd) (hf : MetadataFields fmd version schema rows created) (he : schema.mapM elementOfVal = some elements) {root : SField}
    (hr : Flat root elements ∧ LevelsOk root ∧ IndexesOk root ∧ height root ≤ 127 ∧ root.common.repetition = .Required) :
    ((∀ k ∈ groupSizes root, cap k = .ok ()) → ∃ head body, HeadLines version rows created head ∧ SchemaLines 0 [root] body ∧
      asRun (runText cfg cap schemaText (n! "main") n [] ⟨f, [], [], none⟩) = ⟨Spec.printed 2 (head ++ body), .ok ()⟩) ∧
    ∀ a k b x, groupSizes root = a ++ k :: b → (∀ j ∈ a, cap j = .ok ()) → cap k = .error x → ∃ head, HeadLines version rows created head ∧
      asRun (runText cfg cap schemaText (n! "main") n [] ⟨f, [], [], none⟩) = ⟨Spec.printed 2 head, .error x⟩ := by
  have hrd : readFile cfg (.ok f) = .ok fmd := (readFile_ok hov hs ha hq).2 hm
  have hc := (C46_iff cfg elements root).2 hr
  have hcaps := (C73_exact hc).1
  have hsame : ∀ {v' : BitVec 32} {sch' : List Val} {r' : BitVec 64} {c' : Option Bytes} {es' : List Element}, MetadataFields fmd v' sch' r' c' → sch'.mapM elementOfVal = some es' →
      v' = version ∧ r' = rows ∧ c' = created ∧ es' = elements := by
    intro v' sch' r' c' es' h2 h3
    obtain ⟨a1, a2⟩ := fields_head hf
    obtain ⟨b1, b2⟩ := fields_head h2
    rw [a1] at b1
    cases b1
    rw [a2, he, h3] at b2
    cases b2
    exact ⟨rfl, rfl, rfl, rfl⟩
  obtain ⟨head, hh, hhead⟩ := (Text.head_iff version rows created _).1 rfl
  obtain ⟨body, hb, hbody⟩ := (Text.print_iff root 0 _).1 rfl
  have hmain : schemaMain cfg (.ok f) = ⟨Spec.printed 2 (head ++ body), .ok ()⟩ := by
    obtain ⟨a1, a2⟩ := fields_head hf
    simp only [schemaMain, hrd, a1, a2, he, hc, Text.printed_append, hhead, hbody]
  rcases main_cases cfg cap ⟨f, [], [], none⟩ n hn with ⟨h1, h2⟩ | ⟨fmd', v', sch', r', c', es', a', k', b', x', h1, h2, h3, _, h4, h5, h6, h7, _⟩
  · change _ = unwrapped [] (schemaMain cfg (.ok f)) at h2
    rw [hmain] at h2
    refine ⟨fun _ => ⟨head, body, hh, hb, h2⟩, fun a k b x hg _ hx => ?_⟩
    have := h1 fmd version schema rows created elements hrd hf he k (by rw [hcaps, hg]; simp)
    rw [this] at hx
    cases hx
  · have h1' : readFile cfg (.ok f) = .ok fmd' := h1
    rw [hrd] at h1'
    cases h1'
    obtain ⟨rfl, rfl, rfl, rfl⟩ := hsame h2 h3
    rw [hcaps] at h4
    refine ⟨fun hall => ?_, fun a k b x hg hga hx => ⟨head, hh, ?_⟩⟩
    · rw [hall k' (by rw [h4]; simp)] at h6
      cases h6
    · have hxx : x = x' := by
        have e1 : (granted cap (groupSizes root)).2 = some x := by rw [hg, granted_append, granted_all hga]; simp only [granted, hx]
        have e2 : (granted cap (groupSizes root)).2 = some x' := by rw [h4, granted_append, granted_all h5]; simp only [granted, h6]
        rw [e1] at e2
        exact Option.some.inj e2
      rw [h7, hxx, ← hhead]
      rfl

set_option maxRecDepth 100000 in
/-- The file of C99 with one column; there is no memory for even one field. -/
example : let cfg : Cfg := ⟨false, false, fun _ => true⟩
    asRun (runText cfg (fun _ => .error .panic) schemaText (n! "main") mainSteps [] ⟨tinyFile (tinySchema 2), [], [], none⟩) =
      ⟨ascii! "version: 1\nnum of rows: 0\ncreated by: x\n", .error .panic⟩ := by
  intro cfg
  obtain ⟨fmd, hr, v, sch, r, c, hf, es, he, hn⟩ : ∃ fmd, readFile cfg (.ok (tinyFile (tinySchema 2))) = .ok fmd ∧ ∃ v sch r c, MetadataFields fmd v sch r c ∧
      ∃ es, sch.mapM elementOfVal = some es ∧ (convertSchemaCap cfg es).1 = [1] := by
    refine ⟨_, rfl, 1#32, _, 0#64, some [0x78#8], ⟨_, _, _, _, _, rfl⟩, _, rfl, rfl⟩
  rcases C118_main cfg (fun _ => .error .panic) ⟨tinyFile (tinySchema 2), [], [], none⟩ mainSteps (Nat.le_refl _) with ⟨h, _⟩ | ⟨fmd', v', _, r', c', _, _, _, _, _, h1, h2, _, _, _, _, hx, h, _⟩
  · cases h fmd v sch r c es hr hf he 1 (by rw [hn]; simp)
  · cases hx
    rw [h]
    have h1' : readFile cfg (.ok (tinyFile (tinySchema 2))) = .ok fmd' := h1
    have e : headOfVal fmd' = some (1#32, 0#64, some [0x78#8]) := by
      cases (show Except.ok _ = Except.ok fmd' from h1')
      rfl
    rw [(fields_head h2).1] at e
    cases e
    rfl

end CT.Props
