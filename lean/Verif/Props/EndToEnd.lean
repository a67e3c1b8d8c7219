import Verif.Props.DumpCode
import Verif.Props.Builds
import Verif.Props.ParquetFile
/-!
# C121: from metadata to the screen, in every build

What the programs dump and schema, run from their text, print for a file: in every build, in terms of what the bytes of the file mean, and for files that
end in metadata the library has written.
-/
namespace CT.Props
open CT CT.Parquet CT.Schema CT.Pq CT.Spec CT.Programs CT.Props.Programs CT.Debug

theorem unshareList_getElem? : ∀ (vs : List Val) (i : Nat), (Val.unshareList vs)[i]? = (vs[i]?).map Val.unshare
  | [], _ => by simp [Val.unshareList]
  | v :: vs, 0 => by simp [Val.unshareList]
  | v :: vs, i + 1 => by simp [Val.unshareList, unshareList_getElem? vs i]

theorem unshareList_length : ∀ vs : List Val, (Val.unshareList vs).length = vs.length
  | [] => by simp [Val.unshareList]
  | v :: vs => by simp [Val.unshareList, unshareList_length vs]

/-- Whether an `Rc` is shared is not shown. -/
theorem doc_unshare {s : DebugStd} {env : List Def} {t : Ty} {v : Val} {x : Doc} (h : ValDoc s env t v x) : ValDoc s env t v.unshare x := by
  induction h with
  | list t vs xs hl _ ih =>
    rw [Val.unshare]
    refine .list t _ xs (by rw [unshareList_length, hl]) fun i v x hv hx => ?_
    rw [unshareList_getElem?] at hv
    obtain ⟨w, hw, rfl⟩ := Option.map_eq_some_iff.1 hv
    exact ih i w x hw hx
  | struct k name fs vs xs hk hv hl _ ih =>
    rw [Val.unshare]
    refine .struct k name fs _ xs hk (by rw [unshareList_length, hv]) hl fun i f v x hf hv hx => ?_
    rw [unshareList_getElem?] at hv
    obtain ⟨w, hw, rfl⟩ := Option.map_eq_some_iff.1 hv
    exact ih i f w x hf hw hx
  | some t v x _ ih => rw [Val.unshare]; exact .some t _ x ih
  | box t v x _ ih => rw [Val.unshare]; exact .box t _ x ih
  | rc t b v x _ ih => rw [Val.unshare]; exact .rc t false _ x ih
  | union k name us i u v x hk hu _ ih => rw [Val.unshare]; exact .union k name us i u _ x hk hu ih
  | bool b => rw [Val.unshare] <;> first | exact .bool b | simp
  | i8 x => rw [Val.unshare] <;> first | exact .i8 x | simp
  | i16 x => rw [Val.unshare] <;> first | exact .i16 x | simp
  | i32 x => rw [Val.unshare] <;> first | exact .i32 x | simp
  | i64 x => rw [Val.unshare] <;> first | exact .i64 x | simp
  | double x => rw [Val.unshare] <;> first | exact .double x | simp
  | binary bs => rw [Val.unshare] <;> first | exact .binary bs | simp
  | string ns h => rw [Val.unshare] <;> first | exact .string ns h | simp
  | encodingSet m => rw [Val.unshare] <;> first | exact .encodingSet m | simp
  | none t => rw [Val.unshare] <;> first | exact .none t | simp
  | enum k name y hk => rw [Val.unshare] <;> first | exact .enum k name y hk | simp

/-- A file that ends in metadata the library has written is read back, in every build. -/
theorem readFile_written {cfg : Cfg} (ha : ∀ n, cfg.alloc n = true) {v : Val} (hv : HasTy Format.parquetEnv v Format.tFileMetaData) {bytes : Bytes}
    (he : encode Format.parquetEnv Format.tFileMetaData v = .ok bytes) (hl : bytes.length < 2 ^ 32) (pre : Bytes) {f : File} (hq : Quiet f) (hf : f.data = pre ++ footer bytes) :
    readFile cfg (.ok f) = .ok v.unshare := by
  obtain ⟨chunk, f', h1, h2⟩ := C42_file ha hv he hl pre hq hf
  unfold readFile
  dsimp only
  rw [h1]
  dsimp only
  rw [h2]

/-! ## Statements -/

/-- C121: what `dump` does with a file that makes no trouble, in every build. -/
theorem C121_dump {cfg : Cfg} (ha : ∀ n, cfg.alloc n = true) (cap : Nat → Except PFail Unit) {f : File} (hq : Quiet f) {s : DebugStd} (hd : StdOk s) {n : Nat} (hn : 40 ≤ n)
    {o : Outcome} (ho : FileEnds cfg.sse2 cfg.overflowChecks f.data o) :
    match o with
    | .value fmd _ => ∃ x, ValDoc s Format.parquetEnv Format.tFileMetaData fmd x ∧
        asRun (runPretty s cfg cap dumpText (n! "main") n [] ⟨f, [], [], none⟩) = ⟨Spec.printed 4 (x.lines 0), .ok ()⟩
    | .error | .panic => asRun (runPretty s cfg cap dumpText (n! "main") n [] ⟨f, [], [], none⟩) = ⟨[], .error .panic⟩
    | .undefined => asRun (runPretty s cfg cap dumpText (n! "main") n [] ⟨f, [], [], none⟩) = ⟨[], .error .ub⟩ := by
  have hm := (C119_main s cfg cap ⟨f, [], [], none⟩ n hn).1
  change _ = unwrapped [] (dumpMain s cfg (.ok f)) at hm
  have h := C105_dump ha hq s ho
  cases o with
  | value fmd rest =>
    obtain ⟨y, hy, hr⟩ := readFile_ends ha hq
    obtain rfl := fileEnds_det ho hy
    cases hr' : readFile cfg (.ok f) with
    | error e => rw [hr'] at hr; cases hr
    | ok w =>
      rw [hr'] at hr
      cases hr
      obtain ⟨x, hx⟩ := doc_exists (s := s) (readFile_typed hr')
      refine ⟨x, hx, ?_⟩
      dsimp only at h
      rw [hm, h, ← (shown_of_doc hd format_names hx).2.1]
      rfl
  | error => obtain ⟨e, h⟩ := h; dsimp only; rw [hm, h]; rfl
  | panic => dsimp only at h ⊢; rw [hm, h]; rfl
  | undefined => dsimp only at h ⊢; rw [hm, h]; rfl

/-- C121: what `schema` does with a file that makes no trouble, in every build. -/
theorem C121_schema {cfg : Cfg} (ha : ∀ n, cfg.alloc n = true) {cap : Nat → Except PFail Unit} (hcap : ∀ k, k < 2 ^ 32 → cap k = .ok ()) {f : File} (hq : Quiet f)
    {n : Nat} (hn : mainSteps ≤ n) {o : Outcome} (ho : FileEnds cfg.sse2 cfg.overflowChecks f.data o) :
    match o with
    | .value fmd _ => ∃ version schema rows created elements, MetadataFields fmd version schema rows created ∧ schema.mapM elementOfVal = some elements ∧
        ((∃ root head body, Flat root elements ∧ LevelsOk root ∧ IndexesOk root ∧ height root ≤ 127 ∧ root.common.repetition = .Required ∧
            HeadLines version rows created head ∧ SchemaLines 0 [root] body ∧
            asRun (runText cfg cap schemaText (n! "main") n [] ⟨f, [], [], none⟩) = ⟨Spec.printed 2 (head ++ body), .ok ()⟩) ∨
         ((¬ ∃ root, Flat root elements ∧ LevelsOk root ∧ IndexesOk root ∧ height root ≤ 127 ∧ root.common.repetition = .Required) ∧
            ∃ head, HeadLines version rows created head ∧
            asRun (runText cfg cap schemaText (n! "main") n [] ⟨f, [], [], none⟩) = ⟨Spec.printed 2 head, .error .panic⟩))
    | .error | .panic => asRun (runText cfg cap schemaText (n! "main") n [] ⟨f, [], [], none⟩) = ⟨[], .error .panic⟩
    | .undefined => asRun (runText cfg cap schemaText (n! "main") n [] ⟨f, [], [], none⟩) = ⟨[], .error .ub⟩ := by
  have hm := C114_main cfg cap hcap ⟨f, [], [], none⟩ n hn
  change _ = unwrapped [] (schemaMain cfg (.ok f)) at hm
  have h := C105_schema ha hq ho
  cases o with
  | value fmd rest =>
    obtain ⟨v, sch, r, c, es, h1, h2, ⟨root, head, body, a, b, c', d, e, g, i, h⟩ | ⟨a, head, e, b, h⟩⟩ := h
    · exact ⟨v, sch, r, c, es, h1, h2, .inl ⟨root, head, body, a, b, c', d, e, g, i, by rw [hm, h]; rfl⟩⟩
    · exact ⟨v, sch, r, c, es, h1, h2, .inr ⟨a, head, b, by rw [hm, h]; rfl⟩⟩
  | error => obtain ⟨e, h⟩ := h; dsimp only; rw [hm, h]; rfl
  | panic => dsimp only at h ⊢; rw [hm, h]; rfl
  | undefined => dsimp only at h ⊢; rw [hm, h]; rfl

/-- C121: metadata written by the library and followed by the footer are what `dump` shows, in every build and whatever the file has before them. -/
theorem C121_written {cfg : Cfg} (ha : ∀ n, cfg.alloc n = true) (cap : Nat → Except PFail Unit) {s : DebugStd} (hd : StdOk s) {n : Nat} (hn : 40 ≤ n) {v : Val}
    (hv : HasTy Format.parquetEnv v Format.tFileMetaData) {bytes : Bytes} (he : encode Format.parquetEnv Format.tFileMetaData v = .ok bytes) (hl : bytes.length < 2 ^ 32)
    (pre : Bytes) {f : File} (hq : Quiet f) (hf : f.data = pre ++ footer bytes) :
    ∃ x, ValDoc s Format.parquetEnv Format.tFileMetaData v x ∧
      asRun (runPretty s cfg cap dumpText (n! "main") n [] ⟨f, [], [], none⟩) = ⟨Spec.printed 4 (x.lines 0), .ok ()⟩ := by
  obtain ⟨x, hx⟩ := doc_exists (s := s) hv
  refine ⟨x, hx, ?_⟩
  rw [(C119_main s cfg cap ⟨f, [], [], none⟩ n hn).1]
  change unwrapped [] (dumpMain s cfg (.ok f)) = _
  rw [dumpMain, readFile_written ha hv he hl pre hq hf]
  dsimp only
  rw [← (shown_of_doc hd format_names (doc_unshare hx)).2.1]
  rfl

/-- Reading the metadata of a file with overflow checks ends in a panic, or as without them. -/
theorem readFile_checks (cfg : Cfg) (a : Except ErrorKind File) : readFile cfg a = .error .panic ∨ readFile cfg a = readFile (unchecked cfg) a := by
  cases a with
  | error k => exact .inr rfl
  | ok f =>
    unfold readFile
    dsimp only
    rw [show getMetadataChunk (unchecked cfg) f = getMetadataChunk cfg f from rfl]
    cases getMetadataChunk cfg f with
    | error x => exact .inr rfl
    | ok p =>
      dsimp only
      have key : ∀ c : Cfg, (Op.read Format.parquetEnv Format.tFileMetaData).run c (sliceInput c) p.1 =
          match readThrift c (sliceInput c) Format.parquetEnv Format.tFileMetaData p.1 with
          | .ok (v, s) => .ok (some v, s)
          | .error e => .error e := by
        intro c
        show (Rd.bind (readThrift c (sliceInput c) Format.parquetEnv Format.tFileMetaData) fun v => pure (some v)) p.1 = _
        unfold Rd.bind
        cases readThrift c (sliceInput c) Format.parquetEnv Format.tFileMetaData p.1 <;> rfl
      have h := (C60_overflow_checks cfg (.read Format.parquetEnv Format.tFileMetaData)).1 p.1
      rw [key, key] at h
      generalize readThrift cfg (sliceInput cfg) Format.parquetEnv Format.tFileMetaData p.1 = x at h ⊢
      generalize readThrift (unchecked cfg) (sliceInput (unchecked cfg)) Format.parquetEnv Format.tFileMetaData p.1 = y at h ⊢
      match x, y, h with
      | .error e, _, .inl h => cases h; exact .inl rfl
      | .error e, .error e', .inr h => cases h; exact .inr rfl
      | .ok (v, s), .ok (v', s'), .inr h => cases h; exact .inr rfl

/-- How the conversion ends, as far as `main` shows it, is the same in every build. -/
theorem converted_same (cfg cfg' : Cfg) (out head : Bytes) (es : List Element) :
    unwrapped out (match convertSchema cfg es with | .error x => ⟨head, .error x⟩ | .ok root => ⟨head ++ prettyPrint root 0, .ok ()⟩) =
    unwrapped out (match convertSchema cfg' es with | .error x => ⟨head, .error x⟩ | .ok root => ⟨head ++ prettyPrint root 0, .ok ()⟩) := by
  cases hc : convertSchema cfg es with
  | ok root => rw [(C46_iff cfg' es root).2 ((C46_iff cfg es root).1 hc)]
  | error x =>
    cases hc' : convertSchema cfg' es with
    | ok root => rw [(C46_iff cfg es root).2 ((C46_iff cfg' es root).1 hc')] at hc; cases hc
    | error y =>
      rcases C50_only_errors cfg es with ⟨_, e⟩ | ⟨_, e⟩ | ⟨_, e⟩ <;> rw [hc] at e <;> cases e <;>
      rcases C50_only_errors cfg' es with ⟨_, e⟩ | ⟨_, e⟩ | ⟨_, e⟩ <;> rw [hc'] at e <;> cases e <;> rfl

/-! ## What is shown of metadata determines their schema -/

theorem optEnum_visible {v : Val} {o : Option (BitVec 32)} (h : optEnum v = some o) : optEnum (visible v) = some o := by
  unfold optEnum at h
  split at h <;> cases h <;> simp [visible, optEnum]

theorem optI32_visible {v : Val} {o : Option (BitVec 32)} (h : optI32 v = some o) : optI32 (visible v) = some o := by
  unfold optI32 at h
  split at h <;> cases h <;> simp [visible, optI32]

theorem stringOfVal_visible {v : Val} {o : Bytes} (h : stringOfVal v = some o) : stringOfVal (visible v) = some o := by
  unfold stringOfVal at h
  split at h <;> cases h <;> simp [visible, stringOfVal]

theorem timeUnit_visible {v : Val} {o : TimeUnit} (h : timeUnitOfVal v = some o) : timeUnitOfVal (visible v) = some o := by
  unfold timeUnitOfVal at h
  split at h <;> cases h <;> simp [visible, timeUnitOfVal]

theorem logicalType_visible {v : Val} {o : LogicalType} (h : logicalTypeOfVal v = some o) : logicalTypeOfVal (visible v) = some o := by
  unfold logicalTypeOfVal at h
  split at h <;> first
    | (cases h; done)
    | (cases h; simp [visible, visibleAll, logicalTypeOfVal]; done)
    | (obtain ⟨u, hu, rfl⟩ := Option.map_eq_some_iff.1 h; simp [visible, visibleAll, logicalTypeOfVal, timeUnit_visible hu])

theorem optLogicalType_visible {v : Val} {o : Option LogicalType} (h : optLogicalType v = some o) : optLogicalType (visible v) = some o := by
  unfold optLogicalType at h
  split at h
  · cases h; simp [visible, optLogicalType]
  · obtain ⟨u, hu, rfl⟩ := Option.map_eq_some_iff.1 h
    simp [visible, optLogicalType, logicalType_visible hu]
  · cases h

theorem element_visible {w : Val} {e : Element} (hw : HasTy Format.parquetEnv w Format.tSchemaElement) (h : elementOfVal w = some e) : elementOfVal (visible w) = some e := by
  obtain ⟨vs, rfl, hl, -⟩ := typed_struct (show Format.parquetEnv[34]? = some (.struct _ _) from rfl) hw
  match vs, hl with
  | [a, b, c, d, e', f, g, i, j, k], _ =>
    rw [elementOfVal_struct] at h
    simp only [Option.bind_eq_some_iff] at h
    obtain ⟨a', ha, b', hb, c', hc, d', hd, e'', he, f', hf, g', hg, i', hi, j', hj, k', hk, h⟩ := h
    simp only [visible, visibleAll]
    rw [elementOfVal_struct, optEnum_visible ha, optI32_visible hb, optEnum_visible hc, stringOfVal_visible hd, optI32_visible he, optEnum_visible hf, optI32_visible hg,
      optI32_visible hi, optI32_visible hj, optLogicalType_visible hk]
    exact h

theorem elements_visible : ∀ {ws : List Val} {es : List Element}, (∀ w ∈ ws, HasTy Format.parquetEnv w Format.tSchemaElement) → ws.mapM elementOfVal = some es →
    (visibleAll ws).mapM elementOfVal = some es
  | [], es, _, h => by rw [visibleAll]; exact h
  | w :: ws, es, hw, h => by
    rw [List.mapM_cons] at h
    obtain ⟨e, he, h⟩ := Option.bind_eq_some_iff.1 h
    obtain ⟨es', hes, h⟩ := Option.bind_eq_some_iff.1 h
    cases h
    rw [visibleAll, List.mapM_cons, element_visible (hw w (by simp)) he, elements_visible (fun x hx => hw x (by simp [hx])) hes]
    rfl

/-- The elements of typed metadata are typed. -/
theorem schema_typed {fmd : Val} (h : HasTy Format.parquetEnv fmd Format.tFileMetaData) {v : BitVec 32} {sch : List Val} {r : BitVec 64} {c : Option Bytes}
    (hf : MetadataFields fmd v sch r c) : ∀ w ∈ sch, HasTy Format.parquetEnv w Format.tSchemaElement := by
  obtain ⟨_, _, _, _, _, rfl⟩ := hf
  cases h with
  | struct _ _ fs vs hk hl h =>
    cases hk
    have := h 1 _ (.list sch) rfl rfl
    cases this with
    | list _ _ h => exact h

/-- C121: what `dump` prints determines what `schema` does: two files for which `dump` prints the same are the same to `schema`, also across builds. -/
theorem C121_same {s : DebugStd} (hs : StdOk s) (cfg cfg' : Cfg) {cap cap' : Nat → Except PFail Unit} (hcap : ∀ k, k < 2 ^ 32 → cap k = .ok ()) (hcap' : ∀ k, k < 2 ^ 32 → cap' k = .ok ())
    (f f' : File) {n n' m m' : Nat} (hn : 40 ≤ n) (hn' : 40 ≤ n') (hm : mainSteps ≤ m) (hm' : mainSteps ≤ m') {out : Bytes}
    (h : asRun (runPretty s cfg cap dumpText (n! "main") n [] ⟨f, [], [], none⟩) = ⟨out, .ok ()⟩)
    (h' : asRun (runPretty s cfg' cap' dumpText (n! "main") n' [] ⟨f', [], [], none⟩) = ⟨out, .ok ()⟩) :
    asRun (runText cfg cap schemaText (n! "main") m [] ⟨f, [], [], none⟩) = asRun (runText cfg' cap' schemaText (n! "main") m' [] ⟨f', [], [], none⟩) := by
  obtain ⟨v, w, hv, hw, e⟩ := C119_shows hs cap cap' hn hn' h h'
  obtain ⟨x, sch, r, c, h1⟩ := typed_fields (readFile_typed hv)
  obtain ⟨x', sch', r', c', h2⟩ := typed_fields (readFile_typed hw)
  obtain ⟨es, he⟩ := typed_elements (readFile_typed hv) h1
  obtain ⟨es', he'⟩ := typed_elements (readFile_typed hw) h2
  have k1 := elements_visible (schema_typed (readFile_typed hv) h1) he
  have k2 := elements_visible (schema_typed (readFile_typed hw) h2) he'
  have hall : x = x' ∧ visibleAll sch = visibleAll sch' ∧ r = r' ∧ c = c' := by
    obtain ⟨_, _, _, _, _, rfl⟩ := h1
    obtain ⟨_, _, _, _, _, rfl⟩ := h2
    cases c <;> cases c' <;> simp [visible, visibleAll] at e <;> simp [e]
  obtain ⟨rfl, hsch, rfl, rfl⟩ := hall
  rw [hsch, k2] at k1
  cases k1
  rw [C114_main cfg cap hcap _ m hm, C114_main cfg' cap' hcap' _ m' hm']
  change unwrapped [] (schemaMain cfg (.ok f)) = unwrapped [] (schemaMain cfg' (.ok f'))
  unfold schemaMain
  rw [hv, hw]
  dsimp only
  rw [(fields_head h1).1, (fields_head h1).2, (fields_head h2).1, (fields_head h2).2, he, he']
  exact converted_same _ _ _ _ _

set_option maxRecDepth 100000 in
/-- The file of C99, and one with other bytes before the same metadata, meet the conditions of `C121_same` in different builds. -/
example : ∃ out,
    asRun (runPretty plainStd ⟨false, false, fun _ => true⟩ (fun _ => .ok ()) dumpText (n! "main") 40 [] ⟨tinyFile (tinySchema 2), [], [], none⟩) = ⟨out, .ok ()⟩ ∧
    asRun (runPretty plainStd ⟨true, true, fun _ => true⟩ (fun _ => .ok ()) dumpText (n! "main") 40 [] ⟨⟨[1#8, 2#8] ++ (tinyFile (tinySchema 2)).data, 0, [], []⟩, [], [], none⟩) = ⟨out, .ok ()⟩ :=
  ⟨(dumpMain plainStd ⟨false, false, fun _ => true⟩ (.ok (tinyFile (tinySchema 2)))).out, ((C119_main _ _ _ _ 40 (Nat.le_refl _)).1).trans rfl, ((C119_main _ _ _ _ 40 (Nat.le_refl _)).1).trans rfl⟩

/-- C121: overflow checks change nothing but panics before the first output: on every file, with every allocator, each program prints nothing and panics, or does what the
build without the checks does. -/
theorem C121_checks (s : DebugStd) (cfg : Cfg) {cap : Nat → Except PFail Unit} (hcap : ∀ k, k < 2 ^ 32 → cap k = .ok ()) (w : World) {n n' : Nat} (hn : 40 ≤ n) (hn' : mainSteps ≤ n') :
    (asRun (runPretty s cfg cap dumpText (n! "main") n [] w) = ⟨w.out, .error .panic⟩ ∨
      asRun (runPretty s cfg cap dumpText (n! "main") n [] w) = asRun (runPretty s (unchecked cfg) cap dumpText (n! "main") n [] w)) ∧
    (asRun (runText cfg cap schemaText (n! "main") n' [] w) = ⟨w.out, .error .panic⟩ ∨
      asRun (runText cfg cap schemaText (n! "main") n' [] w) = asRun (runText (unchecked cfg) cap schemaText (n! "main") n' [] w)) := by
  rw [(C119_main s cfg cap w n hn).1, (C119_main s (unchecked cfg) cap w n hn).1, C114_main cfg cap hcap w n' hn', C114_main (unchecked cfg) cap hcap w n' hn']
  rcases readFile_checks cfg w.opened with h | h
  · refine ⟨.inl ?_, .inl ?_⟩
    · rw [dumpMain, h]; simp [unwrapped]
    · rw [schemaMain, h]; simp [unwrapped]
  · refine ⟨.inr ?_, .inr ?_⟩
    · rw [dumpMain, dumpMain, h]
    · unfold schemaMain
      rw [h]
      cases readFile (unchecked cfg) w.opened with
      | error x => rfl
      | ok fmd =>
        dsimp only
        cases headOfVal fmd with
        | none => rfl
        | some p =>
          cases schemaOfVal fmd with
          | none => rfl
          | some es => exact converted_same _ _ _ _ es

/-- The file of C99 with one column and two fields nobody knows, with ids 32767 and, by the difference 1, the one after it. -/
def wrapFile : File :=
  ⟨footer ([0x15#8, 0x02#8, 0x19#8, 0x2C#8] ++ tinySchema 2 ++ [0x16#8, 0x00#8, 0x19#8, 0x0C#8, 0x28#8, 0x01#8, 0x78#8] ++ [0x01#8, 0xFE#8, 0xFF#8, 0x03#8, 0x11#8, 0x00#8]), 0, [], []⟩

set_option maxRecDepth 100000 in
/-- Both cases of `C121_checks` occur: with the checks this file makes `schema` panic, without them the schema is printed. -/
example :
    asRun (runText ⟨true, false, fun _ => true⟩ (fun _ => .ok ()) schemaText (n! "main") mainSteps [] ⟨wrapFile, [], [], none⟩) = ⟨[], .error .panic⟩ ∧
    asRun (runText ⟨false, false, fun _ => true⟩ (fun _ => .ok ()) schemaText (n! "main") mainSteps [] ⟨wrapFile, [], [], none⟩) =
      ⟨ascii! "version: 1\nnum of rows: 0\ncreated by: x\nREQUIRED group r {\n  OPTIONAL INT32 a;\n}\n", .ok ()⟩ :=
  ⟨(C114_main _ _ (fun _ _ => rfl) _ _ (Nat.le_refl _)).trans rfl, (C114_main _ _ (fun _ _ => rfl) _ _ (Nat.le_refl _)).trans rfl⟩

/-- C121: if the schema in the metadata written is the flattened form of a tree, `schema` prints this tree after the lines about version, rows and creator, in every build. -/
theorem C121_tree {cfg : Cfg} (ha : ∀ n, cfg.alloc n = true) {cap : Nat → Except PFail Unit} (hcap : ∀ k, k < 2 ^ 32 → cap k = .ok ()) {n : Nat} (hn : mainSteps ≤ n)
    {root : SField} (hr : Valid root) (hlev : LevelsOk root) (hi : IndexesOk root) (hh : height root ≤ 127) (hreq : root.common.repetition = .Required)
    {v : Val} (hv : HasTy Format.parquetEnv v Format.tFileMetaData) {version : BitVec 32} {rows : BitVec 64} {created : Option Bytes}
    (hm : MetadataFields v version ((flatten root).map elementVal) rows created)
    {bytes : Bytes} (he : encode Format.parquetEnv Format.tFileMetaData v = .ok bytes) (hl : bytes.length < 2 ^ 32)
    (pre : Bytes) {f : File} (hq : Quiet f) (hf : f.data = pre ++ footer bytes) :
    ∃ head body, HeadLines version rows created head ∧ SchemaLines 0 [root] body ∧
      asRun (runText cfg cap schemaText (n! "main") n [] ⟨f, [], [], none⟩) = ⟨Spec.printed 2 (head ++ body), .ok ()⟩ := by
  have hu : MetadataFields v.unshare version ((flatten root).map elementVal) rows created := by
    obtain ⟨groups, keys, orders, alg, key, rfl⟩ := hm
    have : ∀ es : List Element, Val.unshareList (es.map elementVal) = es.map elementVal := by
      intro es
      induction es with
      | nil => simp [Val.unshareList]
      | cons e es ih => simp [Val.unshareList, ih, unshare_elementVal]
    refine ⟨groups.unshare, keys.unshare, orders.unshare, alg.unshare, key.unshare, ?_⟩
    cases created <;> simp [Val.unshare, Val.unshareList, this]
  obtain ⟨head, h1, eh⟩ := (Text.head_iff version rows created _).1 rfl
  obtain ⟨body, h2, eb⟩ := (Text.print_iff root 0 _).1 rfl
  refine ⟨head, body, h1, h2, ?_⟩
  rw [C114_main cfg cap hcap ⟨f, [], [], none⟩ n hn]
  change unwrapped [] (schemaMain cfg (.ok f)) = _
  rw [schemaMain, readFile_written ha hv he hl pre hq hf]
  dsimp only
  rw [(fields_head hu).1, (fields_head hu).2, mapM_elementVal]
  dsimp only
  rw [C46_round_trip cfg hr hlev hi hh hreq]
  dsimp only
  rw [eh, eb, Text.printed_append]
  rfl

/-- C121: every schema tree can be stored and shown: its metadata are written, and `schema` prints the tree for a file with these metadata and a footer, in every build. -/
theorem C121_stored {root : SField} (hr : Valid root) (hlev : LevelsOk root) (hi : IndexesOk root) (hh : height root ≤ 127) (hreq : root.common.repetition = .Required)
    (hn : ∀ e ∈ flatten root, utf8Valid e.name = true ∧ e.name.length ≤ 16777216) (hl : (flatten root).length ≤ 10000000)
    (ht : ((flatten root).map fun e => 150 + e.name.length).sum + 50 < 2 ^ 32) :
    ∃ v bytes body, MetadataFields v 1#32 ((flatten root).map elementVal) 0#64 none ∧ encode Format.parquetEnv Format.tFileMetaData v = .ok bytes ∧ SchemaLines 0 [root] body ∧
      ∀ (cfg : Cfg) (_ : ∀ n, cfg.alloc n = true) (cap : Nat → Except PFail Unit) (_ : ∀ k, k < 2 ^ 32 → cap k = .ok ()) (n : Nat) (_ : mainSteps ≤ n)
        (pre : Bytes) (f : File) (_ : Quiet f) (_ : f.data = pre ++ footer bytes),
        asRun (runText cfg cap schemaText (n! "main") n [] ⟨f, [], [], none⟩) = ⟨ascii! "version: 1\nnum of rows: 0\n" ++ Spec.printed 2 body, .ok ()⟩ := by
  obtain ⟨bytes, hp⟩ := schemaMd_enc (fun e he => (hn e he).2) hl
  have he := encode_of_enc hp
  have hty := schemaMd_typed fun e he => (hn e he).1
  have hsz := C66_size hty he
  have := maxSize_schemaMd (flatten root)
  have hm : MetadataFields (schemaMd (flatten root)) 1#32 ((flatten root).map elementVal) 0#64 none := ⟨_, _, _, _, _, rfl⟩
  obtain ⟨body, hb, eb⟩ := (Text.print_iff root 0 _).1 rfl
  refine ⟨_, bytes, body, hm, he, hb, fun cfg ha cap hcap n hn pre f hq hf => ?_⟩
  obtain ⟨head, body', h1, h2, h⟩ := C121_tree ha hcap hn hr hlev hi hh hreq hty hm he (by omega) pre hq hf
  rw [h, Text.printed_append, (Text.print_iff root 0 _).2 ⟨body', h2, rfl⟩ |>.symm.trans eb]
  cases h1
  simp [Spec.printed, layout, number, textBytes]
  rfl

set_option maxRecDepth 100000 in
/-- The sample tree meets the conditions of `C121_stored`, and with it those of `C121_tree` and `C121_written` can be met. -/
example : ∃ v bytes body, MetadataFields v 1#32 ((flatten sampleTree).map elementVal) 0#64 none ∧ encode Format.parquetEnv Format.tFileMetaData v = .ok bytes ∧ SchemaLines 0 [sampleTree] body ∧
    asRun (runText ⟨true, true, fun _ => true⟩ (fun _ => .ok ()) schemaText (n! "main") mainSteps [] ⟨⟨[1#8, 2#8] ++ footer bytes, 0, [], []⟩, [], [], none⟩) =
      ⟨ascii! "version: 1\nnum of rows: 0\n" ++ Spec.printed 2 body, .ok ()⟩ := by
  have h : flatten sampleTree = [groupElement ⟨[0x72#8], none, .Required, 0, 0⟩ 2 none, groupElement ⟨[0x61#8], none, .Optional, 1, 0⟩ 1 (some .List),
      leafElement ⟨[0x62#8], some 7, .Repeated, 1, 1⟩ .INT32 none, leafElement ⟨[0x63#8], none, .Required, 0, 0⟩ (.FIXED_LEN_BYTE_ARRAY 16) (some .UUID)] := by
    simp [sampleTree, flatten, flattenAll]
  obtain ⟨_, h1, h2, h3, h4⟩ := (C46_iff ⟨true, true, fun _ => true⟩ _ _).1 (sample_converts ⟨true, true, fun _ => true⟩)
  obtain ⟨v, bytes, body, a, b, c, d⟩ := C121_stored (root := sampleTree) (C46_stable _ (sample_converts ⟨true, true, fun _ => true⟩)).1 h1 h2 h3 h4
    (by rw [h]; simp [groupElement, leafElement]; decide) (by rw [h]; simp) (by rw [h]; simp [groupElement, leafElement])
  exact ⟨v, bytes, body, a, b, c, d _ (fun _ => rfl) _ (fun _ _ => rfl) _ (Nat.le_refl _) [1#8, 2#8] _ ⟨by simp, by simp⟩ rfl⟩

set_option maxRecDepth 100000 in
/-- In the x86-64 build an unknown number without bytes makes both programs panic, and one whose first sixteen bytes all continue has no defined outcome. -/
example : let cfg : Cfg := ⟨false, true, fun _ => true⟩
    asRun (runPretty plainStd cfg (fun _ => .ok ()) dumpText (n! "main") 40 [] ⟨⟨footer [0xF5#8], 0, [], []⟩, [], [], none⟩) = ⟨[], .error .panic⟩ ∧
    asRun (runPretty plainStd cfg (fun _ => .ok ()) dumpText (n! "main") 40 [] ⟨⟨footer (0xF5#8 :: List.replicate 16 0xFF#8), 0, [], []⟩, [], [], none⟩) = ⟨[], .error .ub⟩ ∧
    asRun (runText cfg (fun _ => .ok ()) schemaText (n! "main") mainSteps [] ⟨⟨footer (0xF5#8 :: List.replicate 16 0xFF#8), 0, [], []⟩, [], [], none⟩) = ⟨[], .error .ub⟩ ∧
    ∃ o, FileEnds true false (footer (0xF5#8 :: List.replicate 16 0xFF#8)) o :=
  ⟨((C119_main _ _ _ _ 40 (Nat.le_refl _)).1).trans rfl, ((C119_main _ _ _ _ 40 (Nat.le_refl _)).1).trans rfl, (C114_main _ _ (fun _ _ => rfl) _ _ (Nat.le_refl _)).trans rfl,
    (C105_file_one _ _ _).imp fun _ h => h.1⟩

end CT.Props
