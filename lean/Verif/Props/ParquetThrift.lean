import Verif.Props.ThriftText
/-!
# C88: the code generated from parquet.thrift
-/
namespace CT.Props
open CT CT.Spec CT.Macro CT.Gen CT.Gen.Spec

set_option maxRecDepth 100000

/-- `generate` without the lifetimes -/
def plainGenerate (document : Gen.Document) : Option (List Def) :=
  let order := document.map (·.1)
  let scope := fun s => if s ∈ order then some (Ty.named (order.idxOf s)) else none
  (document.map (·.2)).mapM (plainDef scope)

theorem generate_plain {document : Gen.Document} {depth : Nat} (hd : ∀ p ∈ document, definitionNeedsLifeTime document depth p.2 ≠ none) :
    generate document depth = plainGenerate document := by
  unfold generate plainGenerate
  rw [mapM_map, mapM_map]
  exact mapM_congr_code fun p hp => visitDefinition_plain hd _ hp

theorem generate_depth {document : Gen.Document} {depth : Nat} {env : List Def} (h : generate document depth = some env) :
    ∀ p ∈ document, definitionNeedsLifeTime document depth p.2 ≠ none := by
  unfold generate at h
  rw [mapM_map] at h
  have : ∀ (ps : Gen.Document) (ds : List Def), ps.mapM (fun p => visitDefinition document depth (fun s => if s ∈ document.map (·.1) then some (Ty.named ((document.map (·.1)).idxOf s)) else none) p.2) = some ds →
      ∀ p ∈ ps, definitionNeedsLifeTime document depth p.2 ≠ none := by
    intro ps
    induction ps with
    | nil => intro _ _ p hp; cases hp
    | cons q ps ih =>
      intro ds h p hp
      simp only [List.mapM_cons, Option.bind_eq_bind, Option.bind_eq_some_iff] at h
      obtain ⟨d, hd, ds, hds, -⟩ := h
      rcases List.mem_cons.1 hp with rfl | hp
      · obtain ⟨x, p⟩ := p
        cases p with
        | typedef => cases hd
        | enum => simp [definitionNeedsLifeTime, Definition.typedFields, anyField]
        | struct y fs =>
          intro hn
          simp [visitDefinition, hn] at hd
        | union y fs =>
          intro hn
          simp [visitDefinition, hn] at hd
      · exact ih ds hds p hp
  exact this _ _ h

/-- The definitions of parquet.thrift with lifetimes -/
def borrowing : List String :=
  ["Statistics", "SchemaElement", "DataPageHeader", "DataPageHeaderV2", "PageHeader", "KeyValue", "ColumnMetaData", "EncryptionWithColumnKey", "ColumnCryptoMetaData",
   "ColumnChunk", "RowGroup", "ColumnIndex", "AesGcmV1", "AesGcmCtrV1", "EncryptionAlgorithm", "FileMetaData", "FileCryptoMetaData"]

def parquetOk : Bool :=
  ((parse parquetToks).bind mapDoc).any fun r =>
    decide (r.1 = ⟨[("cpp", "parquet"), ("java", "org.apache.parquet.format")], []⟩) &&
      r.2.all (fun p => decide (anyField (life r.2 3) p.2.typedFields = some (borrowing.contains p.1))) && decide (plainGenerate r.2 = some Format.Thrift.env)

theorem parquet_ok : parquetOk = true := by decide +kernel

/-- C88: the generator reads parquet.thrift, and the code it generates has exactly the definitions of `Format.Thrift.env`; the definitions with a lifetime are these 17. Three
nested calls are enough. -/
theorem C88_generated : ∃ document, readDocument parquetText = some (⟨[("cpp", "parquet"), ("java", "org.apache.parquet.format")], []⟩, document) ∧
    ∀ depth, 3 ≤ depth → generate document depth = some Format.Thrift.env ∧
      ∀ p ∈ document, definitionNeedsLifeTime document depth p.2 = some (borrowing.contains p.1) := by
  have h := parquet_ok
  unfold parquetOk at h
  rw [Option.any_eq_true_iff_get] at h
  obtain ⟨hs, h⟩ := h
  obtain ⟨⟨hd, document⟩, hr⟩ := Option.isSome_iff_exists.1 hs
  simp only [hr, Option.get_some, Bool.and_eq_true, decide_eq_true_iff, List.all_eq_true] at h
  obtain ⟨⟨rfl, h1⟩, h2⟩ := h
  have h3 : readDocument parquetText = some (⟨[("cpp", "parquet"), ("java", "org.apache.parquet.format")], []⟩, document) := by
    obtain ⟨d, hp, hm⟩ := Option.bind_eq_some_iff.1 hr
    have := C85_parse parquetToks d |>.1 hp
    rw [readDocument_eq (d := d) (this ▸ C88_tokens), hm]
  refine ⟨document, h3, fun depth hn => ?_⟩
  have h4 : ∀ p ∈ document, definitionNeedsLifeTime document depth p.2 = some (borrowing.contains p.1) := by
    intro p hp
    have h := h1 p hp
    rw [← funext (fieldNeedsLifeTime_eq document 3)] at h
    exact anyField_mono (fun f _ b hb => C55_depth document 3 f.type b hb depth hn) h
  exact ⟨by rw [generate_plain fun p hp => by rw [h4 p hp]; simp]; exact h2, h4⟩

mutual
/-- Equality of token trees -/
def sameTT : TT → TT → Bool
  | .ident a, .ident b => decide (a = b)
  | .lit a, .lit b => decide (a = b)
  | .punct a, .punct b => decide (a = b)
  | .group d ts, .group e us => decide (d = e) && sameTTs ts us
  | _, _ => false
def sameTTs : List TT → List TT → Bool
  | [], [] => true
  | t :: ts, u :: us => sameTT t u && sameTTs ts us
  | _, _ => false
end

mutual
theorem sameTT_eq : ∀ {t u : TT}, sameTT t u = true → t = u
  | .ident _, .ident _, h => by simpa [sameTT] using h
  | .lit _, .lit _, h => by simpa [sameTT] using h
  | .punct _, .punct _, h => by simpa [sameTT] using h
  | .group _ _, .group _ _, h => by
    simp only [sameTT, Bool.and_eq_true, decide_eq_true_iff] at h
    rw [h.1, sameTTs_eq h.2]
theorem sameTTs_eq : ∀ {ts us : List TT}, sameTTs ts us = true → ts = us
  | [], [], _ => rfl
  | _ :: _, _ :: _, h => by
    simp only [sameTTs, Bool.and_eq_true] at h
    rw [sameTT_eq h.1, sameTTs_eq h.2]
end

theorem rust_ok : rustTokens (parquetToks.drop 6) = some Format.Thrift.thriftTokens := by
  have h : (rustTokens (parquetToks.drop 6)).any (fun ts => sameTTs ts Format.Thrift.thriftTokens) = true := by decide +kernel
  rw [Option.any_eq_true_iff_get] at h
  obtain ⟨hs, h⟩ := h
  rw [← sameTTs_eq h, Option.some_get]

/-- The keyword `type` is not a name in Rust; format.rs uses `type_`. -/
def rustName (s : String) : String := if s = "type" then "type_" else s

mutual
/-- The tokens with names for Rust -/
def rustNamesTT : TT → TT
  | .ident a => .ident (rustName a)
  | .group d ts => .group d (rustNames ts)
  | t => t
def rustNames : List TT → List TT
  | [] => []
  | t :: ts => rustNamesTT t :: rustNames ts
end

/-- The fields with names for Rust -/
def rustFields : Def → Def
  | .struct n fs => .struct n (fs.map fun f => { f with name := rustName f.name })
  | d => d

theorem macro_type : expand (fun _ => none) (Format.Thrift.env.map nameOf) 128 Format.Thrift.thriftTokens = none := by decide +kernel

theorem macro_type_ : expand (fun _ => none) (Format.Thrift.env.map nameOf) 128 (rustNames Format.Thrift.thriftTokens) = some (Format.Thrift.env.map rustFields) := by
  decide +kernel

/-- C88: without the two `namespace` lines the tokens of the file are those of `Format.Thrift.thriftTokens`. Given to `thrift!` they do not compile, and the only reason are
the fields named `type`: with `type_` for these, as in format.rs, `thrift!` makes the same definitions as the generator. -/
theorem C88_macro : ∃ hs ds, parquetToks = hs ++ ds ∧ tokens (chars! "namespace cpp parquet\nnamespace java org.apache.parquet.format\n") = some hs ∧
    rustTokens ds = some Format.Thrift.thriftTokens ∧ expand (fun _ => none) (Format.Thrift.env.map nameOf) 128 Format.Thrift.thriftTokens = none ∧
    expand (fun _ => none) (Format.Thrift.env.map nameOf) 128 (rustNames Format.Thrift.thriftTokens) = some (Format.Thrift.env.map rustFields) :=
  ⟨parquetToks.take 6, parquetToks.drop 6, (List.take_append_drop 6 _).symm, by decide +kernel, rust_ok, macro_type, macro_type_⟩

/-- C88: what code generated from parquet.thrift writes, format.rs reads: values of each of the 60 types with the type of the same name. -/
theorem C88_reads {document : Gen.Document} {hd : Header} (hr : readDocument parquetText = some (hd, document)) {depth : Nat} {env : List Def}
    (hg : generate document depth = some env) {cfg : Cfg} (ha : AllocOk cfg) {k : Nat} (hk : k < 60) {v : Val} (hv : HasTy env v (.named k)) (hsm : smallEnums v)
    {bytes : Bytes} (he : encode env (.named k) v = .ok bytes) :
    (∃ d e, env[k]? = some d ∧ Format.parquetEnv[byName k]? = some e ∧ nameOf d = nameOf e) ∧
    ∃ w, Mig byName env Format.parquetEnv (.named k) (.named (byName k)) v w ∧ HasTy Format.parquetEnv w (.named (byName k)) ∧
      ∀ suf, Reads cfg (fun I => readThrift cfg I Format.parquetEnv (.named (byName k))) bytes suf w := by
  obtain ⟨_, h1, h2⟩ := C88_generated
  rw [hr] at h1
  cases h1
  have := (h2 3 (Nat.le_refl _)).1
  rw [generate_plain fun p hp => by rw [(h2 3 (Nat.le_refl _)).2 p hp]; simp, ← generate_plain (generate_depth hg), hg] at this
  cases this
  exact C75_parquet ha hk hv hsm he

end CT.Props
