import Verif.Proofs.RoundTrip
import Verif.Props.Inputs
import Verif.Model.Format
/-! # C22, C23, C25, C33: round trips -/
namespace CT.Props
open CT Spec

/-- The allocator grants every reservation a list read can ask for. -/
def AllocOk (cfg : Cfg) : Prop := ∀ n, n ≤ 10000000 → cfg.alloc n = true

/-- C22, the most general form: a value whose present fields have ids the headers can convey, read into any start value
that can be filled, gives the value (up to reference counts) and leaves what follows it. -/
theorem C22_fill {cfg : Cfg} (ha : AllocOk cfg) {env : List Def} (hs : schemaOk env = true) {t : Ty} {v v0 : Val}
    (hv : HasTy env v t) (h0 : Fillable env t v0) {bytes : Bytes}
    (he : Enc env (HeaderOk cfg.overflowChecks) (.value t v) bytes) (suf : Bytes) :
    Reads cfg (fun I => fillThrift cfg I env t v0) bytes suf v.unshare := by
  refine Reads.of_slice_cond (generic_fillThrift env t v0)
    (C := fun ov al => Enc env (HeaderOk ov) (.value t v) bytes ∧ ∀ n, n ≤ 10000000 → al n = true) (fun cfg h => ?_) cfg ⟨he, ha⟩
  obtain ⟨N, hN⟩ := readsBack hs h.2 h.1 hv v0 h0
  rw [← (C17_bound_irrelevant_slice cfg (bytes ++ suf) (max N ((bytes ++ suf).length + 1))).2 (by omega) env t v0]
  exact hN _ (by omega) suf

/-- C22: for every schema with distinct ids, defined defaults, no bare `bool` and no `Option` union variants, and fields in an
order whose headers convey the ids: every well-typed value the writer accepts is read back, by slices and readers, and
nothing behind it is touched. -/
theorem C22_round_trip {cfg : Cfg} (ha : AllocOk cfg) {env : List Def} (hs : schemaOk env = true)
    (hst : stepsOk cfg.overflowChecks env = true) {t : Ty} {v : Val} (hv : HasTy env v t) {bytes : Bytes}
    (he : encode env t v = .ok bytes) (suf : Bytes) :
    Reads cfg (fun I => readThrift cfg I env t) bytes suf v.unshare := by
  have hd : defaultsDefined env = true := by
    unfold schemaOk at hs; rw [Bool.and_eq_true] at hs; exact hs.2
  exact C22_fill ha hs hv (fillable_dflt hd hv) (enc_steps hs hst (enc_of_encode hv he)) suf

/-- A value without shared reference counts comes back as it is. -/
theorem C22_identity {cfg : Cfg} (ha : AllocOk cfg) {env : List Def} (hs : schemaOk env = true)
    (hst : stepsOk cfg.overflowChecks env = true) {t : Ty} {v : Val} (hv : HasTy env v t) (hu : v.unshare = v) {bytes : Bytes}
    (he : encode env t v = .ok bytes) (suf : Bytes) : Reads cfg (fun I => readThrift cfg I env t) bytes suf v := by
  have := C22_round_trip ha hs hst hv he suf
  rwa [hu] at this

/-- A recursive schema: `struct Node { 1: required string name; 2: optional Box<Node> next; 20: optional list<Choice> cs }`,
`union Choice { 1: Node a; 300: i16 b }`. -/
def nodeEnv : List Def :=
  [.struct "Node" [⟨1#16, true, "name", .string⟩, ⟨2#16, false, "next", .box (.named 0)⟩, ⟨16#16, false, "cs", .list (.named 1)⟩],
   .union "Choice" [⟨1#16, "a", .named 0⟩, ⟨300#16, "b", .i16⟩]]

example : schemaOk nodeEnv = true ∧ stepsOk true nodeEnv = true := by decide

def nodeVal : Val := .struct [.string [0x61#8], .some (.box (.struct [.string [], .none, .none])),
  .some (.list [.union 1 (.i16 7#16), .union 0 (.struct [.string [], .none, .none])])]

example : HasTy nodeEnv nodeVal (.named 0) ∧ ∃ bytes, encode nodeEnv (.named 0) nodeVal = .ok bytes := by
  have leaf : HasTy nodeEnv (.struct [.string [], .none, .none]) (.named 0) := by
    refine .struct 0 _ _ _ rfl rfl fun i f v hf hv => ?_
    match i with
    | 0 => simp at hf hv; subst hf hv; exact .string _ rfl
    | 1 => simp at hf hv; subst hf hv; exact .none _
    | 2 => simp at hf hv; subst hf hv; exact .none _
    | i + 3 => simp at hf
  constructor
  · refine .struct 0 _ _ _ rfl rfl fun i f v hf hv => ?_
    match i with
    | 0 => simp at hf hv; subst hf hv; exact .string _ rfl
    | 1 => simp at hf hv; subst hf hv; exact .some _ _ (.box _ _ leaf)
    | 2 =>
      simp at hf hv; subst hf hv
      refine .some _ _ (.list _ _ fun v hv => ?_)
      rcases List.mem_cons.1 hv with rfl | hv
      · exact .union 1 _ _ 1 ⟨300#16, "b", .i16⟩ _ rfl rfl (.i16 _)
      · obtain rfl : v = _ := by simpa using hv
        exact .union 1 _ _ 0 ⟨1#16, "a", .named 0⟩ _ rfl rfl leaf
    | i + 3 => simp at hf
  · have leafEnc : Enc nodeEnv anyStep (.value (.named 0) (.struct [.string [], .none, .none])) _ :=
      .struct 0 _ _ _ _ rfl (.fieldsCons _ _ _ _ _ _ _ (.fieldValue .string _ _ _ _ (by simp) (by simp) trivial (.string _ (by simp)))
        (.fieldsCons _ _ _ _ _ _ _ (.fieldNone _ _ _) (.fieldsCons _ _ _ _ _ _ _ (.fieldNone _ _ _) (.fieldsNil _))))
    exact ⟨_, encode_of_enc (ok := anyStep) (.struct 0 _ _ _ _ rfl
      (.fieldsCons _ _ _ _ _ _ _ (.fieldValue .string _ _ _ _ (by simp) (by simp) trivial (.string _ (by simp)))
      (.fieldsCons _ _ _ _ _ _ _ (.fieldSome _ _ _ _ _ (.fieldValue (.box _) _ _ _ _ (by simp) (by simp) trivial (.box _ _ _ leafEnc)))
      (.fieldsCons _ _ _ _ _ _ _ (.fieldSome _ _ _ _ _ (.fieldValue (.list _) _ _ _ _ (by simp) (by simp) trivial
        (.list _ _ _ (by simp) (.elemsCons _ _ _ _ _
          (.union 1 _ _ 1 _ _ _ rfl rfl (.fieldValue .i16 _ _ _ _ (by simp) (by simp) trivial (.i16 _)))
          (.elemsCons _ _ _ _ _ (.union 1 _ _ 0 _ _ _ rfl rfl (.fieldValue (.named 0) _ _ _ _ (by simp) (by simp) trivial leafEnc))
            (.elemsNil _)))))) (.fieldsNil _)))))⟩

/-- C23: every type of format.rs, every value, both inputs, with and without overflow checks. -/
theorem C23_parquet_round_trip {cfg : Cfg} (ha : AllocOk cfg) {t : Ty} {v : Val} (hv : HasTy Format.parquetEnv v t) {bytes : Bytes}
    (he : encode Format.parquetEnv t v = .ok bytes) (suf : Bytes) :
    Reads cfg (fun I => readThrift cfg I Format.parquetEnv t) bytes suf v.unshare := by
  refine C22_round_trip ha (by decide) ?_ hv he suf
  cases cfg.overflowChecks <;> decide

/-- `KeyValue { key: "a", value: Some("") }` meets the hypotheses. -/
example : HasTy Format.parquetEnv (.struct [.string [0x61#8], .some (.string [])]) Format.tKeyValue ∧
    encode Format.parquetEnv Format.tKeyValue (.struct [.string [0x61#8], .some (.string [])]) =
      .ok (fieldHeader 8#8 1#16 0#16 ++ (varint 1 ++ [0x61#8]) ++ (fieldHeader 8#8 2#16 1#16 ++ (varint 0 ++ []) ++ []) ++ [0#8]) := by
  constructor
  · refine .struct _ _ _ _ rfl rfl fun i f v hf hv => ?_
    match i with
    | 0 => simp at hf hv; subst hf hv; exact .string _ rfl
    | 1 => simp at hf hv; subst hf hv; exact .some _ _ (.string _ rfl)
    | i + 2 => simp at hf
  · exact encode_of_enc (ok := anyStep) (.struct _ _ _ _ _ rfl
      (.fieldsCons _ _ _ _ _ _ _ (.fieldValue .string _ _ _ _ (by simp) (by simp) trivial (.string _ (by simp)))
      (.fieldsCons _ _ _ _ _ _ _ (.fieldSome _ _ _ _ _ (.fieldValue .string _ _ _ _ (by simp) (by simp) trivial (.string _ (by simp))))
        (.fieldsNil _))))

/-! ## What the conditions exclude -/

/-- Ids 10 and 30: the header of field 30 is read as field 20. -/
def gapEnv : List Def := [.struct "S" [⟨10#16, true, "a", .i32⟩, ⟨30#16, true, "b", .i32⟩]]

/-- C22 without the condition on the ids is false: a struct with fields 10 and 30 is not read back (on any input). -/
theorem C22_counterexample_gap (cfg : Cfg) :
    schemaOk gapEnv = true ∧ HasTy gapEnv (.struct [.i32 1#32, .i32 2#32]) (.named 0) ∧
    encode gapEnv (.named 0) (.struct [.i32 1#32, .i32 2#32]) = .ok [0xA5#8, 0x02#8, 0x05#8, 0x28#8, 0x04#8, 0x00#8] ∧
    Fails cfg (fun I => readThrift cfg I gapEnv (.named 0)) [0xA5#8, 0x02#8, 0x05#8, 0x28#8, 0x04#8, 0x00#8]
      (.err (.missingField "S::b")) := by
  refine ⟨by decide, ?_, ?_, ?_⟩
  · refine .struct _ _ _ _ rfl rfl fun i f v hf hv => ?_
    match i with
    | 0 => simp at hf hv; subst hf hv; exact .i32 _
    | 1 => simp at hf hv; subst hf hv; exact .i32 _
    | i + 2 => simp at hf
  · rw [encode_of_enc (ok := anyStep) (.struct _ _ _ _ _ rfl
      (.fieldsCons _ _ _ _ _ _ _ (.fieldValue .i32 _ _ _ _ (by simp) (by simp) trivial (.i32 _))
      (.fieldsCons _ _ _ _ _ _ _ (.fieldValue .i32 _ _ _ _ (by simp) (by simp) trivial (.i32 _)) (.fieldsNil _))))]
    have hv : ∀ n, n < 128 → varint n = [BitVec.ofNat 8 n] := fun n h => by rw [varint, if_pos h]
    rw [show fieldHeader (wireType gapEnv .i32) 30#16 (if present (.i32 1#32) = true then 10#16 else 0#16) =
        0x05#8 :: varint (zigzag 20) from rfl, hv _ (by decide), hv _ (by decide), hv _ (by decide)]
    rfl
  · refine Fails.of_slice (generic_readThrift gapEnv (.named 0)) (by simp) (fun cfg => ?_) cfg
    obtain ⟨ov, sse, al⟩ := cfg
    cases ov <;> cases sse <;> rfl

/-- `union U { 1: bool b }` -/
def boolUnionEnv : List Def := [.union "U" [⟨1#16, "b", .bool⟩]]

/-- C22 without the condition on unions is false: a union holding `true` is not read back, since the reader takes the
stop byte for the boolean. -/
theorem C22_counterexample_bool_union (cfg : Cfg) :
    HasTy boolUnionEnv (.union 0 (.bool true)) (.named 0) ∧
    encode boolUnionEnv (.named 0) (.union 0 (.bool true)) = .ok [0x11#8, 0x00#8] ∧
    Fails cfg (fun I => readThrift cfg I boolUnionEnv (.named 0)) [0x11#8, 0x00#8] (.err (.io .unexpectedEof)) := by
  refine ⟨.union _ _ _ _ _ _ rfl rfl (.bool _), ?_, ?_⟩
  · rw [encode_of_enc (ok := anyStep) (.union _ _ _ 0 _ _ _ rfl rfl (.fieldBool _ _ _ trivial))]
    simp [fieldHeader, boolByte]
  · refine Fails.of_slice (generic_readThrift boolUnionEnv (.named 0)) (by simp) (fun cfg => ?_) cfg
    obtain ⟨ov, sse, al⟩ := cfg
    cases ov <;> cases sse <;> rfl

/-! ## C25 -/

/-- C25: of two values of a type, neither encoding is a prefix of the other unless the values are equal (up to
reference counts) and the encodings the same. -/
theorem C25_prefix_free {env : List Def} (hs : schemaOk env = true) (hst : stepsOk false env = true) {t : Ty} {v w : Val}
    (hv : HasTy env v t) (hw : HasTy env w t) {p q s s' : Bytes} (hp : encode env t v = .ok p) (hq : encode env t w = .ok q)
    (h : p ++ s = q ++ s') : v.unshare = w.unshare ∧ p = q := by
  let cfg : Cfg := ⟨false, false, fun _ => true⟩
  have h1 := C22_round_trip (cfg := cfg) (fun _ _ => rfl) hs hst hv hp s
  have h2 := C22_round_trip (cfg := cfg) (fun _ _ => rfl) hs hst hw hq s'
  obtain ⟨h3, h4⟩ := Reads.unique h1 h2 h
  subst h4
  exact ⟨h3, List.append_cancel_right h⟩

/-- C25: equal encodings only for equal values. -/
theorem C25_injective {env : List Def} (hs : schemaOk env = true) (hst : stepsOk false env = true) {t : Ty} {v w : Val}
    (hv : HasTy env v t) (hw : HasTy env w t) {p : Bytes} (hp : encode env t v = .ok p) (hq : encode env t w = .ok p) :
    v.unshare = w.unshare := (C25_prefix_free (s := []) (s' := []) hs hst hv hw hp hq rfl).1

/-- C25: reference counts are not in the encoding, so they are the only difference allowed. -/
theorem C25_unshare {env : List Def} (hs : schemaOk env = true) (hst : stepsOk false env = true) {t : Ty} {v w : Val}
    (hv : HasTy env v t) (hw : HasTy env w t) {p q : Bytes} (hp : encode env t v = .ok p) (hq : encode env t w = .ok q)
    (h : v.unshare ≠ w.unshare) : ¬ p <+: q := by
  rintro ⟨s, rfl⟩
  exact h (C25_prefix_free (s := s) (s' := []) hs hst hv hw hp hq (by simp)).1

/-! ## C33 -/

/-- C33: in any schema, an enum holds, writes and reads back every 32-bit number, declared or not. -/
theorem C33_enum (cfg : Cfg) (env : List Def) (k : Nat) (name : String) (hk : env[k]? = some (.enum name)) (x : BitVec 32) :
    ∃ bytes, encode env (.named k) (.enum x) = .ok bytes ∧
      ∀ suf, Reads cfg (fun I => readThrift cfg I env (.named k)) bytes suf (.enum x) := by
  refine ⟨_, encode_of_enc (ok := anyStep) (.enum k name x hk), fun suf => ?_⟩
  refine Reads.of_slice (generic_readThrift env (.named k)) (fun cfg => ?_) cfg
  have hd : dflt env (.named k) = .enum 0#32 := by
    rw [dflt, dfltTy, defaults_get hk]; rfl
  rw [readThrift, hd, fillThrift, fillTy, fillNamed_enum hk, Rd.bind_ok (readI32_write cfg x suf)]; rfl

/-- C33: any input accepted as an enum is exactly an i32. -/
theorem C33_enum_is_i32 {σ : Type} (cfg : Cfg) (I : Input σ) (env : List Def) (k : Nat) (name : String)
    (hk : env[k]? = some (.enum name)) (s : σ) :
    readThrift cfg I env (.named k) s = (do let x ← I.readI32 cfg; pure (Val.enum x)) s := by
  have hd : dflt env (.named k) = .enum 0#32 := by
    rw [dflt, dfltTy, defaults_get hk]; rfl
  rw [readThrift, hd, fillThrift, fillTy, fillNamed_enum hk]

example : Format.parquetEnv[4]? = some (.enum "Encoding") := rfl

end CT.Props
