import Verif.Proofs.ProtocolWrite
import Verif.Props.Decoding
/-! # C77, C78: the trees of the compact protocol, read, skipped and written -/
namespace CT.Props
open CT Spec

/-! ## C77 -/

/-- C77, skipping: the encoding of any tree of the protocol - maps and sets included, fields in any order - is skipped exactly, as an element of a
collection and as a field, on slices and readers, in every build. -/
theorem C77_skip (cfg : Cfg) {x : PVal} (h : x.wf = true) (suf : Bytes) :
    (∀ et, fits et x = true → Reads cfg (fun I => I.skip cfg et true) x.enc suf ()) ∧
    Reads cfg (fun I => I.skipField cfg x.fieldType) (fieldContent x x.enc) suf () := by
  refine ⟨fun et he => ?_, ?_⟩
  · exact Reads.of_slice (generic_skip et true) (fun cfg => SkipsAs.skip ((skips_pval cfg x h).1 et he) suf) cfg
  · exact Reads.of_slice (generic_skipField x.fieldType) (fun cfg => SkipsAs.skip (skips_pval cfg x h).2 suf) cfg

/-- C77, reading into a value: the encoding of any tree that represents a value reads as that value. -/
theorem C77_fill {cfg : Cfg} (ha : AllocOk cfg) {env : List Def} (hs : schemaOk env = true) (hcl : envClosed env = true) (hb : noBoxedBool env = true)
    {t : Ty} (ht : tyClosed env t = true) {v : Val} {x : PVal} (hw : x.wf = true) (hr : Rep env t v x) {v0 : Val} (h0 : Fillable env t v0) (suf : Bytes) :
    Reads cfg (fun I => fillThrift cfg I env t v0) x.enc suf v.unshare := by
  refine Reads.of_slice_cond (generic_fillThrift env t v0) (C := fun _ al => ∀ n, n ≤ 10000000 → al n = true) (fun cfg ha => ?_) cfg ha
  obtain ⟨N, h⟩ := reads_pval hs hcl hb (cfg := cfg) ha x t hw v hr ht v0 h0
  have e := fillTy_canon (cfg := cfg) (slice_measured_nd cfg) env (n := N + (x.enc ++ suf).length + 1) (s := x.enc ++ suf)
    (by show (x.enc ++ suf).length + 1 ≤ _; omega) t v0
  exact e ▸ h _ (by omega) suf

/-- C77, reading: whatever program wrote it, the encoding of a tree that represents a value - fields in any order, any number of fields the schema does
not know, lists of booleans announced as type 1 or 2 - reads as that value, on slices and readers, in every build. -/
theorem C77_reads {cfg : Cfg} (ha : AllocOk cfg) {env : List Def} (hs : schemaOk env = true) (hcl : envClosed env = true) (hb : noBoxedBool env = true)
    {t : Ty} (ht : tyClosed env t = true) {v : Val} {x : PVal} (hw : x.wf = true) (hr : Rep env t v x) (suf : Bytes) :
    Reads cfg (fun I => readThrift cfg I env t) x.enc suf v.unshare := by
  have hd : defaultsDefined env = true := by
    unfold schemaOk at hs; simp only [Bool.and_eq_true] at hs; exact hs.2
  exact C77_fill ha hs hcl hb ht hw hr (fillable_dflt_closed hd ht) suf

/-- C77: trees with the same bytes represent the same value. -/
theorem C77_unambiguous {env : List Def} (hs : schemaOk env = true) (hcl : envClosed env = true) (hb : noBoxedBool env = true)
    {t : Ty} (ht : tyClosed env t = true) {v w : Val} {x y : PVal} (hx : x.wf = true) (hy : y.wf = true) (hv : Rep env t v x) (hw : Rep env t w y)
    (e : x.enc = y.enc) : v.unshare = w.unshare := by
  have ha : AllocOk ⟨false, false, fun _ => true⟩ := fun _ _ => rfl
  exact (Reads.unique (C77_reads ha hs hcl hb ht hx hv []) (C77_reads ha hs hcl hb ht hy hw []) (by rw [e])).1

/-- C77: a truncated tree does not read as a value: no encoding of a tree is a proper prefix of another's, for the same type. -/
theorem C77_prefix_free {env : List Def} (hs : schemaOk env = true) (hcl : envClosed env = true) (hb : noBoxedBool env = true)
    {t : Ty} (ht : tyClosed env t = true) {v w : Val} {x y : PVal} (hx : x.wf = true) (hy : y.wf = true) (hv : Rep env t v x) (hw : Rep env t w y)
    {r : Bytes} (e : x.enc = y.enc ++ r) : r = [] ∧ v.unshare = w.unshare := by
  have ha : AllocOk ⟨false, false, fun _ => true⟩ := fun _ _ => rfl
  have h := Reads.unique (C77_reads ha hs hcl hb ht hx hv []) (C77_reads ha hs hcl hb ht hy hw r) (by rw [e]; simp)
  exact ⟨h.2.symm, h.1⟩

/-- Fields 7, 5, 1 and 2 in this order; 7 is a `map<binary, bool>` and 5 a `set<i32>` the schema does not know; the list of booleans is announced as
type 1. -/
def treeVal : PVal := .struct [7#16, 5#16, 1#16, 2#16]
  [.map 8#8 2#8 [.binary [0x61#8]] [.bool true], .set 5#8 [.i32 2#32], .i32 3#32, .list 1#8 [.bool true, .bool false]]

theorem varint_small {n : Nat} (h : n < 128) : varint n = [BitVec.ofNat 8 n] := by
  rw [varint, if_pos h]

theorem treeVal_enc : treeVal.enc = [0x7B#8, 1#8, 0x82#8, 1#8, 0x61#8, 1#8, 0x0A#8, 0x0A#8, 0x15#8, 4#8, 5#8, 2#8, 6#8, 0x19#8, 0x21#8, 1#8, 2#8, 0#8] := by
  simp only [treeVal, PVal.enc, encFields, encEach, joinFields, fieldContent, PVal.fieldType, PVal.type, protoHeader, interleave, listHeader]
  rw [varint_small (n := zigzag (5#16).toInt) (by decide), varint_small (n := zigzag (1#16).toInt) (by decide), varint_small (n := zigzag (3#32).toInt) (by decide),
    varint_small (n := zigzag (2#32).toInt) (by decide), varint_small (n := [PVal.binary [0x61#8]].length) (by decide), varint_small (n := [0x61#8].length) (by decide)]
  rfl

theorem treeVal_rep : Rep decEnv (.named 0) decVal treeVal := by
  refine .struct 0 "S" _ _ _ _ rfl rfl fun i f v hf hv => ?_
  match i with
  | 0 =>
    cases hf; cases hv
    exact .present _ _ ⟨1#16, true, "a", .i32⟩ 2 (.i32 3#32) _ rfl (fun j' h => by
      match j' with
      | 0 => simp at h
      | 1 => simp at h
      | 2 => rfl
      | 3 => simp at h
      | n + 4 => simp at h) rfl (.i32 _)
  | 1 =>
    cases hf; cases hv
    refine .present _ _ ⟨2#16, false, "b", .list .bool⟩ 3 (.list [.bool true, .bool false]) _ rfl (fun j' h => by
      match j' with
      | 0 => simp at h
      | 1 => simp at h
      | 2 => simp at h
      | 3 => rfl
      | n + 4 => simp at h) rfl (.list _ _ _ _ (.inr ⟨rfl, rfl⟩) rfl fun i v x hv hx => ?_)
    match i with
    | 0 => cases hv; cases hx; exact .bool _
    | 1 => cases hv; cases hx; exact .bool _
    | n + 2 => simp at hv
  | 2 =>
    cases hf; cases hv
    exact .absent _ _ _ rfl (by simp)
  | n + 3 => simp at hf

/-- The conditions of C77 hold for the tree, and its bytes read as the value they represent in every build. -/
example (ov sse : Bool) (suf : Bytes) : schemaOk decEnv = true ∧ envClosed decEnv = true ∧ noBoxedBool decEnv = true ∧ treeVal.wf = true ∧
    Reads ⟨ov, sse, fun _ => true⟩ (fun I => readThrift ⟨ov, sse, fun _ => true⟩ I decEnv (.named 0))
      [0x7B#8, 1#8, 0x82#8, 1#8, 0x61#8, 1#8, 0x0A#8, 0x0A#8, 0x15#8, 4#8, 5#8, 2#8, 6#8, 0x19#8, 0x21#8, 1#8, 2#8, 0#8] suf decVal := by
  have hw : treeVal.wf = true := by simp only [treeVal, PVal.wf, wfList]; rfl
  refine ⟨by decide, by decide, by decide, hw, ?_⟩
  have h := C77_reads (cfg := ⟨ov, sse, fun _ => true⟩) (fun _ _ => rfl) (env := decEnv) (by decide) (by decide) (by decide) (t := .named 0) (by decide) hw treeVal_rep suf
  rw [treeVal_enc] at h
  exact h

/-- C77, where the library departs from the protocol: a `set<i32>` (type 10) is not accepted where the schema has a `set<i32>`, because the library gives
sets the type of lists; as an unknown field it is skipped. -/
theorem C77_set_rejected {cfg : Cfg} (ha : AllocOk cfg) (suf : Bytes) : (PVal.struct [1#16] [.set 5#8 [.i32 2#32]]).wf = true ∧
    (PVal.struct [1#16] [.set 5#8 [.i32 2#32]]).enc = [0x1A#8, 0x15#8, 4#8, 0#8] ∧
    Fails cfg (fun I => readThrift cfg I [.struct "S" [⟨1#16, true, "a", .list .i32⟩]] (.named 0)) ([0x1A#8, 0x15#8, 4#8, 0#8] ++ suf) (.err .invalidType) ∧
    Reads cfg (fun I => readThrift cfg I [.struct "S" []] (.named 0)) [0x1A#8, 0x15#8, 4#8, 0#8] suf (.struct []) := by
  have hw : (PVal.struct [1#16] [.set 5#8 [.i32 2#32]]).wf = true := by simp only [PVal.wf, wfList]; rfl
  have he : (PVal.struct [1#16] [.set 5#8 [.i32 2#32]]).enc = [0x1A#8, 0x15#8, 4#8, 0#8] := by
    simp only [PVal.enc, encFields, encEach, joinFields, fieldContent, PVal.fieldType, PVal.type, protoHeader, listHeader]
    rw [varint_small (n := zigzag (2#32).toInt) (by decide)]
    rfl
  refine ⟨hw, he, ?_, ?_⟩
  · refine Fails.of_slice (generic_readThrift _ _) (by simp) (fun cfg => ?_) cfg
    obtain ⟨ov, sse, al⟩ := cfg
    cases ov <;> cases sse <;> rfl
  · rw [← he]
    exact C77_reads ha (env := [.struct "S" []]) (by decide) (by decide) (by decide) (t := .named 0) (by decide) hw
      (.struct 0 "S" [] [] _ _ rfl rfl fun i f v hf => by simp at hf) suf

/-! ## C78 -/

/-- C78: the header written for field `id` after field `last` is that of the protocol exactly if the difference is 1 to 15 or `last` is 0 and the id above 15. -/
theorem C78_header (ft : Byte) (id last : BitVec 16) : fieldHeader ft id last = protoHeader ft id last ↔ HeaderOk true last id := by
  refine ⟨fun h => ?_, fieldHeader_proto ft⟩
  have hl := BitVec.toInt_lt (x := last); have hl' := BitVec.le_toInt (x := last)
  have hi := BitVec.toInt_lt (x := id); have hi' := BitVec.le_toInt (x := id)
  simp only [Nat.add_one_sub_one] at hl hl' hi hi'
  unfold fieldHeader protoHeader at h
  split at h
  · rename_i h15
    split at h
    · exact .inl (by assumption)
    · have e := congrArg leb (List.cons.inj h).2
      rw [leb_varint, leb_varint, ← zigzagEncode_toNat (by omega), ← zigzagEncode_toNat (by omega)] at e
      have e' := congrArg zigzagDecode (BitVec.eq_of_toNat_eq e)
      rw [zigzag_decode_encode (by omega), zigzag_decode_encode (by omega)] at e'
      have h0 : last = 0#16 := by
        apply BitVec.eq_of_toNat_eq
        have := congrArg BitVec.toNat e'
        rw [BitVec.toNat_sub] at this
        have := last.isLt
        have := id.isLt
        simp only [BitVec.toNat_zero]
        omega
      exact .inr (.inr ⟨h0, by rw [← e']; exact h15⟩)
  · split at h
    · exact .inl (by assumption)
    · have e := (List.cons.inj h).2
      rw [varint] at e
      split at e <;> cases e

example : HeaderOk true 3#16 18#16 ∧ ¬ HeaderOk true 3#16 19#16 ∧ HeaderOk true 0#16 200#16 := by decide

/-- C78: what is written is the encoding of a tree of the protocol that represents the value, if every header any value of the schema can need is one of the
protocol's (C78_header). So any reader of the compact protocol can read it. -/
theorem C78_written {env : List Def} (hs : schemaOk env = true) (hb : noBoxedBool env = true) (hst : stepsOk true env = true) {t : Ty} {v : Val}
    (hv : HasTy env v t) {bytes : Bytes} (he : encode env t v = .ok bytes) : ∃ x : PVal, x.wf = true ∧ Rep env t v x ∧ x.enc = bytes :=
  tree_of_enc hs hb (enc_stepsWith (fun _ _ h => of_decide_eq_true h) hs hst (enc_of_encode hv he)) hv

/-- The conditions of C78 hold for the value of the examples of C77 (whose own tree above is another one). -/
example : schemaOk decEnv = true ∧ noBoxedBool decEnv = true ∧ stepsOk true decEnv = true ∧
    encode decEnv (.named 0) decVal = .ok [0x15#8, 6#8, 0x19#8, 0x22#8, 1#8, 2#8, 0#8] := by
  refine ⟨by decide, by decide, by decide, ?_⟩
  have h := encode_of_enc (ok := anyStep) (env := decEnv) (.struct 0 "S" _ _ _ rfl
    (.fieldsCons _ _ _ _ _ _ _ (.fieldValue .i32 _ _ _ _ (by simp) (by simp) trivial (.i32 3#32))
    (.fieldsCons _ _ _ _ _ _ _ (.fieldSome _ _ _ _ _ (.fieldValue (.list .bool) _ _ _ _ (by simp) (by simp) trivial
      (.list _ [.bool true, .bool false] _ (by decide) (.elemsCons _ _ _ _ _ (.bool true) (.elemsCons _ _ _ _ _ (.bool false) (.elemsNil _))))))
    (.fieldsCons _ _ _ _ _ _ _ (.fieldNone _ _ _) (.fieldsNil _)))))
  rw [varint_small (n := zigzag (3#32).toInt) (by decide)] at h
  exact h

/-- C78, where the condition fails: with the ids 10 and 30 the writer puts the difference 20 where the protocol has the id, and the bytes are not those of any
tree that represents the value. -/
theorem C78_counterexample_gap : schemaOk gapEnv = true ∧ noBoxedBool gapEnv = true ∧ HasTy gapEnv (.struct [.i32 1#32, .i32 2#32]) (.named 0) ∧
    encode gapEnv (.named 0) (.struct [.i32 1#32, .i32 2#32]) = .ok [0xA5#8, 0x02#8, 0x05#8, 0x28#8, 0x04#8, 0x00#8] ∧
    ¬ ∃ x : PVal, x.wf = true ∧ Rep gapEnv (.named 0) (.struct [.i32 1#32, .i32 2#32]) x ∧ x.enc = [0xA5#8, 0x02#8, 0x05#8, 0x28#8, 0x04#8, 0x00#8] := by
  obtain ⟨h1, h2, h3, h4⟩ := C22_counterexample_gap ⟨false, false, fun _ => true⟩
  refine ⟨h1, by decide, h2, h3, ?_⟩
  rintro ⟨x, hw, hr, he⟩
  have h := (C77_reads (cfg := ⟨false, false, fun _ => true⟩) (fun _ _ => rfl) h1 (by decide) (by decide) (by decide) hw hr []).1
  rw [he] at h
  have h' := h4.1
  rw [List.append_nil, h'] at h
  cases h

/-- C78 for all Parquet types. -/
theorem C78_parquet {t : Ty} {v : Val} (hv : HasTy Format.parquetEnv v t) {bytes : Bytes} (he : encode Format.parquetEnv t v = .ok bytes) :
    ∃ x : PVal, x.wf = true ∧ Rep Format.parquetEnv t v x ∧ x.enc = bytes :=
  C78_written (by decide) (by decide) (by decide) hv he

end CT.Props
