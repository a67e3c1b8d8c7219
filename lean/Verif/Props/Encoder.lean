import Verif.Spec.Encoder
import Verif.Proofs.Encoder
import Verif.Props.Decoder
import Verif.Props.Writing

/-! C116: every program written by hand over the output trait, and reading back what it wrote. -/

namespace CT.Props
open CT CT.Spec

/-! ## Writing -/

/-- C116: a program of typed steps either writes to a vector exactly the bytes the protocol prescribes for all its steps, leaving the last field id as prescribed, or it stops at
the first step the library refuses, with an error this step deserves, after the bytes of the steps before and what this step writes by itself before it is refused. -/
theorem C116_written {env : List Def} {ps : List Put} (hp : ∀ p ∈ ps, p.Typed env) (last : BitVec 16) (out : Bytes) :
    (∃ bs last', PutsBytes env last ps bs last' ∧ writePuts vecSink env last ps out = (.ok last', out ++ bs)) ∨
    (∃ before p after bs last' e tail, ps = before ++ p :: after ∧ PutsBytes env last before bs last' ∧ PutRefused env p e ∧
      p.write vecSink env last' [] = (.error (.err e), tail) ∧ writePuts vecSink env last ps out = (.error (.err e), out ++ (bs ++ tail))) := by
  rcases puts_cases hp last with ⟨bs, l', h⟩ | ⟨before, p, after, bs, l', e, tail, h1, h2, h3, h4, h5⟩
  · exact .inl ⟨bs, l', h, Outs.vec (outs_puts h) out⟩
  · exact .inr ⟨before, p, after, bs, l', e, tail, h1, h2, h3, Outs.vec h4 [], Outs.vec h5 out⟩

/-- C116: it succeeds exactly if the protocol prescribes bytes for all steps, and these are then the ones. -/
theorem C116_written_iff {env : List Def} {ps : List Put} (hp : ∀ p ∈ ps, p.Typed env) (last last' : BitVec 16) (out out' : Bytes) :
    writePuts vecSink env last ps out = (.ok last', out') ↔ ∃ bs, out' = out ++ bs ∧ PutsBytes env last ps bs last' := by
  constructor
  · intro h
    rcases C116_written hp last out with ⟨bs, l', h1, h2⟩ | ⟨_, _, _, _, _, _, _, _, _, _, _, h2⟩
    · rw [h] at h2
      injection h2 with h2 h3
      injection h2 with h2
      exact ⟨bs, h3, h2 ▸ h1⟩
    · rw [h] at h2
      injection h2 with h2
      cases h2
  · rintro ⟨bs, rfl, h⟩
    exact Outs.vec (outs_puts h) out

/-- C116: whatever the `io::Write` does, it has received a prefix of what a vector would receive. Either it has received everything and the result is the same, or some bytes are
missing and the result is an I/O error with a kind the sink returned. -/
theorem C116_prefix {env : List Def} {ps : List Put} (hp : ∀ p ∈ ps, p.Typed env) (last : BitVec 16) (script : List WEvent) (out : Bytes) :
    ∃ sent rest, (writePuts vecSink env last ps []).2 = sent ++ rest ∧
      (writePuts writerSink env last ps ⟨script, out⟩).2.out = out ++ sent ∧
      (((writePuts writerSink env last ps ⟨script, out⟩).1 = (writePuts vecSink env last ps []).1 ∧ rest = []) ∨
       ∃ k, (writePuts writerSink env last ps ⟨script, out⟩).1 = .error (.err (.io k)) ∧ rest ≠ [] ∧ Caused script k) := by
  have ho : ∃ bs r, Outs (fun _ S => writePuts S env last ps) bs r := by
    rcases puts_cases hp last with ⟨bs, l', h⟩ | ⟨_, _, _, _, _, _, _, _, _, _, _, ho⟩
    · exact ⟨_, _, outs_puts h⟩
    · exact ⟨_, _, ho⟩
  obtain ⟨bs, r, ho⟩ := ho
  have hvec : writePuts vecSink env last ps [] = (r, [] ++ bs) := Outs.vec ho []
  obtain ⟨cs, hcs, ho⟩ := ho
  have hw := ho WState writerSink ⟨script, out⟩
  dsimp only at hw
  obtain ⟨sent, rest, script', h1, _, h3⟩ := runChunks_spec cs script out
  refine ⟨sent, rest, by rw [hvec, ← h1, hcs]; rfl, ?_⟩
  rcases h3 with ⟨h3, rfl⟩ | ⟨k, h3, h4, h5⟩
  · rw [hw, h3, hvec]
    exact ⟨rfl, .inl ⟨rfl, rfl⟩⟩
  · rw [hw, h3]
    exact ⟨rfl, .inr ⟨k, rfl, h4, h5⟩⟩

/-! ## Reading back -/

/-- The bound on the nesting is irrelevant for `fill_thrift_field` too. -/
theorem fillField_bound (cfg : Cfg) (s : Bytes) (n : Nat) (hn : s.length + 1 ≤ n) (env : List Def) (t : Ty) (v : Val) (ft : Byte) :
    fillField cfg (sliceInput cfg) env (fillNamed cfg (sliceInput cfg) env n) t v ft s = (Request.fillField env t v ft).run cfg (sliceInput cfg) s := by
  refine fuel_eq (x := fillField cfg (sliceInput cfg) env (fillNamed cfg (sliceInput cfg) env (s.length + 1)) t v ft)
    (Sim.fillField (P := SimP.std OnlyDiverge _) (CfgSim.refl OnlyDiverge cfg) (refl_sim cfg (sliceInput cfg)) env
      (Sim.fillNamed (CfgSim.refl OnlyDiverge cfg) (refl_sim cfg (sliceInput cfg)) env _ _ hn) t v ft) fun h => ?_
  exact (Tri.fillField (allowed_notDiverge cfg) (slice_measured_nd cfg) stuck_notDiverge env s.length
    (Tri.fillNamed (allowed_notDiverge cfg) (slice_measured_nd cfg) stuck_notDiverge env _ _ (by omega)) t v ft).error (Nat.le_refl _) h rfl

/-- C116: a field written by `write_thrift_field` is read back by reading a header and calling `fill_thrift_field` with the type read, on a fresh value. -/
theorem C116_field {cfg : Cfg} (ha : AllocOk cfg) {env : List Def} (hs : schemaOk env = true) (hst : stepsOk cfg.overflowChecks env = true) {t : Ty} {v v0 : Val}
    (hv : HasTy env v t) (ht : Ty.isOption t = false ∨ ∃ t', t = .option t' ∧ Ty.isOption t' = false) (hp : present v = true) (h0 : Fillable env t v0) {id last : BitVec 16}
    (hh : HeaderOk cfg.overflowChecks last id) {out bytes : Bytes} (hw : writeField vecSink env t v id last out = (.ok id, out ++ bytes)) :
    ∃ ft p q, bytes = p ++ q ∧ ft ≠ 0#8 ∧ (∀ suf, Reads cfg (fun I => Request.run cfg I (.fieldHeader last)) p suf (ft, id)) ∧
      ∀ suf, Reads cfg (fun I => Request.run cfg I (.fillField env t v0 ft)) q suf v.unshare := by
  have he : Enc env anyStep (.field t v id last) bytes := by
    rcases (enc_or_refused hv).2 id last with ⟨q, hq⟩ | ⟨e, _, bs, ho⟩
    · have h' : Outs (fun _ S => writeField S env t v id last) q (.ok (if present v then id else last)) := outs_of_enc hq
      have := Outs.vec h' out
      rw [hw] at this
      injection this with _ this
      exact List.append_cancel_left this ▸ hq
    · have := Outs.vec ho out
      rw [hw] at this
      injection this with this
      cases this
  have key : ∀ cfg : Cfg, AllocOk cfg → stepsOk cfg.overflowChecks env = true → HeaderOk cfg.overflowChecks last id →
      ∃ ft q, bytes = fieldHeader ft id last ++ q ∧ ft ≠ 0#8 ∧ ft.toNat < 16 ∧ ∀ suf, (Request.fillField env t v0 ft).run cfg (sliceInput cfg) (q ++ suf) = .ok (v.unshare, suf) := by
    intro cfg ha hst hh
    have hb := readsBack hs ha ((enc_steps hs hst he) fun _ => hh).1 hv ht
    rcases hb with ⟨rfl, _⟩ | ⟨_, ft, q, e, _, h1, h2, h3⟩
    · cases hp
    · refine ⟨ft, q, e, h1, h2, fun suf => ?_⟩
      obtain ⟨N, hN⟩ := h3 v0 h0
      rw [← fillField_bound cfg (q ++ suf) (max N ((q ++ suf).length + 1)) (by omega)]
      exact (hN _ (by omega) suf).1
  obtain ⟨ft, q, e, h1, h2, _⟩ := key cfg ha hst hh
  refine ⟨ft, fieldHeader ft id last, q, e, h1, fun suf => ?_, fun suf => ?_⟩
  · exact Reads.of_slice_cond (generic_readFieldHeader last) (C := fun ov _ => HeaderOk ov last id)
      (fun cfg h => (readHeader_written cfg ft h2 h1 last id suf).2 h) cfg hh
  · refine Reads.of_slice_cond (generic_request (.fillField env t v0 ft))
      (C := fun ov al => (stepsOk ov env = true ∧ HeaderOk ov last id) ∧ ∀ n, n ≤ 10000000 → al n = true) (fun cfg h => ?_) cfg ⟨⟨hst, hh⟩, ha⟩
    obtain ⟨ft', q', e', h1', h2', h3'⟩ := key cfg h.2 h.1.1 h.1.2
    have r1 := (readHeader_written cfg ft h2 h1 last id q).2 h.1.2
    have r2 := (readHeader_written cfg ft' h2' h1' last id q').2 h.1.2
    rw [← e] at r1
    rw [← e', r1] at r2
    injection r2 with r2
    injection r2 with r2 r3
    injection r2 with r2
    subst r2 r3
    exact h3' suf

theorem reads_one {cfg : Cfg} {β α : Type} {r : Request β} {p suf : Bytes} {b : β} (f : β → α) (h : Reads cfg (fun I => r.run cfg I) p suf b) :
    Reads cfg (fun I => (Decoder.ask r fun b => .done (f b)).run cfg I) p suf (f b) := by
  have := Reads.ask (next := fun b => .done (f b)) (p := p) (q := []) (suf := suf) (r := r) (by simpa using h) (Reads.done cfg (f b) suf)
  rwa [List.append_nil] at this

/-- C116: what a program wrote is read back by its mirror image, up to reference counts; what follows is left as it was; on slices and readers. -/
theorem C116_read_back {cfg : Cfg} (ha : AllocOk cfg) {env : List Def} (hs : schemaOk env = true) (hst : stepsOk cfg.overflowChecks env = true) {ps : List Put}
    (hp : ∀ p ∈ ps, p.Typed env) {last last' : BitVec 16} (hf : FieldsReadable cfg.overflowChecks last ps) {bytes : Bytes}
    (hw : writePuts vecSink env last ps [] = (.ok last', bytes)) (suf : Bytes) :
    Reads cfg (fun I => (readBack env last (ps.map Put.shape)).run cfg I) bytes suf (ps.map Put.unshare) := by
  obtain ⟨bs, e, hb⟩ := (C116_written_iff hp last last' [] bytes).1 hw
  rw [List.nil_append] at e
  subst e
  clear hw
  have hd : defaultsDefined env = true := by
    unfold schemaOk at hs; rw [Bool.and_eq_true] at hs; exact hs.2
  induction hb with
  | nil l => exact Reads.done cfg _ suf
  | cons l l' l'' p ps bs cs h hs' ih =>
    suffices H : FieldsReadable cfg.overflowChecks l' ps ∧ Reads cfg (fun I => (p.shape.read env l).run cfg I) bs (cs ++ suf) (p.unshare, l') from
      Reads.bind H.2 (Reads.map (ih (fun q hq => hp q (by simp [hq])) H.1))
    cases h with
    | byte b => exact ⟨hf, reads_one (r := .byte) _ (show Reads cfg (fun I => Request.run cfg I .byte) [b] (cs ++ suf) b from
        Reads.of_slice (p := [b]) (generic_request .byte) (fun cfg => slice_readByte_cons cfg b (cs ++ suf)) cfg)⟩
    | len n =>
      refine ⟨hf, ?_⟩
      have := reads_one (fun n => (Put.len (BitVec.ofNat 64 n), l)) (r := .len) (Reads.of_slice generic_readLen (fun cfg => readLen_write cfg _ (cs ++ suf) n.isLt) cfg)
      rwa [BitVec.ofNat_toNat, BitVec.setWidth_eq] at this
    | i16 x => exact ⟨hf, reads_one (r := .i16) _ (Reads.of_slice generic_readI16 (fun cfg => readI16_write cfg x _) cfg)⟩
    | i32 x => exact ⟨hf, reads_one (r := .i32) _ (Reads.of_slice generic_readI32 (fun cfg => readI32_write cfg x _) cfg)⟩
    | i64 x => exact ⟨hf, reads_one (r := .i64) _ (Reads.of_slice generic_readI64 (fun cfg => readI64_write cfg x _) cfg)⟩
    | double x =>
      refine ⟨hf, reads_one (r := .double) _ ?_⟩
      rw [← le64_eq]
      exact show Reads cfg (fun I => Request.run cfg I .double) (toLeBytes 8 x) (cs ++ suf) x from
        Reads.of_slice (p := toLeBytes 8 x) (generic_request .double) (fun cfg => readDouble_write x (cs ++ suf)) cfg
    | binary b h => exact ⟨hf, reads_one (r := .binary) _ (Reads.of_slice generic_readBinary (fun cfg => readBinary_write cfg b _ h) cfg)⟩
    | string b h =>
      refine ⟨hf, reads_one (r := .string) _ (Reads.of_slice generic_readString (fun cfg => ?_) cfg)⟩
      have hu : utf8Valid b = true := hp (.string b) (by simp)
      unfold Input.readString
      rw [Rd.bind_ok (readBinary_write cfg b _ h), if_pos hu]; rfl
    | value t v p h =>
      exact ⟨hf, reads_one (r := .read env t) _ (C22_round_trip ha hs hst (hp (.value t v) (by simp)) (encode_of_enc h) _)⟩
    | last x => exact ⟨hf, Reads.done cfg _ _⟩
    | absent t v id p hv h => rw [hf.1] at hv; cases hv
    | field t v _ _ hv h =>
      obtain ⟨_, h2, h3, h4⟩ := hf
      refine ⟨h4, ?_⟩
      have hty : HasTy env v t := hp (.field t v l') (by simp)
      have h' : Outs (fun _ S => writeField S env t v l' l) bs (.ok (if present v then l' else l)) := outs_of_enc h
      rw [hv] at h'
      obtain ⟨ft, p, q, rfl, _, g2, g3⟩ := C116_field ha hs hst hty h2 hv (fillable_dflt hd hty) h3 (Outs.vec h' [])
      exact Reads.ask (r := .fieldHeader l) (g2 (q ++ (cs ++ suf))) (reads_one (fun v => (Put.field t v l', l')) (r := .fillField env t (dflt env t) ft) (g3 (cs ++ suf)))

/-- C116: two programs of the same shape that wrote the same bytes wrote the same things, up to reference counts. -/
theorem C116_unique {env : List Def} (hs : schemaOk env = true) (hst : stepsOk false env = true) {ps qs : List Put} (hpq : ps.map Put.shape = qs.map Put.shape)
    (hp : ∀ p ∈ ps, p.Typed env) (hq : ∀ p ∈ qs, p.Typed env) {last l1 l2 : BitVec 16} (hfp : FieldsReadable false last ps) (hfq : FieldsReadable false last qs)
    {bytes : Bytes} (hwp : writePuts vecSink env last ps [] = (.ok l1, bytes)) (hwq : writePuts vecSink env last qs [] = (.ok l2, bytes)) :
    ps.map Put.unshare = qs.map Put.unshare := by
  let cfg : Cfg := ⟨false, false, fun _ => true⟩
  have h1 := C116_read_back (cfg := cfg) (fun _ _ => rfl) hs hst hp hfp hwp []
  have h2 := C116_read_back (cfg := cfg) (fun _ _ => rfl) hs hst hq hfq hwq []
  rw [hpq] at h1
  exact (Reads.unique h1 h2 rfl).1

/-- A program mixing single values, a binary, a node and two fields. -/
def exPuts : List Put := [.i32 0xFFFFFFF9#32, .string [0x61#8], .value .bool (.bool true), .last 0#16, .field .i32 (.i32 5#32) 3#16, .field (.option .bool) (.some (.bool false)) 14#16, .byte 0#8]

theorem exPuts_typed : ∀ p ∈ exPuts, p.Typed nodeEnv := by
  intro p hp
  simp only [exPuts, List.mem_cons, List.not_mem_nil, or_false] at hp
  rcases hp with rfl | rfl | rfl | rfl | rfl | rfl | rfl
  · trivial
  · rfl
  · exact .bool _
  · trivial
  · exact .i32 _
  · exact .some _ _ (.bool _)
  · trivial

theorem exPuts_written : ∃ bytes, writePuts vecSink nodeEnv 9#16 exPuts [] = (.ok 14#16, bytes) := by
  obtain ⟨bs, h⟩ : ∃ bs, PutsBytes nodeEnv 9#16 exPuts bs 14#16 :=
    ⟨_, .cons _ _ _ _ _ _ _ (.i32 _ _) (.cons _ _ _ _ _ _ _ (.string _ _ (by simp)) (.cons _ _ _ _ _ _ _ (.value _ _ _ _ (.bool _)) (.cons _ _ _ _ _ _ _ (.last _ _)
      (.cons _ _ _ _ _ _ _ (.field _ _ _ _ _ rfl (.fieldValue .i32 _ _ _ _ (by simp) (by simp) trivial (.i32 _)))
        (.cons _ _ _ _ _ _ _ (.field _ _ _ _ _ rfl (.fieldSome _ _ _ _ _ (.fieldBool _ _ _ trivial))) (.cons _ _ _ _ _ _ _ (.byte _ _) (.nil _)))))))⟩
  exact ⟨[] ++ bs, (C116_written_iff exPuts_typed _ _ _ _).2 ⟨bs, rfl, h⟩⟩

example : schemaOk nodeEnv = true ∧ stepsOk true nodeEnv = true ∧ (∀ p ∈ exPuts, p.Typed nodeEnv) ∧ FieldsReadable true 9#16 exPuts ∧
    ∃ bytes, writePuts vecSink nodeEnv 9#16 exPuts [] = (.ok 14#16, bytes) := by
  refine ⟨by decide, by decide, exPuts_typed, ?_, exPuts_written⟩
  show present (.i32 5#32) = true ∧ _ ∧ HeaderOk true 0#16 3#16 ∧ present (.some (.bool false)) = true ∧ _ ∧ HeaderOk true 3#16 14#16 ∧ True
  exact ⟨rfl, .inl rfl, by unfold HeaderOk; decide, rfl, .inr ⟨_, rfl, rfl⟩, by unfold HeaderOk; decide, trivial⟩

/-- The same program with a binary of 2^24 + 1 bytes in front of the last step: refused there. -/
example : PutRefused nodeEnv (.binary (List.replicate 16777217 0#8)) (.invalidBinaryLen 16777217) := by
  have := PutRefused.binary (env := nodeEnv) (List.replicate 16777217 0#8) (by rw [List.length_replicate]; omega)
  rwa [List.length_replicate] at this

/-! ## A struct by hand -/

theorem puts_append {env : List Def} : ∀ {ps qs : List Put} {l l'' : BitVec 16} {bs : Bytes}, PutsBytes env l (ps ++ qs) bs l'' →
    ∃ b1 b2 l', bs = b1 ++ b2 ∧ PutsBytes env l ps b1 l' ∧ PutsBytes env l' qs b2 l'' := by
  intro ps
  induction ps with
  | nil => exact fun h => ⟨[], _, _, rfl, .nil _, h⟩
  | cons p ps ih =>
    intro qs l l'' bs h
    cases h with
    | cons _ l1 _ _ _ b cs h hs =>
      obtain ⟨b1, b2, l', rfl, h1, h2⟩ := ih hs
      exact ⟨b ++ b1, b2, l', by simp, .cons _ _ _ _ _ _ _ h h1, h2⟩

/-- C116: a written field of an unknown id is skipped by reading its header and calling `skip_field` with the type read. -/
theorem C116_skip_field (cfg : Cfg) {env : List Def} (hs : schemaOk env = true) (hasc : ascending env = true) (hb : noBoxedBool env = true) {t : Ty}
    (ht : boxedBool t = false) {v : Val} (hp : present v = true) {id last : BitVec 16} (hl : Ascends last id) {bytes : Bytes}
    (he : Enc env anyStep (.field t v id last) bytes) :
    ∃ ft q, bytes = fieldHeader ft id last ++ q ∧ ft ≠ 0#8 ∧ ft.toNat < 16 ∧ ∀ suf, Reads cfg (fun I => Request.run cfg I (.skipField ft)) q suf () := by
  have he' := ((enc_stepsWith (ok' := Ascends) (fun _ _ h => of_decide_eq_true h) hs hasc he) fun _ => hl).1
  rcases skips_enc cfg hb he' ht with ⟨h, _⟩ | ⟨_, ha, ft, q, rfl, h1, h2, _⟩
  · rw [hp] at h; cases h
  refine ⟨ft, q, rfl, ne_zero_of_toNat h1, h2, fun suf => ?_⟩
  refine Reads.of_slice (generic_skip ft false) (fun cfg => ?_) cfg
  rcases skips_enc cfg hb he' ht with ⟨h, _⟩ | ⟨_, _, ft', q', e, h1', h2', N, hN⟩
  · rw [hp] at h; cases h
  · obtain ⟨rl, hh, _⟩ := readHeader_ascends cfg ft h2 (ne_zero_of_toNat h1) (rl := last) ha ⟨ha.1, Int.le_refl _⟩ q
    obtain ⟨rl', hh', _⟩ := readHeader_ascends cfg ft' h2' (ne_zero_of_toNat h1') (rl := last) ha ⟨ha.1, Int.le_refl _⟩ q'
    rw [e, hh'] at hh
    injection hh with hh
    injection hh with hh hq
    injection hh with hf
    subst hf hq
    rw [← (C17_bound_irrelevant_slice cfg (q' ++ suf) (N + 2 * (q' ++ suf).length + 2)).1 (by omega)]
    exact hN _ (by omega) suf

/-- What `C116_by_hand` asks of the fields written: each one that is there is either of a known id and then of the type expected, or can be skipped; and the reader can follow the
steps from id to id. -/
def HandFields (ov : Bool) (env : List Def) (ty : BitVec 16 → Option Ty) : BitVec 16 → List HandField → Prop
  | _, [] => True
  | last, f :: fs => (present f.val = true → HeaderOk ov last f.id ∧
      match ty f.id with
      | some t => t = f.ty ∧ (Ty.isOption t = false ∨ ∃ t', t = .option t' ∧ Ty.isOption t' = false)
      | none => ascending env = true ∧ noBoxedBool env = true ∧ boxedBool f.ty = false ∧ Ascends last f.id) ∧
    HandFields ov env ty (if present f.val then f.id else last) fs

/-- C116: a struct written by hand, with `write_thrift_field` for each field and a final 0, is read by hand, with a loop over the headers that calls `fill_thrift_field` for the ids it
knows and `skip_field` for the others. The loop finds exactly the fields that are there and known, in order, with their values (up to reference counts), and stops behind the
struct; on slices and readers. -/
theorem C116_by_hand {cfg : Cfg} (ha : AllocOk cfg) {env : List Def} (hs : schemaOk env = true) (hst : stepsOk cfg.overflowChecks env = true)
    (ty : BitVec 16 → Option Ty) {fs : List HandField} (hv : ∀ f ∈ fs, HasTy env f.val f.ty) (hf : HandFields cfg.overflowChecks env ty 0#16 fs) {last : BitVec 16}
    {bytes : Bytes} (hw : writePuts vecSink env 0#16 (handPuts fs) [] = (.ok last, bytes)) (suf : Bytes) :
    Reads cfg (fun I => (handRead env ty).run cfg I) bytes suf
      ((fs.filter fun f => present f.val && (ty f.id).isSome).map fun f => (f.id, f.val.unshare)) := by
  have hd : defaultsDefined env = true := by
    unfold schemaOk at hs; rw [Bool.and_eq_true] at hs; exact hs.2
  have hty : ∀ p ∈ handPuts fs, p.Typed env := by
    intro p hp
    unfold handPuts at hp
    rw [List.mem_append, List.mem_map] at hp
    rcases hp with ⟨f, h, rfl⟩ | h
    · exact hv f h
    · rw [List.mem_singleton] at h; subst h; trivial
  obtain ⟨bs, e, hb⟩ := (C116_written_iff hty 0#16 last [] bytes).1 hw
  rw [List.nil_append] at e
  subst e
  obtain ⟨b1, b2, l', rfl, h1, h2⟩ := puts_append hb
  have e2 : b2 = [0#8] := by
    cases h2 with
    | cons _ _ _ _ _ b cs h hs' =>
      cases hs'
      cases h
      rfl
  subst e2
  refine Reads.of_slice_cond (generic_decoder (handRead env ty))
    (C := fun ov al => (stepsOk ov env = true ∧ HandFields ov env ty 0#16 fs) ∧ ∀ n, n ≤ 10000000 → al n = true) (fun cfg h => ?_) cfg ⟨⟨hst, hf⟩, ha⟩
  obtain ⟨⟨hst, hf⟩, ha⟩ := h
  have loop : ∀ (fs : List HandField) (last : BitVec 16) (bs : Bytes) (l' : BitVec 16) (g : List (BitVec 16 × Val)) (fuel : Nat), (∀ f ∈ fs, HasTy env f.val f.ty) →
      HandFields cfg.overflowChecks env ty last fs → PutsBytes env last (fs.map fun f => .field f.ty f.val f.id) bs l' → bs.length < fuel →
      fieldsLoop cfg (sliceInput cfg) (fun g ft id => (handField env ty g ft id).run cfg (sliceInput cfg)) fuel last g (bs ++ 0#8 :: suf) =
        .ok (g ++ (fs.filter fun f => present f.val && (ty f.id).isSome).map (fun f => (f.id, f.val.unshare)), suf) := by
    intro fs
    induction fs with
    | nil =>
      intro last bs l' g fuel _ _ hb hfuel
      cases hb
      obtain ⟨fuel, rfl⟩ : ∃ k, fuel = k + 1 := ⟨fuel - 1, by simp at hfuel; omega⟩
      rw [fieldsLoop, List.nil_append, Rd.bind_ok (readHeader_stop cfg last suf)]
      simp [Rd.pure_apply]
    | cons f fs ih =>
      intro last bs l' g fuel hv hf hb hfuel
      cases hb with
      | cons _ l1 _ _ _ b cs h hs' =>
      have hvf : HasTy env f.val f.ty := hv f (by simp)
      obtain ⟨hf1, hf2⟩ := hf
      cases hp : present f.val with
      | false =>
        rw [hp] at hf2
        obtain ⟨e1, he⟩ := put_field_inv h
        rw [hp] at e1
        have e1 : l1 = last := e1
        have eb : b = [] := enc_absent he hp
        subst e1 eb
        rw [List.filter_cons_of_neg (by simp [hp]), List.nil_append]
        exact ih l1 cs l' g fuel (fun f h => hv f (by simp [h])) hf2 hs' (by simpa using hfuel)
      | true =>
        rw [hp] at hf2
        obtain ⟨hh, hk⟩ := hf1 hp
        obtain ⟨e1, he⟩ := put_field_inv h
        rw [hp] at e1
        have e1 : l1 = f.id := e1
        subst e1
        have step : ∀ ft q, b = fieldHeader ft f.id last ++ q → ft ≠ 0#8 → ft.toNat < 16 → ∀ g', (∀ s, (handField env ty g ft f.id).run cfg (sliceInput cfg) (q ++ s) = .ok (g', s)) →
            fieldsLoop cfg (sliceInput cfg) (fun g ft id => (handField env ty g ft id).run cfg (sliceInput cfg)) fuel last g (b ++ cs ++ 0#8 :: suf) =
              .ok (g' ++ (fs.filter fun f => present f.val && (ty f.id).isSome).map (fun f => (f.id, f.val.unshare)), suf) := by
          intro ft q e h1 h2 g' hg
          subst e
          obtain ⟨fuel, rfl⟩ : ∃ k, fuel = k + 1 := ⟨fuel - 1, by omega⟩
          rw [fieldsLoop, List.append_assoc, List.append_assoc, Rd.bind_ok ((readHeader_written cfg ft h2 h1 last f.id _).2 hh)]
          dsimp only
          rw [if_neg h1, Rd.bind_ok (hg _)]
          have := fieldHeader_length ft f.id last
          exact ih f.id cs l' g' fuel (fun f h => hv f (by simp [h])) hf2 hs' (by simp only [List.length_append] at hfuel; omega)
        cases ht : ty f.id with
        | some t =>
          rw [ht] at hk
          obtain ⟨rfl, hk⟩ := hk
          have hb' := readsBack hs ha ((enc_steps hs hst he) fun _ => hh).1 hvf hk
          rcases hb' with ⟨e, _⟩ | ⟨_, ft, q, e, _, h1, h2, h3⟩
          · rw [e] at hp; cases hp
          · rw [List.filter_cons_of_pos (by simp [hp, ht]), List.map_cons]
            have := step ft q e h1 h2 (g ++ [(f.id, f.val.unshare)]) fun s => by
              obtain ⟨N, hN⟩ := h3 _ (fillable_dflt hd hvf)
              unfold handField
              rw [ht]
              dsimp only
              rw [Decoder.run, Rd.bind_ok ((fillField_bound cfg (q ++ s) (max N ((q ++ s).length + 1)) (by omega) env f.ty (dflt env f.ty) ft).symm.trans
                (hN _ (by omega) s).1)]
              rfl
            rw [this]
            simp
        | none =>
          rw [ht] at hk
          obtain ⟨k1, k2, k3, k4⟩ := hk
          obtain ⟨ft, q, e, h1, h2, h3⟩ := C116_skip_field cfg hs k1 k2 k3 hp k4 he
          rw [List.filter_cons_of_neg (by simp [ht])]
          exact step ft q e h1 h2 g fun s => by
            unfold handField
            rw [ht]
            dsimp only
            rw [Decoder.run, Rd.bind_ok (h3 s).1]
            rfl
  unfold handRead
  rw [List.append_assoc]
  have := loop fs 0#16 b1 l' [] ((b1 ++ ([0#8] ++ suf)).length + 1) hv hf h1 (by simp only [List.length_append]; omega)
  exact Rd.bind_ok (x := fun s => fieldsLoop cfg (sliceInput cfg) (fun g ft id => (handField env ty g ft id).run cfg (sliceInput cfg)) ((sliceInput cfg).size s + 1) 0#16 [] s)
    (f := fun g => (Decoder.done g).run cfg (sliceInput cfg)) this

/-- A number with the known id 1, an unknown flag, an absent string and a known string. -/
def exHandFields : List HandField := [⟨.i32, .i32 5#32, 1#16⟩, ⟨.option .bool, .some (.bool false), 4#16⟩, ⟨.option .string, .none, 5#16⟩, ⟨.string, .string [0x61#8], 14#16⟩]

def exKnown (id : BitVec 16) : Option Ty := if id = 1#16 then some .i32 else if id = 14#16 then some .string else none

example : (∀ f ∈ exHandFields, HasTy nodeEnv f.val f.ty) ∧ HandFields true nodeEnv exKnown 0#16 exHandFields ∧
    (∃ last bytes, writePuts vecSink nodeEnv 0#16 (handPuts exHandFields) [] = (.ok last, bytes)) ∧
    ((exHandFields.filter fun f => present f.val && (exKnown f.id).isSome).map fun f => f.id) = [1#16, 14#16] := by
  refine ⟨?_, ?_, ?_, by decide⟩
  · intro f hf
    simp only [exHandFields, List.mem_cons, List.not_mem_nil, or_false] at hf
    rcases hf with rfl | rfl | rfl | rfl
    · exact .i32 _
    · exact .some _ _ (.bool _)
    · exact .none _
    · exact .string _ rfl
  · exact And.intro (fun _ => ⟨by unfold HeaderOk; decide, rfl, .inl rfl⟩) (And.intro (fun _ => ⟨by unfold HeaderOk; decide, by decide, by decide, rfl, by decide⟩)
      (And.intro (fun h => nomatch h) (And.intro (fun _ => ⟨by unfold HeaderOk; decide, rfl, .inl rfl⟩) trivial)))
  · obtain ⟨bs, h⟩ : ∃ bs, PutsBytes nodeEnv 0#16 (handPuts exHandFields) bs 14#16 :=
      ⟨_, .cons _ _ _ _ _ _ _ (.field _ _ _ _ _ rfl (.fieldValue .i32 _ _ _ _ (by simp) (by simp) trivial (.i32 _)))
        (.cons _ _ _ _ _ _ _ (.field _ _ _ _ _ rfl (.fieldSome _ _ _ _ _ (.fieldBool _ _ _ trivial))) (.cons _ _ _ _ _ _ _ (.absent _ _ _ _ _ rfl (.fieldNone _ _ _))
          (.cons _ _ _ _ _ _ _ (.field _ _ _ _ _ rfl (.fieldValue .string _ _ _ _ (by simp) (by simp) trivial (.string _ (by simp)))) (.cons _ _ _ _ _ _ _ (.byte _ _) (.nil _)))))⟩
    exact ⟨_, _, Outs.vec (outs_puts h) []⟩

end CT.Props
