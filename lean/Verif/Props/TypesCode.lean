import Verif.Model.TypesProgram
import Verif.Model.TypesText
import Verif.Proofs.TypesThrift
import Verif.Props.Code
import Verif.Props.RoundTrip
/-!
# C111: the code of types.rs and encodings.rs does what the model says

As C110 for uleb.rs and protocol.rs: the text of the two files is parsed and run. The functions are generic over the input and the output, so they are run with
any; and over the element type, so they are run with any methods of it.
-/
namespace CT.Props
open CT CT.Rs CT.Spec CT.Code

set_option maxRecDepth 100000 in
/-- C111: the two files parse, and the tables of `TypesTable.lean` are what they parse to. -/
theorem C111_text : parseTypes typesText = some typesImpls ∧ parseTypes encodingsText = some encodingsImpls := ⟨rfl, rfl⟩

/-- C111: reading. For every type built from those of types.rs, `EncodingSet` and definitions of a schema, whatever `fill_thrift` the definitions have, and
every input, `fill_thrift` and `fill_thrift_field` of the type end as the model says, from any value: the value read and the rest of the input, or the
failure and what it leaves in `*self`. -/
theorem C111_fill {σ : Type} (cfg : Cfg) (I : Input σ) (owned : σ → Bool) (env : List Def) (fill : Nat → Val → Fl σ Val) (t : RTy) :
    (textIn cfg I owned env fill t).fieldType = fieldType env t.erase ∧
    (∀ v s, (textIn cfg I owned env fill t).fill v s = fillTyP cfg I env fill t.erase v s) ∧
    (∀ v ft s, (textIn cfg I owned env fill t).fillField v ft s = fillFieldP cfg I env fill t.erase v ft s) ∧
    (∀ s, readText cfg (inputDevice cfg I owned) t (textIn cfg I owned env fill t) s = (fillTyP cfg I env fill t.erase (dflt env t.erase)).forget s) := by
  have h := reads_type cfg I owned env fill (fun _ _ => Wr.fail .stuck) t
  refine ⟨h.fieldType, h.fill, h.fillField, fun s => ?_⟩
  rw [readText_eq]
  have e : (textIn cfg I owned env fill t).dflt = dflt env t.erase := h.dflt
  have e' : (textIn cfg I owned env fill t).fill (dflt env t.erase) = fillTyP cfg I env fill t.erase (dflt env t.erase) := funext (h.fill _)
  rw [e, e']

/-- C111: writing. For every value of the type, and every sink, `write_thrift` and `write_thrift_field` write and answer what the model says, if
`write_thrift` of the definitions does. -/
theorem C111_write {τ : Type} (cfg : Cfg) (S : Sink τ) (env : List Def) (write : Nat → Val → Wr τ Unit)
    (hw : ∀ k v, HasTy env v (.named k) → write k v = writeTy S env (.named k) v) (t : RTy) (v : Val) (hv : HasTy env v t.erase) (d : τ) :
    (textOut cfg S env write t).write v d = writeTy S env t.erase v d ∧
    (∀ id last, (textOut cfg S env write t).writeField v id last d = writeField S env t.erase v id last d) := by
  have h := writes_type cfg S env (fun t => dflt env t.erase) (fun k => dflt env (.named k)) (fun _ v => Fl.keep v (Rd.fail .stuck)) write hw t
  exact ⟨h.write v d hv, fun id last => h.writeField v id last d hv⟩

theorem forget_fillThriftCode {σ : Type} (cfg : Cfg) (I : Input σ) (env : List Def) (t : Ty) (v : Val) (n : Ident) (s : σ) :
    (fillThriftCode cfg I env macroFill n t v).forget s = (fillTyP cfg I env (fillCode cfg I env macroFill n (I.size s + 1)) t v).forget s := by
  unfold Fl.forget fillThriftCode
  rfl

/-- C111: with the code of `thrift!` for the definitions, `read_thrift` is the model's. -/
theorem C111_read {σ : Type} (cfg : Cfg) (I : Input σ) (owned : σ → Bool) (env : List Def) (hn : namesDiffer env) (t : RTy) (s : σ) :
    readProgram cfg I owned env t s = readThrift cfg I env t.erase s := by
  unfold readProgram readThrift
  exact ((C111_fill cfg I owned env _ t).2.2.2 s).trans
    ((forget_fillThriftCode cfg I env _ _ _ s).symm.trans (C95_macro cfg I env hn t.erase (dflt env t.erase) s).2)

/-- C111: and `write_thrift` is. -/
theorem C111_written {τ : Type} (cfg : Cfg) (S : Sink τ) (env : List Def) (hn : namesDiffer env) (t : RTy) (v : Val) (hv : HasTy env v t.erase) :
    writeProgram cfg S env t v = writeTy S env t.erase v := by
  funext d
  refine (C111_write cfg S env _ (fun k v h => ?_) t v hv d).1
  have hk : ∃ d, env[k]? = some d := by cases h <;> exact ⟨_, by assumption⟩
  obtain ⟨d, hk⟩ := hk
  simp only [hk]
  exact C95_write_macro S env hn hk h

/-- C111: so the text itself, run, reads back what it writes: from slices and from readers, leaving what follows. The conditions on the schema are those
of C22. -/
theorem C111_round_trip {cfg : Cfg} (ha : AllocOk cfg) {env : List Def} (hn : namesDiffer env) (hs : schemaOk env = true)
    (hst : stepsOk cfg.overflowChecks env = true) {t : RTy} {v : Val} (hv : HasTy env v t.erase) {bytes : Bytes}
    (he : writeProgram cfg vecSink env t v [] = (.ok (), bytes)) (suf : Bytes) :
    CT.Spec.Reads cfg (fun I => readProgram cfg I (fun _ => false) env t) bytes suf v.unshare := by
  rw [C111_written cfg vecSink env hn t v hv] at he
  have h := C22_round_trip ha hs hst hv (bytes := bytes) (by rw [encode, he]) suf
  refine ⟨?_, fun evs hd => ?_⟩
  · exact (C111_read _ _ _ _ hn _ _).trans h.1
  · obtain ⟨evs', h1, h2⟩ := h.2 evs hd
    exact ⟨evs', (C111_read _ _ _ _ hn _ _).trans h1, h2⟩

/-- C111: `len`, `is_empty` and `iter` of `EncodingSet`, encodings.rs:12-31, for every set: the number of members, whether there are none, and the members in
increasing order. -/
theorem C111_encodings (cfg : Cfg) (mask : BitVec 32) :
    ownText cfg (n! "len") mask = some (.usize (BitVec.ofNat 64 (members mask).length)) ∧
    ownText cfg (n! "is_empty") mask = some (.bool (decide (members mask = []))) ∧
    ∃ g vars, ownText cfg (n! "iter") mask = some (.gen g vars) ∧
      ∀ n, 32 < n → genItems cfg mask g n vars = some ((members mask).map fun i => .tuple [.i32 (BitVec.ofNat 32 i)]) := by
  refine ⟨?_, ?_, _, _, own_iter cfg mask, fun n hn => genItems_eq cfg mask n mask (Nat.lt_of_le_of_lt (members_length_le mask) hn)⟩
  · rw [own_len, encodingSetLen_eq]
  · rw [own_is_empty]
    have : encodingSetIsEmpty mask = decide (members mask = []) := by
      unfold encodingSetIsEmpty
      by_cases h : mask = 0#32
      · subst h; decide
      · obtain ⟨k, hk, hl⟩ := exists_lowest mask h
        rw [members_lowest mask k hk hl]
        simpa using h
    rw [this]

/-! ## Examples -/

-- `Vec<Option<Arc<str>>>` is written and read by the text; any cfg
example (cfg : Cfg) : (textOut cfg vecSink [] (fun _ _ => Wr.fail .stuck) (.vec (.arc (.vec .bool)))).write
    (.list [.rc true (.list [.bool true, .bool false])]) [] = (.ok (), [0x19#8, 0x22#8, 1#8, 2#8]) := by
  have hv : HasTy [] (.list [.rc true (.list [.bool true, .bool false])]) (.list (.rc (.list .bool))) := by
    refine .list _ _ fun v h => ?_
    cases h with
    | head => exact .rc _ _ _ (.list _ _ fun v h => by cases h with
      | head => exact .bool _
      | tail _ h => cases h with
        | head => exact .bool _
        | tail _ h => cases h)
    | tail _ h => cases h
  have h := (C111_write cfg vecSink [] (fun _ _ => Wr.fail .stuck) (fun k v h => by cases h <;> simp_all) (.vec (.arc (.vec .bool))) _ hv []).1
  rw [h]
  simp [RTy.erase, writeTy, writeElems, Sink.writeListHeader]
  rfl

example (cfg : Cfg) : (readProgram cfg (sliceInput cfg) (fun _ => false) namesEnv (.option (.named 0))) [0x15, 2, 0x14, 6, 0x11, 0x18, 1, 65, 0, 9] =
    .ok (.some (.struct [.i32 1#32, .i16 3#16, .bool true, .binary [65], .none]), [9]) := by
  rw [C111_read _ _ _ _ (by decide)]
  obtain ⟨ov, sse, al⟩ := cfg
  cases ov <;> cases sse <;> rfl

-- a schema, a value and bytes that meet the conditions of the round trip
example : namesDiffer nodeEnv ∧ schemaOk nodeEnv = true ∧ stepsOk true nodeEnv = true := by decide

end CT.Props
