import Verif.Proofs.WriterSim
import Verif.Model.RuntimeText
/-!
# C110: the code of uleb.rs and protocol.rs does what the model says

The other properties are about functions of the model written next to the Rust code. Here the text of the two files is parsed and run by an interpreter of
Rust, and the model is proved to be what comes out.
-/
namespace CT.Props
open CT CT.Rs CT.Spec

set_option maxRecDepth 100000 in
/-- C110: the two files parse, and the tables of `RuntimeTable.lean` are what they parse to. -/
theorem C110_text : parseText ulebText = some ulebItems ∧ parseText protocolText = some protocolItems := ⟨rfl, rfl⟩

theorem readsAs {σ α : Type} {Inv : σ → Prop} {run : Nat → FnOut σ} {r : Except Fail (α × σ)} {ok : α → V × List V} (h : Gives Inv run r ok)
    (hd : r ≠ .error .diverge) : ReadsAs ok run r := by
  unfold Gives at h
  unfold ReadsAs
  split
  · exact h.2
  · exact h
  · rename_i f _
    cases f <;> simp_all

theorem reads_runtime {σ : Type} {cfg : Cfg} {debug owned : Bool} {P : Prog} {H : Host σ} {Inv : σ → Prop} {I : Input σ} (D : Device cfg debug P H Inv I owned)
    (hm : Measured notDiverge I) : RuntimeReads cfg debug P H Inv I owned := by
  have R := D.runtime
  have W := D.provided
  have rb := D.readByte
  have hE := allowed_notDiverge cfg
  have nd : ∀ {α : Type} {m : Rd σ α} {Q : Nat → α → σ → Prop}, (∀ n, Tri (fun s => I.size s ≤ n) m (Q n) notDiverge) → ∀ s, m s ≠ .error .diverge :=
    fun h s e => (h (I.size s)).error (Nat.le_refl _) e rfl
  refine ⟨⟨_, R.decode_uleb, fun s hs => readsAs (gives_uleb R rb s hs) (nd (Tri.uleb hE hm) s)⟩,
    ⟨_, R.read_full_field_id, fun s hs => readsAs (gives_full_field_id R rb s hs) (nd (Tri.readFullFieldId hE hm) s)⟩,
    ⟨_, R.read_collection, fun s hs => readsAs (gives_collection R W rb s hs) (nd (Tri.readCollectionLenAndType hE hm) s)⟩,
    ⟨_, R.read_map, fun s hs => readsAs (gives_map R W rb s hs) (nd (Tri.readMapLenAndTypes hE hm) s)⟩,
    ⟨_, R.skip_collection, fun s hs => readsAs ((skips D _).collection s hs)
      fun e => ((Tri.skipF hE hm (2 * I.size s + 1) (I.size s)).1 (Nat.le_refl _)).error (Nat.le_refl _) e rfl⟩,
    ⟨_, R.skip_map, fun s hs => readsAs ((skips D _).map s hs)
      fun e => ((Tri.skipF hE hm (2 * I.size s + 1) (I.size s)).2.1 (Nat.le_refl _)).error (Nat.le_refl _) e rfl⟩,
    fun ft ins => ⟨_, R.skip_field, fun s hs => readsAs (gives_skip D ft ins s hs) (nd (Tri.skip hE hm ft ins) s)⟩,
    ⟨_, rb.has, fun s hs => readsAs (rb.gives s hs) (nd hm.readByte s)⟩,
    ⟨_, W.read_len, fun s hs => ?_⟩,
    ⟨_, W.read_i16, fun s hs => readsAs (gives_read_i16 R rb s hs) (nd (Tri.readI16 hE hm) s)⟩,
    ⟨_, W.read_i32, fun s hs => readsAs (gives_read_i32 R rb s hs) (nd (Tri.readI32 hE hm) s)⟩,
    ⟨_, W.read_i64, fun s hs => readsAs (gives_read_i64 R rb s hs) (nd (Tri.readI64 hE hm) s)⟩,
    ⟨_, D.readDouble.has, fun s hs => readsAs (D.readDouble.gives s hs) (nd hm.readDouble s)⟩,
    ⟨_, D.readBinary.has, fun s hs => readsAs (D.readBinary.gives s hs) (nd hm.readBinary s)⟩,
    ⟨_, W.read_string, fun s hs => readsAs (gives_read_string owned R D.readBinary s hs) (nd (fun n => Tri.readString hm n (hE.err _ (by simp))) s)⟩,
    ⟨_, D.skipInteger.has, fun s hs => readsAs (D.skipInteger.gives s hs) (nd hm.skipInteger s)⟩,
    ⟨_, D.skipBinary.has, fun s hs => readsAs (D.skipBinary.gives s hs) (nd hm.skipBinary s)⟩,
    fun ft => ⟨_, W.skip_field, fun s hs => readsAs (gives_skip_field D ft s hs) (nd (Tri.skip hE hm ft false) s)⟩,
    fun last => ⟨_, W.read_field_header, fun s hs => readsAs (gives_field_header R rb last s hs) (nd (fun n => Tri.readFieldHeader hE hm n last) s)⟩⟩
  have h := readsAs (gives_read_len R rb s hs) (nd (Tri.uleb hE hm) s)
  show ReadsAs _ _ (Rd.bind (I.uleb cfg) (fun len => Rd.pure len.toNat) s)
  unfold Rd.bind Rd.pure
  cases hu : I.uleb cfg s with
  | ok p =>
    rw [hu] at h
    obtain ⟨a, s'⟩ := p
    simp only [ReadsAs, BitVec.ofNat_toNat, BitVec.setWidth_eq] at h ⊢
    exact h
  | error f => rw [hu] at h; cases f <;> exact h

/-- C110: what is read from a slice. Every function of uleb.rs and protocol.rs that reads, run on a slice shorter than 2^63 bytes (which all slices are),
returns, fails, consumes and panics as the model says, in every build. -/
theorem C110_slice (cfg : Cfg) (debug : Bool) {u p : List Item} (hu : parseText ulebText = some u) (hp : parseText protocolText = some p) :
    RuntimeReads cfg debug (progOf cfg.sse2 (u ++ p) (n! "CompactThriftInput") (n! "CompactThriftInputSlice")) sliceHost (fun s => s.length < 2 ^ 63)
      (sliceInput cfg) false := by
  rw [C110_text.1] at hu
  rw [C110_text.2] at hp
  cases hu
  cases hp
  exact reads_runtime sliceDevice (slice_measured_nd cfg)

/-- C110: the same for what is read from any `io::Read`. -/
theorem C110_reader (cfg : Cfg) (debug : Bool) {u p : List Item} (hu : parseText ulebText = some u) (hp : parseText protocolText = some p) :
    RuntimeReads cfg debug (progOf cfg.sse2 (u ++ p) (n! "CompactThriftInput") (n! "R")) readerHost (fun _ => True) (readerInput cfg) true := by
  rw [C110_text.1] at hu
  rw [C110_text.2] at hp
  cases hu
  cases hp
  exact reads_runtime readerDevice (reader_measured_nd cfg)

theorem writer_zigzag {σ : Type} (cfg : Cfg) (debug : Bool) (H : Host σ) : RuntimeZigzag cfg debug (writerProg cfg) H := by
  have hp : ∀ {α : Type} (a : Nat → α) (o : α), (∀ n, a (n + 10) = o) → Tends a o := fun a o h => .shift 10 ⟨0, fun n _ => h n⟩
  have R : ∀ name f, assoc (progOf true (ulebItems ++ protocolItems) (n! "CompactThriftOutput") (n! "W")).fns name = some f →
      assoc (progOf false (ulebItems ++ protocolItems) (n! "CompactThriftOutput") (n! "W")).fns name = some f → assoc (writerProg cfg).fns name = some f := by
    intro name f h1 h2
    unfold writerProg
    cases cfg.sse2
    · exact h2
    · exact h1
  exact ⟨fun x => ⟨_, R _ fn_zigzag_decode16 rfl rfl, fun s => hp _ _ fun n => run_zigzag_decode16 cfg debug _ H x s n⟩,
    fun x => ⟨_, R _ fn_zigzag_decode32 rfl rfl, fun s => hp _ _ fun n => run_zigzag_decode32 cfg debug _ H x s n⟩,
    fun x => ⟨_, R _ fn_zigzag_decode64 rfl rfl, fun s => hp _ _ fun n => run_zigzag_decode64 cfg debug _ H x s n⟩,
    fun x => ⟨_, R _ fn_zigzag_encode16 rfl rfl, fun s => hp _ _ fun n => run_zigzag_encode16 cfg debug _ H x s n⟩,
    fun x => ⟨_, R _ fn_zigzag_encode32 rfl rfl, fun s => hp _ _ fun n => run_zigzag_encode32 cfg debug _ H x s n⟩,
    fun x => ⟨_, R _ fn_zigzag_encode64 rfl rfl, fun s => hp _ _ fun n => run_zigzag_encode64 cfg debug _ H x s n⟩⟩

/-- C110: what is written to any `io::Write`, with what has arrived when an error is returned; the zigzag functions. -/
theorem C110_writer {τ : Type} (S : Sink τ) (hS : IoSink S) (cfg : Cfg) (debug : Bool) {u p : List Item} (hu : parseText ulebText = some u)
    (hp : parseText protocolText = some p) :
    RuntimeWrites cfg debug (progOf cfg.sse2 (u ++ p) (n! "CompactThriftOutput") (n! "W")) (sinkHost S) S ∧
    RuntimeZigzag cfg debug (progOf cfg.sse2 (u ++ p) (n! "CompactThriftOutput") (n! "W")) (sinkHost S) := by
  rw [C110_text.1] at hu
  rw [C110_text.2] at hp
  cases hu
  cases hp
  have M : ∀ name f, assoc (progOf true (ulebItems ++ protocolItems) (n! "CompactThriftOutput") (n! "W")).methods name = some f →
      assoc (progOf false (ulebItems ++ protocolItems) (n! "CompactThriftOutput") (n! "W")).methods name = some f → assoc (writerProg cfg).methods name = some f := by
    intro name f h1 h2
    unfold writerProg
    cases cfg.sse2
    · exact h2
    · exact h1
  have hw : assoc (writerProg cfg).fns (n! "write_field_header") = some fn_write_field_header := by
    unfold writerProg
    cases cfg.sse2 <;> rfl
  refine ⟨⟨fun v => ⟨_, _, wp_encode cfg, fun t => gives_encode hS v t⟩, fun ft id last => ⟨_, hw, fun t => gives_write_field_header hS ft id last t⟩,
    fun b => ⟨_, wp_byte cfg, fun t => gives_write_byte hS b t⟩, fun v => ⟨_, wp_len cfg, fun t => ?_⟩, fun v => ⟨_, wp_i16 cfg, fun t => gives_write_i16 hS v t⟩,
    fun v => ⟨_, M _ fn_Output_W_write_i32 rfl rfl, fun t => gives_write_i32 hS v t⟩, fun v => ⟨_, M _ fn_Output_W_write_i64 rfl rfl, fun t => gives_write_i64 hS v t⟩,
    fun v => ⟨_, M _ fn_Output_W_write_double rfl rfl, fun t => gives_write_double hS v t⟩, fun v hv => ⟨_, wp_binary cfg, fun t => gives_write_binary hS v hv t⟩,
    fun v hv => ⟨_, M _ fn_Output_write_string rfl rfl, fun t => gives_write_string hS v hv t⟩⟩, writer_zigzag cfg debug _⟩
  have := gives_write_len (cfg := cfg) (debug := debug) hS v t
  unfold Sink.writeLen
  rwa [BitVec.ofNat_toNat, BitVec.setWidth_eq]

/-- C110: the outputs of the model are such: a `Vec<u8>` and a writer that follows a script. -/
theorem C110_sinks : IoSink vecSink ∧ IoSink writerSink := by
  refine ⟨fun _ _ _ h => (by cases h), fun bs t e h => ?_⟩
  obtain ⟨evs, out⟩ := t
  simp only [writerSink] at h
  induction evs generalizing bs out with
  | nil => cases bs <;> simp [writeAllLoop] at h
  | cons ev evs ih =>
    cases bs with
    | nil => simp [writeAllLoop] at h
    | cons b bs =>
      cases ev with
      | accept n =>
        simp only [writeAllLoop] at h
        split at h
        · simp at h; exact ⟨_, h.symm⟩
        · exact ih _ _ h
      | error k =>
        simp only [writeAllLoop] at h
        split at h
        · exact ih _ _ h
        · simp at h; exact ⟨_, h.symm⟩

/-- The text of uleb.rs and protocol.rs, run on the bytes of a list of two booleans and more: `skip_field` consumes the list; with no input it fails. -/
example : runFn (eval ⟨true, true, fun _ => true⟩ true (sliceProg ⟨true, true, fun _ => true⟩) sliceHost 60) fn_skip_field [.self, .u8 9#8, .bool false]
      [0x21#8, 0x01#8, 0x02#8, 0x77#8] = .ret (.ok .unit) [.self, .u8 9#8, .bool false] [0x77#8] ∧
    runFn (eval ⟨true, true, fun _ => true⟩ true (sliceProg ⟨true, true, fun _ => true⟩) sliceHost 60) fn_Input_read_i16 [.self] [0x03#8] =
      .ret (.ok (.i16 (-2))) [.self] [] := ⟨rfl, rfl⟩

/-- A field header with a long field id is written in two calls; the writer fails at the second byte. -/
example : runFn (eval ⟨false, false, fun _ => true⟩ false (writerProg ⟨false, false, fun _ => true⟩) (sinkHost writerSink) 60) fn_write_field_header
      [.self, .u8 5#8, .i16 100, .ref (.i16 0)] ⟨[.accept 1, .error .interrupted, .error (.other 3)], []⟩ =
    .ret (.err (.thrift (.io (.other 3)))) [.self, .u8 5#8, .i16 100, .ref (.i16 0)] ⟨[], [5#8]⟩ := rfl

end CT.Props
