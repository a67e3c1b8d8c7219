import Verif.Model.RustRun
/-!
# What it means that a Rust function does what a function of the model does
-/
namespace CT.Spec
open CT CT.Rs

/-- What a computation with fuel tends to: the same result for every fuel from some on. -/
def Tends {O : Type} (run : Nat → O) (o : O) : Prop := ∃ N, ∀ n, N ≤ n → run n = o

/-- The outcome of a function that reads: `ok` gives the value and what the parameters are at the end. After an error the device is not looked at. -/
def ReadsAs {σ α : Type} (ok : α → V × List V) (run : Nat → FnOut σ) : Except Fail (α × σ) → Prop
  | .ok (a, s') => Tends run (.ret (.ok (ok a).1) (ok a).2 s')
  | .error (.err e) => ∃ args s', Tends run (.ret (.err (.thrift e)) args s')
  | .error f => ∃ s', Tends run (.fail f s')

/-- The outcome of a function that writes. -/
def WritesAs {τ α : Type} (ok : α → V × List V) (run : Nat → FnOut τ) : Except Fail α × τ → Prop
  | (.ok a, t') => Tends run (.ret (.ok (ok a).1) (ok a).2 t')
  | (.error (.err e), t') => ∃ args, Tends run (.ret (.err (.thrift e)) args t')
  | (.error f, t') => Tends run (.fail f t')

section
variable (cfg : Cfg) (debug : Bool) (P : Prog)

/-- The function of this name, with these arguments, does to every admissible device what `m` does. -/
def FnReads {σ α : Type} (H : Host σ) (Inv : σ → Prop) (table : List (Name × Fn)) (name : Name) (args : List V) (ok : α → V × List V) (m : Rd σ α) : Prop :=
  ∃ f, assoc table name = some f ∧ ∀ s, Inv s → ReadsAs ok (fun n => runFn (eval cfg debug P H n) f args s) (m s)

/-- The function of this name, with these arguments, does to every output what `m` does. -/
def FnWrites {τ α : Type} (H : Host τ) (table : List (Name × Fn)) (name : Name) (args : List V) (ok : α → V × List V) (m : Wr τ α) : Prop :=
  ∃ f, assoc table name = some f ∧ ∀ t, WritesAs ok (fun n => runFn (eval cfg debug P H n) f args t) (m t)

/-- The function of this name returns this and does not look at the device. -/
def FnReturns {σ : Type} (H : Host σ) (name : Name) (args : List V) (v : V) : Prop :=
  ∃ f, assoc P.fns name = some f ∧ ∀ s, Tends (fun n => runFn (eval cfg debug P H n) f args s) (.ret v args s)

/-- The functions and methods that read, with what they do to the input `I`. A read that succeeds keeps the parameters, but for `last_field_id`. -/
structure RuntimeReads {σ : Type} (H : Host σ) (Inv : σ → Prop) (I : Input σ) (owned : Bool) : Prop where
  decode_uleb : FnReads cfg debug P H Inv P.fns (n! "decode_uleb") [.self] (fun a => (.u64 a, [.self])) (I.uleb cfg)
  read_full_field_id : FnReads cfg debug P H Inv P.fns (n! "read_full_field_id") [.self] (fun a => (.i16 a, [.self])) (I.readFullFieldId cfg)
  collection_len : FnReads cfg debug P H Inv P.fns (n! "read_collection_len_and_type") [.self]
    (fun a => (.tuple [.u32 (BitVec.ofNat 32 a.1), .u8 a.2], [.self])) (I.readCollectionLenAndType cfg)
  map_len : FnReads cfg debug P H Inv P.fns (n! "read_map_len_and_types") [.self]
    (fun a => (.tuple [.u32 (BitVec.ofNat 32 a.1), .u8 a.2.1, .u8 a.2.2], [.self])) (I.readMapLenAndTypes cfg)
  skip_collection : FnReads cfg debug P H Inv P.fns (n! "skip_collection") [.self] (fun _ => (.unit, [.self])) (.of fun s => skipCollection cfg I (2 * I.size s + 1) s)
  skip_map : FnReads cfg debug P H Inv P.fns (n! "skip_map") [.self] (fun _ => (.unit, [.self])) (.of fun s => skipMap cfg I (2 * I.size s + 1) s)
  skip_field_fn : ∀ ft ins, FnReads cfg debug P H Inv P.fns (n! "skip_field") [.self, .u8 ft, .bool ins] (fun _ => (.unit, [.self, .u8 ft, .bool ins])) (I.skip cfg ft ins)
  read_byte : FnReads cfg debug P H Inv P.methods (n! "read_byte") [.self] (fun a => (.u8 a, [.self])) I.readByte
  read_len : FnReads cfg debug P H Inv P.methods (n! "read_len") [.self] (fun a => (.usize (BitVec.ofNat 64 a), [.self])) (I.readLen cfg)
  read_i16 : FnReads cfg debug P H Inv P.methods (n! "read_i16") [.self] (fun a => (.i16 a, [.self])) (I.readI16 cfg)
  read_i32 : FnReads cfg debug P H Inv P.methods (n! "read_i32") [.self] (fun a => (.i32 a, [.self])) (I.readI32 cfg)
  read_i64 : FnReads cfg debug P H Inv P.methods (n! "read_i64") [.self] (fun a => (.i64 a, [.self])) (I.readI64 cfg)
  read_double : FnReads cfg debug P H Inv P.methods (n! "read_double") [.self] (fun a => (.f64 a, [.self])) I.readDouble
  read_binary : FnReads cfg debug P H Inv P.methods (n! "read_binary") [.self] (fun a => (.cow owned a, [.self])) I.readBinary
  read_string : FnReads cfg debug P H Inv P.methods (n! "read_string") [.self] (fun a => (.cow owned a, [.self])) I.readString
  skip_integer : FnReads cfg debug P H Inv P.methods (n! "skip_integer") [.self] (fun _ => (.unit, [.self])) I.skipInteger
  skip_binary : FnReads cfg debug P H Inv P.methods (n! "skip_binary") [.self] (fun _ => (.unit, [.self])) I.skipBinary
  skip_field : ∀ ft, FnReads cfg debug P H Inv P.methods (n! "skip_field") [.self, .u8 ft] (fun _ => (.unit, [.self, .u8 ft])) (I.skipField cfg ft)
  read_field_header : ∀ last, FnReads cfg debug P H Inv P.methods (n! "read_field_header") [.self, .ref (.i16 last)]
    (fun a => (.u8 a.1, [.self, .ref (.i16 a.2)])) (I.readFieldHeader cfg last)

/-- What `write_all` may report: an error is one of io. -/
def IoSink {τ : Type} (S : Sink τ) : Prop := ∀ bs t e, (S.writeAll bs t).1 = .error (.err e) → ∃ k, e = .io k

/-- The functions and methods that write, with what they do to the output `S`. -/
structure RuntimeWrites {τ : Type} (H : Host τ) (S : Sink τ) : Prop where
  encode_uleb : ∀ v, ∃ w, FnWrites cfg debug P H P.fns (n! "encode_uleb") [.self, .u64 v] (fun _ => (.unit, [.self, .u64 w])) (writeBytes S (encodeUleb v))
  write_field_header : ∀ ft id last, FnWrites cfg debug P H P.fns (n! "write_field_header") [.self, .u8 ft, .i16 id, .ref (.i16 last)]
    (fun a => (.unit, [.self, .u8 ft, .i16 id, .ref (.i16 a)])) (S.writeFieldHeader ft id last)
  write_byte : ∀ b, FnWrites cfg debug P H P.methods (n! "write_byte") [.self, .u8 b] (fun _ => (.unit, [.self, .u8 b])) (S.writeByte b)
  write_len : ∀ v, FnWrites cfg debug P H P.methods (n! "write_len") [.self, .usize v] (fun _ => (.unit, [.self, .usize v])) (S.writeLen v.toNat)
  write_i16 : ∀ v, FnWrites cfg debug P H P.methods (n! "write_i16") [.self, .i16 v] (fun _ => (.unit, [.self, .i16 v])) (S.writeI16 v)
  write_i32 : ∀ v, FnWrites cfg debug P H P.methods (n! "write_i32") [.self, .i32 v] (fun _ => (.unit, [.self, .i32 v])) (S.writeI32 v)
  write_i64 : ∀ v, FnWrites cfg debug P H P.methods (n! "write_i64") [.self, .i64 v] (fun _ => (.unit, [.self, .i64 v])) (S.writeI64 v)
  write_double : ∀ v, FnWrites cfg debug P H P.methods (n! "write_double") [.self, .f64 v] (fun _ => (.unit, [.self, .f64 v])) (S.writeDouble v)
  write_binary : ∀ v : Bytes, v.length < 2 ^ 64 → FnWrites cfg debug P H P.methods (n! "write_binary") [.self, .bytes v] (fun _ => (.unit, [.self, .bytes v])) (S.writeBinary v)
  write_string : ∀ v : Bytes, v.length < 2 ^ 64 → FnWrites cfg debug P H P.methods (n! "write_string") [.self, .bytes v] (fun _ => (.unit, [.self, .bytes v])) (S.writeBinary v)

/-- The functions of integers. -/
structure RuntimeZigzag {σ : Type} (H : Host σ) : Prop where
  decode16 : ∀ x, FnReturns cfg debug P H (n! "zigzag_decode16") [.u16 x] (.i16 (zigzagDecode x))
  decode32 : ∀ x, FnReturns cfg debug P H (n! "zigzag_decode32") [.u32 x] (.i32 (zigzagDecode x))
  decode64 : ∀ x, FnReturns cfg debug P H (n! "zigzag_decode64") [.u64 x] (.i64 (zigzagDecode x))
  encode16 : ∀ x, FnReturns cfg debug P H (n! "zigzag_encode16") [.i16 x] (.u16 (zigzagEncode x))
  encode32 : ∀ x, FnReturns cfg debug P H (n! "zigzag_encode32") [.i32 x] (.u32 (zigzagEncode x))
  encode64 : ∀ x, FnReturns cfg debug P H (n! "zigzag_encode64") [.i64 x] (.u64 (zigzagEncode x))
end

end CT.Spec
