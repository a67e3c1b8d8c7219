import Verif.Model.Uleb
/-!
# Inputs, headers and skipping: runtime/src/protocol.rs
-/
namespace CT

/-- protocol.rs:13 -/
def MAX_BINARY_LEN : Nat := 16 * 1024 * 1024
/-- protocol.rs:14 -/
def MAX_COLLECTION_LEN : Nat := 10000000

/-- protocol.rs:52-111 `trait CompactThriftInput`: the methods an implementation provides or overrides.
The other trait methods are the generic functions below.
`size` is not in the Rust code: a bound on the bytes the input can still deliver, used as fuel for loops. -/
structure Input (σ : Type) where
  size : σ → Nat
  readByte : Rd σ Byte
  readDouble : Rd σ (BitVec 64)
  readBinary : Rd σ Bytes
  skipInteger : Rd σ Unit
  skipBinary : Rd σ Unit

section Generic
variable {σ : Type} (cfg : Cfg) (I : Input σ)

/-- `decode_uleb(self)` on an input. -/
def Input.uleb : Rd σ (BitVec 64) := decodeUleb cfg I.size I.readByte

/-- protocol.rs:54-57 `read_len` (`u64 as usize`, 64-bit target). -/
def Input.readLen : Rd σ Nat := do
  let len ← I.uleb cfg
  pure len.toNat

/-- protocol.rs:58-61 `read_i16`: `as u16` truncates. -/
def Input.readI16 : Rd σ (BitVec 16) := do
  let i ← I.uleb cfg
  pure (zigzagDecode (i.setWidth 16))

/-- protocol.rs:62-65 `read_i32` -/
def Input.readI32 : Rd σ (BitVec 32) := do
  let i ← I.uleb cfg
  pure (zigzagDecode (i.setWidth 32))

/-- protocol.rs:66-69 `read_i64` -/
def Input.readI64 : Rd σ (BitVec 64) := do
  let i ← I.uleb cfg
  pure (zigzagDecode i)

/-- protocol.rs:16-20 `read_full_field_id` -/
def Input.readFullFieldId : Rd σ (BitVec 16) := do
  let fieldId ← I.uleb cfg
  pure (zigzagDecode (fieldId.setWidth 16))

/-- protocol.rs:94-110 `read_field_header`; returns the field type and the new `*last_field_id`.
`*last_field_id += field_delta as i16` panics on `i16` overflow with overflow checks and wraps without. -/
def Input.readFieldHeader (last : BitVec 16) : Rd σ (Byte × BitVec 16) := do
  let fieldHeader ← I.readByte
  if fieldHeader = 0#8 then
    pure (0#8, last)
  else
    let fieldType := fieldHeader &&& 0x0F#8
    let fieldDelta := fieldHeader >>> 4
    if fieldDelta ≠ 0#8 then
      if cfg.overflowChecks && decide (32767 < last.toInt + fieldDelta.toNat) then
        Rd.fail .panic
      else
        pure (fieldType, last + fieldDelta.setWidth 16)
    else
      let id ← I.readFullFieldId cfg
      pure (fieldType, id)

/-- protocol.rs:113-129 `read_collection_len_and_type` -/
def Input.readCollectionLenAndType : Rd σ (Nat × Byte) := do
  let header ← I.readByte
  let fieldType := header &&& 0x0F#8
  let maybeLen := (header &&& 0xF0#8) >>> 4
  let len ← (if maybeLen ≠ 0x0F#8 then pure maybeLen.toNat else I.readLen cfg : Rd σ Nat)
  if MAX_COLLECTION_LEN < len then
    Rd.throw .invalidCollectionLen
  else
    pure (len, fieldType)

/-- protocol.rs:131-146 `read_map_len_and_types` -/
def Input.readMapLenAndTypes : Rd σ (Nat × Byte × Byte) := do
  let len ← I.readLen cfg
  if len = 0 then
    pure (0, 0#8, 0#8)
  else
    let entryType ← I.readByte
    let keyType := entryType >>> 4
    let valType := entryType &&& 0x0F#8
    if MAX_COLLECTION_LEN < len then
      Rd.throw .invalidCollectionLen
    else
      pure (len, keyType, valType)

/-- `for _ in 0..n { act?; }` -/
def repeatRd (act : Rd σ Unit) : Nat → Rd σ Unit
  | 0 => pure ()
  | n + 1 => do act; repeatRd act n

/-- protocol.rs:243-250, the loop over the fields of a skipped struct, given how to skip one field.
The fuel bounds the number of iterations. -/
def skipStructLoop (skip1 : Byte → Rd σ Unit) : Nat → BitVec 16 → Rd σ Unit
  | 0, _ => Rd.fail .diverge
  | fuel + 1, last => do
    let (fieldType, last') ← I.readFieldHeader cfg last
    if fieldType = 0#8 then
      pure ()
    else
      skip1 fieldType
      skipStructLoop skip1 fuel last'

mutual

/-- protocol.rs:148-198 `skip_collection`. The fuel bounds the nesting of calls. -/
def skipCollection : Nat → Rd σ Unit
  | 0 => Rd.fail .diverge
  | fuel + 1 => do
    let (len, elementType) ← I.readCollectionLenAndType cfg
    match elementType.toNat with
    | 1 | 2 | 3 => repeatRd (do let _ ← I.readByte; pure ()) len
    | 4 | 5 | 6 => repeatRd I.skipInteger len
    | 7 => repeatRd (do let _ ← I.readDouble; pure ()) len
    | 8 => repeatRd I.skipBinary len
    | 9 | 10 => repeatRd (skipCollection fuel) len
    | 11 => repeatRd (skipMap fuel) len
    | 12 => repeatRd (skipFieldF fuel 12#8 false) len
    | _ => Rd.throw .invalidType

/-- protocol.rs:200-207 `skip_map` -/
def skipMap : Nat → Rd σ Unit
  | 0 => Rd.fail .diverge
  | fuel + 1 => do
    let (len, keyType, valType) ← I.readMapLenAndTypes cfg
    repeatRd (do skipFieldF fuel keyType true; skipFieldF fuel valType true) len

/-- protocol.rs:209-257 `skip_field(input, field_type, inside_collection)` -/
def skipFieldF : Nat → Byte → Bool → Rd σ Unit
  | 0, _, _ => Rd.fail .diverge
  | fuel + 1, fieldType, insideCollection =>
    match fieldType.toNat with
    | 1 | 2 => if insideCollection then do let _ ← I.readByte; pure () else pure ()
    | 3 => do let _ ← I.readByte; pure ()
    | 4 | 5 | 6 => I.skipInteger
    | 7 => do let _ ← I.readDouble; pure ()
    | 8 => I.skipBinary
    | 9 | 10 => skipCollection fuel
    | 11 => skipMap fuel
    | 12 => Rd.of fun s => skipStructLoop cfg I (fun ft => skipFieldF fuel ft false) (I.size s + 1) 0#16 s
    | _ => Rd.throw .invalidType

end

/-- `skip_field(input, field_type, inside_collection)` with the fuel given by the input (two nested calls per byte suffice). -/
def Input.skip (fieldType : Byte) (insideCollection : Bool) : Rd σ Unit :=
  fun s => skipFieldF cfg I (2 * I.size s + 2) fieldType insideCollection s

/-- protocol.rs:91-93, the trait method `skip_field(&mut self, field_type)`. -/
def Input.skipField (fieldType : Byte) : Rd σ Unit := I.skip cfg fieldType false

end Generic

/-- Little-endian bytes to `u64`/`f64` bits (`f64::from_le_bytes`). -/
def fromLeBytes : Bytes → BitVec 64
  | [] => 0#64
  | b :: bs => b.setWidth 64 ||| (fromLeBytes bs <<< 8)

/-- `f64::to_le_bytes` -/
def toLeBytes : Nat → BitVec 64 → Bytes
  | 0, _ => []
  | n + 1, x => x.setWidth 8 :: toLeBytes n (x >>> 8)

/-! ## The slice input -/

/-- `Err(ThriftError::from(ErrorKind::UnexpectedEof))` -/
def eof {α : Type} : Except Fail α := .error (.err (.io .unexpectedEof))

/-- protocol.rs:326-334 `read_byte` of `CompactThriftInputSlice`; the state is the remaining slice. -/
def Slice.readByte : Rd Bytes Byte
  | [] => eof
  | b :: rest => .ok (b, rest)

/-- protocol.rs:336-344 -/
def Slice.readDouble : Rd Bytes (BitVec 64) := fun s =>
  if s.length < 8 then eof else .ok (fromLeBytes (s.take 8), s.drop 8)

/-- protocol.rs:54-57 instantiated for the slice -/
def Slice.readLen (cfg : Cfg) : Rd Bytes Nat := do
  let len ← decodeUleb cfg List.length Slice.readByte
  pure len.toNat

/-- protocol.rs:346-358 -/
def Slice.readBinary (cfg : Cfg) : Rd Bytes Bytes := do
  let len ← Slice.readLen cfg
  if MAX_BINARY_LEN < len then
    Rd.throw (.invalidBinaryLen len)
  else Rd.of fun s =>
    if s.length < len then eof else .ok (s.take len, s.drop len)

/-- protocol.rs:360-370 with SSE2; protocol.rs:83-86 (`read_i64`) without. -/
def Slice.skipInteger (cfg : Cfg) : Rd Bytes Unit :=
  if cfg.sse2 then Rd.of fun s =>
    if 16 ≤ s.length then
      match skipUlebSse2 s with
      | .ok s' => .ok ((), s')
      | .error e => .error e
    else
      match skipUlebFallback s with
      | .ok s' => .ok ((), s')
      | .error e => .error e
  else do
    let _ ← decodeUleb cfg List.length Slice.readByte
    pure ()

/-- protocol.rs:372-382 -/
def Slice.skipBinary (cfg : Cfg) : Rd Bytes Unit := do
  let len ← Slice.readLen cfg
  if MAX_BINARY_LEN < len then
    Rd.throw (.invalidBinaryLen len)
  else Rd.of fun s =>
    if s.length < len then eof else .ok ((), s.drop len)

/-- protocol.rs:325-383 `impl CompactThriftInput for CompactThriftInputSlice` -/
def sliceInput (cfg : Cfg) : Input Bytes where
  size := List.length
  readByte := Slice.readByte
  readDouble := Slice.readDouble
  readBinary := Slice.readBinary cfg
  skipInteger := Slice.skipInteger cfg
  skipBinary := Slice.skipBinary cfg

/-! ## `std::io::Read` inputs -/

/-- What the next call of `Read::read` finds: some bytes (an empty chunk is `Ok(0)`, end of file) or an error.
After the last event every call returns `Ok(0)`. -/
inductive REvent where
  | data (bs : Bytes)
  | error (kind : ErrorKind)
deriving DecidableEq, Repr

/-- Number of bytes the script delivers before it ends, reports end of file or a hard error. -/
def readerSize : List REvent → Nat
  | [] => 0
  | .data bs :: r => if bs = [] then 0 else bs.length + readerSize r
  | .error k :: r => if k = .interrupted then readerSize r else 0

/-- The default `Read::read_exact` of std, filling a buffer of `n` bytes: calls `read` until the buffer is full,
retries on `Interrupted`, returns other errors, and `UnexpectedEof` on `Ok(0)` before the buffer is full. -/
def readExact : Nat → Rd (List REvent) Bytes
  | 0, evs => .ok ([], evs)
  | _ + 1, [] => eof
  | n + 1, .data bs :: r =>
    if bs = [] then eof
    else if bs.length ≤ n + 1 then
      match readExact (n + 1 - bs.length) r with
      | .ok (x, r') => .ok (bs ++ x, r')
      | .error e => .error e
    else .ok (bs.take (n + 1), .data (bs.drop (n + 1)) :: r)
  | n + 1, .error k :: r =>
    if k = .interrupted then readExact (n + 1) r else .error (.err (.io k))

/-- protocol.rs:276-280 -/
def Reader.readByte : Rd (List REvent) Byte := fun s =>
  match readExact 1 s with
  | .ok ([b], s') => .ok (b, s')
  | .ok _ => .error .stuck
  | .error e => .error e

/-- protocol.rs:282-286 -/
def Reader.readDouble : Rd (List REvent) (BitVec 64) := fun s =>
  match readExact 8 s with
  | .ok (bs, s') => .ok (fromLeBytes bs, s')
  | .error e => .error e

/-- protocol.rs:289-302 (the uninitialised buffer is not modelled; an allocation failure aborts the process). -/
def Reader.readBinary (cfg : Cfg) : Rd (List REvent) Bytes := do
  let len ← decodeUleb cfg readerSize Reader.readByte
  if MAX_BINARY_LEN < len.toNat then
    Rd.throw (.invalidBinaryLen len.toNat)
  else
    readExact len.toNat

/-- protocol.rs:274-304 `impl CompactThriftInput for R: Read`; `skip_integer` and `skip_binary` are the trait
defaults, protocol.rs:83-90. -/
def readerInput (cfg : Cfg) : Input (List REvent) where
  size := readerSize
  readByte := Reader.readByte
  readDouble := Reader.readDouble
  readBinary := Reader.readBinary cfg
  skipInteger := do let _ ← decodeUleb cfg readerSize Reader.readByte; pure ()
  skipBinary := do let _ ← Reader.readBinary cfg; pure ()

/-! ## Outputs -/

/-- protocol.rs:398-433: the only operation of `W: Write` that is used is `write_all`. -/
structure Sink (τ : Type) where
  writeAll : Bytes → Wr τ Unit

section Output
variable {τ : Type} (S : Sink τ)

/-- protocol.rs:399-402 -/
def Sink.writeByte (b : Byte) : Wr τ Unit := S.writeAll [b]

/-- uleb.rs:42-47: the bytes of `encodeUleb`, one `write_byte` call each, stopping at the first error. -/
def writeBytes : Bytes → Wr τ Unit
  | [] => pure ()
  | b :: bs => do S.writeByte b; writeBytes bs

/-- protocol.rs:404-406 `write_len` (`usize as u64`). -/
def Sink.writeLen (n : Nat) : Wr τ Unit := writeBytes S (encodeUleb (BitVec.ofNat 64 n))
/-- protocol.rs:408-410 -/
def Sink.writeI16 (x : BitVec 16) : Wr τ Unit := writeBytes S (encodeUleb ((zigzagEncode x).setWidth 64))
/-- protocol.rs:412-414 -/
def Sink.writeI32 (x : BitVec 32) : Wr τ Unit := writeBytes S (encodeUleb ((zigzagEncode x).setWidth 64))
/-- protocol.rs:416-418 -/
def Sink.writeI64 (x : BitVec 64) : Wr τ Unit := writeBytes S (encodeUleb (zigzagEncode x))
/-- protocol.rs:420-423 -/
def Sink.writeDouble (x : BitVec 64) : Wr τ Unit := S.writeAll (toLeBytes 8 x)
/-- protocol.rs:425-432 -/
def Sink.writeBinary (v : Bytes) : Wr τ Unit := do
  if MAX_BINARY_LEN < v.length then
    Wr.throw (.invalidBinaryLen v.length)
  else
    S.writeLen v.length
    S.writeAll v

/-- protocol.rs:259-271 `write_field_header`; returns the new `*last_field_id`.
`field_delta > 15` is a signed comparison; `(field_delta as u8) << 4` drops the high bits. -/
def Sink.writeFieldHeader (fieldType : Byte) (fieldId last : BitVec 16) : Wr τ (BitVec 16) := do
  let fieldDelta := fieldId - last
  if BitVec.slt 15#16 fieldDelta then
    S.writeByte fieldType
    S.writeI16 fieldDelta
  else
    S.writeByte (fieldType ||| (fieldDelta.setWidth 8 <<< 4))
  pure fieldId

end Output

/-- `Vec<u8>` as a `Write`: `write_all` appends and never fails. -/
def vecSink : Sink Bytes where
  writeAll bs := fun out => (.ok (), out ++ bs)

/-- What the next call of `Write::write` does: accept at most `n` bytes (`Ok(0)` for `n = 0`) or fail. -/
inductive WEvent where
  | accept (n : Nat)
  | error (kind : ErrorKind)
deriving DecidableEq, Repr

/-- State of a scripted `Write`: the script and the bytes received so far. After the script everything is accepted. -/
structure WState where
  script : List WEvent
  out : Bytes
deriving DecidableEq, Repr

/-- The default `Write::write_all` of std: repeats `write` until the buffer is empty, retries on `Interrupted`,
returns other errors, and `WriteZero` on `Ok(0)`. -/
def writeAllLoop : List WEvent → Bytes → Bytes → Except Fail Unit × WState
  | evs, [], out => (.ok (), ⟨evs, out⟩)
  | [], b :: bs, out => (.ok (), ⟨[], out ++ (b :: bs)⟩)
  | .accept n :: evs, b :: bs, out =>
    if n = 0 then (.error (.err (.io .writeZero)), ⟨evs, out⟩)
    else writeAllLoop evs ((b :: bs).drop n) (out ++ (b :: bs).take n)
  | .error k :: evs, b :: bs, out =>
    if k = .interrupted then writeAllLoop evs (b :: bs) out
    else (.error (.err (.io k)), ⟨evs, out⟩)

/-- A scripted `std::io::Write`. -/
def writerSink : Sink WState where
  writeAll bs := fun t => writeAllLoop t.script bs t.out

end CT
