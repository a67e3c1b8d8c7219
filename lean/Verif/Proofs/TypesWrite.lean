import Verif.Proofs.TypesReads
import Verif.Proofs.EncodingSet
/-!
# The code of types.rs and encodings.rs that writes, run
-/
namespace CT.Rs
open CT Spec

attribute [local irreducible] evalT

section
variable {τ : Type} (cfg : Cfg) (S : Sink τ) (d : τ)

theorem dev_writeByte (b : Byte) : (outputDevice S).method (n! "write_byte") [.u8 b] d = answerW (fun _ => (.unit, [.u8 b])) [.u8 b] (S.writeByte b d) := rfl
theorem dev_writeLen (n : BitVec 64) :
    (outputDevice S).method (n! "write_len") [.usize n] d = answerW (fun _ => (.unit, [.usize n])) [.usize n] (S.writeLen n.toNat d) := rfl
theorem dev_writeI16 (x : BitVec 16) : (outputDevice S).method (n! "write_i16") [.i16 x] d = answerW (fun _ => (.unit, [.i16 x])) [.i16 x] (S.writeI16 x d) := rfl
theorem dev_writeI32 (x : BitVec 32) : (outputDevice S).method (n! "write_i32") [.i32 x] d = answerW (fun _ => (.unit, [.i32 x])) [.i32 x] (S.writeI32 x d) := rfl
theorem dev_writeI64 (x : BitVec 64) : (outputDevice S).method (n! "write_i64") [.i64 x] d = answerW (fun _ => (.unit, [.i64 x])) [.i64 x] (S.writeI64 x d) := rfl
theorem dev_writeDouble (x : BitVec 64) : (outputDevice S).method (n! "write_double") [.f64 x] d = answerW (fun _ => (.unit, [.f64 x])) [.f64 x] (S.writeDouble x d) := rfl
theorem dev_writeBinary (bs : Bytes) :
    (outputDevice S).method (n! "write_binary") [.bytes bs] d = answerW (fun _ => (.unit, [.bytes bs])) [.bytes bs] (S.writeBinary bs d) := rfl
theorem dev_writeString (bs : Bytes) :
    (outputDevice S).method (n! "write_string") [.bytes bs] d = answerW (fun _ => (.unit, [.bytes bs])) [.bytes bs] (S.writeBinary bs d) := rfl
theorem dev_header (ft : Byte) (id last : BitVec 16) :
    (outputDevice S).call (n! "write_field_header") [.self, .u8 ft, .i16 id, .ref (.i16 last)] d =
      answerW (fun l => (.unit, [.self, .u8 ft, .i16 id, .ref (.i16 l)])) [.self, .u8 ft, .i16 id, .ref (.i16 last)] (S.writeFieldHeader ft id last d) := rfl

/-- A function whose only effect is one write. -/
macro "rt_write" r:term "," f:ident "," e:ident : tactic => `(tactic| (
  simp only [runT, runFn, $f:ident]
  generalize $r = r at *
  generalize outputDevice _ = D at *
  rcases r with ⟨f | u, d'⟩
  · cases f <;> (rt_simp [$e:ident]; rfl)
  · rt_simp [$e:ident]; rfl))

@[rs] theorem loaded_bool (b : Bool) : loaded .bool (.bool b) = .ok (.bool b) := (rfl)
@[rs] theorem loaded_i8 (x : BitVec 8) : loaded .i8 (.i8 x) = .ok (.i8 x) := (rfl)
@[rs] theorem loaded_i16 (x : BitVec 16) : loaded .i16 (.i16 x) = .ok (.i16 x) := (rfl)
@[rs] theorem loaded_i32 (x : BitVec 32) : loaded .i32 (.i32 x) = .ok (.i32 x) := (rfl)
@[rs] theorem loaded_i64 (x : BitVec 64) : loaded .i64 (.i64 x) = .ok (.i64 x) := (rfl)
@[rs] theorem loaded_f64 (x : BitVec 64) : loaded .f64 (.double x) = .ok (.f64 x) := (rfl)
@[rs] theorem castTo_bool (t : ITy) (b : Bool) : castTo t (.bool b) = .ok (ofNat t b.toNat) := (rfl)
@[rs] theorem castTo_i8_u8 (x : BitVec 8) : castTo .u8 (.i8 x) = .ok (.u8 x) := by simp [castTo, castS]

@[rs] theorem tag_add (b : Bool) : binaryT cfg .add (.lit 1) (.u8 (BitVec.ofNat 8 (!b).toNat)) = .ok (.u8 (boolTag b)) := by
  rcases cfg with ⟨o, _, _⟩
  cases o <;> cases b <;> rfl

variable (own part : Methods τ)

theorem write_i8 (x : BitVec 8) : asWrite d (fun _ => some ()) (runT ⟨cfg, outputDevice S, .i8, own, part⟩ ty_i8_write_thrift [.place none, .self] (.i8 x) d) =
    S.writeByte x d := by
  have e := dev_writeByte S d x
  rt_write S.writeByte x d, ty_i8_write_thrift, e
theorem write_i16 (x : BitVec 16) : asWrite d (fun _ => some ()) (runT ⟨cfg, outputDevice S, .i16, own, part⟩ ty_i16_write_thrift [.place none, .self] (.i16 x) d) =
    S.writeI16 x d := by
  have e := dev_writeI16 S d x
  rt_write S.writeI16 x d, ty_i16_write_thrift, e
theorem write_i32 (x : BitVec 32) : asWrite d (fun _ => some ()) (runT ⟨cfg, outputDevice S, .i32, own, part⟩ ty_i32_write_thrift [.place none, .self] (.i32 x) d) =
    S.writeI32 x d := by
  have e := dev_writeI32 S d x
  rt_write S.writeI32 x d, ty_i32_write_thrift, e
theorem write_i64 (x : BitVec 64) : asWrite d (fun _ => some ()) (runT ⟨cfg, outputDevice S, .i64, own, part⟩ ty_i64_write_thrift [.place none, .self] (.i64 x) d) =
    S.writeI64 x d := by
  have e := dev_writeI64 S d x
  rt_write S.writeI64 x d, ty_i64_write_thrift, e
theorem write_f64 (x : BitVec 64) : asWrite d (fun _ => some ()) (runT ⟨cfg, outputDevice S, .f64, own, part⟩ ty_f64_write_thrift [.place none, .self] (.double x) d) =
    S.writeDouble x d := by
  have e := dev_writeDouble S d x
  rt_write S.writeDouble x d, ty_f64_write_thrift, e
theorem write_bool (b : Bool) : asWrite d (fun _ => some ()) (runT ⟨cfg, outputDevice S, .bool, own, part⟩ ty_bool_write_thrift [.place none, .self] (.bool b) d) =
    S.writeByte (boolTag b) d := by
  have e := dev_writeByte S d (boolTag b)
  rt_write S.writeByte (boolTag b) d, ty_bool_write_thrift, e
theorem writeField_bool (b : Bool) (id last : BitVec 16) :
    asWrite d lastId (runT ⟨cfg, outputDevice S, .bool, own, part⟩ ty_bool_write_thrift_field [.place none, .self, .i16 id, .ref (.i16 last)] (.bool b) d) =
      S.writeFieldHeader (boolTag b) id last d := by
  have e := dev_header S d (boolTag b) id last
  rt_write S.writeFieldHeader (boolTag b) id last d, ty_bool_write_thrift_field, e
@[rs] theorem evSelfT_vecU8 (D : Api τ) (ev : Expr → Frame → Mem τ → Out (Mem τ)) (e : Expr) (es : List Expr) (fr : Frame) (bs : Bytes) (d : Option τ) :
    evSelfT ⟨cfg, D, .vecU8, own, part⟩ ev e (n! "as_slice") es [] fr ⟨.binary bs, d⟩ = .val (.bytes bs) fr ⟨.binary bs, d⟩ := (rfl)
theorem write_vecU8 (bs : Bytes) :
    asWrite d (fun _ => some ()) (runT ⟨cfg, outputDevice S, .vecU8, own, part⟩ ty_vecU8_write_thrift [.place none, .self] (.binary bs) d) = S.writeBinary bs d := by
  have e := dev_writeBinary S d bs
  rt_write S.writeBinary bs d, ty_vecU8_write_thrift, e
@[rs] theorem evSelfT_cowBytes (D : Api τ) (ev : Expr → Frame → Mem τ → Out (Mem τ)) (e : Expr) (es : List Expr) (fr : Frame) (bs : Bytes) (d : Option τ) :
    evSelfT ⟨cfg, D, .cowBytes, own, part⟩ ev e (n! "as_ref") es [] fr ⟨.binary bs, d⟩ = .val (.bytes bs) fr ⟨.binary bs, d⟩ := (rfl)
theorem write_cowBytes (bs : Bytes) :
    asWrite d (fun _ => some ()) (runT ⟨cfg, outputDevice S, .cowBytes, own, part⟩ ty_cowBytes_write_thrift [.place none, .self] (.binary bs) d) = S.writeBinary bs d := by
  have e := dev_writeBinary S d bs
  rt_write S.writeBinary bs d, ty_cowBytes_write_thrift, e
@[rs] theorem evSelfT_string (D : Api τ) (ev : Expr → Frame → Mem τ → Out (Mem τ)) (e : Expr) (es : List Expr) (fr : Frame) (bs : Bytes) (d : Option τ) :
    evSelfT ⟨cfg, D, .string, own, part⟩ ev e (n! "as_str") es [] fr ⟨.string bs, d⟩ = .val (.bytes bs) fr ⟨.string bs, d⟩ := (rfl)
theorem write_string (bs : Bytes) :
    asWrite d (fun _ => some ()) (runT ⟨cfg, outputDevice S, .string, own, part⟩ ty_string_write_thrift [.place none, .self] (.string bs) d) = S.writeBinary bs d := by
  have e := dev_writeString S d bs
  rt_write S.writeBinary bs d, ty_string_write_thrift, e
@[rs] theorem evSelfT_cowStr (D : Api τ) (ev : Expr → Frame → Mem τ → Out (Mem τ)) (e : Expr) (es : List Expr) (fr : Frame) (bs : Bytes) (d : Option τ) :
    evSelfT ⟨cfg, D, .cowStr, own, part⟩ ev e (n! "as_ref") es [] fr ⟨.string bs, d⟩ = .val (.bytes bs) fr ⟨.string bs, d⟩ := (rfl)
theorem write_cowStr (bs : Bytes) :
    asWrite d (fun _ => some ()) (runT ⟨cfg, outputDevice S, .cowStr, own, part⟩ ty_cowStr_write_thrift [.place none, .self] (.string bs) d) = S.writeBinary bs d := by
  have e := dev_writeString S d bs
  rt_write S.writeBinary bs d, ty_cowStr_write_thrift, e
@[rs] theorem evSelfT_boxStr (D : Api τ) (ev : Expr → Frame → Mem τ → Out (Mem τ)) (e : Expr) (es : List Expr) (fr : Frame) (bs : Bytes) (d : Option τ) :
    evSelfT ⟨cfg, D, .boxStr, own, part⟩ ev e (n! "as_ref") es [] fr ⟨.string bs, d⟩ = .val (.bytes bs) fr ⟨.string bs, d⟩ := (rfl)
theorem write_boxStr (bs : Bytes) :
    asWrite d (fun _ => some ()) (runT ⟨cfg, outputDevice S, .boxStr, own, part⟩ ty_boxStr_write_thrift [.place none, .self] (.string bs) d) = S.writeBinary bs d := by
  have e := dev_writeString S d bs
  rt_write S.writeBinary bs d, ty_boxStr_write_thrift, e
@[rs] theorem evSelfT_rcStr (D : Api τ) (ev : Expr → Frame → Mem τ → Out (Mem τ)) (e : Expr) (es : List Expr) (fr : Frame) (bs : Bytes) (d : Option τ) :
    evSelfT ⟨cfg, D, .rcStr, own, part⟩ ev e (n! "as_ref") es [] fr ⟨.string bs, d⟩ = .val (.bytes bs) fr ⟨.string bs, d⟩ := (rfl)
theorem write_rcStr (bs : Bytes) :
    asWrite d (fun _ => some ()) (runT ⟨cfg, outputDevice S, .rcStr, own, part⟩ ty_rcStr_write_thrift [.place none, .self] (.string bs) d) = S.writeBinary bs d := by
  have e := dev_writeString S d bs
  rt_write S.writeBinary bs d, ty_rcStr_write_thrift, e
@[rs] theorem evSelfT_arcStr (D : Api τ) (ev : Expr → Frame → Mem τ → Out (Mem τ)) (e : Expr) (es : List Expr) (fr : Frame) (bs : Bytes) (d : Option τ) :
    evSelfT ⟨cfg, D, .arcStr, own, part⟩ ev e (n! "as_ref") es [] fr ⟨.string bs, d⟩ = .val (.bytes bs) fr ⟨.string bs, d⟩ := (rfl)
theorem write_arcStr (bs : Bytes) :
    asWrite d (fun _ => some ()) (runT ⟨cfg, outputDevice S, .arcStr, own, part⟩ ty_arcStr_write_thrift [.place none, .self] (.string bs) d) = S.writeBinary bs d := by
  have e := dev_writeString S d bs
  rt_write S.writeBinary bs d, ty_arcStr_write_thrift, e

end

/-! ## `Option`, `Box`, `Rc`, `Arc` -/

section
variable {τ : Type} (cfg : Cfg) (D : Api τ) (t : RTy) (own part : Methods τ) (ev : Expr → Frame → Mem τ → Out (Mem τ)) (e : Expr) (es : List Expr) (fr : Frame)

@[rs] theorem evSelfT_as_ref_some (u : Val) (d : Option τ) :
    evSelfT ⟨cfg, D, .option t, own, part⟩ ev e (n! "as_ref") es [] fr ⟨.some u, d⟩ = .val (.some (.obj u)) fr ⟨.some u, d⟩ := (rfl)
@[rs] theorem evSelfT_as_ref_none (d : Option τ) :
    evSelfT ⟨cfg, D, .option t, own, part⟩ ev e (n! "as_ref") es [] fr ⟨.none, d⟩ = .val .none fr ⟨.none, d⟩ := (rfl)
@[rs] theorem pointerFn_box_ref (u : Val) : pointerFn (.box t) (n! "Box") (n! "as_ref") (.box u) = .ok (.obj u) := (rfl)
@[rs] theorem pointerFn_rc_ref (b : Bool) (u : Val) : pointerFn (.rc t) (n! "Rc") (n! "as_ref") (.rc b u) = .ok (.obj u) := (rfl)
@[rs] theorem pointerFn_arc_ref (b : Bool) (u : Val) : pointerFn (.arc t) (n! "Arc") (n! "as_ref") (.rc b u) = .ok (.obj u) := (rfl)

variable (d : τ)

/-- A function that only passes on. -/
macro "rt_pass" r:term "," f:ident : tactic => `(tactic| (
  simp only [runT, runFn, $f:ident]
  generalize h : $r = r at *
  rcases r with ⟨f | u, d'⟩
  · cases f <;> (rt_simp [h]; rfl)
  · rt_simp [h]; rfl))

theorem write_option_none : asWrite d (fun _ => some ()) (runT ⟨cfg, D, .option t, own, part⟩ ty_option_write_thrift [.place none, .self] .none d) =
    (.error (.err .missingValue), d) := by
  simp only [runT, runFn, ty_option_write_thrift]
  rt_simp []; rfl
theorem write_option_some (u : Val) : asWrite d (fun _ => some ()) (runT ⟨cfg, D, .option t, own, part⟩ ty_option_write_thrift [.place none, .self] (.some u) d) =
    part.write u d := by
  rt_pass part.write u d, ty_option_write_thrift
theorem writeField_option_none (id last : BitVec 16) :
    asWrite d lastId (runT ⟨cfg, D, .option t, own, part⟩ ty_option_write_thrift_field [.place none, .self, .i16 id, .ref (.i16 last)] .none d) = (.ok last, d) := by
  simp only [runT, runFn, ty_option_write_thrift_field]
  rt_simp []; rfl
theorem writeField_option_some (u : Val) (id last : BitVec 16) :
    asWrite d lastId (runT ⟨cfg, D, .option t, own, part⟩ ty_option_write_thrift_field [.place none, .self, .i16 id, .ref (.i16 last)] (.some u) d) =
      part.writeField u id last d := by
  rt_pass part.writeField u id last d, ty_option_write_thrift_field
theorem write_box (u : Val) : asWrite d (fun _ => some ()) (runT ⟨cfg, D, .box t, own, part⟩ ty_box_write_thrift [.place none, .self] (.box u) d) = part.write u d := by
  rt_pass part.write u d, ty_box_write_thrift
theorem write_rc (b : Bool) (u : Val) :
    asWrite d (fun _ => some ()) (runT ⟨cfg, D, .rc t, own, part⟩ ty_rc_write_thrift [.place none, .self] (.rc b u) d) = part.write u d := by
  rt_pass part.write u d, ty_rc_write_thrift
theorem write_arc (b : Bool) (u : Val) :
    asWrite d (fun _ => some ()) (runT ⟨cfg, D, .arc t, own, part⟩ ty_arc_write_thrift [.place none, .self] (.rc b u) d) = part.write u d := by
  rt_pass part.write u d, ty_arc_write_thrift

theorem inherent_write (ty : RTy) : inherentFn ty (n! "write_thrift") = none := by cases ty <;> rfl

@[rs] theorem evSelfT_write (C : Ctx τ) (v : Val) :
    evSelfT C ev e (n! "write_thrift") es [.self] fr ⟨v, some d⟩ =
      answered es fr ⟨v, some d⟩ (answerW (fun _ => (.unit, [.self])) [.self] (C.own.write v d)) := by
  unfold evSelfT
  split
  · simp_all
  · simp_all
  · rw [inherent_write]
    rfl

end

section
variable {τ : Type} (S : Sink τ)

theorem writeField_trait (cfg : Cfg) (ty : RTy) (own part : Methods τ) (v : Val) (id last : BitVec 16) (d : τ) :
    asWrite d lastId (runT ⟨cfg, outputDevice S, ty, own, part⟩ fn_Protocol_write_thrift_field [.place none, .self, .i16 id, .ref (.i16 last)] v d) =
      (do
        let last' ← S.writeFieldHeader own.fieldType id last
        own.write v
        pure last' : Wr τ (BitVec 16)) d := by
  have e := dev_header S d own.fieldType id last
  simp only [runT, runFn, fn_Protocol_write_thrift_field, bind, Wr.bind, pure, Wr.pure]
  generalize S.writeFieldHeader own.fieldType id last d = r at *
  generalize outputDevice _ = D at *
  rcases r with ⟨f | l, d'⟩
  · cases f <;> (rt_simp [e]; rfl)
  · dsimp only
    generalize h : own.write v d' = r at *
    rcases r with ⟨f | u, d''⟩
    · cases f <;> (rt_simp [e, h]; rfl)
    · rt_simp [e, h]; rfl

end

/-! ## `Vec<P>` -/

/-- The elements one after the other. -/
def writeAll {τ : Type} (w : Val → Wr τ Unit) : List Val → Wr τ Unit
  | [] => pure ()
  | v :: vs => do w v; writeAll w vs

section
variable {τ : Type} (cfg : Cfg) (S : Sink τ) (t : RTy) (own part : Methods τ) (fr : Frame)

/-- The value of an expression that writes. -/
def wroteOut (fr : Frame) (v : Val) (r : Except Fail Unit × τ) : Out (Mem τ) :=
  match r with
  | (.ok (), d) => .val (.ok .unit) fr ⟨v, some d⟩
  | (.error (.err e), d) => .val (.err (.thrift e)) fr ⟨v, some d⟩
  | (.error f, d) => .fail f ⟨v, some d⟩

/-- types.rs:228-230 -/
def eachBody : Expr := .block [.method (.path [n! "value"]) (n! "write_thrift") [.path [n! "output"]]]

theorem eachLoop (D : Api τ) (n : Nat) (len : V) (v : Val) (us : List Val) : ∀ d : τ,
    evEach (evalT ⟨cfg, D, .vec t, own, part⟩ (n + 10)) (n! "value") eachBody us [[(n! "len", len)], [(n! "self", .place none), (n! "output", .self)]] ⟨v, some d⟩ =
      wroteOut [[(n! "len", len)], [(n! "self", .place none), (n! "output", .self)]] v (writeAll part.write us d) := by
  induction us with
  | nil => intro d; rfl
  | cons u us ih =>
    intro d
    simp only [evEach, writeAll, bind, Wr.bind]
    generalize h : part.write u d = r
    rcases r with ⟨f | x, d'⟩
    · cases f <;> (simp only [eachBody]; rt_simp [h]; rfl)
    · have hb : evalT ⟨cfg, D, .vec t, own, part⟩ (n + 10) eachBody
          [[(n! "value", .obj u)], [(n! "len", len)], [(n! "self", .place none), (n! "output", .self)]] ⟨v, some d⟩ =
          .val (.ok .unit) [[(n! "value", .obj u)], [(n! "len", len)], [(n! "self", .place none), (n! "output", .self)]] ⟨v, some d'⟩ := by
        simp only [eachBody]; rt_simp [h]
      rw [hb]
      exact ih _

@[rs] theorem evSelfT_len (D : Api τ) (ev : Expr → Frame → Mem τ → Out (Mem τ)) (e : Expr) (es : List Expr) (vs : List Val) (d : Option τ) :
    evSelfT ⟨cfg, D, .vec t, own, part⟩ ev e (n! "len") es [] fr ⟨.list vs, d⟩ =
      .val (.usize (BitVec.ofNat 64 (min vs.length (2 ^ 64 - 1)))) fr ⟨.list vs, d⟩ := (rfl)
@[rs] theorem evSelfT_iter (D : Api τ) (ev : Expr → Frame → Mem τ → Out (Mem τ)) (e : Expr) (es : List Expr) (vs : List Val) (d : Option τ) :
    evSelfT ⟨cfg, D, .vec t, own, part⟩ ev e (n! "iter") es [] fr ⟨.list vs, d⟩ = .val (.elems vs) fr ⟨.list vs, d⟩ := (rfl)

theorem write_vec (vs : List Val) (d : τ) :
    asWrite d (fun _ => some ()) (runT ⟨cfg, outputDevice S, .vec t, own, part⟩ ty_vec_write_thrift [.place none, .self] (.list vs) d) =
      (do
        if MAX_COLLECTION_LEN < vs.length then
          Wr.throw .invalidCollectionLen
        else
          S.writeListHeader part.fieldType vs.length
          writeAll part.write vs : Wr τ Unit) d := by
  have hlen : (BitVec.ofNat 64 (min vs.length (2 ^ 64 - 1))).toNat = min vs.length (2 ^ 64 - 1) := by
    rw [BitVec.toNat_ofNat, Nat.mod_eq_of_lt (by omega)]
  have hmax : (BitVec.ofNat 64 MAX_COLLECTION_LEN).toNat = MAX_COLLECTION_LEN := by decide
  have hm : MAX_COLLECTION_LEN < 2 ^ 64 - 1 := by decide
  simp only [runT, runFn, ty_vec_write_thrift]
  by_cases h : MAX_COLLECTION_LEN < vs.length
  · have h' : decide (MAX_COLLECTION_LEN < min vs.length (2 ^ 64 - 1)) = true := by simp; omega
    rt_simp [hlen, hmax, h', h]
    rfl
  · have hmin : min vs.length (2 ^ 64 - 1) = vs.length := by omega
    rw [hmin] at hlen
    have h' : decide (MAX_COLLECTION_LEN < vs.length) = false := by simp [h]
    have h8 : (BitVec.ofNat 64 vs.length).setWidth 8 = BitVec.ofNat 8 vs.length := by
      apply BitVec.eq_of_toNat_eq
      simp only [BitVec.toNat_setWidth, BitVec.toNat_ofNat]
      omega
    have h15 : (BitVec.ofNat 64 15).toNat = 15 := by decide
    have loop := eachLoop cfg t own part (outputDevice S) 28 (.usize (BitVec.ofNat 64 vs.length)) (.list vs) vs
    simp only [Nat.reduceAdd, eachBody] at loop
    simp only [h, if_false, Sink.writeListHeader, bind, Wr.bind]
    by_cases hs : vs.length < 15
    · have hs' : decide (vs.length < 15) = true := by simp [hs]
      have e := dev_writeByte S d (part.fieldType ||| (BitVec.ofNat 8 vs.length <<< 4))
      simp only [hs, if_true]
      generalize S.writeByte (part.fieldType ||| (BitVec.ofNat 8 vs.length <<< 4)) d = r at *
      rcases r with ⟨f | u, d'⟩
      · cases f <;> (rt_simp [hmin, hlen, hmax, h', hs', h8, h15, e]; rfl)
      · rt_simp [hmin, hlen, hmax, h', hs', h8, h15, e, loop]
        generalize writeAll part.write vs d' = r
        rcases r with ⟨f | u, d''⟩
        · cases f <;> rfl
        · rfl
    · have hs' : decide (vs.length < 15) = false := by simp [hs]
      have e := dev_writeByte S d (part.fieldType ||| 0xF0#8)
      simp only [hs, if_false, Wr.bind]
      generalize S.writeByte (part.fieldType ||| 0xF0#8) d = r at *
      rcases r with ⟨f | u, d'⟩
      · cases f <;> (rt_simp [hmin, hlen, hmax, h', hs', h15, e]; rfl)
      · have e' := dev_writeLen S d' (BitVec.ofNat 64 vs.length)
        rw [hlen] at e'
        dsimp only
        generalize S.writeLen vs.length d' = r at *
        rcases r with ⟨f | u, d''⟩
        · cases f <;> (rt_simp [hmin, hlen, hmax, h', hs', h15, e, e']; rfl)
        · rt_simp [hmin, hlen, hmax, h', hs', h15, e, e', loop]
          generalize writeAll part.write vs d'' = r
          rcases r with ⟨f | u, z⟩
          · cases f <;> rfl
          · rfl

end

/-! ## `EncodingSet` -/

section
variable {τ : Type} (cfg : Cfg) (D : Api τ) (own part : Methods τ) (fr : Frame)

/-- The closure of `iter`, encodings.rs:22-30. -/
def iterBody : Expr := .block [.ite (.bin .eq (.path [n! "mask"]) (.lit 0 none)) (.block [.path [n! "None"]]) (some (.block [.bind (.name (n!
  "encoding")) (.call [n! "Encoding"] [.cast (.method (.path [n! "mask"]) (n! "trailing_zeros") []) (some .i32)]), .semi (.assignOp .band (.path [n!
  "mask"]) (.bin .sub (.path [n! "mask"]) (.lit 1 none))), .call [n! "Some"] [.path [n! "encoding"]]]))]

@[rs] theorem evFieldT_mask (mask : BitVec 32) (d : Option τ) :
    evFieldT ⟨cfg, D, .encodingSet, own, part⟩ (.place none) 0 fr ⟨.encodingSet mask, d⟩ = .val (.u32 mask) fr ⟨.encodingSet mask, d⟩ := (rfl)
@[rs] theorem evFieldT_tuple (C : Ctx τ) (v : V) (m : Mem τ) : evFieldT C (.tuple [v]) 0 fr m = .val v fr m := (rfl)
@[rs] theorem stdMethodT_count (x : BitVec 32) : stdMethodT (n! "count_ones") (.u32 x) [] = .ok (.u32 (BitVec.ofNat 32 (countOnes x))) := (rfl)
@[rs] theorem stdMethodT_trailing (x : BitVec 32) : stdMethodT (n! "trailing_zeros") (.u32 x) [] = .ok (.u32 (BitVec.ofNat 32 (trailingZeros x))) := (rfl)

theorem iter_zero (n : Nat) (m : Mem τ) :
    evalT ⟨cfg, D, .encodingSet, own, part⟩ (n + 20) iterBody [[(n! "mask", .u32 0#32), (n! "self", .place none)]] m = .val .none [[(n! "mask", .u32 0#32), (n! "self", .place none)]] m := by
  have hb : (0#32 == BitVec.ofNat 32 0) = true := rfl
  simp only [iterBody]
  rt_simp [hb]

theorem sub_one {mask : BitVec 32} (h : mask ≠ 0#32) : binU cfg .u32 .sub mask (BitVec.ofNat 32 1) = .ok (.u32 (mask - 1#32)) := by
  have h1 : (BitVec.ofNat 32 1).toNat = 1 := rfl
  have h2 : mask.toNat ≠ 0 := fun e => h (BitVec.eq_of_toNat_eq e)
  have h3 : decide (mask.toNat < 1) = false := by simp; omega
  simp only [binU, h1, h3, Bool.and_false, Bool.false_eq_true, if_false]

theorem iter_next (n : Nat) (mask : BitVec 32) (h : mask ≠ 0#32) (m : Mem τ) :
    evalT ⟨cfg, D, .encodingSet, own, part⟩ (n + 20) iterBody [[(n! "mask", .u32 mask), (n! "self", .place none)]] m =
      .val (.some (.tuple [.i32 (BitVec.ofNat 32 (trailingZeros mask))])) [[(n! "mask", .u32 (mask &&& (mask - 1#32))), (n! "self", .place none)]] m := by
  have hb : (mask == BitVec.ofNat 32 0) = false := by simpa using h
  simp only [iterBody]
  rt_simp [hb, sub_one cfg h, BitVec.setWidth_eq]

/-- encodings.rs:73-75 -/
def itemBody : Expr := .block [.semi (.try (.method (.path [n! "output"]) (n! "write_i32") [.field (.path [n! "item"]) 0]))]

/-- The outcome of statements that write. -/
def wroteAll (fr : Frame) (v : Val) (r : Except Fail Unit × τ) : Out (Mem τ) :=
  match r with
  | (.ok (), d) => .val .unit fr ⟨v, some d⟩
  | (.error (.err e), d) => .ret (.err (.thrift e)) fr ⟨v, some d⟩
  | (.error f, d) => .fail f ⟨v, some d⟩

theorem genLoop (S : Sink τ) (n : Nat) (len : V) (v : Val) (k : Nat) : ∀ (mask : BitVec 32) (d : τ), (members mask).length < k →
    evGen (evalT ⟨cfg, outputDevice S, .encodingSet, own, part⟩ (n + 20)) (n! "item") iterBody itemBody k ((n! "mask", .u32 mask) :: [(n! "self", .place none)])
        [[(n! "len", len)], [(n! "self", .place none), (n! "output", .self)]] ⟨v, some d⟩ =
      wroteAll [[(n! "len", len)], [(n! "self", .place none), (n! "output", .self)]] v (writeI32s S ((members mask).map (BitVec.ofNat 32)) d) := by
  induction k with
  | zero => intro mask d h; omega
  | succ k ih =>
    intro mask d h
    by_cases h0 : mask = 0#32
    · subst h0
      simp only [evGen, iter_zero]
      rfl
    · obtain ⟨j, hj, hlow⟩ := exists_lowest mask h0
      have htz := trailingZeros_eq mask j hj (BitVec.lt_of_getLsbD hj) hlow
      have e := members_lowest mask j hj hlow
      rw [e] at h ⊢
      have ew := dev_writeI32 S d (BitVec.ofNat 32 j)
      simp only [evGen, iter_next _ _ _ _ _ mask h0, htz, List.map, writeI32s, bind, Wr.bind]
      generalize S.writeI32 (BitVec.ofNat 32 j) d = r at *
      rcases r with ⟨f | u, d'⟩
      · cases f <;> (simp only [itemBody]; rt_simp [ew]; rfl)
      · have hb : evalT ⟨cfg, outputDevice S, .encodingSet, own, part⟩ (n + 20) itemBody
            [[(n! "item", .tuple [.i32 (BitVec.ofNat 32 j)])], [(n! "len", len)], [(n! "self", .place none), (n! "output", .self)]] ⟨v, some d⟩ =
            .val .unit [[(n! "item", .tuple [.i32 (BitVec.ofNat 32 j)])], [(n! "len", len)], [(n! "self", .place none), (n! "output", .self)]] ⟨v, some d'⟩ := by
          simp only [itemBody]; rt_simp [ew]
        simp only [Out.bind_val, hb]
        exact ih _ _ (by simpa using h)

@[rs] theorem evSelfT_encodings_len (ev : Expr → Frame → Mem τ → Out (Mem τ)) (e : Expr) (es : List Expr) (m : Mem τ) :
    evSelfT ⟨cfg, D, .encodingSet, own, part⟩ ev e (n! "len") es [] fr m = called (e :: es) (runFn ev ty_own_encodingSet_len [.place none] m) fr := (rfl)
@[rs] theorem evSelfT_encodings_iter (ev : Expr → Frame → Mem τ → Out (Mem τ)) (e : Expr) (es : List Expr) (m : Mem τ) :
    evSelfT ⟨cfg, D, .encodingSet, own, part⟩ ev e (n! "iter") es [] fr m = called (e :: es) (runFn ev ty_own_encodingSet_iter [.place none] m) fr := (rfl)

@[rs] theorem putBack_place (x : List Name) : putBack (.path x) (.place none) fr = fr := by cases x <;> simp [putBack]

theorem write_encodingSet (S : Sink τ) (mask : BitVec 32) (d : τ) :
    asWrite d (fun _ => some ()) (runT ⟨cfg, outputDevice S, .encodingSet, own, part⟩ ty_encodingSet_write_thrift [.place none, .self] (.encodingSet mask) d) = (do
      S.writeListHeader 5#8 (encodingSetLen mask)
      writeI32s S (encodingSetIter mask) : Wr τ Unit) d := by
  have hl : encodingSetLen mask ≤ 32 := by rw [encodingSetLen_eq]; exact members_length_le mask
  have hc : BitVec.setWidth 64 (BitVec.ofNat 32 (countOnes mask)) = BitVec.ofNat 64 (encodingSetLen mask) := by
    have : countOnes mask = encodingSetLen mask := rfl
    rw [this]
    apply BitVec.eq_of_toNat_eq
    simp only [BitVec.toNat_setWidth, BitVec.toNat_ofNat]
    omega
  have hlen : (BitVec.ofNat 64 (encodingSetLen mask)).toNat = encodingSetLen mask := by
    rw [BitVec.toNat_ofNat, Nat.mod_eq_of_lt (by omega)]
  have h8 : (BitVec.ofNat 64 (encodingSetLen mask)).setWidth 8 = BitVec.ofNat 8 (encodingSetLen mask) := by
    apply BitVec.eq_of_toNat_eq
    simp only [BitVec.toNat_setWidth, BitVec.toNat_ofNat]
    omega
  have h15 : (BitVec.ofNat 64 15).toNat = 15 := by decide
  have loop := fun d => genLoop cfg own part S 17 (.usize (BitVec.ofNat 64 (encodingSetLen mask))) (.encodingSet mask) 1000 mask d
    (Nat.lt_of_le_of_lt (members_length_le mask) (by decide))
  simp only [Nat.reduceAdd, itemBody, iterBody, ← encodingSetIter_eq] at loop
  simp only [runT, runFn, ty_encodingSet_write_thrift, Sink.writeListHeader, bind, Wr.bind]
  by_cases hs : encodingSetLen mask < 15
  · have hs' : decide (encodingSetLen mask < 15) = true := by simp [hs]
    have e := dev_writeByte S d (5#8 ||| (BitVec.ofNat 8 (encodingSetLen mask) <<< 4))
    simp only [hs, if_true]
    generalize S.writeByte (5#8 ||| (BitVec.ofNat 8 (encodingSetLen mask) <<< 4)) d = r at *
    rcases r with ⟨f | u, d'⟩
    · cases f <;> (rt_simp [hlen, hc, hs', h8, h15, e, ty_own_encodingSet_len, runFn]; rfl)
    · rt_simp [hlen, hc, hs', h8, h15, e, loop, ty_own_encodingSet_len, ty_own_encodingSet_iter, runFn, List.flatten_cons, List.flatten_nil, List.cons_append, List.nil_append]
      generalize writeI32s S (encodingSetIter mask) d' = r
      rcases r with ⟨f | u, d''⟩
      · cases f <;> rfl
      · rfl
  · have hs' : decide (encodingSetLen mask < 15) = false := by simp [hs]
    have e := dev_writeByte S d (5#8 ||| 0xF0#8)
    simp only [hs, if_false, Wr.bind]
    generalize S.writeByte (5#8 ||| 0xF0#8) d = r at *
    rcases r with ⟨f | u, d'⟩
    · cases f <;> (rt_simp [hlen, hc, hs', h15, e, ty_own_encodingSet_len, runFn]; rfl)
    · have e' := dev_writeLen S d' (BitVec.ofNat 64 (encodingSetLen mask))
      rw [hlen] at e'
      dsimp only
      generalize S.writeLen (encodingSetLen mask) d' = r at *
      rcases r with ⟨f | u, d''⟩
      · cases f <;> (rt_simp [hlen, hc, hs', h15, e, e', ty_own_encodingSet_len, runFn]; rfl)
      · rt_simp [hlen, hc, hs', h15, e, e', loop, ty_own_encodingSet_len, ty_own_encodingSet_iter, runFn, List.flatten_cons, List.flatten_nil, List.cons_append, List.nil_append]
        generalize writeI32s S (encodingSetIter mask) d'' = r
        rcases r with ⟨f | u, z⟩
        · cases f <;> rfl
        · rfl

end
end CT.Rs
