import Verif.Proofs.EncodingSet
/-! # What is written, over every sink -/
namespace CT
open Spec

/-- `write_all` of one chunk after the other, stopping at the first failure. -/
def runChunks {τ : Type} (S : Sink τ) : List Bytes → Wr τ Unit
  | [] => pure ()
  | c :: cs => do S.writeAll c; runChunks S cs

/-- A writer, generic in the sink. -/
abbrev Writer (α : Type) := ∀ τ : Type, Sink τ → Wr τ α

/-- Over every sink the writer passes a sequence of chunks, together the bytes `bs`, and then ends with `r`. -/
def Outs {α : Type} (x : Writer α) (bs : Bytes) (r : Except Fail α) : Prop :=
  ∃ cs : List Bytes, cs.flatten = bs ∧ ∀ (τ : Type) (S : Sink τ) (t : τ), x τ S t =
    match runChunks S cs t with
    | (.ok _, t') => (r, t')
    | (.error e, t') => (.error e, t')

theorem runChunks_append {τ : Type} (S : Sink τ) : ∀ (cs ds : List Bytes) (t : τ),
    runChunks S (cs ++ ds) t = match runChunks S cs t with
      | (.ok _, t') => runChunks S ds t'
      | (.error e, t') => (.error e, t') := by
  intro cs
  induction cs with
  | nil => intro ds t; rfl
  | cons c cs ih =>
    intro ds t
    show (S.writeAll c >>= fun _ => runChunks S (cs ++ ds)) t =
      match (S.writeAll c >>= fun _ => runChunks S cs) t with
      | (.ok _, t') => runChunks S ds t'
      | (.error e, t') => (.error e, t')
    rw [Wr.bind_apply, Wr.bind_apply]
    rcases h : S.writeAll c t with ⟨_ | _, t'⟩
    · rfl
    · exact ih ds t'

section Rules
variable {α β : Type}

theorem Outs.pure (a : α) : Outs (fun _ _ => Pure.pure a) [] (.ok a) := ⟨[], rfl, fun _ _ _ => rfl⟩

theorem Outs.throw (e : ThriftError) : Outs (α := α) (fun _ _ => Wr.throw e) [] (.error (.err e)) := ⟨[], rfl, fun _ _ _ => rfl⟩

theorem Outs.bind {x : Writer α} {f : α → Writer β} {bs cs : Bytes} {a : α} {r : Except Fail β} (hx : Outs x bs (.ok a))
    (hf : Outs (f a) cs r) : Outs (fun τ S => x τ S >>= fun a => f a τ S) (bs ++ cs) r := by
  obtain ⟨c1, rfl, h1⟩ := hx
  obtain ⟨c2, rfl, h2⟩ := hf
  refine ⟨c1 ++ c2, by simp, fun _ S t => ?_⟩
  show (x _ S >>= fun a => f a _ S) t = _
  rw [Wr.bind_apply, h1, runChunks_append]
  rcases runChunks S c1 t with ⟨_ | _, t'⟩
  · rfl
  · exact h2 _ S t'

theorem Outs.bindErr {x : Writer α} {f : α → Writer β} {bs : Bytes} {e : Fail} (hx : Outs x bs (.error e)) :
    Outs (fun τ S => x τ S >>= fun a => f a τ S) bs (.error e) := by
  obtain ⟨c1, rfl, h1⟩ := hx
  refine ⟨c1, rfl, fun _ S t => ?_⟩
  show (x _ S >>= fun a => f a _ S) t = _
  rw [Wr.bind_apply, h1]
  rcases runChunks S c1 t with ⟨_ | _, t'⟩ <;> rfl

theorem Outs.congr {x y : Writer α} {bs : Bytes} {r : Except Fail α} (h : Outs x bs r)
    (e : ∀ (τ : Type) (S : Sink τ), y τ S = x τ S) : Outs y bs r := by
  obtain ⟨cs, h1, h2⟩ := h
  exact ⟨cs, h1, fun _ S t => by rw [e]; exact h2 _ S t⟩

theorem Outs.cast {x : Writer α} {bs cs : Bytes} {r : Except Fail α} (h : Outs x bs r) (e : cs = bs) : Outs x cs r := e ▸ h

end Rules

theorem outs_writeAll (bs : Bytes) : Outs (fun _ S => S.writeAll bs) bs (.ok ()) := by
  refine ⟨[bs], by simp, fun _ S t => ?_⟩
  show S.writeAll bs t = match (S.writeAll bs >>= fun _ => Pure.pure ()) t with
    | (.ok _, t') => ((.ok () : Except Fail Unit), t')
    | (.error e, t') => (.error e, t')
  rw [Wr.bind_apply]
  rcases S.writeAll bs t with ⟨_ | _, t'⟩ <;> rfl

theorem outs_writeByte (b : Byte) : Outs (fun _ S => S.writeByte b) [b] (.ok ()) := outs_writeAll [b]

theorem outs_writeBytes : ∀ bs : Bytes, Outs (fun _ S => writeBytes S bs) bs (.ok ())
  | [] => Outs.pure ()
  | b :: bs => Outs.bind (f := fun _ _ S => writeBytes S bs) (outs_writeByte b) (outs_writeBytes bs)

theorem outs_writeLen (n : Nat) (h : n < 2 ^ 64) : Outs (fun _ S => S.writeLen n) (varint n) (.ok ()) := by
  have e : encodeUleb (BitVec.ofNat 64 n) = varint n := by
    rw [encodeUleb_eq, BitVec.toNat_ofNat, Nat.mod_eq_of_lt h]
  exact e ▸ outs_writeBytes _

theorem outs_writeI16 (x : BitVec 16) : Outs (fun _ S => S.writeI16 x) (varint (zigzag x.toInt)) (.ok ()) := by
  rw [← encode_zigzag (by omega) (by omega)]; exact outs_writeBytes _

theorem outs_writeI32 (x : BitVec 32) : Outs (fun _ S => S.writeI32 x) (varint (zigzag x.toInt)) (.ok ()) := by
  rw [← encode_zigzag (by omega) (by omega)]; exact outs_writeBytes _

theorem outs_writeI64 (x : BitVec 64) : Outs (fun _ S => S.writeI64 x) (varint (zigzag x.toInt)) (.ok ()) := by
  rw [← zigzagEncode_toNat (by omega), ← encodeUleb_eq]; exact outs_writeBytes _

theorem outs_writeDouble (x : BitVec 64) : Outs (fun _ S => S.writeDouble x) (le64 x) (.ok ()) := by
  rw [← le64_eq]; exact outs_writeAll _

theorem outs_writeBinary (b : Bytes) (hm : b.length ≤ 16777216) :
    Outs (fun _ S => S.writeBinary b) (varint b.length ++ b) (.ok ()) := by
  refine (Outs.bind (f := fun _ _ S => S.writeAll b) (outs_writeLen b.length (by omega)) (outs_writeAll b)).congr fun _ S => ?_
  unfold Sink.writeBinary
  rw [if_neg (by unfold MAX_BINARY_LEN; omega)]

theorem outs_writeBinary_tooLong (b : Bytes) (hm : 16777216 < b.length) :
    Outs (fun _ S => S.writeBinary b) [] (.error (.err (.invalidBinaryLen b.length))) := by
  refine (Outs.throw _).congr fun _ S => ?_
  unfold Sink.writeBinary
  rw [if_pos (show MAX_BINARY_LEN < _ by unfold MAX_BINARY_LEN; omega)]

theorem outs_listHeader (ft : Byte) (n : Nat) (hft : ft.toNat < 16) (h : n < 2 ^ 64) :
    Outs (fun _ S => S.writeListHeader ft n) (listHeader ft n) (.ok ()) := by
  unfold listHeader
  by_cases h15 : n < 15
  · simp only [h15, if_true]
    have : BitVec.ofNat 8 (ft.toNat + 16 * n) = ft ||| (BitVec.ofNat 8 n <<< 4) := by
      apply BitVec.eq_of_toNat_eq
      rw [nibbles ft n hft (by omega), BitVec.toNat_ofNat]; omega
    rw [this]
    refine (outs_writeByte _).congr fun _ S => ?_
    unfold Sink.writeListHeader
    rw [if_pos h15]
  · simp only [h15, if_false]
    have : BitVec.ofNat 8 (ft.toNat + 240) = ft ||| 0xF0#8 := by
      apply BitVec.eq_of_toNat_eq
      rw [or_f0_toNat ft hft, BitVec.toNat_ofNat]; omega
    rw [this]
    refine (Outs.bind (f := fun _ _ S => S.writeLen n) (outs_writeByte _) (outs_writeLen n h)).congr fun _ S => ?_
    unfold Sink.writeListHeader
    rw [if_neg h15]

theorem outs_fieldHeader (ft : Byte) (id last : BitVec 16) (hft : ft.toNat < 16) :
    Outs (fun _ S => S.writeFieldHeader ft id last) (fieldHeader ft id last) (.ok id) := by
  unfold fieldHeader
  by_cases h : 15 < (id - last).toInt
  · have h' := (slt_15 _).2 h
    simp only [h, if_true]
    refine ((Outs.bind (f := fun _ _ S => S.writeI16 (id - last) >>= fun _ => Pure.pure id) (outs_writeByte ft)
      (Outs.bind (f := fun _ _ _ => Pure.pure id) (outs_writeI16 (id - last)) (Outs.pure id))).congr ?_).cast (by simp)
    intro τ S
    unfold Sink.writeFieldHeader
    simp only [h', if_true]
  · have h' : BitVec.slt 15#16 (id - last) = false := by
      cases e : BitVec.slt 15#16 (id - last) with
      | false => rfl
      | true => exact absurd ((slt_15 _).1 e) h
    simp only [h, if_false]
    have e : BitVec.ofNat 8 (ft.toNat + 16 * ((id - last).toNat % 16)) = ft ||| (BitVec.setWidth 8 (id - last) <<< 4) := by
      apply BitVec.eq_of_toNat_eq
      rw [BitVec.toNat_or, BitVec.toNat_shiftLeft, BitVec.toNat_setWidth, Nat.shiftLeft_eq, BitVec.toNat_ofNat]
      have h1 : (id - last).toNat % 2 ^ 8 * 2 ^ 4 % 2 ^ 8 = 2 ^ 4 * ((id - last).toNat % 16) := by omega
      rw [h1, Nat.or_comm, ← Nat.two_pow_add_eq_or_of_lt (i := 4) (by omega)]; omega
    rw [e]
    refine (Outs.bind (bs := [_]) (cs := []) (f := fun _ _ _ => Pure.pure id) (outs_writeByte _) (Outs.pure id)).congr ?_
    intro τ S
    unfold Sink.writeFieldHeader
    simp only [h', Bool.false_eq_true, if_false]

theorem wireType_eq (env : List Def) (t : Ty) : fieldType env t = wireType env t := by
  induction t with
  | named k => rfl
  | option t ih => exact ih
  | box t ih => exact ih
  | rc t ih => exact ih
  | _ => rfl

theorem wireType_range (env : List Def) (t : Ty) : 2 ≤ (wireType env t).toNat ∧ (wireType env t).toNat ≤ 12 := by
  induction t with
  | named k =>
    unfold wireType
    split <;> decide
  | option t ih => exact ih
  | box t ih => exact ih
  | rc t ih => exact ih
  | _ => unfold wireType; decide

theorem boolTag_eq (b : Bool) : boolTag b = boolByte b := rfl

theorem boolByte_range (b : Bool) : 1 ≤ (boolByte b).toNat ∧ (boolByte b).toNat ≤ 2 := by cases b <;> decide

theorem outs_writeI32s (xs : List Nat) (h : ∀ i ∈ xs, i < 32) :
    Outs (fun _ S => writeI32s S (xs.map (BitVec.ofNat 32))) (xs.flatMap fun (i : Nat) => varint (zigzag i)) (.ok ()) := by
  induction xs with
  | nil => exact Outs.pure ()
  | cons i xs ih =>
    have hi : i < 32 := h i (by simp)
    have e : (BitVec.ofNat 32 i).toInt = (i : Int) := by
      rw [BitVec.toInt_eq_toNat_cond, BitVec.toNat_ofNat]; omega
    have h1 := outs_writeI32 (BitVec.ofNat 32 i)
    rw [e] at h1
    exact Outs.bind (f := fun _ _ S => writeI32s S (xs.map (BitVec.ofNat 32))) h1 (ih fun j hj => h j (by simp [hj]))

/-- The field id after the fields of a struct. -/
def lastIds : List Field → List Val → BitVec 16 → BitVec 16
  | f :: fs, v :: vs, last => lastIds fs vs (if present v then f.id else last)
  | _, _, last => last

theorem writeField_value {τ : Type} (S : Sink τ) (env : List Def) {t : Ty} (v : Val) (id last : BitVec 16) (h1 : t ≠ .bool)
    (h2 : ∀ t', t ≠ .option t') : writeField S env t v id last =
      (do let last' ← S.writeFieldHeader (fieldType env t) id last; writeTy S env t v; pure last') := by
  cases t with
  | bool => exact absurd rfl h1
  | option t => exact absurd rfl (h2 t)
  | _ => rw [writeField] <;> intros <;> contradiction

theorem present_of_enc {env : List Def} {t : Ty} {v : Val} {p : Bytes} {ok : BitVec 16 → BitVec 16 → Prop} (h : Enc env ok (.value t v) p)
    (h2 : ∀ t', t ≠ .option t') : present v = true := by
  cases h with
  | some t v p hp => exact absurd rfl (h2 _)
  | _ => rfl

/-- What the writer does with an item of the specification. -/
def OutsItem (env : List Def) (p : Bytes) : EItem → Prop
  | .value t v => Outs (fun _ S => writeTy S env t v) p (.ok ())
  | .field t v id last => Outs (fun _ S => writeField S env t v id last) p (.ok (if present v then id else last))
  | .elems t vs => Outs (fun _ S => writeElems S env t vs) p (.ok ())
  | .fields fs vs last => Outs (fun _ S => writeFields S env fs vs last) p (.ok (lastIds fs vs last))

theorem outs_of_enc {env : List Def} {i : EItem} {p : Bytes} {ok : BitVec 16 → BitVec 16 → Prop} (h : Enc env ok i p) : OutsItem env p i := by
  induction h with
  | bool b => exact (outs_writeByte _).congr fun _ S => by rw [writeTy]; rfl
  | i8 x => exact (outs_writeByte _).congr fun _ S => by rw [writeTy]
  | i16 x => exact (outs_writeI16 x).congr fun _ S => by rw [writeTy]
  | i32 x => exact (outs_writeI32 x).congr fun _ S => by rw [writeTy]
  | i64 x => exact (outs_writeI64 x).congr fun _ S => by rw [writeTy]
  | double x => exact (outs_writeDouble x).congr fun _ S => by rw [writeTy]
  | binary bs h => exact (outs_writeBinary bs h).congr fun _ S => by rw [writeTy]
  | string bs h => exact (outs_writeBinary bs h).congr fun _ S => by rw [writeTy]
  | encodingSet mask =>
    refine (Outs.bind (f := fun _ _ S => writeI32s S ((members mask).map (BitVec.ofNat 32)))
      (outs_listHeader 5#8 _ (by decide) (by have := members_length_le mask; omega))
      (outs_writeI32s _ fun i hi => List.mem_range.1 (List.mem_filter.1 hi).1)).congr fun _ S => ?_
    rw [writeTy, encodingSetLen_eq, encodingSetIter_eq]; rfl
  | list t vs p h hp ih =>
    refine (Outs.bind (f := fun _ _ S => writeElems S env t vs)
      (outs_listHeader (wireType env t) vs.length (by have := wireType_range env t; omega) (by omega)) ih).congr fun _ S => ?_
    rw [writeTy, if_neg (by unfold MAX_COLLECTION_LEN; omega), wireType_eq]
  | some t v p hp ih => exact ih.congr fun _ S => by rw [writeTy]
  | box t v p hp ih => exact ih.congr fun _ S => by rw [writeTy]
  | rc t b v p hp ih => exact ih.congr fun _ S => by rw [writeTy]
  | enum k name x hk => exact (outs_writeI32 x).congr fun _ S => by rw [writeTy]; simp only [hk]
  | struct k name fs vs p hk hp ih =>
    refine (Outs.bind (f := fun _ _ S => S.writeByte 0#8) ih (outs_writeByte _)).congr fun _ S => ?_
    rw [writeTy]; simp only [hk]
  | union k name us i u v p hk hu hp ih =>
    refine (Outs.bind (f := fun _ _ S => S.writeByte 0#8) ih (outs_writeByte _)).congr fun _ S => ?_
    rw [writeTy]; simp only [hk, hu]
  | elemsNil t => exact (Outs.pure ()).congr fun _ S => by rw [writeElems]
  | elemsCons t v vs p q hp hq ih1 ih2 =>
    exact (Outs.bind (f := fun _ _ S => writeElems S env t vs) ih1 ih2).congr fun _ S => by rw [writeElems]
  | fieldBool b id last _ =>
    exact (outs_fieldHeader _ id last (by have := boolByte_range b; omega)).congr fun _ S => by rw [writeField]; rfl
  | fieldNone t id last => exact (Outs.pure last).congr fun _ S => by rw [writeField]
  | fieldSome t v id last p hp ih => exact ih.congr fun _ S => by rw [writeField]
  | fieldValue t v id last p h1 h2 _ hp ih =>
    show Outs (fun _ S => writeField S env t v id last) _ (.ok (if present v then id else last))
    rw [present_of_enc hp h2, if_pos rfl]
    refine ((Outs.bind (f := fun last' _ S => writeTy S env t v >>= fun _ => pure last')
      (outs_fieldHeader (wireType env t) id last (by have := wireType_range env t; omega))
      (Outs.bind (f := fun _ _ _ => Pure.pure id) ih (Outs.pure id))).congr fun _ S => ?_).cast (by simp)
    rw [writeField_value S env v id last h1 h2, wireType_eq]
  | fieldsNil last => exact (Outs.pure last).congr fun _ S => by rw [writeFields]
  | fieldsCons f fs v vs last p q hp hq ih1 ih2 =>
    exact (Outs.bind (f := fun last' _ S => writeFields S env fs vs last') ih1 ih2).congr fun _ S => by rw [writeFields]

/-! ## The dichotomy: a well-typed value is encoded or refused -/

/-- The writer refuses with `e`, after some bytes. -/
def Refuses (x : Writer α) (e : ThriftError) : Prop := ∃ bs, Outs x bs (.error (.err e))

/-- Either there is an encoding, or the writer fails with an error the value deserves. -/
def ValueOk (env : List Def) (t : Ty) (v : Val) : Prop :=
  (∃ p, Enc env anyStep (.value t v) p) ∨ ∃ e, Refused env t v e ∧ Refuses (fun _ S => writeTy S env t v) e

def FieldOk (env : List Def) (t : Ty) (v : Val) : Prop :=
  ∀ id last, (∃ p, Enc env anyStep (.field t v id last) p) ∨
    ∃ e, RefusedField env t v e ∧ Refuses (fun _ S => writeField S env t v id last) e

theorem fieldOk_of_value {env : List Def} {t : Ty} {v : Val} (h1 : t ≠ .bool) (h2 : ∀ t', t ≠ .option t')
    (h : ValueOk env t v) : FieldOk env t v := by
  intro id last
  rcases h with ⟨p, h⟩ | ⟨e, hr, bs, ho⟩
  · exact .inl ⟨_, Enc.fieldValue t v id last p h1 h2 trivial h⟩
  · refine .inr ⟨e, RefusedField.value t v e h2 hr, fieldHeader (wireType env t) id last ++ bs, ?_⟩
    refine (Outs.bind (f := fun last' _ S => writeTy S env t v >>= fun _ => pure last')
      (outs_fieldHeader (wireType env t) id last (by have := wireType_range env t; omega))
      (Outs.bindErr (f := fun _ _ _ => Pure.pure id) ho)).congr fun _ S => ?_
    rw [writeField_value S env v id last h1 h2, wireType_eq]

theorem elemsOk {env : List Def} {t : Ty} : ∀ vs : List Val, (∀ v ∈ vs, ValueOk env t v) →
    (∃ p, Enc env anyStep (.elems t vs) p) ∨ ∃ v ∈ vs, ∃ e, Refused env t v e ∧ Refuses (fun _ S => writeElems S env t vs) e := by
  intro vs
  induction vs with
  | nil => intro _; exact .inl ⟨_, Enc.elemsNil t⟩
  | cons v vs ih =>
    intro h
    rcases h v (by simp) with ⟨p, hp⟩ | ⟨e, hr, bs, ho⟩
    · rcases ih (fun w hw => h w (by simp [hw])) with ⟨q, hq⟩ | ⟨w, hw, e, hr, bs, ho⟩
      · exact .inl ⟨_, Enc.elemsCons t v vs p q hp hq⟩
      · exact .inr ⟨w, by simp [hw], e, hr, p ++ bs,
          (Outs.bind (f := fun _ _ S => writeElems S env t vs) (outs_of_enc hp) ho).congr fun _ S => by rw [writeElems]⟩
    · exact .inr ⟨v, by simp, e, hr, bs,
        (Outs.bindErr (f := fun _ _ S => writeElems S env t vs) ho).congr fun _ S => by rw [writeElems]⟩

theorem fieldsOk' {env : List Def} : ∀ (fs : List Field) (vs : List Val) (last : BitVec 16), vs.length = fs.length →
    (∀ (i : Nat) (f : Field) (v : Val), fs[i]? = some f → vs[i]? = some v → FieldOk env f.rustTy v) →
    (∃ p, Enc env anyStep (.fields fs vs last) p) ∨ ∃ (i : Nat) (f : Field) (v : Val) (e : ThriftError), fs[i]? = some f ∧ vs[i]? = some v ∧
      RefusedField env f.rustTy v e ∧ Refuses (fun _ S => writeFields S env fs vs last) e := by
  intro fs
  induction fs with
  | nil =>
    intro vs last hl _
    obtain rfl : vs = [] := by simpa using hl
    exact .inl ⟨_, Enc.fieldsNil last⟩
  | cons f fs ih =>
    intro vs last hl h
    obtain ⟨v, vs, rfl⟩ : ∃ v vs', vs = v :: vs' := by
      cases vs with
      | nil => simp at hl
      | cons v vs => exact ⟨v, vs, rfl⟩
    rcases h 0 f v rfl rfl f.id last with ⟨p, hp⟩ | ⟨e, hr, bs, ho⟩
    · rcases ih vs (if present v then f.id else last) (by simpa using hl) (fun i g w hg hw => h (i + 1) g w (by simpa using hg) (by simpa using hw)) with
        ⟨q, hq⟩ | ⟨i, g, w, e, hg, hw, hr, bs, ho⟩
      · exact .inl ⟨_, Enc.fieldsCons f fs v vs last p q hp hq⟩
      · exact .inr ⟨i + 1, g, w, e, by simpa using hg, by simpa using hw, hr, p ++ bs,
          (Outs.bind (f := fun last' _ S => writeFields S env fs vs last') (outs_of_enc hp) ho).congr fun _ S => by rw [writeFields]⟩
    · exact .inr ⟨0, f, v, e, rfl, rfl, hr, bs,
        (Outs.bindErr (f := fun last' _ S => writeFields S env fs vs last') ho).congr fun _ S => by rw [writeFields]⟩

theorem enc_or_refused {env : List Def} {t : Ty} {v : Val} (h : HasTy env v t) : ValueOk env t v ∧ FieldOk env t v := by
  induction h with
  | bool b => exact ⟨.inl ⟨_, .bool b⟩, fun id last => .inl ⟨_, .fieldBool b id last trivial⟩⟩
  | i8 x => exact (fun h => ⟨h, fieldOk_of_value (by simp) (by simp) h⟩) (.inl ⟨_, .i8 x⟩)
  | i16 x => exact (fun h => ⟨h, fieldOk_of_value (by simp) (by simp) h⟩) (.inl ⟨_, .i16 x⟩)
  | i32 x => exact (fun h => ⟨h, fieldOk_of_value (by simp) (by simp) h⟩) (.inl ⟨_, .i32 x⟩)
  | i64 x => exact (fun h => ⟨h, fieldOk_of_value (by simp) (by simp) h⟩) (.inl ⟨_, .i64 x⟩)
  | double x => exact (fun h => ⟨h, fieldOk_of_value (by simp) (by simp) h⟩) (.inl ⟨_, .double x⟩)
  | binary bs =>
    refine (fun h => ⟨h, fieldOk_of_value (by simp) (by simp) h⟩) ?_
    by_cases hb : bs.length ≤ 16777216
    · exact .inl ⟨_, .binary bs hb⟩
    · exact .inr ⟨_, .binary bs (by omega), _, (outs_writeBinary_tooLong bs (by omega)).congr fun _ S => by rw [writeTy]⟩
  | string bs _ =>
    refine (fun h => ⟨h, fieldOk_of_value (by simp) (by simp) h⟩) ?_
    by_cases hb : bs.length ≤ 16777216
    · exact .inl ⟨_, .string bs hb⟩
    · exact .inr ⟨_, .string bs (by omega), _, (outs_writeBinary_tooLong bs (by omega)).congr fun _ S => by rw [writeTy]⟩
  | encodingSet mask _ => exact (fun h => ⟨h, fieldOk_of_value (by simp) (by simp) h⟩) (.inl ⟨_, .encodingSet mask⟩)
  | list t vs h ih =>
    refine (fun h => ⟨h, fieldOk_of_value (by simp) (by simp) h⟩) ?_
    by_cases hb : vs.length ≤ 10000000
    · rcases elemsOk vs (fun v hv => (ih v hv).1) with ⟨p, hp⟩ | ⟨v, hv, e, hr, bs, ho⟩
      · exact .inl ⟨_, .list t vs p hb hp⟩
      · refine .inr ⟨e, .elem t vs v e hv hr, _, (Outs.bind (f := fun _ _ S => writeElems S env t vs)
          (outs_listHeader (wireType env t) vs.length (by have := wireType_range env t; omega) (by omega)) ho).congr fun _ S => ?_⟩
        rw [writeTy, if_neg (by unfold MAX_COLLECTION_LEN; omega), wireType_eq]
    · refine .inr ⟨_, .length t vs (by omega), _, (Outs.throw _).congr fun _ S => ?_⟩
      rw [writeTy, if_pos (by unfold MAX_COLLECTION_LEN; omega)]
  | none t =>
    exact ⟨.inr ⟨_, .none t, _, (Outs.throw _).congr fun _ S => by rw [writeTy]⟩, fun id last => .inl ⟨_, .fieldNone t id last⟩⟩
  | some t v h ih =>
    refine ⟨?_, fun id last => ?_⟩
    · rcases ih.1 with ⟨p, hp⟩ | ⟨e, hr, bs, ho⟩
      · exact .inl ⟨_, .some t v p hp⟩
      · exact .inr ⟨_, .some t v e hr, _, ho.congr fun _ S => by rw [writeTy]⟩
    · rcases ih.2 id last with ⟨p, hp⟩ | ⟨e, hr, bs, ho⟩
      · exact .inl ⟨_, .fieldSome t v id last p hp⟩
      · exact .inr ⟨_, .some t v e hr, _, ho.congr fun _ S => by rw [writeField]⟩
  | box t v h ih =>
    refine (fun h => ⟨h, fieldOk_of_value (by simp) (by simp) h⟩) ?_
    rcases ih.1 with ⟨p, hp⟩ | ⟨e, hr, bs, ho⟩
    · exact .inl ⟨_, .box t v p hp⟩
    · exact .inr ⟨_, .box t v e hr, _, ho.congr fun _ S => by rw [writeTy]⟩
  | rc t b v h ih =>
    refine (fun h => ⟨h, fieldOk_of_value (by simp) (by simp) h⟩) ?_
    rcases ih.1 with ⟨p, hp⟩ | ⟨e, hr, bs, ho⟩
    · exact .inl ⟨_, .rc t b v p hp⟩
    · exact .inr ⟨_, .rc t b v e hr, _, ho.congr fun _ S => by rw [writeTy]⟩
  | enum k name x hk => exact (fun h => ⟨h, fieldOk_of_value (by simp) (by simp) h⟩) (.inl ⟨_, .enum k name x hk⟩)
  | struct k name fs vs hk hl h ih =>
    refine (fun h => ⟨h, fieldOk_of_value (by simp) (by simp) h⟩) ?_
    rcases fieldsOk' fs vs 0#16 hl (fun i f v hf hv => (ih i f v hf hv).2) with ⟨p, hp⟩ | ⟨i, f, v, e, hf, hv, hr, bs, ho⟩
    · exact .inl ⟨_, .struct k name fs vs p hk hp⟩
    · refine .inr ⟨e, .struct k name fs vs i f v e hk hf hv hr, bs, (Outs.bindErr (f := fun _ _ S => S.writeByte 0#8) ho).congr fun _ S => ?_⟩
      rw [writeTy]; simp only [hk]
  | union k name us i u v hk hu h ih =>
    refine (fun h => ⟨h, fieldOk_of_value (by simp) (by simp) h⟩) ?_
    rcases ih.2 u.id 0#16 with ⟨p, hp⟩ | ⟨e, hr, bs, ho⟩
    · exact .inl ⟨_, .union k name us i u v p hk hu hp⟩
    · refine .inr ⟨e, .union k name us i u v e hk hu hr, bs, (Outs.bindErr (f := fun _ _ S => S.writeByte 0#8) ho).congr fun _ S => ?_⟩
      rw [writeTy]; simp only [hk, hu]

end CT
