import Verif.Proofs.TypesWrite

/-! # `types.rs` and `encodings.rs`: writing, for every type -/

namespace CT.Rs
open CT

attribute [local irreducible] evalT

section
variable {τ : Type} (cfg : Cfg) (S : Sink τ) (env : List Def)

/-- The methods write what `writeTy` and `writeField` do, for the values of the type. -/
structure Writes (M : Methods τ) (t : Ty) : Prop where
  fieldType : M.fieldType = fieldType env t
  write : ∀ v d, HasTy env v t → M.write v d = writeTy S env t v d
  writeField : ∀ v id last d, HasTy env v t → M.writeField v id last d = CT.writeField S env t v id last d

/-- The default of the trait. -/
theorem writeField_default (t : Ty) (h : t ≠ .bool) (h' : ∀ u, t ≠ .option u) (v : Val) (id last : BitVec 16) :
    CT.writeField S env t v id last = (do
      let last' ← S.writeFieldHeader (CT.fieldType env t) id last
      writeTy S env t v
      pure last') := by
  cases t <;> simp_all [CT.writeField]

theorem Writes.trait (ty : RTy) (t : Ty) (own part : Methods τ) (v : Val) (id last : BitVec 16) (d : τ) (hft : own.fieldType = CT.fieldType env t)
    (hwrite : ∀ d, own.write v d = writeTy S env t v d) (h : t ≠ .bool) (h' : ∀ u, t ≠ .option u) :
    asWrite d lastId (runT ⟨cfg, outputDevice S, ty, own, part⟩ fn_Protocol_write_thrift_field [.place none, .self, .i16 id, .ref (.i16 last)] v d) =
      CT.writeField S env t v id last d := by
  rw [writeField_trait, writeField_default S env t h h', hft, show own.write v = writeTy S env t v from funext hwrite]

theorem bool_write (own part : Methods τ) (v : Val) (d : τ) (h : HasTy env v .bool) :
    asWrite d (fun _ => some ()) (runT ⟨cfg, outputDevice S, .bool, own, part⟩ ty_bool_write_thrift [.place none, .self] v d) = writeTy S env .bool v d := by
  cases h; rw [write_bool, writeTy]
theorem i8_write (own part : Methods τ) (v : Val) (d : τ) (h : HasTy env v .i8) :
    asWrite d (fun _ => some ()) (runT ⟨cfg, outputDevice S, .i8, own, part⟩ ty_i8_write_thrift [.place none, .self] v d) = writeTy S env .i8 v d := by
  cases h; rw [write_i8, writeTy]
theorem i16_write (own part : Methods τ) (v : Val) (d : τ) (h : HasTy env v .i16) :
    asWrite d (fun _ => some ()) (runT ⟨cfg, outputDevice S, .i16, own, part⟩ ty_i16_write_thrift [.place none, .self] v d) = writeTy S env .i16 v d := by
  cases h; rw [write_i16, writeTy]
theorem i32_write (own part : Methods τ) (v : Val) (d : τ) (h : HasTy env v .i32) :
    asWrite d (fun _ => some ()) (runT ⟨cfg, outputDevice S, .i32, own, part⟩ ty_i32_write_thrift [.place none, .self] v d) = writeTy S env .i32 v d := by
  cases h; rw [write_i32, writeTy]
theorem i64_write (own part : Methods τ) (v : Val) (d : τ) (h : HasTy env v .i64) :
    asWrite d (fun _ => some ()) (runT ⟨cfg, outputDevice S, .i64, own, part⟩ ty_i64_write_thrift [.place none, .self] v d) = writeTy S env .i64 v d := by
  cases h; rw [write_i64, writeTy]
theorem f64_write (own part : Methods τ) (v : Val) (d : τ) (h : HasTy env v .double) :
    asWrite d (fun _ => some ()) (runT ⟨cfg, outputDevice S, .f64, own, part⟩ ty_f64_write_thrift [.place none, .self] v d) = writeTy S env .double v d := by
  cases h; rw [write_f64, writeTy]
theorem vecU8_write (own part : Methods τ) (v : Val) (d : τ) (h : HasTy env v .binary) :
    asWrite d (fun _ => some ()) (runT ⟨cfg, outputDevice S, .vecU8, own, part⟩ ty_vecU8_write_thrift [.place none, .self] v d) = writeTy S env .binary v d := by
  cases h; rw [write_vecU8, writeTy]
theorem string_write (own part : Methods τ) (v : Val) (d : τ) (h : HasTy env v .string) :
    asWrite d (fun _ => some ()) (runT ⟨cfg, outputDevice S, .string, own, part⟩ ty_string_write_thrift [.place none, .self] v d) = writeTy S env .string v d := by
  cases h; rw [write_string, writeTy]
theorem cowBytes_write (own part : Methods τ) (v : Val) (d : τ) (h : HasTy env v .binary) :
    asWrite d (fun _ => some ()) (runT ⟨cfg, outputDevice S, .cowBytes, own, part⟩ ty_cowBytes_write_thrift [.place none, .self] v d) = writeTy S env .binary v d := by
  cases h; rw [write_cowBytes, writeTy]
theorem cowStr_write (own part : Methods τ) (v : Val) (d : τ) (h : HasTy env v .string) :
    asWrite d (fun _ => some ()) (runT ⟨cfg, outputDevice S, .cowStr, own, part⟩ ty_cowStr_write_thrift [.place none, .self] v d) = writeTy S env .string v d := by
  cases h; rw [write_cowStr, writeTy]
theorem boxStr_write (own part : Methods τ) (v : Val) (d : τ) (h : HasTy env v .string) :
    asWrite d (fun _ => some ()) (runT ⟨cfg, outputDevice S, .boxStr, own, part⟩ ty_boxStr_write_thrift [.place none, .self] v d) = writeTy S env .string v d := by
  cases h; rw [write_boxStr, writeTy]
theorem rcStr_write (own part : Methods τ) (v : Val) (d : τ) (h : HasTy env v .string) :
    asWrite d (fun _ => some ()) (runT ⟨cfg, outputDevice S, .rcStr, own, part⟩ ty_rcStr_write_thrift [.place none, .self] v d) = writeTy S env .string v d := by
  cases h; rw [write_rcStr, writeTy]
theorem arcStr_write (own part : Methods τ) (v : Val) (d : τ) (h : HasTy env v .string) :
    asWrite d (fun _ => some ()) (runT ⟨cfg, outputDevice S, .arcStr, own, part⟩ ty_arcStr_write_thrift [.place none, .self] v d) = writeTy S env .string v d := by
  cases h; rw [write_arcStr, writeTy]
theorem encodingSet_write (own part : Methods τ) (v : Val) (d : τ) (h : HasTy env v .encodingSet) :
    asWrite d (fun _ => some ()) (runT ⟨cfg, outputDevice S, .encodingSet, own, part⟩ ty_encodingSet_write_thrift [.place none, .self] v d) = writeTy S env .encodingSet v d := by
  cases h; rw [write_encodingSet, writeTy]; rfl
theorem writes_bool (dflt : Val) (part : Methods τ) : Writes S env (implMethods cfg (outputDevice S) .bool dflt part) .bool where
  fieldType := ft_bool ..
  write v d h := bool_write cfg S env _ _ v d h
  writeField v id last d h := by
    cases h; rw [CT.writeField]; exact writeField_bool ..
theorem writes_i8 (dflt : Val) (part : Methods τ) : Writes S env (implMethods cfg (outputDevice S) .i8 dflt part) .i8 where
  fieldType := ft_i8 ..
  write v d h := i8_write cfg S env _ _ v d h
  writeField v id last d h := Writes.trait cfg S env .i8 .i8 _ part v id last d (ft_i8 ..) (fun d => i8_write cfg S env _ _ v d h) (by simp) (by simp)
theorem writes_i16 (dflt : Val) (part : Methods τ) : Writes S env (implMethods cfg (outputDevice S) .i16 dflt part) .i16 where
  fieldType := ft_i16 ..
  write v d h := i16_write cfg S env _ _ v d h
  writeField v id last d h := Writes.trait cfg S env .i16 .i16 _ part v id last d (ft_i16 ..) (fun d => i16_write cfg S env _ _ v d h) (by simp) (by simp)
theorem writes_i32 (dflt : Val) (part : Methods τ) : Writes S env (implMethods cfg (outputDevice S) .i32 dflt part) .i32 where
  fieldType := ft_i32 ..
  write v d h := i32_write cfg S env _ _ v d h
  writeField v id last d h := Writes.trait cfg S env .i32 .i32 _ part v id last d (ft_i32 ..) (fun d => i32_write cfg S env _ _ v d h) (by simp) (by simp)
theorem writes_i64 (dflt : Val) (part : Methods τ) : Writes S env (implMethods cfg (outputDevice S) .i64 dflt part) .i64 where
  fieldType := ft_i64 ..
  write v d h := i64_write cfg S env _ _ v d h
  writeField v id last d h := Writes.trait cfg S env .i64 .i64 _ part v id last d (ft_i64 ..) (fun d => i64_write cfg S env _ _ v d h) (by simp) (by simp)
theorem writes_f64 (dflt : Val) (part : Methods τ) : Writes S env (implMethods cfg (outputDevice S) .f64 dflt part) .double where
  fieldType := ft_f64 ..
  write v d h := f64_write cfg S env _ _ v d h
  writeField v id last d h := Writes.trait cfg S env .f64 .double _ part v id last d (ft_f64 ..) (fun d => f64_write cfg S env _ _ v d h) (by simp) (by simp)
theorem writes_vecU8 (dflt : Val) (part : Methods τ) : Writes S env (implMethods cfg (outputDevice S) .vecU8 dflt part) .binary where
  fieldType := ft_vecU8 ..
  write v d h := vecU8_write cfg S env _ _ v d h
  writeField v id last d h := Writes.trait cfg S env .vecU8 .binary _ part v id last d (ft_vecU8 ..) (fun d => vecU8_write cfg S env _ _ v d h) (by simp) (by simp)
theorem writes_string (dflt : Val) (part : Methods τ) : Writes S env (implMethods cfg (outputDevice S) .string dflt part) .string where
  fieldType := ft_string ..
  write v d h := string_write cfg S env _ _ v d h
  writeField v id last d h := Writes.trait cfg S env .string .string _ part v id last d (ft_string ..) (fun d => string_write cfg S env _ _ v d h) (by simp) (by simp)
theorem writes_cowBytes (dflt : Val) (part : Methods τ) : Writes S env (implMethods cfg (outputDevice S) .cowBytes dflt part) .binary where
  fieldType := ft_cowBytes ..
  write v d h := cowBytes_write cfg S env _ _ v d h
  writeField v id last d h := Writes.trait cfg S env .cowBytes .binary _ part v id last d (ft_cowBytes ..) (fun d => cowBytes_write cfg S env _ _ v d h) (by simp) (by simp)
theorem writes_cowStr (dflt : Val) (part : Methods τ) : Writes S env (implMethods cfg (outputDevice S) .cowStr dflt part) .string where
  fieldType := ft_cowStr ..
  write v d h := cowStr_write cfg S env _ _ v d h
  writeField v id last d h := Writes.trait cfg S env .cowStr .string _ part v id last d (ft_cowStr ..) (fun d => cowStr_write cfg S env _ _ v d h) (by simp) (by simp)
theorem writes_boxStr (dflt : Val) (part : Methods τ) : Writes S env (implMethods cfg (outputDevice S) .boxStr dflt part) .string where
  fieldType := ft_boxStr ..
  write v d h := boxStr_write cfg S env _ _ v d h
  writeField v id last d h := Writes.trait cfg S env .boxStr .string _ part v id last d (ft_boxStr ..) (fun d => boxStr_write cfg S env _ _ v d h) (by simp) (by simp)
theorem writes_rcStr (dflt : Val) (part : Methods τ) : Writes S env (implMethods cfg (outputDevice S) .rcStr dflt part) .string where
  fieldType := ft_rcStr ..
  write v d h := rcStr_write cfg S env _ _ v d h
  writeField v id last d h := Writes.trait cfg S env .rcStr .string _ part v id last d (ft_rcStr ..) (fun d => rcStr_write cfg S env _ _ v d h) (by simp) (by simp)
theorem writes_arcStr (dflt : Val) (part : Methods τ) : Writes S env (implMethods cfg (outputDevice S) .arcStr dflt part) .string where
  fieldType := ft_arcStr ..
  write v d h := arcStr_write cfg S env _ _ v d h
  writeField v id last d h := Writes.trait cfg S env .arcStr .string _ part v id last d (ft_arcStr ..) (fun d => arcStr_write cfg S env _ _ v d h) (by simp) (by simp)
theorem writes_encodingSet (dflt : Val) (part : Methods τ) : Writes S env (implMethods cfg (outputDevice S) .encodingSet dflt part) .encodingSet where
  fieldType := ft_encodingSet ..
  write v d h := encodingSet_write cfg S env _ _ v d h
  writeField v id last d h := Writes.trait cfg S env .encodingSet .encodingSet _ part v id last d (ft_encodingSet ..) (fun d => encodingSet_write cfg S env _ _ v d h) (by simp) (by simp)
end

section
variable {τ : Type} {cfg : Cfg} {S : Sink τ} {env : List Def} {t : RTy} {part : Methods τ} (h : Writes S env part t.erase)
include h

theorem writeAll_eq (vs : List Val) (hv : ∀ v ∈ vs, HasTy env v t.erase) : writeAll part.write vs = writeElems S env t.erase vs := by
  induction vs with
  | nil => rw [writeElems]; rfl
  | cons v vs ih =>
    rw [writeElems, writeAll, ih (fun v hm => hv v (.tail _ hm)), show part.write v = writeTy S env t.erase v from funext fun d => h.write v d (hv v (.head _))]

theorem vec_write (own : Methods τ) (v : Val) (d : τ) (hv : HasTy env v (.list t.erase)) :
    asWrite d (fun _ => some ()) (runT ⟨cfg, outputDevice S, .vec t, own, part⟩ ty_vec_write_thrift [.place none, .self] v d) = writeTy S env (.list t.erase) v d := by
  cases hv with
  | list t vs hv => rw [write_vec, writeTy, writeAll_eq h vs hv, h.fieldType]
theorem option_write (own : Methods τ) (v : Val) (d : τ) (hv : HasTy env v (.option t.erase)) :
    asWrite d (fun _ => some ()) (runT ⟨cfg, outputDevice S, .option t, own, part⟩ ty_option_write_thrift [.place none, .self] v d) = writeTy S env (.option t.erase) v d := by
  cases hv with
  | none => rw [write_option_none, writeTy]; rfl
  | some t u hu => rw [write_option_some, writeTy]; exact h.write u d hu
theorem option_writeField (own : Methods τ) (v : Val) (id last : BitVec 16) (d : τ) (hv : HasTy env v (.option t.erase)) :
    asWrite d lastId (runT ⟨cfg, outputDevice S, .option t, own, part⟩ ty_option_write_thrift_field [.place none, .self, .i16 id, .ref (.i16 last)] v d) =
      CT.writeField S env (.option t.erase) v id last d := by
  cases hv with
  | none => rw [writeField_option_none, CT.writeField]; rfl
  | some t u hu => rw [writeField_option_some, CT.writeField]; exact h.writeField u id last d hu
theorem box_write (own : Methods τ) (v : Val) (d : τ) (hv : HasTy env v (.box t.erase)) :
    asWrite d (fun _ => some ()) (runT ⟨cfg, outputDevice S, .box t, own, part⟩ ty_box_write_thrift [.place none, .self] v d) = writeTy S env (.box t.erase) v d := by
  cases hv with
  | box t u hu => rw [write_box, writeTy]; exact h.write u d hu
theorem rc_write (own : Methods τ) (v : Val) (d : τ) (hv : HasTy env v (.rc t.erase)) :
    asWrite d (fun _ => some ()) (runT ⟨cfg, outputDevice S, .rc t, own, part⟩ ty_rc_write_thrift [.place none, .self] v d) = writeTy S env (.rc t.erase) v d := by
  cases hv with
  | rc t b u hu => rw [write_rc, writeTy]; exact h.write u d hu
theorem arc_write (own : Methods τ) (v : Val) (d : τ) (hv : HasTy env v (.rc t.erase)) :
    asWrite d (fun _ => some ()) (runT ⟨cfg, outputDevice S, .arc t, own, part⟩ ty_arc_write_thrift [.place none, .self] v d) = writeTy S env (.rc t.erase) v d := by
  cases hv with
  | rc t b u hu => rw [write_arc, writeTy]; exact h.write u d hu

theorem writes_vec (dflt : Val) : Writes S env (implMethods cfg (outputDevice S) (.vec t) dflt part) (.list t.erase) where
  fieldType := ft_vec ..
  write v d hv := vec_write h _ v d hv
  writeField v id last d hv := Writes.trait cfg S env (.vec t) (.list t.erase) _ part v id last d (ft_vec ..) (fun d => vec_write h _ v d hv) (by simp) (by simp)
theorem writes_option (dflt : Val) : Writes S env (implMethods cfg (outputDevice S) (.option t) dflt part) (.option t.erase) where
  fieldType := (ft_option ..).trans h.fieldType
  write v d hv := option_write h _ v d hv
  writeField v id last d hv := option_writeField h _ v id last d hv
theorem writes_box (dflt : Val) : Writes S env (implMethods cfg (outputDevice S) (.box t) dflt part) (.box t.erase) where
  fieldType := (ft_box ..).trans h.fieldType
  write v d hv := box_write h _ v d hv
  writeField v id last d hv := Writes.trait cfg S env (.box t) (.box t.erase) _ part v id last d ((ft_box ..).trans h.fieldType) (fun d => box_write h _ v d hv) (by simp) (by simp)
theorem writes_rc (dflt : Val) : Writes S env (implMethods cfg (outputDevice S) (.rc t) dflt part) (.rc t.erase) where
  fieldType := (ft_rc ..).trans h.fieldType
  write v d hv := rc_write h _ v d hv
  writeField v id last d hv := Writes.trait cfg S env (.rc t) (.rc t.erase) _ part v id last d ((ft_rc ..).trans h.fieldType) (fun d => rc_write h _ v d hv) (by simp) (by simp)
theorem writes_arc (dflt : Val) : Writes S env (implMethods cfg (outputDevice S) (.arc t) dflt part) (.rc t.erase) where
  fieldType := (ft_arc ..).trans h.fieldType
  write v d hv := arc_write h _ v d hv
  writeField v id last d hv := Writes.trait cfg S env (.arc t) (.rc t.erase) _ part v id last d ((ft_arc ..).trans h.fieldType) (fun d => arc_write h _ v d hv) (by simp) (by simp)

end

section
variable {τ : Type} (cfg : Cfg) (S : Sink τ) (env : List Def)

theorem writes_named (k : Nat) (dflt : Val) (fill : Val → Fl τ Val) (write : Val → Wr τ Unit)
    (hw : ∀ v, HasTy env v (.named k) → write v = writeTy S env (.named k) v) :
    Writes S env (defMethods cfg (outputDevice S) k (fieldType env (.named k)) dflt fill write) (.named k) where
  fieldType := rfl
  write v d h := congrFun (hw v h) d
  writeField v id last d h := Writes.trait cfg S env (.named k) (.named k) _ _ v id last d rfl (fun d => congrFun (hw v h) d) (by simp) (by simp)

/-- For every type. -/
theorem writes_type (dflt : RTy → Val) (dfltOf : Nat → Val) (fill : Nat → Val → Fl τ Val) (write : Nat → Val → Wr τ Unit)
    (hw : ∀ k v, HasTy env v (.named k) → write k v = writeTy S env (.named k) v) (t : RTy) :
    Writes S env (typeMethods cfg (outputDevice S) dflt
      (fun k => defMethods cfg (outputDevice S) k (fieldType env (.named k)) (dfltOf k) (fill k) (write k)) t) t.erase := by
  induction t with
  | bool => exact writes_bool cfg S env _ _
  | i8 => exact writes_i8 cfg S env _ _
  | i16 => exact writes_i16 cfg S env _ _
  | i32 => exact writes_i32 cfg S env _ _
  | i64 => exact writes_i64 cfg S env _ _
  | f64 => exact writes_f64 cfg S env _ _
  | vecU8 => exact writes_vecU8 cfg S env _ _
  | string => exact writes_string cfg S env _ _
  | cowBytes => exact writes_cowBytes cfg S env _ _
  | cowStr => exact writes_cowStr cfg S env _ _
  | boxStr => exact writes_boxStr cfg S env _ _
  | rcStr => exact writes_rcStr cfg S env _ _
  | arcStr => exact writes_arcStr cfg S env _ _
  | encodingSet => exact writes_encodingSet cfg S env _ _
  | vec t ih => exact writes_vec ih _
  | option t ih => exact writes_option ih _
  | box t ih => exact writes_box ih _
  | rc t ih => exact writes_rc ih _
  | arc t ih => exact writes_arc ih _
  | named k => exact writes_named cfg S env k _ _ _ (hw k)

end
end CT.Rs
