import Verif.Proofs.TypesFill
/-!
# The methods that read, obtained by running the code, are those of the model
-/
namespace CT.Rs
open CT

section
variable {δ : Type} (cfg : Cfg) (D : Api δ) (own part : Methods δ) (v : Val) (d : Option δ)

theorem ft_bool : implFieldType ⟨cfg, D, .bool, own, part⟩ v d = 2#8 := (rfl)
theorem ft_i8 : implFieldType ⟨cfg, D, .i8, own, part⟩ v d = 3#8 := (rfl)
theorem ft_i16 : implFieldType ⟨cfg, D, .i16, own, part⟩ v d = 4#8 := (rfl)
theorem ft_i32 : implFieldType ⟨cfg, D, .i32, own, part⟩ v d = 5#8 := (rfl)
theorem ft_i64 : implFieldType ⟨cfg, D, .i64, own, part⟩ v d = 6#8 := (rfl)
theorem ft_f64 : implFieldType ⟨cfg, D, .f64, own, part⟩ v d = 7#8 := (rfl)
theorem ft_vecU8 : implFieldType ⟨cfg, D, .vecU8, own, part⟩ v d = 8#8 := (rfl)
theorem ft_string : implFieldType ⟨cfg, D, .string, own, part⟩ v d = 8#8 := (rfl)
theorem ft_cowBytes : implFieldType ⟨cfg, D, .cowBytes, own, part⟩ v d = 8#8 := (rfl)
theorem ft_cowStr : implFieldType ⟨cfg, D, .cowStr, own, part⟩ v d = 8#8 := (rfl)
theorem ft_boxStr : implFieldType ⟨cfg, D, .boxStr, own, part⟩ v d = 8#8 := (rfl)
theorem ft_rcStr : implFieldType ⟨cfg, D, .rcStr, own, part⟩ v d = 8#8 := (rfl)
theorem ft_arcStr : implFieldType ⟨cfg, D, .arcStr, own, part⟩ v d = 8#8 := (rfl)
theorem ft_encodingSet : implFieldType ⟨cfg, D, .encodingSet, own, part⟩ v d = 9#8 := (rfl)
theorem ft_vec (t : RTy) : implFieldType ⟨cfg, D, .vec t, own, part⟩ v d = 9#8 := (rfl)
theorem ft_option (t : RTy) : implFieldType ⟨cfg, D, .option t, own, part⟩ v d = part.fieldType := (rfl)
theorem ft_box (t : RTy) : implFieldType ⟨cfg, D, .box t, own, part⟩ v d = part.fieldType := (rfl)
theorem ft_rc (t : RTy) : implFieldType ⟨cfg, D, .rc t, own, part⟩ v d = part.fieldType := (rfl)
theorem ft_arc (t : RTy) : implFieldType ⟨cfg, D, .arc t, own, part⟩ v d = part.fieldType := (rfl)
end

attribute [local irreducible] evalT

section
variable {σ : Type} (cfg : Cfg) (I : Input σ) (owned : σ → Bool) (env : List Def) (fn : Nat → Val → Fl σ Val)

/-- The methods read what the model reads. -/
structure Reads (M : Methods σ) (t : Ty) : Prop where
  fieldType : M.fieldType = fieldType env t
  dflt : M.dflt = dflt env t
  fill : ∀ v d, M.fill v d = fillTyP cfg I env fn t v d
  fillField : ∀ v ft d, M.fillField v ft d = fillFieldP cfg I env fn t v ft d

/-- What the trait provides, with the field type and the function of the `impl`. -/
theorem Reads.trait (ty : RTy) (t : Ty) (own part : Methods σ) (v : Val) (ft : Byte) (d : σ) (hft : own.fieldType = CT.fieldType env t)
    (hfill : ∀ v d, own.fill v d = fillTyP cfg I env fn t v d)
    (ht : ∀ v ft, fillFieldP cfg I env fn t v ft = if ft ≠ CT.fieldType env t then Fl.keep v (Rd.throw .invalidType) else fillTyP cfg I env fn t v) :
    asFill (runT ⟨cfg, inputDevice cfg I owned, ty, own, part⟩ fn_Protocol_fill_thrift_field [.place none, .self, .u8 ft] v d) =
      fillFieldP cfg I env fn t v ft d := by
  rw [fillField_trait, ht, hft]
  split
  · rfl
  · exact hfill v d

theorem reads_bool (part : Methods σ) : Reads cfg I env fn (implMethods cfg (inputDevice cfg I owned) .bool (dflt env .bool) part) .bool where
  fieldType := ft_bool ..
  dflt := rfl
  fill _ _ := fill_bool ..
  fillField _ _ _ := fillField_bool ..
theorem reads_i8 (part : Methods σ) : Reads cfg I env fn (implMethods cfg (inputDevice cfg I owned) .i8 (dflt env .i8) part) .i8 where
  fieldType := ft_i8 ..
  dflt := rfl
  fill _ _ := fill_i8 ..
  fillField v ft d := Reads.trait cfg I owned env fn .i8 .i8 _ part v ft d (ft_i8 ..) (fun _ _ => fill_i8 ..) (fun _ _ => rfl)
theorem reads_i16 (part : Methods σ) : Reads cfg I env fn (implMethods cfg (inputDevice cfg I owned) .i16 (dflt env .i16) part) .i16 where
  fieldType := ft_i16 ..
  dflt := rfl
  fill _ _ := fill_i16 ..
  fillField v ft d := Reads.trait cfg I owned env fn .i16 .i16 _ part v ft d (ft_i16 ..) (fun _ _ => fill_i16 ..) (fun _ _ => rfl)
theorem reads_i32 (part : Methods σ) : Reads cfg I env fn (implMethods cfg (inputDevice cfg I owned) .i32 (dflt env .i32) part) .i32 where
  fieldType := ft_i32 ..
  dflt := rfl
  fill _ _ := fill_i32 ..
  fillField v ft d := Reads.trait cfg I owned env fn .i32 .i32 _ part v ft d (ft_i32 ..) (fun _ _ => fill_i32 ..) (fun _ _ => rfl)
theorem reads_i64 (part : Methods σ) : Reads cfg I env fn (implMethods cfg (inputDevice cfg I owned) .i64 (dflt env .i64) part) .i64 where
  fieldType := ft_i64 ..
  dflt := rfl
  fill _ _ := fill_i64 ..
  fillField v ft d := Reads.trait cfg I owned env fn .i64 .i64 _ part v ft d (ft_i64 ..) (fun _ _ => fill_i64 ..) (fun _ _ => rfl)
theorem reads_f64 (part : Methods σ) : Reads cfg I env fn (implMethods cfg (inputDevice cfg I owned) .f64 (dflt env .double) part) .double where
  fieldType := ft_f64 ..
  dflt := rfl
  fill _ _ := fill_f64 ..
  fillField v ft d := Reads.trait cfg I owned env fn .f64 .double _ part v ft d (ft_f64 ..) (fun _ _ => fill_f64 ..) (fun _ _ => rfl)
theorem reads_vecU8 (part : Methods σ) : Reads cfg I env fn (implMethods cfg (inputDevice cfg I owned) .vecU8 (dflt env .binary) part) .binary where
  fieldType := ft_vecU8 ..
  dflt := rfl
  fill _ _ := fill_vecU8 ..
  fillField v ft d := Reads.trait cfg I owned env fn .vecU8 .binary _ part v ft d (ft_vecU8 ..) (fun _ _ => fill_vecU8 ..) (fun _ _ => rfl)
theorem reads_string (part : Methods σ) : Reads cfg I env fn (implMethods cfg (inputDevice cfg I owned) .string (dflt env .string) part) .string where
  fieldType := ft_string ..
  dflt := rfl
  fill _ _ := fill_string ..
  fillField v ft d := Reads.trait cfg I owned env fn .string .string _ part v ft d (ft_string ..) (fun _ _ => fill_string ..) (fun _ _ => rfl)
theorem reads_cowBytes (part : Methods σ) : Reads cfg I env fn (implMethods cfg (inputDevice cfg I owned) .cowBytes (dflt env .binary) part) .binary where
  fieldType := ft_cowBytes ..
  dflt := rfl
  fill _ _ := fill_cowBytes ..
  fillField v ft d := Reads.trait cfg I owned env fn .cowBytes .binary _ part v ft d (ft_cowBytes ..) (fun _ _ => fill_cowBytes ..) (fun _ _ => rfl)
theorem reads_cowStr (part : Methods σ) : Reads cfg I env fn (implMethods cfg (inputDevice cfg I owned) .cowStr (dflt env .string) part) .string where
  fieldType := ft_cowStr ..
  dflt := rfl
  fill _ _ := fill_cowStr ..
  fillField v ft d := Reads.trait cfg I owned env fn .cowStr .string _ part v ft d (ft_cowStr ..) (fun _ _ => fill_cowStr ..) (fun _ _ => rfl)
theorem reads_boxStr (part : Methods σ) : Reads cfg I env fn (implMethods cfg (inputDevice cfg I owned) .boxStr (dflt env .string) part) .string where
  fieldType := ft_boxStr ..
  dflt := rfl
  fill _ _ := fill_boxStr ..
  fillField v ft d := Reads.trait cfg I owned env fn .boxStr .string _ part v ft d (ft_boxStr ..) (fun _ _ => fill_boxStr ..) (fun _ _ => rfl)
theorem reads_rcStr (part : Methods σ) : Reads cfg I env fn (implMethods cfg (inputDevice cfg I owned) .rcStr (dflt env .string) part) .string where
  fieldType := ft_rcStr ..
  dflt := rfl
  fill _ _ := fill_rcStr ..
  fillField v ft d := Reads.trait cfg I owned env fn .rcStr .string _ part v ft d (ft_rcStr ..) (fun _ _ => fill_rcStr ..) (fun _ _ => rfl)
theorem reads_arcStr (part : Methods σ) : Reads cfg I env fn (implMethods cfg (inputDevice cfg I owned) .arcStr (dflt env .string) part) .string where
  fieldType := ft_arcStr ..
  dflt := rfl
  fill _ _ := fill_arcStr ..
  fillField v ft d := Reads.trait cfg I owned env fn .arcStr .string _ part v ft d (ft_arcStr ..) (fun _ _ => fill_arcStr ..) (fun _ _ => rfl)
theorem reads_encodingSet (part : Methods σ) : Reads cfg I env fn (implMethods cfg (inputDevice cfg I owned) .encodingSet (dflt env .encodingSet) part) .encodingSet where
  fieldType := ft_encodingSet ..
  dflt := rfl
  fill _ _ := fill_encodingSet ..
  fillField v ft d := Reads.trait cfg I owned env fn .encodingSet .encodingSet _ part v ft d (ft_encodingSet ..) (fun _ _ => fill_encodingSet ..) (fun _ _ => rfl)

section
variable {cfg I env fn} {t : RTy} {part : Methods σ} (h : Reads cfg I env fn part t.erase)
include h

theorem vec_fill (own : Methods σ) (v : Val) (d : σ) : asFill (runT ⟨cfg, inputDevice cfg I owned, .vec t, own, part⟩ ty_vec_fill_thrift [.place none, .self] v d) =
    fillTyP cfg I env fn (.list t.erase) v d := by
  rw [fill_vec]
  simp only [fillVec, fillTyP, h.fieldType, h.dflt, CT.fieldType]
  rw [show part.fill (CT.dflt env t.erase) = fillTyP cfg I env fn t.erase (CT.dflt env t.erase) from funext (h.fill _)]
  rfl
theorem option_fill (own : Methods σ) (v : Val) (d : σ) :
    asFill (runT ⟨cfg, inputDevice cfg I owned, .option t, own, part⟩ ty_option_fill_thrift [.place none, .self] v d) = fillTyP cfg I env fn (.option t.erase) v d := by
  cases v
  case some u => rw [fill_option_some]; rfl
  case none =>
    rw [fill_option_none, h.dflt]
    rw [show part.fill (CT.dflt env t.erase) = fillTyP cfg I env fn t.erase (CT.dflt env t.erase) from funext (h.fill _)]
    rfl
  all_goals (simp only [runT, runFn, ty_option_fill_thrift]; rt_simp []; rfl)
theorem option_fillField (own : Methods σ) (v : Val) (ft : Byte) (d : σ) :
    asFill (runT ⟨cfg, inputDevice cfg I owned, .option t, own, part⟩ ty_option_fill_thrift_field [.place none, .self, .u8 ft] v d) =
      fillFieldP cfg I env fn (.option t.erase) v ft d := by
  cases v
  case some u => rw [fillField_option_some]; rfl
  case none =>
    rw [fillField_option_none, h.dflt]
    rw [show part.fillField (CT.dflt env t.erase) ft = fillFieldP cfg I env fn t.erase (CT.dflt env t.erase) ft from funext (h.fillField _ _)]
    rfl
  all_goals (simp only [runT, runFn, ty_option_fill_thrift_field]; rt_simp []; rfl)
theorem box_fill (own : Methods σ) (v : Val) (d : σ) :
    asFill (runT ⟨cfg, inputDevice cfg I owned, .box t, own, part⟩ ty_box_fill_thrift [.place none, .self] v d) = fillTyP cfg I env fn (.box t.erase) v d := by
  cases v
  case box u =>
    rw [fill_box, show part.fill u = fillTyP cfg I env fn t.erase u from funext (h.fill _)]
    rfl
  all_goals (simp only [runT, runFn, ty_box_fill_thrift]; rt_simp []; rfl)
theorem rc_fill (own : Methods σ) (v : Val) (d : σ) :
    asFill (runT ⟨cfg, inputDevice cfg I owned, .rc t, own, part⟩ ty_rc_fill_thrift [.place none, .self] v d) = fillTyP cfg I env fn (.rc t.erase) v d := by
  cases v
  case rc b u =>
    rw [fill_rc, show part.fill u = fillTyP cfg I env fn t.erase u from funext (h.fill _)]
    cases b <;> rfl
  all_goals (simp only [runT, runFn, ty_rc_fill_thrift]; rt_simp []; rfl)
theorem arc_fill (own : Methods σ) (v : Val) (d : σ) :
    asFill (runT ⟨cfg, inputDevice cfg I owned, .arc t, own, part⟩ ty_arc_fill_thrift [.place none, .self] v d) = fillTyP cfg I env fn (.rc t.erase) v d := by
  cases v
  case rc b u =>
    rw [fill_arc, show part.fill u = fillTyP cfg I env fn t.erase u from funext (h.fill _)]
    cases b <;> rfl
  all_goals (simp only [runT, runFn, ty_arc_fill_thrift]; rt_simp []; rfl)

theorem reads_vec : Reads cfg I env fn (implMethods cfg (inputDevice cfg I owned) (.vec t) (dflt env (.list t.erase)) part) (.list t.erase) where
  fieldType := ft_vec ..
  dflt := rfl
  fill v d := vec_fill owned h _ v d
  fillField v ft d := Reads.trait cfg I owned env fn (.vec t) (.list t.erase) _ part v ft d (ft_vec ..) (fun v d => vec_fill owned h _ v d) (fun _ _ => rfl)
theorem reads_option : Reads cfg I env fn (implMethods cfg (inputDevice cfg I owned) (.option t) (dflt env (.option t.erase)) part) (.option t.erase) where
  fieldType := (ft_option ..).trans h.fieldType
  dflt := rfl
  fill v d := option_fill owned h _ v d
  fillField v ft d := option_fillField owned h _ v ft d
theorem reads_box : Reads cfg I env fn (implMethods cfg (inputDevice cfg I owned) (.box t) (dflt env (.box t.erase)) part) (.box t.erase) where
  fieldType := (ft_box ..).trans h.fieldType
  dflt := rfl
  fill v d := box_fill owned h _ v d
  fillField v ft d := Reads.trait cfg I owned env fn (.box t) (.box t.erase) _ part v ft d ((ft_box ..).trans h.fieldType) (fun v d => box_fill owned h _ v d) (fun _ _ => rfl)
theorem reads_rc : Reads cfg I env fn (implMethods cfg (inputDevice cfg I owned) (.rc t) (dflt env (.rc t.erase)) part) (.rc t.erase) where
  fieldType := (ft_rc ..).trans h.fieldType
  dflt := rfl
  fill v d := rc_fill owned h _ v d
  fillField v ft d := Reads.trait cfg I owned env fn (.rc t) (.rc t.erase) _ part v ft d ((ft_rc ..).trans h.fieldType) (fun v d => rc_fill owned h _ v d) (fun _ _ => rfl)
theorem reads_arc : Reads cfg I env fn (implMethods cfg (inputDevice cfg I owned) (.arc t) (dflt env (.rc t.erase)) part) (.rc t.erase) where
  fieldType := (ft_arc ..).trans h.fieldType
  dflt := rfl
  fill v d := arc_fill owned h _ v d
  fillField v ft d := Reads.trait cfg I owned env fn (.arc t) (.rc t.erase) _ part v ft d ((ft_arc ..).trans h.fieldType) (fun v d => arc_fill owned h _ v d) (fun _ _ => rfl)

end

theorem reads_named (k : Nat) (write : Val → Wr σ Unit) :
    Reads cfg I env fn (defMethods cfg (inputDevice cfg I owned) k (fieldType env (.named k)) (dflt env (.named k)) (fn k) write) (.named k) where
  fieldType := rfl
  dflt := rfl
  fill _ _ := rfl
  fillField v ft d := Reads.trait cfg I owned env fn (.named k) (.named k) _ _ v ft d rfl (fun _ _ => rfl) (fun _ _ => rfl)

/-- For every type. -/
theorem reads_type (write : Nat → Val → Wr σ Unit) (t : RTy) :
    Reads cfg I env fn (typeMethods cfg (inputDevice cfg I owned) (fun t => dflt env t.erase)
      (fun k => defMethods cfg (inputDevice cfg I owned) k (fieldType env (.named k)) (dflt env (.named k)) (fn k) (write k)) t) t.erase := by
  induction t with
  | bool => exact reads_bool cfg I owned env fn _
  | i8 => exact reads_i8 cfg I owned env fn _
  | i16 => exact reads_i16 cfg I owned env fn _
  | i32 => exact reads_i32 cfg I owned env fn _
  | i64 => exact reads_i64 cfg I owned env fn _
  | f64 => exact reads_f64 cfg I owned env fn _
  | vecU8 => exact reads_vecU8 cfg I owned env fn _
  | string => exact reads_string cfg I owned env fn _
  | cowBytes => exact reads_cowBytes cfg I owned env fn _
  | cowStr => exact reads_cowStr cfg I owned env fn _
  | boxStr => exact reads_boxStr cfg I owned env fn _
  | rcStr => exact reads_rcStr cfg I owned env fn _
  | arcStr => exact reads_arcStr cfg I owned env fn _
  | encodingSet => exact reads_encodingSet cfg I owned env fn _
  | vec t ih => exact reads_vec owned ih
  | option t ih => exact reads_option owned ih
  | box t ih => exact reads_box owned ih
  | rc t ih => exact reads_rc owned ih
  | arc t ih => exact reads_arc owned ih
  | named k => exact reads_named cfg I owned env fn k _

end
end CT.Rs
