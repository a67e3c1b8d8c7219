import Verif.Proofs.TypesRun
/-!
# The code of types.rs and encodings.rs that reads, run
-/
namespace CT.Rs
open CT

attribute [local irreducible] evalT

/-- Evaluates as far as possible. -/
macro "rt_simp" "[" ls:Lean.Parser.Tactic.simpLemma,* "]" : tactic =>
  `(tactic| simp only [rs, reduceIte, Nat.reduceEqDiff, Nat.reduceAdd, $ls,*])

/-- A function whose only effect is one read. -/
macro "rt_read" r:term "," f:ident "," e:ident : tactic => `(tactic| (
  simp only [fillTy, Fl.keep, bind, Rd.bind, pure, Rd.pure, runT, runFn, $f:ident]
  generalize $r = r at *
  generalize inputDevice _ _ _ = D at *
  rcases r with f | ⟨b, d'⟩
  · cases f <;> (rt_simp [$e:ident]; rfl)
  · rt_simp [$e:ident]; rfl))

section
variable {σ : Type} (cfg : Cfg) (I : Input σ) (owned : σ → Bool) (env : List Def) (fn : Nat → Val → Rd σ Val) (own part : Methods σ) (v : Val) (d : σ)

theorem dev_readByte : (inputDevice cfg I owned).method (n! "read_byte") [] d = answerR .u8 [] (I.readByte d) := rfl
theorem dev_readI16 : (inputDevice cfg I owned).method (n! "read_i16") [] d = answerR .i16 [] (I.readI16 cfg d) := rfl
theorem dev_readI32 : (inputDevice cfg I owned).method (n! "read_i32") [] d = answerR .i32 [] (I.readI32 cfg d) := rfl
theorem dev_readI64 : (inputDevice cfg I owned).method (n! "read_i64") [] d = answerR .i64 [] (I.readI64 cfg d) := rfl
theorem dev_readDouble : (inputDevice cfg I owned).method (n! "read_double") [] d = answerR .f64 [] (I.readDouble d) := rfl
theorem dev_readBinary : (inputDevice cfg I owned).method (n! "read_binary") [] d = answerR (.cow (owned d)) [] (I.readBinary d) := rfl
theorem dev_readString : (inputDevice cfg I owned).method (n! "read_string") [] d = answerR (.cow (owned d)) [] (I.readString d) := rfl
theorem dev_collection : (inputDevice cfg I owned).call (n! "read_collection_len_and_type") [.self] d =
    answerR (fun (n, t) => .tuple [.u32 (BitVec.ofNat 32 n), .u8 t]) [.self] (I.readCollectionLenAndType cfg d) := rfl

theorem fill_bool : asFill (runT ⟨cfg, inputDevice cfg I owned, .bool, own, part⟩ ty_bool_fill_thrift [.place none, .self] v d) =
    Fl.keep v (fillTy cfg I env fn .bool v) d := by
  have e := dev_readByte cfg I owned d
  rt_read I.readByte d, ty_bool_fill_thrift, e
theorem fill_i8 : asFill (runT ⟨cfg, inputDevice cfg I owned, .i8, own, part⟩ ty_i8_fill_thrift [.place none, .self] v d) =
    Fl.keep v (fillTy cfg I env fn .i8 v) d := by
  have e := dev_readByte cfg I owned d
  simp only [fillTy, Fl.keep, bind, Rd.bind, pure, Rd.pure, runT, runFn, ty_i8_fill_thrift]
  generalize I.readByte d = r at *
  generalize inputDevice _ _ _ = D at *
  rcases r with f | ⟨b, d'⟩
  · cases f <;> (rt_simp [e]; rfl)
  · rt_simp [e]
    show Except.ok _ = _
    simp
theorem fill_i16 : asFill (runT ⟨cfg, inputDevice cfg I owned, .i16, own, part⟩ ty_i16_fill_thrift [.place none, .self] v d) =
    Fl.keep v (fillTy cfg I env fn .i16 v) d := by
  have e := dev_readI16 cfg I owned d
  rt_read I.readI16 cfg d, ty_i16_fill_thrift, e
theorem fill_i32 : asFill (runT ⟨cfg, inputDevice cfg I owned, .i32, own, part⟩ ty_i32_fill_thrift [.place none, .self] v d) =
    Fl.keep v (fillTy cfg I env fn .i32 v) d := by
  have e := dev_readI32 cfg I owned d
  rt_read I.readI32 cfg d, ty_i32_fill_thrift, e
theorem fill_i64 : asFill (runT ⟨cfg, inputDevice cfg I owned, .i64, own, part⟩ ty_i64_fill_thrift [.place none, .self] v d) =
    Fl.keep v (fillTy cfg I env fn .i64 v) d := by
  have e := dev_readI64 cfg I owned d
  rt_read I.readI64 cfg d, ty_i64_fill_thrift, e
theorem fill_f64 : asFill (runT ⟨cfg, inputDevice cfg I owned, .f64, own, part⟩ ty_f64_fill_thrift [.place none, .self] v d) =
    Fl.keep v (fillTy cfg I env fn .double v) d := by
  have e := dev_readDouble cfg I owned d
  rt_read I.readDouble d, ty_f64_fill_thrift, e
theorem fill_vecU8 : asFill (runT ⟨cfg, inputDevice cfg I owned, .vecU8, own, part⟩ ty_vecU8_fill_thrift [.place none, .self] v d) =
    Fl.keep v (fillTy cfg I env fn .binary v) d := by
  have e := dev_readBinary cfg I owned d
  rt_read I.readBinary d, ty_vecU8_fill_thrift, e
theorem fill_cowBytes : asFill (runT ⟨cfg, inputDevice cfg I owned, .cowBytes, own, part⟩ ty_cowBytes_fill_thrift [.place none, .self] v d) =
    Fl.keep v (fillTy cfg I env fn .binary v) d := by
  have e := dev_readBinary cfg I owned d
  rt_read I.readBinary d, ty_cowBytes_fill_thrift, e
theorem fill_string : asFill (runT ⟨cfg, inputDevice cfg I owned, .string, own, part⟩ ty_string_fill_thrift [.place none, .self] v d) =
    Fl.keep v (fillTy cfg I env fn .string v) d := by
  have e := dev_readString cfg I owned d
  rt_read I.readString d, ty_string_fill_thrift, e
theorem fill_cowStr : asFill (runT ⟨cfg, inputDevice cfg I owned, .cowStr, own, part⟩ ty_cowStr_fill_thrift [.place none, .self] v d) =
    Fl.keep v (fillTy cfg I env fn .string v) d := by
  have e := dev_readString cfg I owned d
  rt_read I.readString d, ty_cowStr_fill_thrift, e
theorem fill_boxStr : asFill (runT ⟨cfg, inputDevice cfg I owned, .boxStr, own, part⟩ ty_boxStr_fill_thrift [.place none, .self] v d) =
    Fl.keep v (fillTy cfg I env fn .string v) d := by
  have e := dev_readString cfg I owned d
  rt_read I.readString d, ty_boxStr_fill_thrift, e
theorem fill_rcStr : asFill (runT ⟨cfg, inputDevice cfg I owned, .rcStr, own, part⟩ ty_rcStr_fill_thrift [.place none, .self] v d) =
    Fl.keep v (fillTy cfg I env fn .string v) d := by
  have e := dev_readString cfg I owned d
  generalize owned d = o at *
  cases o <;> rt_read I.readString d, ty_rcStr_fill_thrift, e
theorem fill_arcStr : asFill (runT ⟨cfg, inputDevice cfg I owned, .arcStr, own, part⟩ ty_arcStr_fill_thrift [.place none, .self] v d) =
    Fl.keep v (fillTy cfg I env fn .string v) d := by
  have e := dev_readString cfg I owned d
  generalize owned d = o at *
  cases o <;> rt_read I.readString d, ty_arcStr_fill_thrift, e

end

/-! ## `Option`, `Box`, `Rc`, `Arc` -/

section
variable {σ : Type} (cfg : Cfg) (D : Api σ) (t : RTy) (own part : Methods σ) (ev : Expr → Frame → Mem σ → Out (Mem σ)) (e : Expr) (es : List Expr) (fr : Frame)

@[rs] theorem evSelfT_is_some (u : Val) (d : Option σ) :
    evSelfT ⟨cfg, D, .option t, own, part⟩ ev e (n! "is_some") es [] fr ⟨.some u, d⟩ = .val (.bool true) fr ⟨.some u, d⟩ := (rfl)
@[rs] theorem evSelfT_is_none (d : Option σ) :
    evSelfT ⟨cfg, D, .option t, own, part⟩ ev e (n! "is_some") es [] fr ⟨.none, d⟩ = .val (.bool false) fr ⟨.none, d⟩ := (rfl)
@[rs] theorem evSelfT_as_mut (u : Val) (d : Option σ) :
    evSelfT ⟨cfg, D, .option t, own, part⟩ ev e (n! "as_mut") es [] fr ⟨.some u, d⟩ = .val (.some (.place (some .some))) fr ⟨.some u, d⟩ := (rfl)
@[rs] theorem stdMethodT_unwrap (v : V) : stdMethodT (n! "unwrap_unchecked") (.some v) [] = .ok v := (rfl)
@[rs] theorem stdMethodT_some_ok_or (v w : V) : stdMethodT (n! "ok_or") (.some v) [w] = .ok (.ok v) := (rfl)
@[rs] theorem stdMethodT_none_ok_or (w : V) : stdMethodT (n! "ok_or") .none [w] = .ok (.err w) := (rfl)
@[rs] theorem evCallT_ptr_write (u w : Val) (d : Option σ) :
    evCallT ⟨cfg, D, .option t, own, part⟩ [n! "std", n! "ptr", n! "write"] es [.place none, .some (.obj u)] fr ⟨w, d⟩ = .val .unit fr ⟨.some u, d⟩ := (rfl)
@[rs] theorem pointerFn_box (u : Val) : pointerFn (.box t) (n! "Box") (n! "as_mut") (.box u) = .ok (.place (some .box)) := (rfl)
@[rs] theorem pointerFn_rc_shared (u : Val) : pointerFn (.rc t) (n! "Rc") (n! "get_mut") (.rc true u) = .ok .none := (rfl)
@[rs] theorem pointerFn_rc (u : Val) : pointerFn (.rc t) (n! "Rc") (n! "get_mut") (.rc false u) = .ok (.some (.place (some .rc))) := (rfl)
@[rs] theorem pointerFn_arc_shared (u : Val) : pointerFn (.arc t) (n! "Arc") (n! "get_mut") (.rc true u) = .ok .none := (rfl)
@[rs] theorem pointerFn_arc (u : Val) : pointerFn (.arc t) (n! "Arc") (n! "get_mut") (.rc false u) = .ok (.some (.place (some .rc))) := (rfl)

variable (d : σ)

theorem fill_option_some (u : Val) : asFill (runT ⟨cfg, D, .option t, own, part⟩ ty_option_fill_thrift [.place none, .self] (.some u) d) =
    .error (.err .duplicateField, .some u) := by
  simp only [runT, runFn, ty_option_fill_thrift]
  rt_simp []; rfl

theorem fill_option_none : asFill (runT ⟨cfg, D, .option t, own, part⟩ ty_option_fill_thrift [.place none, .self] .none d) =
    Fl.into .some (part.fill part.dflt) d := by
  simp only [runT, runFn, ty_option_fill_thrift, Fl.into, Fl.part, bind, Fl.bind, pure, Fl.pure]
  generalize h : part.fill part.dflt d = r at *
  rcases r with ⟨f, w⟩ | ⟨w, d'⟩
  · cases f <;> (rt_simp [h]; rfl)
  · rt_simp [h]; rfl

theorem fillField_option_some (u : Val) (ft : Byte) :
    asFill (runT ⟨cfg, D, .option t, own, part⟩ ty_option_fill_thrift_field [.place none, .self, .u8 ft] (.some u) d) = .error (.err .duplicateField, .some u) := by
  simp only [runT, runFn, ty_option_fill_thrift_field]
  rt_simp []; rfl

theorem fillField_option_none (ft : Byte) :
    asFill (runT ⟨cfg, D, .option t, own, part⟩ ty_option_fill_thrift_field [.place none, .self, .u8 ft] .none d) =
      Fl.into .some (part.fillField part.dflt ft) d := by
  simp only [runT, runFn, ty_option_fill_thrift_field, Fl.into, Fl.part, bind, Fl.bind, pure, Fl.pure]
  generalize h : part.fillField part.dflt ft d = r at *
  rcases r with ⟨f, w⟩ | ⟨w, d'⟩
  · cases f <;> (rt_simp [h]; rfl)
  · rt_simp [h]; rfl

theorem fill_box (u : Val) : asFill (runT ⟨cfg, D, .box t, own, part⟩ ty_box_fill_thrift [.place none, .self] (.box u) d) =
    Fl.into .box (part.fill u) d := by
  simp only [runT, runFn, ty_box_fill_thrift, Fl.into, Fl.part, bind, Fl.bind, pure, Fl.pure]
  generalize h : part.fill u d = r at *
  rcases r with ⟨f, w⟩ | ⟨w, d'⟩
  · cases f <;> (rt_simp [h]; rfl)
  · rt_simp [h]; rfl

theorem fill_rc (b : Bool) (u : Val) : asFill (runT ⟨cfg, D, .rc t, own, part⟩ ty_rc_fill_thrift [.place none, .self] (.rc b u) d) =
    if b then .error (.err .duplicateField, .rc b u) else Fl.into (.rc false) (part.fill u) d := by
  simp only [runT, runFn, ty_rc_fill_thrift, Fl.into, Fl.part, bind, Fl.bind, pure, Fl.pure]
  cases b
  · generalize h : part.fill u d = r at *
    rcases r with ⟨f, w⟩ | ⟨w, d'⟩
    · cases f <;> (rt_simp [h]; rfl)
    · rt_simp [h]; rfl
  · rt_simp []; rfl

theorem fill_arc (b : Bool) (u : Val) : asFill (runT ⟨cfg, D, .arc t, own, part⟩ ty_arc_fill_thrift [.place none, .self] (.rc b u) d) =
    if b then .error (.err .duplicateField, .rc b u) else Fl.into (.rc false) (part.fill u) d := by
  simp only [runT, runFn, ty_arc_fill_thrift, Fl.into, Fl.part, bind, Fl.bind, pure, Fl.pure]
  cases b
  · generalize h : part.fill u d = r at *
    rcases r with ⟨f, w⟩ | ⟨w, d'⟩
    · cases f <;> (rt_simp [h]; rfl)
    · rt_simp [h]; rfl
  · rt_simp []; rfl

end

/-! ## `Vec<P>` -/

section
variable {σ : Type} (cfg : Cfg) (D : Api σ) (t : RTy) (own part : Methods σ) (ev : Expr → Frame → Mem σ → Out (Mem σ)) (e : Expr) (es : List Expr) (fr : Frame)

/-- What `extend` does with an element. -/
def extendT (c : Expr) (n : Nat) (v : V) (fr : Frame) (m : Mem σ) : Out (Mem σ) :=
  match v, m.self with
  | .obj w, .list vs => evExtend ev c n fr ⟨.list (vs ++ [w]), m.dev⟩
  | _, _ => .fail .stuck m

@[rs] theorem evExtend_zero (c : Expr) (m : Mem σ) : evExtend ev c 0 fr m = .val .unit fr m := (rfl)
@[rs] theorem evExtend_succ (c : Expr) (m : Mem σ) : evExtend ev c 1 fr m = (ev c fr m).bind (extendT ev c 0) := (rfl)
@[rs] theorem extendT_obj (c : Expr) (n : Nat) (w : Val) (vs : List Val) (d : Option σ) :
    extendT ev c n (.obj w) fr ⟨.list vs, d⟩ = evExtend ev c n fr ⟨.list (vs ++ [w]), d⟩ := (rfl)
@[rs] theorem evSelfT_clear (w : Val) (d : Option σ) :
    evSelfT ⟨cfg, D, .vec t, own, part⟩ ev e (n! "clear") es [] fr ⟨w, d⟩ = .val .unit fr ⟨.list [], d⟩ := (rfl)
@[rs] theorem evSelfT_extend (n : Nat) (c : Expr) (m : Mem σ) :
    evSelfT ⟨cfg, D, .vec t, own, part⟩ ev e (n! "extend") es [.lazy n c] fr m = evExtend ev c n fr m := (rfl)
@[rs] theorem evSelfT_last_mut (vs : List Val) (u : Val) (d : Option σ) :
    evSelfT ⟨cfg, D, .vec t, own, part⟩ ev e (n! "last_mut") es [] fr ⟨.list (vs ++ [u]), d⟩ =
      .val (.some (.place (some .last))) fr ⟨.list (vs ++ [u]), d⟩ := by
  show Out.of (.ok (if (vs ++ [u]).isEmpty then .none else .some (.place (some .last)))) fr _ = _
  simp [rs]
@[rs] theorem evSelfT_try_reserve (vs : List Val) (n : BitVec 64) (d : Option σ) :
    evSelfT ⟨cfg, D, .vec t, own, part⟩ ev e (n! "try_reserve") es [.usize n] fr ⟨.list vs, d⟩ =
      .val (if cfg.alloc n.toNat then .ok .unit else .err .unit) fr ⟨.list vs, d⟩ := (rfl)
@[rs] theorem evClosure_map (c : Expr) (a b : Nat) (m : Mem σ) :
    evClosure ev (n! "map") c (.range (some (.lit a)) (some (.lit b))) fr m = .val (.lazy (b - a) c) fr m := (rfl)
@[rs] theorem evClosure_map_err_ok (c : Expr) (w : V) (m : Mem σ) : evClosure ev (n! "map_err") c (.ok w) fr m = .val (.ok w) fr m := (rfl)
@[rs] theorem evClosure_map_err_err (c : Expr) (w : V) (m : Mem σ) :
    evClosure ev (n! "map_err") c (.err w) fr m = (ev c fr m).bind fun w fr m => .val (.err w) fr m := (rfl)

/-- The outcome of the statements that fill `*self`. -/
def asOut (fr : Frame) (r : Except (Fail × Val) (Val × σ)) : Out (Mem σ) :=
  match r with
  | .ok (w, d) => .val .unit fr ⟨w, some d⟩
  | .error (.err e, w) => .ret (.err (.thrift e)) fr ⟨w, none⟩
  | .error (f, w) => .fail f ⟨w, none⟩

/-- types.rs:202-210 -/
def vecBody : Expr := .block [.semi (.method (.path [n! "self"]) (n! "extend") [.method (.range (some (.lit 0 none)) (some (.lit 1 none))) (n! "map") [.closure
  (.call [n! "P", n! "default"] [])]]), .block [.semi (.try (.method (.method (.method (.path [n! "self"]) (n! "last_mut") []) (n! "unwrap_unchecked") [])
  (n! "fill_thrift") [.path [n! "input"]]))]]

theorem vecLoop (n : Nat) (len : V) (et : V) (k : Nat) : ∀ (done : List Val) (d : σ),
    evTimes (evalT ⟨cfg, D, .vec t, own, part⟩ (n + 20)) vecBody k
        [[(n! "len", len), (n! "element_type", et)], [(n! "self", .place none), (n! "input", .self)]] ⟨.list done, some d⟩ =
      asOut [[(n! "len", len), (n! "element_type", et)], [(n! "self", .place none), (n! "input", .self)]] (fillElemsP (part.fill part.dflt) k done d) := by
  induction k with
  | zero => intro done d; rfl
  | succ k ih =>
    intro done d
    simp only [evTimes, fillElemsP, bind, Fl.bind, Fl.part]
    generalize h : part.fill part.dflt d = r at *
    rcases r with ⟨f, w⟩ | ⟨w, d'⟩
    · cases f <;> (simp only [vecBody]; rt_simp [h, Nat.sub_zero]; rfl)
    · have hb : evalT ⟨cfg, D, .vec t, own, part⟩ (n + 20) vecBody
          [[(n! "len", len), (n! "element_type", et)], [(n! "self", .place none), (n! "input", .self)]] ⟨.list done, some d⟩ =
          .val .unit [[(n! "len", len), (n! "element_type", et)], [(n! "self", .place none), (n! "input", .self)]] ⟨.list (done ++ [w]), some d'⟩ := by
        simp only [vecBody]; rt_simp [h, Nat.sub_zero]
      rw [hb]
      exact ih _ _

theorem collection_le {I : Input σ} {d d' : σ} {len : Nat} {et : Byte} (h : I.readCollectionLenAndType cfg d = .ok ((len, et), d')) :
    len ≤ MAX_COLLECTION_LEN := by
  simp only [Input.readCollectionLenAndType, bind, Rd.bind] at h
  split at h
  · simp at h
  · split at h
    · simp at h
    · split at h
      · simp [Rd.throw] at h
      · simp only [pure, Rd.pure, Except.ok.injEq, Prod.mk.injEq] at h
        omega

theorem ofNat_len {len : Nat} (h : len ≤ MAX_COLLECTION_LEN) : ((BitVec.ofNat 32 len).setWidth 64).toNat = len := by
  simp only [MAX_COLLECTION_LEN] at h
  simp only [BitVec.toNat_setWidth, BitVec.toNat_ofNat]
  omega

@[rs] theorem evFor_usize (n : Nat) (k : BitVec 64) (b : Expr) (m : Mem σ) (C : Ctx σ) :
    evFor (evalT C n) (.range (some (.lit 0)) (some (.usize k))) b fr m = evTimes (evalT C n) b k.toNat fr m := (rfl)

/-- What types.rs:191-213 does, with the methods of the elements. -/
def fillVec (I : Input σ) (v : Val) : Fl σ Val := do
  let (len, elementType) ← Fl.keep v (I.readCollectionLenAndType cfg)
  if elementType ≠ part.fieldType ∧ ¬ (part.fieldType = 2#8 ∧ elementType = 1#8) then
    Fl.keep v (Rd.throw .invalidType)
  else if ¬ cfg.alloc len then
    Fl.keep (.list []) (Rd.throw .reserveError)
  else
    fillElemsP (part.fill part.dflt) len []

theorem fill_vec (I : Input σ) (owned : σ → Bool) (v : Val) (d : σ) :
    asFill (runT ⟨cfg, inputDevice cfg I owned, .vec t, own, part⟩ ty_vec_fill_thrift [.place none, .self] v d) = fillVec cfg part I v d := by
  have e := dev_collection cfg I owned d
  have hle : ∀ {len et d'}, I.readCollectionLenAndType cfg d = .ok ((len, et), d') → len ≤ MAX_COLLECTION_LEN := collection_le cfg
  simp only [fillVec, Fl.keep, bind, Fl.bind, runT, runFn, ty_vec_fill_thrift]
  generalize I.readCollectionLenAndType cfg d = r at *
  generalize inputDevice _ _ _ = D at *
  rcases r with f | ⟨⟨len, et⟩, d'⟩
  · cases f <;> (rt_simp [e]; rfl)
  · have hl := ofNat_len (hle rfl)
    have loop := vecLoop cfg D t own part 17 (.u32 (BitVec.ofNat 32 len)) (.u8 et) len [] d'
    simp only [Nat.reduceAdd, vecBody] at loop
    have cond : (et ≠ part.fieldType ∧ ¬ (part.fieldType = 2#8 ∧ et = 1#8)) = ((et != part.fieldType && !(part.fieldType == 2#8 && et == 1#8)) = true) := by
      simp only [Bool.and_eq_true, bne_iff_ne, Bool.not_eq_true', beq_iff_eq, ← Bool.not_eq_true]
    simp only [cond]
    cases hb1 : (et != part.fieldType) <;> cases hb2 : (part.fieldType == 2#8) <;> cases hb3 : (et == 1#8) <;> cases ha : cfg.alloc len <;>
      rt_simp [e, hb1, hb2, hb3, ha, Bool.not_true, Bool.not_false, hl, loop, Bool.false_and, Bool.true_and, Bool.and_true, Bool.and_false, Bool.false_eq_true, not_true_eq_false,
        not_false_eq_true] <;>
      first
        | rfl
        | (generalize fillElemsP (part.fill part.dflt) len [] d' = r
           rcases r with ⟨f, w⟩ | ⟨w, d'⟩
           · cases f <;> rfl
           · rfl)

end

/-! ## `EncodingSet` -/

section
variable {σ : Type} (cfg : Cfg) (D : Api σ) (own part : Methods σ) (fr : Frame)

/-- encodings.rs:50-57 -/
def encodingBody : Expr := .block [.bind (.name (n! "value")) (.try (.method (.path [n! "input"]) (n! "read_i32") [])), .semi (.ite (.or (.bin .lt (.path [n! "value"])
  (.lit 0 none)) (.bin .ge (.path [n! "value"]) (.lit 31 none))) (.block [.semi (.ret (some (.call [n! "Err"] [.path [n! "ThriftError", n! "InvalidNumber"]])))]) none),
  .semi (.assignOp .bor (.path [n! "mask"]) (.bin .shl (.lit 1 none) (.path [n! "value"])))]

/-- The variables of `EncodingSet::fill_thrift` during the loop. -/
def encodingFrame (len et : V) (mask : BitVec 32) : Frame :=
  [[(n! "mask", .u32 mask), (n! "len", len), (n! "element_type", et)], [(n! "self", .place none), (n! "input", .self)]]

def encodingEnds (v : Val) (len et : V) (o : Out (Mem σ)) (r : Except Fail (BitVec 32 × σ)) : Prop :=
  match r with
  | .ok (mask, d) => o = .val .unit (encodingFrame len et mask) ⟨v, some d⟩
  | .error (.err e) => ∃ mask d, o = .ret (.err (.thrift e)) (encodingFrame len et mask) ⟨v, d⟩
  | .error f => ∃ d, o = .fail f ⟨v, d⟩

/-- Assigning to a variable. -/
def assignT (x : Name) (v : V) (o : Option V) (m : Mem σ) : Out (Mem σ) :=
  match o with
  | some _ => .val .unit (fr.put x v) m
  | none => .fail .stuck m

@[rs] theorem evAssignT_path {C : Ctx σ} (x : Name) (v : V) (m : Mem σ) : evAssignT C (.path [x]) v fr m = assignT fr x v (fr.get x) m := (rfl)
@[rs] theorem assignT_some (x : Name) (v w : V) (m : Mem σ) : assignT fr x v (some w) m = .val .unit (fr.put x v) m := (rfl)

theorem shl_bor {mask value : BitVec 32} (h : value.toNat < 31) :
    binaryT cfg .bor (.u32 mask) (.shlLit 1 value) = .ok (.u32 (mask ||| (1#32 <<< value.toNat))) := by
  simp only [binaryT, shifted]
  rw [if_pos (by omega)]
  rfl

theorem encodingLoop (I : Input σ) (owned : σ → Bool) (v : Val) (n : Nat) (len et : V) (k : Nat) : ∀ (mask : BitVec 32) (d : σ),
    encodingEnds v len et (evTimes (evalT ⟨cfg, inputDevice cfg I owned, .encodingSet, own, part⟩ (n + 20)) encodingBody k (encodingFrame len et mask) ⟨v, some d⟩)
      (encodingSetLoop cfg I k mask d) := by
  induction k with
  | zero => intro mask d; rfl
  | succ k ih =>
    intro mask d
    have e := dev_readI32 cfg I owned d
    simp only [evTimes, encodingSetLoop, bind, Rd.bind]
    generalize I.readI32 cfg d = r at *
    rcases r with f | ⟨x, d'⟩
    · cases f <;> (simp only [encodingBody, encodingFrame]; rt_simp [e]; simp only [encodingEnds]) <;>
        first | exact ⟨_, _, rfl⟩ | exact ⟨_, rfl⟩
    · have h0 : BitVec.slt x 0#32 = decide (x.toInt < (BitVec.ofNat 32 0).toInt) := rfl
      have h31 : BitVec.sle 31#32 x = decide ((BitVec.ofNat 32 31).toInt ≤ x.toInt) := rfl
      simp only [h0, h31]
      by_cases c0 : x.toInt < (BitVec.ofNat 32 0).toInt
      · simp only [encodingBody, encodingFrame]; rt_simp [e, c0, decide_true, Bool.true_or]
        exact ⟨_, _, rfl⟩
      · by_cases c1 : (BitVec.ofNat 32 31).toInt ≤ x.toInt
        · simp only [encodingBody, encodingFrame]; rt_simp [e, c0, c1, decide_true, decide_false, Bool.false_or]
          exact ⟨_, _, rfl⟩
        · have hx : x.toNat < 31 := by
            have e0 : (BitVec.ofNat 32 0).toInt = 0 := by decide
            have e1 : (BitVec.ofNat 32 31).toInt = 31 := by decide
            rw [e0] at c0
            rw [e1] at c1
            have := x.isLt
            simp only [BitVec.toInt] at c0 c1
            split at c0 <;> omega
          have hb : evalT ⟨cfg, inputDevice cfg I owned, .encodingSet, own, part⟩ (n + 20) encodingBody (encodingFrame len et mask) ⟨v, some d⟩ =
              .val .unit (encodingFrame len et (mask ||| (1#32 <<< x.toNat))) ⟨v, some d'⟩ := by
            simp only [encodingBody, encodingFrame]; rt_simp [e, c0, c1, decide_false, shl_bor _ hx]
          rw [hb]
          simp only [c0, c1, decide_false, Bool.or_self, Bool.false_eq_true, if_false]
          exact ih _ _

theorem fill_encodingSet (I : Input σ) (owned : σ → Bool) (env : List Def) (fn : Nat → Val → Rd σ Val) (v : Val) (d : σ) :
    asFill (runT ⟨cfg, inputDevice cfg I owned, .encodingSet, own, part⟩ ty_encodingSet_fill_thrift [.place none, .self] v d) =
      Fl.keep v (fillTy cfg I env fn .encodingSet v) d := by
  have e := dev_collection cfg I owned d
  have hle : ∀ {len et d'}, I.readCollectionLenAndType cfg d = .ok ((len, et), d') → len ≤ MAX_COLLECTION_LEN := collection_le cfg
  simp only [fillTy, Fl.keep, bind, Rd.bind, runT, runFn, ty_encodingSet_fill_thrift]
  generalize I.readCollectionLenAndType cfg d = r at *
  rcases r with f | ⟨⟨len, et⟩, d'⟩
  · cases f <;> (rt_simp [e]; rfl)
  · have hl := ofNat_len (hle rfl)
    have loop := encodingLoop cfg own part I owned v 17 (.u32 (BitVec.ofNat 32 len)) (.u8 et) len 0#32 d'
    simp only [Nat.reduceAdd, encodingBody, encodingFrame] at loop
    have hft : fieldType env .i32 = 5#8 := rfl
    by_cases h5 : et = 5#8
    · have h5' : (et != 5#8) = false := by simp [h5]
      rt_simp [e, h5', hl]
      simp only [hft, h5, ne_eq, not_true_eq_false, if_false, Rd.bind, pure, Rd.pure]
      revert loop
      subst h5
      generalize encodingSetLoop cfg I len 0#32 d' = r
      intro loop
      rcases r with f | ⟨mask, d''⟩
      · cases f
        case err => obtain ⟨_, _, h⟩ := loop; rw [h]; rfl
        all_goals (obtain ⟨_, h⟩ := loop; rw [h]; rfl)
      · simp only [encodingEnds] at loop
        rw [loop]; rfl
    · have h5' : (et != 5#8) = true := by simp [h5]
      rt_simp [e, h5']
      simp only [hft, h5, ne_eq, not_false_eq_true, if_true]
      rfl

end

/-! ## `fill_thrift_field` -/

section
variable {σ : Type}

theorem inherent_fill (ty : RTy) : inherentFn ty (n! "fill_thrift") = none := by cases ty <;> rfl

@[rs] theorem evSelfT_fill (C : Ctx σ) (ev : Expr → Frame → Mem σ → Out (Mem σ)) (e : Expr) (es : List Expr) (fr : Frame) (v : Val) (d : σ) :
    evSelfT C ev e (n! "fill_thrift") es [.self] fr ⟨v, some d⟩ = refilled id fr (C.own.fill v d) := by
  unfold evSelfT
  split
  · simp_all
  · simp_all
  · rename_i h _ _
    rw [inherent_fill]
    rfl

theorem fillField_trait (C : Ctx σ) (v : Val) (ft : Byte) (d : σ) :
    asFill (runT C fn_Protocol_fill_thrift_field [.place none, .self, .u8 ft] v d) =
      if ft ≠ C.own.fieldType then .error (.err .invalidType, v) else C.own.fill v d := by
  simp only [runT, runFn, fn_Protocol_fill_thrift_field]
  by_cases h : ft = C.own.fieldType
  · have h' : (ft != C.own.fieldType) = false := by simp [h]
    simp only [h, ne_eq, not_true_eq_false, if_false]
    rw [h] at h'
    generalize hr : C.own.fill v d = r at *
    rcases r with ⟨f, w⟩ | ⟨w, d'⟩
    · cases f <;> (rt_simp [h', hr]; rfl)
    · rt_simp [h', hr]; rfl
  · have h' : (ft != C.own.fieldType) = true := by simp [h]
    simp only [h, ne_eq, not_false_eq_true, if_true]
    rt_simp [h']; rfl

theorem fillField_bool (cfg : Cfg) (D : Api σ) (own part : Methods σ) (v : Val) (ft : Byte) (d : σ) :
    asFill (runT ⟨cfg, D, .bool, own, part⟩ ty_bool_fill_thrift_field [.place none, .self, .u8 ft] v d) = .ok (.bool (ft == 1#8), d) := by
  simp only [runT, runFn, ty_bool_fill_thrift_field]
  rt_simp []; rfl

end
end CT.Rs
