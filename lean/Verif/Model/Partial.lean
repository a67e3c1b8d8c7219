import Verif.Model.Types
/-!
# What a failing `fill_thrift` leaves behind: runtime/src/types.rs, runtime/src/macros.rs, parquet/src/encodings.rs

`fill_thrift(&mut self, ..)` works in place, so after `Err` (or when a panic unwinds) the caller still owns `*self`.
The functions below are those of `Types.lean` with that value: a failure carries what is then in `*self`.
-/
namespace CT

/-- A function filling `*self`: on failure the value left in `*self` comes with the failure. -/
def Fl (σ α : Type) : Type := σ → Except (Fail × Val) (α × σ)

namespace Fl
variable {σ α β : Type}

protected def pure (a : α) : Fl σ α := fun s => .ok (a, s)

protected def bind (x : Fl σ α) (f : α → Fl σ β) : Fl σ β := fun s =>
  match x s with
  | .error e => .error e
  | .ok (a, s') => f a s'

instance : Monad (Fl σ) where
  pure := Fl.pure
  bind := Fl.bind

/-- A function on the input state, as a filling function. -/
def of (f : σ → Except (Fail × Val) (α × σ)) : Fl σ α := f

/-- `r?` while `v` is in `*self`. -/
def keep (v : Val) (r : Rd σ α) : Fl σ α := fun s =>
  match r s with
  | .error e => .error (e, v)
  | .ok x => .ok x

/-- Filling a part of `*self` in place: `g w` is `*self` when the part is `w`. -/
def part (g : Val → Val) (x : Fl σ Val) : Fl σ Val := fun s =>
  match x s with
  | .error (e, w) => .error (e, g w)
  | .ok y => .ok y

/-- Filling the only part of `*self` in place. -/
def into (g : Val → Val) (x : Fl σ Val) : Fl σ Val := do
  let w ← part g x
  pure (g w)

/-- Only the part of a failure that the caller sees as the `Result`. -/
def forget (x : Fl σ α) : Rd σ α := fun s =>
  match x s with
  | .error (e, _) => .error e
  | .ok y => .ok y

end Fl

section Partial
variable {σ : Type} (cfg : Cfg) (I : Input σ) (env : List Def)

/-- types.rs:202-210. `done` is the vector so far; the default element is pushed before it is filled, so a failure leaves it, as far as it
was filled, at the end of the vector. -/
def fillElemsP (fill1 : Fl σ Val) : Nat → List Val → Fl σ Val
  | 0, done => pure (.list done)
  | n + 1, done => do
    let v ← Fl.part (fun w => .list (done ++ [w])) fill1
    fillElemsP fill1 n (done ++ [v])

/-- `fill_thrift(&mut self, input)`. Types read by `read_…` functions alone assign `*self` last (types.rs:28-32, 56-59, 71-74, 86-89, 101-104,
116-119, 131-134, 147-150, 162-165, 177-180, 329-332, 344-350, 362-368; encodings.rs:44-61). -/
def fillTyP (fillNamedP : Nat → Val → Fl σ Val) : Ty → Val → Fl σ Val
  -- types.rs:191-213: `clear` happens after the header has been accepted
  | .list t, v => do
    let (len, elementType) ← Fl.keep v (I.readCollectionLenAndType cfg)
    if elementType ≠ fieldType env t ∧ ¬ (fieldType env t = fieldType env .bool ∧ elementType = 1#8) then
      Fl.keep v (Rd.throw .invalidType)
    else if ¬ cfg.alloc len then
      Fl.keep (.list []) (Rd.throw .reserveError)
    else
      fillElemsP (fillTyP fillNamedP t (dflt env t)) len []
  -- types.rs:238-248: `Some(P::default())` is written first, then filled
  | .option _, .some v => Fl.keep (.some v) (Rd.throw .duplicateField)
  | .option t, .none => Fl.into .some (fillTyP fillNamedP t (dflt env t))
  -- types.rs:287-289
  | .box t, .box v => Fl.into .box (fillTyP fillNamedP t v)
  -- types.rs:301-303, 315-317
  | .rc t, .rc shared v =>
    if shared then Fl.keep (.rc shared v) (Rd.throw .duplicateField)
    else Fl.into (.rc false) (fillTyP fillNamedP t v)
  | .named k, v => fillNamedP k v
  | t, v => Fl.keep v (fillTy cfg I env (fun _ _ => Rd.fail .stuck) t v)

/-- `fill_thrift_field(&mut self, input, field_type)` -/
def fillFieldP (fillNamedP : Nat → Val → Fl σ Val) : Ty → Val → Byte → Fl σ Val
  -- types.rs:35-38
  | .bool, _, ft => pure (.bool (ft == 1#8))
  -- types.rs:251-261
  | .option _, .some v, _ => Fl.keep (.some v) (Rd.throw .duplicateField)
  | .option t, .none, ft => Fl.into .some (fillFieldP fillNamedP t (dflt env t) ft)
  | .option _, v, _ => Fl.keep v (Rd.fail .stuck)
  -- protocol.rs:448-453, the trait default
  | t, v, ft =>
    if ft ≠ fieldType env t then Fl.keep v (Rd.throw .invalidType) else fillTyP cfg I env fillNamedP t v

/-- macros.rs:80-99: the fields of `*self` are filled in place, one after the other. -/
def structLoopP (fillNamedP : Nat → Val → Fl σ Val) (name : String) (fs : List Field) :
    Nat → BitVec 16 → List Bool → List Val → Fl σ Val
  | 0, _, _, vs => Fl.keep (.struct vs) (Rd.fail .diverge)
  | fuel + 1, last, flags, vs => do
    let (ft, last') ← Fl.keep (.struct vs) (I.readFieldHeader cfg last)
    if ft = 0#8 then
      match firstMissing fs flags with
      | some f => Fl.keep (.struct vs) (Rd.throw (.missingField (name ++ "::" ++ f.name)))
      | none => pure (.struct vs)
    else
      match findField fs last' with
      | some i =>
        match fs[i]?, vs[i]? with
        | some f, some v => do
          let v' ← Fl.part (fun w => .struct (vs.set i w)) (fillFieldP cfg I env fillNamedP f.rustTy v ft)
          structLoopP fillNamedP name fs fuel last' (if f.required then flags.set i true else flags) (vs.set i v')
        | _, _ => Fl.keep (.struct vs) (Rd.fail .stuck)
      | none => do
        Fl.keep (.struct vs) (I.skipField cfg ft)
        structLoopP fillNamedP name fs fuel last' flags vs

/-- macros.rs:148-175: `*self` becomes the variant with its default (159) before the content is filled. -/
def fillUnionP (fillNamedP : Nat → Val → Fl σ Val) (us : List Variant) (v0 : Val) : Fl σ Val := do
  let (ft, id) ← Fl.keep v0 (I.readFieldHeader cfg 0#16)
  if ft = 0#8 then
    Fl.keep v0 (Rd.throw .invalidType)
  else
    match us.findIdx? (fun u => u.id == id) with
    | some i =>
      match us[i]? with
      | some u => do
        let v ← Fl.into (.union i) (fillTyP cfg I env fillNamedP u.ty (dflt env u.ty))
        let stop ← Fl.keep v I.readByte
        if stop ≠ 0#8 then Fl.keep v (Rd.throw .missingStop) else pure v
      | none => Fl.keep v0 (Rd.fail .stuck)
    | none => Fl.keep v0 (Rd.throw (.missingField "$struct_name"))

/-- `fill_thrift` of a definition. -/
def fillNamedP : Nat → Nat → Val → Fl σ Val
  | 0, _, v => Fl.keep v (Rd.fail .diverge)
  | fuel + 1, k, v =>
    match env[k]?, v with
    -- macros.rs:77-100
    | some (.struct name fs), .struct vs => Fl.of fun s =>
      structLoopP cfg I env (fillNamedP fuel) name fs (I.size s + 1) 0#16 (fs.map fun _ => false) vs s
    -- macros.rs:148-175
    | some (.union _ us), .union i w => fillUnionP cfg I env (fillNamedP fuel) us (.union i w)
    -- macros.rs:224-227
    | some (.enum _), .enum x => do let y ← Fl.keep (.enum x) (I.readI32 cfg); pure (.enum y)
    | _, v => Fl.keep v (Rd.fail .stuck)

/-- `fill_thrift(&mut self, input)`: `Ok` with the filled value, or the failure with the value left in `*self`. -/
def fillThriftP (t : Ty) (v : Val) : Fl σ Val := fun s =>
  fillTyP cfg I env (fillNamedP cfg I env (I.size s + 1)) t v s

end Partial

end CT
