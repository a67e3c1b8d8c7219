import Verif.Spec.Encoder
import Verif.Proofs.Decoder
import Verif.Proofs.RoundTrip

/-! Programs written by hand over the output trait. -/

namespace CT
open Spec

theorem outs_then {x : ∀ τ : Type, Sink τ → Wr τ Unit} {bs : Bytes} (l : BitVec 16) (h : Outs x bs (.ok ())) :
    Outs (fun τ S => x τ S >>= fun _ => pure l) bs (.ok l) := by
  have := Outs.bind (f := fun _ _ _ => pure l) h (Outs.pure l)
  rwa [List.append_nil] at this

/-- What is meant to be written is written. -/
theorem outs_put {env : List Def} {l l' : BitVec 16} {p : Put} {bs : Bytes} (h : PutBytes env l p bs l') :
    Outs (fun _ S => p.write S env l) bs (.ok l') := by
  cases h with
  | byte b => exact outs_then l (outs_writeByte b)
  | len n => exact outs_then l (outs_writeLen n.toNat n.isLt)
  | i16 x => exact outs_then l (outs_writeI16 x)
  | i32 x => exact outs_then l (outs_writeI32 x)
  | i64 x => exact outs_then l (outs_writeI64 x)
  | double x => exact outs_then l (outs_writeDouble x)
  | binary bs h => exact outs_then l (outs_writeBinary bs h)
  | string bs h => exact outs_then l (outs_writeBinary bs h)
  | value t v p h => exact outs_then l (outs_of_enc h)
  | last => exact Outs.pure _
  | absent t v id p hv h =>
    have h' : Outs (fun _ S => writeField S env t v id l) bs (.ok (if present v then id else l)) := outs_of_enc h
    rw [hv] at h'; exact h'
  | field t v _ _ hv h =>
    have h' : Outs (fun _ S => writeField S env t v l' l) bs (.ok (if present v then l' else l)) := outs_of_enc h
    rw [hv] at h'; exact h'

theorem outs_puts {env : List Def} {l l' : BitVec 16} {ps : List Put} {bs : Bytes} (h : PutsBytes env l ps bs l') :
    Outs (fun _ S => writePuts S env l ps) bs (.ok l') := by
  induction h with
  | nil l => exact Outs.pure l
  | cons l l' l'' p ps bs cs h hs ih => exact Outs.bind (f := fun l' _ S => writePuts S env l' ps) (outs_put h) ih

theorem outs_err {x : ∀ τ : Type, Sink τ → Wr τ Unit} {bs : Bytes} {e : Fail} (l : BitVec 16) (h : Outs x bs (.error e)) :
    Outs (fun τ S => x τ S >>= fun _ => pure l) bs (.error e) :=
  Outs.bindErr (f := fun _ _ _ => pure l) h

/-- A step writes what it is meant to, or is refused with an error it deserves. -/
theorem put_cases {env : List Def} {p : Put} (hp : p.Typed env) (l : BitVec 16) :
    (∃ bs l', PutBytes env l p bs l') ∨ ∃ e bs, PutRefused env p e ∧ Outs (fun _ S => p.write S env l) bs (.error (.err e)) := by
  cases p with
  | byte b => exact .inl ⟨_, _, .byte l b⟩
  | len n => exact .inl ⟨_, _, .len l n⟩
  | i16 x => exact .inl ⟨_, _, .i16 l x⟩
  | i32 x => exact .inl ⟨_, _, .i32 l x⟩
  | i64 x => exact .inl ⟨_, _, .i64 l x⟩
  | double x => exact .inl ⟨_, _, .double l x⟩
  | last x => exact .inl ⟨_, _, .last l x⟩
  | binary bs =>
    by_cases h : bs.length ≤ 16777216
    · exact .inl ⟨_, _, .binary l bs h⟩
    · exact .inr ⟨_, _, .binary bs (by omega), outs_err l (outs_writeBinary_tooLong bs (by omega))⟩
  | string bs =>
    by_cases h : bs.length ≤ 16777216
    · exact .inl ⟨_, _, .string l bs h⟩
    · exact .inr ⟨_, _, .string bs (by omega), outs_err l (outs_writeBinary_tooLong bs (by omega))⟩
  | value t v =>
    rcases (enc_or_refused hp).1 with ⟨q, hq⟩ | ⟨e, hr, bs, ho⟩
    · exact .inl ⟨_, _, .value l t v q hq⟩
    · exact .inr ⟨e, bs, .value t v e hr, outs_err l ho⟩
  | field t v id =>
    rcases (enc_or_refused hp).2 id l with ⟨q, hq⟩ | ⟨e, hr, bs, ho⟩
    · cases hv : present v with
      | true => exact .inl ⟨_, _, .field l t v id q hv hq⟩
      | false => exact .inl ⟨_, _, .absent l t v id q hv hq⟩
    · exact .inr ⟨e, bs, .field t v id e hr, ho⟩

/-- The program writes everything, or stops at the first refused step. -/
theorem puts_cases {env : List Def} : ∀ {ps : List Put} (_ : ∀ p ∈ ps, p.Typed env) (l : BitVec 16),
    (∃ bs l', PutsBytes env l ps bs l') ∨
    ∃ before p after bs l' e tail, ps = before ++ p :: after ∧ PutsBytes env l before bs l' ∧ PutRefused env p e ∧
      Outs (fun _ S => p.write S env l') tail (.error (.err e)) ∧ Outs (fun _ S => writePuts S env l ps) (bs ++ tail) (.error (.err e)) := by
  intro ps
  induction ps with
  | nil => exact fun _ l => .inl ⟨_, _, .nil l⟩
  | cons p ps ih =>
    intro hp l
    rcases put_cases (hp p (by simp)) l with ⟨bs, l1, h⟩ | ⟨e, bs, hr, ho⟩
    · rcases ih (fun q hq => hp q (by simp [hq])) l1 with ⟨cs, l2, h2⟩ | ⟨before, q, after, cs, l2, e, tail, rfl, h2, h3, h4, h5⟩
      · exact .inl ⟨_, _, .cons _ _ _ _ _ _ _ h h2⟩
      · refine .inr ⟨p :: before, q, after, bs ++ cs, l2, e, tail, rfl, .cons _ _ _ _ _ _ _ h h2, h3, h4, ?_⟩
        rw [List.append_assoc]
        exact Outs.bind (f := fun l' _ S => writePuts S env l' (before ++ q :: after)) (outs_put h) h5
    · exact .inr ⟨[], p, ps, [], l, e, bs, rfl, .nil l, hr, ho, Outs.bindErr (f := fun l' _ S => writePuts S env l' ps) ho⟩

theorem putBytes_unique {env : List Def} {l l1 l2 : BitVec 16} {p : Put} {bs cs : Bytes} (h1 : PutBytes env l p bs l1) (h2 : PutBytes env l p cs l2) :
    bs = cs ∧ l1 = l2 := by
  have e1 := Outs.vec (outs_put h1) []
  have e2 := Outs.vec (outs_put h2) []
  rw [e1] at e2
  injection e2 with e2 e3
  injection e2 with e2
  exact ⟨by simpa using e3, e2⟩

/-- An absent field leaves no trace. -/
theorem enc_absent {env : List Def} {ok : BitVec 16 → BitVec 16 → Prop} {t : Ty} {v : Val} {id last : BitVec 16} {p : Bytes} (h : Enc env ok (.field t v id last) p)
    (hv : present v = false) : p = [] := by
  generalize hi : EItem.field t v id last = i at h
  induction h generalizing t v with
  | fieldNone => rfl
  | fieldBool b => cases hi; cases hv
  | fieldSome t v id last p hp ih => cases hi; refine ih ?_ rfl; exact hv
  | fieldValue t v id last p h1 h2 h3 hp => cases hi; rw [present_of_enc hp h2] at hv; cases hv
  | _ => cases hi

theorem put_field_inv {env : List Def} {l l1 : BitVec 16} {t : Ty} {v : Val} {id : BitVec 16} {b : Bytes} (h : PutBytes env l (.field t v id) b l1) :
    l1 = (if present v then id else l) ∧ Enc env anyStep (.field t v id l) b := by
  generalize hi : Put.field t v id = i at h
  cases h with
  | absent t v id _ hp h => cases hi; rw [hp]; exact ⟨rfl, h⟩
  | field t v _ _ hp h => cases hi; rw [hp]; exact ⟨rfl, h⟩
  | _ => cases hi

end CT
