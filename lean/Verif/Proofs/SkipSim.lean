import Verif.Proofs.RuntimeSim
/-!
# The functions that skip
-/
namespace CT.Rs
open CT CT.Spec

attribute [local irreducible] eval

/-- The arms of `skip_collection`. -/
def collectionArms : List (Pat × Expr) :=
  [(.range 1 3, .block [.for .wild (.range (some (.lit 0 none)) (some (.path [n! "len"]))) (.block [.bind .wild (.try (.method (.path [n! "input"]) n!
  "read_byte" []))])]), (.range 4 6, .block [.for .wild (.range (some (.lit 0 none)) (some (.path [n! "len"]))) (.block [.semi (.try (.method (.path [n!
  "input"]) n! "skip_integer" []))])]), (.lit 7, .block [.for .wild (.range (some (.lit 0 none)) (some (.path [n! "len"]))) (.block [.semi (.try
  (.method (.path [n! "input"]) n! "read_double" []))])]), (.lit 8, .block [.for .wild (.range (some (.lit 0 none)) (some (.path [n! "len"]))) (.block
  [.semi (.try (.method (.path [n! "input"]) n! "skip_binary" []))])]), (.alt (.lit 9) (.lit 10), .block [.for .wild (.range (some (.lit 0 none)) (some
  (.path [n! "len"]))) (.block [.semi (.try (.call [n! "skip_collection"] [.path [n! "input"]]))])]), (.lit 11, .block [.for .wild (.range (some (.lit 0
  none)) (some (.path [n! "len"]))) (.block [.semi (.try (.call [n! "skip_map"] [.path [n! "input"]]))])]), (.lit 12, .block [.for .wild (.range (some
  (.lit 0 none)) (some (.path [n! "len"]))) (.block [.semi (.try (.call [n! "skip_field"] [.path [n! "input"], .lit 12 none, .bool false]))])]), (.wild,
  .block [.ret (some (.call [n! "Err"] [.path [n! "ThriftError", n! "InvalidType"]]))])]

/-- The arms of `skip_field`. -/
def fieldArms : List (Pat × Expr) :=
  [(.range 1 2, .block [.ite (.path [n! "inside_collection"]) (.block [.semi (.try (.method (.path [n! "input"]) n! "read_byte" []))]) none]), (.lit 3,
  .block [.semi (.try (.method (.path [n! "input"]) n! "read_byte" []))]), (.range 4 6, .block [.semi (.try (.method (.path [n! "input"]) n!
  "skip_integer" []))]), (.lit 7, .block [.semi (.try (.method (.path [n! "input"]) n! "read_double" []))]), (.lit 8, .block [.semi (.try (.method
  (.path [n! "input"]) n! "skip_binary" []))]), (.alt (.lit 9) (.lit 10), .block [.semi (.try (.call [n! "skip_collection"] [.path [n! "input"]]))]),
  (.lit 11, .block [.semi (.try (.call [n! "skip_map"] [.path [n! "input"]]))]), (.lit 12, .block [.bind (.name n! "last_field_id") (.lit 0 (some
  .i16)), .loop (.block [.bind (.name n! "field_type") (.try (.method (.path [n! "input"]) n! "read_field_header" [.ref true (.path [n!
  "last_field_id"])])), .semi (.ite (.bin .eq (.path [n! "field_type"]) (.lit 0 none)) (.block [.semi .brk]) none), .semi (.try (.call [n! "skip_field"]
  [.path [n! "input"], .path [n! "field_type"], .bool false]))])]), (.wild, .block [.ret (some (.call [n! "Err"] [.path [n! "ThriftError", n!
  "InvalidType"]]))])]

/-- The loop over the fields of a struct. -/
def structBody : Expr :=
  .block [.bind (.name n! "field_type") (.try (.method (.path [n! "input"]) n! "read_field_header" [.ref true (.path [n! "last_field_id"])])), .semi
  (.ite (.bin .eq (.path [n! "field_type"]) (.lit 0 none)) (.block [.semi .brk]) none), .semi (.try (.call [n! "skip_field"] [.path [n! "input"], .path
  [n! "field_type"], .bool false]))]

/-- The loop of `skip_map`. -/
def mapBody : Expr :=
  .block [.semi (.try (.call [n! "skip_field"] [.path [n! "input"], .path [n! "key_type"], .bool true])), .semi (.try (.call [n! "skip_field"] [.path
  [n! "input"], .path [n! "val_type"], .bool true]))]

section
variable {σ : Type} {cfg : Cfg} {debug : Bool} {P : Prog} {H : Host σ} {I : Input σ} {Inv : σ → Prop}

/-- `for` does its body so many times. -/
theorem goes_times {b : Expr} {fr : Frame} {act : Rd σ Unit}
    (hb : ∀ s, Inv s → Goes Inv (fun n => eval cfg debug P H n b fr s) (act s) (fun _ s' o => ∃ v, o = .val v fr s')) (k : Nat) :
    ∀ s, Inv s → Goes Inv (fun n => timesAt cfg debug P H n b k fr s) (repeatRd act k s) (fun _ s' o => ∃ v, o = .val v fr s') := by
  induction k with
  | zero => exact fun s hs => .val hs ⟨_, rfl⟩
  | succ k ih =>
    intro s hs
    refine Goes.again (m := act) (f := fun _ => repeatRd act k) (fun n fr s => timesAt cfg debug P H n b k fr s) (hb s hs) ?_
    rintro _ s' o hi ⟨v, rfl⟩
    exact ih s' hi

/-- A method called in a block of its own. -/
theorem goes_method {α : Type} {f : Name} {m : Rd σ α} {ok : α → V} (M : Method cfg debug P H Inv f m ok) (fr : Frame) (hfr : fr.get (n! "input") = some .self)
    (s : σ) (hs : Inv s) :
    Goes Inv (fun n => eval cfg debug P H n (.block [.semi (.try (.method (.path [n! "input"]) f []))]) fr s) ((m >>= fun _ => pure ()) s)
      (fun _ s' o => ∃ v, o = .val v fr s') := by
  rs_call (M.gives s hs) [hfr, M.has]
  intro a s' N _ hi h
  rs_simp [hfr, M.has, h]
  exact .val hi ⟨_, rfl⟩

/-- A method called in a block of its own, with `let _`. -/
theorem goes_method_let {α : Type} {f : Name} {m : Rd σ α} {ok : α → V} (M : Method cfg debug P H Inv f m ok) (fr : Frame) (hfr : fr.get (n! "input") = some .self)
    (s : σ) (hs : Inv s) :
    Goes Inv (fun n => eval cfg debug P H n (.block [.bind .wild (.try (.method (.path [n! "input"]) f []))]) fr s) ((m >>= fun _ => pure ()) s)
      (fun _ s' o => ∃ v, o = .val v fr s') := by
  rs_call (M.gives s hs) [hfr, M.has]
  intro a s' N _ hi h
  rs_simp [hfr, M.has, h]
  exact .val hi ⟨_, rfl⟩

/-- A function of the device called in a block of its own. -/
theorem goes_call {f : Name} {fn : Fn} {m : Rd σ Unit} (hf : assoc P.fns f = some fn)
    (hm : ∀ s, Inv s → Gives Inv (fun n => runFn (eval cfg debug P H n) fn [.self] s) (m s) (fun _ => (.unit, [.self])))
    (fr : Frame) (hfr : fr.get (n! "input") = some .self) (s : σ) (hs : Inv s) :
    Goes Inv (fun n => eval cfg debug P H n (.block [.semi (.try (.call [f] [.path [n! "input"]]))]) fr s) (m s)
      (fun _ s' o => ∃ v, o = .val v fr s') := by
  rw [← rd_bind_pure m]
  rs_call (hm s hs) [hfr, hf]
  intro a s' N _ hi h
  rs_simp [hfr, hf, h]
  exact .val hi ⟨_, rfl⟩

theorem rd_bind_unit (m : Rd σ Unit) : (m >>= fun _ => pure ()) = m := rd_bind_pure m

/-- What is known of the device. -/
structure Device (cfg : Cfg) (debug : Bool) (P : Prog) (H : Host σ) (Inv : σ → Prop) (I : Input σ) (owned : Bool) where
  runtime : Runtime P
  provided : Provided P
  readByte : Method cfg debug P H Inv (n! "read_byte") I.readByte .u8
  readDouble : Method cfg debug P H Inv (n! "read_double") I.readDouble .f64
  readBinary : Method cfg debug P H Inv (n! "read_binary") I.readBinary (.cow owned)
  skipInteger : Method cfg debug P H Inv (n! "skip_integer") I.skipInteger (fun _ => .unit)
  skipBinary : Method cfg debug P H Inv (n! "skip_binary") I.skipBinary (fun _ => .unit)

variable {owned : Bool}

/-- The functions skip as the model does with this fuel. -/
structure Skips (cfg : Cfg) (debug : Bool) (P : Prog) (H : Host σ) (Inv : σ → Prop) (I : Input σ) (fuel : Nat) : Prop where
  collection : ∀ s, Inv s → Gives Inv (fun n => runFn (eval cfg debug P H n) fn_skip_collection [.self] s) (skipCollection cfg I fuel s) (fun _ => (.unit, [.self]))
  map : ∀ s, Inv s → Gives Inv (fun n => runFn (eval cfg debug P H n) fn_skip_map [.self] s) (skipMap cfg I fuel s) (fun _ => (.unit, [.self]))
  field : ∀ ft ins s, Inv s → Gives Inv (fun n => runFn (eval cfg debug P H n) fn_skip_field [.self, .u8 ft, .bool ins] s)
    (skipFieldF cfg I fuel ft ins s) (fun _ => (.unit, [.self, .u8 ft, .bool ins]))

theorem runFn_lit12 (n : Nat) (s : σ) (b : Bool) :
    runFn (eval cfg debug P H n) fn_skip_field [.self, .lit 12, .bool b] s = runFn (eval cfg debug P H n) fn_skip_field [.self, .u8 12#8, .bool b] s := rfl

/-- An arm with a loop. -/
theorem goes_for_arm {b : Expr} {fr : Frame} {act : Rd σ Unit}
    (hb : ∀ s, Inv s → Goes Inv (fun n => eval cfg debug P H n b ([] :: [] :: fr) s) (act s) (fun _ s' o => ∃ v, o = .val v ([] :: [] :: fr) s'))
    (j k : Nat) (s : σ) (hs : Inv s) :
    Goes Inv (fun n => (timesAt cfg debug P H (n + j) b k ([] :: [] :: fr) s).leave.leave) (repeatRd act k s) (fun _ s' o => ∃ v, o = .val v fr s') := by
  refine Goes.leave (Goes.leave (Goes.later j (goes_times hb k s hs)) (good' := fun _ s' o => ∃ v, o = .val v ([] :: fr) s') ?_) ?_
  · rintro _ s' o _ ⟨v, rfl⟩
    exact ⟨v, rfl⟩
  · rintro _ s' o _ ⟨v, rfl⟩
    exact ⟨v, rfl⟩

/-- An arm with a block. -/
theorem goes_arm {b : Expr} {fr : Frame} {m : Rd σ Unit} {s : σ}
    (h : Goes Inv (fun n => eval cfg debug P H n b ([] :: fr) s) (m s) (fun _ s' o => ∃ v, o = .val v ([] :: fr) s')) (j : Nat) :
    Goes Inv (fun n => (eval cfg debug P H (n + j) b ([] :: fr) s).leave) (m s) (fun _ s' o => ∃ v, o = .val v fr s') := by
  refine Goes.leave (Goes.later j h) ?_
  rintro _ s' o _ ⟨v, rfl⟩
  exact ⟨v, rfl⟩

/-- The struct as element. -/
theorem goes_call12 (D : Device cfg debug P H Inv I owned) {fuel : Nat} (S : Skips cfg debug P H Inv I fuel) (fr : Frame) (hfr : fr.get (n! "input") = some .self)
    (s : σ) (hs : Inv s) :
    Goes Inv (fun n => eval cfg debug P H n (.block [.semi (.try (.call [n! "skip_field"] [.path [n! "input"], .lit 12 none, .bool false]))]) fr s)
      (skipFieldF cfg I fuel 12#8 false s) (fun _ s' o => ∃ v, o = .val v fr s') := by
  rw [← rd_bind_pure (skipFieldF cfg I fuel 12#8 false)]
  rs_call (S.field 12#8 false s hs) [hfr, D.runtime.skip_field, runFn_lit12]
  intro a s' N _ hi h
  rs_simp [hfr, D.runtime.skip_field, runFn_lit12, h]
  exact .val hi ⟨_, rfl⟩

/-- The arms of `skip_collection` -/
theorem goes_collection_arms (D : Device cfg debug P H Inv I owned) {fuel : Nat} (S : Skips cfg debug P H Inv I fuel) (k : BitVec 32) (ft : Byte) (s : σ) (hs : Inv s) :
    Goes Inv (fun n => eval cfg debug P H n (.select (.path [n! "element_type"]) collectionArms)
        [[(n! "len", .u32 k), (n! "element_type", .u8 ft)], [(n! "input", .self)]] s)
      ((match ft.toNat with
        | 1 | 2 | 3 => repeatRd (do let _ ← I.readByte; pure ()) k.toNat
        | 4 | 5 | 6 => repeatRd I.skipInteger k.toNat
        | 7 => repeatRd (do let _ ← I.readDouble; pure ()) k.toNat
        | 8 => repeatRd I.skipBinary k.toNat
        | 9 | 10 => repeatRd (skipCollection cfg I fuel) k.toNat
        | 11 => repeatRd (skipMap cfg I fuel) k.toNat
        | 12 => repeatRd (skipFieldF cfg I fuel 12#8 false) k.toNat
        | _ => Rd.throw .invalidType : Rd σ Unit) s)
      (fun _ s' o => ∃ v, o = .val v [[(n! "len", .u32 k), (n! "element_type", .u8 ft)], [(n! "input", .self)]] s') := by
  refine .shift 10 ?_
  simp only [collectionArms]
  have hint := rd_bind_unit I.skipInteger
  have hbin := rd_bind_unit I.skipBinary
  have gi := fun fr => goes_method (σ := σ) D.skipInteger fr
  have gb := fun fr => goes_method (σ := σ) D.skipBinary fr
  rw [hint] at gi
  rw [hbin] at gb
  rcases (by omega : ft.toNat = 1 ∨ ft.toNat = 2 ∨ ft.toNat = 3 ∨ ft.toNat = 4 ∨ ft.toNat = 5 ∨ ft.toNat = 6 ∨ ft.toNat = 7 ∨ ft.toNat = 8 ∨ ft.toNat = 9 ∨
      ft.toNat = 10 ∨ ft.toNat = 11 ∨ ft.toNat = 12 ∨ ft.toNat = 0 ∨ 12 < ft.toNat) with h | h | h | h | h | h | h | h | h | h | h | h | h | h
  case inr.inr.inr.inr.inr.inr.inr.inr.inr.inr.inr.inr.inr =>
    rw [show ∀ (a b c d e f g i : Rd σ Unit), (match ft.toNat with | 1 | 2 | 3 => a | 4 | 5 | 6 => b | 7 => c | 8 => d | 9 | 10 => e | 11 => f | 12 => g | _ => i) = i from by
      intros; split <;> first | omega | rfl]
    rs_simp [↓eval_select, D.runtime.err, if_neg (show ¬(1 ≤ ft.toNat ∧ ft.toNat ≤ 3) from by omega), if_neg (show ¬(4 ≤ ft.toNat ∧ ft.toNat ≤ 6) from by omega),
      if_neg (show ¬ft.toNat = 7 from by omega), if_neg (show ¬ft.toNat = 8 from by omega), if_neg (show ¬ft.toNat = 9 from by omega),
      if_neg (show ¬ft.toNat = 10 from by omega), if_neg (show ¬ft.toNat = 11 from by omega), if_neg (show ¬ft.toNat = 12 from by omega)]
    exact .err
  all_goals rs_simp [↓eval_select, h, Nat.reduceLeDiff, and_true, true_and, and_false, false_and, and_self, D.runtime.err]
  · exact goes_for_arm (goes_method_let D.readByte _ rfl) _ _ s hs
  · exact goes_for_arm (goes_method_let D.readByte _ rfl) _ _ s hs
  · exact goes_for_arm (goes_method_let D.readByte _ rfl) _ _ s hs
  · exact goes_for_arm (gi _ rfl) _ _ s hs
  · exact goes_for_arm (gi _ rfl) _ _ s hs
  · exact goes_for_arm (gi _ rfl) _ _ s hs
  · exact goes_for_arm (goes_method D.readDouble _ rfl) _ _ s hs
  · exact goes_for_arm (gb _ rfl) _ _ s hs
  · exact goes_for_arm (goes_call D.runtime.skip_collection S.collection _ rfl) _ _ s hs
  · exact goes_for_arm (goes_call D.runtime.skip_collection S.collection _ rfl) _ _ s hs
  · exact goes_for_arm (goes_call D.runtime.skip_map S.map _ rfl) _ _ s hs
  · exact goes_for_arm (goes_call12 D S _ rfl) _ _ s hs
  · exact .err

/-- The loop over the fields of a struct -/
theorem goes_struct (D : Device cfg debug P H Inv I owned) {fuel : Nat} (S : Skips cfg debug P H Inv I fuel) (fr : Frame) (hfr : fr.get (n! "input") = some .self)
    (rounds : Nat) :
    ∀ last s, Inv s → Goes Inv (fun n => eval cfg debug P H n (.loop structBody) ([(n! "last_field_id", .i16 last)] :: fr) s)
      (skipStructLoop cfg I (fun ft => skipFieldF cfg I fuel ft false) rounds last s)
      (fun _ s' o => ∃ v x, o = .val v ([(n! "last_field_id", x)] :: fr) s') := by
  induction rounds with
  | zero => intro last s hs; exact trivial
  | succ rounds ih =>
    intro last s hs
    unfold skipStructLoop
    simp only [structBody] at ih ⊢
    rs_call (gives_field_header D.runtime D.readByte last s hs) [eval_loop, hfr, D.provided.read_field_header]
    rintro ⟨ft, last'⟩ s' N _ hi h
    by_cases hc : ft = 0#8
    · have hc' : (ft == 0#8) = true := by simp [hc]
      rs_simp [eval_loop, hfr, D.provided.read_field_header, h, hc']
      simp only [if_pos hc]
      exact Goes.val (good := fun _ s' o => ∃ v x, o = .val v ([(n! "last_field_id", x)] :: fr) s') hi ⟨_, _, rfl⟩
    · have hc' : (ft == 0#8) = false := beq_eq_false_iff_ne.2 hc
      simp only [if_neg hc]
      rs_call (S.field ft false s' hi) [eval_loop, hfr, D.provided.read_field_header, h, hc', D.runtime.skip_field]
      intro _ s'' N' _ hi h'
      rs_simp [eval_loop, hfr, D.provided.read_field_header, h, hc', D.runtime.skip_field, h']
      simp only [loopAt]
      exact ((ih _ _ hi).later2 N 39).later2 N' 40

/-- One entry of a skipped map -/
theorem goes_map_body (D : Device cfg debug P H Inv I owned) {fuel : Nat} (S : Skips cfg debug P H Inv I fuel) (kt vt : Byte) (fr : Frame)
    (hfr : fr.get (n! "input") = some .self) (hk : fr.get (n! "key_type") = some (.u8 kt)) (hv : fr.get (n! "val_type") = some (.u8 vt)) (s : σ) (hs : Inv s) :
    Goes Inv (fun n => eval cfg debug P H n mapBody fr s) ((do skipFieldF cfg I fuel kt true; skipFieldF cfg I fuel vt true : Rd σ Unit) s)
      (fun _ s' o => ∃ v, o = .val v fr s') := by
  simp only [mapBody]
  rs_call (S.field kt true s hs) [hfr, hk, hv, D.runtime.skip_field]
  intro _ s' N _ hi h
  rw [← rd_bind_pure (skipFieldF cfg I fuel vt true)]
  rs_call (S.field vt true s' hi) [hfr, hk, hv, D.runtime.skip_field, h]
  intro _ s'' N' _ hi h'
  rs_simp [hfr, hk, hv, D.runtime.skip_field, h, h']
  exact .val hi ⟨_, rfl⟩

theorem skip_other {fuel : Nat} {ft : Byte} {ins : Bool} (h : 12 < ft.toNat) : skipFieldF cfg I (fuel + 1) ft ins = Rd.throw .invalidType := by
  unfold skipFieldF
  split <;> first | omega | rfl

/-- The arms of `skip_field` -/
theorem goes_field_arms (D : Device cfg debug P H Inv I owned) {fuel : Nat} (S : Skips cfg debug P H Inv I fuel) (ft : Byte) (ins : Bool) (s : σ) (hs : Inv s) :
    Goes Inv (fun n => eval cfg debug P H n (.select (.path [n! "field_type"]) fieldArms)
        [[], [(n! "input", .self), (n! "field_type", .u8 ft), (n! "inside_collection", .bool ins)]] s)
      (skipFieldF cfg I (fuel + 1) ft ins s)
      (fun _ s' o => ∃ v, o = .val v [[], [(n! "input", .self), (n! "field_type", .u8 ft), (n! "inside_collection", .bool ins)]] s') := by
  refine .shift 10 ?_
  simp only [fieldArms]
  have gi := fun fr => goes_method (σ := σ) D.skipInteger fr
  have gb := fun fr => goes_method (σ := σ) D.skipBinary fr
  rw [rd_bind_unit I.skipInteger] at gi
  rw [rd_bind_unit I.skipBinary] at gb
  rcases (by omega : ft.toNat = 1 ∨ ft.toNat = 2 ∨ ft.toNat = 3 ∨ ft.toNat = 4 ∨ ft.toNat = 5 ∨ ft.toNat = 6 ∨ ft.toNat = 7 ∨ ft.toNat = 8 ∨ ft.toNat = 9 ∨
      ft.toNat = 10 ∨ ft.toNat = 11 ∨ ft.toNat = 12 ∨ ft.toNat = 0 ∨ 12 < ft.toNat) with h | h | h | h | h | h | h | h | h | h | h | h | h | h
  case inr.inr.inr.inr.inr.inr.inr.inr.inr.inr.inr.inr.inr =>
    rw [skip_other h]
    rs_simp [↓eval_select, D.runtime.err, if_neg (show ¬(1 ≤ ft.toNat ∧ ft.toNat ≤ 2) from by omega), if_neg (show ¬(4 ≤ ft.toNat ∧ ft.toNat ≤ 6) from by omega),
      if_neg (show ¬ft.toNat = 3 from by omega), if_neg (show ¬ft.toNat = 7 from by omega), if_neg (show ¬ft.toNat = 8 from by omega), if_neg (show ¬ft.toNat = 9 from by omega),
      if_neg (show ¬ft.toNat = 10 from by omega), if_neg (show ¬ft.toNat = 11 from by omega), if_neg (show ¬ft.toNat = 12 from by omega)]
    exact .err
  all_goals unfold skipFieldF
  case inl | inr.inl =>
    cases ins with
    | false =>
      rs_simp [↓eval_select, h, Nat.reduceLeDiff, and_true, true_and, and_false, false_and, and_self, Bool.false_eq_true]
      exact .val hs ⟨_, rfl⟩
    | true =>
      rs_simp [↓eval_select, h, Nat.reduceLeDiff, and_true, true_and, and_false, false_and, and_self]
      rs_call (D.readByte.gives s hs) [D.readByte.has]
      intro _ s' N _ hi h
      rs_simp [D.readByte.has, h]
      exact .val hi ⟨_, rfl⟩
  all_goals rs_simp [↓eval_select, h, Nat.reduceLeDiff, and_true, true_and, and_false, false_and, and_self, D.runtime.err]
  · skip
    rs_call (D.readByte.gives s hs) [D.readByte.has]
    intro _ s' N _ hi h
    rs_simp [D.readByte.has, h]
    exact .val hi ⟨_, rfl⟩
  · skip
    rw [← rd_bind_unit (I.skipInteger)]
    rs_call (D.skipInteger.gives s hs) [D.skipInteger.has]
    intro _ s' N _ hi h
    rs_simp [D.skipInteger.has, h]
    exact .val hi ⟨_, rfl⟩
  · skip
    rw [← rd_bind_unit (I.skipInteger)]
    rs_call (D.skipInteger.gives s hs) [D.skipInteger.has]
    intro _ s' N _ hi h
    rs_simp [D.skipInteger.has, h]
    exact .val hi ⟨_, rfl⟩
  · skip
    rw [← rd_bind_unit (I.skipInteger)]
    rs_call (D.skipInteger.gives s hs) [D.skipInteger.has]
    intro _ s' N _ hi h
    rs_simp [D.skipInteger.has, h]
    exact .val hi ⟨_, rfl⟩
  · skip
    rs_call (D.readDouble.gives s hs) [D.readDouble.has]
    intro _ s' N _ hi h
    rs_simp [D.readDouble.has, h]
    exact .val hi ⟨_, rfl⟩
  · skip
    rw [← rd_bind_unit (I.skipBinary)]
    rs_call (D.skipBinary.gives s hs) [D.skipBinary.has]
    intro _ s' N _ hi h
    rs_simp [D.skipBinary.has, h]
    exact .val hi ⟨_, rfl⟩
  · skip
    rw [← rd_bind_unit (skipCollection cfg I fuel)]
    rs_call (S.collection s hs) [D.runtime.skip_collection]
    intro _ s' N _ hi h
    rs_simp [D.runtime.skip_collection, h]
    exact .val hi ⟨_, rfl⟩
  · skip
    rw [← rd_bind_unit (skipCollection cfg I fuel)]
    rs_call (S.collection s hs) [D.runtime.skip_collection]
    intro _ s' N _ hi h
    rs_simp [D.runtime.skip_collection, h]
    exact .val hi ⟨_, rfl⟩
  · skip
    rw [← rd_bind_unit (skipMap cfg I fuel)]
    rs_call (S.map s hs) [D.runtime.skip_map]
    intro _ s' N _ hi h
    rs_simp [D.runtime.skip_map, h]
    exact .val hi ⟨_, rfl⟩
  · have g := goes_struct D S [[], [], [(n! "input", .self), (n! "field_type", .u8 ft), (n! "inside_collection", .bool ins)]] rfl (I.size s + 1) 0#16 s hs
    simp only [structBody] at g
    refine Goes.leave (Goes.leave (g.later 8)
      (good' := fun _ s' o => ∃ v, o = .val v [[], [], [(n! "input", .self), (n! "field_type", .u8 ft), (n! "inside_collection", .bool ins)]] s') ?_) ?_
    · rintro _ s' o _ ⟨v, x, rfl⟩
      exact ⟨_, rfl⟩
    · rintro _ s' o _ ⟨v, rfl⟩
      exact ⟨_, rfl⟩
  · exact .err

/-- The functions skip as the model does. -/
theorem skips (D : Device cfg debug P H Inv I owned) (fuel : Nat) : Skips cfg debug P H Inv I fuel := by
  induction fuel with
  | zero => exact ⟨fun _ _ => trivial, fun _ _ => trivial, fun _ _ _ _ => trivial⟩
  | succ fuel ih =>
    refine ⟨fun s hs => ?_, fun s hs => ?_, fun ft ins s hs => ?_⟩
    · refine Goes.fn rfl ?_
      simp only [fn_skip_collection]
      unfold skipCollection
      rs_call (gives_collection D.runtime D.provided D.readByte s hs) [D.runtime.read_collection]
      rintro ⟨len, ft⟩ s' N hr hi h
      have hb := collection_bound hr
      have hk : (BitVec.ofNat 32 len).toNat = len := by simp; omega
      have g := goes_collection_arms D ih (BitVec.ofNat 32 len) ft s' hi
      simp only [hk, collectionArms] at g
      refine Goes.use g _ ?_ ?_ ?_
      · rintro _ s'' o N' _ hi' ⟨v, rfl⟩ q
        apply Exists.intro
        refine ⟨?_, ?_⟩
        rotate_left
        · intro n
          simp (disch := omega) only [rs, reduceIte, D.runtime.read_collection, h, q, D.runtime.ok]
          rfl
        · simp [rs, Done, V.unit]
      · intro e fr s'' N' q
        apply Exists.intro; apply Exists.intro; intro n
        simp (disch := omega) only [rs, reduceIte, D.runtime.read_collection, h, q]
        rfl
      · intro e s'' N' q n
        simp (disch := omega) only [rs, reduceIte, D.runtime.read_collection, h, q]
    · refine Goes.fn rfl ?_
      simp only [fn_skip_map]
      unfold skipMap
      rs_call (gives_map D.runtime D.provided D.readByte s hs) [D.runtime.read_map]
      rintro ⟨len, kt, vt⟩ s' N hr hi h
      have hb := map_bound hr
      have hk : (BitVec.ofNat 32 len).toNat = len := by simp; omega
      rs_simp [D.runtime.read_map, h, hk]
      have g := goes_times (goes_map_body (I := I) D ih kt vt [[(n! "len", .u32 (BitVec.ofNat 32 len)), (n! "key_type", .u8 kt), (n! "val_type", .u8 vt)],
        [(n! "input", .self)]] rfl rfl rfl) len s' hi
      simp only [mapBody] at g
      refine Goes.use g _ ?_ ?_ ?_
      · rintro _ s'' o N' _ hi' ⟨v, rfl⟩ q
        apply Exists.intro
        refine ⟨?_, ?_⟩
        rotate_left
        · intro n
          simp (disch := omega) only [rs, q, D.runtime.ok]
          rfl
        · simp [rs, Done, V.unit]
      · intro e fr s'' N' q
        apply Exists.intro; apply Exists.intro; intro n
        simp (disch := omega) only [rs, q]
        rfl
      · intro e s'' N' q n
        simp (disch := omega) only [rs, q]
    · refine Goes.fn rfl ?_
      simp only [fn_skip_field]
      have g := goes_field_arms D ih ft ins s hs
      simp only [fieldArms] at g
      refine Goes.use g _ ?_ ?_ ?_
      · rintro _ s'' o N' _ hi' ⟨v, rfl⟩ q
        apply Exists.intro
        refine ⟨?_, ?_⟩
        rotate_left
        · intro n
          simp (disch := omega) only [rs, q, D.runtime.ok]
          rfl
        · simp [rs, Done, V.unit]
      · intro e fr s'' N' q
        apply Exists.intro; apply Exists.intro; intro n
        simp (disch := omega) only [rs, q]
        rfl
      · intro e s'' N' q n
        simp (disch := omega) only [rs, q]

/-- `skip_field` of protocol.rs:209-257 -/
theorem gives_skip (D : Device cfg debug P H Inv I owned) (ft : Byte) (ins : Bool) (s : σ) (hs : Inv s) :
    Gives Inv (fun n => runFn (eval cfg debug P H n) fn_skip_field [.self, .u8 ft, .bool ins] s) (I.skip cfg ft ins s)
      (fun _ => (.unit, [.self, .u8 ft, .bool ins])) :=
  (skips D (2 * I.size s + 2)).field ft ins s hs

/-- protocol.rs:91-93 -/
theorem gives_skip_field (D : Device cfg debug P H Inv I owned) (ft : Byte) (s : σ) (hs : Inv s) :
    Gives Inv (fun n => runFn (eval cfg debug P H n) fn_Input_skip_field [.self, .u8 ft] s) (I.skipField cfg ft s)
      (fun _ => (.unit, [.self, .u8 ft])) := by
  unfold Input.skipField
  rs_tail (gives_skip D ft false s hs) [fn_Input_skip_field, D.runtime.skip_field]

end
end CT.Rs
