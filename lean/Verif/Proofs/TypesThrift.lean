import Verif.Proofs.TypesWrites

/-! # `read_thrift`, and the methods of `EncodingSet` -/

namespace CT.Rs
open CT Spec

attribute [local irreducible] evalT

section
variable {δ : Type}

@[rs] theorem evCallT_fill (C : Ctx δ) (es : List Expr) (v : Val) (fr : Frame) (u : Val) (d : δ) :
    evCallT C [n! "Self", n! "fill_thrift"] es [.ref (.obj v), .self] fr ⟨u, some d⟩ = (match C.own.fill v d with
      | .ok (w, d) => .val (.ok .unit) (putBacks es [.ref (.obj w), .self] fr) ⟨u, some d⟩
      | .error (.err e, w) => .val (.err (.thrift e)) (putBacks es [.ref (.obj w), .self] fr) ⟨u, none⟩
      | .error (f, _) => .fail f ⟨u, none⟩) := (rfl)

theorem trait_read (ty : RTy) : implFn ty (n! "read_thrift") = some fn_Protocol_read_thrift := by cases ty <;> rfl

/-- `read_thrift`: the default value, filled. -/
theorem readText_eq (cfg : Cfg) (D : Api δ) (ty : RTy) (M : Methods δ) (d : δ) : readText cfg D ty M d = (M.fill M.dflt).forget d := by
  simp only [readText, trait_read, runT, runFn, fn_Protocol_read_thrift, Fl.forget]
  rcases h : M.fill M.dflt d with ⟨f, w⟩ | ⟨w, d'⟩
  · cases f <;> rt_simp [h]
  · rt_simp [h]

theorem own_len (cfg : Cfg) (mask : BitVec 32) : ownText cfg (n! "len") mask = some (.usize (BitVec.ofNat 64 (encodingSetLen mask))) := by
  have hl : encodingSetLen mask ≤ 32 := by rw [encodingSetLen_eq]; exact members_length_le mask
  have hc : BitVec.setWidth 64 (BitVec.ofNat 32 (countOnes mask)) = BitVec.ofNat 64 (encodingSetLen mask) := by
    have : countOnes mask = encodingSetLen mask := rfl
    rw [this]
    apply BitVec.eq_of_toNat_eq
    simp only [BitVec.toNat_setWidth, BitVec.toNat_ofNat]
    omega
  have hf : inherentFn .encodingSet (n! "len") = some ty_own_encodingSet_len := rfl
  simp only [ownText, hf, runT, runFn, ty_own_encodingSet_len, bareCtx]
  rt_simp [hc]

theorem own_is_empty (cfg : Cfg) (mask : BitVec 32) : ownText cfg (n! "is_empty") mask = some (.bool (encodingSetIsEmpty mask)) := by
  have hf : inherentFn .encodingSet (n! "is_empty") = some ty_own_encodingSet_is_empty := rfl
  simp only [ownText, hf, runT, runFn, ty_own_encodingSet_is_empty, bareCtx]
  rt_simp []
  rfl

theorem own_iter (cfg : Cfg) (mask : BitVec 32) :
    ownText cfg (n! "iter") mask = some (.gen iterBody [(n! "mask", .u32 mask), (n! "self", .place none)]) := by
  have hf : inherentFn .encodingSet (n! "iter") = some ty_own_encodingSet_iter := rfl
  simp only [ownText, hf, runT, runFn, ty_own_encodingSet_iter, bareCtx, iterBody]
  rt_simp []
  rfl

theorem genItems_eq (cfg : Cfg) (m : BitVec 32) (n : Nat) : ∀ mask : BitVec 32, (members mask).length < n →
    genItems cfg m iterBody n [(n! "mask", .u32 mask), (n! "self", .place none)] =
      some ((members mask).map fun i => .tuple [.i32 (BitVec.ofNat 32 i)]) := by
  induction n with
  | zero => intro mask h; omega
  | succ n ih =>
    intro mask h
    by_cases h0 : mask = 0#32
    · subst h0
      simp only [genItems, bareCtx]
      rw [iter_zero _ _ _ _ 20]
      rfl
    · obtain ⟨j, hj, hlow⟩ := exists_lowest mask h0
      have htz := trailingZeros_eq mask j hj (BitVec.lt_of_getLsbD hj) hlow
      have e := members_lowest mask j hj hlow
      rw [e] at h ⊢
      simp only [genItems, bareCtx]
      rw [iter_next _ _ _ _ 20 mask h0, htz]
      dsimp only [List.headD]
      rw [ih _ (by simpa using h)]
      rfl

end
end CT.Rs
