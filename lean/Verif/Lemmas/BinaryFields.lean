import Verif.Lemmas.BinaryRep
import Verif.Lemmas.PrimesBinary
import Mathlib.Tactic.ComputeDegree

/-!
# The five binary fields
-/
namespace Libff
open Polynomial

/-! ## GF32 -/
namespace GF32
theorem monic : gf32Poly.Monic := by unfold gf32Poly; monicity!
theorem natDegree : gf32Poly.natDegree = 32 := by unfold gf32Poly; compute_degree!
instance instCharP : CharP (AdjoinRoot gf32Poly) 2 := quot_charP _ 32 monic natDegree (by norm_num)

theorem root_eq : (AdjoinRoot.root gf32Poly) ^ 32 = (AdjoinRoot.root gf32Poly) ^ 22 + (AdjoinRoot.root gf32Poly) ^ 2 + (AdjoinRoot.root gf32Poly) + 1 := by
  obtain ⟨p, hp⟩ : ∃ p, p = gf32Poly := ⟨_, rfl⟩
  have h : AdjoinRoot.mk gf32Poly p = 0 := by rw [hp]; exact AdjoinRoot.mk_self
  unfold gf32Poly at hp
  rw [hp] at h
  clear hp
  simp only [map_add, map_pow, AdjoinRoot.mk_X, map_one] at h
  have two := two_eq_zero' (R := AdjoinRoot gf32Poly)
  generalize AdjoinRoot.root gf32Poly = x at h ⊢
  linear_combination h - (x ^ 22 + x ^ 2 + x + 1) * two


theorem nEval_modulus : (AdjoinRoot.root gf32Poly) ^ 32 = nEval (AdjoinRoot.root gf32Poly) 32 4194311 := by
  rw [root_eq]
  generalize AdjoinRoot.root gf32Poly = x
  have : nEval x 32 4194311 = bvEval x (4194311#32) := rfl
  rw [this]
  simp only [bvEval, Finset.sum_range_succ, Finset.sum_range_zero]
  simp; ring


theorem eval_eq {R : Type*} [CommRing R] (x : R) (a : GF32) : nEval x 32 a.nat = a.eval x := rfl


theorem rep : BinRep nat 32 gf32Poly where
  monic := monic
  natDegree := natDegree
  pos := by norm_num
  lt a := a.value.isLt
  inj a b h := GF32.ext (BitVec.eq_of_toNat_eq h)
  surj v hv := ⟨⟨BitVec.ofNat 32 v⟩, by rw [nat, BitVec.toNat_ofNat, Nat.mod_eq_of_lt hv]⟩
  zero := rfl
  one := rfl
  add a b := eval_add _ a b
  sub _ _ := rfl
  neg _ := rfl
  mul a b := eval_mul root_eq a b


noncomputable instance instCommRing : CommRing GF32 := rep.commRing

set_option maxRecDepth 100000 in
theorem order_root : orderOf (nEval (AdjoinRoot.root gf32Poly) 32 2) = 2 ^ 32 - 1 :=
  ordOk_spec gf32Poly 32 4194311 [0, 1, 2, 22] monic natDegree (by norm_num) (by norm_num) nEval_modulus 2 (2 ^ 32 - 1)
    (by norm_num) (by norm_num) (by norm_num) [3, 5, 17, 257, 65537]
    (List.forall_mem_cons.2 ⟨bprime_3, List.forall_mem_cons.2 ⟨bprime_5, List.forall_mem_cons.2 ⟨bprime_17, List.forall_mem_cons.2 ⟨bprime_257, List.forall_mem_cons.2 ⟨bprime_65537, List.forall_mem_nil _⟩⟩⟩⟩⟩)
    (by decide +kernel)

/-- A generator of the multiplicative group. -/
def prim : GF32 := ⟨2⟩

theorem order_prim : orderOf prim = 2 ^ 32 - 1 := by
  rw [rep.orderOf_eq]
  exact order_root

end GF32

/-! ## GF64 -/
namespace GF64
theorem monic : gf64Poly.Monic := by unfold gf64Poly; monicity!
theorem natDegree : gf64Poly.natDegree = 64 := by unfold gf64Poly; compute_degree!
instance instCharP : CharP (AdjoinRoot gf64Poly) 2 := quot_charP _ 64 monic natDegree (by norm_num)

theorem root_eq : (AdjoinRoot.root gf64Poly) ^ 64 = (AdjoinRoot.root gf64Poly) ^ 4 + (AdjoinRoot.root gf64Poly) ^ 3 + (AdjoinRoot.root gf64Poly) + 1 := by
  obtain ⟨p, hp⟩ : ∃ p, p = gf64Poly := ⟨_, rfl⟩
  have h : AdjoinRoot.mk gf64Poly p = 0 := by rw [hp]; exact AdjoinRoot.mk_self
  unfold gf64Poly at hp
  rw [hp] at h
  clear hp
  simp only [map_add, map_pow, AdjoinRoot.mk_X, map_one] at h
  have two := two_eq_zero' (R := AdjoinRoot gf64Poly)
  generalize AdjoinRoot.root gf64Poly = x at h ⊢
  linear_combination h - (x ^ 4 + x ^ 3 + x + 1) * two


theorem nEval_modulus : (AdjoinRoot.root gf64Poly) ^ 64 = nEval (AdjoinRoot.root gf64Poly) 64 27 := by
  rw [root_eq]
  have h2 : nEval (AdjoinRoot.root gf64Poly) 64 27 = bvEval (AdjoinRoot.root gf64Poly) modulus := rfl
  rw [h2, eval_modulus]


theorem eval_eq {R : Type*} [CommRing R] (x : R) (a : GF64) : nEval x 64 a.nat = a.eval x := rfl


theorem rep : BinRep nat 64 gf64Poly where
  monic := monic
  natDegree := natDegree
  pos := by norm_num
  lt a := a.value.isLt
  inj a b h := GF64.ext (BitVec.eq_of_toNat_eq h)
  surj v hv := ⟨⟨BitVec.ofNat 64 v⟩, by rw [nat, BitVec.toNat_ofNat, Nat.mod_eq_of_lt hv]⟩
  zero := rfl
  one := rfl
  add a b := eval_add _ a b
  sub _ _ := rfl
  neg _ := rfl
  mul a b := eval_mul root_eq a b


noncomputable instance instCommRing : CommRing GF64 := rep.commRing

set_option maxRecDepth 100000 in
theorem order_root : orderOf (nEval (AdjoinRoot.root gf64Poly) 64 2) = 2 ^ 64 - 1 :=
  ordOk_spec gf64Poly 64 27 [0, 1, 3, 4] monic natDegree (by norm_num) (by norm_num) nEval_modulus 2 (2 ^ 64 - 1)
    (by norm_num) (by norm_num) (by norm_num) [3, 5, 17, 257, 65537, 641, 6700417]
    (List.forall_mem_cons.2 ⟨bprime_3, List.forall_mem_cons.2 ⟨bprime_5, List.forall_mem_cons.2 ⟨bprime_17, List.forall_mem_cons.2 ⟨bprime_257, List.forall_mem_cons.2 ⟨bprime_65537, List.forall_mem_cons.2 ⟨bprime_641, List.forall_mem_cons.2 ⟨bprime_6700417, List.forall_mem_nil _⟩⟩⟩⟩⟩⟩⟩)
    (by decide +kernel)

/-- A generator of the multiplicative group. -/
def prim : GF64 := ⟨2⟩

theorem order_prim : orderOf prim = 2 ^ 64 - 1 := by
  rw [rep.orderOf_eq]
  exact order_root

end GF64

/-! ## GF128 -/
namespace GF128
theorem monic : gf128Poly.Monic := by unfold gf128Poly; monicity!
theorem natDegree : gf128Poly.natDegree = 128 := by unfold gf128Poly; compute_degree!
instance instCharP : CharP (AdjoinRoot gf128Poly) 2 := quot_charP _ 128 monic natDegree (by norm_num)

theorem root_eq : (AdjoinRoot.root gf128Poly) ^ 128 = (AdjoinRoot.root gf128Poly) ^ 7 + (AdjoinRoot.root gf128Poly) ^ 2 + (AdjoinRoot.root gf128Poly) + 1 := by
  obtain ⟨p, hp⟩ : ∃ p, p = gf128Poly := ⟨_, rfl⟩
  have h : AdjoinRoot.mk gf128Poly p = 0 := by rw [hp]; exact AdjoinRoot.mk_self
  unfold gf128Poly at hp
  rw [hp] at h
  clear hp
  simp only [map_add, map_pow, AdjoinRoot.mk_X, map_one] at h
  have two := two_eq_zero' (R := AdjoinRoot gf128Poly)
  generalize AdjoinRoot.root gf128Poly = x at h ⊢
  linear_combination h - (x ^ 7 + x ^ 2 + x + 1) * two


theorem nEval_modulus : (AdjoinRoot.root gf128Poly) ^ 128 = nEval (AdjoinRoot.root gf128Poly) 128 135 := by
  rw [root_eq]
  have h1 := nEval_ge (AdjoinRoot.root gf128Poly) 64 64 135 (by norm_num)
  have h2 : nEval (AdjoinRoot.root gf128Poly) 64 135 = bvEval (AdjoinRoot.root gf128Poly) modulus := rfl
  rw [h2, eval_modulus] at h1
  exact h1.symm


theorem eval_eq {R : Type*} [CommRing R] (x : R) (a : GF128) : nEval x 128 a.nat = a.eval x := by
  have l0 : a.v0.toNat < 2 ^ 64 := by
    have h0 := a.v0.isLt; omega
  have e1 := nEval_add_mul x 64 64 (a.v0.toNat) a.v1.toNat l0
  norm_num only at e1 ⊢
  unfold nat eval
  norm_num only at e1 ⊢
  rw [e1]
  rfl


theorem rep : BinRep nat 128 gf128Poly where
  monic := monic
  natDegree := natDegree
  pos := by norm_num
  lt a := by
    have h0 := a.v0.isLt; have h1 := a.v1.isLt; unfold nat; omega
  inj a b h := by
    have h0 := a.v0.isLt; have g0 := b.v0.isLt; have h1 := a.v1.isLt; have g1 := b.v1.isLt;
    unfold nat at h
    apply GF128.ext <;> apply BitVec.eq_of_toNat_eq <;> omega
  surj v hv := by
    refine ⟨⟨BitVec.ofNat 64 v, BitVec.ofNat 64 (v / 2 ^ 64)⟩, ?_⟩
    simp only [nat, BitVec.toNat_ofNat]
    omega
  zero := rfl
  one := rfl
  add a b := by rw [eval_eq, eval_eq, eval_eq]; exact eval_add _ a b
  sub _ _ := rfl
  neg _ := rfl
  mul a b := by rw [eval_eq, eval_eq, eval_eq]; exact eval_mul root_eq a b


noncomputable instance instCommRing : CommRing GF128 := rep.commRing

set_option maxRecDepth 100000 in
theorem order_root : orderOf (nEval (AdjoinRoot.root gf128Poly) 128 2) = 2 ^ 128 - 1 :=
  ordOk_spec gf128Poly 128 135 [0, 1, 2, 7] monic natDegree (by norm_num) (by norm_num) nEval_modulus 2 (2 ^ 128 - 1)
    (by norm_num) (by norm_num) (by norm_num) [3, 5, 17, 257, 65537, 641, 6700417, 274177, 67280421310721]
    (List.forall_mem_cons.2 ⟨bprime_3, List.forall_mem_cons.2 ⟨bprime_5, List.forall_mem_cons.2 ⟨bprime_17, List.forall_mem_cons.2 ⟨bprime_257, List.forall_mem_cons.2 ⟨bprime_65537, List.forall_mem_cons.2 ⟨bprime_641, List.forall_mem_cons.2 ⟨bprime_6700417, List.forall_mem_cons.2 ⟨bprime_274177, List.forall_mem_cons.2 ⟨bprime_67280421310721, List.forall_mem_nil _⟩⟩⟩⟩⟩⟩⟩⟩⟩)
    (by decide +kernel)

/-- A generator of the multiplicative group. -/
def prim : GF128 := ⟨2, 0⟩

theorem order_prim : orderOf prim = 2 ^ 128 - 1 := by
  rw [rep.orderOf_eq]
  exact order_root

end GF128

/-! ## GF192 -/
namespace GF192
theorem monic : gf192Poly.Monic := by unfold gf192Poly; monicity!
theorem natDegree : gf192Poly.natDegree = 192 := by unfold gf192Poly; compute_degree!
instance instCharP : CharP (AdjoinRoot gf192Poly) 2 := quot_charP _ 192 monic natDegree (by norm_num)

theorem root_eq : (AdjoinRoot.root gf192Poly) ^ 192 = (AdjoinRoot.root gf192Poly) ^ 7 + (AdjoinRoot.root gf192Poly) ^ 2 + (AdjoinRoot.root gf192Poly) + 1 := by
  obtain ⟨p, hp⟩ : ∃ p, p = gf192Poly := ⟨_, rfl⟩
  have h : AdjoinRoot.mk gf192Poly p = 0 := by rw [hp]; exact AdjoinRoot.mk_self
  unfold gf192Poly at hp
  rw [hp] at h
  clear hp
  simp only [map_add, map_pow, AdjoinRoot.mk_X, map_one] at h
  have two := two_eq_zero' (R := AdjoinRoot gf192Poly)
  generalize AdjoinRoot.root gf192Poly = x at h ⊢
  linear_combination h - (x ^ 7 + x ^ 2 + x + 1) * two


theorem nEval_modulus : (AdjoinRoot.root gf192Poly) ^ 192 = nEval (AdjoinRoot.root gf192Poly) 192 135 := by
  rw [root_eq]
  have h1 := nEval_ge (AdjoinRoot.root gf192Poly) 64 128 135 (by norm_num)
  have h2 : nEval (AdjoinRoot.root gf192Poly) 64 135 = bvEval (AdjoinRoot.root gf192Poly) modulus := rfl
  rw [h2, eval_modulus] at h1
  exact h1.symm


theorem eval_eq {R : Type*} [CommRing R] (x : R) (a : GF192) : nEval x 192 a.nat = a.eval x := by
  have l0 : a.v0.toNat < 2 ^ 64 := by
    have h0 := a.v0.isLt; omega
  have l1 : a.v0.toNat + 2 ^ 64 * a.v1.toNat < 2 ^ 128 := by
    have h0 := a.v0.isLt; have h1 := a.v1.isLt; omega
  have e1 := nEval_add_mul x 64 64 (a.v0.toNat) a.v1.toNat l0
  have e2 := nEval_add_mul x 128 64 (a.v0.toNat + 2 ^ 64 * a.v1.toNat) a.v2.toNat l1
  norm_num only at e1 e2 ⊢
  unfold nat eval
  norm_num only at e1 e2 ⊢
  rw [e2, e1]
  rfl


theorem rep : BinRep nat 192 gf192Poly where
  monic := monic
  natDegree := natDegree
  pos := by norm_num
  lt a := by
    have h0 := a.v0.isLt; have h1 := a.v1.isLt; have h2 := a.v2.isLt; unfold nat; omega
  inj a b h := by
    have h0 := a.v0.isLt; have g0 := b.v0.isLt; have h1 := a.v1.isLt; have g1 := b.v1.isLt; have h2 := a.v2.isLt; have g2 := b.v2.isLt;
    unfold nat at h
    apply GF192.ext <;> apply BitVec.eq_of_toNat_eq <;> omega
  surj v hv := by
    refine ⟨⟨BitVec.ofNat 64 v, BitVec.ofNat 64 (v / 2 ^ 64), BitVec.ofNat 64 (v / 2 ^ 128)⟩, ?_⟩
    simp only [nat, BitVec.toNat_ofNat]
    omega
  zero := rfl
  one := rfl
  add a b := by rw [eval_eq, eval_eq, eval_eq]; exact eval_add _ a b
  sub _ _ := rfl
  neg _ := rfl
  mul a b := by rw [eval_eq, eval_eq, eval_eq]; exact eval_mul root_eq a b


noncomputable instance instCommRing : CommRing GF192 := rep.commRing

set_option maxRecDepth 100000 in
theorem order_root : orderOf (nEval (AdjoinRoot.root gf192Poly) 192 7) = 2 ^ 192 - 1 :=
  ordOk_spec gf192Poly 192 135 [0, 1, 2, 7] monic natDegree (by norm_num) (by norm_num) nEval_modulus 7 (2 ^ 192 - 1)
    (by norm_num) (by norm_num) (by norm_num) [3, 3, 5, 7, 13, 17, 97, 193, 241, 257, 673, 65537, 22253377, 641, 6700417, 18446744069414584321]
    (List.forall_mem_cons.2 ⟨bprime_3, List.forall_mem_cons.2 ⟨bprime_3, List.forall_mem_cons.2 ⟨bprime_5, List.forall_mem_cons.2 ⟨bprime_7, List.forall_mem_cons.2 ⟨bprime_13, List.forall_mem_cons.2 ⟨bprime_17, List.forall_mem_cons.2 ⟨bprime_97, List.forall_mem_cons.2 ⟨bprime_193, List.forall_mem_cons.2 ⟨bprime_241, List.forall_mem_cons.2 ⟨bprime_257, List.forall_mem_cons.2 ⟨bprime_673, List.forall_mem_cons.2 ⟨bprime_65537, List.forall_mem_cons.2 ⟨bprime_22253377, List.forall_mem_cons.2 ⟨bprime_641, List.forall_mem_cons.2 ⟨bprime_6700417, List.forall_mem_cons.2 ⟨bprime_18446744069414584321, List.forall_mem_nil _⟩⟩⟩⟩⟩⟩⟩⟩⟩⟩⟩⟩⟩⟩⟩⟩)
    (by decide +kernel)

/-- A generator of the multiplicative group. -/
def prim : GF192 := ⟨7, 0, 0⟩

theorem order_prim : orderOf prim = 2 ^ 192 - 1 := by
  rw [rep.orderOf_eq]
  exact order_root


set_option maxRecDepth 100000 in
theorem order_generator : orderOf generator = (2 ^ 192 - 1) / 2169 := by
  rw [rep.orderOf_eq]
  exact ordOk_spec gf192Poly 192 135 [0, 1, 2, 7] monic natDegree (by norm_num) (by norm_num) nEval_modulus 2
    ((2 ^ 192 - 1) / 2169) (by norm_num) (by norm_num) (by norm_num) [5, 7, 13, 17, 97, 193, 257, 673, 65537, 22253377, 641, 6700417, 18446744069414584321]
    (List.forall_mem_cons.2 ⟨bprime_5, List.forall_mem_cons.2 ⟨bprime_7, List.forall_mem_cons.2 ⟨bprime_13, List.forall_mem_cons.2 ⟨bprime_17, List.forall_mem_cons.2 ⟨bprime_97, List.forall_mem_cons.2 ⟨bprime_193, List.forall_mem_cons.2 ⟨bprime_257, List.forall_mem_cons.2 ⟨bprime_673, List.forall_mem_cons.2 ⟨bprime_65537, List.forall_mem_cons.2 ⟨bprime_22253377, List.forall_mem_cons.2 ⟨bprime_641, List.forall_mem_cons.2 ⟨bprime_6700417, List.forall_mem_cons.2 ⟨bprime_18446744069414584321, List.forall_mem_nil _⟩⟩⟩⟩⟩⟩⟩⟩⟩⟩⟩⟩⟩)
    (by decide +kernel)

end GF192

/-! ## GF256 -/
namespace GF256
theorem monic : gf256Poly.Monic := by unfold gf256Poly; monicity!
theorem natDegree : gf256Poly.natDegree = 256 := by unfold gf256Poly; compute_degree!
instance instCharP : CharP (AdjoinRoot gf256Poly) 2 := quot_charP _ 256 monic natDegree (by norm_num)

theorem root_eq : (AdjoinRoot.root gf256Poly) ^ 256 = (AdjoinRoot.root gf256Poly) ^ 10 + (AdjoinRoot.root gf256Poly) ^ 5 + (AdjoinRoot.root gf256Poly) ^ 2 + 1 := by
  obtain ⟨p, hp⟩ : ∃ p, p = gf256Poly := ⟨_, rfl⟩
  have h : AdjoinRoot.mk gf256Poly p = 0 := by rw [hp]; exact AdjoinRoot.mk_self
  unfold gf256Poly at hp
  rw [hp] at h
  clear hp
  simp only [map_add, map_pow, AdjoinRoot.mk_X, map_one] at h
  have two := two_eq_zero' (R := AdjoinRoot gf256Poly)
  generalize AdjoinRoot.root gf256Poly = x at h ⊢
  linear_combination h - (x ^ 10 + x ^ 5 + x ^ 2 + 1) * two


theorem nEval_modulus : (AdjoinRoot.root gf256Poly) ^ 256 = nEval (AdjoinRoot.root gf256Poly) 256 1061 := by
  rw [root_eq]
  have h1 := nEval_ge (AdjoinRoot.root gf256Poly) 64 192 1061 (by norm_num)
  have h2 : nEval (AdjoinRoot.root gf256Poly) 64 1061 = bvEval (AdjoinRoot.root gf256Poly) modulus := rfl
  rw [h2, eval_modulus] at h1
  exact h1.symm


theorem eval_eq {R : Type*} [CommRing R] (x : R) (a : GF256) : nEval x 256 a.nat = a.eval x := by
  have l0 : a.v0.toNat < 2 ^ 64 := by
    have h0 := a.v0.isLt; omega
  have l1 : a.v0.toNat + 2 ^ 64 * a.v1.toNat < 2 ^ 128 := by
    have h0 := a.v0.isLt; have h1 := a.v1.isLt; omega
  have l2 : a.v0.toNat + 2 ^ 64 * a.v1.toNat + 2 ^ 128 * a.v2.toNat < 2 ^ 192 := by
    have h0 := a.v0.isLt; have h1 := a.v1.isLt; have h2 := a.v2.isLt; omega
  have e1 := nEval_add_mul x 64 64 (a.v0.toNat) a.v1.toNat l0
  have e2 := nEval_add_mul x 128 64 (a.v0.toNat + 2 ^ 64 * a.v1.toNat) a.v2.toNat l1
  have e3 := nEval_add_mul x 192 64 (a.v0.toNat + 2 ^ 64 * a.v1.toNat + 2 ^ 128 * a.v2.toNat) a.v3.toNat l2
  norm_num only at e1 e2 e3 ⊢
  unfold nat eval
  norm_num only at e1 e2 e3 ⊢
  rw [e3, e2, e1]
  rfl


theorem rep : BinRep nat 256 gf256Poly where
  monic := monic
  natDegree := natDegree
  pos := by norm_num
  lt a := by
    have h0 := a.v0.isLt; have h1 := a.v1.isLt; have h2 := a.v2.isLt; have h3 := a.v3.isLt; unfold nat; omega
  inj a b h := by
    have h0 := a.v0.isLt; have g0 := b.v0.isLt; have h1 := a.v1.isLt; have g1 := b.v1.isLt; have h2 := a.v2.isLt; have g2 := b.v2.isLt; have h3 := a.v3.isLt; have g3 := b.v3.isLt;
    unfold nat at h
    apply GF256.ext <;> apply BitVec.eq_of_toNat_eq <;> omega
  surj v hv := by
    refine ⟨⟨BitVec.ofNat 64 v, BitVec.ofNat 64 (v / 2 ^ 64), BitVec.ofNat 64 (v / 2 ^ 128), BitVec.ofNat 64 (v / 2 ^ 192)⟩, ?_⟩
    simp only [nat, BitVec.toNat_ofNat]
    omega
  zero := rfl
  one := rfl
  add a b := by rw [eval_eq, eval_eq, eval_eq]; exact eval_add _ a b
  sub _ _ := rfl
  neg _ := rfl
  mul a b := by rw [eval_eq, eval_eq, eval_eq]; exact eval_mul root_eq a b


noncomputable instance instCommRing : CommRing GF256 := rep.commRing

set_option maxRecDepth 100000 in
theorem order_root : orderOf (nEval (AdjoinRoot.root gf256Poly) 256 2) = 2 ^ 256 - 1 :=
  ordOk_spec gf256Poly 256 1061 [0, 2, 5, 10] monic natDegree (by norm_num) (by norm_num) nEval_modulus 2 (2 ^ 256 - 1)
    (by norm_num) (by norm_num) (by norm_num) [3, 5, 17, 257, 65537, 641, 6700417, 274177, 67280421310721, 59649589127497217, 5704689200685129054721]
    (List.forall_mem_cons.2 ⟨bprime_3, List.forall_mem_cons.2 ⟨bprime_5, List.forall_mem_cons.2 ⟨bprime_17, List.forall_mem_cons.2 ⟨bprime_257, List.forall_mem_cons.2 ⟨bprime_65537, List.forall_mem_cons.2 ⟨bprime_641, List.forall_mem_cons.2 ⟨bprime_6700417, List.forall_mem_cons.2 ⟨bprime_274177, List.forall_mem_cons.2 ⟨bprime_67280421310721, List.forall_mem_cons.2 ⟨bprime_59649589127497217, List.forall_mem_cons.2 ⟨bprime_5704689200685129054721, List.forall_mem_nil _⟩⟩⟩⟩⟩⟩⟩⟩⟩⟩⟩)
    (by decide +kernel)

/-- A generator of the multiplicative group. -/
def prim : GF256 := ⟨2, 0, 0, 0⟩

theorem order_prim : orderOf prim = 2 ^ 256 - 1 := by
  rw [rep.orderOf_eq]
  exact order_root

end GF256

end Libff
