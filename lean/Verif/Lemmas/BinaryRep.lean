import Verif.Lemmas.BinaryQuot

/-!
# Types that represent GF(2)[X] modulo a polynomial
-/
namespace Libff
open Polynomial

/-- A type with an injective map to a commutative ring that respects the operations. -/
abbrev commRingOfInj {G R : Type*} [Zero G] [One G] [Add G] [Sub G] [Neg G] [Mul G] [CommRing R] (φ : G → R)
    (hi : Function.Injective φ) (h0 : φ 0 = 0) (h1 : φ 1 = 1) (ha : ∀ a b, φ (a + b) = φ a + φ b)
    (hs : ∀ a b, φ (a - b) = φ a - φ b) (hn : ∀ a, φ (-a) = -φ a) (hm : ∀ a b, φ (a * b) = φ a * φ b) :
    CommRing G where
  add_assoc a b c := hi (by rw [ha, ha, ha, ha, add_assoc])
  zero_add a := hi (by rw [ha, h0, zero_add])
  add_zero a := hi (by rw [ha, h0, add_zero])
  add_comm a b := hi (by rw [ha, ha, add_comm])
  mul_assoc a b c := hi (by rw [hm, hm, hm, hm, mul_assoc])
  one_mul a := hi (by rw [hm, h1, one_mul])
  mul_one a := hi (by rw [hm, h1, mul_one])
  mul_comm a b := hi (by rw [hm, hm, mul_comm])
  left_distrib a b c := hi (by rw [hm, ha, ha, hm, hm, mul_add])
  right_distrib a b c := hi (by rw [hm, ha, ha, hm, hm, add_mul])
  zero_mul a := hi (by rw [hm, h0, zero_mul])
  mul_zero a := hi (by rw [hm, h0, mul_zero])
  sub_eq_add_neg a b := hi (by rw [hs, ha, hn, sub_eq_add_neg])
  neg_add_cancel a := hi (by rw [ha, hn, h0, neg_add_cancel])
  nsmul := nsmulRec
  zsmul := zsmulRec

/-- `nat` numbers the elements of `G` such that the operations are those modulo `f`. -/
structure BinRep {G : Type} [Zero G] [One G] [Add G] [Sub G] [Neg G] [Mul G] (nat : G → ℕ) (n : ℕ)
    (f : (ZMod 2)[X]) : Prop where
  monic : f.Monic
  natDegree : f.natDegree = n
  pos : 4 ≤ n
  lt : ∀ a, nat a < 2 ^ n
  inj : ∀ a b, nat a = nat b → a = b
  surj : ∀ v < 2 ^ n, ∃ a, nat a = v
  zero : nat 0 = 0
  one : nat 1 = 1
  add : ∀ a b, nEval (AdjoinRoot.root f) n (nat (a + b)) =
    nEval (AdjoinRoot.root f) n (nat a) + nEval (AdjoinRoot.root f) n (nat b)
  sub : ∀ a b : G, a - b = a + b
  neg : ∀ a : G, -a = a
  mul : ∀ a b, nEval (AdjoinRoot.root f) n (nat (a * b)) =
    nEval (AdjoinRoot.root f) n (nat a) * nEval (AdjoinRoot.root f) n (nat b)

namespace BinRep
section
variable {G : Type} [Zero G] [One G] [Add G] [Sub G] [Neg G] [Mul G] {nat : G → ℕ} {n : ℕ} {f : (ZMod 2)[X]}

theorem pos' (h : BinRep nat n f) : 0 < n := lt_of_lt_of_le (by norm_num) h.pos

theorem charP (h : BinRep nat n f) : CharP (AdjoinRoot f) 2 := quot_charP f n h.monic h.natDegree h.pos'

theorem φ_inj (h : BinRep nat n f) : Function.Injective fun a => nEval (AdjoinRoot.root f) n (nat a) :=
  fun a b e => h.inj a b (nEval_inj f n h.monic h.natDegree (h.lt a) (h.lt b) e)

theorem φ_zero (h : BinRep nat n f) : nEval (AdjoinRoot.root f) n (nat 0) = 0 := by rw [h.zero, nEval_zero]
theorem φ_one (h : BinRep nat n f) : nEval (AdjoinRoot.root f) n (nat 1) = 1 := by
  rw [h.one, nEval_one _ _ h.pos']
theorem φ_sub (h : BinRep nat n f) (a b : G) : nEval (AdjoinRoot.root f) n (nat (a - b)) =
    nEval (AdjoinRoot.root f) n (nat a) - nEval (AdjoinRoot.root f) n (nat b) := by
  have := h.charP
  rw [h.sub, h.add, CharTwo.sub_eq_add]
theorem φ_neg (h : BinRep nat n f) (a : G) : nEval (AdjoinRoot.root f) n (nat (-a)) =
    -nEval (AdjoinRoot.root f) n (nat a) := by
  have := h.charP
  rw [h.neg, CharTwo.neg_eq]

/-- The commutative ring. -/
noncomputable abbrev commRing (h : BinRep nat n f) : CommRing G :=
  commRingOfInj (fun a => nEval (AdjoinRoot.root f) n (nat a)) h.φ_inj h.φ_zero h.φ_one h.add h.φ_sub h.φ_neg h.mul

theorem polyArith (h : BinRep nat n f) : PolyArith G n (fun a => bitPoly n (nat a)) f := by
  have inj := fun {p q} hp hq => @mk_inj f n h.monic h.natDegree p q hp hq
  refine ⟨h.monic, h.natDegree, ?_, fun a => bitPoly_degree _ _, ?_, ?_, ?_, ?_, ?_, ?_⟩
  · intro p hp
    obtain ⟨v, hv, e⟩ := bitPoly_surj n p hp
    obtain ⟨a, rfl⟩ := h.surj v hv
    exact ⟨a, e, fun b hb => h.inj b a (bitPoly_inj (h.lt b) (h.lt a) (hb.trans e.symm))⟩
  · simp only [h.zero]; simp [bitPoly]
  · simp only [h.one]
    exact nEval_one _ _ h.pos'
  · intro a b
    refine inj (bitPoly_degree _ _) (lt_of_le_of_lt (degree_add_le _ _) (max_lt (bitPoly_degree _ _) (bitPoly_degree _ _))) ?_
    rw [map_add, ← nEval_root, ← nEval_root, ← nEval_root, h.add]
  · intro a b
    refine inj (bitPoly_degree _ _) (lt_of_le_of_lt (degree_sub_le _ _) (max_lt (bitPoly_degree _ _) (bitPoly_degree _ _))) ?_
    rw [map_sub, ← nEval_root, ← nEval_root, ← nEval_root, h.φ_sub]
  · intro a
    refine inj (bitPoly_degree _ _) (by rw [degree_neg]; exact bitPoly_degree _ _) ?_
    rw [map_neg, ← nEval_root, ← nEval_root, h.φ_neg]
  · intro a b
    refine inj (bitPoly_degree _ _) ?_ ?_
    · rw [← h.natDegree, ← degree_eq_natDegree h.monic.ne_zero]
      exact degree_modByMonic_lt _ h.monic
    · have e : AdjoinRoot.mk f ((bitPoly n (nat a) * bitPoly n (nat b)) %ₘ f) =
          AdjoinRoot.mk f (bitPoly n (nat a) * bitPoly n (nat b)) := by
        rw [AdjoinRoot.mk_eq_mk]
        refine ⟨-((bitPoly n (nat a) * bitPoly n (nat b)) /ₘ f), ?_⟩
        have := modByMonic_add_div (bitPoly n (nat a) * bitPoly n (nat b)) f
        linear_combination this
      rw [e, map_mul, ← nEval_root, ← nEval_root, ← nEval_root, h.mul]

end

section
variable {G : Type} [inst : CommRing G] {nat : G → ℕ} {n : ℕ} {f : (ZMod 2)[X]}

/-- The ring homomorphism to the quotient. -/
noncomputable def hom (h : BinRep nat n f) : G →+* AdjoinRoot f where
  toFun a := nEval (AdjoinRoot.root f) n (nat a)
  map_zero' := h.φ_zero
  map_one' := h.φ_one
  map_add' := h.add
  map_mul' := h.mul

theorem hom_apply (h : BinRep nat n f) (a : G) : h.hom a = nEval (AdjoinRoot.root f) n (nat a) := rfl

/-- The ring isomorphism with the quotient. -/
noncomputable def equiv (h : BinRep nat n f) : G ≃+* AdjoinRoot f :=
  RingEquiv.ofBijective h.hom ⟨h.φ_inj, fun y => by
    obtain ⟨v, hv, e⟩ := nEval_surj f n h.monic h.natDegree y
    obtain ⟨a, rfl⟩ := h.surj v hv
    exact ⟨a, e⟩⟩

theorem orderOf_eq (h : BinRep nat n f) (g : G) : orderOf g = orderOf (nEval (AdjoinRoot.root f) n (nat g)) :=
  (orderOf_injective h.hom.toMonoidHom h.φ_inj g).symm

/-- Every nonzero element is a power of one of order `2^n - 1`. -/
theorem exists_pow (h : BinRep nat n f) (g : G) (hg : orderOf g = 2 ^ n - 1) (a : G) (ha : a ≠ 0) :
    ∃ k < 2 ^ n - 1, g ^ k = a := by
  have h0 : h.hom a ≠ 0 := fun e => ha (h.φ_inj (e.trans h.φ_zero.symm))
  obtain ⟨k, hk, e⟩ := powers_of_order f n h.monic h.natDegree h.pos' (h.hom g)
    (by rw [hom_apply, ← h.orderOf_eq, hg]) (h.hom a) h0
  refine ⟨k, hk, h.φ_inj ?_⟩
  rw [← map_pow] at e
  exact e

theorem irreducible (h : BinRep nat n f) (g : G) (hg : orderOf g = 2 ^ n - 1) : Irreducible f :=
  irreducible_of_order f n h.monic h.natDegree h.pos' (h.hom g) (by rw [hom_apply, ← h.orderOf_eq, hg])

theorem pow_sub_one (h : BinRep nat n f) (g : G) (hg : orderOf g = 2 ^ n - 1) (a : G) (ha : a ≠ 0) :
    a ^ (2 ^ n - 1) = 1 := by
  obtain ⟨k, _, rfl⟩ := h.exists_pow g hg a ha
  rw [← pow_mul, mul_comm, pow_mul, ← hg, pow_orderOf_eq_one, one_pow]

theorem pow_card (h : BinRep nat n f) (g : G) (hg : orderOf g = 2 ^ n - 1) (a : G) : a ^ 2 ^ n = a := by
  by_cases ha : a = 0
  · subst ha; exact zero_pow (by positivity)
  · have := h.pow_sub_one g hg a ha
    rw [show 2 ^ n = 2 ^ n - 1 + 1 by have : 0 < 2 ^ n := by positivity
                                      omega, pow_succ, this, one_mul]

end
end BinRep

/-! ## Addition chains -/

theorem gfSquareN_eq {K : Type*} [Monoid K] (n : ℕ) (b : K) : gfSquareN n b = b ^ 2 ^ n := by
  unfold gfSquareN
  induction n with
  | zero => simp
  | succ n ih => rw [List.range_succ, List.foldl_append, List.foldl_cons, List.foldl_nil, ih, ← pow_add]; congr 1; ring

theorem gfInvRound_spec {K : Type*} [MonoidWithZero K] (el : K) (i : ℕ) :
    (List.range (i + 1)).foldl gfInvRound (el, 0) = (el ^ (2 ^ 2 ^ (i + 1) - 1), el ^ (2 ^ 2 ^ (i + 1) - 2)) := by
  induction i with
  | zero =>
    show gfInvRound (el, 0) 0 = _
    have e : gfSquareN (1 <<< 0) el = el ^ 2 := by rw [gfSquareN_eq]; norm_num
    simp only [gfInvRound, e, if_true]
    congr 1
    rw [← pow_succ']; norm_num
  | succ i ih =>
    rw [List.range_succ, List.foldl_append, ih, List.foldl_cons, List.foldl_nil]
    simp only [gfInvRound, gfSquareN_eq, Nat.shiftLeft_eq, one_mul, Nat.succ_ne_zero, if_false]
    have h1 : 2 ^ 2 ^ (i + 1 + 1) = 2 ^ 2 ^ (i + 1) * 2 ^ 2 ^ (i + 1) := by rw [← pow_add]; congr 1; ring
    have h2 : 2 ≤ 2 ^ 2 ^ (i + 1) := by
      calc 2 = 2 ^ 1 := rfl
        _ ≤ _ := Nat.pow_le_pow_right (by norm_num) Nat.one_le_two_pow
    rw [h1]
    generalize 2 ^ 2 ^ (i + 1) = q at *
    obtain ⟨q, rfl⟩ := Nat.exists_eq_add_of_le h2
    rw [show 2 + q - 1 = q + 1 by omega, show 2 + q - 2 = q by omega,
      show (2 + q) * (2 + q) - 1 = (q + 1) * (2 + q) + (q + 1) by
        have : (2 + q) * (2 + q) = (q + 1) * (2 + q) + (q + 1) + 1 := by ring
        omega,
      show (2 + q) * (2 + q) - 2 = q + (q + 1) * (2 + q) by
        have : (2 + q) * (2 + q) = q + (q + 1) * (2 + q) + 2 := by ring
        omega]
    rw [← pow_mul, ← pow_add, ← pow_add]
    congr 2
    ring

theorem gfInvLoop_eq {K : Type*} [MonoidWithZero K] (last : ℕ) (el : K) :
    gfInvLoop last el = el ^ (2 ^ 2 ^ (last + 1) - 2) := by
  rw [gfInvLoop, gfInvRound_spec]

end Libff
