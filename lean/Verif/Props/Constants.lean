import Verif.Lemmas.ConstantsCheck
import Verif.Spec.TowerConst
import Verif.Spec.Sqrt
import Verif.Props.FpIO
import Verif.Props.Algorithms
import Verif.Lemmas.FpType
import Mathlib.GroupTheory.SpecificGroups.Cyclic

/-! # C52: the constants of the prime fields -/
namespace Libff

/-- C52. All static data of the two prime fields of alt_bn128 are consistent. -/
theorem C52_alt_bn128_prime_fields : alt_bn128_Fr_data.Consistent ∧ alt_bn128_Fq_data.Consistent :=
  ⟨alt_bn128_Fr_consistent, alt_bn128_Fq_consistent⟩

/-- C52. All static data of the two prime fields of bls12_381 are consistent. -/
theorem C52_bls12_381_prime_fields : bls12_381_Fr_data.Consistent ∧ bls12_381_Fq_data.Consistent :=
  ⟨bls12_381_Fr_consistent, bls12_381_Fq_consistent⟩

/-- C52. All static data of the two prime fields of bn128 are consistent. -/
theorem C52_bn128_prime_fields : bn128_Fr_data.Consistent ∧ bn128_Fq_data.Consistent :=
  ⟨bn128_Fr_consistent, bn128_Fq_consistent⟩

/-- C52. All static data of the two prime fields of mnt4 are consistent. -/
theorem C52_mnt4_prime_fields : mnt4_Fr_data.Consistent ∧ mnt4_Fq_data.Consistent :=
  ⟨mnt4_Fr_consistent, mnt4_Fq_consistent⟩

/-- C52. All static data of the two prime fields of mnt6 are consistent. -/
theorem C52_mnt6_prime_fields : mnt6_Fr_data.Consistent ∧ mnt6_Fq_data.Consistent :=
  ⟨mnt6_Fr_consistent, mnt6_Fq_consistent⟩

/-- C52. All static data of the two prime fields of edwards are consistent. -/
theorem C52_edwards_prime_fields : edwards_Fr_data.Consistent ∧ edwards_Fq_data.Consistent :=
  ⟨edwards_Fr_consistent, edwards_Fq_consistent⟩

/-- The limb count and `num_bits` meet the hypothesis of the `to_words`/`from_words` theorems. -/
theorem C52_bit_size (D : PrimeField) (h : D.Consistent) : BitSize D.P D.numBits :=
  ⟨h.bits_lo, h.bits_hi, h.limbs⟩

/-- The square root constants of a prime field as `tonelliShanks` receives them. -/
def PrimeField.sqrtConsts (D : PrimeField) [Fact D.P.Valid] : SqrtConsts (Fp D.P) :=
  ⟨D.s, limbsOf D.P.n D.t, limbsOf D.P.n D.tMinus1Over2, (D.nqr : Fp D.P), (D.nqrToT : Fp D.P)⟩

/-- The square root constants of an extension field; `n` is the size of the stored `bigint`s. -/
def ExtField.sqrtConsts {E L : Type} (D : ExtField E) (n : Nat) (dec : E → L) : SqrtConsts L :=
  ⟨D.s, limbsOf n D.t, limbsOf n D.tMinus1Over2, dec D.nqr, dec D.nqrToT⟩

/-- C52. Consistent data meet the hypotheses of C09 and C10 (square roots). -/
theorem C52_prime_sqrt (D : PrimeField) (h : D.Consistent) [hv : Fact D.P.Valid] [Fact D.P.p.Prime] :
    D.sqrtConsts.Valid := by
  have hp : D.P.p < 2 ^ (64 * D.P.n) := by
    have := hv.out.topBit; have := hv.out.one_lt; omega
  have ht : D.t < D.P.p := by
    have := h.card
    have : 1 * D.t ≤ 2 ^ D.s * D.t := Nat.mul_le_mul_right _ Nat.one_le_two_pow
    omega
  have hv1 : val (limbsOf D.P.n D.t) = D.t := by rw [val_limbsOf, Nat.mod_eq_of_lt (by omega)]
  have hv2 : val (limbsOf D.P.n D.tMinus1Over2) = D.tMinus1Over2 := by
    rw [val_limbsOf, Nat.mod_eq_of_lt (by have := h.t_odd; omega)]
  refine ⟨h.s_pos, ?_, ?_, ?_, ?_⟩
  · rw [Fp.card]; simp only [PrimeField.sqrtConsts, hv1]; exact h.card
  · simp only [PrimeField.sqrtConsts, hv1, hv2]; exact h.t_odd
  · rintro ⟨y, hy⟩
    refine h.nqr ⟨y.toZMod, ?_⟩
    have := congrArg Fp.toZMod hy
    simpa [PrimeField.sqrtConsts, Fp.toZMod_mul, Fp.toZMod_natCast] using this
  · apply Fp.toZMod_injective
    simp only [PrimeField.sqrtConsts, hv1]
    rw [Fp.toZMod_natCast, h.nqrToT]
    exact ((map_pow Fp.equivZMod _ _).trans (by rw [Fp.equivZMod_apply, Fp.toZMod_natCast])).symm

/-- C52. Likewise for extension fields. -/
theorem C52_ext_sqrt {E L : Type} [Field L] [Fintype L] (D : ExtField E) (n : Nat) (dec : E → L)
    (h : D.Consistent dec) (ht : D.t < 2 ^ (64 * n)) : (D.sqrtConsts n dec).Valid := by
  have hv1 : val (limbsOf n D.t) = D.t := by rw [val_limbsOf, Nat.mod_eq_of_lt ht]
  have hv2 : val (limbsOf n D.tMinus1Over2) = D.tMinus1Over2 := by
    rw [val_limbsOf, Nat.mod_eq_of_lt (by have := h.t_odd; omega)]
  refine ⟨h.s_pos, ?_, ?_, h.nqr, ?_⟩
  · simp only [ExtField.sqrtConsts, hv1]; exact h.card
  · simp only [ExtField.sqrtConsts, hv1, hv2]; exact h.t_odd
  · simp only [ExtField.sqrtConsts, hv1]; exact h.nqrToT

/-- C52. The stored root of unity meets the hypothesis of C11. -/
theorem C52_root_of_unity (D : PrimeField) (h : D.Consistent) [Fact D.P.Valid] [Fact D.P.p.Prime] :
    orderOf ((D.rootOfUnity : Nat) : Fp D.P) = 2 ^ D.s := by
  rw [← h.root, ← orderOf_injective (Fp.toZModHom (P := D.P)).toMonoidHom Fp.toZMod_injective]
  congr 1
  exact Fp.toZMod_natCast _

/-- C52. Every nonzero element of the field is a power of the stored generator. -/
theorem C52_generator (D : PrimeField) (h : D.Consistent) [Fact D.P.Valid] [Fact D.P.p.Prime] (x : Fp D.P)
    (hx : x ≠ 0) : ∃ k : Nat, x = ((D.multGen : Nat) : Fp D.P) ^ k := by
  have hg : orderOf ((D.multGen : Nat) : Fp D.P) = D.P.p - 1 := by
    rw [← h.generator, ← orderOf_injective (Fp.toZModHom (P := D.P)).toMonoidHom Fp.toZMod_injective]
    congr 1
    exact Fp.toZMod_natCast _
  have hp := h.prime.two_le
  have hg0 : ((D.multGen : Nat) : Fp D.P) ≠ 0 := by
    intro h0
    have : ((D.multGen : Nat) : Fp D.P) ^ (D.P.p - 1) = 1 := by rw [← hg]; exact pow_orderOf_eq_one _
    rw [h0, zero_pow (by omega)] at this
    exact zero_ne_one this
  have hu : orderOf (Units.mk0 _ hg0) = Nat.card (Fp D.P)ˣ := by
    rw [← orderOf_units, Units.val_mk0, hg, Nat.card_units, Nat.card_eq_fintype_card, Fp.card]
  have htop : Subgroup.zpowers (Units.mk0 _ hg0) = ⊤ :=
    Subgroup.eq_top_of_card_eq _ (by rw [Nat.card_zpowers, hu])
  have hm : Units.mk0 x hx ∈ Subgroup.zpowers (Units.mk0 _ hg0) := by rw [htop]; trivial
  obtain ⟨k, hk⟩ := mem_powers_iff_mem_zpowers.2 hm
  exact ⟨k, by simpa using (congrArg Units.val hk).symm⟩

/-! The hypotheses are met, for instance by the base field of the Edwards curve. -/

example : BitSize edwards_Fq_params edwards_Fq_data.numBits :=
  C52_bit_size _ C52_edwards_prime_fields.2
example : haveI : Fact edwards_Fq_data.P.Valid := ⟨by decide +kernel⟩
    haveI : Fact edwards_Fq_data.P.p.Prime := ⟨C52_edwards_prime_fields.2.prime⟩
    (PrimeField.sqrtConsts edwards_Fq_data).Valid ∧
      orderOf ((edwards_Fq_data.rootOfUnity : Nat) : Fp edwards_Fq_data.P) = 2 ^ 31 ∧
      ∃ k : Nat, (-1 : Fp edwards_Fq_data.P) = ((edwards_Fq_data.multGen : Nat) : Fp edwards_Fq_data.P) ^ k :=
  haveI : Fact edwards_Fq_data.P.Valid := ⟨by decide +kernel⟩
  haveI : Fact edwards_Fq_data.P.p.Prime := ⟨C52_edwards_prime_fields.2.prime⟩
  ⟨C52_prime_sqrt _ C52_edwards_prime_fields.2, C52_root_of_unity _ C52_edwards_prime_fields.2,
   C52_generator _ C52_edwards_prime_fields.2 _ (neg_ne_zero.2 one_ne_zero)⟩

end Libff
