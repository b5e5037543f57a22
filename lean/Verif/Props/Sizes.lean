import Verif.Lemmas.Sizes
import Verif.Props.Constants
import Verif.Props.Binary
import Verif.Props.Fp
import Verif.Props.Algorithms
import Verif.Props.GenAltBn128
import Verif.Props.GenBls12381
import Verif.Props.GenEdwards
import Verif.Props.GenMnt4
import Verif.Props.GenMnt6
import Verif.Props.Bn128

/-!
# C77: what the classes report about their size is true
-/
namespace Libff
open WeierstrassCurve.Affine

/-! ## Fields -/

/-- **C77**, every prime field with consistent static data (C52). -/
theorem C77_prime_field (D : PrimeField) (h : D.Consistent) [Fact D.P.Valid] [Fact D.P.p.Prime] : (fpInfo D).TrueOf (Fp D.P) :=
  (tower_true h rfl (by rw [Fp.card]; exact (pow_one _).symm) one_ne_zero (one_mul _).symm (one_mul _).symm).1

/-- The strict form of the upper bound, used for the groups. -/
theorem alt_bn128_Fq_size : (fpInfo alt_bn128_Fq_data).TrueOf alt_bn128_Fq ∧ Nat.card alt_bn128_Fq < 2 ^ (fpInfo alt_bn128_Fq_data).ceilBits :=
  tower_true C52_alt_bn128_prime_fields.2 rfl (by rw [Fp.card]; exact (pow_one _).symm) (by decide) (by decide) (by decide)

theorem alt_bn128_Fq2_size : (fp2Info alt_bn128_Fq_data).TrueOf alt_bn128_Fq2 ∧ Nat.card alt_bn128_Fq2 < 2 ^ (fp2Info alt_bn128_Fq_data).ceilBits :=
  tower_true C52_alt_bn128_prime_fields.2 rfl alt_bn128_Fq2_card (by decide) (by decide) (by decide)

theorem alt_bn128_Fq6_size : (fp6_3over2Info alt_bn128_Fq_data).TrueOf alt_bn128_Fq6 ∧ Nat.card alt_bn128_Fq6 < 2 ^ (fp6_3over2Info alt_bn128_Fq_data).ceilBits :=
  tower_true C52_alt_bn128_prime_fields.2 rfl alt_bn128_Fq6_card (by decide) (by decide) (by decide)

theorem alt_bn128_Fq12_size : (fp12Info alt_bn128_Fq_data).TrueOf alt_bn128_Fq12 ∧ Nat.card alt_bn128_Fq12 < 2 ^ (fp12Info alt_bn128_Fq_data).ceilBits :=
  tower_true C52_alt_bn128_prime_fields.2 rfl alt_bn128_Fq12_card (by decide) (by decide) (by decide)

/-- **C77**, the fields of alt_bn128. -/
theorem C77_alt_bn128_fields : (fpInfo alt_bn128_Fr_data).TrueOf alt_bn128_Fr ∧
    (fpInfo alt_bn128_Fq_data).TrueOf alt_bn128_Fq ∧
    (fp2Info alt_bn128_Fq_data).TrueOf alt_bn128_Fq2 ∧
    (fp6_3over2Info alt_bn128_Fq_data).TrueOf alt_bn128_Fq6 ∧
    (fp12Info alt_bn128_Fq_data).TrueOf alt_bn128_Fq12 :=
  ⟨@C77_prime_field alt_bn128_Fr_data C52_alt_bn128_prime_fields.1 alt_bn128_Fr_valid alt_bn128_Fr_isPrime, alt_bn128_Fq_size.1, alt_bn128_Fq2_size.1, alt_bn128_Fq6_size.1, alt_bn128_Fq12_size.1⟩

/-- The strict form of the upper bound, used for the groups. -/
theorem bls12_381_Fq_size : (fpInfo bls12_381_Fq_data).TrueOf bls12_381_Fq ∧ Nat.card bls12_381_Fq < 2 ^ (fpInfo bls12_381_Fq_data).ceilBits :=
  tower_true C52_bls12_381_prime_fields.2 rfl (by rw [Fp.card]; exact (pow_one _).symm) (by decide) (by decide) (by decide)

theorem bls12_381_Fq2_size : (fp2Info bls12_381_Fq_data).TrueOf bls12_381_Fq2 ∧ Nat.card bls12_381_Fq2 < 2 ^ (fp2Info bls12_381_Fq_data).ceilBits :=
  tower_true C52_bls12_381_prime_fields.2 rfl bls12_381_Fq2_card (by decide) (by decide) (by decide)

theorem bls12_381_Fq6_size : (fp6_3over2Info bls12_381_Fq_data).TrueOf bls12_381_Fq6 ∧ Nat.card bls12_381_Fq6 < 2 ^ (fp6_3over2Info bls12_381_Fq_data).ceilBits :=
  tower_true C52_bls12_381_prime_fields.2 rfl bls12_381_Fq6_card (by decide) (by decide) (by decide)

theorem bls12_381_Fq12_size : (fp12Info bls12_381_Fq_data).TrueOf bls12_381_Fq12 ∧ Nat.card bls12_381_Fq12 < 2 ^ (fp12Info bls12_381_Fq_data).ceilBits :=
  tower_true C52_bls12_381_prime_fields.2 rfl bls12_381_Fq12_card (by decide) (by decide) (by decide)

/-- **C77**, the fields of bls12_381. -/
theorem C77_bls12_381_fields : (fpInfo bls12_381_Fr_data).TrueOf bls12_381_Fr ∧
    (fpInfo bls12_381_Fq_data).TrueOf bls12_381_Fq ∧
    (fp2Info bls12_381_Fq_data).TrueOf bls12_381_Fq2 ∧
    (fp6_3over2Info bls12_381_Fq_data).TrueOf bls12_381_Fq6 ∧
    (fp12Info bls12_381_Fq_data).TrueOf bls12_381_Fq12 :=
  ⟨@C77_prime_field bls12_381_Fr_data C52_bls12_381_prime_fields.1 bls12_381_Fr_valid bls12_381_Fr_isPrime, bls12_381_Fq_size.1, bls12_381_Fq2_size.1, bls12_381_Fq6_size.1, bls12_381_Fq12_size.1⟩

/-- The strict form of the upper bound, used for the groups. -/
theorem edwards_Fq_size : (fpInfo edwards_Fq_data).TrueOf edwards_Fq ∧ Nat.card edwards_Fq < 2 ^ (fpInfo edwards_Fq_data).ceilBits :=
  tower_true C52_edwards_prime_fields.2 rfl (by rw [Fp.card]; exact (pow_one _).symm) (by decide) (by decide) (by decide)

theorem edwards_Fq3_size : (fp3Info edwards_Fq_data).TrueOf edwards_Fq3 ∧ Nat.card edwards_Fq3 < 2 ^ (fp3Info edwards_Fq_data).ceilBits :=
  tower_true C52_edwards_prime_fields.2 rfl edwards_Fq3_card (by decide) (by decide) (by decide)

theorem edwards_Fq6_size : (fp6_2over3Info edwards_Fq_data).TrueOf edwards_Fq6 ∧ Nat.card edwards_Fq6 < 2 ^ (fp6_2over3Info edwards_Fq_data).ceilBits :=
  tower_true C52_edwards_prime_fields.2 rfl edwards_Fq6_card (by decide) (by decide) (by decide)

/-- **C77**, the fields of edwards. -/
theorem C77_edwards_fields : (fpInfo edwards_Fr_data).TrueOf edwards_Fr ∧
    (fpInfo edwards_Fq_data).TrueOf edwards_Fq ∧
    (fp3Info edwards_Fq_data).TrueOf edwards_Fq3 ∧
    (fp6_2over3Info edwards_Fq_data).TrueOf edwards_Fq6 :=
  ⟨@C77_prime_field edwards_Fr_data C52_edwards_prime_fields.1 edwards_Fr_valid edwards_Fr_isPrime, edwards_Fq_size.1, edwards_Fq3_size.1, edwards_Fq6_size.1⟩

/-- The strict form of the upper bound, used for the groups. -/
theorem mnt4_Fq_size : (fpInfo mnt4_Fq_data).TrueOf mnt4_Fq ∧ Nat.card mnt4_Fq < 2 ^ (fpInfo mnt4_Fq_data).ceilBits :=
  tower_true C52_mnt4_prime_fields.2 rfl (by rw [Fp.card]; exact (pow_one _).symm) (by decide) (by decide) (by decide)

theorem mnt4_Fq2_size : (fp2Info mnt4_Fq_data).TrueOf mnt4_Fq2 ∧ Nat.card mnt4_Fq2 < 2 ^ (fp2Info mnt4_Fq_data).ceilBits :=
  tower_true C52_mnt4_prime_fields.2 rfl mnt4_Fq2_card (by decide) (by decide) (by decide)

theorem mnt4_Fq4_size : (fp4Info mnt4_Fq_data).TrueOf mnt4_Fq4 ∧ Nat.card mnt4_Fq4 < 2 ^ (fp4Info mnt4_Fq_data).ceilBits :=
  tower_true C52_mnt4_prime_fields.2 rfl mnt4_Fq4_card (by decide) (by decide) (by decide)

/-- **C77**, the fields of mnt4. -/
theorem C77_mnt4_fields : (fpInfo mnt4_Fr_data).TrueOf mnt4_Fr ∧
    (fpInfo mnt4_Fq_data).TrueOf mnt4_Fq ∧
    (fp2Info mnt4_Fq_data).TrueOf mnt4_Fq2 ∧
    (fp4Info mnt4_Fq_data).TrueOf mnt4_Fq4 :=
  ⟨@C77_prime_field mnt4_Fr_data C52_mnt4_prime_fields.1 mnt4_Fr_valid mnt4_Fr_isPrime, mnt4_Fq_size.1, mnt4_Fq2_size.1, mnt4_Fq4_size.1⟩

/-- The strict form of the upper bound, used for the groups. -/
theorem mnt6_Fq_size : (fpInfo mnt6_Fq_data).TrueOf mnt6_Fq ∧ Nat.card mnt6_Fq < 2 ^ (fpInfo mnt6_Fq_data).ceilBits :=
  tower_true C52_mnt6_prime_fields.2 rfl (by rw [Fp.card]; exact (pow_one _).symm) (by decide) (by decide) (by decide)

theorem mnt6_Fq3_size : (fp3Info mnt6_Fq_data).TrueOf mnt6_Fq3 ∧ Nat.card mnt6_Fq3 < 2 ^ (fp3Info mnt6_Fq_data).ceilBits :=
  tower_true C52_mnt6_prime_fields.2 rfl mnt6_Fq3_card (by decide) (by decide) (by decide)

theorem mnt6_Fq6_size : (fp6_2over3Info mnt6_Fq_data).TrueOf mnt6_Fq6 ∧ Nat.card mnt6_Fq6 < 2 ^ (fp6_2over3Info mnt6_Fq_data).ceilBits :=
  tower_true C52_mnt6_prime_fields.2 rfl mnt6_Fq6_card (by decide) (by decide) (by decide)

/-- **C77**, the fields of mnt6. -/
theorem C77_mnt6_fields : (fpInfo mnt6_Fr_data).TrueOf mnt6_Fr ∧
    (fpInfo mnt6_Fq_data).TrueOf mnt6_Fq ∧
    (fp3Info mnt6_Fq_data).TrueOf mnt6_Fq3 ∧
    (fp6_2over3Info mnt6_Fq_data).TrueOf mnt6_Fq6 :=
  ⟨@C77_prime_field mnt6_Fr_data C52_mnt6_prime_fields.1 mnt6_Fr_valid mnt6_Fr_isPrime, mnt6_Fq_size.1, mnt6_Fq3_size.1, mnt6_Fq6_size.1⟩

/-- The numbers reported. -/
example : (fpInfo alt_bn128_Fq_data).ceilBits = 254 ∧ (fp12Info alt_bn128_Fq_data).ceilBits = 3048 ∧
    (fp12Info alt_bn128_Fq_data).floorBits = 3036 ∧ (fp12Info alt_bn128_Fq_data).degree = 12 := by decide

theorem bn128_Fq_size : (fpInfo bn128_Fq_data).TrueOf alt_bn128_Fq ∧ Nat.card alt_bn128_Fq < 2 ^ (fpInfo bn128_Fq_data).ceilBits :=
  tower_true C52_bn128_prime_fields.2 rfl (by rw [Fp.card]; exact (pow_one _).symm) (by decide) (by decide) (by decide)

/-- **C77**, the fields of bn128 (C61: the coordinates are elements of the same field as those of alt_bn128). -/
theorem C77_bn128_fields [hv : Fact bn128_Fr_params.Valid] [hp : Fact bn128_Fr_params.p.Prime] :
    (fpInfo bn128_Fr_data).TrueOf (Fp bn128_Fr_params) ∧ (fpInfo bn128_Fq_data).TrueOf alt_bn128_Fq :=
  ⟨@C77_prime_field bn128_Fr_data C52_bn128_prime_fields.1 hv hp, bn128_Fq_size.1⟩

example : Fact bn128_Fr_params.Valid ∧ Fact bn128_Fr_params.p.Prime :=
  ⟨⟨C52_bn128_prime_fields.1.params⟩, ⟨C52_bn128_prime_fields.1.prime⟩⟩

/-- **C77**, the binary fields. -/
theorem C77_binary_fields : gf32Info.TrueOf GF32 ∧ gf64Info.TrueOf GF64 ∧ gf128Info.TrueOf GF128 ∧ gf192Info.TrueOf GF192 ∧ gf256Info.TrueOf GF256 :=
  ⟨binary_true C43_gf32_field.1 (by decide) C43_gf32_field.2 rfl rfl,
   binary_true C43_gf64_field.1 (by decide) C43_gf64_field.2 rfl rfl,
   binary_true C43_gf128_field.1 (by decide) C43_gf128_field.2 rfl rfl,
   binary_true C43_gf192_field.1 (by decide) C43_gf192_field.2 rfl rfl,
   binary_true C43_gf256_field.1 (by decide) C43_gf256_field.2 rfl rfl⟩

/-! ## The helpers of field_utils.tcc -/

/-- **C77.** `log_of_field_size_helper` and `soundness_log_of_field_size_helper` enclose the size of a prime field: between
`2^soundness` and `2^log` elements, and the two differ by one. -/
theorem C77_log_prime (D : PrimeField) (h : D.Consistent) [Fact D.P.Valid] [Fact D.P.p.Prime] :
    2 ^ soundnessLogOfFieldSize false (fpInfo D) ≤ Nat.card (Fp D.P) ∧ Nat.card (Fp D.P) < 2 ^ logOfFieldSize false (fpInfo D) ∧
      logOfFieldSize false (fpInfo D) = soundnessLogOfFieldSize false (fpInfo D) + 1 := by
  have hc : Nat.card (Fp D.P) = D.P.p := by rw [Nat.card_eq_fintype_card, Fp.card]
  rw [hc]
  refine ⟨h.bits_lo, h.bits_hi, ?_⟩
  have := h.limbs.1
  simp only [logOfFieldSize, soundnessLogOfFieldSize, fpInfo, Bool.false_eq_true, if_false]; omega

/-- **C77**, the comment at field_utils.tcc:58-59 is wrong: `2 << returned` is not a lower bound of the size of any of the prime fields. -/
theorem C77_soundness_comment_wrong (D : PrimeField) (h : D.Consistent) [Fact D.P.Valid] [Fact D.P.p.Prime] :
    Nat.card (Fp D.P) < 2 * 2 ^ soundnessLogOfFieldSize false (fpInfo D) := by
  obtain ⟨-, h1, h2⟩ := C77_log_prime D h
  rwa [h2, pow_succ, mul_comm] at h1

/-- **C77.** For the binary fields both logarithms are exact. -/
theorem C77_log_binary :
    (Nat.card GF64 = 2 ^ logOfFieldSize true gf64Info ∧ Nat.card GF64 = 2 ^ soundnessLogOfFieldSize true gf64Info) ∧
    (Nat.card GF128 = 2 ^ logOfFieldSize true gf128Info ∧ Nat.card GF128 = 2 ^ soundnessLogOfFieldSize true gf128Info) ∧
    (Nat.card GF192 = 2 ^ logOfFieldSize true gf192Info ∧ Nat.card GF192 = 2 ^ soundnessLogOfFieldSize true gf192Info) ∧
    (Nat.card GF256 = 2 ^ logOfFieldSize true gf256Info ∧ Nat.card GF256 = 2 ^ soundnessLogOfFieldSize true gf256Info) :=
  ⟨⟨C43_gf64_field.2, C43_gf64_field.2⟩, ⟨C43_gf128_field.2, C43_gf128_field.2⟩, ⟨C43_gf192_field.2, C43_gf192_field.2⟩, ⟨C43_gf256_field.2, C43_gf256_field.2⟩⟩

example : soundnessLogOfFieldSize false (fpInfo bls12_381_Fr_data) = 254 ∧ soundnessLogOfFieldSize true gf192Info = 192 := by decide

/-- **C77.** Word `i` of a prime field element holds bits `64 i` to `64 i + 63` of its canonical value; past the last limb the read is
outside the array. -/
theorem C77_word_prime (P : FpParams) (hP : P.Valid) (a : List Limb) (x : ZMod P.p) (ha : Represents P a x) (i : Nat) :
    (i < P.n → ∃ w, fpWord P a i = .ok w ∧ w.toNat = x.val / 2 ^ (64 * i) % 2 ^ 64) ∧ (P.n ≤ i → fpWord P a i = .ub) := by
  have : NeZero P.p := hP.neZero
  obtain ⟨r, h1, h2, h3, h4⟩ := C05_as_bigint P hP a x ha
  have hv : x.val = val r := by rw [← h4, ZMod.val_natCast, Nat.mod_eq_of_lt h3]
  have e : fpWord P a i = wordAt r i := by rw [fpWord, h1]; rfl
  rw [e, hv]
  exact ⟨fun h => wordAt_eq (h2 ▸ h), fun h => wordAt_ub (h2 ▸ h)⟩

/-- **C77.** Word `i` of a gf64 element holds the coefficients of `X^(64 i)` to `X^(64 i + 63)`. -/
theorem C77_word_gf64 (a : GF64) (i : Nat) :
    (i < 1 → ∃ w, binWord a.toWords i = .ok w ∧ w.toNat = a.nat / 2 ^ (64 * i) % 2 ^ 64) ∧ (1 ≤ i → binWord a.toWords i = .ub) := by
  have e : a.nat = val a.toWords := by simp only [GF64.nat, GF64.toWords, val]; ring
  rw [e]
  exact ⟨fun h => wordAt_eq (by simpa [GF64.toWords] using h), fun h => wordAt_ub (by simpa [GF64.toWords] using h)⟩

/-- **C77.** Word `i` of a gf128 element holds the coefficients of `X^(64 i)` to `X^(64 i + 63)`. -/
theorem C77_word_gf128 (a : GF128) (i : Nat) :
    (i < 2 → ∃ w, binWord a.toWords i = .ok w ∧ w.toNat = a.nat / 2 ^ (64 * i) % 2 ^ 64) ∧ (2 ≤ i → binWord a.toWords i = .ub) := by
  have e : a.nat = val a.toWords := by simp only [GF128.nat, GF128.toWords, val]; ring
  rw [e]
  exact ⟨fun h => wordAt_eq (by simpa [GF128.toWords] using h), fun h => wordAt_ub (by simpa [GF128.toWords] using h)⟩

/-- **C77.** Word `i` of a gf192 element holds the coefficients of `X^(64 i)` to `X^(64 i + 63)`. -/
theorem C77_word_gf192 (a : GF192) (i : Nat) :
    (i < 3 → ∃ w, binWord a.toWords i = .ok w ∧ w.toNat = a.nat / 2 ^ (64 * i) % 2 ^ 64) ∧ (3 ≤ i → binWord a.toWords i = .ub) := by
  have e : a.nat = val a.toWords := by simp only [GF192.nat, GF192.toWords, val]; ring
  rw [e]
  exact ⟨fun h => wordAt_eq (by simpa [GF192.toWords] using h), fun h => wordAt_ub (by simpa [GF192.toWords] using h)⟩

/-- **C77.** Word `i` of a gf256 element holds the coefficients of `X^(64 i)` to `X^(64 i + 63)`. -/
theorem C77_word_gf256 (a : GF256) (i : Nat) :
    (i < 4 → ∃ w, binWord a.toWords i = .ok w ∧ w.toNat = a.nat / 2 ^ (64 * i) % 2 ^ 64) ∧ (4 ≤ i → binWord a.toWords i = .ub) := by
  have e : a.nat = val a.toWords := by simp only [GF256.nat, GF256.toWords, val]; ring
  rw [e]
  exact ⟨fun h => wordAt_eq (by simpa [GF256.toWords] using h), fun h => wordAt_ub (by simpa [GF256.toWords] using h)⟩

/-- **C77.** `coset_shift()` of a prime field moves every domain of roots of unity off itself: if `w` is what `get_root_of_unity(n)`
returned, no `coset_shift() * w^i` is a `w^j`. -/
theorem C77_coset_shift (D : PrimeField) (h : D.Consistent) [Fact D.P.Valid] [Fact D.P.p.Prime] (ht : 1 < D.t) (n : BitVec 64)
    (w : Fp D.P) (hw : getRootOfUnity D.s (D.rootOfUnity : Fp D.P) n = .ok w) (i j : Nat) :
    cosetShift (D.multGen : Fp D.P) * w ^ i ≠ w ^ j := by
  intro he
  obtain ⟨h1, k, hk, h2⟩ := C11_never_wrong_order D.s _ (C52_root_of_unity D h) n w hw
  have hw1 : w ^ 2 ^ D.s = 1 := by
    rw [← orderOf_dvd_iff_pow_eq_one, h1, h2]; exact pow_dvd_pow 2 hk
  have hg : orderOf ((D.multGen : Nat) : Fp D.P) = D.P.p - 1 := by
    rw [← h.generator, ← orderOf_injective (Fp.toZModHom (P := D.P)).toMonoidHom Fp.toZMod_injective]
    congr 1
    exact Fp.toZMod_natCast _
  have e := congrArg (· ^ 2 ^ D.s) he
  simp only [cosetShift, LawfulSquared.squared_eq, mul_pow, ← pow_mul, mul_comm _ (2 ^ D.s)] at e
  simp only [pow_mul, hw1, one_pow, mul_one] at e
  rw [← pow_add, ← orderOf_dvd_iff_pow_eq_one, hg, h.card, Nat.add_sub_cancel, ← two_mul, mul_comm 2] at e
  have := Nat.le_of_dvd two_pos (Nat.dvd_of_mul_dvd_mul_left (by positivity) e)
  have := h.t_odd
  omega

/-- `t > 1` in all twelve prime fields. -/
example : 1 < alt_bn128_Fr_data.t ∧ 1 < alt_bn128_Fq_data.t ∧ 1 < bls12_381_Fr_data.t ∧ 1 < bls12_381_Fq_data.t ∧ 1 < edwards_Fr_data.t ∧
    1 < edwards_Fq_data.t ∧ 1 < mnt4_Fr_data.t ∧ 1 < mnt4_Fq_data.t ∧ 1 < mnt6_Fr_data.t ∧ 1 < mnt6_Fq_data.t ∧ 1 < bn128_Fr_data.t ∧
    1 < bn128_Fq_data.t := by decide

/-! ## Groups -/

/-- **C77**, `alt_bn128_G1`. -/
theorem C77_alt_bn128_G1 : ∃ P : (sw 0 alt_bn128_b).Point, JacRep alt_bn128_G1_one P ∧ (groupInfo (fpInfo alt_bn128_Fq_data) alt_bn128_Fr_params).TrueOf alt_bn128_Fq (sw 0 alt_bn128_b).Point P :=
  let ⟨P, h1, h2⟩ := C52_alt_bn128_G1_generator.2.2.2.2
  ⟨P, h1, group_true alt_bn128_Fq_size alt_bn128_Fr_prime h2 rfl rfl rfl⟩

/-- **C77**, `alt_bn128_G2`. -/
theorem C77_alt_bn128_G2 : ∃ P : (sw 0 alt_bn128_twist_b).Point, JacRep alt_bn128_G2_one P ∧ (groupInfo (fp2Info alt_bn128_Fq_data) alt_bn128_Fr_params).TrueOf alt_bn128_Fq2 (sw 0 alt_bn128_twist_b).Point P :=
  let ⟨P, h1, h2⟩ := C52_alt_bn128_G2_generator.2.2.2.2
  ⟨P, h1, group_true alt_bn128_Fq2_size alt_bn128_Fr_prime h2 rfl rfl rfl⟩

/-- **C77**, `bls12_381_G1`. -/
theorem C77_bls12_381_G1 : ∃ P : (sw 0 bls12_381_b).Point, JacRep bls12_381_G1_one P ∧ (groupInfo (fpInfo bls12_381_Fq_data) bls12_381_Fr_params).TrueOf bls12_381_Fq (sw 0 bls12_381_b).Point P :=
  let ⟨P, h1, h2⟩ := C52_bls12_381_G1_generator.2.2.2.2
  ⟨P, h1, group_true bls12_381_Fq_size bls12_381_Fr_prime h2 rfl rfl rfl⟩

/-- **C77**, `bls12_381_G2`. -/
theorem C77_bls12_381_G2 : ∃ P : (sw 0 bls12_381_twist_b).Point, JacRep bls12_381_G2_one P ∧ (groupInfo (fp2Info bls12_381_Fq_data) bls12_381_Fr_params).TrueOf bls12_381_Fq2 (sw 0 bls12_381_twist_b).Point P :=
  let ⟨P, h1, h2⟩ := C52_bls12_381_G2_generator.2.2.2.2
  ⟨P, h1, group_true bls12_381_Fq2_size bls12_381_Fr_prime h2 rfl rfl rfl⟩

/-- **C77**, `mnt4_G1`. -/
theorem C77_mnt4_G1 : ∃ P : (sw mnt4_a mnt4_b).Point, ProjRep mnt4_G1_one P ∧ (groupInfo (fpInfo mnt4_Fq_data) mnt4_Fr_params).TrueOf mnt4_Fq (sw mnt4_a mnt4_b).Point P :=
  let ⟨P, h1, h2⟩ := C52_mnt4_G1_generator.2.2.2
  ⟨P, h1, group_true mnt4_Fq_size mnt4_Fr_prime h2 rfl rfl rfl⟩

/-- **C77**, `mnt4_G2`. -/
theorem C77_mnt4_G2 : ∃ P : (sw mnt4_twist_a mnt4_twist_b).Point, ProjRep mnt4_G2_one P ∧ (groupInfo (fp2Info mnt4_Fq_data) mnt4_Fr_params).TrueOf mnt4_Fq2 (sw mnt4_twist_a mnt4_twist_b).Point P :=
  let ⟨P, h1, h2⟩ := C52_mnt4_G2_generator.2.2.2
  ⟨P, h1, group_true mnt4_Fq2_size mnt4_Fr_prime h2 rfl rfl rfl⟩

/-- **C77**, `mnt6_G1`. -/
theorem C77_mnt6_G1 : ∃ P : (sw mnt6_a mnt6_b).Point, ProjRep mnt6_G1_one P ∧ (groupInfo (fpInfo mnt6_Fq_data) mnt6_Fr_params).TrueOf mnt6_Fq (sw mnt6_a mnt6_b).Point P :=
  let ⟨P, h1, h2⟩ := C52_mnt6_G1_generator.2.2.2
  ⟨P, h1, group_true mnt6_Fq_size mnt6_Fr_prime h2 rfl rfl rfl⟩

/-- **C77**, `mnt6_G2`. -/
theorem C77_mnt6_G2 : ∃ P : (sw mnt6_twist_a mnt6_twist_b).Point, ProjRep mnt6_G2_one P ∧ (groupInfo (fp3Info mnt6_Fq_data) mnt6_Fr_params).TrueOf mnt6_Fq3 (sw mnt6_twist_a mnt6_twist_b).Point P :=
  let ⟨P, h1, h2⟩ := C52_mnt6_G2_generator.2.2.2
  ⟨P, h1, group_true mnt6_Fq3_size mnt6_Fr_prime h2 rfl rfl rfl⟩

/-- **C77**, `edwards_G1`. -/
theorem C77_edwards_G1 : ∃ P : (edwW 1 edwards_d).Point, EdwRep edwards_G1_one P ∧ (groupInfo (fpInfo edwards_Fq_data) edwards_Fr_params).TrueOf edwards_Fq (edwW 1 edwards_d).Point P :=
  let ⟨P, h1, h2⟩ := C52_edwards_G1_generator.2.2.2
  ⟨P, h1, group_true edwards_Fq_size edwards_Fr_prime h2 rfl rfl rfl⟩

/-- **C77**, `edwards_G2`. -/
theorem C77_edwards_G2 : ∃ P : (edwW edwards_twist_a edwards_twist_d).Point, EdwRep edwards_G2_one P ∧ (groupInfo (fp3Info edwards_Fq_data) edwards_Fr_params).TrueOf edwards_Fq3 (edwW edwards_twist_a edwards_twist_d).Point P :=
  let ⟨P, h1, h2⟩ := C52_edwards_G2_generator.2.2.2
  ⟨P, h1, group_true edwards_Fq3_size edwards_Fr_prime h2 rfl rfl rfl⟩

theorem bn128_Fq2_size : (fp2Info bn128_Fq_data).TrueOf alt_bn128_Fq2 ∧ Nat.card alt_bn128_Fq2 < 2 ^ (fp2Info bn128_Fq_data).ceilBits :=
  tower_true C52_bn128_prime_fields.2 rfl alt_bn128_Fq2_card (by decide) (by decide) (by decide)

/-- **C77**, `bn128_G1`. -/
theorem C77_bn128_G1 : ∃ P : (sw 0 bn128_b).Point, JacRep bn128_G1_one P ∧ (groupInfo (fpInfo bn128_Fq_data) bn128_Fr_params).TrueOf alt_bn128_Fq (sw 0 bn128_b).Point P :=
  let ⟨P, h1, h2⟩ := C61_g1_generator.2
  ⟨P, h1, group_true bn128_Fq_size bn128_Fr_prime h2 rfl rfl rfl⟩

/-- **C77**, `bn128_G2`. -/
theorem C77_bn128_G2 : ∃ P : (sw 0 bn128_twist_b).Point, JacRep bn128_G2_one P ∧ (bn128G2Info (fpInfo bn128_Fq_data) bn128_Fr_params).TrueOf alt_bn128_Fq2 (sw 0 bn128_twist_b).Point P :=
  let ⟨P, h1, h2⟩ := C61_g2_generator.2
  ⟨P, h1, group_true bn128_Fq2_size bn128_Fr_prime h2 rfl rfl rfl⟩

/-- The numbers reported. -/
example : (groupInfo (fp2Info bls12_381_Fq_data) bls12_381_Fr_params).sizeInBits = 763 ∧
    (bn128G2Info (fpInfo bn128_Fq_data) bn128_Fr_params).sizeInBits = 509 := by decide

end Libff
