import Verif.Props.Cofactor
import Verif.Props.Nondegenerate
import Verif.Props.AffinePairing
import Verif.Props.Bn128

/-!
# C62: elements that pass the two tests are arguments of the pairings

`…_arg₂` and `…_sub₁` (Props/Bilinear.lean, Props/Nondegenerate.lean) say: well formed, not zero, and a multiple of
the generator. With the group orders the last condition can be tested by the program, `order() * q == zero()`, can be
enforced with `mul_by_cofactor`, and holds for all of `G1` where the cofactor is one.
-/
namespace Libff
set_option synthInstance.maxSize 2000

/-- **C62.** Which elements of alt_bn128 are arguments of the pairing. -/
theorem C62_alt_bn128_arguments : (∀ p, Jac.isWellFormed alt_bn128_b p = true → Jac.isZero p = false → alt_bn128_sub₁ p) ∧
    (∀ q, Jac.isWellFormed alt_bn128_twist_b q = true → Jac.isZero q = false →
      Jac.eq (@scalarMul _ (Jac.ops) q alt_bn128_Fr_params.modulus) Jac.zero = true → alt_bn128_arg₂ q) ∧
    (∀ q, Jac.isWellFormed alt_bn128_twist_b q = true → Jac.isZero (alt_bn128_G2_mul_by_cofactor q) = false →
      alt_bn128_arg₂ (alt_bn128_G2_mul_by_cofactor q)) :=
  ⟨fun p hw h0 => ⟨hw, C62_alt_bn128_G1_cofactor.nonzeroMultiple _ hw h0 (C62_alt_bn128_G1_cofactor.killed p hw)⟩,
    fun q hw h0 hk => ⟨hw, C62_alt_bn128_G2_cofactor.nonzeroMultiple _ hw h0 hk⟩,
    fun q hw h0 => ⟨C62_alt_bn128_G2_cofactor.wellFormed q hw,
      C62_alt_bn128_G2_cofactor.nonzeroMultiple _ (C62_alt_bn128_G2_cofactor.wellFormed q hw) h0 (C62_alt_bn128_G2_cofactor.killed q hw)⟩⟩

/-- **C62.** The pairing of any non-zero well-formed element of `alt_bn128_G1` with any non-zero well-formed element of
`alt_bn128_G2` that the order kills is a value other than 1. -/
theorem C62_alt_bn128_nondegenerate (p q) (hp : Jac.isWellFormed alt_bn128_b p = true) (hp0 : Jac.isZero p = false)
    (hq : Jac.isWellFormed alt_bn128_twist_b q = true) (hq0 : Jac.isZero q = false)
    (hk : Jac.eq (@scalarMul _ (Jac.ops) q alt_bn128_Fr_params.modulus) Jac.zero = true) :
    ∃ v, alt_bn128_reduced_pairing p q = .ok v ∧ v ≠ 1 :=
  C51_alt_bn128_nondegenerate p q (C62_alt_bn128_arguments.1 p hp hp0) (C62_alt_bn128_arguments.2.1 q hq hq0 hk)

/-- **C62.** Which elements of bls12_381 are arguments of the pairing. -/
theorem C62_bls12_381_arguments : (∀ p, Jac.isWellFormed bls12_381_b p = true → Jac.isZero p = false → Jac.eq (@scalarMul _ (Jac.ops) p bls12_381_Fr_params.modulus) Jac.zero = true → bls12_381_sub₁ p) ∧
    (∀ q, Jac.isWellFormed bls12_381_twist_b q = true → Jac.isZero q = false →
      Jac.eq (@scalarMul _ (Jac.ops) q bls12_381_Fr_params.modulus) Jac.zero = true → bls12_381_arg₂ q) ∧
    (∀ q, Jac.isWellFormed bls12_381_twist_b q = true → Jac.isZero (bls12_381_G2_mul_by_cofactor q) = false →
      bls12_381_arg₂ (bls12_381_G2_mul_by_cofactor q)) :=
  ⟨fun p hw h0 hk => ⟨hw, C62_bls12_381_G1_cofactor.nonzeroMultiple _ hw h0 hk⟩,
    fun q hw h0 hk => ⟨hw, C62_bls12_381_G2_cofactor.nonzeroMultiple _ hw h0 hk⟩,
    fun q hw h0 => ⟨C62_bls12_381_G2_cofactor.wellFormed q hw,
      C62_bls12_381_G2_cofactor.nonzeroMultiple _ (C62_bls12_381_G2_cofactor.wellFormed q hw) h0 (C62_bls12_381_G2_cofactor.killed q hw)⟩⟩

/-- **C62.** Which elements of mnt4 are arguments of the pairing. -/
theorem C62_mnt4_arguments : (∀ p, Proj.isWellFormed mnt4_a mnt4_b p = true → Proj.isZero p = false → mnt4_sub₁ p) ∧
    (∀ q, Proj.isWellFormed mnt4_twist_a mnt4_twist_b q = true → Proj.isZero q = false →
      Proj.eq (@scalarMul _ (Proj.ops mnt4_G2_mul_by_a) q mnt4_Fr_params.modulus) Proj.zero = true → mnt4_arg₂ q) ∧
    (∀ q, Proj.isWellFormed mnt4_twist_a mnt4_twist_b q = true → Proj.isZero (mnt4_G2_mul_by_cofactor q) = false →
      mnt4_arg₂ (mnt4_G2_mul_by_cofactor q)) :=
  ⟨fun p hw h0 => ⟨hw, C62_mnt4_G1_cofactor.nonzeroMultiple _ hw h0 (C62_mnt4_G1_cofactor.killed p hw)⟩,
    fun q hw h0 hk => ⟨hw, C62_mnt4_G2_cofactor.nonzeroMultiple _ hw h0 hk⟩,
    fun q hw h0 => ⟨C62_mnt4_G2_cofactor.wellFormed q hw,
      C62_mnt4_G2_cofactor.nonzeroMultiple _ (C62_mnt4_G2_cofactor.wellFormed q hw) h0 (C62_mnt4_G2_cofactor.killed q hw)⟩⟩

/-- **C62.** The pairing of any non-zero well-formed element of `mnt4_G1` with any non-zero well-formed element of
`mnt4_G2` that the order kills is a value other than 1. -/
theorem C62_mnt4_nondegenerate (p q) (hp : Proj.isWellFormed mnt4_a mnt4_b p = true) (hp0 : Proj.isZero p = false)
    (hq : Proj.isWellFormed mnt4_twist_a mnt4_twist_b q = true) (hq0 : Proj.isZero q = false)
    (hk : Proj.eq (@scalarMul _ (Proj.ops mnt4_G2_mul_by_a) q mnt4_Fr_params.modulus) Proj.zero = true) :
    ∃ v, mnt4_reduced_pairing p q = .ok v ∧ v ≠ 1 :=
  C51_mnt4_nondegenerate p q (C62_mnt4_arguments.1 p hp hp0) (C62_mnt4_arguments.2.1 q hq hq0 hk)

/-- **C62.** Which elements of mnt6 are arguments of the pairing. -/
theorem C62_mnt6_arguments : (∀ p, Proj.isWellFormed mnt6_a mnt6_b p = true → Proj.isZero p = false → mnt6_sub₁ p) ∧
    (∀ q, Proj.isWellFormed mnt6_twist_a mnt6_twist_b q = true → Proj.isZero q = false →
      Proj.eq (@scalarMul _ (Proj.ops mnt6_G2_mul_by_a) q mnt6_Fr_params.modulus) Proj.zero = true → mnt6_arg₂ q) ∧
    (∀ q, Proj.isWellFormed mnt6_twist_a mnt6_twist_b q = true → Proj.isZero (mnt6_G2_mul_by_cofactor q) = false →
      mnt6_arg₂ (mnt6_G2_mul_by_cofactor q)) :=
  ⟨fun p hw h0 => ⟨hw, C62_mnt6_G1_cofactor.nonzeroMultiple _ hw h0 (C62_mnt6_G1_cofactor.killed p hw)⟩,
    fun q hw h0 hk => ⟨hw, C62_mnt6_G2_cofactor.nonzeroMultiple _ hw h0 hk⟩,
    fun q hw h0 => ⟨C62_mnt6_G2_cofactor.wellFormed q hw,
      C62_mnt6_G2_cofactor.nonzeroMultiple _ (C62_mnt6_G2_cofactor.wellFormed q hw) h0 (C62_mnt6_G2_cofactor.killed q hw)⟩⟩

/-- **C62.** The pairing of any non-zero well-formed element of `mnt6_G1` with any non-zero well-formed element of
`mnt6_G2` that the order kills is a value other than 1. -/
theorem C62_mnt6_nondegenerate (p q) (hp : Proj.isWellFormed mnt6_a mnt6_b p = true) (hp0 : Proj.isZero p = false)
    (hq : Proj.isWellFormed mnt6_twist_a mnt6_twist_b q = true) (hq0 : Proj.isZero q = false)
    (hk : Proj.eq (@scalarMul _ (Proj.ops mnt6_G2_mul_by_a) q mnt6_Fr_params.modulus) Proj.zero = true) :
    ∃ v, mnt6_reduced_pairing p q = .ok v ∧ v ≠ 1 :=
  C51_mnt6_nondegenerate p q (C62_mnt6_arguments.1 p hp hp0) (C62_mnt6_arguments.2.1 q hq hq0 hk)

/-- The generators meet the hypotheses. -/
example : Jac.isWellFormed alt_bn128_b alt_bn128_G1_one = true ∧ Jac.isZero alt_bn128_G1_one = false ∧
    Jac.isWellFormed alt_bn128_twist_b alt_bn128_G2_one = true ∧ Jac.isZero alt_bn128_G2_one = false ∧
    Jac.eq (@scalarMul _ Jac.ops alt_bn128_G2_one alt_bn128_Fr_params.modulus) Jac.zero = true :=
  ⟨alt_bn128_one_arg.1, alt_bn128_one_arg.2.1.2.1, alt_bn128_one_arg.2.2.1, alt_bn128_one_arg.2.2.2.1, by
    refine (C62_alt_bn128_G2_cofactor.member _ alt_bn128_one_arg.2.2.1).2 ⟨1, by decide +kernel, fun e he => ?_⟩
    obtain ⟨P, hP, -⟩ := C52_alt_bn128_G2_generator.2.2.2.2
    have h := Jac.scalarMul_rep (e := e) (alt_bn128_K.o2.two_ne (by decide +kernel)) he hP
    rw [one_nsmul] at h
    exact (Jac.eq_rep hP h).2 rfl⟩

/-! ## The bn128 wrapper classes -/

open Bn128 in
/-- **C62.** `bn128_G1` has prime order: every element passing `is_well_formed` is written and read back. -/
theorem C62_bn128_G1_stream {binary : Bool} (compress debug : Bool) (fuel : Nat) (hf : bn128_Fq_s ≤ fuel)
    {c : FieldCodec alt_bn128_Fq} {lsb : alt_bn128_Fq → Bool} (hc : StreamLaw binary (fun _ => True) c.write c.read)
    (hl : LsbLaw lsb) {p : Coord3 alt_bn128_Fq} (hp : Bn128.isWellFormed bn128_b p = true) :
    ∃ q, ReadsBack (PointCont binary compress) (Bn128.write binary compress c lsb)
      (Bn128.read binary compress c lsb bn128_b (Bn128.sqrtG1 debug fuel)) p q ∧ Bn128.eq p q = true := by
  have hΔ : (sw 0 bn128_b).Δ ≠ 0 := bn128_Δ_ne (alt_bn128_K.o1.two_ne (by decide +kernel))
    (alt_bn128_K.o1.three_ne (by decide +kernel)) C52_alt_bn128_G1_generator.2.2.1
  obtain ⟨P, hP⟩ := (C61_well_formed hΔ p).1 hp
  have hr : bn128_Fr_params.p • P = 0 := by
    have h : Nat.card (sw 0 bn128_b).Point = bn128_Fr_params.p :=
      alt_bn128_G1_card.trans ((one_mul _).trans C61_same_fields.2.symm)
    rw [← h]
    exact card_nsmul_eq_zero'
  obtain ⟨q, h1, -, h2⟩ := C61_bn128_G1_stream compress debug fuel hf hc hl hP hr
  exact ⟨q, h1, h2⟩

open Bn128 in
/-- **C62.** `bn128_G1::mul_by_cofactor` and `bn128_G2::mul_by_cofactor`, for any external formulas that are correct. -/
theorem C62_bn128_cofactor {E : EcOps alt_bn128_Fq} (hE : E.Correct bn128_b) {E' : EcOps alt_bn128_Fq2}
    (hE' : E'.Correct bn128_twist_b) :
    CofactorClears (Bn128.ops E) Bn128.eq (Bn128.isWellFormed bn128_b) bn128_G1_one bn128_Fr_params.modulus
      Bn128.mulByCofactorG1 ∧
    CofactorClears (Bn128.ops E') Bn128.eq (Bn128.isWellFormed bn128_twist_b) bn128_G2_one bn128_Fr_params.modulus
      (Bn128.mulByCofactorG2 E') := by
  have hb' : bn128_twist_b ≠ 0 := C61_coefficients.2 ▸ C52_alt_bn128_G2_generator.2.2.1
  have hΔ : (sw 0 bn128_b).Δ ≠ 0 := bn128_Δ_ne (alt_bn128_K.o1.two_ne (by decide +kernel))
    (alt_bn128_K.o1.three_ne (by decide +kernel)) C52_alt_bn128_G1_generator.2.2.1
  have hΔ' : (sw 0 bn128_twist_b).Δ ≠ 0 := bn128_Δ_ne (alt_bn128_K.o2.two_ne (by decide +kernel))
    (alt_bn128_K.o2.three_ne (by decide +kernel)) hb'
  haveI : Finite (sw 0 bn128_b).Point := point_finite
  haveI : Finite (sw 0 bn128_twist_b).Point := point_finite
  have hc : Nat.card (sw 0 bn128_b).Point = 1 * val bn128_Fr_params.modulus :=
    alt_bn128_G1_card.trans (congrArg _ C61_same_fields.2.symm)
  have hc' : Nat.card (sw 0 bn128_twist_b).Point = bn128_G2_h_nat * val bn128_Fr_params.modulus := by
    rw [C61_coefficients.2]
    exact alt_bn128_G2_card.trans (congrArg _ C61_same_fields.2.symm)
  obtain ⟨P, hP, ho⟩ := C61_g1_generator.2
  obtain ⟨P', hP', ho'⟩ := C61_g2_generator.2
  have hn' : bn128_G2_h_nat % val bn128_Fr_params.modulus ≠ 0 := by decide +kernel
  have hcof : ∀ n, n = bn128_G2_h_nat → ∀ {g} {x : (sw 0 bn128_twist_b).Point}, JacRep g x →
      JacRep (Bn128.mulByCofactorG2 E' g) (n • x) := fun n hn g x hg =>
    (C61_mul_by_cofactor hE' hg (⟨0, 0, 0⟩ : Coord3 alt_bn128_Fq)).1 n hn
  generalize bn128_G2_h_nat = m at hc' hn' hcof
  exact ⟨@cofactorClears_of _ _ (Bn128.ops E) _ _ _ (Bn128.implementsRel hE) _ _ Bn128.eq_rep (C61_well_formed hΔ) _ _ hP
      _ ho bn128_Fr_prime 1 hc (by decide +kernel) _ (fun {_ x} hg => (one_nsmul x).symm ▸ hg),
    @cofactorClears_of _ _ (Bn128.ops E') _ _ _ (Bn128.implementsRel hE') _ _ Bn128.eq_rep (C61_well_formed hΔ') _ _ hP'
      _ ho' bn128_Fr_prime m hc' hn' _ (hcof m rfl)⟩

end Libff
