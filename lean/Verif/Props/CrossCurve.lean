import Verif.Props.CofactorPairing
import Verif.Spec.SameGroup

/-!
# C68: the cycle of mnt4 and mnt6; bn128 and alt_bn128 are the same groups
-/
namespace Libff
set_option synthInstance.maxSize 2000
set_option maxRecDepth 100000

/-- **C68.** The scalar field of mnt4 is the base field of mnt6 and vice versa, constants included; each curve's group `G1` has as many
elements as the other curve's base field. -/
theorem C68_mnt_cycle : mnt4_Fr_data = mnt6_Fq_data ∧ mnt4_Fq_data = mnt6_Fr_data ∧
    Nat.card (sw mnt4_a mnt4_b).Point = Nat.card mnt6_Fq ∧ Nat.card (sw mnt6_a mnt6_b).Point = Nat.card mnt4_Fq := by
  have h1 : mnt4_Fr_data = mnt6_Fq_data := rfl
  have h2 : mnt4_Fq_data = mnt6_Fr_data := rfl
  refine ⟨h1, h2, ?_, ?_⟩
  · refine C62_mnt4_G1_order.1.trans ?_
    rw [Nat.card_eq_fintype_card, Fp.card]
    decide +kernel
  · refine C62_mnt6_G1_order.1.trans ?_
    rw [Nat.card_eq_fintype_card, Fp.card]
    decide +kernel

section
variable {K : Type} [Field K] [DecidableEq K] [Squared K] [LawfulSquared K] {b : K}

theorem bn_sameGroup (h2 : (2 : K) ≠ 0) (h3 : (3 : K) ≠ 0) (hb : b ≠ 0) {E : Bn128.EcOps K} (hE : E.Correct b) :
    SameGroup (Bn128.ops E) Jac.ops Bn128.eq Jac.eq (Bn128.isWellFormed b) (Jac.isWellFormed b) := by
  have w1 := C61_well_formed (b := b) (bn128_Δ_ne h2 h3 hb)
  have w2 := C38_jacobian (b := b) h2 h3 hb
  have i1 := @Bn128.implementsRel _ _ _ _ _ hE
  have i2 := Jac.implementsRel (b := b) h2
  have z1 := @ImplementsRel.zero _ _ (Bn128.ops E) _ _ i1
  have add1 := @ImplementsRel.add _ _ (Bn128.ops E) _ _ i1
  have sub1 := @ImplementsRel.sub _ _ (Bn128.ops E) _ _ i1
  have dbl1 := @ImplementsRel.dbl _ _ (Bn128.ops E) _ _ i1
  have z2 := @ImplementsRel.zero _ _ Jac.ops _ _ i2
  have add2 := @ImplementsRel.add _ _ Jac.ops _ _ i2
  have sub2 := @ImplementsRel.sub _ _ Jac.ops _ _ i2
  have dbl2 := @ImplementsRel.dbl _ _ Jac.ops _ _ i2
  refine ⟨fun p => Bool.eq_iff_iff.2 ((w1 p).trans (w2 p).symm), fun p q hp hq => ?_, (Bn128.eq_rep z1 z2).2 rfl, fun p q hp hq => ?_, fun p q hp hq => ?_,
    fun p hp => ?_, fun p e hp => ?_⟩
  · obtain ⟨P, hP⟩ := (w1 p).1 hp
    obtain ⟨Q, hQ⟩ := (w1 q).1 hq
    exact Bool.eq_iff_iff.2 ((Bn128.eq_rep hP hQ).trans (Jac.eq_rep hP hQ).symm)
  · obtain ⟨P, hP⟩ := (w1 p).1 hp
    obtain ⟨Q, hQ⟩ := (w1 q).1 hq
    have := add1 hP hQ
    exact ⟨(w1 _).2 ⟨_, this⟩, (Bn128.eq_rep this (add2 hP hQ)).2 rfl⟩
  · obtain ⟨P, hP⟩ := (w1 p).1 hp
    obtain ⟨Q, hQ⟩ := (w1 q).1 hq
    have := sub1 hP hQ
    exact ⟨(w1 _).2 ⟨_, this⟩, (Bn128.eq_rep this (sub2 hP hQ)).2 rfl⟩
  · obtain ⟨P, hP⟩ := (w1 p).1 hp
    have := dbl1 hP
    exact ⟨(w1 _).2 ⟨_, this⟩, (Bn128.eq_rep this (dbl2 hP)).2 rfl⟩
  · obtain ⟨P, hP⟩ := (w1 p).1 hp
    have := @scalarMul_rel _ _ (Bn128.ops E) _ _ i1 _ _ hP e
    exact ⟨(w1 _).2 ⟨_, this⟩, (Bn128.eq_rep this (@scalarMul_rel _ _ Jac.ops _ _ i2 _ _ hP e)).2 rfl⟩

end

open Bn128 in
/-- **C68.** `bn128_G1`, `bn128_G2` and `alt_bn128_G1`, `alt_bn128_G2` are the same groups: objects with the same coordinates are valid in
both or in neither, and all operations agree, for any external formulas that are correct. -/
theorem C68_bn_groups {E : EcOps alt_bn128_Fq} (hE : E.Correct bn128_b) {E' : EcOps alt_bn128_Fq2} (hE' : E'.Correct bn128_twist_b) :
    SameGroup (Bn128.ops E) Jac.ops Bn128.eq Jac.eq (Bn128.isWellFormed bn128_b) (Jac.isWellFormed alt_bn128_b) ∧
    SameGroup (Bn128.ops E') Jac.ops Bn128.eq Jac.eq (Bn128.isWellFormed bn128_twist_b) (Jac.isWellFormed alt_bn128_twist_b) :=
  ⟨C61_coefficients.1 ▸ bn_sameGroup (alt_bn128_K.o1.two_ne (by decide +kernel)) (alt_bn128_K.o1.three_ne (by decide +kernel))
    (C61_coefficients.1 ▸ C52_alt_bn128_G1_generator.2.2.1) hE,
   C61_coefficients.2 ▸ bn_sameGroup (alt_bn128_K.o2.two_ne (by decide +kernel)) (alt_bn128_K.o2.three_ne (by decide +kernel))
    (C61_coefficients.2 ▸ C52_alt_bn128_G2_generator.2.2.1) hE'⟩

/-- The assumption on the external formulas is met by those of libff's own classes. -/
example : ∃ (E : Bn128.EcOps alt_bn128_Fq) (E' : Bn128.EcOps alt_bn128_Fq2), E.Correct bn128_b ∧ E'.Correct bn128_twist_b :=
  ⟨_, _, Bn128.jac_correct (alt_bn128_K.o1.two_ne (by decide +kernel)), Bn128.jac_correct (alt_bn128_K.o2.two_ne (by decide +kernel))⟩

/-- **C68.** The generators of `G1` are the same; those of `G2` are not, but each is a multiple of the other. -/
theorem C68_bn_generators : bn128_G1_one = alt_bn128_G1_one ∧ Jac.eq bn128_G2_one alt_bn128_G2_one = false ∧
    ∃ k < val alt_bn128_Fr_params.modulus, ∀ e, val e = k → Jac.eq bn128_G2_one (@scalarMul _ Jac.ops alt_bn128_G2_one e) = true := by
  have hr : bn128_Fr_params.p = val alt_bn128_Fr_params.modulus := C61_same_fields.2
  refine ⟨rfl, ?_, ?_⟩
  · exact (Jac.eq_relates alt_bn128_K.o2 (p := ⟨dec2 NM.of bn128_G2_one_nat.1, dec2 NM.of bn128_G2_one_nat.2, 1⟩) (q := bn128_G2_one)
      ⟨dec2_rel _ (by decide +kernel), dec2_rel _ (by decide +kernel), alt_bn128_K.o2.one⟩ alt_bn128_K.g2_rel).symm.trans (by decide +kernel)
  · obtain ⟨-, P, hP, ho⟩ := C61_g2_generator
    rw [hr] at ho
    revert P
    rw [C61_coefficients.2]
    intro P hP ho
    refine (C62_alt_bn128_G2_cofactor.member bn128_G2_one ((C62_alt_bn128_G2_order.2 _).2 ⟨P, hP⟩)).1 ?_
    have i2 := Jac.implementsRel (b := alt_bn128_twist_b) (alt_bn128_K.o2.two_ne (by decide +kernel))
    have := @scalarMul_rel _ _ Jac.ops _ _ i2 _ _ hP alt_bn128_Fr_params.modulus
    rw [← ho, addOrderOf_nsmul_eq_zero] at this
    exact (Jac.eq_rep this (@ImplementsRel.zero _ _ Jac.ops _ _ i2)).2 rfl

end Libff
