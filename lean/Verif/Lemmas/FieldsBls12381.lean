import Verif.Lemmas.TowerConst

/-! # The extension fields of bls12_381 -/
namespace Libff
set_option synthInstance.maxSize 2000

instance bls12_381_Fq_valid : Fact bls12_381_Fq_params.Valid := ⟨bls12_381_Fq_consistent.params⟩
instance bls12_381_Fq_isPrime : Fact bls12_381_Fq_params.p.Prime := ⟨bls12_381_Fq_prime⟩
instance bls12_381_Fr_valid : Fact bls12_381_Fr_params.Valid := ⟨bls12_381_Fr_consistent.params⟩
instance bls12_381_Fr_isPrime : Fact bls12_381_Fr_params.p.Prime := ⟨bls12_381_Fr_prime⟩

/-- The base field. -/
abbrev bls12_381_Fq := Fp bls12_381_Fq_params
/-- The scalar field. -/
abbrev bls12_381_Fr := Fp bls12_381_Fr_params
/-- `bls12_381_Fq2::non_residue`. -/
def bls12_381_β : bls12_381_Fq := (bls12_381_Fq2_nonResidue : Nat)
/-- `bls12_381_Fq2`. -/
abbrev bls12_381_Fq2 := Fp2 bls12_381_Fq bls12_381_β
/-- `bls12_381_Fq6::non_residue`. -/
def bls12_381_ξ : bls12_381_Fq2 := dec2 Nat.cast bls12_381_Fq6_nonResidue
/-- `bls12_381_Fq12::non_residue`. -/
def bls12_381_γ : bls12_381_Fq2 := dec2 Nat.cast bls12_381_Fq12_nonResidue
/-- `bls12_381_Fq6`. -/
abbrev bls12_381_Fq6 := Fp6_3over2 bls12_381_Fq bls12_381_β bls12_381_ξ
/-- `bls12_381_Fq12`. -/
abbrev bls12_381_Fq12 := Fp12 bls12_381_Fq bls12_381_β bls12_381_ξ bls12_381_ξ

/-! ## The same towers over `NM p` -/

namespace bls12_381_K
abbrev p : Nat := bls12_381_Fq_params.p
abbrev Fq := NM p
def β : Fq := NM.of bls12_381_Fq2_nonResidue
abbrev Fq2 := Fp2 Fq β
def ξ : Fq2 := dec2 NM.of bls12_381_Fq6_nonResidue
abbrev Fq6 := Fp6_3over2 Fq β ξ
abbrev Fq12 := Fp12 Fq β ξ ξ

abbrev R1 : Fq → bls12_381_Fq → Prop := FpRel _
abbrev R2 : Fq2 → bls12_381_Fq2 → Prop := Quad.Rel R1
abbrev R6 : Fq6 → bls12_381_Fq6 → Prop := Cubic.Rel R2
abbrev R12 : Fq12 → bls12_381_Fq12 → Prop := Quad.Rel R6
theorem o1 : RelOps R1 := fpRelOps
theorem rβ : R1 β bls12_381_β := FpRel.cast (by decide +kernel)
theorem o2 : RelOps R2 := o1.quad (o1.mulConst rβ)
theorem rξ : R2 ξ bls12_381_ξ := dec2_rel _ (by decide +kernel)
theorem o6 : RelOps R6 := o2.cubic (o2.mulConst rξ)
theorem o12 : RelOps R12 := o6.quad (o1.fp12nr rβ rξ)
end bls12_381_K

open bls12_381_K in
theorem bls12_381_β_nonsquare : ¬ IsSquare bls12_381_β := by
  refine not_isSquare_of_pow ?_ _ (fun h => ?_) ?_
  · rw [Fp.card]; decide +kernel
  · exact absurd ((o1.eq rβ o1.zero).2 h) (by decide +kernel)
  · rw [Fp.card]
    exact o1.pow_ne rβ o1.one 384 _ (by decide +kernel) (by decide +kernel)

instance bls12_381_β_fact : Fact (¬ IsSquare bls12_381_β) := ⟨bls12_381_β_nonsquare⟩

theorem bls12_381_Fq2_card : Fintype.card bls12_381_Fq2 = bls12_381_Fq_params.p ^ 2 := by
  rw [Quad.card, Fp.card]

open bls12_381_K in
theorem bls12_381_ξ_nonsquare : ¬ IsSquare bls12_381_ξ := by
  refine not_isSquare_of_pow ?_ _ (fun h => ?_) ?_
  · rw [bls12_381_Fq2_card]; decide +kernel
  · exact absurd ((o2.eq rξ o2.zero).2 h) (by decide +kernel)
  · rw [bls12_381_Fq2_card]
    exact o2.pow_ne rξ o2.one 768 _ (by decide +kernel) (by decide +kernel)

open bls12_381_K in
theorem bls12_381_ξ_noncube : ¬ ∃ y, y ^ 3 = bls12_381_ξ := by
  refine not_nth_power 3 (by norm_num) ?_ _ (fun h => ?_) ?_
  · rw [bls12_381_Fq2_card]; decide +kernel
  · exact absurd ((o2.eq rξ o2.zero).2 h) (by decide +kernel)
  · rw [bls12_381_Fq2_card]
    exact o2.pow_ne rξ o2.one 768 _ (by decide +kernel) (by decide +kernel)

instance bls12_381_ξ_fact : Fact (∀ y : bls12_381_Fq2, y * y * y ≠ bls12_381_ξ) :=
  ⟨fun y hy => bls12_381_ξ_noncube ⟨y, by rw [← hy]; ring⟩⟩

instance bls12_381_v_fact : Fact (¬ IsSquare (Cubic.gen : bls12_381_Fq6)) :=
  ⟨not_isSquare_gen3 _ bls12_381_ξ bls12_381_ξ_nonsquare⟩

theorem bls12_381_γ_eq : bls12_381_γ = bls12_381_ξ := rfl

theorem bls12_381_Fq6_card : Fintype.card bls12_381_Fq6 = bls12_381_Fq_params.p ^ 6 := by
  rw [Cubic.card, bls12_381_Fq2_card]; ring

theorem bls12_381_Fq12_card : Fintype.card bls12_381_Fq12 = bls12_381_Fq_params.p ^ 12 := by
  rw [Quad.card, bls12_381_Fq6_card]; ring

end Libff
