import Verif.Lemmas.TowerConst

/-! # The extension fields of alt_bn128 -/
namespace Libff
set_option synthInstance.maxSize 2000

instance alt_bn128_Fq_valid : Fact alt_bn128_Fq_params.Valid := ⟨alt_bn128_Fq_consistent.params⟩
instance alt_bn128_Fq_isPrime : Fact alt_bn128_Fq_params.p.Prime := ⟨alt_bn128_Fq_prime⟩
instance alt_bn128_Fr_valid : Fact alt_bn128_Fr_params.Valid := ⟨alt_bn128_Fr_consistent.params⟩
instance alt_bn128_Fr_isPrime : Fact alt_bn128_Fr_params.p.Prime := ⟨alt_bn128_Fr_prime⟩

/-- The base field. -/
abbrev alt_bn128_Fq := Fp alt_bn128_Fq_params
/-- The scalar field. -/
abbrev alt_bn128_Fr := Fp alt_bn128_Fr_params
/-- `alt_bn128_Fq2::non_residue`. -/
def alt_bn128_β : alt_bn128_Fq := (alt_bn128_Fq2_nonResidue : Nat)
/-- `alt_bn128_Fq2`. -/
abbrev alt_bn128_Fq2 := Fp2 alt_bn128_Fq alt_bn128_β
/-- `alt_bn128_Fq6::non_residue`. -/
def alt_bn128_ξ : alt_bn128_Fq2 := dec2 Nat.cast alt_bn128_Fq6_nonResidue
/-- `alt_bn128_Fq12::non_residue`. -/
def alt_bn128_γ : alt_bn128_Fq2 := dec2 Nat.cast alt_bn128_Fq12_nonResidue
/-- `alt_bn128_Fq6`. -/
abbrev alt_bn128_Fq6 := Fp6_3over2 alt_bn128_Fq alt_bn128_β alt_bn128_ξ
/-- `alt_bn128_Fq12`. -/
abbrev alt_bn128_Fq12 := Fp12 alt_bn128_Fq alt_bn128_β alt_bn128_ξ alt_bn128_ξ

/-! ## The same towers over `NM p` -/

namespace alt_bn128_K
abbrev p : Nat := alt_bn128_Fq_params.p
abbrev Fq := NM p
def β : Fq := NM.of alt_bn128_Fq2_nonResidue
abbrev Fq2 := Fp2 Fq β
def ξ : Fq2 := dec2 NM.of alt_bn128_Fq6_nonResidue
abbrev Fq6 := Fp6_3over2 Fq β ξ
abbrev Fq12 := Fp12 Fq β ξ ξ

abbrev R1 : Fq → alt_bn128_Fq → Prop := FpRel _
abbrev R2 : Fq2 → alt_bn128_Fq2 → Prop := Quad.Rel R1
abbrev R6 : Fq6 → alt_bn128_Fq6 → Prop := Cubic.Rel R2
abbrev R12 : Fq12 → alt_bn128_Fq12 → Prop := Quad.Rel R6
theorem o1 : RelOps R1 := fpRelOps
theorem rβ : R1 β alt_bn128_β := FpRel.cast (by decide +kernel)
theorem o2 : RelOps R2 := o1.quad (o1.mulConst rβ)
theorem rξ : R2 ξ alt_bn128_ξ := dec2_rel _ (by decide +kernel)
theorem o6 : RelOps R6 := o2.cubic (o2.mulConst rξ)
theorem o12 : RelOps R12 := o6.quad (o1.fp12nr rβ rξ)
end alt_bn128_K

open alt_bn128_K in
theorem alt_bn128_β_nonsquare : ¬ IsSquare alt_bn128_β := by
  refine not_isSquare_of_pow ?_ _ (fun h => ?_) ?_
  · rw [Fp.card]; decide +kernel
  · exact absurd ((o1.eq rβ o1.zero).2 h) (by decide +kernel)
  · rw [Fp.card]
    exact o1.pow_ne rβ o1.one 256 _ (by decide +kernel) (by decide +kernel)

instance alt_bn128_β_fact : Fact (¬ IsSquare alt_bn128_β) := ⟨alt_bn128_β_nonsquare⟩

theorem alt_bn128_Fq2_card : Fintype.card alt_bn128_Fq2 = alt_bn128_Fq_params.p ^ 2 := by
  rw [Quad.card, Fp.card]

open alt_bn128_K in
theorem alt_bn128_ξ_nonsquare : ¬ IsSquare alt_bn128_ξ := by
  refine not_isSquare_of_pow ?_ _ (fun h => ?_) ?_
  · rw [alt_bn128_Fq2_card]; decide +kernel
  · exact absurd ((o2.eq rξ o2.zero).2 h) (by decide +kernel)
  · rw [alt_bn128_Fq2_card]
    exact o2.pow_ne rξ o2.one 512 _ (by decide +kernel) (by decide +kernel)

open alt_bn128_K in
theorem alt_bn128_ξ_noncube : ¬ ∃ y, y ^ 3 = alt_bn128_ξ := by
  refine not_nth_power 3 (by norm_num) ?_ _ (fun h => ?_) ?_
  · rw [alt_bn128_Fq2_card]; decide +kernel
  · exact absurd ((o2.eq rξ o2.zero).2 h) (by decide +kernel)
  · rw [alt_bn128_Fq2_card]
    exact o2.pow_ne rξ o2.one 512 _ (by decide +kernel) (by decide +kernel)

instance alt_bn128_ξ_fact : Fact (∀ y : alt_bn128_Fq2, y * y * y ≠ alt_bn128_ξ) :=
  ⟨fun y hy => alt_bn128_ξ_noncube ⟨y, by rw [← hy]; ring⟩⟩

instance alt_bn128_v_fact : Fact (¬ IsSquare (Cubic.gen : alt_bn128_Fq6)) :=
  ⟨not_isSquare_gen3 _ alt_bn128_ξ alt_bn128_ξ_nonsquare⟩

theorem alt_bn128_γ_eq : alt_bn128_γ = alt_bn128_ξ := rfl

theorem alt_bn128_Fq6_card : Fintype.card alt_bn128_Fq6 = alt_bn128_Fq_params.p ^ 6 := by
  rw [Cubic.card, alt_bn128_Fq2_card]; ring

theorem alt_bn128_Fq12_card : Fintype.card alt_bn128_Fq12 = alt_bn128_Fq_params.p ^ 12 := by
  rw [Quad.card, alt_bn128_Fq6_card]; ring

end Libff
