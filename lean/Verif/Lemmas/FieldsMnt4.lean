import Verif.Lemmas.TowerConst

/-! # The extension fields of mnt4 -/
namespace Libff
set_option synthInstance.maxSize 2000

instance mnt4_Fq_valid : Fact mnt4_Fq_params.Valid := ⟨mnt4_Fq_consistent.params⟩
instance mnt4_Fq_isPrime : Fact mnt4_Fq_params.p.Prime := ⟨mnt4_Fq_prime⟩
instance mnt4_Fr_valid : Fact mnt4_Fr_params.Valid := ⟨mnt4_Fr_consistent.params⟩
instance mnt4_Fr_isPrime : Fact mnt4_Fr_params.p.Prime := ⟨mnt4_Fr_prime⟩

/-- The base field. -/
abbrev mnt4_Fq := Fp mnt4_Fq_params
/-- The scalar field. -/
abbrev mnt4_Fr := Fp mnt4_Fr_params
/-- `mnt4_Fq2::non_residue`. -/
def mnt4_β : mnt4_Fq := (mnt4_Fq2_nonResidue : Nat)
/-- `mnt4_Fq2`. -/
abbrev mnt4_Fq2 := Fp2 mnt4_Fq mnt4_β
/-- `mnt4_Fq4::non_residue`. -/
def mnt4_γ : mnt4_Fq := (mnt4_Fq4_nonResidue : Nat)
/-- `mnt4_Fq4`. -/
abbrev mnt4_Fq4 := Fp4 mnt4_Fq mnt4_β mnt4_β

/-! ## The same towers over `NM p` -/

namespace mnt4_K
abbrev p : Nat := mnt4_Fq_params.p
abbrev Fq := NM p
def β : Fq := NM.of mnt4_Fq2_nonResidue
abbrev Fq2 := Fp2 Fq β
abbrev Fq4 := Fp4 Fq β β

abbrev R1 : Fq → mnt4_Fq → Prop := FpRel _
abbrev R2 : Fq2 → mnt4_Fq2 → Prop := Quad.Rel R1
abbrev R4 : Fq4 → mnt4_Fq4 → Prop := Quad.Rel R2
theorem o1 : RelOps R1 := fpRelOps
theorem rβ : R1 β mnt4_β := FpRel.cast (by decide +kernel)
theorem o2 : RelOps R2 := o1.quad (o1.mulConst rβ)
theorem o4 : RelOps R4 := o2.quad (o1.fp4nr rβ)
end mnt4_K

open mnt4_K in
theorem mnt4_β_nonsquare : ¬ IsSquare mnt4_β := by
  refine not_isSquare_of_pow ?_ _ (fun h => ?_) ?_
  · rw [Fp.card]; decide +kernel
  · exact absurd ((o1.eq rβ o1.zero).2 h) (by decide +kernel)
  · rw [Fp.card]
    exact o1.pow_ne rβ o1.one 320 _ (by decide +kernel) (by decide +kernel)

open mnt4_K in
theorem mnt4_negβ_nonsquare : ¬ IsSquare (-mnt4_β) := by
  have rn := o1.neg rβ
  refine not_isSquare_of_pow ?_ _ (fun h => ?_) ?_
  · rw [Fp.card]; decide +kernel
  · exact absurd ((o1.eq rn o1.zero).2 h) (by decide +kernel)
  · rw [Fp.card]
    exact o1.pow_ne rn o1.one 320 _ (by decide +kernel) (by decide +kernel)

instance mnt4_β_fact : Fact (¬ IsSquare mnt4_β) := ⟨mnt4_β_nonsquare⟩
instance mnt4_u_fact : Fact (¬ IsSquare (Quad.gen : mnt4_Fq2)) :=
  ⟨not_isSquare_gen2 _ mnt4_β mnt4_negβ_nonsquare⟩

theorem mnt4_γ_eq : mnt4_γ = mnt4_β := rfl

theorem mnt4_Fq2_card : Fintype.card mnt4_Fq2 = mnt4_Fq_params.p ^ 2 := by
  rw [Quad.card, Fp.card]

theorem mnt4_Fq4_card : Fintype.card mnt4_Fq4 = mnt4_Fq_params.p ^ 4 := by
  rw [Quad.card, mnt4_Fq2_card]; ring

end Libff
