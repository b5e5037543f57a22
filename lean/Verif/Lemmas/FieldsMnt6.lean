import Verif.Lemmas.TowerConst

/-! # The extension fields of mnt6 -/
namespace Libff
set_option synthInstance.maxSize 2000

instance mnt6_Fq_valid : Fact mnt6_Fq_params.Valid := ⟨mnt6_Fq_consistent.params⟩
instance mnt6_Fq_isPrime : Fact mnt6_Fq_params.p.Prime := ⟨mnt6_Fq_prime⟩
instance mnt6_Fr_valid : Fact mnt6_Fr_params.Valid := ⟨mnt6_Fr_consistent.params⟩
instance mnt6_Fr_isPrime : Fact mnt6_Fr_params.p.Prime := ⟨mnt6_Fr_prime⟩

/-- The base field. -/
abbrev mnt6_Fq := Fp mnt6_Fq_params
/-- The scalar field. -/
abbrev mnt6_Fr := Fp mnt6_Fr_params
/-- `mnt6_Fq3::non_residue`. -/
def mnt6_β : mnt6_Fq := (mnt6_Fq3_nonResidue : Nat)
/-- `mnt6_Fq3`. -/
abbrev mnt6_Fq3 := Fp3 mnt6_Fq mnt6_β
/-- `mnt6_Fq6::non_residue`. -/
def mnt6_γ : mnt6_Fq := (mnt6_Fq6_nonResidue : Nat)
/-- `mnt6_Fq6`. -/
abbrev mnt6_Fq6 := Fp6_2over3 mnt6_Fq mnt6_β mnt6_β

/-! ## The same towers over `NM p` -/

namespace mnt6_K
abbrev p : Nat := mnt6_Fq_params.p
abbrev Fq := NM p
def β : Fq := NM.of mnt6_Fq3_nonResidue
abbrev Fq3 := Fp3 Fq β
abbrev Fq6 := Fp6_2over3 Fq β β

abbrev R1 : Fq → mnt6_Fq → Prop := FpRel _
abbrev R3 : Fq3 → mnt6_Fq3 → Prop := Cubic.Rel R1
abbrev R6 : Fq6 → mnt6_Fq6 → Prop := Quad.Rel R3
theorem o1 : RelOps R1 := fpRelOps
theorem rβ : R1 β mnt6_β := FpRel.cast (by decide +kernel)
theorem o3 : RelOps R3 := o1.cubic (o1.mulConst rβ)
theorem o6 : RelOps R6 := o3.quad (o1.fp6nr rβ)
end mnt6_K

open mnt6_K in
theorem mnt6_β_nonsquare : ¬ IsSquare mnt6_β := by
  refine not_isSquare_of_pow ?_ _ (fun h => ?_) ?_
  · rw [Fp.card]; decide +kernel
  · exact absurd ((o1.eq rβ o1.zero).2 h) (by decide +kernel)
  · rw [Fp.card]
    exact o1.pow_ne rβ o1.one 320 _ (by decide +kernel) (by decide +kernel)

open mnt6_K in
theorem mnt6_β_noncube : ¬ ∃ y, y ^ 3 = mnt6_β := by
  refine not_nth_power 3 (by norm_num) ?_ _ (fun h => ?_) ?_
  · rw [Fp.card]; decide +kernel
  · exact absurd ((o1.eq rβ o1.zero).2 h) (by decide +kernel)
  · rw [Fp.card]
    exact o1.pow_ne rβ o1.one 320 _ (by decide +kernel) (by decide +kernel)

instance mnt6_β_fact : Fact (∀ y : mnt6_Fq, y * y * y ≠ mnt6_β) :=
  ⟨fun y hy => mnt6_β_noncube ⟨y, by rw [← hy]; ring⟩⟩
instance mnt6_u_fact : Fact (¬ IsSquare (Cubic.gen : mnt6_Fq3)) :=
  ⟨not_isSquare_gen3 _ mnt6_β mnt6_β_nonsquare⟩

theorem mnt6_γ_eq : mnt6_γ = mnt6_β := rfl

theorem mnt6_Fq3_card : Fintype.card mnt6_Fq3 = mnt6_Fq_params.p ^ 3 := by
  rw [Cubic.card, Fp.card]

theorem mnt6_Fq6_card : Fintype.card mnt6_Fq6 = mnt6_Fq_params.p ^ 6 := by
  rw [Quad.card, mnt6_Fq3_card]; ring

end Libff
