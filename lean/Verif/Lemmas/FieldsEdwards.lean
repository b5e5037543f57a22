import Verif.Lemmas.TowerConst

/-! # The extension fields of edwards -/
namespace Libff
set_option synthInstance.maxSize 2000

instance edwards_Fq_valid : Fact edwards_Fq_params.Valid := ⟨edwards_Fq_consistent.params⟩
instance edwards_Fq_isPrime : Fact edwards_Fq_params.p.Prime := ⟨edwards_Fq_prime⟩
instance edwards_Fr_valid : Fact edwards_Fr_params.Valid := ⟨edwards_Fr_consistent.params⟩
instance edwards_Fr_isPrime : Fact edwards_Fr_params.p.Prime := ⟨edwards_Fr_prime⟩

/-- The base field. -/
abbrev edwards_Fq := Fp edwards_Fq_params
/-- The scalar field. -/
abbrev edwards_Fr := Fp edwards_Fr_params
/-- `edwards_Fq3::non_residue`. -/
def edwards_β : edwards_Fq := (edwards_Fq3_nonResidue : Nat)
/-- `edwards_Fq3`. -/
abbrev edwards_Fq3 := Fp3 edwards_Fq edwards_β
/-- `edwards_Fq6::non_residue`. -/
def edwards_γ : edwards_Fq := (edwards_Fq6_nonResidue : Nat)
/-- `edwards_Fq6`. -/
abbrev edwards_Fq6 := Fp6_2over3 edwards_Fq edwards_β edwards_β

/-! ## The same towers over `NM p` -/

namespace edwards_K
abbrev p : Nat := edwards_Fq_params.p
abbrev Fq := NM p
def β : Fq := NM.of edwards_Fq3_nonResidue
abbrev Fq3 := Fp3 Fq β
abbrev Fq6 := Fp6_2over3 Fq β β

abbrev R1 : Fq → edwards_Fq → Prop := FpRel _
abbrev R3 : Fq3 → edwards_Fq3 → Prop := Cubic.Rel R1
abbrev R6 : Fq6 → edwards_Fq6 → Prop := Quad.Rel R3
theorem o1 : RelOps R1 := fpRelOps
theorem rβ : R1 β edwards_β := FpRel.cast (by decide +kernel)
theorem o3 : RelOps R3 := o1.cubic (o1.mulConst rβ)
theorem o6 : RelOps R6 := o3.quad (o1.fp6nr rβ)
end edwards_K

open edwards_K in
theorem edwards_β_nonsquare : ¬ IsSquare edwards_β := by
  refine not_isSquare_of_pow ?_ _ (fun h => ?_) ?_
  · rw [Fp.card]; decide +kernel
  · exact absurd ((o1.eq rβ o1.zero).2 h) (by decide +kernel)
  · rw [Fp.card]
    exact o1.pow_ne rβ o1.one 192 _ (by decide +kernel) (by decide +kernel)

open edwards_K in
theorem edwards_β_noncube : ¬ ∃ y, y ^ 3 = edwards_β := by
  refine not_nth_power 3 (by norm_num) ?_ _ (fun h => ?_) ?_
  · rw [Fp.card]; decide +kernel
  · exact absurd ((o1.eq rβ o1.zero).2 h) (by decide +kernel)
  · rw [Fp.card]
    exact o1.pow_ne rβ o1.one 192 _ (by decide +kernel) (by decide +kernel)

instance edwards_β_fact : Fact (∀ y : edwards_Fq, y * y * y ≠ edwards_β) :=
  ⟨fun y hy => edwards_β_noncube ⟨y, by rw [← hy]; ring⟩⟩
instance edwards_u_fact : Fact (¬ IsSquare (Cubic.gen : edwards_Fq3)) :=
  ⟨not_isSquare_gen3 _ edwards_β edwards_β_nonsquare⟩

theorem edwards_γ_eq : edwards_γ = edwards_β := rfl

theorem edwards_Fq3_card : Fintype.card edwards_Fq3 = edwards_Fq_params.p ^ 3 := by
  rw [Cubic.card, Fp.card]

theorem edwards_Fq6_card : Fintype.card edwards_Fq6 = edwards_Fq_params.p ^ 6 := by
  rw [Quad.card, edwards_Fq3_card]; ring

end Libff
