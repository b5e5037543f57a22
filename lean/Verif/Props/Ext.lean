import Verif.Spec.Ext
import Verif.Lemmas.Tower
import Verif.Lemmas.Witness
import Verif.Props.Fp
import Mathlib.Data.ZMod.Basic
import Mathlib.Tactic.NormNum.Prime

/-! # C15–C21: extension field arithmetic -/
namespace Libff
open Polynomial

/-! ## Generic statements -/

theorem quad_isExtension {K : Type*} [CommRing K] [Nontrivial K] [Squared K] [LawfulSquared K]
    {nr : K → K} (β : K) [MulBy nr β] :
    IsQuadraticExtension (nr := nr) β (Quad.equivAdjoinRoot (nr := nr) (β := β)).symm.toEquiv := by
  have key : ∀ (x : Quad K nr) (y : AdjoinRoot (Quad.poly β)),
      (Quad.equivAdjoinRoot (nr := nr) (β := β)) y = x →
      (Quad.equivAdjoinRoot (nr := nr) (β := β)).symm.toEquiv x = y :=
    fun x y h => by rw [← h]; exact (Quad.equivAdjoinRoot (nr := nr) (β := β)).symm_apply_apply y
  have hof : ∀ a : K, (Quad.equivAdjoinRoot (nr := nr) (β := β)) (AdjoinRoot.of _ a) = Quad.ofBase a :=
    Quad.equivAdjoinRoot_of
  have hroot : (Quad.equivAdjoinRoot (nr := nr) (β := β)) (AdjoinRoot.root _) = Quad.gen :=
    Quad.equivAdjoinRoot_root
  let e := Quad.equivAdjoinRoot (nr := nr) (β := β)
  refine ⟨fun x => key _ _ ?_, map_zero e.symm, map_one e.symm, map_add e.symm, map_sub e.symm,
    map_neg e.symm, map_mul e.symm, fun x => ?_, fun x => ?_, fun a x => ?_⟩
  · rw [map_add, map_mul, hof, hof, hroot]; exact (Quad.eq_ofBase_add x).symm
  · rw [LawfulSquared.squared_eq, pow_two]; exact map_mul e.symm _ _
  · rw [Quad.squaredKaratsuba_eq, pow_two]; exact map_mul e.symm _ _
  · have : Quad.scale (· * ·) a x = Quad.ofBase a * x := by
      unfold Quad.scale; ext <;> simp
    rw [this, ← hof]
    refine (map_mul (Quad.equivAdjoinRoot (nr := nr) (β := β)).symm _ _).trans ?_
    rw [RingEquiv.symm_apply_apply]; rfl

theorem cubic_isExtension {K : Type*} [CommRing K] [Nontrivial K] [Squared K] [LawfulSquared K]
    {nr : K → K} (β : K) [MulBy nr β] :
    IsCubicExtension (nr := nr) β (Cubic.equivAdjoinRoot (nr := nr) (β := β)).symm.toEquiv := by
  have key : ∀ (x : Cubic K nr) (y : AdjoinRoot (Cubic.poly β)),
      (Cubic.equivAdjoinRoot (nr := nr) (β := β)) y = x →
      (Cubic.equivAdjoinRoot (nr := nr) (β := β)).symm.toEquiv x = y :=
    fun x y h => by rw [← h]; exact (Cubic.equivAdjoinRoot (nr := nr) (β := β)).symm_apply_apply y
  have hof : ∀ a : K, (Cubic.equivAdjoinRoot (nr := nr) (β := β)) (AdjoinRoot.of _ a) = Cubic.ofBase a :=
    Cubic.equivAdjoinRoot_of
  have hroot : (Cubic.equivAdjoinRoot (nr := nr) (β := β)) (AdjoinRoot.root _) = Cubic.gen :=
    Cubic.equivAdjoinRoot_root
  let e := Cubic.equivAdjoinRoot (nr := nr) (β := β)
  refine ⟨fun x => key _ _ ?_, map_zero e.symm, map_one e.symm, map_add e.symm, map_sub e.symm,
    map_neg e.symm, map_mul e.symm, fun x => ?_, fun a x => ?_⟩
  · rw [map_add, map_add, map_mul, map_mul, map_pow, hof, hof, hof, hroot, pow_two]
    exact (Cubic.eq_ofBase_add x).symm
  · rw [LawfulSquared.squared_eq, pow_two]; exact map_mul e.symm _ _
  · have : Cubic.scale (· * ·) a x = Cubic.ofBase a * x := by
      unfold Cubic.scale; ext <;> simp
    rw [this, ← hof]
    refine (map_mul (Cubic.equivAdjoinRoot (nr := nr) (β := β)).symm _ _).trans ?_
    rw [RingEquiv.symm_apply_apply]; rfl

theorem invertsExactly_of_lawful {L : Type*} [Field L] [InverseO L] [LawfulInverse L] :
    InvertsExactly (L := L) :=
  ⟨LawfulInverse.inverseO_zero, fun x hx => ⟨x⁻¹, LawfulInverse.inverseO_ne x hx, mul_inv_cancel₀ hx⟩⟩

/-! ## C15: `Fp2` -/

/-- C15. `Fp2` arithmetic is that of `K[u]/(u² - β)`. -/
theorem C15_fp2_arithmetic (K : Type*) [CommRing K] [Nontrivial K] [Squared K] [LawfulSquared K]
    (β : K) : ∃ φ : Fp2 K β ≃ AdjoinRoot (Quad.poly β), IsQuadraticExtension β φ :=
  ⟨_, quad_isExtension β⟩

/-- C15. Inversion is exact when `β` is a non-residue. -/
theorem C15_fp2_inverse (K : Type*) [Field K] [Squared K] [LawfulSquared K] [InverseO K]
    [LawfulInverse K] (β : K) (hβ : ¬ IsSquare β) : InvertsExactly (L := Fp2 K β) :=
  haveI : Fact (¬ IsSquare β) := ⟨hβ⟩
  invertsExactly_of_lawful

/-- C15 for the library's own prime fields: all hypotheses on the coefficient field hold, down to
the limb code. -/
theorem C15_fp2_over_fp (P : FpParams) [Fact P.Valid] [Fact P.p.Prime] (β : Fp P) :
    (∃ φ : Fp2 (Fp P) β ≃ AdjoinRoot (Quad.poly β), IsQuadraticExtension β φ) ∧
    (¬ IsSquare β.toZMod → InvertsExactly (L := Fp2 (Fp P) β)) :=
  ⟨C15_fp2_arithmetic _ β, fun h => C15_fp2_inverse _ β (fun ⟨y, hy⟩ => h ⟨y.toZMod, by
    rw [hy, Fp.toZMod_mul]⟩)⟩

/-- The non-residue condition is needed: with a square `β` there are nonzero elements on which
`inverse()` is rejected. -/
theorem C15_nonresidue_needed (K : Type*) [Field K] [Squared K] [LawfulSquared K] [InverseO K]
    [LawfulInverse K] (β : K) (hβ : IsSquare β) :
    ∃ x : Fp2 K β, x ≠ 0 ∧ inverseO x = .abort := by
  obtain ⟨y, rfl⟩ := hβ
  refine ⟨⟨y, 1⟩, fun h => one_ne_zero (congrArg Quad.c1 h), ?_⟩
  change (inverseO (squared y - (y * y) * squared 1)).map _ = _
  rw [LawfulSquared.squared_eq, LawfulSquared.squared_eq, mul_one, mul_one, sub_self,
    LawfulInverse.inverseO_zero]
  rfl

/-! ## C16: `Fp3` -/

/-- C16. `Fp3` arithmetic is that of `K[u]/(u³ - β)`. -/
theorem C16_fp3_arithmetic (K : Type*) [CommRing K] [Nontrivial K] [Squared K] [LawfulSquared K]
    (β : K) : ∃ φ : Fp3 K β ≃ AdjoinRoot (Cubic.poly β), IsCubicExtension β φ :=
  ⟨_, cubic_isExtension β⟩

/-- C16. Inversion is exact when `X³ - β` has no root (equivalently, is irreducible). -/
theorem C16_fp3_inverse (K : Type*) [Field K] [Squared K] [LawfulSquared K] [InverseO K]
    [LawfulInverse K] (β : K) (hβ : ¬ ∃ y, y ^ 3 = β) : InvertsExactly (L := Fp3 K β) :=
  haveI : Fact (∀ y : K, y * y * y ≠ β) := ⟨fun y hy => hβ ⟨y, by rw [← hy]; ring⟩⟩
  invertsExactly_of_lawful

/-- C16 for the library's own prime fields. -/
theorem C16_fp3_over_fp (P : FpParams) [Fact P.Valid] [Fact P.p.Prime] (β : Fp P) :
    (∃ φ : Fp3 (Fp P) β ≃ AdjoinRoot (Cubic.poly β), IsCubicExtension β φ) ∧
    ((¬ ∃ y, y ^ 3 = β.toZMod) → InvertsExactly (L := Fp3 (Fp P) β)) :=
  ⟨C16_fp3_arithmetic _ β, fun h => C16_fp3_inverse _ β (fun ⟨y, hy⟩ => h ⟨y.toZMod, by
    rw [← hy]; exact (map_pow Fp.equivZMod y 3).symm⟩)⟩

/-! ## C17: `Fp4` -/

/-- C17. `Fp4` arithmetic is that of `K₂[v]/(v² - u)`, `K₂ = K[u]/(u² - β)`, when the non-residues of
the two levels agree. -/
theorem C17_fp4_arithmetic (K : Type*) [CommRing K] [Nontrivial K] [Squared K] [LawfulSquared K]
    (β : K) : ∃ φ : Fp4 K β β ≃ AdjoinRoot (Quad.poly (Quad.gen : Fp2 K β)),
      IsQuadraticExtension (Quad.gen : Fp2 K β) φ :=
  haveI : Nontrivial (Fp2 K β) := ⟨0, 1, fun h => zero_ne_one (congrArg Quad.c0 h)⟩
  ⟨_, quad_isExtension (Quad.gen : Fp2 K β)⟩

/-- C17. Inversion is exact when `β` and `-β` are non-residues. -/
theorem C17_fp4_inverse (K : Type*) [Field K] [Squared K] [LawfulSquared K] [InverseO K]
    [LawfulInverse K] (β : K) (hβ : ¬ IsSquare β) (hβ' : ¬ IsSquare (-β)) :
    InvertsExactly (L := Fp4 K β β) :=
  haveI : Fact (¬ IsSquare β) := ⟨hβ⟩
  haveI : Fact (¬ IsSquare (Quad.gen : Fp2 K β)) := ⟨not_isSquare_gen2 _ β hβ'⟩
  invertsExactly_of_lawful

/-- C17. `mul_by_non_residue` multiplies by `u`. -/
theorem C17_fp4_mul_by_non_residue (K : Type*) [CommRing K] (β : K) (x : Fp2 K β) :
    fp4nr β x = ⟨0, 1⟩ * x := (instMulBy4 β).mulBy x

/-! ## C18: `Fp6_2over3` -/

/-- C18. `Fp6_2over3` arithmetic is that of `K₃[v]/(v² - u)`, `K₃ = K[u]/(u³ - β)`. -/
theorem C18_fp6_2over3_arithmetic (K : Type*) [CommRing K] [Nontrivial K] [Squared K]
    [LawfulSquared K] (β : K) :
    ∃ φ : Fp6_2over3 K β β ≃ AdjoinRoot (Quad.poly (Cubic.gen : Fp3 K β)),
      IsQuadraticExtension (Cubic.gen : Fp3 K β) φ :=
  haveI : Nontrivial (Fp3 K β) := ⟨0, 1, fun h => zero_ne_one (congrArg Cubic.c0 h)⟩
  ⟨_, quad_isExtension (Cubic.gen : Fp3 K β)⟩

/-- C18. Inversion is exact when `β` is neither a square nor a cube. -/
theorem C18_fp6_2over3_inverse (K : Type*) [Field K] [Squared K] [LawfulSquared K] [InverseO K]
    [LawfulInverse K] (β : K) (hβ : ¬ IsSquare β) (hβ' : ¬ ∃ y, y ^ 3 = β) :
    InvertsExactly (L := Fp6_2over3 K β β) :=
  haveI : Fact (∀ y : K, y * y * y ≠ β) := ⟨fun y hy => hβ' ⟨y, by rw [← hy]; ring⟩⟩
  haveI : Fact (¬ IsSquare (Cubic.gen : Fp3 K β)) := ⟨not_isSquare_gen3 _ β hβ⟩
  invertsExactly_of_lawful

/-- C18. `mul_by_non_residue` multiplies by `u`. -/
theorem C18_fp6_2over3_mul_by_non_residue (K : Type*) [CommRing K] (β : K) (x : Fp3 K β) :
    fp6nr β x = ⟨0, 1, 0⟩ * x := (instMulBy6 β).mulBy x

/-! ## C19: `Fp6_3over2` -/

/-- C19. `Fp6_3over2` arithmetic is that of `K₂[v]/(v³ - ξ)`. -/
theorem C19_fp6_3over2_arithmetic (K : Type*) [CommRing K] [Nontrivial K] [Squared K]
    [LawfulSquared K] (β : K) (ξ : Fp2 K β) :
    ∃ φ : Fp6_3over2 K β ξ ≃ AdjoinRoot (Cubic.poly ξ), IsCubicExtension ξ φ :=
  haveI : Nontrivial (Fp2 K β) := ⟨0, 1, fun h => zero_ne_one (congrArg Quad.c0 h)⟩
  ⟨_, cubic_isExtension ξ⟩

/-- C19. Inversion is exact when `β` is no square and `ξ` no cube. -/
theorem C19_fp6_3over2_inverse (K : Type*) [Field K] [Squared K] [LawfulSquared K] [InverseO K]
    [LawfulInverse K] (β : K) (ξ : Fp2 K β) (hβ : ¬ IsSquare β) (hξ : ¬ ∃ y, y * y * y = ξ) :
    InvertsExactly (L := Fp6_3over2 K β ξ) :=
  haveI : Fact (¬ IsSquare β) := ⟨hβ⟩
  haveI : Fact (∀ y : Fp2 K β, y * y * y ≠ ξ) := ⟨fun y hy => hξ ⟨y, hy⟩⟩
  invertsExactly_of_lawful

/-! ## C20: `Fp12` -/

/-- C20. `Fp12` arithmetic is that of `K₆[w]/(w² - v)`, `K₆ = K₂[v]/(v³ - ξ)`. -/
theorem C20_fp12_arithmetic (K : Type*) [CommRing K] [Nontrivial K] [Squared K]
    [LawfulSquared K] (β : K) (ξ : Fp2 K β) :
    ∃ φ : Fp12 K β ξ ξ ≃ AdjoinRoot (Quad.poly (Cubic.gen : Fp6_3over2 K β ξ)),
      IsQuadraticExtension (Cubic.gen : Fp6_3over2 K β ξ) φ :=
  haveI : Nontrivial (Fp6_3over2 K β ξ) :=
    ⟨0, 1, fun h => zero_ne_one (congrArg (fun x => x.c0.c0) h)⟩
  ⟨_, quad_isExtension (Cubic.gen : Fp6_3over2 K β ξ)⟩

set_option synthInstance.maxSize 2000 in
/-- C20. Inversion is exact when `β` is no square in `K` and `ξ` neither a square nor a cube in `K₂`. -/
theorem C20_fp12_inverse (K : Type*) [Field K] [Squared K] [LawfulSquared K] [InverseO K]
    [LawfulInverse K] (β : K) (ξ : Fp2 K β) (hβ : ¬ IsSquare β) (hξ : ¬ ∃ y, y * y * y = ξ)
    (hξ' : ¬ IsSquare ξ) : InvertsExactly (L := Fp12 K β ξ ξ) :=
  haveI : Fact (¬ IsSquare β) := ⟨hβ⟩
  haveI : Fact (∀ y : Fp2 K β, y * y * y ≠ ξ) := ⟨fun y hy => hξ ⟨y, hy⟩⟩
  haveI : Fact (¬ IsSquare (Cubic.gen : Fp6_3over2 K β ξ)) := ⟨not_isSquare_gen3 _ ξ hξ'⟩
  invertsExactly_of_lawful

/-- C20. `mul_by_non_residue` multiplies by `v`. -/
theorem C20_fp12_mul_by_non_residue (K : Type*) [CommRing K] (β : K) (ξ : Fp2 K β)
    (x : Fp6_3over2 K β ξ) : fp12nr ξ x = ⟨0, 1, 0⟩ * x := (instMulBy12 β ξ).mulBy x

/-! ## C21: sparse multiplications -/

/-- C21. `mul_by_023` is the full product whenever its precondition holds, and is rejected otherwise. -/
theorem C21_fp4_mul_by_023 (K : Type*) [CommRing K] [DecidableEq K] (β : K) (x y : Fp4 K β β) :
    Fp4.mulBy023 x y = if y.c0.c1 = 0 then .ok (x * y) else .abort := by
  unfold Fp4.mulBy023
  by_cases h : y.c0.c1 = 0
  · rw [if_neg (by simpa using h), if_pos h, Quad.mul_def]
    have e : (⟨x.c0.c0 * y.c0.c0, x.c0.c1 * y.c0.c0⟩ : Fp2 K β) = x.c0 * y.c0 := by
      ext <;> simp [h]
    simp only [e]
  · rw [if_pos (by simpa using h), if_neg h]

/-- C21. `mul_by_2345`. -/
theorem C21_fp6_mul_by_2345 (K : Type*) [CommRing K] [DecidableEq K] (β : K)
    (x y : Fp6_2over3 K β β) :
    Fp6_2over3.mulBy2345 x y = if y.c0.c0 = 0 ∧ y.c0.c1 = 0 then .ok (x * y) else .abort := by
  unfold Fp6_2over3.mulBy2345
  by_cases h : y.c0.c0 = 0
  · rw [if_neg (by simpa using h)]
    by_cases h' : y.c0.c1 = 0
    · rw [if_neg (by simpa using h'), if_pos ⟨h, h'⟩, Quad.mul_def]
      have e : (⟨x.c0.c1 * y.c0.c2 * β, x.c0.c2 * y.c0.c2 * β, x.c0.c0 * y.c0.c2⟩ : Fp3 K β)
          = x.c0 * y.c0 := by
        ext <;> simp [h, h'] <;> ring
      simp only [e]
    · rw [if_pos (by simpa using h'), if_neg (fun hh => h' hh.2)]
  · rw [if_pos (by simpa using h), if_neg (fun hh => h hh.1)]

/-- C21. `mul_by_024` is the product with `(ell_0 + ell_VV·v²) + (ell_VW·v)·w`. -/
theorem C21_fp12_mul_by_024 (K : Type*) [CommRing K] (β : K) (ξ : Fp2 K β) (x : Fp12 K β ξ ξ)
    (ell_0 ell_VW ell_VV : Fp2 K β) :
    Fp12.mulBy024 x ell_0 ell_VW ell_VV = x * ⟨⟨ell_0, 0, ell_VV⟩, ⟨0, ell_VW, 0⟩⟩ := by
  unfold Fp12.mulBy024
  apply Quad.ext <;> apply Cubic.ext
  all_goals
    simp only [Quad.mul_c0, Quad.mul_c1, Cubic.mul_c0, Cubic.mul_c1, Cubic.mul_c2, Cubic.gen_c0,
      Cubic.gen_c1, Cubic.gen_c2, Cubic.add_c0, Cubic.add_c1, Cubic.add_c2]
    ring

/-- C21. `mul_by_045` is the product with `ell_VW + (ell_0·v + ell_VV·v²)·w`. -/
theorem C21_fp12_mul_by_045 (K : Type*) [CommRing K] (β : K) (ξ : Fp2 K β) (x : Fp12 K β ξ ξ)
    (ell_0 ell_VW ell_VV : Fp2 K β) :
    Fp12.mulBy045 x ell_0 ell_VW ell_VV = x * ⟨⟨ell_VW, 0, 0⟩, ⟨0, ell_0, ell_VV⟩⟩ := by
  unfold Fp12.mulBy045
  apply Quad.ext <;> apply Cubic.ext
  all_goals
    simp only [Quad.mul_c0, Quad.mul_c1, Cubic.mul_c0, Cubic.mul_c1, Cubic.mul_c2, Cubic.gen_c0,
      Cubic.gen_c1, Cubic.gen_c2, Cubic.add_c0, Cubic.add_c1, Cubic.add_c2]
    ring

/-! ## Witnesses: the hypotheses are met by small fields -/

section Witness

open Witness

example : InvertsExactly (L := Fp2 (ZMod 7) 3) := C15_fp2_inverse _ _ (by decide)
example : InvertsExactly (L := Fp3 (ZMod 7) 3) := C16_fp3_inverse _ _ (by decide)
example : InvertsExactly (L := Fp4 (ZMod 5) 2 2) := C17_fp4_inverse _ _ (by decide) (by decide)
example : InvertsExactly (L := Fp6_2over3 (ZMod 7) 3 3) :=
  C18_fp6_2over3_inverse _ _ (by decide) (by decide)
example : InvertsExactly (L := Fp6_3over2 (ZMod 7) 6 ⟨2, 1⟩) :=
  C19_fp6_3over2_inverse _ _ _ (by decide) (by decide +kernel)
set_option synthInstance.maxSize 2000 in
example : InvertsExactly (L := Fp12 (ZMod 7) 6 ⟨2, 1⟩ ⟨2, 1⟩) :=
  C20_fp12_inverse _ _ _ (by decide) (by decide +kernel)
    (not_isSquare_of_norm _ _ _ (by decide +kernel))
example : Fp4.mulBy023 (⟨⟨1, 2⟩, ⟨3, 4⟩⟩ : Fp4 (ZMod 5) 2 2) ⟨⟨3, 0⟩, ⟨1, 4⟩⟩ = .ok ⟨⟨0, 1⟩, ⟨1, 3⟩⟩ := by
  decide +kernel

end Witness

end Libff
