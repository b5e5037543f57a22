import Verif.Lemmas.SamplingGroups
import Verif.Props.CofactorPairing

/-!
# C69: random elements are uniform

The words a program draws (`rd()` of `std::random_device` for prime fields and groups, the bytes of `randombytes_buf` for the binary
fields) are taken to be independent and uniform. Then `random_element()` and the helpers of `common/utils.tcc` built on it return each
element with the same probability (`UniformOn`, `RandomElements` in Spec/Sampling.lean), for every class.
-/
namespace Libff
set_option synthInstance.maxSize 2000

/-- What a class offers for random elements, with the helpers of utils.tcc. -/
abbrev SamplesUniformly {W α : Type} [Fintype W] (eq : α → α → Bool) (isZero : α → Bool) (one : α) (B : Set α) (S : Sampler W α) : Prop :=
  RandomElements eq isZero one B S (randomNonZeroS S isZero) (randomNonZeroOneS S isZero fun x => eq x one)
    fun y => randomExcludeS S fun x => eq x y

/-- The same for a field class, where `==` is equality of objects and every object is an element. -/
abbrev FieldSamplesUniformly {W α : Type} [Fintype W] [DecidableEq α] [Zero α] [One α] (S : Sampler W α) : Prop :=
  SamplesUniformly (fun x y => decide (x = y)) (fun x : α => decide (x = 0)) 1 Set.univ S

/-- **C69.** Prime fields: `Fp_model::random_element` and the helpers, for every modulus. -/
theorem C69_prime_field (P : FpParams) [hP : Fact P.Valid] : FieldSamplesUniformly (fpRandom P) := by
  obtain ⟨e, h⟩ := fpRandom_unif P
  have h3 := fp_three_le P hP.out
  have hn : ∀ m n : Nat, ((m : Fp P) = n) → m % P.p = n % P.p := fun m n h => by
    have := congrArg Fp.toZMod h
    rw [Fp.toZMod_natCast, Fp.toZMod_natCast] at this
    exact (ZMod.natCast_eq_natCast_iff _ _ _).1 this
  refine h.randomElements_eq (fpRandom_nil P hP.out) (Finset.mem_univ) (two := ((2 : Nat) : Fp P)) (fun h => ?_) fun h => ?_
  · have := hn 2 0 (by rw [h, Nat.cast_zero])
    rw [Nat.mod_eq_of_lt (by omega), Nat.zero_mod] at this
    cases this
  · have := hn 2 1 (by rw [h, Nat.cast_one])
    rw [Nat.mod_eq_of_lt (by omega), Nat.mod_eq_of_lt (by omega)] at this
    cases this

section ext
variable (P : FpParams) [hP : Fact P.Valid]

/-- **C69.** `Fp2_model`. -/
theorem C69_fp2 (β : Fp P) : FieldSamplesUniformly (quadRandom (fpRandom P) : Sampler _ (Fp2 (Fp P) β)) := by
  obtain ⟨e, h⟩ := fpRandom_unif P
  obtain ⟨B, e', h', hB⟩ := quadRandom_unif (nr := mulConst β) h Finset.mem_univ
  exact h'.randomElements_eq (quadRandom_nil (fpRandom_nil P hP.out)) hB (two := ⟨0, 1⟩) quad_ne_zero quad_ne_one

/-- **C69.** `Fp3_model`. -/
theorem C69_fp3 (β : Fp P) : FieldSamplesUniformly (cubicRandom (fpRandom P) : Sampler _ (Fp3 (Fp P) β)) := by
  obtain ⟨e, h⟩ := fpRandom_unif P
  obtain ⟨B, e', h', hB⟩ := cubicRandom_unif (nr := mulConst β) h Finset.mem_univ
  exact h'.randomElements_eq (cubicRandom_nil (fpRandom_nil P hP.out)) hB (two := ⟨0, 1, 0⟩) cubic_ne_zero cubic_ne_one

/-- **C69.** `Fp4_model`. -/
theorem C69_fp4 (β γ : Fp P) : FieldSamplesUniformly (quadRandom (quadRandom (fpRandom P)) : Sampler _ (Fp4 (Fp P) β γ)) := by
  obtain ⟨e, h⟩ := fpRandom_unif P
  obtain ⟨B, e', h', hB⟩ := quadRandom_unif (nr := mulConst β) h Finset.mem_univ
  obtain ⟨C, e'', h'', hC⟩ := quadRandom_unif (nr := fp4nr γ) h' hB
  exact h''.randomElements_eq (quadRandom_nil (quadRandom_nil (fpRandom_nil P hP.out))) hC (two := ⟨0, 1⟩) (quad_ne_zero' quad_one_ne)
    (quad_ne_one' quad_one_ne)

/-- **C69.** `Fp6_2over3_model`. -/
theorem C69_fp6_2over3 (β γ : Fp P) :
    FieldSamplesUniformly (quadRandom (cubicRandom (fpRandom P)) : Sampler _ (Fp6_2over3 (Fp P) β γ)) := by
  obtain ⟨e, h⟩ := fpRandom_unif P
  obtain ⟨B, e', h', hB⟩ := cubicRandom_unif (nr := mulConst β) h Finset.mem_univ
  obtain ⟨C, e'', h'', hC⟩ := quadRandom_unif (nr := fp6nr γ) h' hB
  exact h''.randomElements_eq (quadRandom_nil (cubicRandom_nil (fpRandom_nil P hP.out))) hC (two := ⟨0, 1⟩) (quad_ne_zero' cubic_one_ne)
    (quad_ne_one' cubic_one_ne)

/-- **C69.** `Fp6_3over2_model`. -/
theorem C69_fp6_3over2 (β : Fp P) (ξ : Fp2 (Fp P) β) :
    FieldSamplesUniformly (cubicRandom (quadRandom (fpRandom P)) : Sampler _ (Fp6_3over2 (Fp P) β ξ)) := by
  obtain ⟨e, h⟩ := fpRandom_unif P
  obtain ⟨B, e', h', hB⟩ := quadRandom_unif (nr := mulConst β) h Finset.mem_univ
  obtain ⟨C, e'', h'', hC⟩ := cubicRandom_unif (nr := mulConst ξ) h' hB
  exact h''.randomElements_eq (cubicRandom_nil (quadRandom_nil (fpRandom_nil P hP.out))) hC (two := ⟨0, 1, 0⟩) (cubic_ne_zero' quad_one_ne)
    (cubic_ne_one' quad_one_ne)

/-- **C69.** `Fp12_2over3over2_model`. -/
theorem C69_fp12 (β : Fp P) (ξ γ : Fp2 (Fp P) β) :
    FieldSamplesUniformly (quadRandom (cubicRandom (quadRandom (fpRandom P))) : Sampler _ (Fp12 (Fp P) β ξ γ)) := by
  obtain ⟨e, h⟩ := fpRandom_unif P
  obtain ⟨B, e', h', hB⟩ := quadRandom_unif (nr := mulConst β) h Finset.mem_univ
  obtain ⟨C, e'', h'', hC⟩ := cubicRandom_unif (nr := mulConst ξ) h' hB
  obtain ⟨D, e3, h3, hD⟩ := quadRandom_unif (nr := fp12nr γ) h'' hC
  exact h3.randomElements_eq (quadRandom_nil (cubicRandom_nil (quadRandom_nil (fpRandom_nil P hP.out)))) hD (two := ⟨0, 1⟩)
    (quad_ne_zero' (cubic_one_ne' quad_one_ne)) (quad_ne_one' (cubic_one_ne' quad_one_ne))

end ext

/-- **C69.** The five binary fields. -/
theorem C69_binary_fields : FieldSamplesUniformly gf32Random ∧ FieldSamplesUniformly gf64Random ∧ FieldSamplesUniformly gf128Random ∧
    FieldSamplesUniformly gf192Random ∧ FieldSamplesUniformly gf256Random := by
  obtain ⟨A1, e1, h1, m1⟩ := gf32Random_unif
  obtain ⟨A2, e2, h2, m2⟩ := gf64Random_unif
  obtain ⟨A3, e3, h3, m3⟩ := gf128Random_unif
  obtain ⟨A4, e4, h4, m4⟩ := gf192Random_unif
  obtain ⟨A5, e5, h5, m5⟩ := gf256Random_unif
  exact ⟨h1.randomElements_eq rfl m1 (two := ⟨2⟩) (by decide) (by decide), h2.randomElements_eq rfl m2 (two := ⟨2⟩) (by decide) (by decide),
    h3.randomElements_eq rfl m3 (two := ⟨2, 0⟩) (by decide) (by decide), h4.randomElements_eq rfl m4 (two := ⟨2, 0, 0⟩) (by decide) (by decide),
    h5.randomElements_eq rfl m5 (two := ⟨2, 0, 0, 0⟩) (by decide) (by decide)⟩

/-- The elements of the group of order `order`: the well-formed objects that `order` kills. -/
abbrev orderGroup {G : Type} (ops : GroupOps G) (eq : G → G → Bool) (isWellFormed : G → Bool) (order : List Limb) : Set G :=
  {g | isWellFormed g = true ∧ eq (scalarMul g order) ops.zero = true}

/-- **C69.** `alt_bn128_G1`. -/
theorem C69_alt_bn128_G1 : SamplesUniformly Jac.eq Jac.isZero alt_bn128_G1_one
    (orderGroup Jac.ops Jac.eq (Jac.isWellFormed alt_bn128_b) alt_bn128_Fr_params.modulus) (groupRandom Jac.ops alt_bn128_Fr_params alt_bn128_G1_one) := by
  exact Jac.random (alt_bn128_K.o1.two_ne (by decide +kernel)) (alt_bn128_K.o1.three_ne (by decide +kernel)) C52_alt_bn128_G1_generator.2.2.1 C52_alt_bn128_G1_generator.2.2.2.2
    (by decide +kernel) C62_alt_bn128_G1_cofactor

/-- **C69.** `alt_bn128_G2`. -/
theorem C69_alt_bn128_G2 : SamplesUniformly Jac.eq Jac.isZero alt_bn128_G2_one
    (orderGroup Jac.ops Jac.eq (Jac.isWellFormed alt_bn128_twist_b) alt_bn128_Fr_params.modulus) (groupRandom Jac.ops alt_bn128_Fr_params alt_bn128_G2_one) := by
  exact Jac.random (alt_bn128_K.o2.two_ne (by decide +kernel)) (alt_bn128_K.o2.three_ne (by decide +kernel)) C52_alt_bn128_G2_generator.2.2.1 C52_alt_bn128_G2_generator.2.2.2.2
    (by decide +kernel) C62_alt_bn128_G2_cofactor

/-- **C69.** `bls12_381_G1`. -/
theorem C69_bls12_381_G1 : SamplesUniformly Jac.eq Jac.isZero bls12_381_G1_one
    (orderGroup Jac.ops Jac.eq (Jac.isWellFormed bls12_381_b) bls12_381_Fr_params.modulus) (groupRandom Jac.ops bls12_381_Fr_params bls12_381_G1_one) := by
  exact Jac.random (bls12_381_K.o1.two_ne (by decide +kernel)) (bls12_381_K.o1.three_ne (by decide +kernel)) C52_bls12_381_G1_generator.2.2.1 C52_bls12_381_G1_generator.2.2.2.2
    (by decide +kernel) C62_bls12_381_G1_cofactor

/-- **C69.** `bls12_381_G2`. -/
theorem C69_bls12_381_G2 : SamplesUniformly Jac.eq Jac.isZero bls12_381_G2_one
    (orderGroup Jac.ops Jac.eq (Jac.isWellFormed bls12_381_twist_b) bls12_381_Fr_params.modulus) (groupRandom Jac.ops bls12_381_Fr_params bls12_381_G2_one) := by
  exact Jac.random (bls12_381_K.o2.two_ne (by decide +kernel)) (bls12_381_K.o2.three_ne (by decide +kernel)) C52_bls12_381_G2_generator.2.2.1 C52_bls12_381_G2_generator.2.2.2.2
    (by decide +kernel) C62_bls12_381_G2_cofactor

/-- **C69.** `mnt4_G1`. -/
theorem C69_mnt4_G1 : SamplesUniformly Proj.eq Proj.isZero mnt4_G1_one
    (orderGroup (Proj.ops mnt4_G1_mul_by_a) Proj.eq (Proj.isWellFormed mnt4_a mnt4_b) mnt4_Fr_params.modulus)
    (groupRandom (Proj.ops mnt4_G1_mul_by_a) mnt4_Fr_params mnt4_G1_one) := by
  exact Proj.random (fun _ => rfl) (mnt4_K.o1.two_ne (by decide +kernel)) C52_mnt4_G1_generator.2.1 C52_mnt4_G1_generator.2.2.2 (by decide +kernel) C62_mnt4_G1_cofactor

/-- **C69.** `mnt4_G2`. -/
theorem C69_mnt4_G2 : SamplesUniformly Proj.eq Proj.isZero mnt4_G2_one
    (orderGroup (Proj.ops mnt4_G2_mul_by_a) Proj.eq (Proj.isWellFormed mnt4_twist_a mnt4_twist_b) mnt4_Fr_params.modulus)
    (groupRandom (Proj.ops mnt4_G2_mul_by_a) mnt4_Fr_params mnt4_G2_one) := by
  exact Proj.random (fun x => ((C36_mul_by_a mnt4_β mnt4_a mnt4_b).1 x).1) (mnt4_K.o2.two_ne (by decide +kernel)) C52_mnt4_G2_generator.2.1 C52_mnt4_G2_generator.2.2.2 (by decide +kernel) C62_mnt4_G2_cofactor

/-- **C69.** `mnt6_G1`. -/
theorem C69_mnt6_G1 : SamplesUniformly Proj.eq Proj.isZero mnt6_G1_one
    (orderGroup (Proj.ops mnt6_G1_mul_by_a) Proj.eq (Proj.isWellFormed mnt6_a mnt6_b) mnt6_Fr_params.modulus)
    (groupRandom (Proj.ops mnt6_G1_mul_by_a) mnt6_Fr_params mnt6_G1_one) := by
  exact Proj.random (fun _ => rfl) (mnt6_K.o1.two_ne (by decide +kernel)) C52_mnt6_G1_generator.2.1 C52_mnt6_G1_generator.2.2.2 (by decide +kernel) C62_mnt6_G1_cofactor

/-- **C69.** `mnt6_G2`. -/
theorem C69_mnt6_G2 : SamplesUniformly Proj.eq Proj.isZero mnt6_G2_one
    (orderGroup (Proj.ops mnt6_G2_mul_by_a) Proj.eq (Proj.isWellFormed mnt6_twist_a mnt6_twist_b) mnt6_Fr_params.modulus)
    (groupRandom (Proj.ops mnt6_G2_mul_by_a) mnt6_Fr_params mnt6_G2_one) := by
  exact Proj.random (fun x => ((C36_mul_by_a mnt6_β mnt6_a mnt6_b).2.1 x).1) (mnt6_K.o3.two_ne (by decide +kernel)) C52_mnt6_G2_generator.2.1 C52_mnt6_G2_generator.2.2.2 (by decide +kernel) C62_mnt6_G2_cofactor

open Bn128 in
/-- **C69.** `bn128_G1` and `bn128_G2`, for any external formulas that are correct. -/
theorem C69_bn128 {E : EcOps alt_bn128_Fq} (hE : E.Correct bn128_b) {E' : EcOps alt_bn128_Fq2} (hE' : E'.Correct bn128_twist_b) :
    SamplesUniformly Bn128.eq Bn128.isZero bn128_G1_one
      (orderGroup (Bn128.ops E) Bn128.eq (Bn128.isWellFormed bn128_b) bn128_Fr_params.modulus) (groupRandom (Bn128.ops E) bn128_Fr_params bn128_G1_one) ∧
    SamplesUniformly Bn128.eq Bn128.isZero bn128_G2_one
      (orderGroup (Bn128.ops E') Bn128.eq (Bn128.isWellFormed bn128_twist_b) bn128_Fr_params.modulus)
      (groupRandom (Bn128.ops E') bn128_Fr_params bn128_G2_one) := by
  have hΔ : (sw 0 bn128_b).Δ ≠ 0 := bn128_Δ_ne (alt_bn128_K.o1.two_ne (by decide +kernel))
    (alt_bn128_K.o1.three_ne (by decide +kernel)) C52_alt_bn128_G1_generator.2.2.1
  have hΔ' : (sw 0 bn128_twist_b).Δ ≠ 0 := bn128_Δ_ne (alt_bn128_K.o2.two_ne (by decide +kernel))
    (alt_bn128_K.o2.three_ne (by decide +kernel)) (C61_coefficients.2 ▸ C52_alt_bn128_G2_generator.2.2.1)
  obtain ⟨P, hP, ho⟩ := C61_g1_generator.2
  obtain ⟨P', hP', ho'⟩ := C61_g2_generator.2
  exact ⟨@groupRandom_order _ _ _ (Bn128.ops E) _ _ _ _ (Bn128.implementsRel hE) _ _ Bn128.eq_rep Bn128.isZero_rep _ _ hP ho (by decide +kernel) _
      (C61_well_formed hΔ) _ (C62_bn128_cofactor hE hE').1,
    @groupRandom_order _ _ _ (Bn128.ops E') _ _ _ _ (Bn128.implementsRel hE') _ _ Bn128.eq_rep Bn128.isZero_rep _ _ hP' ho' (by decide +kernel) _
      (C61_well_formed hΔ') _ (C62_bn128_cofactor hE hE').2⟩

/-- The elements of an Edwards group: the objects that denote a point and equal a multiple of the generator. -/
abbrev edwGroup {K : Type} [Field K] [DecidableEq K] (ops : GroupOps (Coord3 K)) (a d : K) (one : Coord3 K) : Set (Coord3 K) :=
  {g | (∃ Q : (edwW a d).Point, EdwRep g Q) ∧ ∃ k : List Limb, Edw.eq g (scalarMul one k) = true}

/-- **C69.** `edwards_G1`. -/
theorem C69_edwards_G1 : SamplesUniformly Edw.eq Edw.isZero edwards_G1_one
    (edwGroup (Edw.ops1 edwards_G1_mul_by_d) 1 edwards_d edwards_G1_one)
    (groupRandom (Edw.ops1 edwards_G1_mul_by_d) edwards_Fr_params edwards_G1_one) :=
  Edw.random C52_edwards_G1_generator.1 C52_edwards_G1_generator.2.1
    (Edw.implementsRel1 (fun _ => rfl) C52_edwards_G1_generator.1 C52_edwards_G1_generator.2.1 (noTwoTorsion_torsionSub _ (by decide +kernel)))
    C52_edwards_G1_generator.2.2.2 (by decide +kernel)

/-- **C69.** `edwards_G2`. -/
theorem C69_edwards_G2 : SamplesUniformly Edw.eq Edw.isZero edwards_G2_one
    (edwGroup (Edw.ops edwards_G2_mul_by_a edwards_G2_mul_by_d) edwards_twist_a edwards_twist_d edwards_G2_one)
    (groupRandom (Edw.ops edwards_G2_mul_by_a edwards_G2_mul_by_d) edwards_Fr_params edwards_G2_one) :=
  Edw.random C52_edwards_G2_generator.1 C52_edwards_G2_generator.2.1
    (Edw.implementsRel (fun x => (C37_mul_by _ edwards_d x).1) (fun x => (C37_mul_by _ edwards_d x).2.1) C52_edwards_G2_generator.1
      C52_edwards_G2_generator.2.1 (noTwoTorsion_torsionSub _ (by decide +kernel)))
    C52_edwards_G2_generator.2.2.2 (by decide +kernel)

/-- **C69.** In numbers: among the tapes of `k` words on which `Fp::random_element` returns, each of the `p` values has the share `1 / p`. -/
theorem C69_probability (P : FpParams) [hP : Fact P.Valid] (x : Fp P) (k : Nat) :
    prob k (fun t => ∃ rest, fpRandom P t = .ok (some (x, rest))) * P.p = 1 - prob k (fun t => fpRandom P t = .ok none) := by
  obtain ⟨e, h⟩ := fpRandom_unif P
  have := h.returns (Finset.mem_univ x) k
  rwa [Finset.card_univ, fp_card] at this

/-- The statements range over something: a tape on which `Fr::random_element` of alt_bn128 rejects its first candidate and returns the
second. -/
example : (match fpRandom alt_bn128_Fr_params (List.replicate 8 (-1) ++ [5, 0, 0, 0, 0, 0, 0, 0, 7]) with
    | .ok (some (x, rest)) => decide (val x.repr = 5 ∧ rest = [7])
    | _ => false) = true := by decide +kernel

/-- The excluded elements are excluded: the candidate `0` is rejected. -/
example : (match randomNonZeroS gf64Random (fun x => decide (x = 0)) (List.replicate 8 0 ++ [3, 1, 0, 0, 0, 0, 0, 0]) with
    | .ok (some (x, rest)) => decide (x = ⟨0x103⟩ ∧ rest = [])
    | _ => false) = true := by decide +kernel

end Libff
