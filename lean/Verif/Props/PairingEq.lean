import Verif.Lemmas.PairingEq
import Verif.Model.PairingPp
import Verif.Props.MillerDouble
import Verif.Props.FinalExp
import Verif.Props.AffinePairing
import Verif.Props.BilinearEdw

/-!
# C70: equations between pairings, checked with one final exponentiation
-/
namespace Libff
set_option synthInstance.maxSize 2000
open WeierstrassCurve Affine

/-- Multiples of a generator of order `r` by numbers that `r` does not divide are not zero. -/
theorem nonzeroMultiple_scalar {G A : Type} [AddCommGroup A] {ops : GroupOps G} {Rep : G → A → Prop} (hI : ImplementsRel Rep)
    {eq : G → G → Bool} {isZero : G → Bool} (heq : ∀ {p q P Q}, Rep p P → Rep q Q → (eq p q = true ↔ P = Q))
    (hz : ∀ {p P}, Rep p P → (isZero p = true ↔ P = 0)) {one : G} {g : A} (hg : Rep one g) {r : ℕ} (ho : addOrderOf g = r) {e : List Limb}
    (he : ¬ r ∣ val e) : Rep (scalarMul one e) (val e • g) ∧ NonzeroMultiple ops eq isZero one (scalarMul one e) := by
  have h := scalarMul_rel hI hg e
  refine ⟨h, ?_, e, (heq h h).2 rfl⟩
  rw [Bool.eq_false_iff]
  intro h0
  rw [hz h, ← addOrderOf_dvd_iff_nsmul_eq_zero, ho] at h0
  exact he h0

theorem Ate12.bnReduced_eq {K : Type*} [Add K] [Sub K] [Mul K] [Neg K] [Zero K] [One K] [DecidableEq K] [Squared K] [InverseO K]
    {β : K} {ξ : Fp2 K β} (A : Ate12 K β ξ) (p : Coord3 K) (q : Coord3 (Fp2 K β)) : A.bnReducedPairing p q =
      ((precomputeG1 p).bind fun a => (A.bnPrecomputeG2 q).bind fun b => A.bnMillerLoop a b).bind A.bnFinalExponentiation := rfl

theorem Ate12.blsReduced_eq {K : Type*} [Add K] [Sub K] [Mul K] [Neg K] [Zero K] [One K] [DecidableEq K] [Squared K] [InverseO K]
    {β : K} {ξ : Fp2 K β} (A : Ate12 K β ξ) (p : Coord3 K) (q : Coord3 (Fp2 K β)) : A.blsReducedPairing p q =
      ((precomputeG1 p).bind fun a => (A.blsPrecomputeG2 q).bind fun b => A.blsMillerLoop a b).bind A.blsFinalExponentiation := rfl

theorem AteMnt.reduced_eq {K T : Type} [Field K] [DecidableEq K] [Squared K] [InverseO K] [Field T] [DecidableEq T] [Squared T] [InverseO T]
    {nr : T → T} (A : AteMnt K T nr) (fe : Quad T nr → Outcome (Quad T nr)) (p : Coord3 K) (q : Coord3 T) : A.reducedPairing fe p q =
      ((A.precomputeG1 p).bind fun a => (A.precomputeG2 q).bind fun b => A.millerLoop a b).bind fe := rfl

theorem AteEdw.reduced_eq {K T : Type} [Field K] [DecidableEq K] [Squared K] [InverseO K] [Field T] [DecidableEq T] [Squared T] [InverseO T]
    {nr : T → T} (A : AteEdw K T nr) (fe : Quad T nr → Outcome (Quad T nr)) (p : Coord3 K) (q : Coord3 T) : A.reducedPairing fe p q =
      ((precomputeG1 p).bind fun a => (A.precomputeG2 q).bind fun b => A.millerLoop a b).bind fe := rfl

/-! ## alt_bn128 -/

theorem alt_bn128_pp_reduced (p : Coord3 alt_bn128_Fq) (q : Coord3 alt_bn128_Fq2) :
    alt_bn128_pp.reducedPairing p q = (alt_bn128_pp.miller p q).bind alt_bn128_pp.finalExponentiation := by
  unfold alt_bn128_pp PairingFns.miller
  dsimp only
  unfold alt_bn128_reduced_pairing alt_bn128_miller_loop alt_bn128_final_exponentiation
  rw [Ate12.bnReduced_eq]

theorem alt_bn128_unitaryInverse (x : alt_bn128_Fq12) (hx : x ≠ 0) : x.unitaryInverse ≠ 0 ∧ x.unitaryInverse ^ alt_bn128_E = (x ^ alt_bn128_E)⁻¹ := by
  have hd : Fintype.card alt_bn128_Fq6 - 1 ∣ alt_bn128_E := by rw [alt_bn128_Fq6_card]; decide +kernel
  have h := Quad.unitaryInverse_pow hd hx
  with_reducible_and_instances exact h

/-- **C70.** alt_bn128. -/
theorem C70_alt_bn128 : alt_bn128_pp.Equations := by
  have hf : IsFinalExp alt_bn128_pp.finalExponentiation alt_bn128_Fr_params.p alt_bn128_E := by
    have h := C49_alt_bn128
    with_reducible_and_instances exact h
  have hd : IsDoubleLoop alt_bn128_pp.doubleMillerLoop alt_bn128_pp.millerLoop := by
    have h := C48_alt_bn128
    with_reducible_and_instances exact h
  have h := PairingFns.equations alt_bn128_pp_reduced hf hd alt_bn128_unitaryInverse
  with_reducible_and_instances exact h

theorem alt_bn128_multiple₁ (a : List Limb) : alt_bn128_arg₁ (@scalarMul _ Jac.ops alt_bn128_G1_one a) :=
  (C38_jacobian_closed (by have h := C52_alt_bn128_G1_generator.1; with_reducible_and_instances exact h)
    (by have h := C52_alt_bn128_G1_generator.2.1; with_reducible_and_instances exact h)
    (by have h := C52_alt_bn128_G1_generator.2.2.1; with_reducible_and_instances exact h) _ _ alt_bn128_one_arg.1 alt_bn128_one_arg.1).2.2.2.2 a

theorem alt_bn128_multiple₂ {b : List Limb} (hb : ¬ alt_bn128_Fr_params.p ∣ val b) : alt_bn128_arg₂ (@scalarMul _ Jac.ops alt_bn128_G2_one b) :=
  ⟨(C38_jacobian_closed (by have h := C52_alt_bn128_G2_generator.1; with_reducible_and_instances exact h)
    (by have h := C52_alt_bn128_G2_generator.2.1; with_reducible_and_instances exact h)
    (by have h := C52_alt_bn128_G2_generator.2.2.1; with_reducible_and_instances exact h) _ _ alt_bn128_one_arg.2.2.1
    alt_bn128_one_arg.2.2.1).2.2.2.2 b,
    (nonzeroMultiple_scalar (Jac.implementsRel (by have h := C52_alt_bn128_G2_generator.1; with_reducible_and_instances exact h))
      Jac.eq_rep Jac.isZero_rep alt_bn128_g_rep alt_bn128_g_order hb).2⟩

/-- **C70.** The check of `e(a·G1, b·G2) = e(c·G1, d·G2) e(e·G1, f·G2)` with one final exponentiation passes exactly if
`a b = c d + e f` modulo the order of the groups. -/
theorem C70_alt_bn128_scalars (a b c d e f : List Limb) (hb : ¬ alt_bn128_Fr_params.p ∣ val b) (hd : ¬ alt_bn128_Fr_params.p ∣ val d) (hf : ¬ alt_bn128_Fr_params.p ∣ val f) :
    alt_bn128_pp.checkProduct (@scalarMul _ Jac.ops alt_bn128_G1_one a) (@scalarMul _ Jac.ops alt_bn128_G2_one b)
        (@scalarMul _ Jac.ops alt_bn128_G1_one c) (@scalarMul _ Jac.ops alt_bn128_G2_one d)
        (@scalarMul _ Jac.ops alt_bn128_G1_one e) (@scalarMul _ Jac.ops alt_bn128_G2_one f) =
      .ok (decide (val a * val b ≡ val c * val d + val e * val f [MOD alt_bn128_Fr_params.p])) := by
  have h := PairingFns.checkProduct_scalars C70_alt_bn128 C51_alt_bn128 C51_alt_bn128_nondegenerate alt_bn128_Fr_prime alt_bn128_one_arg.1 alt_bn128_one_arg.2.1
    alt_bn128_one_arg.2.2 a b c d e f (alt_bn128_multiple₁ a) (alt_bn128_multiple₂ hb) (alt_bn128_multiple₁ c) (alt_bn128_multiple₂ hd) (alt_bn128_multiple₁ e) (alt_bn128_multiple₂ hf)
  with_reducible_and_instances exact h

example : alt_bn128_pp.checkProduct (@scalarMul _ Jac.ops alt_bn128_G1_one [6]) (@scalarMul _ Jac.ops alt_bn128_G2_one [7])
      (@scalarMul _ Jac.ops alt_bn128_G1_one [5]) (@scalarMul _ Jac.ops alt_bn128_G2_one [8])
      (@scalarMul _ Jac.ops alt_bn128_G1_one [2]) (@scalarMul _ Jac.ops alt_bn128_G2_one [1]) = .ok true := by
  rw [C70_alt_bn128_scalars _ _ _ _ _ _ (by decide +kernel) (by decide +kernel) (by decide +kernel)]
  decide +kernel

/-! ## bls12_381 -/

theorem bls12_381_pp_reduced (p : Coord3 bls12_381_Fq) (q : Coord3 bls12_381_Fq2) :
    bls12_381_pp.reducedPairing p q = (bls12_381_pp.miller p q).bind bls12_381_pp.finalExponentiation := by
  unfold bls12_381_pp PairingFns.miller
  dsimp only
  unfold bls12_381_reduced_pairing bls12_381_miller_loop bls12_381_final_exponentiation
  rw [Ate12.blsReduced_eq]

theorem bls12_381_unitaryInverse (x : bls12_381_Fq12) (hx : x ≠ 0) : x.unitaryInverse ≠ 0 ∧ x.unitaryInverse ^ bls12_381_E = (x ^ bls12_381_E)⁻¹ := by
  have hd : Fintype.card bls12_381_Fq6 - 1 ∣ bls12_381_E := by rw [bls12_381_Fq6_card]; decide +kernel
  have h := Quad.unitaryInverse_pow hd hx
  with_reducible_and_instances exact h

/-- **C70.** bls12_381. -/
theorem C70_bls12_381 : bls12_381_pp.Equations := by
  have hf : IsFinalExp bls12_381_pp.finalExponentiation bls12_381_Fr_params.p bls12_381_E := by
    have h := C49_bls12_381
    with_reducible_and_instances exact h
  have hd : IsDoubleLoop bls12_381_pp.doubleMillerLoop bls12_381_pp.millerLoop := by
    have h := C48_bls12_381
    with_reducible_and_instances exact h
  have h := PairingFns.equations bls12_381_pp_reduced hf hd bls12_381_unitaryInverse
  with_reducible_and_instances exact h

theorem bls12_381_multiple₁ (a : List Limb) : bls12_381_arg₁ (@scalarMul _ Jac.ops bls12_381_G1_one a) :=
  (C38_jacobian_closed (by have h := C52_bls12_381_G1_generator.1; with_reducible_and_instances exact h)
    (by have h := C52_bls12_381_G1_generator.2.1; with_reducible_and_instances exact h)
    (by have h := C52_bls12_381_G1_generator.2.2.1; with_reducible_and_instances exact h) _ _ bls12_381_one_arg.1 bls12_381_one_arg.1).2.2.2.2 a

theorem bls12_381_multiple₂ {b : List Limb} (hb : ¬ bls12_381_Fr_params.p ∣ val b) : bls12_381_arg₂ (@scalarMul _ Jac.ops bls12_381_G2_one b) :=
  ⟨(C38_jacobian_closed (by have h := C52_bls12_381_G2_generator.1; with_reducible_and_instances exact h)
    (by have h := C52_bls12_381_G2_generator.2.1; with_reducible_and_instances exact h)
    (by have h := C52_bls12_381_G2_generator.2.2.1; with_reducible_and_instances exact h) _ _ bls12_381_one_arg.2.2.1
    bls12_381_one_arg.2.2.1).2.2.2.2 b,
    (nonzeroMultiple_scalar (Jac.implementsRel (by have h := C52_bls12_381_G2_generator.1; with_reducible_and_instances exact h))
      Jac.eq_rep Jac.isZero_rep bls12_381_g_rep bls12_381_g_order hb).2⟩

/-- **C70.** The check of `e(a·G1, b·G2) = e(c·G1, d·G2) e(e·G1, f·G2)` with one final exponentiation passes exactly if
`a b = c d + e f` modulo the order of the groups. -/
theorem C70_bls12_381_scalars (a b c d e f : List Limb) (hb : ¬ bls12_381_Fr_params.p ∣ val b) (hd : ¬ bls12_381_Fr_params.p ∣ val d) (hf : ¬ bls12_381_Fr_params.p ∣ val f) :
    bls12_381_pp.checkProduct (@scalarMul _ Jac.ops bls12_381_G1_one a) (@scalarMul _ Jac.ops bls12_381_G2_one b)
        (@scalarMul _ Jac.ops bls12_381_G1_one c) (@scalarMul _ Jac.ops bls12_381_G2_one d)
        (@scalarMul _ Jac.ops bls12_381_G1_one e) (@scalarMul _ Jac.ops bls12_381_G2_one f) =
      .ok (decide (val a * val b ≡ val c * val d + val e * val f [MOD bls12_381_Fr_params.p])) := by
  have h := PairingFns.checkProduct_scalars C70_bls12_381 C51_bls12_381 C51_bls12_381_nondegenerate bls12_381_Fr_prime bls12_381_one_arg.1 bls12_381_one_arg.2.1
    bls12_381_one_arg.2.2 a b c d e f (bls12_381_multiple₁ a) (bls12_381_multiple₂ hb) (bls12_381_multiple₁ c) (bls12_381_multiple₂ hd) (bls12_381_multiple₁ e) (bls12_381_multiple₂ hf)
  with_reducible_and_instances exact h

example : bls12_381_pp.checkProduct (@scalarMul _ Jac.ops bls12_381_G1_one [6]) (@scalarMul _ Jac.ops bls12_381_G2_one [7])
      (@scalarMul _ Jac.ops bls12_381_G1_one [5]) (@scalarMul _ Jac.ops bls12_381_G2_one [8])
      (@scalarMul _ Jac.ops bls12_381_G1_one [2]) (@scalarMul _ Jac.ops bls12_381_G2_one [1]) = .ok true := by
  rw [C70_bls12_381_scalars _ _ _ _ _ _ (by decide +kernel) (by decide +kernel) (by decide +kernel)]
  decide +kernel

/-! ## mnt4 -/

theorem mnt4_pp_reduced (p : Coord3 mnt4_Fq) (q : Coord3 mnt4_Fq2) :
    mnt4_pp.reducedPairing p q = (mnt4_pp.miller p q).bind mnt4_pp.finalExponentiation := by
  unfold mnt4_pp PairingFns.miller
  dsimp only
  unfold mnt4_reduced_pairing mnt4_miller_loop
  rw [AteMnt.reduced_eq]

theorem mnt4_unitaryInverse (x : mnt4_Fq4) (hx : x ≠ 0) : x.unitaryInverse ≠ 0 ∧ x.unitaryInverse ^ mnt4_final_exponent = (x ^ mnt4_final_exponent)⁻¹ := by
  have hd : Fintype.card mnt4_Fq2 - 1 ∣ mnt4_final_exponent := by rw [mnt4_Fq2_card]; decide +kernel
  have h := Quad.unitaryInverse_pow hd hx
  with_reducible_and_instances exact h

/-- **C70.** mnt4. -/
theorem C70_mnt4 : mnt4_pp.Equations := by
  have hf : IsFinalExp mnt4_pp.finalExponentiation mnt4_Fr_params.p mnt4_final_exponent := by
    have h := C49_mnt4
    with_reducible_and_instances exact h
  have hd : IsDoubleLoop mnt4_pp.doubleMillerLoop mnt4_pp.millerLoop := by
    have h := C48_mnt4
    with_reducible_and_instances exact h
  have h := PairingFns.equations mnt4_pp_reduced hf hd mnt4_unitaryInverse
  with_reducible_and_instances exact h

theorem mnt4_multiple₁ {a : List Limb} (ha : ¬ mnt4_Fr_params.p ∣ val a) :
    mnt4_arg₁ (@scalarMul _ (Proj.ops mnt4_G1_mul_by_a) mnt4_G1_one a) := by
  have hA : ∀ x, mnt4_G1_mul_by_a x = mnt4_a * x := fun _ => rfl
  obtain ⟨g, hg, ho⟩ := C52_mnt4_G1_generator.2.2.2
  have h := nonzeroMultiple_scalar (eq := Proj.eq) (isZero := Proj.isZero) (Proj.implementsRel (b := mnt4_b) hA C52_mnt4_G1_generator.1)
    Proj.eq_rep Proj.isZero_rep hg ho ha
  exact ⟨(C38_projective_closed hA C52_mnt4_G1_generator.1 C52_mnt4_G1_generator.2.1 _ _ mnt4_one_arg.1.1 mnt4_one_arg.1.1).2.2.2.2 a, h.2.1⟩

theorem mnt4_multiple₂ {b : List Limb} (hb : ¬ mnt4_Fr_params.p ∣ val b) :
    mnt4_arg₂ (@scalarMul _ (Proj.ops mnt4_G2_mul_by_a) mnt4_G2_one b) :=
  ⟨(C38_projective_closed mnt4_mulA C52_mnt4_G2_generator.1 C52_mnt4_G2_generator.2.1 _ _ mnt4_one_arg.2.2.1 mnt4_one_arg.2.2.1).2.2.2.2 b,
    (nonzeroMultiple_scalar (Proj.implementsRel mnt4_mulA C52_mnt4_G2_generator.1) Proj.eq_rep Proj.isZero_rep
      mnt4_g_rep mnt4_g_order hb).2⟩

/-- **C70.** The check of `e(a·G1, b·G2) = e(c·G1, d·G2) e(e·G1, f·G2)` with one final exponentiation passes exactly if
`a b = c d + e f` modulo the order of the groups. -/
theorem C70_mnt4_scalars (a b c d e f : List Limb) (ha : ¬ mnt4_Fr_params.p ∣ val a) (hb : ¬ mnt4_Fr_params.p ∣ val b) (hc : ¬ mnt4_Fr_params.p ∣ val c) (hd : ¬ mnt4_Fr_params.p ∣ val d)
    (he : ¬ mnt4_Fr_params.p ∣ val e) (hf : ¬ mnt4_Fr_params.p ∣ val f) :
    mnt4_pp.checkProduct (@scalarMul _ (Proj.ops mnt4_G1_mul_by_a) mnt4_G1_one a) (@scalarMul _ (Proj.ops mnt4_G2_mul_by_a) mnt4_G2_one b)
        (@scalarMul _ (Proj.ops mnt4_G1_mul_by_a) mnt4_G1_one c) (@scalarMul _ (Proj.ops mnt4_G2_mul_by_a) mnt4_G2_one d)
        (@scalarMul _ (Proj.ops mnt4_G1_mul_by_a) mnt4_G1_one e) (@scalarMul _ (Proj.ops mnt4_G2_mul_by_a) mnt4_G2_one f) =
      .ok (decide (val a * val b ≡ val c * val d + val e * val f [MOD mnt4_Fr_params.p])) := by
  have h := PairingFns.checkProduct_scalars C70_mnt4 C51_mnt4 C51_mnt4_nondegenerate mnt4_Fr_prime mnt4_one_arg.1 mnt4_one_arg.2.1
    mnt4_one_arg.2.2 a b c d e f (mnt4_multiple₁ ha) (mnt4_multiple₂ hb) (mnt4_multiple₁ hc) (mnt4_multiple₂ hd) (mnt4_multiple₁ he) (mnt4_multiple₂ hf)
  with_reducible_and_instances exact h

example : mnt4_pp.checkProduct (@scalarMul _ (Proj.ops mnt4_G1_mul_by_a) mnt4_G1_one [6]) (@scalarMul _ (Proj.ops mnt4_G2_mul_by_a) mnt4_G2_one [7])
      (@scalarMul _ (Proj.ops mnt4_G1_mul_by_a) mnt4_G1_one [5]) (@scalarMul _ (Proj.ops mnt4_G2_mul_by_a) mnt4_G2_one [8])
      (@scalarMul _ (Proj.ops mnt4_G1_mul_by_a) mnt4_G1_one [2]) (@scalarMul _ (Proj.ops mnt4_G2_mul_by_a) mnt4_G2_one [1]) = .ok true := by
  rw [C70_mnt4_scalars _ _ _ _ _ _ (by decide +kernel) (by decide +kernel) (by decide +kernel) (by decide +kernel) (by decide +kernel) (by decide +kernel)]
  decide +kernel

/-- **C70.** `affine_ate_e_over_e_miller_loop` of mnt4 gives the quotient of two pairings, and `affine_ate_e_times_e_over_e_miller_loop`
the quotient of a product of two pairings and a third. -/
theorem C70_mnt4_affine {p₁ p₂ p₃ : Coord3 mnt4_Fq} {q₁ q₂ q₃ : Coord3 mnt4_Fq2} {v₁ v₂ v₃ : mnt4_Fq4}
    (h₁ : mnt4_affine_reduced_pairing p₁ q₁ = .ok v₁) (h₂ : mnt4_affine_reduced_pairing p₂ q₂ = .ok v₂)
    (h₃ : mnt4_affine_reduced_pairing p₃ q₃ = .ok v₃) :
    (mnt4_affine_e_over_e p₁ q₁ p₂ q₂).bind mnt4_final_exponentiation = .ok (v₁ / v₂) ∧
    (mnt4_affine_e_times_e_over_e p₁ q₁ p₂ q₂ p₃ q₃).bind mnt4_final_exponentiation = .ok (v₁ * v₂ / v₃) := by
  have hf := C49_mnt4
  unfold mnt4_affine_reduced_pairing AteMnt.affineReducedPairing at h₁ h₂ h₃
  unfold mnt4_affine_e_over_e mnt4_affine_e_times_e_over_e
  have h := affineEOverE_eq hf mnt4_unitaryInverse h₁ h₂
  have h' := affineETimesEOverE_eq hf mnt4_unitaryInverse h₁ h₂ h₃
  constructor
  · with_reducible_and_instances exact h
  · with_reducible_and_instances exact h'

example : ∃ v, (mnt4_affine_e_over_e mnt4_G1_one mnt4_G2_one mnt4_G1_one mnt4_G2_one).bind mnt4_final_exponentiation = .ok v ∧ v = 1 := by
  obtain ⟨v, hv, h1⟩ := C59_mnt4_nondegenerate _ _ mnt4_one_arg.2.1 mnt4_one_arg.2.2
  refine ⟨_, (C70_mnt4_affine hv hv hv).1, div_self ?_⟩
  rintro rfl
  obtain ⟨w, hw, hr⟩ := C59_mnt4_bilinear.total mnt4_one_arg.1 mnt4_one_arg.2.2
  obtain rfl := Outcome.ok.inj (hv.symm.trans hw)
  rw [zero_pow mnt4_Fr_prime.ne_zero] at hr
  exact zero_ne_one hr

/-! ## mnt6 -/

theorem mnt6_pp_reduced (p : Coord3 mnt6_Fq) (q : Coord3 mnt6_Fq3) :
    mnt6_pp.reducedPairing p q = (mnt6_pp.miller p q).bind mnt6_pp.finalExponentiation := by
  unfold mnt6_pp PairingFns.miller
  dsimp only
  unfold mnt6_reduced_pairing mnt6_miller_loop
  rw [AteMnt.reduced_eq]

theorem mnt6_unitaryInverse (x : mnt6_Fq6) (hx : x ≠ 0) : x.unitaryInverse ≠ 0 ∧ x.unitaryInverse ^ mnt6_final_exponent = (x ^ mnt6_final_exponent)⁻¹ := by
  have hd : Fintype.card mnt6_Fq3 - 1 ∣ mnt6_final_exponent := by rw [mnt6_Fq3_card]; decide +kernel
  have h := Quad.unitaryInverse_pow hd hx
  with_reducible_and_instances exact h

/-- **C70.** mnt6. -/
theorem C70_mnt6 : mnt6_pp.Equations := by
  have hf : IsFinalExp mnt6_pp.finalExponentiation mnt6_Fr_params.p mnt6_final_exponent := by
    have h := C49_mnt6
    with_reducible_and_instances exact h
  have hd : IsDoubleLoop mnt6_pp.doubleMillerLoop mnt6_pp.millerLoop := by
    have h := C48_mnt6
    with_reducible_and_instances exact h
  have h := PairingFns.equations mnt6_pp_reduced hf hd mnt6_unitaryInverse
  with_reducible_and_instances exact h

theorem mnt6_multiple₁ {a : List Limb} (ha : ¬ mnt6_Fr_params.p ∣ val a) :
    mnt6_arg₁ (@scalarMul _ (Proj.ops mnt6_G1_mul_by_a) mnt6_G1_one a) := by
  have hA : ∀ x, mnt6_G1_mul_by_a x = mnt6_a * x := fun _ => rfl
  obtain ⟨g, hg, ho⟩ := C52_mnt6_G1_generator.2.2.2
  have h := nonzeroMultiple_scalar (eq := Proj.eq) (isZero := Proj.isZero) (Proj.implementsRel (b := mnt6_b) hA C52_mnt6_G1_generator.1)
    Proj.eq_rep Proj.isZero_rep hg ho ha
  exact ⟨(C38_projective_closed hA C52_mnt6_G1_generator.1 C52_mnt6_G1_generator.2.1 _ _ mnt6_one_arg.1.1 mnt6_one_arg.1.1).2.2.2.2 a, h.2.1⟩

theorem mnt6_multiple₂ {b : List Limb} (hb : ¬ mnt6_Fr_params.p ∣ val b) :
    mnt6_arg₂ (@scalarMul _ (Proj.ops mnt6_G2_mul_by_a) mnt6_G2_one b) :=
  ⟨(C38_projective_closed mnt6_mulA C52_mnt6_G2_generator.1 C52_mnt6_G2_generator.2.1 _ _ mnt6_one_arg.2.2.1 mnt6_one_arg.2.2.1).2.2.2.2 b,
    (nonzeroMultiple_scalar (Proj.implementsRel mnt6_mulA C52_mnt6_G2_generator.1) Proj.eq_rep Proj.isZero_rep
      mnt6_g_rep mnt6_g_order hb).2⟩

/-- **C70.** The check of `e(a·G1, b·G2) = e(c·G1, d·G2) e(e·G1, f·G2)` with one final exponentiation passes exactly if
`a b = c d + e f` modulo the order of the groups. -/
theorem C70_mnt6_scalars (a b c d e f : List Limb) (ha : ¬ mnt6_Fr_params.p ∣ val a) (hb : ¬ mnt6_Fr_params.p ∣ val b) (hc : ¬ mnt6_Fr_params.p ∣ val c) (hd : ¬ mnt6_Fr_params.p ∣ val d)
    (he : ¬ mnt6_Fr_params.p ∣ val e) (hf : ¬ mnt6_Fr_params.p ∣ val f) :
    mnt6_pp.checkProduct (@scalarMul _ (Proj.ops mnt6_G1_mul_by_a) mnt6_G1_one a) (@scalarMul _ (Proj.ops mnt6_G2_mul_by_a) mnt6_G2_one b)
        (@scalarMul _ (Proj.ops mnt6_G1_mul_by_a) mnt6_G1_one c) (@scalarMul _ (Proj.ops mnt6_G2_mul_by_a) mnt6_G2_one d)
        (@scalarMul _ (Proj.ops mnt6_G1_mul_by_a) mnt6_G1_one e) (@scalarMul _ (Proj.ops mnt6_G2_mul_by_a) mnt6_G2_one f) =
      .ok (decide (val a * val b ≡ val c * val d + val e * val f [MOD mnt6_Fr_params.p])) := by
  have h := PairingFns.checkProduct_scalars C70_mnt6 C51_mnt6 C51_mnt6_nondegenerate mnt6_Fr_prime mnt6_one_arg.1 mnt6_one_arg.2.1
    mnt6_one_arg.2.2 a b c d e f (mnt6_multiple₁ ha) (mnt6_multiple₂ hb) (mnt6_multiple₁ hc) (mnt6_multiple₂ hd) (mnt6_multiple₁ he) (mnt6_multiple₂ hf)
  with_reducible_and_instances exact h

example : mnt6_pp.checkProduct (@scalarMul _ (Proj.ops mnt6_G1_mul_by_a) mnt6_G1_one [6]) (@scalarMul _ (Proj.ops mnt6_G2_mul_by_a) mnt6_G2_one [7])
      (@scalarMul _ (Proj.ops mnt6_G1_mul_by_a) mnt6_G1_one [5]) (@scalarMul _ (Proj.ops mnt6_G2_mul_by_a) mnt6_G2_one [8])
      (@scalarMul _ (Proj.ops mnt6_G1_mul_by_a) mnt6_G1_one [2]) (@scalarMul _ (Proj.ops mnt6_G2_mul_by_a) mnt6_G2_one [1]) = .ok true := by
  rw [C70_mnt6_scalars _ _ _ _ _ _ (by decide +kernel) (by decide +kernel) (by decide +kernel) (by decide +kernel) (by decide +kernel) (by decide +kernel)]
  decide +kernel

/-- **C70.** `affine_ate_e_over_e_miller_loop` of mnt6 gives the quotient of two pairings, and `affine_ate_e_times_e_over_e_miller_loop`
the quotient of a product of two pairings and a third. -/
theorem C70_mnt6_affine {p₁ p₂ p₃ : Coord3 mnt6_Fq} {q₁ q₂ q₃ : Coord3 mnt6_Fq3} {v₁ v₂ v₃ : mnt6_Fq6}
    (h₁ : mnt6_affine_reduced_pairing p₁ q₁ = .ok v₁) (h₂ : mnt6_affine_reduced_pairing p₂ q₂ = .ok v₂)
    (h₃ : mnt6_affine_reduced_pairing p₃ q₃ = .ok v₃) :
    (mnt6_affine_e_over_e p₁ q₁ p₂ q₂).bind mnt6_final_exponentiation = .ok (v₁ / v₂) ∧
    (mnt6_affine_e_times_e_over_e p₁ q₁ p₂ q₂ p₃ q₃).bind mnt6_final_exponentiation = .ok (v₁ * v₂ / v₃) := by
  have hf := C49_mnt6
  unfold mnt6_affine_reduced_pairing AteMnt.affineReducedPairing at h₁ h₂ h₃
  unfold mnt6_affine_e_over_e mnt6_affine_e_times_e_over_e
  have h := affineEOverE_eq hf mnt6_unitaryInverse h₁ h₂
  have h' := affineETimesEOverE_eq hf mnt6_unitaryInverse h₁ h₂ h₃
  constructor
  · with_reducible_and_instances exact h
  · with_reducible_and_instances exact h'

example : ∃ v, (mnt6_affine_e_over_e mnt6_G1_one mnt6_G2_one mnt6_G1_one mnt6_G2_one).bind mnt6_final_exponentiation = .ok v ∧ v = 1 := by
  obtain ⟨v, hv, h1⟩ := C59_mnt6_nondegenerate _ _ mnt6_one_arg.2.1 mnt6_one_arg.2.2
  refine ⟨_, (C70_mnt6_affine hv hv hv).1, div_self ?_⟩
  rintro rfl
  obtain ⟨w, hw, hr⟩ := C59_mnt6_bilinear.total mnt6_one_arg.1 mnt6_one_arg.2.2
  obtain rfl := Outcome.ok.inj (hv.symm.trans hw)
  rw [zero_pow mnt6_Fr_prime.ne_zero] at hr
  exact zero_ne_one hr

/-! ## edwards -/

theorem edwards_pp_reduced (p : Coord3 edwards_Fq) (q : Coord3 edwards_Fq3) :
    edwards_pp.reducedPairing p q = (edwards_pp.miller p q).bind edwards_pp.finalExponentiation := by
  unfold edwards_pp PairingFns.miller
  dsimp only
  unfold edwards_reduced_pairing edwards_miller_loop
  rw [AteEdw.reduced_eq]

theorem edwards_unitaryInverse (x : edwards_Fq6) (hx : x ≠ 0) : x.unitaryInverse ≠ 0 ∧ x.unitaryInverse ^ edwards_E = (x ^ edwards_E)⁻¹ := by
  have hd : Fintype.card edwards_Fq3 - 1 ∣ edwards_E := by rw [edwards_Fq3_card]; decide +kernel
  have h := Quad.unitaryInverse_pow hd hx
  with_reducible_and_instances exact h

/-- **C70.** edwards. -/
theorem C70_edwards : edwards_pp.Equations := by
  have hf : IsFinalExp edwards_pp.finalExponentiation edwards_Fr_params.p edwards_E := by
    have h := C49_edwards
    with_reducible_and_instances exact h
  have hd : IsDoubleLoop edwards_pp.doubleMillerLoop edwards_pp.millerLoop := by
    have h := C48_edwards
    with_reducible_and_instances exact h
  have h := PairingFns.equations edwards_pp_reduced hf hd edwards_unitaryInverse
  with_reducible_and_instances exact h

theorem edwards_multiple₁ (a : List Limb) : edwards_arg₁ (@scalarMul _ edwards_ops₁ edwards_G1_one a) := by
  obtain ⟨g₁, hg₁, -⟩ := edwards_g₁
  exact ⟨_, @scalarMul_rel _ _ edwards_ops₁ _ _ edwards_impl₁ _ _ hg₁ a⟩

theorem edwards_multiple₂ {b : List Limb} (hb : ¬ edwards_Fr_params.p ∣ val b) :
    edwards_arg₂ (@scalarMul _ edwards_ops₂ edwards_G2_one b) := by
  have h := nonzeroMultiple_scalar (eq := Edw.eq) (isZero := Edw.isZero) edwards_impl₂
    (fun h h' => Edw.eq_rep C52_edwards_G2_generator.1 C52_edwards_G2_generator.2.1 h.2 h'.2)
    (fun h => Edw.isZero_rep h.2) ⟨edwards_g_mem, edwards_g_rep⟩ edwards_g_order hb
  exact ⟨⟨_, h.1⟩, h.2⟩

/-- **C70.** The check of `e(a·G1, b·G2) = e(c·G1, d·G2) e(e·G1, f·G2)` with one final exponentiation passes exactly if
`a b = c d + e f` modulo the order of the groups. -/
theorem C70_edwards_scalars (a b c d e f : List Limb) (hb : ¬ edwards_Fr_params.p ∣ val b) (hd : ¬ edwards_Fr_params.p ∣ val d) (hf : ¬ edwards_Fr_params.p ∣ val f) :
    edwards_pp.checkProduct (@scalarMul _ edwards_ops₁ edwards_G1_one a) (@scalarMul _ edwards_ops₂ edwards_G2_one b)
        (@scalarMul _ edwards_ops₁ edwards_G1_one c) (@scalarMul _ edwards_ops₂ edwards_G2_one d)
        (@scalarMul _ edwards_ops₁ edwards_G1_one e) (@scalarMul _ edwards_ops₂ edwards_G2_one f) =
      .ok (decide (val a * val b ≡ val c * val d + val e * val f [MOD edwards_Fr_params.p])) := by
  have h := PairingFns.checkProduct_scalars C70_edwards C51_edwards C51_edwards_nondegenerate edwards_Fr_prime edwards_one_arg.1 edwards_one_arg.2.1
    edwards_one_arg.2.2 a b c d e f (edwards_multiple₁ a) (edwards_multiple₂ hb) (edwards_multiple₁ c) (edwards_multiple₂ hd) (edwards_multiple₁ e) (edwards_multiple₂ hf)
  with_reducible_and_instances exact h

example : edwards_pp.checkProduct (@scalarMul _ edwards_ops₁ edwards_G1_one [6]) (@scalarMul _ edwards_ops₂ edwards_G2_one [7])
      (@scalarMul _ edwards_ops₁ edwards_G1_one [5]) (@scalarMul _ edwards_ops₂ edwards_G2_one [8])
      (@scalarMul _ edwards_ops₁ edwards_G1_one [2]) (@scalarMul _ edwards_ops₂ edwards_G2_one [1]) = .ok true := by
  rw [C70_edwards_scalars _ _ _ _ _ _ (by decide +kernel) (by decide +kernel) (by decide +kernel)]
  decide +kernel

end Libff
