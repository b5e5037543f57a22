import Verif.Spec.TargetGroup
import Verif.Props.BilinearEdw

/-!
# C85: the values of the pairings and the cheap operations of the target group
-/
namespace Libff
set_option synthInstance.maxSize 2000
open WeierstrassCurve Affine

theorem BilinMap.neg_left {A₁ A₂ L : Type*} [AddCommGroup A₁] [AddCommGroup A₂] [Field L] {D : AddSubgroup A₂} {e : A₁ → A₂ → L}
    (h : BilinMap D e) {P : A₁} {Q : A₂} (hQ : Q ∈ D) : e P Q * e (-P) Q = 1 := by
  rw [← h.add_left _ _ _ hQ, add_neg_cancel, h.zero_left hQ]

theorem BilinMap.neg_right {A₁ A₂ L : Type*} [AddCommGroup A₁] [AddCommGroup A₂] [Field L] {D : AddSubgroup A₂} {e : A₁ → A₂ → L}
    (h : BilinMap D e) {P : A₁} {Q : A₂} (hQ : Q ∈ D) : e P Q * e P (-Q) = 1 := by
  rw [← h.add_right _ _ _ hQ (neg_mem hQ), add_neg_cancel, h.zero_right]

/-- Two right inverses agree. -/
theorem right_inv_unique {L : Type*} [Field L] {v a b : L} (ha : v * a = 1) (hb : v * b = 1) : a = b :=
  (eq_inv_of_mul_eq_one_right ha).trans (eq_inv_of_mul_eq_one_right hb).symm

/-- The cheap operations that are right on the `r`-th roots of unity are right on the values of a pairing. -/
theorem BilinMap.targetGroup {G₁ G₂ L : Type} [Field L] {arg₁ : G₁ → Prop} {arg₂ : G₂ → Prop} {r : ℕ} {pair : G₁ → G₂ → Outcome L}
    {A₁ A₂ : Type*} [AddCommGroup A₁] [AddCommGroup A₂] {Rep₁ : G₁ → A₁ → Prop} {Rep₂ : G₂ → A₂ → Prop} {C₁ : A₁ → Prop} {g : A₂}
    {e : A₁ → A₂ → L} {neg₁ : G₁ → G₁} {neg₂ : G₂ → G₂} {uinv csq : L → L} {cexp : L → List Limb → Outcome L}
    (h : BilinMap (AddSubgroup.zmultiples g) e) (hg : addOrderOf g = r)
    (n₁ : ∀ {p P}, Rep₁ p P → Rep₁ (neg₁ p) (-P)) (c₁ : ∀ {P}, C₁ P → C₁ (-P)) (n₂ : ∀ {q Q}, Rep₂ q Q → Rep₂ (neg₂ q) (-Q))
    (a₁ : ∀ {p}, arg₁ p → ∃ P, Rep₁ p P ∧ C₁ P) (a₂ : ∀ {q}, arg₂ q → ∃ Q, Rep₂ q Q ∧ Q ∈ AddSubgroup.zmultiples g ∧ Q ≠ 0)
    (hp : ∀ {p P q Q}, Rep₁ p P → C₁ P → Rep₂ q Q → Q ∈ AddSubgroup.zmultiples g → Q ≠ 0 → pair p q = .ok (e P Q))
    (hv : ∀ v : L, v ^ r = 1 → v * uinv v = 1 ∧ csq v = v * v ∧
      ∀ e : List Limb, val e + 2 ≤ 2 ^ (64 * e.length) → cexp v e = .ok (v ^ val e)) :
    TargetGroup neg₁ neg₂ arg₁ arg₂ uinv csq cexp pair := by
  intro p q h1 h2
  obtain ⟨P, rP, cP⟩ := a₁ h1
  obtain ⟨Q, rQ, dQ, nQ⟩ := a₂ h2
  obtain ⟨u, s, x⟩ := hv _ (h.root (P := P) dQ (smul_zmultiples hg dQ))
  refine ⟨_, hp rP cP rQ dQ nQ, u, s, x, ?_, ?_⟩
  · rw [hp (n₁ rP) (c₁ cP) rQ dQ nQ, right_inv_unique (h.neg_left dQ) u]
  · rw [hp rP cP (n₂ rQ) (neg_mem dQ) (neg_ne_zero.2 nQ), right_inv_unique (h.neg_right dQ) u]

/-- The target group of a pairing of two groups in Jacobian coordinates. -/
theorem Jac.targetGroup {K T L : Type} [Field K] [DecidableEq K] [Squared K] [LawfulSquared K] [Field T] [DecidableEq T] [Squared T]
    [LawfulSquared T] [Field L] {b : K} {b' : T} {one : Coord3 T} {g : (sw 0 b').Point} {r : ℕ}
    {e : (sw 0 b).Point → (sw 0 b').Point → L} {pair : Coord3 K → Coord3 T → Outcome L} {uinv csq : L → L}
    {cexp : L → List Limb → Outcome L} (h : BilinMap (AddSubgroup.zmultiples g) e)
    (hg : addOrderOf g = r) (h2 : (2 : K) ≠ 0) (h3 : (3 : K) ≠ 0) (hb : b ≠ 0) (h2' : (2 : T) ≠ 0) (h3' : (3 : T) ≠ 0) (hb' : b' ≠ 0)
    (hone : JacRep one g)
    (hp : ∀ {p P q Q}, JacRep p P → JacRep q Q → Q ∈ AddSubgroup.zmultiples g → Q ≠ 0 → pair p q = .ok (e P Q))
    (hv : ∀ v : L, v ^ r = 1 → v * uinv v = 1 ∧ csq v = v * v ∧
      ∀ e : List Limb, val e + 2 ≤ 2 ^ (64 * e.length) → cexp v e = .ok (v ^ val e)) :
    TargetGroup Jac.neg Jac.neg (fun p => Jac.isWellFormed b p = true)
      (fun q => Jac.isWellFormed b' q = true ∧ NonzeroMultiple Jac.ops Jac.eq Jac.isZero one q) uinv csq cexp pair :=
  h.targetGroup (C₁ := fun _ => True) hg Jac.neg_rep id Jac.neg_rep
    (fun h => by
      obtain ⟨P, hP⟩ := (Jac.isWellFormed_iff (sw_Δ_ne h2 h3 hb) _).1 h
      exact ⟨P, hP, trivial⟩)
    (fun h => by
      obtain ⟨Q, hQ, h0, n, e⟩ := Jac.nonzeroMultiple h2' (sw_Δ_ne h2' h3' hb') hone h.1 h.2
      exact ⟨Q, hQ, by rw [e]; exact nsmul_mem (AddSubgroup.mem_zmultiples _) n, h0⟩)
    (fun hp' _ hq hQ h0 => hp hp' hq hQ h0) hv

/-- The target group of a pairing of two groups in projective coordinates. -/
theorem Proj.targetGroup {K T L : Type} [Field K] [DecidableEq K] [Squared K] [LawfulSquared K] [Field T] [DecidableEq T] [Squared T]
    [LawfulSquared T] [Field L] {a b : K} {a' b' : T} {mulA' : T → T} (hA' : ∀ x, mulA' x = a' * x)
    {one : Coord3 T} {g : (sw a' b').Point} {r : ℕ}
    {e : (sw a b).Point → (sw a' b').Point → L} {pair : Coord3 K → Coord3 T → Outcome L} {uinv csq : L → L}
    {cexp : L → List Limb → Outcome L} (h : BilinMap (AddSubgroup.zmultiples g) e)
    (hg : addOrderOf g = r) (hΔ : (sw a b).Δ ≠ 0) (h2' : (2 : T) ≠ 0) (hΔ' : (sw a' b').Δ ≠ 0)
    (hone : ProjRep one g)
    (hp : ∀ {p P q Q}, ProjRep p P → P ≠ 0 → ProjRep q Q → Q ∈ AddSubgroup.zmultiples g → Q ≠ 0 → pair p q = .ok (e P Q))
    (hv : ∀ v : L, v ^ r = 1 → v * uinv v = 1 ∧ csq v = v * v ∧
      ∀ e : List Limb, val e + 2 ≤ 2 ^ (64 * e.length) → cexp v e = .ok (v ^ val e)) :
    TargetGroup Proj.neg Proj.neg (fun p => Proj.isWellFormed a b p = true ∧ Proj.isZero p = false)
      (fun q => Proj.isWellFormed a' b' q = true ∧ NonzeroMultiple (Proj.ops mulA') Proj.eq Proj.isZero one q) uinv csq cexp pair :=
  h.targetGroup (C₁ := fun P => P ≠ 0) hg Proj.neg_rep neg_ne_zero.2 Proj.neg_rep
    (fun h => by
      obtain ⟨P, hP⟩ := (Proj.isWellFormed_iff hΔ _).1 h.1
      refine ⟨P, hP, fun h0 => ?_⟩
      rw [(Proj.isZero_rep hP).2 h0] at h
      exact absurd h.2 (by simp))
    (fun h => by
      obtain ⟨Q, hQ, h0, n, e⟩ := Proj.nonzeroMultiple hA' h2' hΔ' hone h.1 h.2
      exact ⟨Q, hQ, by rw [e]; exact nsmul_mem (AddSubgroup.mem_zmultiples _) n, h0⟩)
    (fun hp' hP hq hQ h0 => hp hp' hP hq hQ h0) hv

/-- A root of unity lies in the cyclotomic subgroup. -/
theorem pow_one_of_dvd {L : Type*} [Field L] {v : L} {r n : ℕ} (h : v ^ r = 1) (hd : r ∣ n) : v ^ n = 1 := by
  obtain ⟨k, rfl⟩ := hd
  rw [pow_mul, h, one_pow]

section
variable {K : Type*} [Field K] [Fintype K] {β : K} {ξ : Fp2 K β} [hβ : Fact (¬ IsSquare β)]
  [hξ : Fact (∀ y : Fp2 K β, y * y * y ≠ ξ)]
  [Fact (¬ IsSquare (Cubic.gen : Fp6_3over2 K β ξ))] {A : Ate12 K β ξ} {q : ℕ}

/-- The operations of `Fp12` on the `r`-th roots of unity. -/
theorem Ate12.FrobOK.cheap (h : A.FrobOK q) {r : ℕ} (hr : r ∣ q ^ 4 - q ^ 2 + 1) (v : Fp12 K β ξ ξ) (hv : v ^ r = 1) :
    v * v.unitaryInverse = 1 ∧ Fp12.cyclotomicSquared v = v * v ∧
      ∀ e : List Limb, val e + 2 ≤ 2 ^ (64 * e.length) → Outcome.ok (cyclotomicExpBits Fp12.cyclotomicSquared v e) = .ok (v ^ val e) :=
  ⟨h.uinv_mul (pow_one_of_dvd hv hr), h.csq (pow_one_of_dvd hv hr), fun e _ => by rw [h.cexp (pow_one_of_dvd hv hr)]⟩

end

/-- **C85.** alt_bn128: `unitary_inverse`, `cyclotomic_squared` and `cyclotomic_exp` are right on the values of the pairing, and negating an
argument of the pairing gives the `unitary_inverse` of its value. -/
theorem C85_alt_bn128 : TargetGroup Jac.neg Jac.neg alt_bn128_arg₁ alt_bn128_arg₂ Quad.unitaryInverse Fp12.cyclotomicSquared
    (fun v e => .ok (cyclotomicExpBits Fp12.cyclotomicSquared v e)) alt_bn128_reduced_pairing :=
  Jac.targetGroup alt_bn128_bilin alt_bn128_g_order
    (by have h := C52_alt_bn128_G1_generator.1; with_reducible_and_instances exact h)
    (by have h := C52_alt_bn128_G1_generator.2.1; with_reducible_and_instances exact h)
    (by have h := C52_alt_bn128_G1_generator.2.2.1; with_reducible_and_instances exact h)
    (by have h := C52_alt_bn128_G2_generator.1; with_reducible_and_instances exact h)
    (by have h := C52_alt_bn128_G2_generator.2.1; with_reducible_and_instances exact h)
    (by have h := C52_alt_bn128_G2_generator.2.2.1; with_reducible_and_instances exact h) alt_bn128_g_rep alt_bn128_pair
    (alt_bn128_frobOK.cheap (by decide +kernel))

/-- The hypotheses are met by the generators, whose pairing is not 1. -/
example : ∃ v, alt_bn128_reduced_pairing alt_bn128_G1_one alt_bn128_G2_one = .ok v ∧ v ≠ 1 ∧
    alt_bn128_reduced_pairing (Jac.neg alt_bn128_G1_one) alt_bn128_G2_one = .ok v.unitaryInverse := by
  obtain ⟨v, h, h1⟩ := C51_alt_bn128_nondegenerate _ _ alt_bn128_one_arg.2.1 alt_bn128_one_arg.2.2
  obtain ⟨w, hw, -, -, -, hn, -⟩ := C85_alt_bn128 _ _ alt_bn128_one_arg.1 alt_bn128_one_arg.2.2
  rw [h] at hw
  cases hw
  exact ⟨v, h, h1, hn⟩

/-- **C85.** bls12_381: as alt_bn128. -/
theorem C85_bls12_381 : TargetGroup Jac.neg Jac.neg bls12_381_arg₁ bls12_381_arg₂ Quad.unitaryInverse Fp12.cyclotomicSquared
    (fun v e => .ok (cyclotomicExpBits Fp12.cyclotomicSquared v e)) bls12_381_reduced_pairing :=
  Jac.targetGroup bls12_381_bilin bls12_381_g_order
    (by have h := C52_bls12_381_G1_generator.1; with_reducible_and_instances exact h)
    (by have h := C52_bls12_381_G1_generator.2.1; with_reducible_and_instances exact h)
    (by have h := C52_bls12_381_G1_generator.2.2.1; with_reducible_and_instances exact h)
    (by have h := C52_bls12_381_G2_generator.1; with_reducible_and_instances exact h)
    (by have h := C52_bls12_381_G2_generator.2.1; with_reducible_and_instances exact h)
    (by have h := C52_bls12_381_G2_generator.2.2.1; with_reducible_and_instances exact h) bls12_381_g_rep bls12_381_pair
    (bls12_381_frobOK.cheap (by decide +kernel))

example : ∃ v, bls12_381_reduced_pairing bls12_381_G1_one bls12_381_G2_one = .ok v ∧ v ≠ 1 ∧
    bls12_381_reduced_pairing (Jac.neg bls12_381_G1_one) bls12_381_G2_one = .ok v.unitaryInverse := by
  obtain ⟨v, h, h1⟩ := C51_bls12_381_nondegenerate _ _ bls12_381_one_arg.2.1 bls12_381_one_arg.2.2
  obtain ⟨w, hw, -, -, -, hn, -⟩ := C85_bls12_381 _ _ bls12_381_one_arg.1 bls12_381_one_arg.2.2
  rw [h] at hw
  cases hw
  exact ⟨v, h, h1, hn⟩

/-- **C85.** mnt4. -/
theorem C85_mnt4 : TargetGroup Proj.neg Proj.neg mnt4_arg₁ mnt4_arg₂ Quad.unitaryInverse Quad.cyclotomicSquared4
    (cyclotomicExpNaf Quad.cyclotomicSquared4) mnt4_reduced_pairing :=
  Proj.targetGroup mnt4_mulA mnt4_bilin mnt4_g_order
    (sw_Δ_ne_of_disc C52_mnt4_G1_generator.1 C52_mnt4_G1_generator.2.1) C52_mnt4_G2_generator.1 mnt4_Δ mnt4_g_rep mnt4_pair
    (fun v hv =>
      have hv' : v ^ (mnt4_Fq_params.p ^ 2 + 1) = 1 := pow_one_of_dvd hv (by decide +kernel)
      ⟨C22_fp4_unitary_inverse _ Fp.card (by decide +kernel) _ mnt4_β_nonsquare mnt4_negβ_nonsquare v hv',
        C22_fp4_cyclotomic_squared _ Fp.card (by decide +kernel) _ mnt4_β_nonsquare mnt4_negβ_nonsquare v hv',
        fun e he => C22_fp4_cyclotomic_exp _ Fp.card (by decide +kernel) _ mnt4_β_nonsquare mnt4_negβ_nonsquare v hv' e he⟩)

example : ∃ v, mnt4_reduced_pairing mnt4_G1_one mnt4_G2_one = .ok v ∧ v ≠ 1 ∧
    mnt4_reduced_pairing (Proj.neg mnt4_G1_one) mnt4_G2_one = .ok v.unitaryInverse := by
  obtain ⟨v, h, h1⟩ := C51_mnt4_nondegenerate _ _ mnt4_one_arg.2.1 mnt4_one_arg.2.2
  obtain ⟨w, hw, -, -, -, hn, -⟩ := C85_mnt4 _ _ mnt4_one_arg.1 mnt4_one_arg.2.2
  rw [h] at hw
  cases hw
  exact ⟨v, h, h1, hn⟩

/-- **C85.** mnt6. -/
theorem C85_mnt6 : TargetGroup Proj.neg Proj.neg mnt6_arg₁ mnt6_arg₂ Quad.unitaryInverse (Fp6_2over3.cyclotomicSquared mnt6_β)
    (cyclotomicExpNaf (Fp6_2over3.cyclotomicSquared mnt6_β)) mnt6_reduced_pairing :=
  Proj.targetGroup mnt6_mulA mnt6_bilin mnt6_g_order
    (sw_Δ_ne_of_disc C52_mnt6_G1_generator.1 C52_mnt6_G1_generator.2.1) C52_mnt6_G2_generator.1 mnt6_Δ mnt6_g_rep mnt6_pair
    (fun v hv =>
      have hv' : v ^ (mnt6_Fq_params.p ^ 2 - mnt6_Fq_params.p + 1) = 1 := pow_one_of_dvd hv (by decide +kernel)
      ⟨C22_fp6_2over3_unitary_inverse _ Fp.card (by decide +kernel) _ mnt6_β_nonsquare mnt6_β_noncube v hv',
        C22_fp6_2over3_cyclotomic_squared _ Fp.card (by decide +kernel) _ mnt6_β_nonsquare mnt6_β_noncube v hv',
        fun e he => C22_fp6_2over3_cyclotomic_exp _ Fp.card (by decide +kernel) _ mnt6_β_nonsquare mnt6_β_noncube v hv' e he⟩)

example : ∃ v, mnt6_reduced_pairing mnt6_G1_one mnt6_G2_one = .ok v ∧ v ≠ 1 ∧
    mnt6_reduced_pairing (Proj.neg mnt6_G1_one) mnt6_G2_one = .ok v.unitaryInverse := by
  obtain ⟨v, h, h1⟩ := C51_mnt6_nondegenerate _ _ mnt6_one_arg.2.1 mnt6_one_arg.2.2
  obtain ⟨w, hw, -, -, -, hn, -⟩ := C85_mnt6 _ _ mnt6_one_arg.1 mnt6_one_arg.2.2
  rw [h] at hw
  cases hw
  exact ⟨v, h, h1, hn⟩

/-- **C85.** edwards. -/
theorem C85_edwards : TargetGroup Edw.neg Edw.neg edwards_arg₁ edwards_arg₂ Quad.unitaryInverse (Fp6_2over3.cyclotomicSquared edwards_β)
    (cyclotomicExpNaf (Fp6_2over3.cyclotomicSquared edwards_β)) edwards_reduced_pairing :=
  edwards_bilin.targetGroup (C₁ := fun _ => True) (Rep₁ := EdwRepIn edwards_H₁) (Rep₂ := EdwRepIn edwards_H₂) edwards_g_order
    (fun h => ⟨neg_mem h.1, Edw.neg_rep h.2⟩) id (fun h => ⟨neg_mem h.1, Edw.neg_rep h.2⟩)
    (fun ⟨P, hP⟩ => ⟨P, hP, trivial⟩)
    (fun ⟨⟨Q, hQ⟩, h⟩ => by
      obtain ⟨h0, n, e⟩ := Edw.nonzeroMultiple C52_edwards_G2_generator.1 C52_edwards_G2_generator.2.1 edwards_impl₂
        ⟨edwards_g_mem, edwards_g_rep⟩ hQ h
      exact ⟨Q, hQ, by rw [e]; exact nsmul_mem (AddSubgroup.mem_zmultiples _) n, h0⟩)
    (fun hp _ hq hQ h0 => edwards_pair hp.2 hq.2 hQ h0)
    (fun v hv =>
      have hv' : v ^ (edwards_Fq_params.p ^ 2 - edwards_Fq_params.p + 1) = 1 := pow_one_of_dvd hv (by decide +kernel)
      ⟨C22_fp6_2over3_unitary_inverse _ Fp.card (by decide +kernel) _ edwards_β_nonsquare edwards_β_noncube v hv',
        C22_fp6_2over3_cyclotomic_squared _ Fp.card (by decide +kernel) _ edwards_β_nonsquare edwards_β_noncube v hv',
        fun e he => C22_fp6_2over3_cyclotomic_exp _ Fp.card (by decide +kernel) _ edwards_β_nonsquare edwards_β_noncube v hv' e he⟩)

example : ∃ v, edwards_reduced_pairing edwards_G1_one edwards_G2_one = .ok v ∧ v ≠ 1 ∧
    edwards_reduced_pairing (Edw.neg edwards_G1_one) edwards_G2_one = .ok v.unitaryInverse := by
  obtain ⟨v, h, h1⟩ := C51_edwards_nondegenerate _ _ edwards_one_arg.2.1 edwards_one_arg.2.2
  obtain ⟨w, hw, -, -, -, hn, -⟩ := C85_edwards _ _ edwards_one_arg.1 edwards_one_arg.2.2
  rw [h] at hw
  cases hw
  exact ⟨v, h, h1, hn⟩

end Libff
