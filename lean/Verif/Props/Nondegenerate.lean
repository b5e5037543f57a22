import Verif.Props.MillerDouble
import Verif.Props.Bilinear
import Verif.Lemmas.PairingValueAltBn128
import Verif.Lemmas.PairingValueBls12381
import Verif.Lemmas.PairingValueMnt
import Verif.Lemmas.Ate12Zero

/-!
# C51: non-degeneracy of the reduced pairings, and their values on zero
-/
namespace Libff
set_option synthInstance.maxSize 2000
open WeierstrassCurve Affine

/-- Non-degeneracy for two groups in Jacobian coordinates. -/
theorem Jac.nondegenerate {K T L : Type} [Field K] [DecidableEq K] [Squared K] [LawfulSquared K] [Field T] [DecidableEq T] [Squared T]
    [LawfulSquared T] [Field L] {b : K} {b' : T} {one₁ : Coord3 K} {one : Coord3 T} {g₁ : (sw 0 b).Point} {g : (sw 0 b').Point} {r : ℕ}
    {e : (sw 0 b).Point → (sw 0 b').Point → L} {pair : Coord3 K → Coord3 T → Outcome L} (h : BilinMap (AddSubgroup.zmultiples g) e)
    (hr : r.Prime) (hg₁ : addOrderOf g₁ = r) (hg : addOrderOf g = r) (h2 : (2 : K) ≠ 0) (h3 : (3 : K) ≠ 0) (hb : b ≠ 0) (h2' : (2 : T) ≠ 0)
    (h3' : (3 : T) ≠ 0) (hb' : b' ≠ 0) (hone₁ : JacRep one₁ g₁) (hone : JacRep one g)
    (hp : ∀ {p P q Q}, JacRep p P → JacRep q Q → Q ∈ AddSubgroup.zmultiples g → Q ≠ 0 → pair p q = .ok (e P Q))
    (h1 : ∃ w, pair one₁ one = .ok w ∧ w ≠ 1) :
    NondegeneratePairing (fun p => Jac.isWellFormed b p = true ∧ NonzeroMultiple Jac.ops Jac.eq Jac.isZero one₁ p)
      (fun q => Jac.isWellFormed b' q = true ∧ NonzeroMultiple Jac.ops Jac.eq Jac.isZero one q) pair :=
  h.nondegenerate (C₁ := fun _ => True) hr hg hg₁
    (fun h => by
      obtain ⟨Q, hQ, h0, n, e⟩ := Jac.nonzeroMultiple h2 (sw_Δ_ne h2 h3 hb) hone₁ h.1 h.2
      exact ⟨Q, hQ, trivial, h0, n, e⟩)
    (fun h => Jac.nonzeroMultiple h2' (sw_Δ_ne h2' h3' hb') hone h.1 h.2)
    (fun hp' _ hq hQ h0 => hp hp' hq hQ h0)
    (by
      obtain ⟨w, hw, hw1⟩ := h1
      have h0 : g ≠ 0 := fun h0 => by
        rw [h0, addOrderOf_zero] at hg
        exact hr.one_lt.ne hg
      rw [hp hone₁ hone (AddSubgroup.mem_zmultiples g) h0] at hw
      cases hw
      exact hw1)

/-- Non-degeneracy for two groups in projective coordinates. -/
theorem Proj.nondegenerate {K T L : Type} [Field K] [DecidableEq K] [Squared K] [LawfulSquared K] [Field T] [DecidableEq T] [Squared T]
    [LawfulSquared T] [Field L] {a b : K} {a' b' : T} {mulA : K → K} {mulA' : T → T} (hA : ∀ x, mulA x = a * x) (hA' : ∀ x, mulA' x = a' * x)
    {one₁ : Coord3 K} {one : Coord3 T} {g₁ : (sw a b).Point} {g : (sw a' b').Point} {r : ℕ}
    {e : (sw a b).Point → (sw a' b').Point → L} {pair : Coord3 K → Coord3 T → Outcome L} (h : BilinMap (AddSubgroup.zmultiples g) e)
    (hr : r.Prime) (hg₁ : addOrderOf g₁ = r) (hg : addOrderOf g = r) (h2 : (2 : K) ≠ 0) (hΔ : (sw a b).Δ ≠ 0) (h2' : (2 : T) ≠ 0)
    (hΔ' : (sw a' b').Δ ≠ 0) (hone₁ : ProjRep one₁ g₁) (hone : ProjRep one g)
    (hp : ∀ {p P q Q}, ProjRep p P → P ≠ 0 → ProjRep q Q → Q ∈ AddSubgroup.zmultiples g → Q ≠ 0 → pair p q = .ok (e P Q))
    (h1 : ∃ w, pair one₁ one = .ok w ∧ w ≠ 1) :
    NondegeneratePairing (fun p => Proj.isWellFormed a b p = true ∧ NonzeroMultiple (Proj.ops mulA) Proj.eq Proj.isZero one₁ p)
      (fun q => Proj.isWellFormed a' b' q = true ∧ NonzeroMultiple (Proj.ops mulA') Proj.eq Proj.isZero one q) pair :=
  h.nondegenerate (C₁ := fun P => P ≠ 0) hr hg hg₁
    (fun h => by
      obtain ⟨Q, hQ, h0, n, e⟩ := Proj.nonzeroMultiple hA h2 hΔ hone₁ h.1 h.2
      exact ⟨Q, hQ, h0, h0, n, e⟩)
    (fun h => Proj.nonzeroMultiple hA' h2' hΔ' hone h.1 h.2)
    (fun hp' hP hq hQ h0 => hp hp' hP hq hQ h0)
    (by
      obtain ⟨w, hw, hw1⟩ := h1
      have h0 : g ≠ 0 := fun h0 => by
        rw [h0, addOrderOf_zero] at hg
        exact hr.one_lt.ne hg
      have h0₁ : g₁ ≠ 0 := fun h0 => by
        rw [h0, addOrderOf_zero] at hg₁
        exact hr.one_lt.ne hg₁
      rw [hp hone₁ h0₁ hone (AddSubgroup.mem_zmultiples g) h0] at hw
      cases hw
      exact hw1)

/-- `one` is a non-zero multiple of itself. -/
theorem Jac.nonzeroMultiple_one {K : Type} [Field K] [DecidableEq K] [Squared K] [LawfulSquared K] {b : K} (h2 : (2 : K) ≠ 0)
    {one : Coord3 K} {g : (sw 0 b).Point} (hg : JacRep one g) (h0 : g ≠ 0) : NonzeroMultiple Jac.ops Jac.eq Jac.isZero one one := by
  letI : GroupOps (Coord3 K) := Jac.ops
  refine ⟨?_, [1], ?_⟩
  · rw [Bool.eq_false_iff]
    exact fun h => h0 ((Jac.isZero_rep hg).1 h)
  · refine (Jac.eq_rep hg (scalarMul_rel (Jac.implementsRel (b := b) h2) hg [1])).2 ?_
    rw [show val [1] = 1 by decide, one_smul]

/-- `one` is a non-zero multiple of itself. -/
theorem Proj.nonzeroMultiple_one {K : Type} [Field K] [DecidableEq K] [Squared K] [LawfulSquared K] {a b : K} {mulA : K → K}
    (hA : ∀ x, mulA x = a * x) (h2 : (2 : K) ≠ 0) {one : Coord3 K} {g : (sw a b).Point} (hg : ProjRep one g) (h0 : g ≠ 0) :
    NonzeroMultiple (Proj.ops mulA) Proj.eq Proj.isZero one one := by
  letI : GroupOps (Coord3 K) := Proj.ops mulA
  refine ⟨?_, [1], ?_⟩
  · rw [Bool.eq_false_iff]
    exact fun h => h0 ((Proj.isZero_rep hg).1 h)
  · refine (Proj.eq_rep hg (scalarMul_rel (Proj.implementsRel (b := b) hA h2) hg [1])).2 ?_
    rw [show val [1] = 1 by decide, one_smul]

theorem ne_zero_of_order {A : Type*} [AddGroup A] {g : A} {r : ℕ} (hr : r.Prime) (h : addOrderOf g = r) : g ≠ 0 := fun h0 => by
  rw [h0, addOrderOf_zero] at h
  exact hr.one_lt.ne h

/-! ## alt_bn128 -/

/-- The first arguments of the non-degeneracy statement: the objects that satisfy the curve's equation and are non-zero multiples of
`G1::one()`. -/
def alt_bn128_sub₁ (p : Coord3 alt_bn128_Fq) : Prop :=
  Jac.isWellFormed alt_bn128_b p = true ∧ NonzeroMultiple Jac.ops Jac.eq Jac.isZero alt_bn128_G1_one p

/-- **C51.** `alt_bn128_reduced_pairing` does not map any pair of non-zero elements of the groups of order `r` to 1. -/
theorem C51_alt_bn128_nondegenerate : NondegeneratePairing alt_bn128_sub₁ alt_bn128_arg₂ alt_bn128_reduced_pairing :=
  Jac.nondegenerate alt_bn128_bilin alt_bn128_Fr_prime C52_alt_bn128_G1_generator.2.2.2.2.choose_spec.2 alt_bn128_g_order
    (by have h := C52_alt_bn128_G1_generator.1; with_reducible_and_instances exact h)
    (by have h := C52_alt_bn128_G1_generator.2.1; with_reducible_and_instances exact h)
    (by have h := C52_alt_bn128_G1_generator.2.2.1; with_reducible_and_instances exact h)
    (by have h := C52_alt_bn128_G2_generator.1; with_reducible_and_instances exact h)
    (by have h := C52_alt_bn128_G2_generator.2.1; with_reducible_and_instances exact h)
    (by have h := C52_alt_bn128_G2_generator.2.2.1; with_reducible_and_instances exact h)
    C52_alt_bn128_G1_generator.2.2.2.2.choose_spec.1 alt_bn128_g_rep alt_bn128_pair alt_bn128_value

/-- The generators are admissible arguments. -/
theorem alt_bn128_one_arg : alt_bn128_arg₁ alt_bn128_G1_one ∧ alt_bn128_sub₁ alt_bn128_G1_one ∧ alt_bn128_arg₂ alt_bn128_G2_one :=
  ⟨C52_alt_bn128_G1_generator.2.2.2.1, ⟨C52_alt_bn128_G1_generator.2.2.2.1,
    Jac.nonzeroMultiple_one (by have h := C52_alt_bn128_G1_generator.1; with_reducible_and_instances exact h) C52_alt_bn128_G1_generator.2.2.2.2.choose_spec.1
      (ne_zero_of_order alt_bn128_Fr_prime C52_alt_bn128_G1_generator.2.2.2.2.choose_spec.2)⟩,
    C52_alt_bn128_G2_generator.2.2.2.1, Jac.nonzeroMultiple_one (by have h := C52_alt_bn128_G2_generator.1; with_reducible_and_instances exact h) alt_bn128_g_rep (ne_zero_of_order alt_bn128_Fr_prime alt_bn128_g_order)⟩

example : ∃ v, alt_bn128_reduced_pairing alt_bn128_G1_one alt_bn128_G2_one = .ok v ∧ v ≠ 1 :=
  C51_alt_bn128_nondegenerate _ _ alt_bn128_one_arg.2.1 alt_bn128_one_arg.2.2

/-- C51, finding: the pairing of any object with any representation of `G2::zero()` is not 1; the computation aborts. -/
theorem C51_alt_bn128_zero_aborts (p : Coord3 alt_bn128_Fq) (q : Coord3 alt_bn128_Fq2) (h : Jac.isZero q = true) :
    alt_bn128_reduced_pairing p q = .abort :=
  Ate12.bn_zero (A := alt_bn128_ate) (by
    have hf : alt_bn128_G2_frob 0 = (0 : alt_bn128_Fq2) ^ alt_bn128_Fq_params.p := by
      have := C23_alt_bn128_Fq2 1 0
      rw [pow_one] at this
      exact this
    rw [zero_pow (by decide +kernel)] at hf
    exact hf) p h

example : alt_bn128_reduced_pairing alt_bn128_G1_one ⟨0, 1, 0⟩ = .abort := C51_alt_bn128_zero_aborts _ _ (by simp [Jac.isZero])

/-! ## bls12_381 -/

/-- The first arguments of the non-degeneracy statement: the objects that satisfy the curve's equation and are non-zero multiples of
`G1::one()`. -/
def bls12_381_sub₁ (p : Coord3 bls12_381_Fq) : Prop :=
  Jac.isWellFormed bls12_381_b p = true ∧ NonzeroMultiple Jac.ops Jac.eq Jac.isZero bls12_381_G1_one p

/-- **C51.** `bls12_381_reduced_pairing` does not map any pair of non-zero elements of the groups of order `r` to 1. -/
theorem C51_bls12_381_nondegenerate : NondegeneratePairing bls12_381_sub₁ bls12_381_arg₂ bls12_381_reduced_pairing :=
  Jac.nondegenerate bls12_381_bilin bls12_381_Fr_prime C52_bls12_381_G1_generator.2.2.2.2.choose_spec.2 bls12_381_g_order
    (by have h := C52_bls12_381_G1_generator.1; with_reducible_and_instances exact h)
    (by have h := C52_bls12_381_G1_generator.2.1; with_reducible_and_instances exact h)
    (by have h := C52_bls12_381_G1_generator.2.2.1; with_reducible_and_instances exact h)
    (by have h := C52_bls12_381_G2_generator.1; with_reducible_and_instances exact h)
    (by have h := C52_bls12_381_G2_generator.2.1; with_reducible_and_instances exact h)
    (by have h := C52_bls12_381_G2_generator.2.2.1; with_reducible_and_instances exact h)
    C52_bls12_381_G1_generator.2.2.2.2.choose_spec.1 bls12_381_g_rep bls12_381_pair bls12_381_value

/-- The generators are admissible arguments. -/
theorem bls12_381_one_arg : bls12_381_arg₁ bls12_381_G1_one ∧ bls12_381_sub₁ bls12_381_G1_one ∧ bls12_381_arg₂ bls12_381_G2_one :=
  ⟨C52_bls12_381_G1_generator.2.2.2.1, ⟨C52_bls12_381_G1_generator.2.2.2.1,
    Jac.nonzeroMultiple_one (by have h := C52_bls12_381_G1_generator.1; with_reducible_and_instances exact h) C52_bls12_381_G1_generator.2.2.2.2.choose_spec.1
      (ne_zero_of_order bls12_381_Fr_prime C52_bls12_381_G1_generator.2.2.2.2.choose_spec.2)⟩,
    C52_bls12_381_G2_generator.2.2.2.1, Jac.nonzeroMultiple_one (by have h := C52_bls12_381_G2_generator.1; with_reducible_and_instances exact h) bls12_381_g_rep (ne_zero_of_order bls12_381_Fr_prime bls12_381_g_order)⟩

example : ∃ v, bls12_381_reduced_pairing bls12_381_G1_one bls12_381_G2_one = .ok v ∧ v ≠ 1 :=
  C51_bls12_381_nondegenerate _ _ bls12_381_one_arg.2.1 bls12_381_one_arg.2.2

/-- C51, finding: the pairing of any object with any representation of `G2::zero()` is not 1; the computation aborts. -/
theorem C51_bls12_381_zero_aborts (p : Coord3 bls12_381_Fq) (q : Coord3 bls12_381_Fq2) (h : Jac.isZero q = true) :
    bls12_381_reduced_pairing p q = .abort :=
  Ate12.bls_zero (A := bls12_381_ate) rfl (by rw [bls12_381_loop]; decide +kernel) (by rw [bls12_381_loop]; decide +kernel) p h

example : bls12_381_reduced_pairing bls12_381_G1_one ⟨0, 1, 0⟩ = .abort := C51_bls12_381_zero_aborts _ _ (by simp [Jac.isZero])

/-! ## mnt4 -/

/-- The first arguments of the non-degeneracy statement: the objects that satisfy the curve's equation and are non-zero multiples of
`G1::one()`. -/
def mnt4_sub₁ (p : Coord3 mnt4_Fq) : Prop :=
  Proj.isWellFormed mnt4_a mnt4_b p = true ∧ NonzeroMultiple (Proj.ops mnt4_G1_mul_by_a) Proj.eq Proj.isZero mnt4_G1_one p

/-- **C51.** `mnt4_reduced_pairing` does not map any pair of non-zero elements of the groups of order `r` to 1. -/
theorem C51_mnt4_nondegenerate : NondegeneratePairing mnt4_sub₁ mnt4_arg₂ mnt4_reduced_pairing :=
  Proj.nondegenerate (fun _ => rfl) mnt4_mulA mnt4_bilin mnt4_Fr_prime C52_mnt4_G1_generator.2.2.2.choose_spec.2 mnt4_g_order
    C52_mnt4_G1_generator.1 (sw_Δ_ne_of_disc C52_mnt4_G1_generator.1 C52_mnt4_G1_generator.2.1) C52_mnt4_G2_generator.1 mnt4_Δ
    C52_mnt4_G1_generator.2.2.2.choose_spec.1 mnt4_g_rep mnt4_pair mnt4_value

/-- The generators are admissible arguments. -/
theorem mnt4_one_arg : mnt4_arg₁ mnt4_G1_one ∧ mnt4_sub₁ mnt4_G1_one ∧ mnt4_arg₂ mnt4_G2_one :=
  have h : NonzeroMultiple (Proj.ops mnt4_G1_mul_by_a) Proj.eq Proj.isZero mnt4_G1_one mnt4_G1_one :=
    Proj.nonzeroMultiple_one (a := mnt4_a) (b := mnt4_b) (fun _ => rfl) C52_mnt4_G1_generator.1 C52_mnt4_G1_generator.2.2.2.choose_spec.1
      (ne_zero_of_order mnt4_Fr_prime C52_mnt4_G1_generator.2.2.2.choose_spec.2)
  ⟨⟨C52_mnt4_G1_generator.2.2.1, h.1⟩, ⟨C52_mnt4_G1_generator.2.2.1, h⟩, C52_mnt4_G2_generator.2.2.1,
    Proj.nonzeroMultiple_one mnt4_mulA C52_mnt4_G2_generator.1 mnt4_g_rep (ne_zero_of_order mnt4_Fr_prime mnt4_g_order)⟩

example : ∃ v, mnt4_reduced_pairing mnt4_G1_one mnt4_G2_one = .ok v ∧ v ≠ 1 :=
  C51_mnt4_nondegenerate _ _ mnt4_one_arg.2.1 mnt4_one_arg.2.2

/-- C51, finding: the pairing of `G1::zero()` and `G2::one()` succeeds, with a value other than 1. -/
theorem C51_mnt4_zero_left : ∃ v, mnt4_reduced_pairing ⟨0, 1, 0⟩ mnt4_G2_one = .ok v ∧ v ≠ 1 := mnt4_value_zero₁

/-- C51, finding: the pairing of `G1::one()` and `G2::zero()` succeeds, with a value other than 1. -/
theorem C51_mnt4_zero_right : ∃ v, mnt4_reduced_pairing mnt4_G1_one ⟨0, 1, 0⟩ = .ok v ∧ v ≠ 1 := mnt4_value_zero₂

/-! ## mnt6 -/

/-- The first arguments of the non-degeneracy statement: the objects that satisfy the curve's equation and are non-zero multiples of
`G1::one()`. -/
def mnt6_sub₁ (p : Coord3 mnt6_Fq) : Prop :=
  Proj.isWellFormed mnt6_a mnt6_b p = true ∧ NonzeroMultiple (Proj.ops mnt6_G1_mul_by_a) Proj.eq Proj.isZero mnt6_G1_one p

/-- **C51.** `mnt6_reduced_pairing` does not map any pair of non-zero elements of the groups of order `r` to 1. -/
theorem C51_mnt6_nondegenerate : NondegeneratePairing mnt6_sub₁ mnt6_arg₂ mnt6_reduced_pairing :=
  Proj.nondegenerate (fun _ => rfl) mnt6_mulA mnt6_bilin mnt6_Fr_prime C52_mnt6_G1_generator.2.2.2.choose_spec.2 mnt6_g_order
    C52_mnt6_G1_generator.1 (sw_Δ_ne_of_disc C52_mnt6_G1_generator.1 C52_mnt6_G1_generator.2.1) C52_mnt6_G2_generator.1 mnt6_Δ
    C52_mnt6_G1_generator.2.2.2.choose_spec.1 mnt6_g_rep mnt6_pair mnt6_value

/-- The generators are admissible arguments. -/
theorem mnt6_one_arg : mnt6_arg₁ mnt6_G1_one ∧ mnt6_sub₁ mnt6_G1_one ∧ mnt6_arg₂ mnt6_G2_one :=
  have h : NonzeroMultiple (Proj.ops mnt6_G1_mul_by_a) Proj.eq Proj.isZero mnt6_G1_one mnt6_G1_one :=
    Proj.nonzeroMultiple_one (a := mnt6_a) (b := mnt6_b) (fun _ => rfl) C52_mnt6_G1_generator.1 C52_mnt6_G1_generator.2.2.2.choose_spec.1
      (ne_zero_of_order mnt6_Fr_prime C52_mnt6_G1_generator.2.2.2.choose_spec.2)
  ⟨⟨C52_mnt6_G1_generator.2.2.1, h.1⟩, ⟨C52_mnt6_G1_generator.2.2.1, h⟩, C52_mnt6_G2_generator.2.2.1,
    Proj.nonzeroMultiple_one mnt6_mulA C52_mnt6_G2_generator.1 mnt6_g_rep (ne_zero_of_order mnt6_Fr_prime mnt6_g_order)⟩

example : ∃ v, mnt6_reduced_pairing mnt6_G1_one mnt6_G2_one = .ok v ∧ v ≠ 1 :=
  C51_mnt6_nondegenerate _ _ mnt6_one_arg.2.1 mnt6_one_arg.2.2

/-- C51, finding: the pairing of `G1::zero()` and `G2::one()` succeeds, with a value other than 1. -/
theorem C51_mnt6_zero_left : ∃ v, mnt6_reduced_pairing ⟨0, 1, 0⟩ mnt6_G2_one = .ok v ∧ v ≠ 1 := mnt6_value_zero₁

/-- C48: Miller loops succeed on what is precomputed from the generators, so the double Miller loop does. -/
example : ∃ P Q f, alt_bn128_double_miller_loop P Q P Q = .ok f := by
  obtain ⟨v, h, -⟩ := C51_alt_bn128_nondegenerate _ _ alt_bn128_one_arg.2.1 alt_bn128_one_arg.2.2
  unfold alt_bn128_reduced_pairing Ate12.bnReducedPairing Ate12.bnPairing at h
  obtain ⟨x, h, -⟩ := Outcome.bind_eq_ok.1 h
  obtain ⟨P, -, h⟩ := Outcome.bind_eq_ok.1 h
  obtain ⟨Q, -, h⟩ := Outcome.bind_eq_ok.1 h
  exact ⟨P, Q, _, (C48_alt_bn128 P Q P Q _).2 ⟨x, x, h, h, rfl⟩⟩

end Libff
