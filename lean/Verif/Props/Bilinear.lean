import Verif.Lemmas.AteAltBn128
import Verif.Lemmas.AteBls12381
import Verif.Lemmas.AteMnt4
import Verif.Lemmas.AteMnt6

/-!
# C51: bilinearity of the reduced pairings
-/
namespace Libff
set_option synthInstance.maxSize 2000
open WeierstrassCurve Affine

/-- What `NonzeroMultiple` means for the points that the objects denote. -/
theorem Jac.nonzeroMultiple {K : Type} [Field K] [DecidableEq K] [Squared K] [LawfulSquared K] {b : K} (h2 : (2 : K) ≠ 0)
    (hΔ : (sw 0 b).Δ ≠ 0) {one q : Coord3 K} {g : (sw 0 b).Point} (hg : JacRep one g) (hw : Jac.isWellFormed b q = true)
    (h : NonzeroMultiple Jac.ops Jac.eq Jac.isZero one q) : ∃ Q, JacRep q Q ∧ Q ≠ 0 ∧ ∃ n : ℕ, Q = n • g := by
  letI : GroupOps (Coord3 K) := Jac.ops
  obtain ⟨Q, hQ⟩ := (Jac.isWellFormed_iff hΔ q).1 hw
  obtain ⟨h0, k, hk⟩ := h
  refine ⟨Q, hQ, fun h => ?_, val k, ?_⟩
  · rw [(Jac.isZero_rep hQ).2 h] at h0
    exact absurd h0 (by simp)
  · exact (Jac.eq_rep hQ (scalarMul_rel (Jac.implementsRel (b := b) h2) hg k)).1 hk

/-- The pairing theorem for two groups in Jacobian coordinates. -/
theorem Jac.pairing {K T L : Type} [Field K] [DecidableEq K] [Squared K] [LawfulSquared K] [Field T] [DecidableEq T] [Squared T]
    [LawfulSquared T] [Field L] {b : K} {b' : T} {one : Coord3 T} {g : (sw 0 b').Point} {r : ℕ}
    {e : (sw 0 b).Point → (sw 0 b').Point → L} {pair : Coord3 K → Coord3 T → Outcome L} (h : BilinMap (AddSubgroup.zmultiples g) e)
    (hg : addOrderOf g = r) (h2 : (2 : K) ≠ 0) (h3 : (3 : K) ≠ 0) (hb : b ≠ 0) (h2' : (2 : T) ≠ 0) (h3' : (3 : T) ≠ 0) (hb' : b' ≠ 0)
    (hone : JacRep one g)
    (hp : ∀ {p P q Q}, JacRep p P → JacRep q Q → Q ∈ AddSubgroup.zmultiples g → Q ≠ 0 → pair p q = .ok (e P Q)) :
    BilinearPairing Jac.ops Jac.ops Jac.eq Jac.eq (fun p => Jac.isWellFormed b p = true)
      (fun q => Jac.isWellFormed b' q = true ∧ NonzeroMultiple Jac.ops Jac.eq Jac.isZero one q) r pair :=
  h.pairing (C₁ := fun _ => True) hg (Jac.implementsRel h2) (Jac.implementsRel h2') Jac.eq_rep Jac.eq_rep
    (fun h => by
      obtain ⟨P, hP⟩ := (Jac.isWellFormed_iff (sw_Δ_ne h2 h3 hb) _).1 h
      exact ⟨P, hP, trivial⟩)
    (fun h => by
      obtain ⟨Q, hQ, h0, n, e⟩ := Jac.nonzeroMultiple h2' (sw_Δ_ne h2' h3' hb') hone h.1 h.2
      exact ⟨Q, hQ, by rw [e]; exact nsmul_mem (AddSubgroup.mem_zmultiples _) n, h0⟩)
    (fun hp' _ hq hQ h0 => hp hp' hq hQ h0)

/-- The admissible first arguments of alt_bn128's pairing: all objects that satisfy the curve's equation, including zero. -/
def alt_bn128_arg₁ (p : Coord3 alt_bn128_Fq) : Prop := Jac.isWellFormed alt_bn128_b p = true

/-- The admissible second arguments: the objects that satisfy the twist's equation and are non-zero multiples of `G2::one()`. -/
def alt_bn128_arg₂ (q : Coord3 alt_bn128_Fq2) : Prop :=
  Jac.isWellFormed alt_bn128_twist_b q = true ∧ NonzeroMultiple Jac.ops Jac.eq Jac.isZero alt_bn128_G2_one q

/-- **C51.** `alt_bn128_reduced_pairing` is bilinear. -/
theorem C51_alt_bn128 : BilinearPairing Jac.ops Jac.ops Jac.eq Jac.eq alt_bn128_arg₁ alt_bn128_arg₂ alt_bn128_Fr_params.p
    alt_bn128_reduced_pairing :=
  Jac.pairing alt_bn128_bilin alt_bn128_g_order
    (by have h := C52_alt_bn128_G1_generator.1; with_reducible_and_instances exact h)
    (by have h := C52_alt_bn128_G1_generator.2.1; with_reducible_and_instances exact h)
    (by have h := C52_alt_bn128_G1_generator.2.2.1; with_reducible_and_instances exact h)
    (by have h := C52_alt_bn128_G2_generator.1; with_reducible_and_instances exact h)
    (by have h := C52_alt_bn128_G2_generator.2.1; with_reducible_and_instances exact h)
    (by have h := C52_alt_bn128_G2_generator.2.2.1; with_reducible_and_instances exact h) alt_bn128_g_rep alt_bn128_pair

/-- The admissible first arguments of bls12_381's pairing: all objects that satisfy the curve's equation, including zero. -/
def bls12_381_arg₁ (p : Coord3 bls12_381_Fq) : Prop := Jac.isWellFormed bls12_381_b p = true

/-- The admissible second arguments: the objects that satisfy the twist's equation and are non-zero multiples of `G2::one()`. -/
def bls12_381_arg₂ (q : Coord3 bls12_381_Fq2) : Prop :=
  Jac.isWellFormed bls12_381_twist_b q = true ∧ NonzeroMultiple Jac.ops Jac.eq Jac.isZero bls12_381_G2_one q

/-- **C51.** `bls12_381_reduced_pairing` is bilinear. -/
theorem C51_bls12_381 : BilinearPairing Jac.ops Jac.ops Jac.eq Jac.eq bls12_381_arg₁ bls12_381_arg₂ bls12_381_Fr_params.p
    bls12_381_reduced_pairing :=
  Jac.pairing bls12_381_bilin bls12_381_g_order
    (by have h := C52_bls12_381_G1_generator.1; with_reducible_and_instances exact h)
    (by have h := C52_bls12_381_G1_generator.2.1; with_reducible_and_instances exact h)
    (by have h := C52_bls12_381_G1_generator.2.2.1; with_reducible_and_instances exact h)
    (by have h := C52_bls12_381_G2_generator.1; with_reducible_and_instances exact h)
    (by have h := C52_bls12_381_G2_generator.2.1; with_reducible_and_instances exact h)
    (by have h := C52_bls12_381_G2_generator.2.2.1; with_reducible_and_instances exact h) bls12_381_g_rep bls12_381_pair

/-- What `NonzeroMultiple` means for the points that the objects denote. -/
theorem Proj.nonzeroMultiple {K : Type} [Field K] [DecidableEq K] [Squared K] [LawfulSquared K] {a b : K} {mulA : K → K}
    (hA : ∀ x, mulA x = a * x) (h2 : (2 : K) ≠ 0) (hΔ : (sw a b).Δ ≠ 0) {one q : Coord3 K} {g : (sw a b).Point} (hg : ProjRep one g)
    (hw : Proj.isWellFormed a b q = true) (h : NonzeroMultiple (Proj.ops mulA) Proj.eq Proj.isZero one q) :
    ∃ Q, ProjRep q Q ∧ Q ≠ 0 ∧ ∃ n : ℕ, Q = n • g := by
  letI : GroupOps (Coord3 K) := Proj.ops mulA
  obtain ⟨Q, hQ⟩ := (Proj.isWellFormed_iff hΔ q).1 hw
  obtain ⟨h0, k, hk⟩ := h
  refine ⟨Q, hQ, fun h => ?_, val k, ?_⟩
  · rw [(Proj.isZero_rep hQ).2 h] at h0
    exact absurd h0 (by simp)
  · exact (Proj.eq_rep hQ (scalarMul_rel (Proj.implementsRel (b := b) hA h2) hg k)).1 hk

/-- The pairing theorem for two groups in projective coordinates. -/
theorem Proj.pairing {K T L : Type} [Field K] [DecidableEq K] [Squared K] [LawfulSquared K] [Field T] [DecidableEq T] [Squared T]
    [LawfulSquared T] [Field L] {a b : K} {a' b' : T} {mulA : K → K} {mulA' : T → T} (hA : ∀ x, mulA x = a * x) (hA' : ∀ x, mulA' x = a' * x)
    {one : Coord3 T} {g : (sw a' b').Point} {r : ℕ}
    {e : (sw a b).Point → (sw a' b').Point → L} {pair : Coord3 K → Coord3 T → Outcome L} (h : BilinMap (AddSubgroup.zmultiples g) e)
    (hg : addOrderOf g = r) (h2 : (2 : K) ≠ 0) (hΔ : (sw a b).Δ ≠ 0) (h2' : (2 : T) ≠ 0) (hΔ' : (sw a' b').Δ ≠ 0)
    (hone : ProjRep one g)
    (hp : ∀ {p P q Q}, ProjRep p P → P ≠ 0 → ProjRep q Q → Q ∈ AddSubgroup.zmultiples g → Q ≠ 0 → pair p q = .ok (e P Q)) :
    BilinearPairing (Proj.ops mulA) (Proj.ops mulA') Proj.eq Proj.eq (fun p => Proj.isWellFormed a b p = true ∧ Proj.isZero p = false)
      (fun q => Proj.isWellFormed a' b' q = true ∧ NonzeroMultiple (Proj.ops mulA') Proj.eq Proj.isZero one q) r pair :=
  h.pairing (C₁ := fun P => P ≠ 0) hg (Proj.implementsRel hA h2) (Proj.implementsRel hA' h2') Proj.eq_rep Proj.eq_rep
    (fun h => by
      obtain ⟨P, hP⟩ := (Proj.isWellFormed_iff hΔ _).1 h.1
      refine ⟨P, hP, fun h0 => ?_⟩
      rw [(Proj.isZero_rep hP).2 h0] at h
      exact absurd h.2 (by simp))
    (fun h => by
      obtain ⟨Q, hQ, h0, n, e⟩ := Proj.nonzeroMultiple hA' h2' hΔ' hone h.1 h.2
      exact ⟨Q, hQ, by rw [e]; exact nsmul_mem (AddSubgroup.mem_zmultiples _) n, h0⟩)
    (fun hp' hP hq hQ h0 => hp hp' hP hq hQ h0)

/-- The admissible first arguments of mnt4's pairing: the objects that satisfy the curve's equation and are not zero. -/
def mnt4_arg₁ (p : Coord3 mnt4_Fq) : Prop := Proj.isWellFormed mnt4_a mnt4_b p = true ∧ Proj.isZero p = false

/-- The admissible second arguments: the objects that satisfy the twist's equation and are non-zero multiples of `G2::one()`. -/
def mnt4_arg₂ (q : Coord3 mnt4_Fq2) : Prop :=
  Proj.isWellFormed mnt4_twist_a mnt4_twist_b q = true ∧
    NonzeroMultiple (Proj.ops mnt4_G2_mul_by_a) Proj.eq Proj.isZero mnt4_G2_one q

/-- **C51.** `mnt4_reduced_pairing` is bilinear. -/
theorem C51_mnt4 : BilinearPairing (Proj.ops mnt4_G1_mul_by_a) (Proj.ops mnt4_G2_mul_by_a) Proj.eq Proj.eq mnt4_arg₁ mnt4_arg₂
    mnt4_Fr_params.p mnt4_reduced_pairing :=
  Proj.pairing (fun _ => rfl) mnt4_mulA mnt4_bilin mnt4_g_order C52_mnt4_G1_generator.1
    (sw_Δ_ne_of_disc C52_mnt4_G1_generator.1 C52_mnt4_G1_generator.2.1) C52_mnt4_G2_generator.1 mnt4_Δ mnt4_g_rep mnt4_pair

/-- The admissible first arguments of mnt6's pairing: the objects that satisfy the curve's equation and are not zero. -/
def mnt6_arg₁ (p : Coord3 mnt6_Fq) : Prop := Proj.isWellFormed mnt6_a mnt6_b p = true ∧ Proj.isZero p = false

/-- The admissible second arguments: the objects that satisfy the twist's equation and are non-zero multiples of `G2::one()`. -/
def mnt6_arg₂ (q : Coord3 mnt6_Fq3) : Prop :=
  Proj.isWellFormed mnt6_twist_a mnt6_twist_b q = true ∧
    NonzeroMultiple (Proj.ops mnt6_G2_mul_by_a) Proj.eq Proj.isZero mnt6_G2_one q

/-- **C51.** `mnt6_reduced_pairing` is bilinear. -/
theorem C51_mnt6 : BilinearPairing (Proj.ops mnt6_G1_mul_by_a) (Proj.ops mnt6_G2_mul_by_a) Proj.eq Proj.eq mnt6_arg₁ mnt6_arg₂
    mnt6_Fr_params.p mnt6_reduced_pairing :=
  Proj.pairing (fun _ => rfl) mnt6_mulA mnt6_bilin mnt6_g_order C52_mnt6_G1_generator.1
    (sw_Δ_ne_of_disc C52_mnt6_G1_generator.1 C52_mnt6_G1_generator.2.1) C52_mnt6_G2_generator.1 mnt6_Δ mnt6_g_rep mnt6_pair

end Libff
