import Verif.Lemmas.AteEdwards
import Verif.Lemmas.PairingValueEdw
import Verif.Props.Nondegenerate
import Verif.Props.MillerStepsEdw

/-!
# C51: bilinearity and non-degeneracy of the reduced pairing of edwards
-/
namespace Libff
set_option synthInstance.maxSize 2000
open WeierstrassCurve Affine

/-- What `NonzeroMultiple` means for the points that the objects denote. -/
theorem Edw.nonzeroMultiple {K : Type} [Field K] [DecidableEq K] {ops : GroupOps (Coord3 K)} {a d : K} (h2 : (2 : K) ≠ 0) (hc : a - d ≠ 0)
    {H : AddSubgroup (edwW a d).Point} (hI : ImplementsRel (EdwRepIn H)) {one q : Coord3 K} {g Q : (edwW a d).Point} (hg : EdwRepIn H one g)
    (hQ : EdwRepIn H q Q) (h : NonzeroMultiple ops Edw.eq Edw.isZero one q) : Q ≠ 0 ∧ ∃ n : ℕ, Q = n • g := by
  obtain ⟨h0, k, hk⟩ := h
  refine ⟨fun h => ?_, val k, ?_⟩
  · rw [(Edw.isZero_rep hQ.2).2 h] at h0
    exact absurd h0 (by simp)
  · exact (Edw.eq_rep h2 hc hQ.2 (scalarMul_rel hI hg k).2).1 hk

/-- `one` is a non-zero multiple of itself. -/
theorem Edw.nonzeroMultiple_one {K : Type} [Field K] [DecidableEq K] {ops : GroupOps (Coord3 K)} {a d : K} (h2 : (2 : K) ≠ 0) (hc : a - d ≠ 0)
    {H : AddSubgroup (edwW a d).Point} (hI : ImplementsRel (EdwRepIn H)) {one : Coord3 K} {g : (edwW a d).Point} (hg : EdwRepIn H one g)
    (h0 : g ≠ 0) : NonzeroMultiple ops Edw.eq Edw.isZero one one := by
  refine ⟨?_, [1], ?_⟩
  · rw [Bool.eq_false_iff]
    exact fun h => h0 ((Edw.isZero_rep hg.2).1 h)
  · refine (Edw.eq_rep h2 hc hg.2 (scalarMul_rel hI hg [1]).2).2 ?_
    rw [show val [1] = 1 by decide, one_smul]

/-- The operations of `edwards_G1`. -/
abbrev edwards_ops₁ : GroupOps (Coord3 edwards_Fq) := Edw.ops1 edwards_G1_mul_by_d
/-- The operations of `edwards_G2`. -/
abbrev edwards_ops₂ : GroupOps (Coord3 edwards_Fq3) := Edw.ops edwards_G2_mul_by_a edwards_G2_mul_by_d

theorem edwards_impl₁ : @ImplementsRel _ _ edwards_ops₁ _ (EdwRepIn edwards_H₁) :=
  Edw.implementsRel1 (fun _ => rfl) C52_edwards_G1_generator.1 C52_edwards_G1_generator.2.1 edwards_H₁_two

theorem edwards_impl₂ : @ImplementsRel _ _ edwards_ops₂ _ (EdwRepIn edwards_H₂) :=
  Edw.implementsRel edwards_mulA (fun x => (C37_mul_by _ edwards_d x).2.1) C52_edwards_G2_generator.1 C52_edwards_G2_generator.2.1 edwards_H₂_two

/-- The admissible first arguments of edwards' pairing: the objects that denote a point of the curve killed by `r`, including zero. -/
def edwards_arg₁ (p : Coord3 edwards_Fq) : Prop := ∃ P, EdwRepIn edwards_H₁ p P

/-- The admissible second arguments: the objects that denote a point of the twist killed by `r` and are non-zero multiples of
`G2::one()`. -/
def edwards_arg₂ (q : Coord3 edwards_Fq3) : Prop :=
  (∃ Q, EdwRepIn edwards_H₂ q Q) ∧ NonzeroMultiple edwards_ops₂ Edw.eq Edw.isZero edwards_G2_one q

/-- **C51.** `edwards_reduced_pairing` is bilinear. -/
theorem C51_edwards : BilinearPairing edwards_ops₁ edwards_ops₂ Edw.eq Edw.eq edwards_arg₁ edwards_arg₂ edwards_Fr_params.p
    edwards_reduced_pairing :=
  edwards_bilin.pairing (C₁ := fun _ => True) edwards_g_order edwards_impl₁ edwards_impl₂
    (fun h h' => Edw.eq_rep C52_edwards_G1_generator.1 C52_edwards_G1_generator.2.1 h.2 h'.2)
    (fun h h' => Edw.eq_rep C52_edwards_G2_generator.1 C52_edwards_G2_generator.2.1 h.2 h'.2)
    (fun ⟨P, hP⟩ => ⟨P, hP, trivial⟩)
    (fun ⟨⟨Q, hQ⟩, h⟩ => by
      obtain ⟨h0, n, e⟩ := Edw.nonzeroMultiple C52_edwards_G2_generator.1 C52_edwards_G2_generator.2.1 edwards_impl₂
        ⟨edwards_g_mem, edwards_g_rep⟩ hQ h
      exact ⟨Q, hQ, by rw [e]; exact nsmul_mem (AddSubgroup.mem_zmultiples _) n, h0⟩)
    (fun hp _ hq hQ h0 => edwards_pair hp.2 hq.2 hQ h0)

/-- The first arguments of the non-degeneracy statement: the objects that denote a point of the curve killed by `r` and are non-zero
multiples of `G1::one()`. -/
def edwards_sub₁ (p : Coord3 edwards_Fq) : Prop :=
  (∃ P, EdwRepIn edwards_H₁ p P) ∧ NonzeroMultiple edwards_ops₁ Edw.eq Edw.isZero edwards_G1_one p

theorem edwards_g₁ : ∃ g, EdwRepIn edwards_H₁ edwards_G1_one g ∧ addOrderOf g = edwards_Fr_params.p := by
  obtain ⟨P, h, ho⟩ := C52_edwards_G1_generator.2.2.2
  refine ⟨P, ⟨?_, h⟩, ho⟩
  change edwards_Fr_params.p • P = 0
  rw [← ho, addOrderOf_nsmul_eq_zero]

/-- **C51.** `edwards_reduced_pairing` does not map any pair of non-zero elements of the groups of order `r` to 1. -/
theorem C51_edwards_nondegenerate : NondegeneratePairing edwards_sub₁ edwards_arg₂ edwards_reduced_pairing := by
  obtain ⟨g₁, hg₁, ho₁⟩ := edwards_g₁
  refine edwards_bilin.nondegenerate (C₁ := fun _ => True) (Rep₁ := EdwRepIn edwards_H₁) (Rep₂ := EdwRepIn edwards_H₂) edwards_Fr_prime
    edwards_g_order ho₁ ?_ ?_ (fun hp _ hq hQ h0 => edwards_pair hp.2 hq.2 hQ h0) ?_
  · rintro p ⟨⟨P, hP⟩, h⟩
    exact ⟨P, hP, trivial, Edw.nonzeroMultiple C52_edwards_G1_generator.1 C52_edwards_G1_generator.2.1 edwards_impl₁ hg₁ hP h⟩
  · rintro q ⟨⟨Q, hQ⟩, h⟩
    exact ⟨Q, hQ, Edw.nonzeroMultiple C52_edwards_G2_generator.1 C52_edwards_G2_generator.2.1 edwards_impl₂
      ⟨edwards_g_mem, edwards_g_rep⟩ hQ h⟩
  · obtain ⟨w, hw, hw1⟩ := edwards_value
    rw [edwards_pair hg₁.2 edwards_g_rep (AddSubgroup.mem_zmultiples _) (ne_zero_of_order edwards_Fr_prime edwards_g_order)] at hw
    intro h1
    rw [h1] at hw
    exact hw1 (Outcome.ok.inj hw).symm

/-- The generators are admissible arguments. -/
theorem edwards_one_arg : edwards_arg₁ edwards_G1_one ∧ edwards_sub₁ edwards_G1_one ∧ edwards_arg₂ edwards_G2_one := by
  obtain ⟨g₁, hg₁, ho₁⟩ := edwards_g₁
  exact ⟨⟨g₁, hg₁⟩, ⟨⟨g₁, hg₁⟩, Edw.nonzeroMultiple_one C52_edwards_G1_generator.1 C52_edwards_G1_generator.2.1 edwards_impl₁ hg₁
    (ne_zero_of_order edwards_Fr_prime ho₁)⟩, ⟨edwards_g, edwards_g_mem, edwards_g_rep⟩,
    Edw.nonzeroMultiple_one C52_edwards_G2_generator.1 C52_edwards_G2_generator.2.1 edwards_impl₂ ⟨edwards_g_mem, edwards_g_rep⟩
      (ne_zero_of_order edwards_Fr_prime edwards_g_order)⟩

example : ∃ v, edwards_reduced_pairing edwards_G1_one edwards_G2_one = .ok v ∧ v ≠ 1 :=
  C51_edwards_nondegenerate _ _ edwards_one_arg.2.1 edwards_one_arg.2.2

/-- **C51.** The pairing of `G1::zero()` with a non-zero multiple of `G2::one()` is 1. -/
theorem C51_edwards_zero_left (q : Coord3 edwards_Fq3) (hq : edwards_arg₂ q) : edwards_reduced_pairing Edw.zero q = .ok 1 := by
  obtain ⟨⟨Q, hQ⟩, h⟩ := hq
  obtain ⟨h0, n, e⟩ := Edw.nonzeroMultiple C52_edwards_G2_generator.1 C52_edwards_G2_generator.2.1 edwards_impl₂
    ⟨edwards_g_mem, edwards_g_rep⟩ hQ h
  have hm : Q ∈ AddSubgroup.zmultiples edwards_g := by rw [e]; exact nsmul_mem (AddSubgroup.mem_zmultiples _) n
  rw [edwards_pair (p := Edw.zero) (P := 0) (@ImplementsRel.zero _ _ edwards_ops₁ _ _ edwards_impl₁).2 hQ.2 hm h0, edwards_bilin.zero_left hm]

/-- C51, finding: the pairing with `G2::zero()` is not 1; the Miller value is 0 and the final exponentiation aborts. -/
theorem C51_edwards_zero_aborts : edwards_reduced_pairing edwards_G1_one Edw.zero = .abort := edwards_value_zero

end Libff
