import Verif.Lemmas.EdwZeroLoop
import Verif.Lemmas.TateValueEdw
import Verif.Props.BilinearEdw

/-!
# C60: the Tate pairing of edwards

`edwards_tate_reduced_pairing` is bilinear and non-degenerate on the non-zero elements of the two groups of order `r`; with a zero
argument it aborts. `edwards_reduced_pairing` with `G2::zero()` aborts for every first argument.
-/
namespace Libff
set_option synthInstance.maxSize 2000
open WeierstrassCurve Affine AteMnt

theorem edwards_tate_params : AteEdw.TateParams edwards_ate Cubic.ofBase edwards_u edwards_d edwards_twist_a edwards_twist_d
    edwards_Fr_params.p where
  embed _ := rfl
  scale := Cubic.scale_eq_ofBase
  hc := C52_edwards_G1_generator.2.1
  hcc := edwards_delta
  mod := by decide +kernel
  odd := by decide +kernel

/-- The value of the Tate pairing. -/
noncomputable def edwards_t (P : edwards_H₁) (Q : (edwW edwards_twist_a edwards_twist_d).Point) : edwards_Fq6 :=
  WAteSetup.tateVal edwards_ateSetup P Q

theorem edwards_t_bilin : BilinMap (AddSubgroup.zmultiples edwards_g) edwards_t := WAteSetup.tateVal_bilin edwards_ateSetup

theorem edwards_t_pair {p : Coord3 edwards_Fq} {q : Coord3 edwards_Fq3} {P : edwards_H₁}
    {Q : (edwW edwards_twist_a edwards_twist_d).Point} (hp : EdwRep p (P : (edwW 1 edwards_d).Point)) (hP : P ≠ 0) (hq : EdwRep q Q)
    (hQ : Q ∈ AddSubgroup.zmultiples edwards_g) (hQ0 : Q ≠ 0) : edwards_tate_reduced_pairing p q = .ok (edwards_t P Q) := by
  have h := AteEdw.tate_value (A := edwards_ate) edwards_ateSetup edwards_tate_params edwards_roots (by decide +kernel) hp hP hq hQ hQ0
  exact WAteSetup.reduce C49_edwards.pow (by decide +kernel) h (edwards_t_bilin.ne_zero _ _ hQ)

/-- The admissible first arguments of the Tate pairing: the objects that denote a non-zero point of the curve killed by `r`. -/
def edwards_tate_arg₁ (p : Coord3 edwards_Fq) : Prop := ∃ P, EdwRepIn edwards_H₁ p P ∧ P ≠ 0

/-- Objects and the points they denote, in the subgroup. -/
def edwards_sr (p : Coord3 edwards_Fq) (P : edwards_H₁) : Prop := EdwRep p (P : (edwW 1 edwards_d).Point)

theorem edwards_sr_impl : @ImplementsRel _ _ edwards_ops₁ _ edwards_sr := by
  letI := edwards_ops₁
  have I := edwards_impl₁
  have up : ∀ {p} {P : edwards_H₁}, edwards_sr p P → EdwRepIn edwards_H₁ p (P : (edwW 1 edwards_d).Point) := fun {p P} h => ⟨P.2, h⟩
  exact {
    zero := I.zero.2
    add := fun h h' => (I.add (up h) (up h')).2
    dbl := fun h => (I.dbl (up h)).2
    sub := fun h h' => (I.sub (up h) (up h')).2
    unique := fun h h' => Subtype.ext (I.unique (up h) (up h')) }

/-- **C60.** `edwards_tate_reduced_pairing` is bilinear. -/
theorem C60_edwards_tate : BilinearPairing edwards_ops₁ edwards_ops₂ Edw.eq Edw.eq edwards_tate_arg₁ edwards_arg₂ edwards_Fr_params.p
    edwards_tate_reduced_pairing :=
  edwards_t_bilin.pairing (C₁ := fun P => P ≠ 0) edwards_g_order edwards_sr_impl edwards_impl₂
    (fun h h' => (Edw.eq_rep C52_edwards_G1_generator.1 C52_edwards_G1_generator.2.1 h h').trans Subtype.coe_inj)
    (fun h h' => Edw.eq_rep C52_edwards_G2_generator.1 C52_edwards_G2_generator.2.1 h.2 h'.2)
    (fun ⟨P, h, h0⟩ => ⟨⟨P, h.1⟩, h.2, fun e => h0 (congrArg Subtype.val e)⟩)
    (fun ⟨⟨Q, hQ⟩, h⟩ => by
      obtain ⟨h0, n, e⟩ := Edw.nonzeroMultiple C52_edwards_G2_generator.1 C52_edwards_G2_generator.2.1 edwards_impl₂
        ⟨edwards_g_mem, edwards_g_rep⟩ hQ h
      exact ⟨Q, hQ, by rw [e]; exact nsmul_mem (AddSubgroup.mem_zmultiples _) n, h0⟩)
    (fun hp h1 hq hQ h0 => edwards_t_pair hp h1 hq.2 hQ h0)

/-- **C60.** `edwards_tate_reduced_pairing` does not map any pair of non-zero elements of the groups of order `r` to 1. -/
theorem C60_edwards_tate_nondegenerate : NondegeneratePairing edwards_sub₁ edwards_arg₂ edwards_tate_reduced_pairing := by
  obtain ⟨g₁, hg₁, ho₁⟩ := edwards_g₁
  have ho₁' : addOrderOf (⟨g₁, hg₁.1⟩ : edwards_H₁) = edwards_Fr_params.p := by
    rw [← AddSubgroup.addOrderOf_coe]; exact ho₁
  refine edwards_t_bilin.nondegenerate (C₁ := fun P => P ≠ 0) (Rep₁ := edwards_sr) (Rep₂ := EdwRepIn edwards_H₂) edwards_Fr_prime
    edwards_g_order ho₁' ?_ ?_ (fun hp h1 hq hQ h0 => edwards_t_pair hp h1 hq.2 hQ h0) ?_
  · rintro p ⟨⟨P, hP⟩, h⟩
    obtain ⟨h0, n, e⟩ := Edw.nonzeroMultiple C52_edwards_G1_generator.1 C52_edwards_G1_generator.2.1 edwards_impl₁ hg₁ hP h
    have h0' : (⟨P, hP.1⟩ : edwards_H₁) ≠ 0 := fun e => h0 (congrArg Subtype.val e)
    exact ⟨⟨P, hP.1⟩, hP.2, h0', h0', n, Subtype.ext e⟩
  · rintro q ⟨⟨Q, hQ⟩, h⟩
    exact ⟨Q, hQ, Edw.nonzeroMultiple C52_edwards_G2_generator.1 C52_edwards_G2_generator.2.1 edwards_impl₂
      ⟨edwards_g_mem, edwards_g_rep⟩ hQ h⟩
  · obtain ⟨w, hw, hw1⟩ := edwards_tate_one
    rw [edwards_t_pair (P := ⟨g₁, hg₁.1⟩) hg₁.2 (fun e => ne_zero_of_order edwards_Fr_prime ho₁ (congrArg Subtype.val e)) edwards_g_rep
      (AddSubgroup.mem_zmultiples _) (ne_zero_of_order edwards_Fr_prime edwards_g_order)] at hw
    intro h1
    rw [h1] at hw
    exact hw1 (Outcome.ok.inj hw).symm

/-- C60, finding: with `G1::zero()` on the left the pairing is not 1; the Miller value is 0 and the final exponentiation aborts. -/
theorem C60_edwards_tate_zero_left (q : Coord3 edwards_Fq3) (hq : edwards_arg₂ q) : edwards_tate_reduced_pairing Edw.zero q = .abort := by
  obtain ⟨⟨Q, hQ⟩, h⟩ := hq
  obtain ⟨h0, -⟩ := Edw.nonzeroMultiple C52_edwards_G2_generator.1 C52_edwards_G2_generator.2.1 edwards_impl₂
    ⟨edwards_g_mem, edwards_g_rep⟩ hQ h
  have e := AteEdw.tate_zero_left edwards_tate_params (by decide +kernel) (by decide +kernel)
    (p := Edw.zero) (@ImplementsRel.zero _ _ edwards_ops₁ _ _ edwards_impl₁).2 hQ.2 h0 edwards_u_ne
  unfold edwards_tate_reduced_pairing AteEdw.tateReducedPairing
  rw [e, Outcome.bind, C49_edwards.zero]

/-- C60, finding: with `G2::zero()` on the right it aborts too, for every point of the first curve: the precomputation inverts 0. -/
theorem C60_edwards_tate_zero_right (p : Coord3 edwards_Fq) (P : (edwW 1 edwards_d).Point) (hp : EdwRep p P) :
    edwards_tate_reduced_pairing p Edw.zero = .abort := by
  obtain ⟨cs, e⟩ := AteEdw.tatePrecomputeG1_ok (A := edwards_ate) hp
  have e' := AteEdw.tate_zero_right (nr := fp6nr edwards_β) (by rw [MulBy.mulBy (nr := fp6nr edwards_β), mul_zero])
    (q := Edw.zero) (@ImplementsRel.zero _ _ edwards_ops₂ _ _ edwards_impl₂).2
  unfold edwards_tate_reduced_pairing AteEdw.tateReducedPairing
  rw [e, Outcome.bind, e']
  rfl

/-- C51, finding, in general: `edwards_reduced_pairing` with `G2::zero()` aborts for every point of the first curve. -/
theorem C51_edwards_zero_aborts_all (p : Coord3 edwards_Fq) (P : (edwW 1 edwards_d).Point) (hp : EdwRep p P) :
    edwards_reduced_pairing p Edw.zero = .abort := by
  have e := AteEdw.ate_zero_right edwards_params (by decide +kernel) hp (q := Edw.zero) (@ImplementsRel.zero _ _ edwards_ops₂ _ _ edwards_impl₂).2
  unfold edwards_reduced_pairing AteEdw.reducedPairing
  rw [e, Outcome.bind, C49_edwards.zero]

example : ∃ v, edwards_tate_reduced_pairing edwards_G1_one edwards_G2_one = .ok v ∧ v ≠ 1 :=
  C60_edwards_tate_nondegenerate _ _ edwards_one_arg.2.1 edwards_one_arg.2.2

/-- The generator is an admissible first argument. -/
example : edwards_tate_arg₁ edwards_G1_one := by
  obtain ⟨g₁, hg₁, ho₁⟩ := edwards_g₁
  exact ⟨g₁, hg₁, ne_zero_of_order edwards_Fr_prime ho₁⟩

end Libff
