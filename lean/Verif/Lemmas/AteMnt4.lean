import Verif.Lemmas.AteMntSetup
import Verif.Lemmas.AteBls12381
import Verif.Props.MulByQ
import Verif.Props.FinalExp

/-!
# The ate pairing of mnt4: the conditions
-/
namespace Libff
set_option synthInstance.maxSize 2000
open WeierstrassCurve Affine AteMnt

/-- The generator of the twist's field. -/
abbrev mnt4_u : mnt4_Fq2 := Quad.gen

open mnt4_K in
theorem mnt4_u_rel : R2 (Quad.gen) mnt4_u := ⟨o1.zero, o1.one⟩

open mnt4_K in
theorem mnt4_qX_eq : Quad.ofBase mnt4_q_X * mnt4_u ^ (mnt4_Fq_params.p - 1) = 1 :=
  o2.mul_pow_eq_one (c := ⟨NM.of mnt4_twist_mul_by_q_X_nat, 0⟩) ⟨FpRel.cast (v := mnt4_twist_mul_by_q_X_nat) (by decide +kernel), o1.zero⟩ mnt4_u_rel 320 _ (by decide +kernel) (by decide +kernel)

open mnt4_K in
theorem mnt4_qY_eq : Quad.ofBase mnt4_q_Y * (mnt4_u ^ 3) ^ ((mnt4_Fq_params.p - 1) / 2) = 1 := by
  rw [← pow_mul]
  exact o2.mul_pow_eq_one (c := ⟨NM.of mnt4_twist_mul_by_q_Y_nat, 0⟩) ⟨FpRel.cast (v := mnt4_twist_mul_by_q_Y_nat) (by decide +kernel), o1.zero⟩ mnt4_u_rel 320 _ (by decide +kernel) (by decide +kernel)

/-- The generator as a point. -/
noncomputable def mnt4_g : (sw mnt4_twist_a mnt4_twist_b).Point := C52_mnt4_G2_generator.2.2.2.choose

theorem mnt4_g_rep : ProjRep mnt4_G2_one mnt4_g := C52_mnt4_G2_generator.2.2.2.choose_spec.1

theorem mnt4_g_order : addOrderOf mnt4_g = mnt4_Fr_params.p := C52_mnt4_G2_generator.2.2.2.choose_spec.2

theorem mnt4_mulByQ (X Y : mnt4_Fq2) :
    mnt4_G2_mul_by_q ⟨X, Y, 1⟩ = ⟨Quad.ofBase mnt4_q_X * X ^ mnt4_Fq_params.p, Quad.ofBase mnt4_q_Y * Y ^ mnt4_Fq_params.p, 1⟩ := by
  have hf' : ∀ x, mnt4_G2_frob x = x ^ mnt4_Fq_params.p := fun x => by
    have := C23_mnt4_Fq2 1 x
    rw [pow_one] at this
    exact this
  simp only [mnt4_G2_mul_by_q, Coord3.mulByQ, hf', one_pow, Quad.scale_eq_ofBase]

theorem mnt4_arith : ExpArith mnt4_Fq_params.p 2 mnt4_Fr_params.p mnt4_final_exponent where
  hp := mnt4_Fq_prime
  hp2 := by decide +kernel
  hr := mnt4_Fr_prime
  e1 := by decide +kernel
  e2 := by decide +kernel
  e3 := by decide +kernel
  coprime := by decide +kernel

theorem mnt4_twist_a_eq : mnt4_twist_a = Quad.ofBase mnt4_a * mnt4_u ^ 2 := by
  ext <;> simp [mnt4_twist_a, mnt4TwistA, pow_two]

theorem mnt4_twist_b_eq : mnt4_twist_b = Quad.ofBase mnt4_b * mnt4_u ^ 3 := by
  ext <;> simp [mnt4_twist_b, mnt4TwistB, pow_succ]

theorem mnt4_mulA (x : mnt4_Fq2) : mnt4_G2_mul_by_a x = mnt4_twist_a * x := ((C36_mul_by_a mnt4_β mnt4_a mnt4_b).1 x).1

theorem mnt4_Δ : (sw mnt4_twist_a mnt4_twist_b).Δ ≠ 0 := sw_Δ_ne_of_disc C52_mnt4_G2_generator.1 C52_mnt4_G2_generator.2.1
theorem mnt4_one_Z : mnt4_G2_one.Z = 1 := rfl
theorem mnt4_val_modulus : val mnt4_Fq_params.modulus = mnt4_Fq_params.p := by decide +kernel

theorem mnt4_gen (x y : mnt4_Fq2) (h : (sw mnt4_twist_a mnt4_twist_b).Nonsingular x y) (hg : mnt4_g = .some x y h) :
    ∃ h', mnt4_Fq_params.p • mnt4_g = .some (Quad.ofBase mnt4_q_X * x ^ mnt4_Fq_params.p)
      (Quad.ofBase mnt4_q_Y * y ^ mnt4_Fq_params.p) h' :=
  Proj.gen_of_endo (mulA := mnt4_G2_mul_by_a) mnt4_mulA C52_mnt4_G2_generator.1 mnt4_Δ C54_mnt4 mnt4_g_rep mnt4_one_Z mnt4_mulByQ
    mnt4_val_modulus x y h hg

theorem mnt4_ateSetup : AteSetup (L := mnt4_Fq4) ((tau (T := mnt4_Fq2) (nr := fp4nr mnt4_β)).comp Quad.ofBase) tau mnt4_a mnt4_b mnt4_twist_a mnt4_twist_b
    (tau mnt4_u)⁻¹ (tau mnt4_u * Quad.gen)⁻¹ (Quad.ofBase mnt4_q_X) (Quad.ofBase mnt4_q_Y) mnt4_Fq_params.p mnt4_Fr_params.p mnt4_final_exponent mnt4_g :=
  setup mnt4_arith Fp.card mnt4_Fq2_card Quad.ofBase mnt4_twist_a_eq mnt4_twist_b_eq mnt4_qX_eq mnt4_qY_eq mnt4_g_order
    mnt4_gen

theorem mnt4_roots : MntRoots (L := mnt4_Fq4) (tau (T := mnt4_Fq2) (nr := fp4nr mnt4_β)) mnt4_u (tau mnt4_u)⁻¹ (tau mnt4_u * Quad.gen)⁻¹ Quad.gen
    mnt4_final_exponent := roots mnt4_arith mnt4_Fq2_card

theorem mnt4_params : MntParams mnt4_ate Quad.ofBase mnt4_u mnt4_Fr_params.p where
  embed _ := rfl
  scale := Quad.scale_eq_ofBase
  eight := Nat.cast_ofNat
  twist := rfl
  two := C52_mnt4_G2_generator.1
  pos := by decide +kernel
  lt := by decide +kernel
  r2 := by decide +kernel

/-- The value of the reduced pairing. -/
noncomputable def mnt4_e (P : (sw mnt4_a mnt4_b).Point) (Q : (sw mnt4_twist_a mnt4_twist_b).Point) : mnt4_Fq4 :=
  ateVal (A := mnt4_ate) mnt4_ateSetup P Q

theorem mnt4_bilin : BilinMap (AddSubgroup.zmultiples mnt4_g) mnt4_e :=
  ateVal_bilin (A := mnt4_ate) mnt4_ateSetup (by decide +kernel)

theorem mnt4_pair {p : Coord3 mnt4_Fq} {q : Coord3 mnt4_Fq2} {P : (sw mnt4_a mnt4_b).Point}
    {Q : (sw mnt4_twist_a mnt4_twist_b).Point} (hp : ProjRep p P) (hP : P ≠ 0) (hq : ProjRep q Q) (hQ : Q ∈ AddSubgroup.zmultiples mnt4_g)
    (hQ0 : Q ≠ 0) : mnt4_reduced_pairing p q = .ok (mnt4_e P Q) := by
  rcases Proj.toAffine_rep hp with ⟨rfl, e0⟩ | ⟨x0, y0, h0, rfl, e0⟩
  · exact absurd rfl hP
  rcases Proj.toAffine_rep hq with ⟨rfl, e⟩ | ⟨x, y, hxy, rfl, e⟩
  · exact absurd rfl hQ0
  · have h := pairing_value (A := mnt4_ate) mnt4_ateSetup mnt4_params mnt4_roots (by decide +kernel) h0 e0 hQ e
    exact WAteSetup.reduce C49_mnt4.pow (by decide +kernel) h (mnt4_bilin.ne_zero _ _ hQ)

end Libff
