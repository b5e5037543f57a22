import Verif.Lemmas.AteMntSetup
import Verif.Lemmas.AteBls12381
import Verif.Props.MulByQ
import Verif.Props.FinalExp

/-!
# The ate pairing of mnt6: the conditions
-/
namespace Libff
set_option synthInstance.maxSize 2000
open WeierstrassCurve Affine AteMnt

/-- The generator of the twist's field. -/
abbrev mnt6_u : mnt6_Fq3 := Cubic.gen

open mnt6_K in
theorem mnt6_u_rel : R3 (Cubic.gen) mnt6_u := ⟨o1.zero, o1.one, o1.zero⟩

open mnt6_K in
theorem mnt6_qX_eq : Cubic.ofBase mnt6_q_X * mnt6_u ^ (mnt6_Fq_params.p - 1) = 1 :=
  o3.mul_pow_eq_one (c := ⟨NM.of mnt6_twist_mul_by_q_X_nat, 0, 0⟩) ⟨FpRel.cast (v := mnt6_twist_mul_by_q_X_nat) (by decide +kernel), o1.zero, o1.zero⟩ mnt6_u_rel 320 _ (by decide +kernel) (by decide +kernel)

open mnt6_K in
theorem mnt6_qY_eq : Cubic.ofBase mnt6_q_Y * (mnt6_u ^ 3) ^ ((mnt6_Fq_params.p - 1) / 2) = 1 := by
  rw [← pow_mul]
  exact o3.mul_pow_eq_one (c := ⟨NM.of mnt6_twist_mul_by_q_Y_nat, 0, 0⟩) ⟨FpRel.cast (v := mnt6_twist_mul_by_q_Y_nat) (by decide +kernel), o1.zero, o1.zero⟩ mnt6_u_rel 320 _ (by decide +kernel) (by decide +kernel)

/-- The generator as a point. -/
noncomputable def mnt6_g : (sw mnt6_twist_a mnt6_twist_b).Point := C52_mnt6_G2_generator.2.2.2.choose

theorem mnt6_g_rep : ProjRep mnt6_G2_one mnt6_g := C52_mnt6_G2_generator.2.2.2.choose_spec.1

theorem mnt6_g_order : addOrderOf mnt6_g = mnt6_Fr_params.p := C52_mnt6_G2_generator.2.2.2.choose_spec.2

theorem mnt6_mulByQ (X Y : mnt6_Fq3) :
    mnt6_G2_mul_by_q ⟨X, Y, 1⟩ = ⟨Cubic.ofBase mnt6_q_X * X ^ mnt6_Fq_params.p, Cubic.ofBase mnt6_q_Y * Y ^ mnt6_Fq_params.p, 1⟩ := by
  have hf' : ∀ x, mnt6_G2_frob x = x ^ mnt6_Fq_params.p := fun x => by
    have := C23_mnt6_Fq3 1 x
    rw [pow_one] at this
    exact this
  simp only [mnt6_G2_mul_by_q, Coord3.mulByQ, hf', one_pow, Cubic.scale_eq_ofBase]

theorem mnt6_arith : ExpArith mnt6_Fq_params.p 3 mnt6_Fr_params.p mnt6_final_exponent where
  hp := mnt6_Fq_prime
  hp2 := by decide +kernel
  hr := mnt6_Fr_prime
  e1 := by decide +kernel
  e2 := by decide +kernel
  e3 := by decide +kernel
  coprime := by decide +kernel

theorem mnt6_twist_a_eq : mnt6_twist_a = Cubic.ofBase mnt6_a * mnt6_u ^ 2 := by
  ext <;> simp [mnt6_twist_a, mnt6TwistA, pow_two]

theorem mnt6_twist_b_eq : mnt6_twist_b = Cubic.ofBase mnt6_b * mnt6_u ^ 3 := by
  ext <;> simp [mnt6_twist_b, mnt6TwistB, pow_succ]

theorem mnt6_mulA (x : mnt6_Fq3) : mnt6_G2_mul_by_a x = mnt6_twist_a * x := ((C36_mul_by_a mnt6_β mnt6_a mnt6_b).2.1 x).1

theorem mnt6_Δ : (sw mnt6_twist_a mnt6_twist_b).Δ ≠ 0 := sw_Δ_ne_of_disc C52_mnt6_G2_generator.1 C52_mnt6_G2_generator.2.1
theorem mnt6_one_Z : mnt6_G2_one.Z = 1 := rfl
theorem mnt6_val_modulus : val mnt6_Fq_params.modulus = mnt6_Fq_params.p := by decide +kernel

theorem mnt6_gen (x y : mnt6_Fq3) (h : (sw mnt6_twist_a mnt6_twist_b).Nonsingular x y) (hg : mnt6_g = .some x y h) :
    ∃ h', mnt6_Fq_params.p • mnt6_g = .some (Cubic.ofBase mnt6_q_X * x ^ mnt6_Fq_params.p)
      (Cubic.ofBase mnt6_q_Y * y ^ mnt6_Fq_params.p) h' :=
  Proj.gen_of_endo (mulA := mnt6_G2_mul_by_a) mnt6_mulA C52_mnt6_G2_generator.1 mnt6_Δ C54_mnt6 mnt6_g_rep mnt6_one_Z mnt6_mulByQ
    mnt6_val_modulus x y h hg

theorem mnt6_ateSetup : AteSetup (L := mnt6_Fq6) ((tau (T := mnt6_Fq3) (nr := fp6nr mnt6_β)).comp Cubic.ofBase) tau mnt6_a mnt6_b mnt6_twist_a mnt6_twist_b
    (tau mnt6_u)⁻¹ (tau mnt6_u * Quad.gen)⁻¹ (Cubic.ofBase mnt6_q_X) (Cubic.ofBase mnt6_q_Y) mnt6_Fq_params.p mnt6_Fr_params.p mnt6_final_exponent mnt6_g :=
  setup mnt6_arith Fp.card mnt6_Fq3_card Cubic.ofBase mnt6_twist_a_eq mnt6_twist_b_eq mnt6_qX_eq mnt6_qY_eq mnt6_g_order
    mnt6_gen

theorem mnt6_roots : MntRoots (L := mnt6_Fq6) (tau (T := mnt6_Fq3) (nr := fp6nr mnt6_β)) mnt6_u (tau mnt6_u)⁻¹ (tau mnt6_u * Quad.gen)⁻¹ Quad.gen
    mnt6_final_exponent := roots mnt6_arith mnt6_Fq3_card

theorem mnt6_params : MntParams mnt6_ate Cubic.ofBase mnt6_u mnt6_Fr_params.p where
  embed _ := rfl
  scale := Cubic.scale_eq_ofBase
  eight := Nat.cast_ofNat
  twist := rfl
  two := C52_mnt6_G2_generator.1
  pos := by decide +kernel
  lt := by decide +kernel
  r2 := by decide +kernel

/-- The value of the reduced pairing. -/
noncomputable def mnt6_e (P : (sw mnt6_a mnt6_b).Point) (Q : (sw mnt6_twist_a mnt6_twist_b).Point) : mnt6_Fq6 :=
  ateVal (A := mnt6_ate) mnt6_ateSetup P Q

theorem mnt6_bilin : BilinMap (AddSubgroup.zmultiples mnt6_g) mnt6_e :=
  ateVal_bilin (A := mnt6_ate) mnt6_ateSetup (by decide +kernel)

theorem mnt6_pair {p : Coord3 mnt6_Fq} {q : Coord3 mnt6_Fq3} {P : (sw mnt6_a mnt6_b).Point}
    {Q : (sw mnt6_twist_a mnt6_twist_b).Point} (hp : ProjRep p P) (hP : P ≠ 0) (hq : ProjRep q Q) (hQ : Q ∈ AddSubgroup.zmultiples mnt6_g)
    (hQ0 : Q ≠ 0) : mnt6_reduced_pairing p q = .ok (mnt6_e P Q) := by
  rcases Proj.toAffine_rep hp with ⟨rfl, e0⟩ | ⟨x0, y0, h0, rfl, e0⟩
  · exact absurd rfl hP
  rcases Proj.toAffine_rep hq with ⟨rfl, e⟩ | ⟨x, y, hxy, rfl, e⟩
  · exact absurd rfl hQ0
  · have h := pairing_value (A := mnt6_ate) mnt6_ateSetup mnt6_params mnt6_roots (by decide +kernel) h0 e0 hQ e
    exact WAteSetup.reduce C49_mnt6.pow (by decide +kernel) h (mnt6_bilin.ne_zero _ _ hQ)

end Libff
