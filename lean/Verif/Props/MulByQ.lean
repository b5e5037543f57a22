import Verif.Lemmas.MulByQ
import Verif.Model.MulByQCurves
import Verif.Props.ConstAltBn128
import Verif.Props.ConstBls12381
import Verif.Props.ConstMnt4
import Verif.Props.ConstMnt6
import Verif.Props.ConstEdwards
import Verif.Props.GenAltBn128
import Verif.Props.GenBls12381
import Verif.Props.GenEdwards

/-!
# C54: `mul_by_q` is the Frobenius endomorphism of the twist

`TwistEndo` (Spec/TwistEndo.lean) says: it preserves validity, yields well-formed points, commutes with all group
operators and with scalar multiplication, and on every multiple of the generator it multiplies by `q`, the
characteristic of the base field. Valid means well-formed for the Weierstrass twists; for the Edwards twist it means
denoting a point killed by the odd prime `r` (see C37 for why).
-/
namespace Libff
set_option synthInstance.maxSize 2000

open alt_bn128_K in
/-- **C54.** `alt_bn128_G2::mul_by_q`. -/
theorem C54_alt_bn128 : TwistEndo Jac.ops Jac.eq (Jac.isWellFormed alt_bn128_twist_b)
    (fun p => Jac.isWellFormed alt_bn128_twist_b p = true) alt_bn128_G2_one alt_bn128_Fq_params.modulus alt_bn128_G2_mul_by_q := by
  have hf' : ∀ x, alt_bn128_G2_frob x = x ^ alt_bn128_Fq_params.p ^ 1 := fun x => C23_alt_bn128_Fq2 1 x
  have hf : ∀ {x y}, R2 x y → R2 ((Fp2.frobeniusMap (fun i => NM.of (alt_bn128_Fq2_frob_c1.getD i 0)) 1) x) (alt_bn128_G2_frob y) :=
    (fun h => ⟨h.1, o1.mul (FpRel.cast (v := alt_bn128_Fq2_frob_c1.getD 1 0) (by decide +kernel)) h.2⟩)
  have hx : R2 (dec2 NM.of alt_bn128_twist_mul_by_q_X_nat) (alt_bn128_q_X) := (dec2_rel _ (by decide +kernel))
  have hy : R2 (dec2 NM.of alt_bn128_twist_mul_by_q_Y_nat) (alt_bn128_q_Y) := (dec2_rel _ (by decide +kernel))
  have hg : Coord3.Rel R2 ⟨dec2 NM.of alt_bn128_G2_one_nat.1, dec2 NM.of alt_bn128_G2_one_nat.2, 1⟩ alt_bn128_G2_one :=
    ⟨dec2_rel _ (by decide +kernel), dec2_rel _ (by decide +kernel), o2.one⟩
  exact Jac.qCheck_sound o2 hf hf' alt_bn128_twist_b_rel hx hy (fun _ => rfl) (fun _ => rfl) hg (by decide +kernel)

open bls12_381_K in
/-- **C54.** `bls12_381_G2::mul_by_q`. -/
theorem C54_bls12_381 : TwistEndo Jac.ops Jac.eq (Jac.isWellFormed bls12_381_twist_b)
    (fun p => Jac.isWellFormed bls12_381_twist_b p = true) bls12_381_G2_one bls12_381_Fq_params.modulus bls12_381_G2_mul_by_q := by
  have hf' : ∀ x, bls12_381_G2_frob x = x ^ bls12_381_Fq_params.p ^ 1 := fun x => C23_bls12_381_Fq2 1 x
  have hf : ∀ {x y}, R2 x y → R2 ((Fp2.frobeniusMap (fun i => NM.of (bls12_381_Fq2_frob_c1.getD i 0)) 1) x) (bls12_381_G2_frob y) :=
    (fun h => ⟨h.1, o1.mul (FpRel.cast (v := bls12_381_Fq2_frob_c1.getD 1 0) (by decide +kernel)) h.2⟩)
  have hx : R2 (dec2 NM.of bls12_381_twist_mul_by_q_X_nat) (bls12_381_q_X) := (dec2_rel _ (by decide +kernel))
  have hy : R2 (dec2 NM.of bls12_381_twist_mul_by_q_Y_nat) (bls12_381_q_Y) := (dec2_rel _ (by decide +kernel))
  have hg : Coord3.Rel R2 ⟨dec2 NM.of bls12_381_G2_one_nat.1, dec2 NM.of bls12_381_G2_one_nat.2, 1⟩ bls12_381_G2_one :=
    ⟨dec2_rel _ (by decide +kernel), dec2_rel _ (by decide +kernel), o2.one⟩
  exact Jac.qCheck_sound o2 hf hf' bls12_381_twist_b_rel hx hy (fun _ => rfl) (fun _ => rfl) hg (by decide +kernel)

open mnt4_K in
/-- **C54.** `mnt4_G2::mul_by_q`. -/
theorem C54_mnt4 : TwistEndo (Proj.ops mnt4_G2_mul_by_a) Proj.eq (Proj.isWellFormed mnt4_twist_a mnt4_twist_b)
    (fun p => Proj.isWellFormed mnt4_twist_a mnt4_twist_b p = true) mnt4_G2_one mnt4_Fq_params.modulus mnt4_G2_mul_by_q := by
  have hf' : ∀ x, mnt4_G2_frob x = x ^ mnt4_Fq_params.p ^ 1 := fun x => C23_mnt4_Fq2 1 x
  have hf : ∀ {x y}, R2 x y → R2 ((Fp2.frobeniusMap (fun i => NM.of (mnt4_Fq2_frob_c1.getD i 0)) 1) x) (mnt4_G2_frob y) :=
    (fun h => ⟨h.1, o1.mul (FpRel.cast (v := mnt4_Fq2_frob_c1.getD 1 0) (by decide +kernel)) h.2⟩)
  have hx : R2 (⟨NM.of mnt4_twist_mul_by_q_X_nat, 0⟩) (Quad.ofBase mnt4_q_X) := ⟨FpRel.cast (v := mnt4_twist_mul_by_q_X_nat) (by decide +kernel), o1.zero⟩
  have hy : R2 (⟨NM.of mnt4_twist_mul_by_q_Y_nat, 0⟩) (Quad.ofBase mnt4_q_Y) := ⟨FpRel.cast (v := mnt4_twist_mul_by_q_Y_nat) (by decide +kernel), o1.zero⟩
  have hg : Coord3.Rel R2 ⟨dec2 NM.of mnt4_G2_one_nat.1, dec2 NM.of mnt4_G2_one_nat.2, 1⟩ mnt4_G2_one :=
    ⟨dec2_rel _ (by decide +kernel), dec2_rel _ (by decide +kernel), o2.one⟩
  have ra : R1 (NM.of mnt4_coeff_a_nat) mnt4_a := FpRel.cast (by decide +kernel)
  have rb : R1 (NM.of mnt4_coeff_b_nat) mnt4_b := FpRel.cast (by decide +kernel)
  have rta : R2 (mnt4TwistA (NM.of mnt4_coeff_a_nat)) mnt4_twist_a := ⟨o1.mul ra rβ, o1.zero⟩
  have rtb : R2 (mnt4TwistB (NM.of mnt4_coeff_b_nat)) mnt4_twist_b := ⟨o1.zero, o1.mul rb rβ⟩
  have hA : ∀ {x y}, R2 x y → R2 (mnt4MulByA (NM.of mnt4_coeff_a_nat) x) (mnt4_G2_mul_by_a y) :=
    (fun h => ⟨o1.mul (o1.mul ra rβ) h.1, o1.mul (o1.mul ra rβ) h.2⟩)
  have hA' : ∀ x, mnt4_G2_mul_by_a x = mnt4_twist_a * x := (fun x => ((C36_mul_by_a mnt4_β mnt4_a mnt4_b).1 x).1)
  exact Proj.qCheck_sound o2 hf hf' hA hA' rta rtb hx hy (fun x => Quad.scale_eq_ofBase _ x) (fun x => Quad.scale_eq_ofBase _ x) hg (by decide +kernel)

open mnt6_K in
/-- **C54.** `mnt6_G2::mul_by_q`. -/
theorem C54_mnt6 : TwistEndo (Proj.ops mnt6_G2_mul_by_a) Proj.eq (Proj.isWellFormed mnt6_twist_a mnt6_twist_b)
    (fun p => Proj.isWellFormed mnt6_twist_a mnt6_twist_b p = true) mnt6_G2_one mnt6_Fq_params.modulus mnt6_G2_mul_by_q := by
  have hf' : ∀ x, mnt6_G2_frob x = x ^ mnt6_Fq_params.p ^ 1 := fun x => C23_mnt6_Fq3 1 x
  have hf : ∀ {x y}, R3 x y → R3 ((Fp3.frobeniusMap (fun i => NM.of (mnt6_Fq3_frob_c1.getD i 0)) (fun i => NM.of (mnt6_Fq3_frob_c2.getD i 0)) 1) x) (mnt6_G2_frob y) :=
    (fun h => ⟨h.1, o1.mul (FpRel.cast (v := mnt6_Fq3_frob_c1.getD 1 0) (by decide +kernel)) h.2.1,
      o1.mul (FpRel.cast (v := mnt6_Fq3_frob_c2.getD 1 0) (by decide +kernel)) h.2.2⟩)
  have hx : R3 (⟨NM.of mnt6_twist_mul_by_q_X_nat, 0, 0⟩) (Cubic.ofBase mnt6_q_X) := ⟨FpRel.cast (v := mnt6_twist_mul_by_q_X_nat) (by decide +kernel), o1.zero, o1.zero⟩
  have hy : R3 (⟨NM.of mnt6_twist_mul_by_q_Y_nat, 0, 0⟩) (Cubic.ofBase mnt6_q_Y) := ⟨FpRel.cast (v := mnt6_twist_mul_by_q_Y_nat) (by decide +kernel), o1.zero, o1.zero⟩
  have hg : Coord3.Rel R3 ⟨dec3 NM.of mnt6_G2_one_nat.1, dec3 NM.of mnt6_G2_one_nat.2, 1⟩ mnt6_G2_one :=
    ⟨dec3_rel _ (by decide +kernel), dec3_rel _ (by decide +kernel), o3.one⟩
  have ra : R1 (NM.of mnt6_coeff_a_nat) mnt6_a := FpRel.cast (by decide +kernel)
  have rb : R1 (NM.of mnt6_coeff_b_nat) mnt6_b := FpRel.cast (by decide +kernel)
  have rta : R3 (mnt6TwistA (NM.of mnt6_coeff_a_nat)) mnt6_twist_a := ⟨o1.zero, o1.zero, ra⟩
  have rtb : R3 (mnt6TwistB (NM.of mnt6_coeff_b_nat)) mnt6_twist_b := ⟨o1.mul rb rβ, o1.zero, o1.zero⟩
  have hA : ∀ {x y}, R3 x y → R3 (mnt6MulByA (NM.of mnt6_coeff_a_nat) x) (mnt6_G2_mul_by_a y) :=
    (fun h => ⟨o1.mul (o1.mul ra rβ) h.2.1, o1.mul (o1.mul ra rβ) h.2.2, o1.mul ra h.1⟩)
  have hA' : ∀ x, mnt6_G2_mul_by_a x = mnt6_twist_a * x := (fun x => ((C36_mul_by_a mnt6_β mnt6_a mnt6_b).2.1 x).1)
  exact Proj.qCheck_sound o3 hf hf' hA hA' rta rtb hx hy (fun x => Cubic.scale_eq_ofBase _ x) (fun x => Cubic.scale_eq_ofBase _ x) hg (by decide +kernel)

open edwards_K in
/-- **C54.** `edwards_G2::mul_by_q`. -/
theorem C54_edwards : TwistEndo (Edw.ops edwards_G2_mul_by_a edwards_G2_mul_by_d) Edw.eq
    (Edw.isWellFormed edwards_G2_mul_by_a edwards_G2_mul_by_d)
    (fun p => ∃ Q : (edwW edwards_twist_a edwards_twist_d).Point, EdwRepIn (torsionSub edwards_Fr_params.p) p Q)
    edwards_G2_one edwards_Fq_params.modulus edwards_G2_mul_by_q := by
  have hf' : ∀ x, edwards_G2_frob x = x ^ edwards_Fq_params.p ^ 1 := fun x => C23_edwards_Fq3 1 x
  have hf : ∀ {x y}, R3 x y → R3 ((Fp3.frobeniusMap (fun i => NM.of (edwards_Fq3_frob_c1.getD i 0)) (fun i => NM.of (edwards_Fq3_frob_c2.getD i 0)) 1) x) (edwards_G2_frob y) :=
    (fun h => ⟨h.1, o1.mul (FpRel.cast (v := edwards_Fq3_frob_c1.getD 1 0) (by decide +kernel)) h.2.1,
      o1.mul (FpRel.cast (v := edwards_Fq3_frob_c2.getD 1 0) (by decide +kernel)) h.2.2⟩)
  have rd : R1 (NM.of edwards_coeff_d_nat) edwards_d := FpRel.cast (by decide +kernel)
  have rta : R3 edwardsTwistA edwards_twist_a := ⟨o1.mul o1.one o1.zero, o1.mul o1.one o1.one, o1.mul o1.one o1.zero⟩
  have rtd : R3 (edwardsTwistD (NM.of edwards_coeff_d_nat)) edwards_twist_d :=
    ⟨o1.mul rd o1.zero, o1.mul rd o1.one, o1.mul rd o1.zero⟩
  have rx : R3 (dec3 NM.of edwards_G2_one_nat.1) (dec3 Nat.cast edwards_G2_one_nat.1) := dec3_rel _ (by decide +kernel)
  have ry : R3 (dec3 NM.of edwards_G2_one_nat.2) (dec3 Nat.cast edwards_G2_one_nat.2) := dec3_rel _ (by decide +kernel)
  have hg : Coord3.Rel R3 (Edw.ofAffine (dec3 NM.of edwards_G2_one_nat.1) (dec3 NM.of edwards_G2_one_nat.2))
      edwards_G2_one := ⟨ry, rx, o3.mul rx ry⟩
  have hA : ∀ {x y}, R3 x y → R3 (edwardsMulByA x) (edwards_G2_mul_by_a y) :=
    fun h => ⟨o1.mul (o1.mul o1.one rβ) h.2.2, h.1, h.2.1⟩
  have hD : ∀ {x y}, R3 x y → R3 (edwardsMulByD (NM.of edwards_coeff_d_nat) x) (edwards_G2_mul_by_d y) :=
    fun h => ⟨o1.mul (o1.mul rd rβ) h.2.2, o1.mul rd h.1, o1.mul rd h.2.1⟩
  have hA' : ∀ x, edwards_G2_mul_by_a x = edwards_twist_a * x := fun x => (C37_mul_by _ edwards_d x).1
  have hD' : ∀ x, edwards_G2_mul_by_d x = edwards_twist_d * x := fun x => (C37_mul_by _ edwards_d x).2.1
  have hz : R3 (⟨NM.of edwards_twist_mul_by_q_Z_nat, 0, 0⟩) (Cubic.ofBase edwards_q_Z) := ⟨FpRel.cast (v := edwards_twist_mul_by_q_Z_nat) (by decide +kernel), o1.zero, o1.zero⟩
  have hyz : edwards_q_Y = edwards_q_Z := rfl
  have hmY : ∀ x : edwards_Fq3, Cubic.scale (· * ·) edwards_q_Y x = Cubic.ofBase edwards_q_Z * x := fun x => by
    rw [hyz]; exact Cubic.scale_eq_ofBase _ x
  have hmZ : ∀ x : edwards_Fq3, Cubic.scale (· * ·) edwards_q_Z x = Cubic.ofBase edwards_q_Z * x := fun x => Cubic.scale_eq_ofBase _ x
  obtain ⟨P, hP, hPr⟩ := C52_edwards_G2_generator.2.2.2
  exact Edw.qCheck_sound o3 hf hf' hA hA' hD hD' rta rtd hz hmY hmZ hg (by decide +kernel) hP hPr (by decide +kernel)

example : Jac.isWellFormed alt_bn128_twist_b alt_bn128_G2_one = true := C38_alt_bn128_generators.2

end Libff
