import Verif.Lemmas.PairingRel
import Verif.Lemmas.AteAltBn128
import Verif.Lemmas.AteBls12381
import Verif.Lemmas.AteMnt4
import Verif.Lemmas.AteMnt6

/-!
# The pairings over `NM p`
-/
namespace Libff
set_option synthInstance.maxSize 2000

/-- The value of a reduced pairing, from the value of the unreduced one over `NM p`. -/
theorem reduced_ne_one {K L : Type} [Zero K] [One K] [Add K] [Sub K] [Neg K] [Mul K] [Squared K] [DecidableEq K] [Field L] [Squared L]
    [Fintype L] {R : K → L → Prop} (o : RelOps R) {fe : L → Outcome L} {r E : ℕ} (hfe : IsFinalExp fe r E) {x : Outcome K} {y : Outcome L}
    (h : Outcome.Rel R x y) {v : K} (hx : x = .ok v) (h0 : v ≠ 0) (fuel : ℕ) (hE : E < 2 ^ fuel) (h1 : fastPow fuel v E ≠ 1) :
    ∃ w, y.bind fe = .ok w ∧ w ≠ 1 := by
  obtain ⟨w, rfl, hw⟩ := h.ok_right hx
  refine ⟨w ^ E, hfe.pow w fun h => h0 ((o.eq hw o.zero).2 h), o.pow_ne hw o.one fuel E hE h1⟩

namespace alt_bn128_K
/-- `alt_bn128_ate` over `NM p`. -/
def ate : Ate12 Fq β ξ where
  twoInv := NM.of ((p + 1) / 2)
  twist := ξ
  twistB := dec2 NM.of (19485874751759354771024239261021720505790618469301721065564631296452457478373, 266929791119991161246907387137283842545076965332900288569378510910307636690)
  frob _ x := x
  mulByQ := Coord3.mulByQ (Fp2.frobeniusMap (fun i => NM.of (alt_bn128_Fq2_frob_c1.getD i 0)) 1) (dec2 NM.of alt_bn128_twist_mul_by_q_X_nat * ·)
    (dec2 NM.of alt_bn128_twist_mul_by_q_Y_nat * ·)
  loopCount := limbsOf 4 alt_bn128_ate_loop_count
  loopNeg := alt_bn128_ate_is_loop_count_neg
  z := []
  zNeg := false
/-- `G1::one()`. -/
def g1 : Coord3 Fq := ⟨NM.of alt_bn128_G1_one_nat.1, NM.of alt_bn128_G1_one_nat.2, 1⟩
/-- `G2::one()`. -/
def g2 : Coord3 Fq2 := ⟨dec2 NM.of alt_bn128_G2_one_nat.1, dec2 NM.of alt_bn128_G2_one_nat.2, 1⟩

theorem i1 : RelInv R1 := fpRelInv

theorem rtwoInv : R1 (NM.of ((p + 1) / 2)) ((2 : Nat) : alt_bn128_Fq)⁻¹ := by
  have h2 : (((2 : Nat) : alt_bn128_Fq)) ≠ 0 := fun h => absurd ((o1.eq (FpRel.cast (v := 2) (by decide +kernel)) o1.zero).2 h) (by decide +kernel)
  have hm : (((p + 1) / 2 : Nat) : alt_bn128_Fq) * ((2 : Nat) : alt_bn128_Fq) = 1 :=
    (o1.eq (o1.mul (FpRel.cast (v := (p + 1) / 2) (by decide +kernel)) (FpRel.cast (v := 2) (by decide +kernel))) o1.one).1 (by decide +kernel)
  rw [← eq_inv_of_mul_eq_one_left hm]
  exact FpRel.cast (v := (p + 1) / 2) (by decide +kernel)

theorem rfrob {a x} (h : R2 a x) : R2 (Fp2.frobeniusMap (fun i => NM.of (alt_bn128_Fq2_frob_c1.getD i 0)) 1 a) (alt_bn128_G2_frob x) :=
  ⟨h.1, o1.mul (FpRel.cast (v := alt_bn128_Fq2_frob_c1.getD 1 0) (by decide +kernel)) h.2⟩

theorem ate_rel : Ate12.Rel R1 ate alt_bn128_ate where
  o := o1
  i := i1
  β := rβ
  ξ := rξ
  twoInv := rtwoInv
  twist := rξ
  twistB := alt_bn128_twist_b_rel
  mulByQ h := ⟨o2.mul (dec2_rel _ (by decide +kernel)) (rfrob h.1), o2.mul (dec2_rel _ (by decide +kernel)) (rfrob h.2.1), rfrob h.2.2⟩
  loopCount := rfl
  loopNeg := rfl

theorem g1_rel : Coord3.Rel R1 g1 alt_bn128_G1_one :=
  ⟨FpRel.cast (v := alt_bn128_G1_one_nat.1) (by decide +kernel), FpRel.cast (v := alt_bn128_G1_one_nat.2) (by decide +kernel), o1.one⟩
theorem g2_rel : Coord3.Rel R2 g2 alt_bn128_G2_one :=
  ⟨dec2_rel _ (by decide +kernel), dec2_rel _ (by decide +kernel), o2.one⟩
theorem z1_rel : Coord3.Rel R1 ⟨0, 1, 0⟩ ⟨0, 1, 0⟩ := ⟨o1.zero, o1.one, o1.zero⟩
theorem z2_rel : Coord3.Rel R2 ⟨0, 1, 0⟩ ⟨0, 1, 0⟩ := ⟨o2.zero, o2.one, o2.zero⟩
end alt_bn128_K

namespace bls12_381_K
/-- `bls12_381_ate` over `NM p`. -/
def ate : Ate12 Fq β ξ where
  twoInv := NM.of ((p + 1) / 2)
  twist := ξ
  twistB := Quad.scale (· * ·) (NM.of bls12_381_coeff_b_nat) (dec2 NM.of bls12_381_twist_nat)
  frob _ x := x
  mulByQ := Coord3.mulByQ (Fp2.frobeniusMap (fun i => NM.of (bls12_381_Fq2_frob_c1.getD i 0)) 1) (dec2 NM.of bls12_381_twist_mul_by_q_X_nat * ·)
    (dec2 NM.of bls12_381_twist_mul_by_q_Y_nat * ·)
  loopCount := limbsOf 6 bls12_381_ate_loop_count
  loopNeg := bls12_381_ate_is_loop_count_neg
  z := []
  zNeg := false
/-- `G1::one()`. -/
def g1 : Coord3 Fq := ⟨NM.of bls12_381_G1_one_nat.1, NM.of bls12_381_G1_one_nat.2, 1⟩
/-- `G2::one()`. -/
def g2 : Coord3 Fq2 := ⟨dec2 NM.of bls12_381_G2_one_nat.1, dec2 NM.of bls12_381_G2_one_nat.2, 1⟩

theorem i1 : RelInv R1 := fpRelInv

theorem rtwoInv : R1 (NM.of ((p + 1) / 2)) ((2 : Nat) : bls12_381_Fq)⁻¹ := by
  have h2 : (((2 : Nat) : bls12_381_Fq)) ≠ 0 := fun h => absurd ((o1.eq (FpRel.cast (v := 2) (by decide +kernel)) o1.zero).2 h) (by decide +kernel)
  have hm : (((p + 1) / 2 : Nat) : bls12_381_Fq) * ((2 : Nat) : bls12_381_Fq) = 1 :=
    (o1.eq (o1.mul (FpRel.cast (v := (p + 1) / 2) (by decide +kernel)) (FpRel.cast (v := 2) (by decide +kernel))) o1.one).1 (by decide +kernel)
  rw [← eq_inv_of_mul_eq_one_left hm]
  exact FpRel.cast (v := (p + 1) / 2) (by decide +kernel)

theorem rfrob {a x} (h : R2 a x) : R2 (Fp2.frobeniusMap (fun i => NM.of (bls12_381_Fq2_frob_c1.getD i 0)) 1 a) (bls12_381_G2_frob x) :=
  ⟨h.1, o1.mul (FpRel.cast (v := bls12_381_Fq2_frob_c1.getD 1 0) (by decide +kernel)) h.2⟩

theorem ate_rel : Ate12.Rel R1 ate bls12_381_ate where
  o := o1
  i := i1
  β := rβ
  ξ := rξ
  twoInv := rtwoInv
  twist := rξ
  twistB := bls12_381_twist_b_rel
  mulByQ h := ⟨o2.mul (dec2_rel _ (by decide +kernel)) (rfrob h.1), o2.mul (dec2_rel _ (by decide +kernel)) (rfrob h.2.1), rfrob h.2.2⟩
  loopCount := rfl
  loopNeg := rfl

theorem g1_rel : Coord3.Rel R1 g1 bls12_381_G1_one :=
  ⟨FpRel.cast (v := bls12_381_G1_one_nat.1) (by decide +kernel), FpRel.cast (v := bls12_381_G1_one_nat.2) (by decide +kernel), o1.one⟩
theorem g2_rel : Coord3.Rel R2 g2 bls12_381_G2_one :=
  ⟨dec2_rel _ (by decide +kernel), dec2_rel _ (by decide +kernel), o2.one⟩
theorem z1_rel : Coord3.Rel R1 ⟨0, 1, 0⟩ ⟨0, 1, 0⟩ := ⟨o1.zero, o1.one, o1.zero⟩
theorem z2_rel : Coord3.Rel R2 ⟨0, 1, 0⟩ ⟨0, 1, 0⟩ := ⟨o2.zero, o2.one, o2.zero⟩
end bls12_381_K

namespace mnt4_K
/-- `mnt4_ate` over `NM p`. -/
def ate : AteMnt Fq Fq2 (fp4nr β) where
  embed x := ⟨x, 0⟩
  scale := Quad.scale (· * ·)
  eight := NM.of 8
  twist := ⟨0, 1⟩
  twistA := mnt4TwistA (NM.of mnt4_coeff_a_nat)
  loopCount := limbsOf 5 mnt4_ate_loop_count
  loopNeg := mnt4_ate_is_loop_count_neg
  mulSparse f _ := .ok f
/-- `G1::one()`. -/
def g1 : Coord3 Fq := ⟨NM.of mnt4_G1_one_nat.1, NM.of mnt4_G1_one_nat.2, 1⟩
/-- `G2::one()`. -/
def g2 : Coord3 Fq2 := ⟨dec2 NM.of mnt4_G2_one_nat.1, dec2 NM.of mnt4_G2_one_nat.2, 1⟩

theorem i1 : RelInv R1 := fpRelInv
theorem i2 : RelInv R2 := RelInv.quad o1 i1 (o1.mulConst rβ)
theorem ra : R1 (NM.of mnt4_coeff_a_nat) mnt4_a := FpRel.cast (by decide +kernel)

theorem ate_rel : AteMnt.Rel R1 R2 ate mnt4_ate where
  oK := o1
  iK := i1
  o := o2
  i := i2
  nr := o1.fp4nr rβ
  embed h := ⟨h, o1.zero⟩
  scale h h' := ⟨o1.mul h h'.1, o1.mul h h'.2⟩
  eight := FpRel.cast (v := 8) (by decide +kernel)
  twist := ⟨o1.zero, o1.one⟩
  twistA := ⟨o1.mul ra rβ, o1.zero⟩
  loopCount := rfl
  loopNeg := rfl

theorem g1_rel : Coord3.Rel R1 g1 mnt4_G1_one :=
  ⟨FpRel.cast (v := mnt4_G1_one_nat.1) (by decide +kernel), FpRel.cast (v := mnt4_G1_one_nat.2) (by decide +kernel), o1.one⟩
theorem g2_rel : Coord3.Rel R2 g2 mnt4_G2_one :=
  ⟨dec2_rel _ (by decide +kernel), dec2_rel _ (by decide +kernel), o2.one⟩
theorem z1_rel : Coord3.Rel R1 ⟨0, 1, 0⟩ ⟨0, 1, 0⟩ := ⟨o1.zero, o1.one, o1.zero⟩
theorem z2_rel : Coord3.Rel R2 ⟨0, 1, 0⟩ ⟨0, 1, 0⟩ := ⟨o2.zero, o2.one, o2.zero⟩
end mnt4_K

namespace mnt6_K
/-- `mnt6_ate` over `NM p`. -/
def ate : AteMnt Fq Fq3 (fp6nr β) where
  embed x := ⟨x, 0, 0⟩
  scale := Cubic.scale (· * ·)
  eight := NM.of 8
  twist := ⟨0, 1, 0⟩
  twistA := mnt6TwistA (NM.of mnt6_coeff_a_nat)
  loopCount := limbsOf 5 mnt6_ate_loop_count
  loopNeg := mnt6_ate_is_loop_count_neg
  mulSparse f _ := .ok f
/-- `G1::one()`. -/
def g1 : Coord3 Fq := ⟨NM.of mnt6_G1_one_nat.1, NM.of mnt6_G1_one_nat.2, 1⟩
/-- `G2::one()`. -/
def g2 : Coord3 Fq3 := ⟨dec3 NM.of mnt6_G2_one_nat.1, dec3 NM.of mnt6_G2_one_nat.2, 1⟩

theorem i1 : RelInv R1 := fpRelInv
theorem i3 : RelInv R3 := RelInv.cubic o1 i1 (o1.mulConst rβ)
theorem ra : R1 (NM.of mnt6_coeff_a_nat) mnt6_a := FpRel.cast (by decide +kernel)

theorem ate_rel : AteMnt.Rel R1 R3 ate mnt6_ate where
  oK := o1
  iK := i1
  o := o3
  i := i3
  nr := o1.fp6nr rβ
  embed h := ⟨h, o1.zero, o1.zero⟩
  scale h h' := ⟨o1.mul h h'.1, o1.mul h h'.2.1, o1.mul h h'.2.2⟩
  eight := FpRel.cast (v := 8) (by decide +kernel)
  twist := ⟨o1.zero, o1.one, o1.zero⟩
  twistA := ⟨o1.zero, o1.zero, ra⟩
  loopCount := rfl
  loopNeg := rfl

theorem g1_rel : Coord3.Rel R1 g1 mnt6_G1_one :=
  ⟨FpRel.cast (v := mnt6_G1_one_nat.1) (by decide +kernel), FpRel.cast (v := mnt6_G1_one_nat.2) (by decide +kernel), o1.one⟩
theorem g2_rel : Coord3.Rel R3 g2 mnt6_G2_one :=
  ⟨dec3_rel _ (by decide +kernel), dec3_rel _ (by decide +kernel), o3.one⟩
theorem z1_rel : Coord3.Rel R1 ⟨0, 1, 0⟩ ⟨0, 1, 0⟩ := ⟨o1.zero, o1.one, o1.zero⟩
theorem z2_rel : Coord3.Rel R3 ⟨0, 1, 0⟩ ⟨0, 1, 0⟩ := ⟨o3.zero, o3.one, o3.zero⟩
end mnt6_K
end Libff
