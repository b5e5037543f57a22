import Verif.Lemmas.Cofactor
import Verif.Lemmas.OrderAltBn128
import Verif.Lemmas.OrderBls12381
import Verif.Lemmas.OrderMnt4
import Verif.Lemmas.OrderMnt6
import Verif.Model.Cofactor

/-!
# C62: the number of points of the curves, and `mul_by_cofactor`

For each of the eight Weierstrass group classes the number of points of its curve, that is the number of elements
passing `is_well_formed` up to `==`, is exactly `h * r` with the stored cofactor `h` and the announced order `r`.
`CofactorClears` (Spec/Cofactor.lean) says what follows for `mul_by_cofactor` and for the test `order() * p == zero()`.
Where the cofactor is one every element passing `is_well_formed` is a multiple of the generator.
-/
namespace Libff
set_option synthInstance.maxSize 2000

/-- **C62.** The curve of `alt_bn128_G1` has exactly `h * r` points; an object passes `is_well_formed` iff it denotes one. -/
theorem C62_alt_bn128_G1_order : Nat.card (sw 0 alt_bn128_b).Point = alt_bn128_G1_h * val alt_bn128_Fr_params.modulus ∧
    ∀ p, Jac.isWellFormed alt_bn128_b p = true ↔ ∃ P : (sw 0 alt_bn128_b).Point, JacRep p P :=
  ⟨alt_bn128_G1_card, C38_jacobian (alt_bn128_K.o1.two_ne (by decide +kernel)) (alt_bn128_K.o1.three_ne (by decide +kernel)) C52_alt_bn128_G1_generator.2.2.1⟩

/-- **C62.** `alt_bn128_G1::mul_by_cofactor`. -/
theorem C62_alt_bn128_G1_cofactor : CofactorClears Jac.ops Jac.eq (Jac.isWellFormed alt_bn128_b) alt_bn128_G1_one
    alt_bn128_Fr_params.modulus alt_bn128_G1_mul_by_cofactor :=
  Jac.cofactorClears (n := alt_bn128_G1_h) (order := alt_bn128_Fr_params.modulus) (alt_bn128_K.o1.two_ne (by decide +kernel)) (alt_bn128_K.o1.three_ne (by decide +kernel)) C52_alt_bn128_G1_generator.2.2.1
    C52_alt_bn128_G1_generator.2.2.2.2 alt_bn128_Fr_prime alt_bn128_G1_card (by decide +kernel)
    (fun {_ x} hg => (show x = alt_bn128_G1_h • x from (one_nsmul x).symm) ▸ hg)

/-- **C62.** The curve of `alt_bn128_G2` has exactly `h * r` points; an object passes `is_well_formed` iff it denotes one. -/
theorem C62_alt_bn128_G2_order : Nat.card (sw 0 alt_bn128_twist_b).Point = alt_bn128_G2_h * val alt_bn128_Fr_params.modulus ∧
    ∀ p, Jac.isWellFormed alt_bn128_twist_b p = true ↔ ∃ P : (sw 0 alt_bn128_twist_b).Point, JacRep p P :=
  ⟨alt_bn128_G2_card, C38_jacobian (alt_bn128_K.o2.two_ne (by decide +kernel)) (alt_bn128_K.o2.three_ne (by decide +kernel)) C52_alt_bn128_G2_generator.2.2.1⟩

/-- **C62.** `alt_bn128_G2::mul_by_cofactor`. -/
theorem C62_alt_bn128_G2_cofactor : CofactorClears Jac.ops Jac.eq (Jac.isWellFormed alt_bn128_twist_b) alt_bn128_G2_one
    alt_bn128_Fr_params.modulus alt_bn128_G2_mul_by_cofactor :=
  Jac.cofactorClears_mul (n := alt_bn128_G2_h) (order := alt_bn128_Fr_params.modulus) (alt_bn128_K.o2.two_ne (by decide +kernel)) (alt_bn128_K.o2.three_ne (by decide +kernel)) C52_alt_bn128_G2_generator.2.2.1
    C52_alt_bn128_G2_generator.2.2.2.2 alt_bn128_Fr_prime alt_bn128_G2_card (by decide +kernel)
    (e := alt_bn128_G2_h_bigint) (by decide +kernel)

/-- C62, finding: `is_well_formed` alone does not put an element into the group of order `r` (nothing else is checked when
an element is read from a stream). -/
theorem C62_alt_bn128_G2_outside : ∃ p, Jac.isWellFormed alt_bn128_twist_b p = true ∧
    Jac.eq (@scalarMul _ Jac.ops p alt_bn128_Fr_params.modulus) Jac.zero = false :=
  Jac.exists_outside (n := alt_bn128_G2_h) (alt_bn128_K.o2.two_ne (by decide +kernel)) (alt_bn128_K.o2.three_ne (by decide +kernel)) C52_alt_bn128_G2_generator.2.2.1
    C52_alt_bn128_G2_generator.2.2.2.2 alt_bn128_Fr_prime alt_bn128_G2_card (by decide +kernel) (by decide +kernel)

/-- **C62.** The curve of `bls12_381_G1` has exactly `h * r` points; an object passes `is_well_formed` iff it denotes one. -/
theorem C62_bls12_381_G1_order : Nat.card (sw 0 bls12_381_b).Point = bls12_381_G1_h * val bls12_381_Fr_params.modulus ∧
    ∀ p, Jac.isWellFormed bls12_381_b p = true ↔ ∃ P : (sw 0 bls12_381_b).Point, JacRep p P :=
  ⟨bls12_381_G1_card, C38_jacobian (bls12_381_K.o1.two_ne (by decide +kernel)) (bls12_381_K.o1.three_ne (by decide +kernel)) C52_bls12_381_G1_generator.2.2.1⟩

/-- **C62.** `bls12_381_G1::mul_by_cofactor`. -/
theorem C62_bls12_381_G1_cofactor : CofactorClears Jac.ops Jac.eq (Jac.isWellFormed bls12_381_b) bls12_381_G1_one
    bls12_381_Fr_params.modulus bls12_381_G1_mul_by_cofactor :=
  Jac.cofactorClears_mul (n := bls12_381_G1_h) (order := bls12_381_Fr_params.modulus) (bls12_381_K.o1.two_ne (by decide +kernel)) (bls12_381_K.o1.three_ne (by decide +kernel)) C52_bls12_381_G1_generator.2.2.1
    C52_bls12_381_G1_generator.2.2.2.2 bls12_381_Fr_prime bls12_381_G1_card (by decide +kernel)
    (e := bls12_381_G1_h_bigint) (by decide +kernel)

/-- C62, finding: `is_well_formed` alone does not put an element into the group of order `r` (nothing else is checked when
an element is read from a stream). -/
theorem C62_bls12_381_G1_outside : ∃ p, Jac.isWellFormed bls12_381_b p = true ∧
    Jac.eq (@scalarMul _ Jac.ops p bls12_381_Fr_params.modulus) Jac.zero = false :=
  Jac.exists_outside (n := bls12_381_G1_h) (bls12_381_K.o1.two_ne (by decide +kernel)) (bls12_381_K.o1.three_ne (by decide +kernel)) C52_bls12_381_G1_generator.2.2.1
    C52_bls12_381_G1_generator.2.2.2.2 bls12_381_Fr_prime bls12_381_G1_card (by decide +kernel) (by decide +kernel)

/-- **C62.** The curve of `bls12_381_G2` has exactly `h * r` points; an object passes `is_well_formed` iff it denotes one. -/
theorem C62_bls12_381_G2_order : Nat.card (sw 0 bls12_381_twist_b).Point = bls12_381_G2_h * val bls12_381_Fr_params.modulus ∧
    ∀ p, Jac.isWellFormed bls12_381_twist_b p = true ↔ ∃ P : (sw 0 bls12_381_twist_b).Point, JacRep p P :=
  ⟨bls12_381_G2_card, C38_jacobian (bls12_381_K.o2.two_ne (by decide +kernel)) (bls12_381_K.o2.three_ne (by decide +kernel)) C52_bls12_381_G2_generator.2.2.1⟩

/-- **C62.** `bls12_381_G2::mul_by_cofactor`. -/
theorem C62_bls12_381_G2_cofactor : CofactorClears Jac.ops Jac.eq (Jac.isWellFormed bls12_381_twist_b) bls12_381_G2_one
    bls12_381_Fr_params.modulus bls12_381_G2_mul_by_cofactor :=
  Jac.cofactorClears_mul (n := bls12_381_G2_h) (order := bls12_381_Fr_params.modulus) (bls12_381_K.o2.two_ne (by decide +kernel)) (bls12_381_K.o2.three_ne (by decide +kernel)) C52_bls12_381_G2_generator.2.2.1
    C52_bls12_381_G2_generator.2.2.2.2 bls12_381_Fr_prime bls12_381_G2_card (by decide +kernel)
    (e := bls12_381_G2_h_bigint) (by decide +kernel)

/-- C62, finding: `is_well_formed` alone does not put an element into the group of order `r` (nothing else is checked when
an element is read from a stream). -/
theorem C62_bls12_381_G2_outside : ∃ p, Jac.isWellFormed bls12_381_twist_b p = true ∧
    Jac.eq (@scalarMul _ Jac.ops p bls12_381_Fr_params.modulus) Jac.zero = false :=
  Jac.exists_outside (n := bls12_381_G2_h) (bls12_381_K.o2.two_ne (by decide +kernel)) (bls12_381_K.o2.three_ne (by decide +kernel)) C52_bls12_381_G2_generator.2.2.1
    C52_bls12_381_G2_generator.2.2.2.2 bls12_381_Fr_prime bls12_381_G2_card (by decide +kernel) (by decide +kernel)

/-- **C62.** The curve of `mnt4_G1` has exactly `h * r` points; an object passes `is_well_formed` iff it denotes one. -/
theorem C62_mnt4_G1_order : Nat.card (sw mnt4_a mnt4_b).Point = mnt4_G1_h * val mnt4_Fr_params.modulus ∧
    ∀ p, Proj.isWellFormed mnt4_a mnt4_b p = true ↔ ∃ P : (sw mnt4_a mnt4_b).Point, ProjRep p P :=
  ⟨mnt4_G1_card, C38_projective (mnt4_K.o1.two_ne (by decide +kernel)) C52_mnt4_G1_generator.2.1⟩

/-- **C62.** `mnt4_G1::mul_by_cofactor`. -/
theorem C62_mnt4_G1_cofactor : CofactorClears (Proj.ops mnt4_G1_mul_by_a) Proj.eq (Proj.isWellFormed mnt4_a mnt4_b) mnt4_G1_one
    mnt4_Fr_params.modulus mnt4_G1_mul_by_cofactor :=
  Proj.cofactorClears (n := mnt4_G1_h) (order := mnt4_Fr_params.modulus) (fun _ => rfl) (mnt4_K.o1.two_ne (by decide +kernel)) C52_mnt4_G1_generator.2.1 C52_mnt4_G1_generator.2.2.2 mnt4_Fr_prime mnt4_G1_card (by decide +kernel)
    (fun {_ x} hg => (show x = mnt4_G1_h • x from (one_nsmul x).symm) ▸ hg)

/-- **C62.** The curve of `mnt4_G2` has exactly `h * r` points; an object passes `is_well_formed` iff it denotes one. -/
theorem C62_mnt4_G2_order : Nat.card (sw mnt4_twist_a mnt4_twist_b).Point = mnt4_G2_h * val mnt4_Fr_params.modulus ∧
    ∀ p, Proj.isWellFormed mnt4_twist_a mnt4_twist_b p = true ↔ ∃ P : (sw mnt4_twist_a mnt4_twist_b).Point, ProjRep p P :=
  ⟨mnt4_G2_card, C38_projective (mnt4_K.o2.two_ne (by decide +kernel)) C52_mnt4_G2_generator.2.1⟩

/-- **C62.** `mnt4_G2::mul_by_cofactor`. -/
theorem C62_mnt4_G2_cofactor : CofactorClears (Proj.ops mnt4_G2_mul_by_a) Proj.eq (Proj.isWellFormed mnt4_twist_a mnt4_twist_b) mnt4_G2_one
    mnt4_Fr_params.modulus mnt4_G2_mul_by_cofactor :=
  Proj.cofactorClears_mul (n := mnt4_G2_h) (order := mnt4_Fr_params.modulus) (fun x => ((C36_mul_by_a mnt4_β mnt4_a mnt4_b).1 x).1) (mnt4_K.o2.two_ne (by decide +kernel)) C52_mnt4_G2_generator.2.1 C52_mnt4_G2_generator.2.2.2 mnt4_Fr_prime mnt4_G2_card (by decide +kernel)
    (e := mnt4_G2_h_bigint) (by decide +kernel)

/-- C62, finding: `is_well_formed` alone does not put an element into the group of order `r` (nothing else is checked when
an element is read from a stream). -/
theorem C62_mnt4_G2_outside : ∃ p, Proj.isWellFormed mnt4_twist_a mnt4_twist_b p = true ∧
    Proj.eq (@scalarMul _ (Proj.ops mnt4_G2_mul_by_a) p mnt4_Fr_params.modulus) Proj.zero = false :=
  Proj.exists_outside (n := mnt4_G2_h) (fun x => ((C36_mul_by_a mnt4_β mnt4_a mnt4_b).1 x).1) (mnt4_K.o2.two_ne (by decide +kernel)) C52_mnt4_G2_generator.2.1
    C52_mnt4_G2_generator.2.2.2 mnt4_Fr_prime mnt4_G2_card (by decide +kernel) (by decide +kernel)

/-- **C62.** The curve of `mnt6_G1` has exactly `h * r` points; an object passes `is_well_formed` iff it denotes one. -/
theorem C62_mnt6_G1_order : Nat.card (sw mnt6_a mnt6_b).Point = mnt6_G1_h * val mnt6_Fr_params.modulus ∧
    ∀ p, Proj.isWellFormed mnt6_a mnt6_b p = true ↔ ∃ P : (sw mnt6_a mnt6_b).Point, ProjRep p P :=
  ⟨mnt6_G1_card, C38_projective (mnt6_K.o1.two_ne (by decide +kernel)) C52_mnt6_G1_generator.2.1⟩

/-- **C62.** `mnt6_G1::mul_by_cofactor`. -/
theorem C62_mnt6_G1_cofactor : CofactorClears (Proj.ops mnt6_G1_mul_by_a) Proj.eq (Proj.isWellFormed mnt6_a mnt6_b) mnt6_G1_one
    mnt6_Fr_params.modulus mnt6_G1_mul_by_cofactor :=
  Proj.cofactorClears (n := mnt6_G1_h) (order := mnt6_Fr_params.modulus) (fun _ => rfl) (mnt6_K.o1.two_ne (by decide +kernel)) C52_mnt6_G1_generator.2.1 C52_mnt6_G1_generator.2.2.2 mnt6_Fr_prime mnt6_G1_card (by decide +kernel)
    (fun {_ x} hg => (show x = mnt6_G1_h • x from (one_nsmul x).symm) ▸ hg)

/-- **C62.** The curve of `mnt6_G2` has exactly `h * r` points; an object passes `is_well_formed` iff it denotes one. -/
theorem C62_mnt6_G2_order : Nat.card (sw mnt6_twist_a mnt6_twist_b).Point = mnt6_G2_h * val mnt6_Fr_params.modulus ∧
    ∀ p, Proj.isWellFormed mnt6_twist_a mnt6_twist_b p = true ↔ ∃ P : (sw mnt6_twist_a mnt6_twist_b).Point, ProjRep p P :=
  ⟨mnt6_G2_card, C38_projective (mnt6_K.o3.two_ne (by decide +kernel)) C52_mnt6_G2_generator.2.1⟩

/-- **C62.** `mnt6_G2::mul_by_cofactor`. -/
theorem C62_mnt6_G2_cofactor : CofactorClears (Proj.ops mnt6_G2_mul_by_a) Proj.eq (Proj.isWellFormed mnt6_twist_a mnt6_twist_b) mnt6_G2_one
    mnt6_Fr_params.modulus mnt6_G2_mul_by_cofactor :=
  Proj.cofactorClears_mul (n := mnt6_G2_h) (order := mnt6_Fr_params.modulus) (fun x => ((C36_mul_by_a mnt6_β mnt6_a mnt6_b).2.1 x).1) (mnt6_K.o3.two_ne (by decide +kernel)) C52_mnt6_G2_generator.2.1 C52_mnt6_G2_generator.2.2.2 mnt6_Fr_prime mnt6_G2_card (by decide +kernel)
    (e := mnt6_G2_h_bigint) (by decide +kernel)

/-- C62, finding: `is_well_formed` alone does not put an element into the group of order `r` (nothing else is checked when
an element is read from a stream). -/
theorem C62_mnt6_G2_outside : ∃ p, Proj.isWellFormed mnt6_twist_a mnt6_twist_b p = true ∧
    Proj.eq (@scalarMul _ (Proj.ops mnt6_G2_mul_by_a) p mnt6_Fr_params.modulus) Proj.zero = false :=
  Proj.exists_outside (n := mnt6_G2_h) (fun x => ((C36_mul_by_a mnt6_β mnt6_a mnt6_b).2.1 x).1) (mnt6_K.o3.two_ne (by decide +kernel)) C52_mnt6_G2_generator.2.1
    C52_mnt6_G2_generator.2.2.2 mnt6_Fr_prime mnt6_G2_card (by decide +kernel) (by decide +kernel)

/-- The statements range over something: the generators are well formed. -/
example : Jac.isWellFormed bls12_381_b bls12_381_G1_one = true ∧ Jac.isWellFormed bls12_381_twist_b bls12_381_G2_one = true :=
  C38_bls12_381_generators

/-- The point `(0, 2)` of bls12_381's curve, of order three, is well formed. -/
example : Jac.isWellFormed bls12_381_b (⟨0, ((2 : Nat) : bls12_381_Fq), 1⟩ : Coord3 bls12_381_Fq) = true :=
  (Jac.isWellFormed_relates bls12_381_K.o1 (b := NM.of bls12_381_coeff_b_nat) (FpRel.cast (by decide +kernel))
    (p := ⟨0, NM.of 2, 1⟩) ⟨bls12_381_K.o1.zero, FpRel.cast (v := 2) (by decide +kernel), bls12_381_K.o1.one⟩).symm.trans
    (by decide +kernel)

end Libff
