import Verif.Props.Untrusted
import Verif.Props.CofactorPairing

/-!
# C63 on the curves: elements read from any bytes

`c` (how field elements are read) and `lsb` are arbitrary here; the square root has the constants of the curve. The default
(compressed) format is meant; `C63_uncompressed_wrong` shows that nothing of this holds with `NO_PT_COMPRESSION`.
-/
namespace Libff
set_option synthInstance.maxSize 2000

/-- The square root constants of `alt_bn128_Fq`. -/
def alt_bn128_Fq_sqrt : SqrtConsts alt_bn128_Fq := @PrimeField.sqrtConsts alt_bn128_Fq_data alt_bn128_Fq_valid

theorem alt_bn128_Fq_sqrt_valid : alt_bn128_Fq_sqrt.Valid :=
  @C52_prime_sqrt alt_bn128_Fq_data C52_alt_bn128_prime_fields.2 alt_bn128_Fq_valid alt_bn128_Fq_isPrime

/-- **C63.** `alt_bn128_G1`: whatever the bytes, an element that is returned is on the curve. The cofactor is 1, so it is in the group of order `r` and, unless zero, an
argument of the pairing. -/
theorem C63_alt_bn128_G1 {binary debug : Bool} {fuel : Nat} (hf : alt_bn128_Fq_sqrt.s ≤ fuel) {c : FieldCodec alt_bn128_Fq}
    {lsb : alt_bn128_Fq → Outcome Bool} {s rest : List Byte} {p : Coord3 alt_bn128_Fq}
    (h : Jac.read binary true c lsb (fieldSqrt debug alt_bn128_Fq_sqrt fuel) alt_bn128_b s = .ok (p, rest)) :
    Jac.isWellFormed alt_bn128_b p = true ∧ (Jac.isZero p = false → alt_bn128_sub₁ p) := by
  have hs : SqrtSound (fieldSqrt debug alt_bn128_Fq_sqrt fuel : alt_bn128_Fq → Outcome alt_bn128_Fq) :=
    fieldSqrt_sound _ alt_bn128_Fq_sqrt_valid debug fuel hf
  have h' := (C63_jacobian_compressed hs h).1
  exact ⟨h', fun h0 => C62_alt_bn128_arguments.1 p h' h0⟩

/-- **C63.** `alt_bn128_G2`: an element that is returned is on the twist. If the order kills it, or after `mul_by_cofactor`, it
is an argument of the pairing unless it is zero. -/
theorem C63_alt_bn128_G2 {binary debug : Bool} {fuel : Nat} (hf : alt_bn128_Fq2_data.s ≤ fuel) {c : FieldCodec alt_bn128_Fq2}
    {lsb : alt_bn128_Fq2 → Outcome Bool} {s rest : List Byte} {q : Coord3 alt_bn128_Fq2}
    (h : Jac.read binary true c lsb (fieldSqrt debug (alt_bn128_Fq2_data.sqrtConsts 8 (dec2 Nat.cast : _ → alt_bn128_Fq2)) fuel)
      alt_bn128_twist_b s = .ok (q, rest)) :
    Jac.isWellFormed alt_bn128_twist_b q = true ∧
    (Jac.isZero q = false → Jac.eq (@scalarMul _ (Jac.ops) q alt_bn128_Fr_params.modulus) Jac.zero = true → alt_bn128_arg₂ q) ∧
    (Jac.isZero (alt_bn128_G2_mul_by_cofactor q) = false → alt_bn128_arg₂ (alt_bn128_G2_mul_by_cofactor q)) := by
  have hs : SqrtSound (fieldSqrt debug (alt_bn128_Fq2_data.sqrtConsts 8 (dec2 Nat.cast : _ → alt_bn128_Fq2)) fuel) :=
    fieldSqrt_sound _ C52_alt_bn128_square_roots.1 debug fuel hf
  have h' := (C63_jacobian_compressed hs h).1
  exact ⟨h', fun h0 hk => C62_alt_bn128_arguments.2.1 q h' h0 hk, fun h0 => C62_alt_bn128_arguments.2.2 q h' h0⟩

/-- The square root constants of `bls12_381_Fq`. -/
def bls12_381_Fq_sqrt : SqrtConsts bls12_381_Fq := @PrimeField.sqrtConsts bls12_381_Fq_data bls12_381_Fq_valid

theorem bls12_381_Fq_sqrt_valid : bls12_381_Fq_sqrt.Valid :=
  @C52_prime_sqrt bls12_381_Fq_data C52_bls12_381_prime_fields.2 bls12_381_Fq_valid bls12_381_Fq_isPrime

/-- **C63.** `bls12_381_G1`: whatever the bytes, an element that is returned is on the curve. -/
theorem C63_bls12_381_G1 {binary debug : Bool} {fuel : Nat} (hf : bls12_381_Fq_sqrt.s ≤ fuel) {c : FieldCodec bls12_381_Fq}
    {lsb : bls12_381_Fq → Outcome Bool} {s rest : List Byte} {p : Coord3 bls12_381_Fq}
    (h : Jac.read binary true c lsb (fieldSqrt debug bls12_381_Fq_sqrt fuel) bls12_381_b s = .ok (p, rest)) :
    Jac.isWellFormed bls12_381_b p = true := by
  have hs : SqrtSound (fieldSqrt debug bls12_381_Fq_sqrt fuel : bls12_381_Fq → Outcome bls12_381_Fq) :=
    fieldSqrt_sound _ bls12_381_Fq_sqrt_valid debug fuel hf
  have h' := (C63_jacobian_compressed hs h).1
  exact h'

/-- **C63.** `bls12_381_G2`: an element that is returned is on the twist. If the order kills it, or after `mul_by_cofactor`, it
is an argument of the pairing unless it is zero. -/
theorem C63_bls12_381_G2 {binary debug : Bool} {fuel : Nat} (hf : bls12_381_Fq2_data.s ≤ fuel) {c : FieldCodec bls12_381_Fq2}
    {lsb : bls12_381_Fq2 → Outcome Bool} {s rest : List Byte} {q : Coord3 bls12_381_Fq2}
    (h : Jac.read binary true c lsb (fieldSqrt debug (bls12_381_Fq2_data.sqrtConsts 12 (dec2 Nat.cast : _ → bls12_381_Fq2)) fuel)
      bls12_381_twist_b s = .ok (q, rest)) :
    Jac.isWellFormed bls12_381_twist_b q = true ∧
    (Jac.isZero q = false → Jac.eq (@scalarMul _ (Jac.ops) q bls12_381_Fr_params.modulus) Jac.zero = true → bls12_381_arg₂ q) ∧
    (Jac.isZero (bls12_381_G2_mul_by_cofactor q) = false → bls12_381_arg₂ (bls12_381_G2_mul_by_cofactor q)) := by
  have hs : SqrtSound (fieldSqrt debug (bls12_381_Fq2_data.sqrtConsts 12 (dec2 Nat.cast : _ → bls12_381_Fq2)) fuel) :=
    fieldSqrt_sound _ C52_bls12_381_square_roots.1 debug fuel hf
  have h' := (C63_jacobian_compressed hs h).1
  exact ⟨h', fun h0 hk => C62_bls12_381_arguments.2.1 q h' h0 hk, fun h0 => C62_bls12_381_arguments.2.2 q h' h0⟩

/-- The square root constants of `mnt4_Fq`. -/
def mnt4_Fq_sqrt : SqrtConsts mnt4_Fq := @PrimeField.sqrtConsts mnt4_Fq_data mnt4_Fq_valid

theorem mnt4_Fq_sqrt_valid : mnt4_Fq_sqrt.Valid :=
  @C52_prime_sqrt mnt4_Fq_data C52_mnt4_prime_fields.2 mnt4_Fq_valid mnt4_Fq_isPrime

/-- **C63.** `mnt4_G1`: whatever the bytes, an element that is returned is on the curve. The cofactor is 1, so it is in the group of order `r` and, unless zero, an
argument of the pairing. -/
theorem C63_mnt4_G1 {binary debug : Bool} {fuel : Nat} (hf : mnt4_Fq_sqrt.s ≤ fuel) {c : FieldCodec mnt4_Fq}
    {lsb : mnt4_Fq → Outcome Bool} {s rest : List Byte} {p : Coord3 mnt4_Fq}
    (h : Proj.read binary true c lsb (fieldSqrt debug mnt4_Fq_sqrt fuel) mnt4_a mnt4_b s = .ok (p, rest)) :
    Proj.isWellFormed mnt4_a mnt4_b p = true ∧ (Proj.isZero p = false → mnt4_sub₁ p) := by
  have hs : SqrtSound (fieldSqrt debug mnt4_Fq_sqrt fuel : mnt4_Fq → Outcome mnt4_Fq) :=
    fieldSqrt_sound _ mnt4_Fq_sqrt_valid debug fuel hf
  have h' := (C63_projective_compressed hs h).1
  exact ⟨h', fun h0 => C62_mnt4_arguments.1 p h' h0⟩

/-- **C63.** `mnt4_G2`: an element that is returned is on the twist. If the order kills it, or after `mul_by_cofactor`, it
is an argument of the pairing unless it is zero. -/
theorem C63_mnt4_G2 {binary debug : Bool} {fuel : Nat} (hf : mnt4_Fq2_data.s ≤ fuel) {c : FieldCodec mnt4_Fq2}
    {lsb : mnt4_Fq2 → Outcome Bool} {s rest : List Byte} {q : Coord3 mnt4_Fq2}
    (h : Proj.read binary true c lsb (fieldSqrt debug (mnt4_Fq2_data.sqrtConsts 10 (dec2 Nat.cast : _ → mnt4_Fq2)) fuel)
      mnt4_twist_a mnt4_twist_b s = .ok (q, rest)) :
    Proj.isWellFormed mnt4_twist_a mnt4_twist_b q = true ∧
    (Proj.isZero q = false → Proj.eq (@scalarMul _ (Proj.ops mnt4_G2_mul_by_a) q mnt4_Fr_params.modulus) Proj.zero = true → mnt4_arg₂ q) ∧
    (Proj.isZero (mnt4_G2_mul_by_cofactor q) = false → mnt4_arg₂ (mnt4_G2_mul_by_cofactor q)) := by
  have hs : SqrtSound (fieldSqrt debug (mnt4_Fq2_data.sqrtConsts 10 (dec2 Nat.cast : _ → mnt4_Fq2)) fuel) :=
    fieldSqrt_sound _ C52_mnt4_square_roots.1 debug fuel hf
  have h' := (C63_projective_compressed hs h).1
  exact ⟨h', fun h0 hk => C62_mnt4_arguments.2.1 q h' h0 hk, fun h0 => C62_mnt4_arguments.2.2 q h' h0⟩

/-- The square root constants of `mnt6_Fq`. -/
def mnt6_Fq_sqrt : SqrtConsts mnt6_Fq := @PrimeField.sqrtConsts mnt6_Fq_data mnt6_Fq_valid

theorem mnt6_Fq_sqrt_valid : mnt6_Fq_sqrt.Valid :=
  @C52_prime_sqrt mnt6_Fq_data C52_mnt6_prime_fields.2 mnt6_Fq_valid mnt6_Fq_isPrime

/-- **C63.** `mnt6_G1`: whatever the bytes, an element that is returned is on the curve. The cofactor is 1, so it is in the group of order `r` and, unless zero, an
argument of the pairing. -/
theorem C63_mnt6_G1 {binary debug : Bool} {fuel : Nat} (hf : mnt6_Fq_sqrt.s ≤ fuel) {c : FieldCodec mnt6_Fq}
    {lsb : mnt6_Fq → Outcome Bool} {s rest : List Byte} {p : Coord3 mnt6_Fq}
    (h : Proj.read binary true c lsb (fieldSqrt debug mnt6_Fq_sqrt fuel) mnt6_a mnt6_b s = .ok (p, rest)) :
    Proj.isWellFormed mnt6_a mnt6_b p = true ∧ (Proj.isZero p = false → mnt6_sub₁ p) := by
  have hs : SqrtSound (fieldSqrt debug mnt6_Fq_sqrt fuel : mnt6_Fq → Outcome mnt6_Fq) :=
    fieldSqrt_sound _ mnt6_Fq_sqrt_valid debug fuel hf
  have h' := (C63_projective_compressed hs h).1
  exact ⟨h', fun h0 => C62_mnt6_arguments.1 p h' h0⟩

/-- **C63.** `mnt6_G2`: an element that is returned is on the twist. If the order kills it, or after `mul_by_cofactor`, it
is an argument of the pairing unless it is zero. -/
theorem C63_mnt6_G2 {binary debug : Bool} {fuel : Nat} (hf : mnt6_Fq3_data.s ≤ fuel) {c : FieldCodec mnt6_Fq3}
    {lsb : mnt6_Fq3 → Outcome Bool} {s rest : List Byte} {q : Coord3 mnt6_Fq3}
    (h : Proj.read binary true c lsb (fieldSqrt debug (mnt6_Fq3_data.sqrtConsts 15 (dec3 Nat.cast : _ → mnt6_Fq3)) fuel)
      mnt6_twist_a mnt6_twist_b s = .ok (q, rest)) :
    Proj.isWellFormed mnt6_twist_a mnt6_twist_b q = true ∧
    (Proj.isZero q = false → Proj.eq (@scalarMul _ (Proj.ops mnt6_G2_mul_by_a) q mnt6_Fr_params.modulus) Proj.zero = true → mnt6_arg₂ q) ∧
    (Proj.isZero (mnt6_G2_mul_by_cofactor q) = false → mnt6_arg₂ (mnt6_G2_mul_by_cofactor q)) := by
  have hs : SqrtSound (fieldSqrt debug (mnt6_Fq3_data.sqrtConsts 15 (dec3 Nat.cast : _ → mnt6_Fq3)) fuel) :=
    fieldSqrt_sound _ C52_mnt6_square_roots.1 debug fuel hf
  have h' := (C63_projective_compressed hs h).1
  exact ⟨h', fun h0 hk => C62_mnt6_arguments.2.1 q h' h0 hk, fun h0 => C62_mnt6_arguments.2.2 q h' h0⟩

/-- The square root constants of `edwards_Fq`. -/
def edwards_Fq_sqrt : SqrtConsts edwards_Fq := @PrimeField.sqrtConsts edwards_Fq_data edwards_Fq_valid

theorem edwards_Fq_sqrt_valid : edwards_Fq_sqrt.Valid :=
  @C52_prime_sqrt edwards_Fq_data C52_edwards_prime_fields.2 edwards_Fq_valid edwards_Fq_isPrime

/-- **C63.** `edwards_G1`: an element that is returned is on the curve. -/
theorem C63_edwards_G1 {binary debug mixed : Bool} {fuel : Nat} (hf : edwards_Fq_sqrt.s ≤ fuel) {c : FieldCodec edwards_Fq}
    {lsb : edwards_Fq → Outcome Bool} {s rest : List Byte} {p : Coord3 edwards_Fq}
    (h : Edw.read binary true c lsb (fieldSqrt debug edwards_Fq_sqrt fuel) debug mixed (fun x => x) edwards_G1_mul_by_d s =
      .ok (p, rest)) :
    (∃ x y, Edw.readAffine binary true c lsb (fieldSqrt debug edwards_Fq_sqrt fuel) (fun x => x) edwards_G1_mul_by_d s =
      .ok ((x, y), rest) ∧ EdwOn 1 edwards_d x y) ∧ Edw.isWellFormed (fun x => x) edwards_G1_mul_by_d p = true :=
  C63_edwards_compressed (fieldSqrt_sound _ edwards_Fq_sqrt_valid debug fuel hf) (fun x => (one_mul x).symm) (fun _ => rfl) h

/-- **C63.** `edwards_G2`: an element that is returned is on the twist. -/
theorem C63_edwards_G2 {binary debug mixed : Bool} {fuel : Nat} (hf : edwards_Fq3_data.s ≤ fuel) {c : FieldCodec edwards_Fq3}
    {lsb : edwards_Fq3 → Outcome Bool} {s rest : List Byte} {p : Coord3 edwards_Fq3}
    (h : Edw.read binary true c lsb (fieldSqrt debug (edwards_Fq3_data.sqrtConsts 9 (dec3 Nat.cast : _ → edwards_Fq3)) fuel)
      debug mixed edwards_G2_mul_by_a edwards_G2_mul_by_d s = .ok (p, rest)) :
    (∃ x y, Edw.readAffine binary true c lsb
      (fieldSqrt debug (edwards_Fq3_data.sqrtConsts 9 (dec3 Nat.cast : _ → edwards_Fq3)) fuel)
      edwards_G2_mul_by_a edwards_G2_mul_by_d s = .ok ((x, y), rest) ∧ EdwOn edwards_twist_a edwards_twist_d x y) ∧
    Edw.isWellFormed edwards_G2_mul_by_a edwards_G2_mul_by_d p = true :=
  C63_edwards_compressed (fieldSqrt_sound _ C52_edwards_square_roots.1 debug fuel hf)
    (fun x => (C37_mul_by _ edwards_d x).1) (fun x => (C37_mul_by _ edwards_d x).2.1) h

/-- There are bytes that are read as a non-zero element: those of the generator. -/
example : ∃ s p, Jac.read false true (fpObjCodec false false alt_bn128_Fq_params 254) (fpLsb alt_bn128_Fq_params)
    (fieldSqrt true alt_bn128_Fq_sqrt 1) alt_bn128_b s = .ok (p, []) ∧ Jac.isZero p = false := by
  obtain ⟨P, hP, ho⟩ := C52_alt_bn128_G1_generator.2.2.2.2
  obtain ⟨q, ⟨out, -, h2⟩, h3, -⟩ := C39_jacobian_g1 alt_bn128_Fq_params false false true true 254
    (C52_bit_size alt_bn128_Fq_data C52_alt_bn128_prime_fields.2) alt_bn128_Fq_sqrt alt_bn128_Fq_sqrt_valid 1 (by decide)
    alt_bn128_b hP
  refine ⟨out, q, by simpa using h2 [] (Or.inl rfl), ?_⟩
  rw [← Bool.not_eq_true, Jac.isZero_rep h3]
  rintro rfl
  rw [addOrderOf_zero] at ho
  exact absurd ho (by decide +kernel)

end Libff
