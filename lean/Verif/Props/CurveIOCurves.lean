import Verif.Props.UntrustedCurves

/-!
# C39 on the curves: every well formed element is read back

The theorems of `Props/CurveIO` with the parameters of the curves put in, stated with the functions of the classes only: `is_well_formed` of
what is written, `==` and `is_special` of what is read. `mont`, `binary`, `compress` and `debug` are the build options, `fuel` is a bound for
the square root loop.
-/
namespace Libff
open WeierstrassCurve WeierstrassCurve.Affine
set_option synthInstance.maxSize 2000

section
variable {K : Type} [Field K] [DecidableEq K] [Squared K] [LawfulSquared K] [InverseO K] [LawfulInverse K]

theorem Jac.some_of_affine {b : K} {g : Coord3 K} {Q : (sw 0 b).Point} (hg : JacRep g Q) {Z : K → Prop}
    (h : ∀ x y, Jac.toAffine g = .ok ⟨x, y, 1⟩ → Z y) : ∀ x y h, Q = Point.some x y h → Z y := by
  rintro x y h' rfl
  rcases Jac.toAffine_rep hg with ⟨e, -⟩ | ⟨x', y', hk, k, e⟩
  · exact absurd e (Point.some_ne_zero h')
  · obtain ⟨rfl, rfl⟩ := Point.some.inj k
    exact h _ _ e

omit [Squared K] [LawfulSquared K] in
theorem Proj.some_of_affine {a b : K} {g : Coord3 K} {Q : (sw a b).Point} (hg : ProjRep g Q) {Z : K → Prop}
    (h : ∀ x y, Proj.toAffine g = .ok ⟨x, y, 1⟩ → Z y) : ∀ x y h, Q = Point.some x y h → Z y := by
  rintro x y h' rfl
  rcases Proj.toAffine_rep hg with ⟨e, -⟩ | ⟨x', y', hk, k, e⟩
  · exact absurd e (Point.some_ne_zero h')
  · obtain ⟨rfl, rfl⟩ := Point.some.inj k
    exact h _ _ e

omit [LawfulSquared K] [LawfulInverse K] in
theorem Jac.isSpecial_toAffine {g q : Coord3 K} (h : Jac.toAffine g = .ok q) : Jac.isSpecial q = true := by
  unfold Jac.toAffine at h
  split at h
  · obtain rfl := Outcome.ok.inj h; simp [Jac.isSpecial, Jac.isZero]
  · obtain ⟨z, -, rfl⟩ := (Outcome.map_eq_ok).1 h; simp [Jac.isSpecial]

omit [Squared K] [LawfulSquared K] [LawfulInverse K] in
theorem Proj.isSpecial_toAffine {g q : Coord3 K} (h : Proj.toAffine g = .ok q) : Proj.isSpecial q = true := by
  unfold Proj.toAffine at h
  split at h
  · obtain rfl := Outcome.ok.inj h; simp [Proj.isSpecial, Proj.isZero]
  · obtain ⟨z, -, rfl⟩ := (Outcome.map_eq_ok).1 h; simp [Proj.isSpecial]

end


section Generic
variable (P : FpParams) [hP : Fact P.Valid] [hp : Fact P.p.Prime] (mont binary compress debug : Bool) (bits : Nat) (hb : BitSize P bits)
include hP hp hb

theorem jacobian_g1_wellFormed (C : SqrtConsts (Fp P)) (hC : C.Valid) (fuel : Nat) (hf : C.s ≤ fuel)
    (b : Fp P) (h2 : (2 : Fp P) ≠ 0) (h3 : (3 : Fp P) ≠ 0) (hb0 : b ≠ 0) (g : Coord3 (Fp P)) (hg : Jac.isWellFormed b g = true) :
    ∃ q, ReadsBack (PointCont binary compress) (Jac.write binary compress (fpObjCodec mont binary P bits) (fpLsb P))
        (Jac.read binary compress (fpObjCodec mont binary P bits) (fpLsb P) (fieldSqrt debug C fuel) b) g q ∧
      Jac.isWellFormed b q = true ∧ Jac.isSpecial q = true ∧ Jac.eq g q = true := by
  obtain ⟨Q, hQ⟩ := (C38_jacobian h2 h3 hb0 g).1 hg
  obtain ⟨q, h1, h2', h3', h4⟩ := C39_jacobian_g1 P mont binary compress debug bits hb C hC fuel hf b hQ
  exact ⟨q, h1, (C38_jacobian h2 h3 hb0 q).2 ⟨Q, h2'⟩, Jac.isSpecial_toAffine h3', h4⟩

theorem jacobian_g2_wellFormed (β : Fp P) [Fact (¬ IsSquare β)] (C : SqrtConsts (Fp2 (Fp P) β)) (hC : C.Valid) (fuel : Nat) (hf : C.s ≤ fuel)
    (b : Fp2 (Fp P) β) (h2 : (2 : Fp2 (Fp P) β) ≠ 0) (h3 : (3 : Fp2 (Fp P) β) ≠ 0) (hb0 : b ≠ 0) (g : Coord3 (Fp2 (Fp P) β)) (hg : Jac.isWellFormed b g = true)
    (hy : compress = true → ∀ x y, Jac.toAffine g = .ok ⟨x, y, 1⟩ → y.c0 ≠ 0 ∨ y = 0) :
    ∃ q, ReadsBack (PointCont binary compress) (Jac.write binary compress (quadCodec binary (fpObjCodec mont binary P bits)) (fp2Lsb P))
        (Jac.read binary compress (quadCodec binary (fpObjCodec mont binary P bits)) (fp2Lsb P) (fieldSqrt debug C fuel) b) g q ∧
      Jac.isWellFormed b q = true ∧ Jac.isSpecial q = true ∧ Jac.eq g q = true := by
  obtain ⟨Q, hQ⟩ := (C38_jacobian h2 h3 hb0 g).1 hg
  obtain ⟨q, h1, h2', h3', h4⟩ := C39_jacobian_g2 P mont binary compress debug bits hb β C hC fuel hf b hQ
    (fun hc => Jac.some_of_affine hQ (hy hc))
  exact ⟨q, h1, (C38_jacobian h2 h3 hb0 q).2 ⟨Q, h2'⟩, Jac.isSpecial_toAffine h3', h4⟩

theorem projective_g1_wellFormed (C : SqrtConsts (Fp P)) (hC : C.Valid) (fuel : Nat) (hf : C.s ≤ fuel)
    (a b : Fp P) (h2 : (2 : Fp P) ≠ 0) (hd : 4 * a ^ 3 + 27 * b ^ 2 ≠ 0) (g : Coord3 (Fp P)) (hg : Proj.isWellFormed a b g = true) :
    ∃ q, ReadsBack (PointCont binary compress) (Proj.write binary compress (fpObjCodec mont binary P bits) (fpLsb P))
        (Proj.read binary compress (fpObjCodec mont binary P bits) (fpLsb P) (fieldSqrt debug C fuel) a b) g q ∧
      Proj.isWellFormed a b q = true ∧ Proj.isSpecial q = true ∧ Proj.eq g q = true := by
  obtain ⟨Q, hQ⟩ := (C38_projective h2 hd g).1 hg
  obtain ⟨q, h1, h2', h3', h4⟩ := C39_projective_g1 P mont binary compress debug bits hb C hC fuel hf a b hQ
  exact ⟨q, h1, (C38_projective h2 hd q).2 ⟨Q, h2'⟩, Proj.isSpecial_toAffine h3', h4⟩

theorem projective_g2_wellFormed (β : Fp P) [Fact (¬ IsSquare β)] (C : SqrtConsts (Fp2 (Fp P) β)) (hC : C.Valid) (fuel : Nat) (hf : C.s ≤ fuel)
    (a b : Fp2 (Fp P) β) (h2 : (2 : Fp2 (Fp P) β) ≠ 0) (hd : 4 * a ^ 3 + 27 * b ^ 2 ≠ 0) (g : Coord3 (Fp2 (Fp P) β)) (hg : Proj.isWellFormed a b g = true)
    (hy : compress = true → ∀ x y, Proj.toAffine g = .ok ⟨x, y, 1⟩ → y.c0 ≠ 0 ∨ y = 0) :
    ∃ q, ReadsBack (PointCont binary compress) (Proj.write binary compress (quadCodec binary (fpObjCodec mont binary P bits)) (fp2Lsb P))
        (Proj.read binary compress (quadCodec binary (fpObjCodec mont binary P bits)) (fp2Lsb P) (fieldSqrt debug C fuel) a b) g q ∧
      Proj.isWellFormed a b q = true ∧ Proj.isSpecial q = true ∧ Proj.eq g q = true := by
  obtain ⟨Q, hQ⟩ := (C38_projective h2 hd g).1 hg
  obtain ⟨q, h1, h2', h3', h4⟩ := C39_projective_g2 P mont binary compress debug bits hb β C hC fuel hf a b hQ
    (fun hc => Proj.some_of_affine hQ (hy hc))
  exact ⟨q, h1, (C38_projective h2 hd q).2 ⟨Q, h2'⟩, Proj.isSpecial_toAffine h3', h4⟩

theorem projective_g2_fp3_wellFormed (β : Fp P) [Fact (∀ y : Fp P, y * y * y ≠ β)] (C : SqrtConsts (Fp3 (Fp P) β)) (hC : C.Valid) (fuel : Nat) (hf : C.s ≤ fuel)
    (a b : Fp3 (Fp P) β) (h2 : (2 : Fp3 (Fp P) β) ≠ 0) (hd : 4 * a ^ 3 + 27 * b ^ 2 ≠ 0) (g : Coord3 (Fp3 (Fp P) β)) (hg : Proj.isWellFormed a b g = true)
    (hy : compress = true → ∀ x y, Proj.toAffine g = .ok ⟨x, y, 1⟩ → y.c0 ≠ 0 ∨ y = 0) :
    ∃ q, ReadsBack (PointCont binary compress) (Proj.write binary compress (cubicCodec binary (fpObjCodec mont binary P bits)) (fp3Lsb P))
        (Proj.read binary compress (cubicCodec binary (fpObjCodec mont binary P bits)) (fp3Lsb P) (fieldSqrt debug C fuel) a b) g q ∧
      Proj.isWellFormed a b q = true ∧ Proj.isSpecial q = true ∧ Proj.eq g q = true := by
  obtain ⟨Q, hQ⟩ := (C38_projective h2 hd g).1 hg
  obtain ⟨q, h1, h2', h3', h4⟩ := C39_projective_g2_fp3 P mont binary compress debug bits hb β C hC fuel hf a b hQ
    (fun hc => Proj.some_of_affine hQ (hy hc))
  exact ⟨q, h1, (C38_projective h2 hd q).2 ⟨Q, h2'⟩, Proj.isSpecial_toAffine h3', h4⟩

theorem edwards_g1_wellFormed (mixed : Bool) (C : SqrtConsts (Fp P)) (hC : C.Valid) (fuel : Nat) (hf : C.s ≤ fuel)
    (d : Fp P) (had : 1 - d ≠ 0) (g : Coord3 (Fp P))
    (hg : Edw.isZero g = true ∨ (Edw.isWellFormed (fun x => x) (fun x => d * x) g = true ∧ g.X ≠ 0 ∧ g.Y ≠ 0 ∧ g.Z ≠ 0)) :
    ∃ q, ReadsBack (PointCont binary compress) (Edw.write binary compress (fpObjCodec mont binary P bits) (fpLsb P))
        (Edw.read binary compress (fpObjCodec mont binary P bits) (fpLsb P) (fieldSqrt debug C fuel) debug mixed (fun x => x) (fun x => d * x)) g q ∧
      Edw.isWellFormed (fun x => x) (fun x => d * x) q = true ∧ Edw.eq g q = true := by
  have hQ : ∃ Q : (edwW 1 d).Point, EdwRep g Q := by
    rcases hg with h | ⟨h, hX, hY, hZ⟩
    · exact ⟨.zero, (by simpa [Edw.isZero] using h : g.Y = 0 ∧ g.Z = 0)⟩
    · exact (C38_edwards_partial (fun x => (one_mul x).symm) (fun _ => rfl) (fp_two_ne_zero P) had g hX hY hZ).2.1 h
  obtain ⟨Q, hQ⟩ := hQ
  obtain ⟨q, h1, h2, h3⟩ := C39_edwards_g1 P mont binary compress debug mixed bits hb C hC fuel hf d had hQ
  exact ⟨q, h1, C38_edwards_complete (fun x => (one_mul x).symm) (fun _ => rfl) h2, h3⟩

theorem edwards_g2_wellFormed (β : Fp P) [Fact (∀ y : Fp P, y * y * y ≠ β)] (mixed : Bool) (C : SqrtConsts (Fp3 (Fp P) β)) (hC : C.Valid) (fuel : Nat) (hf : C.s ≤ fuel)
    {mulA mulD : Fp3 (Fp P) β → Fp3 (Fp P) β} {a d : Fp3 (Fp P) β} (hA : ∀ x, mulA x = a * x)
    (hD : ∀ x, mulD x = d * x) (had : a - d ≠ 0) (g : Coord3 (Fp3 (Fp P) β))
    (hg : Edw.isZero g = true ∨ (Edw.isWellFormed mulA mulD g = true ∧ g.X ≠ 0 ∧ g.Y ≠ 0 ∧ g.Z ≠ 0))
    (hy : compress = true → ∀ x y, Edw.toAffine g = .ok ⟨x, y, 1⟩ → y.c0 ≠ 0) :
    ∃ q, ReadsBack (PointCont binary compress) (Edw.write binary compress (cubicCodec binary (fpObjCodec mont binary P bits)) (fp3Lsb P))
        (Edw.read binary compress (cubicCodec binary (fpObjCodec mont binary P bits)) (fp3Lsb P) (fieldSqrt debug C fuel) debug mixed mulA mulD) g q ∧
      Edw.isWellFormed mulA mulD q = true ∧ Edw.eq g q = true := by
  have hQ : ∃ Q : (edwW a d).Point, EdwRep g Q := by
    rcases hg with h | ⟨h, hX, hY, hZ⟩
    · exact ⟨.zero, (by simpa [Edw.isZero] using h : g.Y = 0 ∧ g.Z = 0)⟩
    · exact (C38_edwards_partial hA hD (fun h => fp_two_ne_zero P (congrArg Cubic.c0 h)) had g hX hY hZ).2.1 h
  obtain ⟨Q, hQ⟩ := hQ
  obtain ⟨q, h1, h2, h3⟩ := C39_edwards_g2 P mont binary compress debug mixed bits hb β C hC fuel hf hA hD had hQ
    (fun hc h0 => by
      rcases Edw.toAffine_rep hQ with ⟨e, -⟩ | ⟨-, e, -⟩
      · exact absurd e h0
      · exact hy hc _ _ e)
  exact ⟨q, h1, C38_edwards_complete hA hD h2, h3⟩

end Generic

variable (mont binary compress debug : Bool) (fuel : Nat)

/-- **C39**, `alt_bn128_G1`: whatever is well formed is written, and read back as an equal element in affine form. -/
theorem C39_alt_bn128_G1 (hf : alt_bn128_Fq_sqrt.s ≤ fuel) (g : Coord3 alt_bn128_Fq) (hg : Jac.isWellFormed alt_bn128_b g = true) :
    ∃ q, ReadsBack (PointCont binary compress) (Jac.write binary compress (fpObjCodec mont binary alt_bn128_Fq_params alt_bn128_Fq_data.numBits) (fpLsb alt_bn128_Fq_params))
        (Jac.read binary compress (fpObjCodec mont binary alt_bn128_Fq_params alt_bn128_Fq_data.numBits) (fpLsb alt_bn128_Fq_params)
          (fieldSqrt debug alt_bn128_Fq_sqrt fuel) alt_bn128_b) g q ∧
      Jac.isWellFormed alt_bn128_b q = true ∧ Jac.isSpecial q = true ∧ Jac.eq g q = true :=
  jacobian_g1_wellFormed alt_bn128_Fq_params mont binary compress debug alt_bn128_Fq_data.numBits
    (C52_bit_size alt_bn128_Fq_data C52_alt_bn128_prime_fields.2) alt_bn128_Fq_sqrt alt_bn128_Fq_sqrt_valid fuel hf alt_bn128_b
    (by have h := C52_alt_bn128_G1_generator.1; with_reducible_and_instances exact h)
    (by have h := C52_alt_bn128_G1_generator.2.1; with_reducible_and_instances exact h)
    (by have h := C52_alt_bn128_G1_generator.2.2.1; with_reducible_and_instances exact h) g hg

/-- **C39**, `alt_bn128_G2`: the same, for compressed output unless the affine `Y` has `c0 = 0` and is not zero. -/
theorem C39_alt_bn128_G2 (hf : alt_bn128_Fq2_data.s ≤ fuel) (g : Coord3 alt_bn128_Fq2) (hg : Jac.isWellFormed alt_bn128_twist_b g = true)
    (hy : compress = true → ∀ x y, Jac.toAffine g = .ok ⟨x, y, 1⟩ → y.c0 ≠ 0 ∨ y = 0) :
    ∃ q, ReadsBack (PointCont binary compress) (Jac.write binary compress (quadCodec binary (fpObjCodec mont binary alt_bn128_Fq_params alt_bn128_Fq_data.numBits)) (fp2Lsb alt_bn128_Fq_params))
        (Jac.read binary compress (quadCodec binary (fpObjCodec mont binary alt_bn128_Fq_params alt_bn128_Fq_data.numBits)) (fp2Lsb alt_bn128_Fq_params)
          (fieldSqrt debug (alt_bn128_Fq2_data.sqrtConsts 8 (dec2 Nat.cast : _ → alt_bn128_Fq2)) fuel) alt_bn128_twist_b) g q ∧
      Jac.isWellFormed alt_bn128_twist_b q = true ∧ Jac.isSpecial q = true ∧ Jac.eq g q = true :=
  jacobian_g2_wellFormed alt_bn128_Fq_params mont binary compress debug alt_bn128_Fq_data.numBits
    (C52_bit_size alt_bn128_Fq_data C52_alt_bn128_prime_fields.2) alt_bn128_β _ C52_alt_bn128_square_roots.1 fuel hf alt_bn128_twist_b
    (by have h := C52_alt_bn128_G2_generator.1; with_reducible_and_instances exact h)
    (by have h := C52_alt_bn128_G2_generator.2.1; with_reducible_and_instances exact h)
    (by have h := C52_alt_bn128_G2_generator.2.2.1; with_reducible_and_instances exact h) g hg hy

/-- **C39**, `bls12_381_G1`: whatever is well formed is written, and read back as an equal element in affine form. -/
theorem C39_bls12_381_G1 (hf : bls12_381_Fq_sqrt.s ≤ fuel) (g : Coord3 bls12_381_Fq) (hg : Jac.isWellFormed bls12_381_b g = true) :
    ∃ q, ReadsBack (PointCont binary compress) (Jac.write binary compress (fpObjCodec mont binary bls12_381_Fq_params bls12_381_Fq_data.numBits) (fpLsb bls12_381_Fq_params))
        (Jac.read binary compress (fpObjCodec mont binary bls12_381_Fq_params bls12_381_Fq_data.numBits) (fpLsb bls12_381_Fq_params)
          (fieldSqrt debug bls12_381_Fq_sqrt fuel) bls12_381_b) g q ∧
      Jac.isWellFormed bls12_381_b q = true ∧ Jac.isSpecial q = true ∧ Jac.eq g q = true :=
  jacobian_g1_wellFormed bls12_381_Fq_params mont binary compress debug bls12_381_Fq_data.numBits
    (C52_bit_size bls12_381_Fq_data C52_bls12_381_prime_fields.2) bls12_381_Fq_sqrt bls12_381_Fq_sqrt_valid fuel hf bls12_381_b
    (by have h := C52_bls12_381_G1_generator.1; with_reducible_and_instances exact h)
    (by have h := C52_bls12_381_G1_generator.2.1; with_reducible_and_instances exact h)
    (by have h := C52_bls12_381_G1_generator.2.2.1; with_reducible_and_instances exact h) g hg

/-- **C39**, `bls12_381_G2`: the same, for compressed output unless the affine `Y` has `c0 = 0` and is not zero. -/
theorem C39_bls12_381_G2 (hf : bls12_381_Fq2_data.s ≤ fuel) (g : Coord3 bls12_381_Fq2) (hg : Jac.isWellFormed bls12_381_twist_b g = true)
    (hy : compress = true → ∀ x y, Jac.toAffine g = .ok ⟨x, y, 1⟩ → y.c0 ≠ 0 ∨ y = 0) :
    ∃ q, ReadsBack (PointCont binary compress) (Jac.write binary compress (quadCodec binary (fpObjCodec mont binary bls12_381_Fq_params bls12_381_Fq_data.numBits)) (fp2Lsb bls12_381_Fq_params))
        (Jac.read binary compress (quadCodec binary (fpObjCodec mont binary bls12_381_Fq_params bls12_381_Fq_data.numBits)) (fp2Lsb bls12_381_Fq_params)
          (fieldSqrt debug (bls12_381_Fq2_data.sqrtConsts 12 (dec2 Nat.cast : _ → bls12_381_Fq2)) fuel) bls12_381_twist_b) g q ∧
      Jac.isWellFormed bls12_381_twist_b q = true ∧ Jac.isSpecial q = true ∧ Jac.eq g q = true :=
  jacobian_g2_wellFormed bls12_381_Fq_params mont binary compress debug bls12_381_Fq_data.numBits
    (C52_bit_size bls12_381_Fq_data C52_bls12_381_prime_fields.2) bls12_381_β _ C52_bls12_381_square_roots.1 fuel hf bls12_381_twist_b
    (by have h := C52_bls12_381_G2_generator.1; with_reducible_and_instances exact h)
    (by have h := C52_bls12_381_G2_generator.2.1; with_reducible_and_instances exact h)
    (by have h := C52_bls12_381_G2_generator.2.2.1; with_reducible_and_instances exact h) g hg hy

/-- **C39**, `mnt4_G1`: whatever is well formed is written, and read back as an equal element in affine form. -/
theorem C39_mnt4_G1 (hf : mnt4_Fq_sqrt.s ≤ fuel) (g : Coord3 mnt4_Fq) (hg : Proj.isWellFormed mnt4_a mnt4_b g = true) :
    ∃ q, ReadsBack (PointCont binary compress) (Proj.write binary compress (fpObjCodec mont binary mnt4_Fq_params mnt4_Fq_data.numBits) (fpLsb mnt4_Fq_params))
        (Proj.read binary compress (fpObjCodec mont binary mnt4_Fq_params mnt4_Fq_data.numBits) (fpLsb mnt4_Fq_params)
          (fieldSqrt debug mnt4_Fq_sqrt fuel) mnt4_a mnt4_b) g q ∧
      Proj.isWellFormed mnt4_a mnt4_b q = true ∧ Proj.isSpecial q = true ∧ Proj.eq g q = true :=
  projective_g1_wellFormed mnt4_Fq_params mont binary compress debug mnt4_Fq_data.numBits
    (C52_bit_size mnt4_Fq_data C52_mnt4_prime_fields.2) mnt4_Fq_sqrt mnt4_Fq_sqrt_valid fuel hf mnt4_a mnt4_b
    (by have h := C52_mnt4_G1_generator.1; with_reducible_and_instances exact h)
    (by have h := C52_mnt4_G1_generator.2.1; with_reducible_and_instances exact h) g hg

/-- **C39**, `mnt4_G2`: the same, for compressed output unless the affine `Y` has `c0 = 0` and is not zero. -/
theorem C39_mnt4_G2 (hf : mnt4_Fq2_data.s ≤ fuel) (g : Coord3 mnt4_Fq2) (hg : Proj.isWellFormed mnt4_twist_a mnt4_twist_b g = true)
    (hy : compress = true → ∀ x y, Proj.toAffine g = .ok ⟨x, y, 1⟩ → y.c0 ≠ 0 ∨ y = 0) :
    ∃ q, ReadsBack (PointCont binary compress) (Proj.write binary compress (quadCodec binary (fpObjCodec mont binary mnt4_Fq_params mnt4_Fq_data.numBits)) (fp2Lsb mnt4_Fq_params))
        (Proj.read binary compress (quadCodec binary (fpObjCodec mont binary mnt4_Fq_params mnt4_Fq_data.numBits)) (fp2Lsb mnt4_Fq_params)
          (fieldSqrt debug (mnt4_Fq2_data.sqrtConsts 10 (dec2 Nat.cast : _ → mnt4_Fq2)) fuel) mnt4_twist_a mnt4_twist_b) g q ∧
      Proj.isWellFormed mnt4_twist_a mnt4_twist_b q = true ∧ Proj.isSpecial q = true ∧ Proj.eq g q = true :=
  projective_g2_wellFormed mnt4_Fq_params mont binary compress debug mnt4_Fq_data.numBits
    (C52_bit_size mnt4_Fq_data C52_mnt4_prime_fields.2) mnt4_β _ C52_mnt4_square_roots.1 fuel hf mnt4_twist_a mnt4_twist_b
    (by have h := C52_mnt4_G2_generator.1; with_reducible_and_instances exact h)
    (by have h := C52_mnt4_G2_generator.2.1; with_reducible_and_instances exact h) g hg hy

/-- **C39**, `mnt6_G1`: whatever is well formed is written, and read back as an equal element in affine form. -/
theorem C39_mnt6_G1 (hf : mnt6_Fq_sqrt.s ≤ fuel) (g : Coord3 mnt6_Fq) (hg : Proj.isWellFormed mnt6_a mnt6_b g = true) :
    ∃ q, ReadsBack (PointCont binary compress) (Proj.write binary compress (fpObjCodec mont binary mnt6_Fq_params mnt6_Fq_data.numBits) (fpLsb mnt6_Fq_params))
        (Proj.read binary compress (fpObjCodec mont binary mnt6_Fq_params mnt6_Fq_data.numBits) (fpLsb mnt6_Fq_params)
          (fieldSqrt debug mnt6_Fq_sqrt fuel) mnt6_a mnt6_b) g q ∧
      Proj.isWellFormed mnt6_a mnt6_b q = true ∧ Proj.isSpecial q = true ∧ Proj.eq g q = true :=
  projective_g1_wellFormed mnt6_Fq_params mont binary compress debug mnt6_Fq_data.numBits
    (C52_bit_size mnt6_Fq_data C52_mnt6_prime_fields.2) mnt6_Fq_sqrt mnt6_Fq_sqrt_valid fuel hf mnt6_a mnt6_b
    (by have h := C52_mnt6_G1_generator.1; with_reducible_and_instances exact h)
    (by have h := C52_mnt6_G1_generator.2.1; with_reducible_and_instances exact h) g hg

/-- **C39**, `mnt6_G2`: the same, for compressed output unless the affine `Y` has `c0 = 0` and is not zero. -/
theorem C39_mnt6_G2 (hf : mnt6_Fq3_data.s ≤ fuel) (g : Coord3 mnt6_Fq3) (hg : Proj.isWellFormed mnt6_twist_a mnt6_twist_b g = true)
    (hy : compress = true → ∀ x y, Proj.toAffine g = .ok ⟨x, y, 1⟩ → y.c0 ≠ 0 ∨ y = 0) :
    ∃ q, ReadsBack (PointCont binary compress) (Proj.write binary compress (cubicCodec binary (fpObjCodec mont binary mnt6_Fq_params mnt6_Fq_data.numBits)) (fp3Lsb mnt6_Fq_params))
        (Proj.read binary compress (cubicCodec binary (fpObjCodec mont binary mnt6_Fq_params mnt6_Fq_data.numBits)) (fp3Lsb mnt6_Fq_params)
          (fieldSqrt debug (mnt6_Fq3_data.sqrtConsts 15 (dec3 Nat.cast : _ → mnt6_Fq3)) fuel) mnt6_twist_a mnt6_twist_b) g q ∧
      Proj.isWellFormed mnt6_twist_a mnt6_twist_b q = true ∧ Proj.isSpecial q = true ∧ Proj.eq g q = true :=
  projective_g2_fp3_wellFormed mnt6_Fq_params mont binary compress debug mnt6_Fq_data.numBits
    (C52_bit_size mnt6_Fq_data C52_mnt6_prime_fields.2) mnt6_β _ C52_mnt6_square_roots.1 fuel hf mnt6_twist_a mnt6_twist_b
    (by have h := C52_mnt6_G2_generator.1; with_reducible_and_instances exact h)
    (by have h := C52_mnt6_G2_generator.2.1; with_reducible_and_instances exact h) g hg hy

/-- **C39**, `edwards_G1`: every element that is zero or well formed with no coordinate zero (see `C38_edwards_wrong` for the others). -/
theorem C39_edwards_G1 (mixed : Bool) (hf : edwards_Fq_sqrt.s ≤ fuel) (g : Coord3 edwards_Fq)
    (hg : Edw.isZero g = true ∨ (Edw.isWellFormed (fun x => x) edwards_G1_mul_by_d g = true ∧ g.X ≠ 0 ∧ g.Y ≠ 0 ∧ g.Z ≠ 0)) :
    ∃ q, ReadsBack (PointCont binary compress) (Edw.write binary compress (fpObjCodec mont binary edwards_Fq_params edwards_Fq_data.numBits) (fpLsb edwards_Fq_params))
        (Edw.read binary compress (fpObjCodec mont binary edwards_Fq_params edwards_Fq_data.numBits) (fpLsb edwards_Fq_params)
          (fieldSqrt debug edwards_Fq_sqrt fuel) debug mixed (fun x => x) edwards_G1_mul_by_d) g q ∧
      Edw.isWellFormed (fun x => x) edwards_G1_mul_by_d q = true ∧ Edw.eq g q = true :=
  edwards_g1_wellFormed edwards_Fq_params mont binary compress debug edwards_Fq_data.numBits
    (C52_bit_size edwards_Fq_data C52_edwards_prime_fields.2) mixed edwards_Fq_sqrt edwards_Fq_sqrt_valid fuel hf edwards_d
    (by have h := C52_edwards_G1_generator.2.1; with_reducible_and_instances exact h) g hg

/-- **C39**, `edwards_G2`: the same, for compressed output unless the affine `Y` has `c0 = 0`. -/
theorem C39_edwards_G2 (mixed : Bool) (hf : edwards_Fq3_data.s ≤ fuel) (g : Coord3 edwards_Fq3)
    (hg : Edw.isZero g = true ∨ (Edw.isWellFormed edwards_G2_mul_by_a edwards_G2_mul_by_d g = true ∧ g.X ≠ 0 ∧ g.Y ≠ 0 ∧ g.Z ≠ 0))
    (hy : compress = true → ∀ x y, Edw.toAffine g = .ok ⟨x, y, 1⟩ → y.c0 ≠ 0) :
    ∃ q, ReadsBack (PointCont binary compress) (Edw.write binary compress (cubicCodec binary (fpObjCodec mont binary edwards_Fq_params edwards_Fq_data.numBits)) (fp3Lsb edwards_Fq_params))
        (Edw.read binary compress (cubicCodec binary (fpObjCodec mont binary edwards_Fq_params edwards_Fq_data.numBits)) (fp3Lsb edwards_Fq_params)
          (fieldSqrt debug (edwards_Fq3_data.sqrtConsts 9 (dec3 Nat.cast : _ → edwards_Fq3)) fuel) debug mixed
          edwards_G2_mul_by_a edwards_G2_mul_by_d) g q ∧
      Edw.isWellFormed edwards_G2_mul_by_a edwards_G2_mul_by_d q = true ∧ Edw.eq g q = true :=
  edwards_g2_wellFormed edwards_Fq_params mont binary compress debug edwards_Fq_data.numBits
    (C52_bit_size edwards_Fq_data C52_edwards_prime_fields.2) edwards_β mixed _ C52_edwards_square_roots.1 fuel hf
    (fun x => (C37_mul_by _ edwards_d x).1) (fun x => (C37_mul_by _ edwards_d x).2.1)
    (by have h := C52_edwards_G2_generator.2.1; rw [edwards_twist_a, edwards_twist_d] at h; with_reducible_and_instances exact h) g hg hy

section
variable {K : Type} [Field K] [DecidableEq K] [Squared K] [LawfulSquared K] [InverseO K] [LawfulInverse K]

theorem Jac.toAffine_Z_one {x y x' y' : K} (h : Jac.toAffine ⟨x, y, 1⟩ = .ok ⟨x', y', 1⟩) : y' = y := by
  rw [Jac.toAffine, if_neg (by simp [Jac.isZero]), LawfulInverse.inverseO_ne _ one_ne_zero] at h
  simp [LawfulSquared.squared_eq] at h
  exact h.2.symm

omit [Squared K] [LawfulSquared K] in
theorem Proj.toAffine_Z_one {x y x' y' : K} (h : Proj.toAffine ⟨x, y, 1⟩ = .ok ⟨x', y', 1⟩) : y' = y := by
  rw [Proj.toAffine, if_neg (by simp [Proj.isZero]), LawfulInverse.inverseO_ne _ one_ne_zero] at h
  simp at h
  exact h.2.symm

end

/-! The generators meet the hypotheses with every option. -/

example : alt_bn128_Fq_sqrt.s ≤ 100 ∧ Jac.isWellFormed alt_bn128_b alt_bn128_G1_one = true := ⟨by decide, C38_alt_bn128_generators.1⟩
example : alt_bn128_Fq2_data.s ≤ 100 ∧ Jac.isWellFormed alt_bn128_twist_b alt_bn128_G2_one = true ∧
    ∀ x y, Jac.toAffine alt_bn128_G2_one = .ok ⟨x, y, 1⟩ → y.c0 ≠ 0 ∨ y = 0 :=
  ⟨by decide, C38_alt_bn128_generators.2, fun _ _ h => Or.inl (by rw [Jac.toAffine_Z_one h]; decide +kernel)⟩

example : bls12_381_Fq_sqrt.s ≤ 100 ∧ Jac.isWellFormed bls12_381_b bls12_381_G1_one = true := ⟨by decide, C38_bls12_381_generators.1⟩
example : bls12_381_Fq2_data.s ≤ 100 ∧ Jac.isWellFormed bls12_381_twist_b bls12_381_G2_one = true ∧
    ∀ x y, Jac.toAffine bls12_381_G2_one = .ok ⟨x, y, 1⟩ → y.c0 ≠ 0 ∨ y = 0 :=
  ⟨by decide, C38_bls12_381_generators.2, fun _ _ h => Or.inl (by rw [Jac.toAffine_Z_one h]; decide +kernel)⟩

example : mnt4_Fq_sqrt.s ≤ 100 ∧ Proj.isWellFormed mnt4_a mnt4_b mnt4_G1_one = true := ⟨by decide, C38_mnt4_generators.1⟩
example : mnt4_Fq2_data.s ≤ 100 ∧ Proj.isWellFormed mnt4_twist_a mnt4_twist_b mnt4_G2_one = true ∧
    ∀ x y, Proj.toAffine mnt4_G2_one = .ok ⟨x, y, 1⟩ → y.c0 ≠ 0 ∨ y = 0 :=
  ⟨by decide, C38_mnt4_generators.2, fun _ _ h => Or.inl (by rw [Proj.toAffine_Z_one h]; decide +kernel)⟩

example : mnt6_Fq_sqrt.s ≤ 100 ∧ Proj.isWellFormed mnt6_a mnt6_b mnt6_G1_one = true := ⟨by decide, C38_mnt6_generators.1⟩
example : mnt6_Fq3_data.s ≤ 100 ∧ Proj.isWellFormed mnt6_twist_a mnt6_twist_b mnt6_G2_one = true ∧
    ∀ x y, Proj.toAffine mnt6_G2_one = .ok ⟨x, y, 1⟩ → y.c0 ≠ 0 ∨ y = 0 :=
  ⟨by decide, C38_mnt6_generators.2, fun _ _ h => Or.inl (by rw [Proj.toAffine_Z_one h]; decide +kernel)⟩

example : edwards_Fq_sqrt.s ≤ 100 ∧ Edw.isWellFormed (fun x => x) edwards_G1_mul_by_d edwards_G1_one = true ∧
    edwards_G1_one.X ≠ 0 ∧ edwards_G1_one.Y ≠ 0 ∧ edwards_G1_one.Z ≠ 0 :=
  ⟨by decide, C38_edwards_generators.1, by decide +kernel, by decide +kernel, by decide +kernel⟩
example : edwards_Fq3_data.s ≤ 100 ∧ Edw.isWellFormed edwards_G2_mul_by_a edwards_G2_mul_by_d edwards_G2_one = true ∧
    edwards_G2_one.X ≠ 0 ∧ edwards_G2_one.Y ≠ 0 ∧ edwards_G2_one.Z ≠ 0 :=
  ⟨by decide, C38_edwards_generators.2, by decide +kernel, by decide +kernel, by decide +kernel⟩

end Libff
