import Verif.Lemmas.GroupLaws
import Verif.Props.Cofactor
import Verif.Props.BilinearEdw
import Verif.Props.Bn128

/-!
# C76: every group class is an abelian group in its own terms
-/
namespace Libff
open WeierstrassCurve WeierstrassCurve.Affine
open scoped Libff.Witness
set_option synthInstance.maxSize 2000

/-- The functions of a class in Jacobian coordinates; the valid objects are those that pass `is_well_formed`. -/
@[reducible] def Jac.cls {K : Type} [Field K] [DecidableEq K] [Squared K] [InverseO K] (b : K) (debug : Bool) : GroupClass (Coord3 K) where
  ok p := Jac.isWellFormed b p = true
  eq := Jac.eq
  zero := Jac.zero
  isZero := Jac.isZero
  add := Jac.add
  sub := Jac.sub
  neg := Jac.neg
  dbl := Jac.dbl
  mul e p := @scalarMul _ Jac.ops p e
  isSpecial := Jac.isSpecial
  toSpecial := Jac.toAffine
  mixedAdd := Jac.mixedAdd debug

/-- The functions of a class in projective coordinates. -/
@[reducible] def Proj.cls {K : Type} [Field K] [DecidableEq K] [Squared K] [InverseO K] (a b : K) (mulA : K → K) (debug : Bool) :
    GroupClass (Coord3 K) where
  ok p := Proj.isWellFormed a b p = true
  eq := Proj.eq
  zero := Proj.zero
  isZero := Proj.isZero
  add := Proj.plus mulA
  sub := Proj.sub mulA
  neg := Proj.neg
  dbl := Proj.dbl mulA
  mul e p := @scalarMul _ (Proj.ops mulA) p e
  isSpecial := Proj.isSpecial
  toSpecial := Proj.toAffine
  mixedAdd := Proj.mixedAdd mulA debug

/-- The functions of a class in inverted Edwards coordinates; the valid objects are those that denote a point of `H`. -/
@[reducible] def Edw.cls {K : Type} [Field K] [DecidableEq K] [Squared K] [InverseO K] {a d : K} (H : AddSubgroup (edwW a d).Point)
    (mulA mulD : K → K) (ops : GroupOps (Coord3 K)) (debug : Bool) : GroupClass (Coord3 K) where
  ok p := ∃ P, EdwRepIn H p P
  eq := Edw.eq
  zero := Edw.zero
  isZero := Edw.isZero
  add := ops.add
  sub := ops.sub
  neg := Edw.neg
  dbl := ops.dbl
  mul e p := @scalarMul _ ops p e
  isSpecial := Edw.isSpecial
  toSpecial := Edw.toSpecial debug
  mixedAdd := Edw.mixedAdd mulA mulD debug

/-- The functions of `bn128_G1`, `bn128_G2`. -/
@[reducible] def Bn128.cls {K : Type} [Field K] [DecidableEq K] (E : Bn128.EcOps K) (b : K) (debug : Bool) : GroupClass (Coord3 K) where
  ok p := Bn128.isWellFormed b p = true
  eq := Bn128.eq
  zero := Bn128.zero
  isZero := Bn128.isZero
  add := Bn128.plus E
  sub := Bn128.sub E
  neg := Bn128.neg
  dbl := Bn128.dbl E
  mul e p := @scalarMul _ (Bn128.ops E) p e
  isSpecial := Bn128.isSpecial
  toSpecial p := .ok (Bn128.toAffine p)
  mixedAdd := Bn128.mixedAdd E debug

section
variable {K : Type} [Field K] [DecidableEq K] [Squared K] [LawfulSquared K] [InverseO K] [LawfulInverse K]

/-- **C76.** Jacobian classes over any field of characteristic other than 2 and 3, release and debug builds. -/
theorem C76_jacobian {b : K} (h2 : (2 : K) ≠ 0) (h3 : (3 : K) ≠ 0) (hb : b ≠ 0) (debug : Bool) : (Jac.cls b debug).Lawful :=
  GroupClass.lawful (Jac.implementsRel (b := b) h2) (C38_jacobian h2 h3 hb) Jac.eq_rep rfl rfl rfl rfl rfl Jac.neg_rep Jac.isZero_rep
    (fun hp => by
      obtain ⟨r, s, h1, -, h2, h3, -⟩ := C35_to_affine hp hp
      exact ⟨r, h1, h2, h3⟩)
    (fun hp hq hs => Jac.mixedAdd_rep h2 debug hp hq hs)

/-- **C76.** Projective classes. -/
theorem C76_projective {a b : K} {mulA : K → K} (hA : ∀ x, mulA x = a * x) (h2 : (2 : K) ≠ 0) (hd : 4 * a ^ 3 + 27 * b ^ 2 ≠ 0)
    (debug : Bool) : (Proj.cls a b mulA debug).Lawful :=
  GroupClass.lawful (Proj.implementsRel (b := b) hA h2) (C38_projective h2 hd) Proj.eq_rep rfl rfl rfl rfl rfl Proj.neg_rep
    Proj.isZero_rep
    (fun hp => by
      obtain ⟨r, s, h1, -, h2, h3, -⟩ := C36_to_affine hp hp
      exact ⟨r, h1, h2, h3⟩)
    (fun hp hq hs => Proj.mixedAdd_rep hA h2 debug hp hq hs)

/-- **C76.** Edwards classes, on any subgroup without points of order two. -/
theorem C76_edwards {a d : K} {mulA mulD : K → K} (hA : ∀ x, mulA x = a * x) (hD : ∀ x, mulD x = d * x) (h2 : (2 : K) ≠ 0)
    (hc : a - d ≠ 0) {H : AddSubgroup (edwW a d).Point} (hH : NoTwoTorsion H) (debug : Bool) {ops : GroupOps (Coord3 K)}
    (hI : @ImplementsRel _ _ ops _ (EdwRepIn H)) (hz : ops.zero = Edw.zero) : (Edw.cls H mulA mulD ops debug).Lawful :=
  GroupClass.lawful hI (fun _ => Iff.rfl) (fun hp hq => Edw.eq_rep h2 hc hp.2 hq.2) hz.symm rfl rfl rfl rfl
    (fun hp => ⟨H.neg_mem hp.1, Edw.neg_rep hp.2⟩) (fun hp => Edw.isZero_rep hp.2)
    (fun hp => by
      obtain ⟨r, h1, h2, h3⟩ := C37_to_special h2 hc debug hp.2
      exact ⟨r, h1, ⟨hp.1, h2⟩, h3⟩)
    (fun hp hq hs => C37_mixed_add hA hD h2 hc hH debug hp hq hs)

omit [Squared K] [LawfulSquared K] [InverseO K] [LawfulInverse K] in
/-- **C76.** bn128, for external point functions that add and double points correctly. -/
theorem C76_bn128 {E : Bn128.EcOps K} {b : K} (hE : E.Correct b) (h2 : (2 : K) ≠ 0) (h3 : (3 : K) ≠ 0) (hb : b ≠ 0) (debug : Bool) :
    (Bn128.cls E b debug).Lawful :=
  GroupClass.lawful (Bn128.implementsRel hE) (Bn128.isWellFormed_iff (bn128_Δ_ne h2 h3 hb)) Bn128.eq_rep rfl rfl rfl rfl rfl
    Bn128.neg_rep Bn128.isZero_rep (fun hp => ⟨_, rfl, Bn128.toAffine_spec hp⟩)
    (fun hp hq hs => Bn128.mixedAdd_rep hE h2 debug hp hq hs)

end

/-- **C76.** `alt_bn128_G1`, `alt_bn128_G2`. -/
theorem C76_alt_bn128 (debug : Bool) : (Jac.cls alt_bn128_b debug).Lawful ∧ (Jac.cls alt_bn128_twist_b debug).Lawful :=
  ⟨C76_jacobian (alt_bn128_K.o1.two_ne (by decide +kernel)) (alt_bn128_K.o1.three_ne (by decide +kernel))
      C52_alt_bn128_G1_generator.2.2.1 debug,
    C76_jacobian (alt_bn128_K.o2.two_ne (by decide +kernel)) (alt_bn128_K.o2.three_ne (by decide +kernel))
      C52_alt_bn128_G2_generator.2.2.1 debug⟩

/-- **C76.** `bls12_381_G1`, `bls12_381_G2`. -/
theorem C76_bls12_381 (debug : Bool) : (Jac.cls bls12_381_b debug).Lawful ∧ (Jac.cls bls12_381_twist_b debug).Lawful :=
  ⟨C76_jacobian (bls12_381_K.o1.two_ne (by decide +kernel)) (bls12_381_K.o1.three_ne (by decide +kernel))
      C52_bls12_381_G1_generator.2.2.1 debug,
    C76_jacobian (bls12_381_K.o2.two_ne (by decide +kernel)) (bls12_381_K.o2.three_ne (by decide +kernel))
      C52_bls12_381_G2_generator.2.2.1 debug⟩

/-- **C76.** `mnt4_G1`, `mnt4_G2`. -/
theorem C76_mnt4 (debug : Bool) : (Proj.cls mnt4_a mnt4_b mnt4_G1_mul_by_a debug).Lawful ∧
    (Proj.cls mnt4_twist_a mnt4_twist_b mnt4_G2_mul_by_a debug).Lawful :=
  ⟨C76_projective (fun _ => rfl) (mnt4_K.o1.two_ne (by decide +kernel)) C52_mnt4_G1_generator.2.1 debug,
    C76_projective (fun x => ((C36_mul_by_a mnt4_β mnt4_a mnt4_b).1 x).1) (mnt4_K.o2.two_ne (by decide +kernel))
      C52_mnt4_G2_generator.2.1 debug⟩

/-- **C76.** `mnt6_G1`, `mnt6_G2`. -/
theorem C76_mnt6 (debug : Bool) : (Proj.cls mnt6_a mnt6_b mnt6_G1_mul_by_a debug).Lawful ∧
    (Proj.cls mnt6_twist_a mnt6_twist_b mnt6_G2_mul_by_a debug).Lawful :=
  ⟨C76_projective (fun _ => rfl) (mnt6_K.o1.two_ne (by decide +kernel)) C52_mnt6_G1_generator.2.1 debug,
    C76_projective (fun x => ((C36_mul_by_a mnt6_β mnt6_a mnt6_b).2.1 x).1) (mnt6_K.o3.two_ne (by decide +kernel))
      C52_mnt6_G2_generator.2.1 debug⟩

/-- **C76.** `edwards_G1`, `edwards_G2`, on the points killed by `r`. -/
theorem C76_edwards_groups (debug : Bool) : (Edw.cls edwards_H₁ (fun x => x) edwards_G1_mul_by_d edwards_ops₁ debug).Lawful ∧
    (Edw.cls edwards_H₂ edwards_G2_mul_by_a edwards_G2_mul_by_d edwards_ops₂ debug).Lawful :=
  ⟨C76_edwards (fun x => (one_mul x).symm) (fun _ => rfl) C52_edwards_G1_generator.1 C52_edwards_G1_generator.2.1 edwards_H₁_two debug
      edwards_impl₁ rfl,
    C76_edwards edwards_mulA (fun x => (C37_mul_by _ edwards_d x).2.1) C52_edwards_G2_generator.1 C52_edwards_G2_generator.2.1
      edwards_H₂_two debug edwards_impl₂ rfl⟩

/-- **C76.** `bn128_G1`, `bn128_G2`. -/
theorem C76_bn128_groups {E : Bn128.EcOps alt_bn128_Fq} {E' : Bn128.EcOps alt_bn128_Fq2} (hE : E.Correct bn128_b)
    (hE' : E'.Correct bn128_twist_b) (debug : Bool) :
    (Bn128.cls E bn128_b debug).Lawful ∧ (Bn128.cls E' bn128_twist_b debug).Lawful := by
  have h : bn128_twist_b ≠ 0 := fun h =>
    absurd ((alt_bn128_K.o2.eq bn128_twist_b_rel alt_bn128_K.o2.zero).2 h) (by decide +kernel)
  exact ⟨C76_bn128 hE (alt_bn128_K.o1.two_ne (by decide +kernel)) (alt_bn128_K.o1.three_ne (by decide +kernel))
      C52_alt_bn128_G1_generator.2.2.1 debug,
    C76_bn128 hE' (alt_bn128_K.o2.two_ne (by decide +kernel)) (alt_bn128_K.o2.three_ne (by decide +kernel)) h debug⟩

/-- **C76.** The separate member function `add` of mnt4 and mnt6 agrees with `operator+`. -/
theorem C76_mnt_add {K : Type} [Field K] [DecidableEq K] [Squared K] [LawfulSquared K] {a b : K} {mulA : K → K}
    (hA : ∀ x, mulA x = a * x) (h2 : (2 : K) ≠ 0) (hd : 4 * a ^ 3 + 27 * b ^ 2 ≠ 0) (p q : Coord3 K)
    (hp : Proj.isWellFormed a b p = true) (hq : Proj.isWellFormed a b q = true) :
    Proj.eq (Proj.add mulA p q) (Proj.plus mulA p q) = true := by
  obtain ⟨P, hP⟩ := (C38_projective h2 hd p).1 hp
  obtain ⟨Q, hQ⟩ := (C38_projective h2 hd q).1 hq
  obtain ⟨h1, h2⟩ := C36_add hA h2 hP hQ
  exact (Proj.eq_rep h2 h1).2 rfl

/-- The laws speak about more than zero: the generators are valid and not zero. -/
example (debug : Bool) : (Jac.cls bls12_381_b debug).ok bls12_381_G1_one ∧ (Jac.cls bls12_381_twist_b debug).ok bls12_381_G2_one ∧
    (Jac.cls bls12_381_b debug).isZero bls12_381_G1_one = false := by
  refine ⟨C38_bls12_381_generators.1, C38_bls12_381_generators.2, ?_⟩
  simp [Jac.isZero, bls12_381_G1_one]

/-- Two objects with different coordinates that are equal: `one()` and `(4 x, 8 y, 2)`. -/
example : Jac.eq (⟨1, 2, 1⟩ : Coord3 (ZMod 13)) ⟨4, 3, 2⟩ = true ∧ Jac.isWellFormed 3 (⟨1, 2, 1⟩ : Coord3 (ZMod 13)) = true ∧
    Jac.isWellFormed 3 (⟨4, 3, 2⟩ : Coord3 (ZMod 13)) = true := by decide +kernel

end Libff
