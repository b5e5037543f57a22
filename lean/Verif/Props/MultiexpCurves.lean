import Verif.Lemmas.MultiexpRel
import Verif.Props.FrAction
import Verif.Props.Curve
import Verif.Props.Edwards

/-!
# C57: multi-exponentiation on the ten curve groups, end to end

The entry points run on raw coordinate triples (`Coord3`) and on the limbs of the scalars of the group's own scalar
field.  `JacRep p P` (`ProjRep`, `EdwRep`) says that the triple `p` denotes the point `P` of the curve.
-/
namespace Libff
set_option synthInstance.maxSize 2000

section
variable {K : Type} [Field K] [DecidableEq K] [Squared K] [LawfulSquared K] [InverseO K] [LawfulInverse K]
  {P : FpParams} [hP : Fact P.Valid]

/-- **C57.** Short Weierstrass curves in Jacobian coordinates. -/
theorem C57_jacobian {b : K} (h2 : (2 : K) ≠ 0) (hroom : P.p + 2 ^ 29 ≤ 2 ^ (64 * P.n)) (debug : Bool) :
    MultiExpCorrect P Jac.ops (JacRep (W := sw 0 b)) (fun p => Jac.isSpecial p = true) (Jac.mixedAdd debug)
      (@batchToSpecial _ Jac.ops Jac.isZero Jac.toAffine (Jac.batchToSpecialNZ debug)) :=
  @multiExpCorrect _ _ Jac.ops _ _ _ _ (Jac.implementsRel h2) hroom _ _ _
    (fun hg hh hs => C35_mixed_add h2 debug hg hh hs) (fun hg => C33_jacobian debug _ _ hg)

/-- **C57.** Short Weierstrass curves in projective coordinates. -/
theorem C57_projective {mulA : K → K} {a b : K} (hA : ∀ x, mulA x = a * x) (h2 : (2 : K) ≠ 0)
    (hroom : P.p + 2 ^ 29 ≤ 2 ^ (64 * P.n)) (debug : Bool) :
    MultiExpCorrect P (Proj.ops mulA) (ProjRep (W := sw a b)) (fun p => Proj.isSpecial p = true)
      (Proj.mixedAdd mulA debug)
      (@batchToSpecial _ (Proj.ops mulA) Proj.isZero Proj.toAffine (Proj.batchToSpecialNZ debug)) :=
  @multiExpCorrect _ _ (Proj.ops mulA) _ _ _ _ (Proj.implementsRel hA h2) hroom _ _ _
    (fun hg hh hs => C36_mixed_add hA h2 debug hg hh hs) (fun hg => C33_projective mulA debug _ _ hg)

theorem edwIn_normalises {a d : K} {H : AddSubgroup (edwW a d).Point} {norm : List (Coord3 K) → Outcome (List (Coord3 K))}
    {Special : Coord3 K → Prop}
    (hn : ∀ (vec : List (Coord3 K)) (Ps : List (edwW a d).Point), List.Forall₂ EdwRep vec Ps →
      ∃ l, norm vec = .ok l ∧ List.Forall₂ EdwRep l Ps ∧ ∀ p ∈ l, Special p) :
    NormalisesTo (EdwRepIn H) Special norm := by
  intro gs as hg
  have h1 : List.Forall₂ EdwRep gs as := hg.imp fun _ _ h => h.2
  have h2 : ∀ x ∈ as, x ∈ H := by
    clear h1
    induction hg with
    | nil => simp
    | cons h _ ih =>
      intro x hx
      rcases List.mem_cons.1 hx with rfl | hx
      · exact h.1
      · exact ih x hx
  obtain ⟨l, l1, l2, l3⟩ := hn gs as h1
  refine ⟨l, l1, ?_, l3⟩
  clear l1 l3 hg h1
  induction l2 with
  | nil => exact .nil
  | cons h _ ih =>
    exact .cons ⟨h2 _ List.mem_cons_self, h⟩ (ih fun x hx => h2 x (List.mem_cons_of_mem _ hx))

/-- **C57.** Twisted Edwards curves in inverted coordinates, on points of odd order. -/
theorem C57_edwards_twisted {mulA mulD : K → K} {a d : K} {H : AddSubgroup (edwW a d).Point} (hA : ∀ x, mulA x = a * x)
    (hD : ∀ x, mulD x = d * x) (h2 : (2 : K) ≠ 0) (hc : a - d ≠ 0) (hH : NoTwoTorsion H)
    (hroom : P.p + 2 ^ 29 ≤ 2 ^ (64 * P.n)) (debug : Bool) :
    MultiExpCorrect P (Edw.ops mulA mulD) (EdwRepIn H) (fun p => Edw.isSpecial p = true)
      (Edw.mixedAdd mulA mulD debug)
      (@batchToSpecial _ (Edw.ops mulA mulD) Edw.isZero (Edw.toSpecial debug) (Edw.batchToSpecialNZ debug)) :=
  @multiExpCorrect _ _ (Edw.ops mulA mulD) _ _ _ _ (Edw.implementsRel hA hD h2 hc hH) hroom _ _ _
    (fun hg hh hs => C37_mixed_add hA hD h2 hc hH debug hg hh hs)
    (edwIn_normalises fun vec Ps h => C33_edwards h2 hc debug vec Ps h)

/-- **C57.** The untwisted class (`edwards_G1`) has its own doubling. -/
theorem C57_edwards_untwisted {mulD : K → K} {d : K} {H : AddSubgroup (edwW 1 d).Point}
    (hD : ∀ x, mulD x = d * x) (h2 : (2 : K) ≠ 0) (hc : 1 - d ≠ 0) (hH : NoTwoTorsion H)
    (hroom : P.p + 2 ^ 29 ≤ 2 ^ (64 * P.n)) (debug : Bool) :
    MultiExpCorrect P (Edw.ops1 mulD) (EdwRepIn H) (fun p => Edw.isSpecial p = true)
      (Edw.mixedAdd (fun x => x) mulD debug)
      (@batchToSpecial _ (Edw.ops1 mulD) Edw.isZero (Edw.toSpecial debug) (Edw.batchToSpecialNZ debug)) :=
  @multiExpCorrect _ _ (Edw.ops1 mulD) _ _ _ _ (Edw.implementsRel1 hD h2 hc hH) hroom _ _ _
    (fun hg hh hs => C37_mixed_add (fun x => (one_mul x).symm) hD h2 hc hH debug hg hh hs)
    (edwIn_normalises fun vec Ps h => C33_edwards (mulA := fun x => x) (mulD := mulD) h2 hc debug vec Ps h)

end

/-- **C57.** `alt_bn128_G1` with scalars in `alt_bn128_Fr`. -/
theorem C57_alt_bn128_G1 (debug : Bool) :
    MultiExpCorrect alt_bn128_Fr_params Jac.ops (JacRep (W := sw 0 alt_bn128_b)) (fun p => Jac.isSpecial p = true)
      (Jac.mixedAdd debug) (@batchToSpecial _ Jac.ops Jac.isZero Jac.toAffine (Jac.batchToSpecialNZ debug)) :=
  C57_jacobian (alt_bn128_K.o1.two_ne (by decide +kernel)) (by decide +kernel) debug

/-- **C57.** `alt_bn128_G2`. -/
theorem C57_alt_bn128_G2 (debug : Bool) :
    MultiExpCorrect alt_bn128_Fr_params Jac.ops (JacRep (W := sw 0 alt_bn128_twist_b)) (fun p => Jac.isSpecial p = true)
      (Jac.mixedAdd debug) (@batchToSpecial _ Jac.ops Jac.isZero Jac.toAffine (Jac.batchToSpecialNZ debug)) :=
  C57_jacobian (alt_bn128_K.o2.two_ne (by decide +kernel)) (by decide +kernel) debug

/-- **C57.** `bls12_381_G1`. -/
theorem C57_bls12_381_G1 (debug : Bool) :
    MultiExpCorrect bls12_381_Fr_params Jac.ops (JacRep (W := sw 0 bls12_381_b)) (fun p => Jac.isSpecial p = true)
      (Jac.mixedAdd debug) (@batchToSpecial _ Jac.ops Jac.isZero Jac.toAffine (Jac.batchToSpecialNZ debug)) :=
  C57_jacobian (bls12_381_K.o1.two_ne (by decide +kernel)) (by decide +kernel) debug

/-- **C57.** `bls12_381_G2`. -/
theorem C57_bls12_381_G2 (debug : Bool) :
    MultiExpCorrect bls12_381_Fr_params Jac.ops (JacRep (W := sw 0 bls12_381_twist_b)) (fun p => Jac.isSpecial p = true)
      (Jac.mixedAdd debug) (@batchToSpecial _ Jac.ops Jac.isZero Jac.toAffine (Jac.batchToSpecialNZ debug)) :=
  C57_jacobian (bls12_381_K.o2.two_ne (by decide +kernel)) (by decide +kernel) debug

/-- **C57.** `mnt4_G1`. -/
theorem C57_mnt4_G1 (debug : Bool) :
    MultiExpCorrect mnt4_Fr_params (Proj.ops mnt4_G1_mul_by_a) (ProjRep (W := sw mnt4_a mnt4_b))
      (fun p => Proj.isSpecial p = true) (Proj.mixedAdd mnt4_G1_mul_by_a debug)
      (@batchToSpecial _ (Proj.ops mnt4_G1_mul_by_a) Proj.isZero Proj.toAffine (Proj.batchToSpecialNZ debug)) :=
  C57_projective (fun _ => rfl) (mnt4_K.o1.two_ne (by decide +kernel)) (by decide +kernel) debug

/-- **C57.** `mnt4_G2`. -/
theorem C57_mnt4_G2 (debug : Bool) :
    MultiExpCorrect mnt4_Fr_params (Proj.ops mnt4_G2_mul_by_a) (ProjRep (W := sw mnt4_twist_a mnt4_twist_b))
      (fun p => Proj.isSpecial p = true) (Proj.mixedAdd mnt4_G2_mul_by_a debug)
      (@batchToSpecial _ (Proj.ops mnt4_G2_mul_by_a) Proj.isZero Proj.toAffine (Proj.batchToSpecialNZ debug)) :=
  C57_projective (fun x => ((C36_mul_by_a mnt4_β mnt4_a mnt4_b).1 x).1) (mnt4_K.o2.two_ne (by decide +kernel))
    (by decide +kernel) debug

/-- **C57.** `mnt6_G1`. -/
theorem C57_mnt6_G1 (debug : Bool) :
    MultiExpCorrect mnt6_Fr_params (Proj.ops mnt6_G1_mul_by_a) (ProjRep (W := sw mnt6_a mnt6_b))
      (fun p => Proj.isSpecial p = true) (Proj.mixedAdd mnt6_G1_mul_by_a debug)
      (@batchToSpecial _ (Proj.ops mnt6_G1_mul_by_a) Proj.isZero Proj.toAffine (Proj.batchToSpecialNZ debug)) :=
  C57_projective (fun _ => rfl) (mnt6_K.o1.two_ne (by decide +kernel)) (by decide +kernel) debug

/-- **C57.** `mnt6_G2`. -/
theorem C57_mnt6_G2 (debug : Bool) :
    MultiExpCorrect mnt6_Fr_params (Proj.ops mnt6_G2_mul_by_a) (ProjRep (W := sw mnt6_twist_a mnt6_twist_b))
      (fun p => Proj.isSpecial p = true) (Proj.mixedAdd mnt6_G2_mul_by_a debug)
      (@batchToSpecial _ (Proj.ops mnt6_G2_mul_by_a) Proj.isZero Proj.toAffine (Proj.batchToSpecialNZ debug)) :=
  C57_projective (fun x => ((C36_mul_by_a mnt6_β mnt6_a mnt6_b).2.1 x).1) (mnt6_K.o3.two_ne (by decide +kernel))
    (by decide +kernel) debug

/-- **C57.** `edwards_G1`, on the points of the prime-order subgroup. -/
theorem C57_edwards_G1 (debug : Bool) :
    MultiExpCorrect edwards_Fr_params (Edw.ops1 edwards_G1_mul_by_d)
      (EdwRepIn (torsionSub edwards_Fr_params.p : AddSubgroup (edwW 1 edwards_d).Point)) (fun p => Edw.isSpecial p = true)
      (Edw.mixedAdd (fun x => x) edwards_G1_mul_by_d debug)
      (@batchToSpecial _ (Edw.ops1 edwards_G1_mul_by_d) Edw.isZero (Edw.toSpecial debug) (Edw.batchToSpecialNZ debug)) :=
  C57_edwards_untwisted (d := edwards_d) (mulD := edwards_G1_mul_by_d) (fun _ => rfl)
    (edwards_K.o1.two_ne (by decide +kernel)) (by exact C52_edwards_G1_generator.2.1)
    (noTwoTorsion_torsionSub _ (by decide +kernel)) (by decide +kernel) debug

/-- **C57.** `edwards_G2`, on the points of the prime-order subgroup. -/
theorem C57_edwards_G2 (debug : Bool) :
    MultiExpCorrect edwards_Fr_params (Edw.ops edwards_G2_mul_by_a edwards_G2_mul_by_d)
      (EdwRepIn (torsionSub edwards_Fr_params.p : AddSubgroup (edwW edwards_twist_a edwards_twist_d).Point))
      (fun p => Edw.isSpecial p = true) (Edw.mixedAdd edwards_G2_mul_by_a edwards_G2_mul_by_d debug)
      (@batchToSpecial _ (Edw.ops edwards_G2_mul_by_a edwards_G2_mul_by_d) Edw.isZero (Edw.toSpecial debug)
        (Edw.batchToSpecialNZ debug)) :=
  C57_edwards_twisted (a := edwards_twist_a) (d := edwards_twist_d) (mulA := edwards_G2_mul_by_a)
    (mulD := edwards_G2_mul_by_d) (fun x => (C37_mul_by _ edwards_d x).1) (fun x => (C37_mul_by _ edwards_d x).2.1)
    (edwards_K.o3.two_ne (by decide +kernel)) (by exact C52_edwards_G2_generator.2.1)
    (noTwoTorsion_torsionSub _ (by decide +kernel)) (by decide +kernel) debug

/-- The hypotheses are met: the generator of `alt_bn128_G1` is special and denotes a point of the curve. -/
example : ∃ P : (sw 0 alt_bn128_b).Point, P ≠ 0 ∧
    List.Forall₂ JacRep [alt_bn128_G1_one, Jac.zero, alt_bn128_G1_one] [P, 0, P] ∧
    ∀ g ∈ [alt_bn128_G1_one, Jac.zero, alt_bn128_G1_one], Jac.isSpecial g = true := by
  obtain ⟨P, h1, h2⟩ := C52_alt_bn128_G1_generator.2.2.2.2
  refine ⟨P, ?_, .cons h1 (.cons rfl (.cons h1 .nil)), by decide +kernel⟩
  rintro rfl
  rw [addOrderOf_zero] at h2
  exact absurd h2 (by decide +kernel)

end Libff
