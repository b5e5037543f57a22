import Verif.Props.Bn128
import Verif.Props.KeyCommit

/-!
# C55, C57 and C89 for bn128, given that the external formulas are right

`E` are the external functions `ECAdd` and `ECDouble`; `E.Correct b` is what is assumed of them.
`fieldMul` also models the products `Fr * bn128_G1` and `Fr * bn128_G2` (bn128_g1.hpp:94-98, bn128_g2.hpp:95-99), which are the same code.
-/
namespace Libff

open Bn128 WeierstrassCurve WeierstrassCurve.Affine
set_option synthInstance.maxSize 2000

section
variable {K : Type} [Field K] [DecidableEq K] {b : K} {E : EcOps K} {P : FpParams} [Fact P.Valid]

theorem Bn128.multiExp (hE : E.Correct b) (h2 : (2 : K) ≠ 0) (hroom : P.p + 2 ^ 29 ≤ 2 ^ (64 * P.n)) (debug : Bool) :
    MultiExpCorrect P (Bn128.ops E) (JacRep (W := sw 0 b)) (fun p => Bn128.isSpecial p = true) (Bn128.mixedAdd E debug)
      (@batchToSpecial _ (Bn128.ops E) Bn128.isZero (fun p => .ok (Bn128.toAffine p)) (Bn128.batchToSpecialNZ debug)) :=
  @multiExpCorrect _ _ (Bn128.ops E) _ _ _ _ (Bn128.implementsRel hE) hroom _ _ _
    (fun hg hh hs => C61_mixed_add hE h2 debug hg hh hs) (fun hg => C61_batch_to_special E debug _ _ hg)

theorem Bn128.frActs (hE : E.Correct b) {one : Coord3 K} (h : ∃ a : (sw 0 b).Point, JacRep one a ∧ addOrderOf a = P.p) :
    ∃ f, FrActs P (Bn128.ops E) Bn128.eq Bn128.isZero one f := by
  obtain ⟨a, ha, ho⟩ := h
  exact ⟨_, @frActs_of_rel _ _ (Bn128.ops E) _ _ _ _ (Bn128.implementsRel hE) _ _ Bn128.eq_rep Bn128.isZero_rep _ _ ha ho⟩

theorem Bn128.keyCommit (hE : E.Correct b) (h2 : (2 : K) ≠ 0) (hroom : P.p + 2 ^ 29 ≤ 2 ^ (64 * P.n)) (debug : Bool) {one : Coord3 K}
    (h : ∃ a : (sw 0 b).Point, JacRep one a ∧ addOrderOf a = P.p) :
    KeyCommit P (Bn128.ops E) Bn128.eq (Bn128.mixedAdd E debug)
      (@batchToSpecial _ (Bn128.ops E) Bn128.isZero (fun p => .ok (Bn128.toAffine p)) (Bn128.batchToSpecialNZ debug)) one := by
  obtain ⟨a, ha, ho⟩ := h
  exact @keyCommit_of_rel _ _ _ _ _ (Bn128.ops E) _ _ _ _ _ _ _ (Bn128.implementsRel hE) Bn128.eq_rep ha ho
    (fun hg => C61_batch_to_special E debug _ _ hg) (Bn128.multiExp hE h2 hroom debug)

end

/-- **C57.** `bn128_G1`: all entry points of multi-exponentiation. -/
theorem C57_bn128_G1 {E : EcOps alt_bn128_Fq} (hE : E.Correct bn128_b) (debug : Bool) :
    MultiExpCorrect bn128_Fr_params (Bn128.ops E) (JacRep (W := sw 0 bn128_b)) (fun p => Bn128.isSpecial p = true) (Bn128.mixedAdd E debug)
      (@batchToSpecial _ (Bn128.ops E) Bn128.isZero (fun p => .ok (Bn128.toAffine p)) (Bn128.batchToSpecialNZ debug)) :=
  Bn128.multiExp hE (alt_bn128_K.o1.two_ne (by decide +kernel)) (by decide +kernel) debug

/-- **C55.** `Fr * bn128_G1::one()`. -/
theorem C55_bn128_G1 {E : EcOps alt_bn128_Fq} (hE : E.Correct bn128_b) :
    ∃ f, FrActs bn128_Fr_params (Bn128.ops E) Bn128.eq Bn128.isZero bn128_G1_one f :=
  Bn128.frActs hE C61_g1_generator.2

/-- **C89.** `bn128_G1`. -/
theorem C89_bn128_G1 {E : EcOps alt_bn128_Fq} (hE : E.Correct bn128_b) (debug : Bool) :
    KeyCommit bn128_Fr_params (Bn128.ops E) Bn128.eq (Bn128.mixedAdd E debug)
      (@batchToSpecial _ (Bn128.ops E) Bn128.isZero (fun p => .ok (Bn128.toAffine p)) (Bn128.batchToSpecialNZ debug)) bn128_G1_one :=
  Bn128.keyCommit hE (alt_bn128_K.o1.two_ne (by decide +kernel)) (by decide +kernel) debug C61_g1_generator.2

/-- **C57.** `bn128_G2`: all entry points of multi-exponentiation. -/
theorem C57_bn128_G2 {E : EcOps alt_bn128_Fq2} (hE : E.Correct bn128_twist_b) (debug : Bool) :
    MultiExpCorrect bn128_Fr_params (Bn128.ops E) (JacRep (W := sw 0 bn128_twist_b)) (fun p => Bn128.isSpecial p = true) (Bn128.mixedAdd E debug)
      (@batchToSpecial _ (Bn128.ops E) Bn128.isZero (fun p => .ok (Bn128.toAffine p)) (Bn128.batchToSpecialNZ debug)) :=
  Bn128.multiExp hE (alt_bn128_K.o2.two_ne (by decide +kernel)) (by decide +kernel) debug

/-- **C55.** `Fr * bn128_G2::one()`. -/
theorem C55_bn128_G2 {E : EcOps alt_bn128_Fq2} (hE : E.Correct bn128_twist_b) :
    ∃ f, FrActs bn128_Fr_params (Bn128.ops E) Bn128.eq Bn128.isZero bn128_G2_one f :=
  Bn128.frActs hE C61_g2_generator.2

/-- **C89.** `bn128_G2`. -/
theorem C89_bn128_G2 {E : EcOps alt_bn128_Fq2} (hE : E.Correct bn128_twist_b) (debug : Bool) :
    KeyCommit bn128_Fr_params (Bn128.ops E) Bn128.eq (Bn128.mixedAdd E debug)
      (@batchToSpecial _ (Bn128.ops E) Bn128.isZero (fun p => .ok (Bn128.toAffine p)) (Bn128.batchToSpecialNZ debug)) bn128_G2_one :=
  Bn128.keyCommit hE (alt_bn128_K.o2.two_ne (by decide +kernel)) (by decide +kernel) debug C61_g2_generator.2

/-- The assumption on the external formulas is met by those of libff's own classes. -/
example : ∃ (E : EcOps alt_bn128_Fq) (E' : EcOps alt_bn128_Fq2), E.Correct bn128_b ∧ E'.Correct bn128_twist_b :=
  ⟨_, _, Bn128.jac_correct (alt_bn128_K.o1.two_ne (by decide +kernel)), Bn128.jac_correct (alt_bn128_K.o2.two_ne (by decide +kernel))⟩

end Libff
