import Verif.Lemmas.FrAction
import Verif.Props.GenAltBn128
import Verif.Props.GenBls12381
import Verif.Props.GenMnt4
import Verif.Props.GenMnt6
import Verif.Props.GenEdwards

/-!
# C55: the scalar field acts faithfully on the generators of all ten groups
-/
namespace Libff
set_option synthInstance.maxSize 2000

/-- **C55.** For any group class implementing a commutative group (Weierstrass, Edwards, …), any element `one` of
order `p` with `p` the modulus of the scalar field: `x ↦ x * one` is a faithful action by exponents. -/
theorem C55_generic {G : Type} {A : Type*} [ops : GroupOps G] [AddCommGroup A] {Rep : G → A → Prop} {P : FpParams}
    [Fact P.Valid] (h : ImplementsRel Rep) {eq : G → G → Bool} {isZero : G → Bool}
    (heq : ∀ {g g' a a'}, Rep g a → Rep g' a' → (eq g g' = true ↔ a = a'))
    (hz : ∀ {g a}, Rep g a → (isZero g = true ↔ a = 0)) {one : G} {a : A} (ha : Rep one a)
    (ho : addOrderOf a = P.p) : ∃ f, FrActs P ops eq isZero one f :=
  ⟨_, frActs_of_rel h heq hz ha ho⟩

/-- **C55.** `Fr * alt_bn128_G1::one()`. -/
theorem C55_alt_bn128_G1 : ∃ f, FrActs alt_bn128_Fr_params Jac.ops Jac.eq Jac.isZero alt_bn128_G1_one f :=
  Jac.frActs (b := alt_bn128_b) (alt_bn128_K.o1.two_ne (by decide +kernel)) C52_alt_bn128_G1_generator.2.2.2.2

/-- **C55.** `Fr * alt_bn128_G2::one()`. -/
theorem C55_alt_bn128_G2 : ∃ f, FrActs alt_bn128_Fr_params Jac.ops Jac.eq Jac.isZero alt_bn128_G2_one f :=
  Jac.frActs (b := alt_bn128_twist_b) (alt_bn128_K.o2.two_ne (by decide +kernel)) C52_alt_bn128_G2_generator.2.2.2.2

/-- **C55.** `Fr * bls12_381_G1::one()`. -/
theorem C55_bls12_381_G1 : ∃ f, FrActs bls12_381_Fr_params Jac.ops Jac.eq Jac.isZero bls12_381_G1_one f :=
  Jac.frActs (b := bls12_381_b) (bls12_381_K.o1.two_ne (by decide +kernel)) C52_bls12_381_G1_generator.2.2.2.2

/-- **C55.** `Fr * bls12_381_G2::one()`. -/
theorem C55_bls12_381_G2 : ∃ f, FrActs bls12_381_Fr_params Jac.ops Jac.eq Jac.isZero bls12_381_G2_one f :=
  Jac.frActs (b := bls12_381_twist_b) (bls12_381_K.o2.two_ne (by decide +kernel)) C52_bls12_381_G2_generator.2.2.2.2

/-- **C55.** `Fr * mnt4_G1::one()`. -/
theorem C55_mnt4_G1 :
    ∃ f, FrActs mnt4_Fr_params (Proj.ops mnt4_G1_mul_by_a) Proj.eq Proj.isZero mnt4_G1_one f :=
  Proj.frActs (fun _ => rfl) (mnt4_K.o1.two_ne (by decide +kernel)) C52_mnt4_G1_generator.2.2.2

/-- **C55.** `Fr * mnt4_G2::one()`. -/
theorem C55_mnt4_G2 :
    ∃ f, FrActs mnt4_Fr_params (Proj.ops mnt4_G2_mul_by_a) Proj.eq Proj.isZero mnt4_G2_one f :=
  Proj.frActs (fun x => ((C36_mul_by_a mnt4_β mnt4_a mnt4_b).1 x).1) (mnt4_K.o2.two_ne (by decide +kernel)) C52_mnt4_G2_generator.2.2.2

/-- **C55.** `Fr * mnt6_G1::one()`. -/
theorem C55_mnt6_G1 :
    ∃ f, FrActs mnt6_Fr_params (Proj.ops mnt6_G1_mul_by_a) Proj.eq Proj.isZero mnt6_G1_one f :=
  Proj.frActs (fun _ => rfl) (mnt6_K.o1.two_ne (by decide +kernel)) C52_mnt6_G1_generator.2.2.2

/-- **C55.** `Fr * mnt6_G2::one()`. -/
theorem C55_mnt6_G2 :
    ∃ f, FrActs mnt6_Fr_params (Proj.ops mnt6_G2_mul_by_a) Proj.eq Proj.isZero mnt6_G2_one f :=
  Proj.frActs (fun x => ((C36_mul_by_a mnt6_β mnt6_a mnt6_b).2.1 x).1) (mnt6_K.o3.two_ne (by decide +kernel)) C52_mnt6_G2_generator.2.2.2

/-- **C55.** `Fr * edwards_G1::one()`. -/
theorem C55_edwards_G1 :
    ∃ f, FrActs edwards_Fr_params (Edw.ops1 edwards_G1_mul_by_d) Edw.eq Edw.isZero edwards_G1_one f :=
  Edw.frActs1 (d := edwards_d) (mulD := edwards_G1_mul_by_d) (fun _ => rfl)
    (edwards_K.o1.two_ne (by decide +kernel)) (by exact C52_edwards_G1_generator.2.1) (by decide +kernel)
    (by exact C52_edwards_G1_generator.2.2.2)

/-- **C55.** `Fr * edwards_G2::one()`. -/
theorem C55_edwards_G2 :
    ∃ f, FrActs edwards_Fr_params (Edw.ops edwards_G2_mul_by_a edwards_G2_mul_by_d) Edw.eq Edw.isZero edwards_G2_one f :=
  Edw.frActs (a := edwards_twist_a) (d := edwards_twist_d) (mulA := edwards_G2_mul_by_a)
    (mulD := edwards_G2_mul_by_d) (fun x => (C37_mul_by _ edwards_d x).1) (fun x => (C37_mul_by _ edwards_d x).2.1)
    (edwards_K.o3.two_ne (by decide +kernel)) (by exact C52_edwards_G2_generator.2.1) (by decide +kernel)
    (by exact C52_edwards_G2_generator.2.2.2)

end Libff
