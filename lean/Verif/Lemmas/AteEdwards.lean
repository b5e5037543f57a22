import Verif.Lemmas.AteEdwPairing
import Verif.Lemmas.AteBls12381
import Verif.Props.MulByQ
import Verif.Props.FinalExp

/-!
# The ate pairing of edwards: the conditions
-/
namespace Libff
set_option synthInstance.maxSize 2000
open WeierstrassCurve Affine AteMnt

/-- The first coordinate's factor under the twisted Frobenius map. -/
@[irreducible] noncomputable def edwQX {T : Type*} [Field T] (u : T) (n : ℕ) : T := (u ^ n)⁻¹
/-- The second coordinate's factor under the twisted Frobenius map. -/
@[irreducible] noncomputable def edwQY {T : Type*} [Field T] (u : T) (n : ℕ) : T := ((u ^ 3) ^ (n / 2))⁻¹

theorem edwQX_mul {T : Type*} [Field T] {u : T} (n : ℕ) (hu : u ≠ 0) : edwQX u n * u ^ n = 1 := by
  rw [edwQX]; exact inv_mul_cancel₀ (pow_ne_zero _ hu)

theorem edwQY_mul {T : Type*} [Field T] {u : T} (n : ℕ) (hu : u ≠ 0) : edwQY u n * (u ^ 3) ^ (n / 2) = 1 := by
  rw [edwQY]; exact inv_mul_cancel₀ (pow_ne_zero _ (pow_ne_zero _ hu))

theorem edwQY_c {T : Type*} [Field T] {u c : T} {n : ℕ} (hu : u ≠ 0) (hn : 2 * (n / 2) = n) (hc : u ^ (n / 2) = c) :
    edwQY u n * c = edwQX u n := by
  have h1 : u ^ (n / 2) ≠ 0 := pow_ne_zero _ hu
  have e : u ^ n = u ^ (n / 2) * u ^ (n / 2) := by rw [← pow_add, ← two_mul, hn]
  rw [edwQX, edwQY, ← hc, e, ← pow_mul, mul_comm 3, pow_mul]
  field_simp

/-- The Frobenius map on `a - d`. -/
theorem edw_delta_pow {T : Type*} [Field T] {u δ b qX : T} {p : ℕ} (h : δ = b * u) (hb : b ^ p = b) (h1 : 1 ≤ p) (hq : qX * u ^ (p - 1) = 1) :
    qX * δ ^ p = δ := by
  obtain ⟨n, rfl⟩ : ∃ n, p = n + 1 := ⟨p - 1, by omega⟩
  rw [Nat.add_sub_cancel] at hq
  rw [h, mul_pow, hb, pow_succ]
  linear_combination b * u * hq

/-- The generator of the twist's field. -/
abbrev edwards_u : edwards_Fq3 := Cubic.gen

open edwards_K in
theorem edwards_u_rel : R3 (Cubic.gen) edwards_u := ⟨o1.zero, o1.one, o1.zero⟩

/-- The constant of `mul_by_q`. -/
abbrev edwards_c : edwards_Fq3 := Cubic.ofBase edwards_q_Z

open edwards_K in
theorem edwards_c_eq : edwards_u ^ ((edwards_Fq_params.p - 1) / 2) = edwards_c :=
  o3.pow_eq (b := ⟨NM.of edwards_twist_mul_by_q_Z_nat, 0, 0⟩) edwards_u_rel
    ⟨FpRel.cast (v := edwards_twist_mul_by_q_Z_nat) (by decide +kernel), o1.zero, o1.zero⟩ 192 _ (by decide +kernel) (by decide +kernel)

/-- The generator as a point. -/
noncomputable def edwards_g : (edwW edwards_twist_a edwards_twist_d).Point := C52_edwards_G2_generator.2.2.2.choose

theorem edwards_g_rep : EdwRep edwards_G2_one edwards_g := C52_edwards_G2_generator.2.2.2.choose_spec.1

theorem edwards_g_order : addOrderOf edwards_g = edwards_Fr_params.p := C52_edwards_G2_generator.2.2.2.choose_spec.2

theorem edwards_g_mem : edwards_g ∈ edwards_H₂ := by
  change edwards_Fr_params.p • edwards_g = 0
  rw [← edwards_g_order, addOrderOf_nsmul_eq_zero]

theorem edwards_mulByQ (X Y Z : edwards_Fq3) :
    edwards_G2_mul_by_q ⟨X, Y, Z⟩ = ⟨X ^ edwards_Fq_params.p, edwards_c * Y ^ edwards_Fq_params.p, edwards_c * Z ^ edwards_Fq_params.p⟩ := by
  have hf' : ∀ x, edwards_G2_frob x = x ^ edwards_Fq_params.p := fun x => by
    have := C23_edwards_Fq3 1 x
    rw [pow_one] at this
    exact this
  have hyz : edwards_q_Y = edwards_q_Z := rfl
  simp only [edwards_G2_mul_by_q, Edw.mulByQ, hf', Cubic.scale_eq_ofBase, hyz]

theorem edwards_arith : ExpArith edwards_Fq_params.p 3 edwards_Fr_params.p edwards_E where
  hp := edwards_Fq_prime
  hp2 := by decide +kernel
  hr := edwards_Fr_prime
  e1 := by decide +kernel
  e2 := by decide +kernel
  e3 := by decide +kernel
  coprime := by decide +kernel

theorem edwards_twist_a_eq : edwards_twist_a = edwards_u := by
  rw [edwards_twist_a, edwardsTwistA, Cubic.scale_eq_ofBase, map_one, one_mul]
  rfl

theorem edwards_twist_d_eq : edwards_twist_d = Cubic.ofBase edwards_d * edwards_u := by
  rw [edwards_twist_d, edwardsTwistD, Cubic.scale_eq_ofBase]
  rfl

theorem edwards_delta : edwards_twist_a - edwards_twist_d = Cubic.ofBase (1 - edwards_d) * edwards_u := by
  rw [edwards_twist_a_eq, edwards_twist_d_eq, map_sub, map_one]; ring

theorem edwards_u_ne : edwards_u ≠ 0 := u_ne (fp6nr edwards_β)

theorem edwards_c_ne : edwards_c ≠ 0 := by rw [← edwards_c_eq]; exact pow_ne_zero _ edwards_u_ne

/-- The first coordinate's factor under the twisted Frobenius map. -/
noncomputable abbrev edwards_qX : edwards_Fq3 := edwQX edwards_u (edwards_Fq_params.p - 1)
/-- The second coordinate's factor under the twisted Frobenius map. -/
noncomputable abbrev edwards_qY : edwards_Fq3 := edwQY edwards_u (edwards_Fq_params.p - 1)

theorem edwards_qY_c : edwards_qY * edwards_c = edwards_qX := edwQY_c edwards_u_ne (by decide +kernel) edwards_c_eq

theorem edwards_val_modulus : val edwards_Fq_params.modulus = edwards_Fq_params.p := by decide +kernel

theorem edwards_fix : (Cubic.ofBase (1 - edwards_d) : edwards_Fq3) ^ edwards_Fq_params.p = Cubic.ofBase (1 - edwards_d) := by
  have := FiniteField.pow_card (1 - edwards_d)
  rw [Fp.card] at this
  rw [← map_pow, this]

theorem edwards_qX_delta : edwards_qX * (edwards_twist_a - edwards_twist_d) ^ edwards_Fq_params.p = edwards_twist_a - edwards_twist_d := by
  have h := edw_delta_pow edwards_delta edwards_fix edwards_Fq_prime.one_le (edwQX_mul _ edwards_u_ne)
  with_reducible_and_instances exact h

theorem edwards_gen (x y : edwards_Fq3) (h : (edwW edwards_twist_a edwards_twist_d).Nonsingular x y) (hg : edwards_g = .some x y h) :
    ∃ h', edwards_Fq_params.p • edwards_g = .some (edwards_qX * x ^ edwards_Fq_params.p) (edwards_qY * y ^ edwards_Fq_params.p) h' := by
  have h' := Edw.gen_of_endo (a := edwards_twist_a) (d := edwards_twist_d) (mulA := edwards_G2_mul_by_a) (mulD := edwards_G2_mul_by_d) edwards_mulA (fun x => (C37_mul_by _ edwards_d x).2.1)
      C52_edwards_G2_generator.1 C52_edwards_G2_generator.2.1 edwards_Fq_prime edwards_Fq3_card (by decide +kernel) edwards_c_ne C54_edwards
      ⟨edwards_g_mem, edwards_g_rep⟩ edwards_mulByQ (by with_reducible_and_instances exact edwards_qX_delta) edwards_qY_c edwards_val_modulus x y h hg
  with_reducible_and_instances exact h'

/-- The embedding of the base field. -/
noncomputable abbrev edwards_ι : edwards_Fq →+* edwards_Fq6 := (tau (T := edwards_Fq3) (nr := fp6nr edwards_β)).comp Cubic.ofBase

theorem edwards_ateSetup : WAteSetup (L := edwards_Fq6) edwards_ι tau
    (2 * (1 + edwards_d)) ((1 - edwards_d) ^ 2) 0 (2 * (edwards_twist_a + edwards_twist_d)) ((edwards_twist_a - edwards_twist_d) ^ 2) 0
    (edwards_ι (2 * (1 + edwards_d))) (tau edwards_u)⁻¹ (tau edwards_u * Quad.gen)⁻¹ edwards_qX edwards_qY edwards_Fq_params.p
    edwards_Fr_params.p edwards_E edwards_g :=
  wsetup edwards_arith Fp.card edwards_Fq3_card Cubic.ofBase
    (by rw [edwards_twist_a_eq, edwards_twist_d_eq, map_mul, map_add, map_one, map_ofNat]; ring) rfl
    (by rw [edwards_delta, map_pow]; ring) (by rw [map_zero, zero_mul]) (edwQX_mul _ edwards_u_ne) (edwQY_mul _ edwards_u_ne) edwards_g_order edwards_gen

theorem edwards_roots : MntRoots (L := edwards_Fq6) (tau (T := edwards_Fq3) (nr := fp6nr edwards_β)) edwards_u (tau edwards_u)⁻¹
    (tau edwards_u * Quad.gen)⁻¹ Quad.gen edwards_E := roots edwards_arith edwards_Fq3_card

theorem edwards_params : AteEdw.Params edwards_ate Cubic.ofBase edwards_u 1 edwards_d edwards_twist_a edwards_twist_d edwards_Fr_params.p where
  scale := Cubic.scale_eq_ofBase
  mulA := edwards_mulA
  ha := edwards_twist_a_eq
  hc := C52_edwards_G1_generator.2.1
  hcc := edwards_delta
  pos := by decide +kernel
  lt := by decide +kernel
  odd := by decide +kernel

/-- The value of the reduced pairing. -/
noncomputable def edwards_e (P : (edwW 1 edwards_d).Point) (Q : (edwW edwards_twist_a edwards_twist_d).Point) : edwards_Fq6 :=
  AteEdw.ateVal edwards_ateSetup (val edwards_ate.loopCount) P Q

theorem edwards_bilin : BilinMap (AddSubgroup.zmultiples edwards_g) edwards_e :=
  AteEdw.ateVal_bilin edwards_ateSetup (by decide +kernel)

theorem edwards_pair {p : Coord3 edwards_Fq} {q : Coord3 edwards_Fq3} {P : (edwW 1 edwards_d).Point}
    {Q : (edwW edwards_twist_a edwards_twist_d).Point} (hp : EdwRep p P) (hq : EdwRep q Q) (hQ : Q ∈ AddSubgroup.zmultiples edwards_g)
    (hQ0 : Q ≠ 0) : edwards_reduced_pairing p q = .ok (edwards_e P Q) := by
  have h := AteEdw.pairing_value (A := edwards_ate) edwards_ateSetup edwards_params edwards_roots hp hq hQ hQ0
  exact WAteSetup.reduce C49_edwards.pow (by decide +kernel) h (edwards_bilin.ne_zero _ _ hQ)

end Libff
