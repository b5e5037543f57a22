import Verif.Lemmas.AteSetup12
import Verif.Lemmas.AteTower12
import Verif.Lemmas.Ate12Pairing
import Verif.Props.MulByQ
import Verif.Props.FinalExp

/-!
# The ate pairing of bls12_381: the conditions
-/
namespace Libff
set_option synthInstance.maxSize 2000
open WeierstrassCurve Affine Ate12

theorem bls12_381_twist_eq : bls12_381_twist = bls12_381_ξ := rfl

theorem bls12_381_one_le : 1 ≤ bls12_381_Fq_params.p := by decide +kernel
theorem bls12_381_dvd3 : 3 ∣ bls12_381_Fq_params.p - 1 := by decide +kernel
theorem bls12_381_dvd2 : 2 ∣ bls12_381_Fq_params.p - 1 := by decide +kernel

theorem RelOps.mul_pow_eq_one {K L : Type} [Zero K] [One K] [Add K] [Sub K] [Neg K] [Mul K] [Squared K] [DecidableEq K] [Field L] [Squared L]
    {R : K → L → Prop} (h : RelOps R) {a c : K} {x z : L} (hz : R c z) (hx : R a x) (fuel e : Nat) (he : e < 2 ^ fuel)
    (hc : c * Libff.fastPow fuel a e = 1) : z * x ^ e = 1 := by
  rw [← fastPow_eq fuel x e he]
  exact (h.eq (h.mul hz (h.fastPow fuel hx e)) h.one).1 hc

open bls12_381_K in
theorem bls12_381_qX_eq : bls12_381_q_X * bls12_381_ξ ^ ((bls12_381_Fq_params.p - 1) / 3) = 1 :=
  o2.mul_pow_eq_one (dec2_rel bls12_381_twist_mul_by_q_X_nat (by decide +kernel)) rξ 381 _ (by decide +kernel) (by decide +kernel)

open bls12_381_K in
theorem bls12_381_qY_eq : bls12_381_q_Y * bls12_381_ξ ^ ((bls12_381_Fq_params.p - 1) / 2) = 1 :=
  o2.mul_pow_eq_one (dec2_rel bls12_381_twist_mul_by_q_Y_nat (by decide +kernel)) rξ 381 _ (by decide +kernel) (by decide +kernel)

/-- The generator as a point. -/
noncomputable def bls12_381_g : (sw 0 bls12_381_twist_b).Point := C52_bls12_381_G2_generator.2.2.2.2.choose

theorem bls12_381_g_rep : JacRep bls12_381_G2_one bls12_381_g := C52_bls12_381_G2_generator.2.2.2.2.choose_spec.1

theorem bls12_381_g_order : addOrderOf bls12_381_g = bls12_381_Fr_params.p := C52_bls12_381_G2_generator.2.2.2.2.choose_spec.2

theorem bls12_381_mulByQ (X Y : bls12_381_Fq2) :
    bls12_381_G2_mul_by_q ⟨X, Y, 1⟩ = ⟨bls12_381_q_X * X ^ bls12_381_Fq_params.p, bls12_381_q_Y * Y ^ bls12_381_Fq_params.p, 1⟩ := by
  have hf' : ∀ x, bls12_381_G2_frob x = x ^ bls12_381_Fq_params.p := fun x => by
    have := C23_bls12_381_Fq2 1 x
    rw [pow_one] at this
    exact this
  simp only [bls12_381_G2_mul_by_q, Coord3.mulByQ, hf', one_pow]

theorem bls12_381_p_ne : bls12_381_Fq_params.p ≠ 2 := by decide +kernel

theorem bls12_381_ξ_ne : bls12_381_ξ ≠ 0 := fun h => bls12_381_ξ_nonsquare (by rw [h]; exact IsSquare.zero)

theorem bls12_381_Δ : (sw 0 bls12_381_twist_b).Δ ≠ 0 :=
  sw_Δ_ne C52_bls12_381_G2_generator.1 C52_bls12_381_G2_generator.2.1 C52_bls12_381_G2_generator.2.2.1

/-- The factor of the abscissa. -/
@[irreducible] noncomputable def bls12_381_cx : bls12_381_Fq12 := w2⁻¹
/-- The factor of the ordinate. -/
@[irreducible] noncomputable def bls12_381_cy : bls12_381_Fq12 := w3⁻¹

theorem bls12_381_cx_eq : bls12_381_cx = w2⁻¹ := by unfold bls12_381_cx; rfl
theorem bls12_381_cy_eq : bls12_381_cy = w3⁻¹ := by unfold bls12_381_cy; rfl
theorem bls12_381_cx_mul : bls12_381_cx * w2 = 1 := by rw [bls12_381_cx_eq]; exact inv_mul_cancel₀ w2_ne
theorem bls12_381_cy_mul : bls12_381_cy * w3 = 1 := by rw [bls12_381_cy_eq]; exact inv_mul_cancel₀ w3_ne

theorem bls12_381_f2 : TwistHom (K := bls12_381_Fq2) (L := bls12_381_Fq12) (tau bls12_381_ξ) 0 0 bls12_381_twist_b 0
    (iota bls12_381_ξ 0) (iota bls12_381_ξ bls12_381_b) bls12_381_cx bls12_381_cy where
  ne := by rw [bls12_381_cx_eq]; exact inv_ne_zero w2_ne
  sq := by
    rw [bls12_381_cx_eq, bls12_381_cy_eq, inv_pow, inv_pow]
    exact congrArg (·⁻¹) (Ate12.w3_pow.trans w2_pow.symm)
  e₂ := by rw [map_zero, mul_zero]
  e₄ := by rw [map_zero, map_zero, mul_zero]
  e₆ := by
    rw [bls12_381_cx_eq, inv_pow, bls12_381_twist_b, tau_scale, bls12_381_twist_eq]
    have h := w2_pow (K := bls12_381_Fq) (ξ := bls12_381_ξ)
    have h' : tau bls12_381_ξ bls12_381_ξ ≠ 0 := (map_ne_zero (tau bls12_381_ξ)).2 bls12_381_ξ_ne
    rw [h]
    exact inv_mul_cancel_left₀ h' _

theorem bls12_381_pow6 {m : bls12_381_Fq6} (h : m ≠ 0) : (Quad.ofBase m : bls12_381_Fq12) ^ bls12_381_E = 1 :=
  pow_E_of_subfield (M := bls12_381_Fq6) (L := bls12_381_Fq12) Quad.ofBase (by rw [bls12_381_Fq6_card]; decide +kernel) h

theorem bls12_381_sub_mem (x : bls12_381_Fq) (z : bls12_381_Fq2) : iota bls12_381_ξ x - bls12_381_cx * tau bls12_381_ξ z =
    Quad.ofBase ((Cubic.ofBase (Quad.ofBase x) : bls12_381_Fq6) - Cubic.gen⁻¹ * Cubic.ofBase z) := by
  rw [bls12_381_cx_eq, map_sub, map_mul, map_inv₀]
  rfl

theorem bls12_381_sub (x : bls12_381_Fq) (z : bls12_381_Fq2) (h : iota bls12_381_ξ x - bls12_381_cx * tau bls12_381_ξ z ≠ 0) :
    (iota bls12_381_ξ x - bls12_381_cx * tau bls12_381_ξ z) ^ bls12_381_E = 1 := by
  rw [bls12_381_sub_mem] at h ⊢
  refine bls12_381_pow6 fun h0 => h ?_
  rw [h0, map_zero]

theorem bls12_381_frobX : bls12_381_cx ^ bls12_381_Fq_params.p = bls12_381_cx * tau bls12_381_ξ bls12_381_q_X := by
  have h := root_frob_inv (p := bls12_381_Fq_params.p) (L := bls12_381_Fq12) (tau bls12_381_ξ) (w := w2) (c := bls12_381_cx) (d := 3)
    Ate12.w2_pow bls12_381_dvd3 bls12_381_one_le bls12_381_cx_mul
    (by have h := bls12_381_qX_eq; with_reducible_and_instances exact h)
  with_reducible_and_instances exact h

theorem bls12_381_frobY : bls12_381_cy ^ bls12_381_Fq_params.p = bls12_381_cy * tau bls12_381_ξ bls12_381_q_Y := by
  have h := root_frob_inv (p := bls12_381_Fq_params.p) (L := bls12_381_Fq12) (tau bls12_381_ξ) (w := w3) (c := bls12_381_cy) (d := 2)
    Ate12.w3_pow bls12_381_dvd2 bls12_381_one_le bls12_381_cy_mul
    (by have h := bls12_381_qY_eq; with_reducible_and_instances exact h)
  with_reducible_and_instances exact h

theorem bls12_381_killT (t : bls12_381_Fq2) (ht : t ≠ 0) : (tau bls12_381_ξ t) ^ bls12_381_E = 1 := by
  rw [tau_eq]
  exact bls12_381_pow6 ((map_ne_zero Cubic.ofBase).2 ht)

theorem bls12_381_four_dvd : 4 ∣ bls12_381_E := by decide +kernel

theorem bls12_381_unit (x : bls12_381_Fq12) (hx : x ≠ 0) : (x ^ bls12_381_E) ^ bls12_381_Fr_params.p = 1 :=
  unit_of_card (by rw [bls12_381_Fq12_card]; decide +kernel) hx


theorem bls12_381_one_Z : bls12_381_G2_one.Z = 1 := rfl
theorem bls12_381_val_modulus : val bls12_381_Fq_params.modulus = bls12_381_Fq_params.p := by decide +kernel

theorem bls12_381_gen : ∀ x y h, bls12_381_g = .some x y h →
    ∃ h', bls12_381_Fq_params.p • bls12_381_g = .some (bls12_381_q_X * x ^ bls12_381_Fq_params.p) (bls12_381_q_Y * y ^ bls12_381_Fq_params.p) h' :=
  Jac.gen_of_endo (T := bls12_381_Fq2) (b := bls12_381_twist_b) (by have h := C52_bls12_381_G2_generator.1; with_reducible_and_instances exact h) bls12_381_Δ (qX := bls12_381_q_X) (qY := bls12_381_q_Y) (m := bls12_381_G2_mul_by_q)
    (p := bls12_381_Fq_params.p) (qm := bls12_381_Fq_params.modulus) (one := bls12_381_G2_one) C54_bls12_381 bls12_381_g_rep bls12_381_one_Z
    bls12_381_mulByQ bls12_381_val_modulus

theorem bls12_381_ateSetup : AteSetup (K := bls12_381_Fq) (T := bls12_381_Fq2) (L := bls12_381_Fq12) (iota bls12_381_ξ) (tau bls12_381_ξ)
    0 bls12_381_b 0 bls12_381_twist_b bls12_381_cx bls12_381_cy bls12_381_q_X bls12_381_q_Y bls12_381_Fq_params.p bls12_381_Fr_params.p bls12_381_E
    bls12_381_g where
  h2 := two_ne_of_card bls12_381_Fq_prime bls12_381_p_ne bls12_381_Fq12_card
  f2 := bls12_381_f2
  frob := exists_frob bls12_381_Fq_prime bls12_381_Fq12_card
  fixK x := by
    have := FiniteField.pow_card x
    rwa [Fp.card] at this
  frobX := bls12_381_frobX
  frobY := bls12_381_frobY
  prime := bls12_381_Fr_prime
  order := bls12_381_g_order
  gen := bls12_381_gen
  coprime := by decide +kernel
  root c hc := root_of_dvd bls12_381_four_dvd hc
  sub := bls12_381_sub
  killT := bls12_381_killT
  unit := bls12_381_unit
  e₂ := map_zero _

theorem bls12_381_ate_twist : bls12_381_ate.twist = bls12_381_ξ := rfl

theorem bls12_381_kill (s t : bls12_381_Fq2) (h : s ≠ 0 ∨ t ≠ 0) :
    (tau bls12_381_ξ s + tau bls12_381_ξ t * w3) ^ bls12_381_E = 1 := by
  refine kill4 (T := bls12_381_Fq2) (L := bls12_381_Fq12) bls12_381_Fq_prime bls12_381_p_ne (tau bls12_381_ξ) bls12_381_Fq2_card
    bls12_381_Fq12_card bls12_381_ξ_ne ?_ (by decide +kernel) ?_
  · have := w3_mul_w3 (K := bls12_381_Fq) (ξ := bls12_381_ξ)
    with_reducible_and_instances exact this
  · intro h0
    have := indep s t h0
    rcases h with h | h
    · exact h this.1
    · exact h this.2

theorem bls12_381_roots : BlsRoots (L := bls12_381_Fq12) (tau bls12_381_ξ) bls12_381_ate.twist bls12_381_cx bls12_381_cy w2 w3 bls12_381_E where
  h3 := by
    rw [bls12_381_ate_twist]
    have := w3_mul_w3 (K := bls12_381_Fq) (ξ := bls12_381_ξ)
    with_reducible_and_instances exact this
  hx := bls12_381_cx_mul
  hy := bls12_381_cy_mul
  ht := bls12_381_ξ_ne
  kill := bls12_381_kill

theorem bls12_381_loop : val bls12_381_ate.loopCount = bls12_381_ate_loop_count := by decide +kernel

/-- The value of the reduced pairing. -/
noncomputable def bls12_381_e (P : (sw 0 bls12_381_b).Point) (Q : (sw 0 bls12_381_twist_b).Point) : bls12_381_Fq12 :=
  bls12_381_ateSetup.blsVal (A := bls12_381_ate) (val bls12_381_ate.loopCount) P Q

theorem bls12_381_bilin : BilinMap (AddSubgroup.zmultiples bls12_381_g) bls12_381_e :=
  bls12_381_ateSetup.blsVal_bilin (A := bls12_381_ate) (by rw [bls12_381_loop]; decide +kernel)

theorem bls12_381_pair {p : Coord3 bls12_381_Fq} {q : Coord3 bls12_381_Fq2} {P : (sw 0 bls12_381_b).Point}
    {Q : (sw 0 bls12_381_twist_b).Point} (hp : JacRep p P) (hq : JacRep q Q) (hQ : Q ∈ AddSubgroup.zmultiples bls12_381_g)
    (hQ0 : Q ≠ 0) : bls12_381_reduced_pairing p q = .ok (bls12_381_e P Q) := by
  obtain ⟨x0, y0, z0, e0, hP⟩ := Jac.affCoord hp
  rcases Jac.toAffine_rep hq with ⟨rfl, e⟩ | ⟨x, y, hxy, rfl, e⟩
  · exact absurd rfl hQ0
  · have hne := bls12_381_bilin.ne_zero P _ hQ
    have h := bls_pairing (A := bls12_381_ate) bls12_381_ateSetup (congrArg (·⁻¹) Nat.cast_ofNat) C52_bls12_381_G1_generator.1
      C52_bls12_381_G1_generator.2.1 rfl bls12_381_roots (by rw [bls12_381_loop]; decide +kernel)
      (by rw [bls12_381_loop]; decide +kernel) (by rw [bls12_381_loop]; decide +kernel) e0 hP hQ e hne
      (by decide +kernel)
    exact WAteSetup.reduce C49_bls12_381.pow (by decide +kernel) h hne

end Libff
