import Verif.Lemmas.AteSetup12
import Verif.Lemmas.AteTower12
import Verif.Lemmas.Ate12Pairing
import Verif.Props.MulByQ
import Verif.Props.FinalExp

/-!
# The ate pairing of alt_bn128: the conditions
-/
namespace Libff
set_option synthInstance.maxSize 2000
open WeierstrassCurve Affine Ate12

theorem alt_bn128_twist_eq : alt_bn128_twist = alt_bn128_ξ := rfl

open alt_bn128_K in
theorem alt_bn128_qX_eq : alt_bn128_q_X = alt_bn128_ξ ^ ((alt_bn128_Fq_params.p - 1) / 3) :=
  (o2.pow_eq rξ (dec2_rel alt_bn128_twist_mul_by_q_X_nat (by decide +kernel)) 256 _ (by decide +kernel) (by decide +kernel)).symm

open alt_bn128_K in
theorem alt_bn128_qY_eq : alt_bn128_q_Y = alt_bn128_ξ ^ ((alt_bn128_Fq_params.p - 1) / 2) :=
  (o2.pow_eq rξ (dec2_rel alt_bn128_twist_mul_by_q_Y_nat (by decide +kernel)) 256 _ (by decide +kernel) (by decide +kernel)).symm

/-- The generator as a point. -/
noncomputable def alt_bn128_g : (sw 0 alt_bn128_twist_b).Point := C52_alt_bn128_G2_generator.2.2.2.2.choose

theorem alt_bn128_g_rep : JacRep alt_bn128_G2_one alt_bn128_g := C52_alt_bn128_G2_generator.2.2.2.2.choose_spec.1

theorem alt_bn128_g_order : addOrderOf alt_bn128_g = alt_bn128_Fr_params.p := C52_alt_bn128_G2_generator.2.2.2.2.choose_spec.2

theorem alt_bn128_mulByQ (X Y : alt_bn128_Fq2) :
    alt_bn128_G2_mul_by_q ⟨X, Y, 1⟩ = ⟨alt_bn128_q_X * X ^ alt_bn128_Fq_params.p, alt_bn128_q_Y * Y ^ alt_bn128_Fq_params.p, 1⟩ := by
  have hf' : ∀ x, alt_bn128_G2_frob x = x ^ alt_bn128_Fq_params.p := fun x => by
    have := C23_alt_bn128_Fq2 1 x
    rw [pow_one] at this
    exact this
  simp only [alt_bn128_G2_mul_by_q, Coord3.mulByQ, hf', one_pow]

theorem alt_bn128_p_ne : alt_bn128_Fq_params.p ≠ 2 := by decide +kernel

theorem alt_bn128_ξ_ne : alt_bn128_ξ ≠ 0 := fun h => alt_bn128_ξ_nonsquare (by rw [h]; exact IsSquare.zero)

theorem alt_bn128_one_le : 1 ≤ alt_bn128_Fq_params.p := by decide +kernel
theorem alt_bn128_dvd3 : 3 ∣ alt_bn128_Fq_params.p - 1 := by decide +kernel
theorem alt_bn128_dvd2 : 2 ∣ alt_bn128_Fq_params.p - 1 := by decide +kernel

theorem alt_bn128_Δ : (sw 0 alt_bn128_twist_b).Δ ≠ 0 :=
  sw_Δ_ne C52_alt_bn128_G2_generator.1 C52_alt_bn128_G2_generator.2.1 C52_alt_bn128_G2_generator.2.2.1

theorem alt_bn128_f2 : TwistHom (K := alt_bn128_Fq2) (L := alt_bn128_Fq12) (tau alt_bn128_ξ) 0 0 alt_bn128_twist_b 0
    (iota alt_bn128_ξ 0) (iota alt_bn128_ξ alt_bn128_b) w2 w3 where
  ne := w2_ne
  sq := Ate12.w3_pow.trans w2_pow.symm
  e₂ := by rw [map_zero, mul_zero]
  e₄ := by rw [map_zero, map_zero, mul_zero]
  e₆ := by
    rw [w2_pow, alt_bn128_twist_b, tau_scale, alt_bn128_twist_eq, ← mul_assoc, ← map_mul, mul_inv_cancel₀ alt_bn128_ξ_ne, map_one, one_mul]

theorem alt_bn128_sub (x : alt_bn128_Fq) (z : alt_bn128_Fq2) (h : iota alt_bn128_ξ x - w2 * tau alt_bn128_ξ z ≠ 0) :
    (iota alt_bn128_ξ x - w2 * tau alt_bn128_ξ z) ^ alt_bn128_E = 1 := by
  rw [Ate12.sub_mem] at h ⊢
  refine pow_E_of_subfield (M := alt_bn128_Fq6) (L := alt_bn128_Fq12) Quad.ofBase (by rw [alt_bn128_Fq6_card]; decide +kernel) fun h0 => h ?_
  rw [h0, map_zero]

theorem alt_bn128_frobX : (w2 : alt_bn128_Fq12) ^ alt_bn128_Fq_params.p = w2 * tau alt_bn128_ξ alt_bn128_q_X := by
  have h := root_frob (p := alt_bn128_Fq_params.p) (L := alt_bn128_Fq12) (tau alt_bn128_ξ) (w := w2) (d := 3) Ate12.w2_pow
    alt_bn128_dvd3 alt_bn128_one_le
  rw [alt_bn128_qX_eq]
  with_reducible_and_instances exact h

theorem alt_bn128_frobY : (w3 : alt_bn128_Fq12) ^ alt_bn128_Fq_params.p = w3 * tau alt_bn128_ξ alt_bn128_q_Y := by
  have h := root_frob (p := alt_bn128_Fq_params.p) (L := alt_bn128_Fq12) (tau alt_bn128_ξ) (w := w3) (d := 2) Ate12.w3_pow
    alt_bn128_dvd2 alt_bn128_one_le
  rw [alt_bn128_qY_eq]
  with_reducible_and_instances exact h

theorem alt_bn128_ateSetup : AteSetup (K := alt_bn128_Fq) (T := alt_bn128_Fq2) (L := alt_bn128_Fq12) (iota alt_bn128_ξ) (tau alt_bn128_ξ)
    0 alt_bn128_b 0 alt_bn128_twist_b w2 w3 alt_bn128_q_X alt_bn128_q_Y alt_bn128_Fq_params.p alt_bn128_Fr_params.p alt_bn128_E
    alt_bn128_g where
  h2 := two_ne_of_card alt_bn128_Fq_prime alt_bn128_p_ne alt_bn128_Fq12_card
  f2 := alt_bn128_f2
  frob := exists_frob alt_bn128_Fq_prime alt_bn128_Fq12_card
  fixK x := by
    have := FiniteField.pow_card x
    rwa [Fp.card] at this
  frobX := alt_bn128_frobX
  frobY := alt_bn128_frobY
  prime := alt_bn128_Fr_prime
  order := alt_bn128_g_order
  gen := Jac.gen_of_endo C52_alt_bn128_G2_generator.1 alt_bn128_Δ C54_alt_bn128 alt_bn128_g_rep rfl alt_bn128_mulByQ (by decide +kernel)
  coprime := by decide +kernel
  root c hc := root_of_dvd (by decide +kernel) hc
  sub := alt_bn128_sub
  killT t ht := by
    rw [tau_eq]
    exact pow_E_of_subfield (M := alt_bn128_Fq6) (L := alt_bn128_Fq12) Quad.ofBase (by rw [alt_bn128_Fq6_card]; decide +kernel)
      ((map_ne_zero Cubic.ofBase).2 ht)
  unit x hx := unit_of_card (by rw [alt_bn128_Fq12_card]; decide +kernel) hx
  e₂ := map_zero _

theorem alt_bn128_ate_twist : alt_bn128_ate.twist = alt_bn128_ξ := rfl

theorem alt_bn128_bnParams : BnParams alt_bn128_ate alt_bn128_q_X alt_bn128_q_Y alt_bn128_Fq_params.p where
  half := congrArg (·⁻¹) Nat.cast_ofNat
  two := C52_alt_bn128_G1_generator.1
  three := C52_alt_bn128_G1_generator.2.1
  neg := rfl
  mulByQ X Y := by
    have h := alt_bn128_mulByQ X Y
    rw [show alt_bn128_ate.mulByQ = alt_bn128_G2_mul_by_q from rfl]
    with_reducible_and_instances exact h

theorem alt_bn128_kill (s t : alt_bn128_Fq2) (h : s ≠ 0 ∨ t ≠ 0) :
    (tau alt_bn128_ξ s + tau alt_bn128_ξ t * w3) ^ alt_bn128_E = 1 := by
  refine kill4 (T := alt_bn128_Fq2) (L := alt_bn128_Fq12) alt_bn128_Fq_prime alt_bn128_p_ne (tau alt_bn128_ξ) alt_bn128_Fq2_card
    alt_bn128_Fq12_card alt_bn128_ξ_ne ?_ (by decide +kernel) ?_
  · have := w3_mul_w3 (K := alt_bn128_Fq) (ξ := alt_bn128_ξ)
    with_reducible_and_instances exact this
  · intro h0
    have := indep s t h0
    rcases h with h | h
    · exact h this.1
    · exact h this.2

theorem alt_bn128_roots : BnRoots (L := alt_bn128_Fq12) (tau alt_bn128_ξ) alt_bn128_ate.twist w2 w3 w4 alt_bn128_E where
  h3 := by
    rw [alt_bn128_ate_twist]
    have := w3_mul_w3 (K := alt_bn128_Fq) (ξ := alt_bn128_ξ)
    with_reducible_and_instances exact this
  h4 := by
    rw [alt_bn128_ate_twist]
    have := w2_mul_w4 (K := alt_bn128_Fq) (ξ := alt_bn128_ξ)
    with_reducible_and_instances exact this
  kill := alt_bn128_kill

/-- The representative of `-q²` modulo `r`. -/
def alt_bn128_m : ℕ := alt_bn128_Fr_params.p - alt_bn128_Fq_params.p ^ 2 % alt_bn128_Fr_params.p

theorem alt_bn128_arith : BnArith alt_bn128_Fr_params.p alt_bn128_Fq_params.p (val alt_bn128_ate.loopCount) alt_bn128_m
    (bigintMaxBits alt_bn128_ate.loopCount + 1) := by
  have e : val alt_bn128_ate.loopCount = alt_bn128_ate_loop_count := by decide +kernel
  have e' : bigintMaxBits alt_bn128_ate.loopCount = 256 := rfl
  rw [e, e']
  constructor <;> decide +kernel

theorem alt_bn128_bilin : BilinMap (AddSubgroup.zmultiples alt_bn128_g)
    (alt_bn128_ateSetup.bnVal (A := alt_bn128_ate) (val alt_bn128_ate.loopCount) alt_bn128_m) := by
  refine WAteSetup.bnVal_bilin (A := alt_bn128_ate) alt_bn128_ateSetup alt_bn128_arith.hm ?_
  have e : val alt_bn128_ate.loopCount = alt_bn128_ate_loop_count := by decide +kernel
  rw [e]
  decide +kernel

/-- The value of the reduced pairing. -/
noncomputable def alt_bn128_e (P : (sw 0 alt_bn128_b).Point) (Q : (sw 0 alt_bn128_twist_b).Point) : alt_bn128_Fq12 :=
  alt_bn128_ateSetup.bnVal (A := alt_bn128_ate) (val alt_bn128_ate.loopCount) alt_bn128_m P Q

theorem alt_bn128_pair {p : Coord3 alt_bn128_Fq} {q : Coord3 alt_bn128_Fq2} {P : (sw 0 alt_bn128_b).Point}
    {Q : (sw 0 alt_bn128_twist_b).Point} (hp : JacRep p P) (hq : JacRep q Q) (hQ : Q ∈ AddSubgroup.zmultiples alt_bn128_g)
    (hQ0 : Q ≠ 0) : alt_bn128_reduced_pairing p q = .ok (alt_bn128_e P Q) := by
  obtain ⟨x0, y0, z0, e0, hP⟩ := Jac.affCoord hp
  rcases Jac.toAffine_rep hq with ⟨rfl, e⟩ | ⟨x, y, hxy, rfl, e⟩
  · exact absurd rfl hQ0
  · have h := bn_pairing (A := alt_bn128_ate) alt_bn128_ateSetup alt_bn128_bnParams alt_bn128_roots alt_bn128_arith e0 hP hQ e
    exact WAteSetup.reduce C49_alt_bn128.pow (by decide +kernel) h (alt_bn128_bilin.ne_zero _ _ hQ)

end Libff
