import Verif.Lemmas.AteMntPairing

/-!
# The conditions of the ate pairing for quadratic twists
-/
namespace Libff
set_option linter.unusedSectionVars false
open WeierstrassCurve Affine

theorem sw_Δ_ne_of_disc {T : Type*} [Field T] {a b : T} (h2 : (2 : T) ≠ 0) (h : 4 * a ^ 3 + 27 * b ^ 2 ≠ 0) : (sw a b).Δ ≠ 0 := by
  rw [sw_disc, show (-16 : T) = -(2 ^ 4) by norm_num]
  exact mul_ne_zero (neg_ne_zero.2 (pow_ne_zero _ h2)) h

/-- What `mul_by_q` does to the generator, from C54. -/
theorem Proj.gen_of_endo {T : Type} [Field T] [DecidableEq T] [Squared T] [LawfulSquared T] [InverseO T] [LawfulInverse T] {a b : T}
    {mulA : T → T} (hA : ∀ x, mulA x = a * x)
    (h2 : (2 : T) ≠ 0) (hΔ : (sw a b).Δ ≠ 0) {one : Coord3 T} {qm : List Limb} {m : Coord3 T → Coord3 T} {p : ℕ} {qX qY : T}
    (hE : TwistEndo (Proj.ops mulA) Proj.eq (Proj.isWellFormed a b) (fun p => Proj.isWellFormed a b p = true) one qm m)
    {g : (sw a b).Point} (hone : ProjRep one g) (hZ : one.Z = 1) (hm : ∀ X Y, m ⟨X, Y, 1⟩ = ⟨qX * X ^ p, qY * Y ^ p, 1⟩)
    (hq : val qm = p) (x y : T) (h : (sw a b).Nonsingular x y) (hg : g = .some x y h) :
    ∃ h', p • g = .some (qX * x ^ p) (qY * y ^ p) h' := by
  letI := Proj.ops mulA
  have wf : ∀ {p}, Proj.isWellFormed a b p = true ↔ ∃ P : (sw a b).Point, ProjRep p P := fun {p} => Proj.isWellFormed_iff hΔ p
  have hI : ImplementsRel (ProjRep (W := sw a b)) := Proj.implementsRel hA h2
  have v1 : val ([1] : List Limb) = 1 := rfl
  have r1 := scalarMul_rel hI hone [1]
  rw [v1, one_smul] at r1
  have w0 : Proj.isWellFormed a b one = true := wf.2 ⟨_, hone⟩
  have w1 : Proj.isWellFormed a b (scalarMul one [1]) = true := wf.2 ⟨_, r1⟩
  obtain ⟨P', hP'⟩ := wf.1 (hE.wellFormed w0)
  obtain ⟨P'', hP''⟩ := wf.1 (hE.wellFormed w1)
  have e1 := (Proj.eq_rep hP'' (scalarMul_rel hI hP' [1])).1 (hE.scalar w0 [1])
  have e2 := (Proj.eq_rep hP'' (scalarMul_rel hI r1 qm)).1 (hE.mul_q [1])
  rw [v1, one_smul] at e1
  rw [hq] at e2
  rw [← e2, e1]
  subst hg
  obtain ⟨X, Y, Z⟩ := one
  obtain ⟨-, h3, h4⟩ := hone
  simp only at hZ h3 h4
  subst hZ
  simp only [mul_one] at h3 h4
  subst h3 h4
  rw [hm] at hP'
  cases P' with
  | zero => exact absurd hP'.2 one_ne_zero
  | some u v hu =>
    obtain ⟨-, h5, h6⟩ := hP'
    simp only [mul_one] at h5 h6
    exact weier_some_eq h5 h6

namespace AteMnt
variable {K T : Type} [Field K] [DecidableEq K] [Fintype K] [Field T] [DecidableEq T] [Fintype T] {nr : T → T} {u : T} [MulBy nr u]
  [Fact (¬ IsSquare u)]

theorem gen_sq : (Quad.gen : Quad T nr) * Quad.gen = tau u := by
  exact Quad.gen_sq

theorem gen_ne : (Quad.gen : Quad T nr) ≠ 0 := by
  intro h
  exact one_ne_zero (α := T) (congrArg Quad.c1 h)

theorem u_ne (nr : T → T) [MulBy nr u] : u ≠ 0 := by
  rintro rfl
  exact (Fact.out : ¬ IsSquare (0 : T)) IsSquare.zero

/-- The arithmetic of the final exponent. -/
structure ExpArith (p d r E : ℕ) : Prop where
  hp : p.Prime
  hp2 : p ≠ 2
  hr : r.Prime
  e1 : 2 * (p ^ d - 1) ∣ E
  e2 : p ^ (2 * d) - 1 ∣ E * r
  e3 : 4 ∣ E
  coprime : ¬ (r : ℤ) ∣ (p : ℤ) - 1

variable {p d r E : ℕ}

theorem gen_pow (D : ExpArith p d r E) (hT : Fintype.card T = p ^ d) : (Quad.gen : Quad T nr) ^ E = 1 := by
  obtain ⟨k, hk⟩ := D.e1
  rw [hk, pow_mul, pow_mul, pow_two, gen_sq, ← map_pow, ← hT, FiniteField.pow_card_sub_one_eq_one u (u_ne nr), map_one, one_pow]

theorem tau_pow (D : ExpArith p d r E) (hT : Fintype.card T = p ^ d) {t : T} (ht : t ≠ 0) : (tau t : Quad T nr) ^ E = 1 :=
  pow_E_of_subfield tau (by rw [hT]; exact (Dvd.intro_left _ rfl).trans D.e1) ht

theorem roots (D : ExpArith p d r E) (hT : Fintype.card T = p ^ d) :
    MntRoots (L := Quad T nr) tau u (tau u)⁻¹ (tau u * Quad.gen)⁻¹ Quad.gen E where
  hw := gen_sq
  hx := inv_mul_cancel₀ ((map_ne_zero tau).2 (u_ne nr))
  hy := inv_mul_cancel₀ (mul_ne_zero ((map_ne_zero tau).2 (u_ne nr)) gen_ne)
  kill := gen_pow D hT

theorem wsetup (D : ExpArith p d r E) (hK : Fintype.card K = p) (hT : Fintype.card T = p ^ d) (ε : K →+* T) {a₂ a b : K}
    {a₂' a' b' qX qY : T} {c₂ : Quad T nr} (h₂ : a₂' = ε a₂ * u) (hc₂ : ((tau (nr := nr)).comp ε) a₂ = c₂)
    (ha : a' = ε a * u ^ 2) (hb : b' = ε b * u ^ 3) (hX : qX * u ^ (p - 1) = 1) (hY : qY * (u ^ 3) ^ ((p - 1) / 2) = 1)
    {g : (weier a₂' a' b').Point} (order : addOrderOf g = r)
    (gen : ∀ x y h, g = .some x y h → ∃ h', p • g = .some (qX * x ^ p) (qY * y ^ p) h') :
    WAteSetup (L := Quad T nr) ((tau (nr := nr)).comp ε) tau a₂ a b a₂' a' b' c₂ (tau u)⁻¹ (tau u * Quad.gen)⁻¹ qX qY p r E g := by
  have hL : Fintype.card (Quad T nr) = p ^ (2 * d) := by rw [Quad.card, hT, ← pow_mul, mul_comm]
  have hu : (tau u : Quad T nr) ≠ 0 := (map_ne_zero tau).2 (u_ne nr)
  have hw := gen_ne (nr := nr)
  have h1 : 1 ≤ p := D.hp.one_lt.le
  have R := roots (nr := nr) D hT
  refine ⟨two_ne_of_card D.hp D.hp2 hL, ⟨inv_ne_zero hu, ?_, ?_, ?_, ?_⟩, exists_frob D.hp hL, fun x => ?_, ?_, ?_,
    D.hr, order, gen, D.coprime, fun c hc => root_of_dvd D.e3 hc, fun x z h => ?_, fun t ht => tau_pow D hT ht,
    fun x hx => unit_of_card (by rw [hL]; exact D.e2) hx, hc₂⟩
  · rw [inv_pow, inv_pow, mul_pow, pow_two Quad.gen, gen_sq]; ring
  · rw [h₂, map_mul, ← hc₂, RingHom.comp_apply]; field_simp
  · rw [ha, map_mul, map_pow, RingHom.comp_apply]; field_simp
  · rw [hb, map_mul, map_pow, RingHom.comp_apply]; field_simp
  · have := FiniteField.pow_card x
    rwa [hK] at this
  · exact root_frob_inv tau (pow_one _) (one_dvd _) h1 R.hx (by rwa [Nat.div_one])
  · refine root_frob_inv (w := tau u * Quad.gen) (ξ := u ^ 3) (d := 2) tau ?_ ?_ h1 R.hy hY
    · rw [mul_pow, pow_two Quad.gen, gen_sq, map_pow]; ring
    · obtain ⟨k, hk⟩ := D.hp.odd_of_ne_two D.hp2
      exact ⟨k, by omega⟩
  · have e : (tau.comp ε) x - (tau u)⁻¹ * tau z = (tau (ε x - u⁻¹ * z) : Quad T nr) := by
      rw [map_sub, map_mul, map_inv₀, RingHom.comp_apply]
    rw [e] at h ⊢
    exact tau_pow D hT ((map_ne_zero tau).1 h)

theorem setup (D : ExpArith p d r E) (hK : Fintype.card K = p) (hT : Fintype.card T = p ^ d) (ε : K →+* T) {a b : K} {a' b' qX qY : T}
    (ha : a' = ε a * u ^ 2) (hb : b' = ε b * u ^ 3) (hX : qX * u ^ (p - 1) = 1) (hY : qY * (u ^ 3) ^ ((p - 1) / 2) = 1)
    {g : (sw a' b').Point} (order : addOrderOf g = r)
    (gen : ∀ x y h, g = .some x y h → ∃ h', p • g = .some (qX * x ^ p) (qY * y ^ p) h') :
    AteSetup (L := Quad T nr) ((tau (nr := nr)).comp ε) tau a b a' b' (tau u)⁻¹ (tau u * Quad.gen)⁻¹ qX qY p r E g :=
  wsetup D hK hT ε (by rw [map_zero, zero_mul]) (map_zero _) ha hb hX hY order gen

end AteMnt
end Libff
