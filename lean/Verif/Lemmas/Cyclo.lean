import Verif.Lemmas.Tower
import Verif.Lemmas.Group
import Verif.Lemmas.Algorithms
import Mathlib.RingTheory.IntegralDomain

namespace Libff

/-! ## Conjugation in quadratic extensions -/

section Conj
variable {K : Type*} [Field K] [Fintype K] {nr : K → K} {β : K} [MulBy nr β]

/-- `unitary_inverse` is the power map by the number of elements of the half field. -/
theorem Quad.unitaryInverse_eq_pow (p k : ℕ) [Fact p.Prime] [CharP K p] (hp2 : p ≠ 2)
    (hcard : Fintype.card K = p ^ k) (hβ : ¬ IsSquare β) (x : Quad K nr) :
    Quad.unitaryInverse x = x ^ p ^ k := by
  have hodd : p ^ k % 2 = 1 := by
    rw [Nat.pow_mod, (Nat.Prime.mod_two_eq_one_iff_ne_two (hp := Fact.out)).2 hp2, one_pow, Nat.mod_eq_of_lt (by norm_num)]
  have hchar : ringChar K ≠ 2 := by rw [ringChar.eq K p]; exact hp2
  have hβ0 : β ≠ 0 := by rintro rfl; exact hβ ⟨0, by simp⟩
  have he : β ^ (p ^ k / 2) = -1 := by
    rw [← hcard]
    exact (FiniteField.pow_dichotomy hchar hβ0).resolve_left
      (fun h => hβ ((FiniteField.isSquare_iff hchar hβ0).2 h))
  have hg : Quad.ofBase (-1) * (Quad.gen : Quad K nr) = Quad.gen ^ p ^ k := by
    have : p ^ k = 2 * (p ^ k / 2) + 1 := by omega
    conv_rhs => rw [this]
    rw [Quad.gen_pow, he]
  rw [Quad.pow_char_pow p k x (-1) hg, ← hcard, FiniteField.pow_card, FiniteField.pow_card]
  unfold Quad.unitaryInverse
  simp

end Conj

/-! ## The relations satisfied in the cyclotomic subgroup -/

section Sigma
variable {F : Type*} [CommRing F] {nr : F → F} {ξ : F} [MulBy nr ξ]
  {nr' : Cubic F nr → Cubic F nr} [MulBy nr' (Cubic.gen : Cubic F nr)]

/-- The automorphism `w ↦ ζw` on coordinates, reduced with `ζ² = ζ − 1`. -/
def cycSigma (ζ : F) (x : Quad (Cubic F nr) nr') : Quad (Cubic F nr) nr' :=
  ⟨⟨x.c0.c0, (ζ - 1) * x.c0.c1, -ζ * x.c0.c2⟩, ⟨ζ * x.c1.c0, -x.c1.c1, (1 - ζ) * x.c1.c2⟩⟩

/-- `cycSigma` applied twice, reduced. -/
def cycSigma2 (ζ : F) (x : Quad (Cubic F nr) nr') : Quad (Cubic F nr) nr' :=
  ⟨⟨x.c0.c0, -ζ * x.c0.c1, (ζ - 1) * x.c0.c2⟩, ⟨(ζ - 1) * x.c1.c0, x.c1.c1, -ζ * x.c1.c2⟩⟩

omit [MulBy nr ξ] [MulBy nr' (Cubic.gen : Cubic F nr)] in
theorem cycSigma_cycSigma (ζ : F) (hζ : ζ * ζ - ζ + 1 = 0) (x : Quad (Cubic F nr) nr') :
    cycSigma ζ (cycSigma ζ x) = cycSigma2 ζ x := by
  unfold cycSigma cycSigma2
  congr 2
  · linear_combination x.c0.c1 * hζ
  · linear_combination x.c0.c2 * hζ
  · linear_combination x.c1.c0 * hζ
  · ring
  · linear_combination x.c1.c2 * hζ

theorem cyclo_relations (ζ : F) (hζ : ζ * ζ - ζ + 1 = 0) (x : Quad (Cubic F nr) nr')
    (h : cycSigma2 ζ x * x = cycSigma ζ x) :
    x.c0.c0 * x.c0.c0 + ξ * (x.c1.c1 * x.c1.c1) - ξ * (x.c1.c0 * x.c1.c2) - ξ * (x.c0.c1 * x.c0.c2) =
      x.c0.c0 ∧
    x.c0.c0 * x.c1.c0 - 2 * ξ * (x.c0.c1 * x.c1.c2) + ξ * (x.c1.c1 * x.c0.c2) = x.c1.c0 ∧
    -(x.c0.c0 * x.c0.c1) + x.c1.c0 * x.c1.c0 - ξ * (x.c1.c1 * x.c1.c2) + ξ * (x.c0.c2 * x.c0.c2) =
      x.c0.c1 ∧
    2 * (x.c0.c0 * x.c1.c1) - x.c1.c0 * x.c0.c1 - ξ * (x.c0.c2 * x.c1.c2) = -x.c1.c1 ∧
    x.c0.c0 * x.c0.c2 + x.c1.c0 * x.c1.c1 - x.c0.c1 * x.c0.c1 - ξ * (x.c1.c2 * x.c1.c2) = -x.c0.c2 ∧
    x.c0.c0 * x.c1.c2 - 2 * (x.c1.c0 * x.c0.c2) + x.c0.c1 * x.c1.c1 = x.c1.c2 := by
  obtain ⟨⟨a0, a2, a4⟩, ⟨a1, a3, a5⟩⟩ := x
  have h0 := congrArg (fun y => y.c0.c0) h
  have h2 := congrArg (fun y => y.c0.c1) h
  have h4 := congrArg (fun y => y.c0.c2) h
  have h1 := congrArg (fun y => y.c1.c0) h
  have h3 := congrArg (fun y => y.c1.c1) h
  have h5 := congrArg (fun y => y.c1.c2) h
  simp only [cycSigma, cycSigma2, Quad.mul_c0, Quad.mul_c1, Cubic.mul_c0, Cubic.mul_c1, Cubic.mul_c2, Cubic.gen_c0,
    Cubic.gen_c1, Cubic.gen_c2, Cubic.add_c0, Cubic.add_c1, Cubic.add_c2, zero_mul, mul_zero, one_mul,
    zero_add, add_zero] at h0 h1 h2 h3 h4 h5 ⊢
  refine ⟨?_, ?_, ?_, ?_, ?_, ?_⟩
  · linear_combination h0
  · linear_combination (1 - ζ) * h1 - (-(a0 * a1) + a1 + 2 * ξ * a2 * a5 - ξ * a3 * a4) * hζ
  · linear_combination -ζ * h2 - (a0 * a2 - a1 * a1 + a2 + ξ * a3 * a5 - ξ * a4 * a4) * hζ
  · linear_combination h3
  · linear_combination (1 - ζ) * h4 + (a0 * a4 + a1 * a3 - a2 * a2 + a4 - ξ * a5 * a5) * hζ
  · linear_combination ζ * h5 - (-(a0 * a5) + 2 * a1 * a4 - a2 * a3 + a5) * hζ

omit [MulBy nr ξ] [MulBy nr' (Cubic.gen : Cubic F nr)] in
theorem cycSigma_eq (ζ : F) (hζ : ζ * ζ - ζ + 1 = 0) (x : Quad (Cubic F nr) nr') :
    (⟨⟨x.c0.c0, ζ ^ 2 * x.c0.c1, ζ ^ 4 * x.c0.c2⟩,
      ⟨ζ * x.c1.c0, ζ * (ζ ^ 2 * x.c1.c1), ζ * (ζ ^ 4 * x.c1.c2)⟩⟩ : Quad (Cubic F nr) nr') =
      cycSigma ζ x := by
  have h3 : ζ ^ 3 = -1 := by linear_combination (ζ + 1) * hζ
  unfold cycSigma
  congr 2
  · linear_combination x.c0.c1 * hζ
  · linear_combination x.c0.c2 * ζ * h3
  · linear_combination x.c1.c1 * h3
  · linear_combination x.c1.c2 * (ζ ^ 2 * h3 - hζ)

/-- The squaring formula of `cyclotomic_squared` is correct where the relations hold. -/
theorem cyclo_square (x : Quad (Cubic F nr) nr') (ζ : F) (hζ : ζ * ζ - ζ + 1 = 0)
    (h : cycSigma2 ζ x * x = cycSigma ζ x) :
    x * x = ⟨⟨3 * (x.c0.c0 * x.c0.c0 + ξ * (x.c1.c1 * x.c1.c1)) - 2 * x.c0.c0,
      3 * (x.c1.c0 * x.c1.c0 + ξ * (x.c0.c2 * x.c0.c2)) - 2 * x.c0.c1,
      3 * (x.c0.c1 * x.c0.c1 + ξ * (x.c1.c2 * x.c1.c2)) - 2 * x.c0.c2⟩,
      ⟨6 * (ξ * (x.c0.c1 * x.c1.c2)) + 2 * x.c1.c0, 6 * (x.c0.c0 * x.c1.c1) + 2 * x.c1.c1,
      6 * (x.c1.c0 * x.c0.c2) + 2 * x.c1.c2⟩⟩ := by
  obtain ⟨r0, r1, r2, r3, r4, r5⟩ := cyclo_relations ζ hζ x h
  apply Quad.ext <;> apply Cubic.ext <;>
    simp only [Quad.mul_c0, Quad.mul_c1, Cubic.mul_c0, Cubic.mul_c1, Cubic.mul_c2, Cubic.gen_c0,
      Cubic.gen_c1, Cubic.gen_c2, Cubic.add_c0, Cubic.add_c1, Cubic.add_c2, zero_mul, mul_zero, one_mul,
      zero_add, add_zero]
  · linear_combination -2 * r0
  · linear_combination -2 * r2
  · linear_combination 2 * r4
  · linear_combination 2 * r1
  · linear_combination -2 * r3
  · linear_combination 2 * r5

end Sigma

section SigmaPow
variable {F : Type*} [Field F] [Fintype F] {nr : F → F} {ξ : F} [MulBy nr ξ]
  {nr' : Cubic F nr → Cubic F nr} [MulBy nr' (Cubic.gen : Cubic F nr)]

theorem exists_zeta (Q : ℕ) (hQ : Q % 6 = 1) (hcard : Fintype.card F = Q)
    (hξ : ¬ IsSquare ξ) (hξ3 : ¬ ∃ y, y ^ 3 = ξ) :
    ξ ^ (Q / 6) * ξ ^ (Q / 6) - ξ ^ (Q / 6) + 1 = 0 := by
  have hξ0 : ξ ≠ 0 := by rintro rfl; exact hξ ⟨0, by simp⟩
  have h2 : ringChar F ≠ 2 := by
    intro h
    have := FiniteField.even_card_of_char_two h
    rw [hcard] at this; omega
  have h3 : (ξ ^ (Q / 6)) ^ 3 = -1 := by
    rw [← pow_mul, show Q / 6 * 3 = Q / 2 by omega, ← hcard]
    exact (FiniteField.pow_dichotomy h2 hξ0).resolve_left
      (fun h => hξ ((FiniteField.isSquare_iff h2 hξ0).2 h))
  have hn : ξ ^ (Q / 6) + 1 ≠ 0 := by
    intro h
    have h1 : (ξ ^ (Q / 6)) ^ 2 = 1 := by linear_combination (ξ ^ (Q / 6) - 1) * h
    rw [← pow_mul] at h1
    -- then `ξ` would be a cube
    apply hξ3
    obtain ⟨g, hg⟩ := IsCyclic.exists_generator (α := Fˣ)
    obtain ⟨j, hj⟩ := (mem_powers_iff_mem_zpowers).2 (hg (Units.mk0 ξ hξ0))
    have hord : orderOf g = Q - 1 := by
      rw [orderOf_eq_card_of_forall_mem_zpowers hg, Nat.card_units, Nat.card_eq_fintype_card, hcard]
    have hone : g ^ (j * (Q / 6 * 2)) = 1 := by
      rw [pow_mul]
      simp only at hj
      rw [hj]
      ext
      simpa using h1
    have hd := orderOf_dvd_of_pow_eq_one hone
    rw [hord, show Q - 1 = 3 * (Q / 6 * 2) by omega] at hd
    have hpos : 0 < Q / 6 * 2 := by
      have hQ1 : Q ≠ 1 := by
        intro h
        rw [h] at hcard
        have := Fintype.one_lt_card (α := F)
        omega
      omega
    obtain ⟨i, rfl⟩ := Nat.dvd_of_mul_dvd_mul_right hpos hd
    refine ⟨((g ^ i : Fˣ) : F), ?_⟩
    have := congrArg (fun u : Fˣ => (u : F)) hj
    simp only [Units.val_mk0] at this
    rw [← this, mul_comm, pow_mul]
    push_cast
    ring
  have : (ξ ^ (Q / 6) + 1) * (ξ ^ (Q / 6) * ξ ^ (Q / 6) - ξ ^ (Q / 6) + 1) = 0 := by
    linear_combination h3
  exact (mul_eq_zero.1 this).resolve_left hn

theorem pow_eq_cycSigma (p k : ℕ) [Fact p.Prime] [CharP F p] (hQ : p ^ k % 6 = 1)
    (hcard : Fintype.card F = p ^ k) (hξ : ¬ IsSquare ξ) (hξ3 : ¬ ∃ y, y ^ 3 = ξ)
    (x : Quad (Cubic F nr) nr') : x ^ p ^ k = cycSigma (ξ ^ (p ^ k / 6)) x := by
  have hz := exists_zeta (ξ := ξ) (p ^ k) hQ hcard hξ hξ3
  have hq : p ^ k = 6 * (p ^ k / 6) + 1 := by omega
  rw [← cycSigma_eq _ hz]
  rw [Quad.pow_char_pow p k x (Cubic.ofBase (ξ ^ (p ^ k / 6)))]
  · have hc : ∀ y : Cubic F nr, y ^ p ^ k =
        ⟨y.c0, (ξ ^ (p ^ k / 6)) ^ 2 * y.c1, (ξ ^ (p ^ k / 6)) ^ 4 * y.c2⟩ := by
      intro y
      rw [Cubic.pow_char_pow p k y ((ξ ^ (p ^ k / 6)) ^ 2) ((ξ ^ (p ^ k / 6)) ^ 4)]
      · rw [← hcard, FiniteField.pow_card, FiniteField.pow_card, FiniteField.pow_card]
      · rw [← pow_mul, ← Cubic.gen_pow, ← pow_succ]; congr 1; omega
      · rw [← pow_mul, ← Cubic.gen_pow, ← pow_two, ← pow_mul, ← pow_add]; congr 1; omega
    rw [hc, hc]
    ext <;> simp [-map_pow]
  · conv_rhs => rw [hq]
    rw [show 6 * (p ^ k / 6) + 1 = 2 * (3 * (p ^ k / 6)) + 1 by ring, Quad.gen_pow, Cubic.gen_pow]

theorem cyclo_square_of_pow (p k : ℕ) [Fact p.Prime] [CharP F p] (hQ : p ^ k % 6 = 1)
    (hcard : Fintype.card F = p ^ k) (hξ : ¬ IsSquare ξ) (hξ3 : ¬ ∃ y, y ^ 3 = ξ)
    (x : Quad (Cubic F nr) nr') (hx : x ^ (p ^ k * p ^ k - p ^ k + 1) = 1) :
    x * x = ⟨⟨3 * (x.c0.c0 * x.c0.c0 + ξ * (x.c1.c1 * x.c1.c1)) - 2 * x.c0.c0,
      3 * (x.c1.c0 * x.c1.c0 + ξ * (x.c0.c2 * x.c0.c2)) - 2 * x.c0.c1,
      3 * (x.c0.c1 * x.c0.c1 + ξ * (x.c1.c2 * x.c1.c2)) - 2 * x.c0.c2⟩,
      ⟨6 * (ξ * (x.c0.c1 * x.c1.c2)) + 2 * x.c1.c0, 6 * (x.c0.c0 * x.c1.c1) + 2 * x.c1.c1,
      6 * (x.c1.c0 * x.c0.c2) + 2 * x.c1.c2⟩⟩ := by
  have hz := exists_zeta (ξ := ξ) (p ^ k) hQ hcard hξ hξ3
  apply cyclo_square x _ hz
  rw [← cycSigma_cycSigma _ hz, ← pow_eq_cycSigma p k hQ hcard hξ hξ3,
    ← pow_eq_cycSigma p k hQ hcard hξ hξ3, ← pow_mul, ← pow_succ]
  have hle : p ^ k ≤ p ^ k * p ^ k := Nat.le_mul_self _
  rw [show p ^ k * p ^ k + 1 = p ^ k + (p ^ k * p ^ k - p ^ k + 1) by omega, pow_add, hx, mul_one]

end SigmaPow

/-! ## Exponentiation -/

theorem vecVal_append (a b : List (BitVec 64)) :
    vecVal (a ++ b) = b.foldl (fun v w => v * 2 ^ 64 + w.toNat) (vecVal a) := by
  rw [vecVal, List.foldl_append]; rfl

theorem vecVal_reverse (e : List Limb) : vecVal e.reverse = val e := by
  induction e with
  | nil => rfl
  | cons x e ih =>
    rw [List.reverse_cons, vecVal_append, ih, val_cons]
    simp only [List.foldl_cons, List.foldl_nil]
    ring

theorem cyclotomicExpBits_eq {G : Type*} [Monoid G] (csq : G → G) (x : G)
    (h : ∀ n : Nat, csq (x ^ n) = x ^ n * x ^ n) (e : List Limb) :
    cyclotomicExpBits csq x e = x ^ val e := by
  have := powerVec_eq' csq x h e.reverse
  rw [vecVal_reverse] at this
  exact this

theorem nafExpLoop_eq {G : Type*} [Field G] (csq : G → G) (x : G) (hx : x ≠ 0)
    (h : ∀ n : Int, csq (x ^ n) = x ^ n * x ^ n) (ds : List Int)
    (hds : ∀ d ∈ ds, d = 0 ∨ d = 1 ∨ d = -1) (v : Int) (found : Bool) (hf : found = false → v = 0) :
    nafExpLoop csq x x⁻¹ ds (found, x ^ v) = x ^ (ds.foldl (fun v d => 2 * v + d) v) := by
  induction ds generalizing v found with
  | nil => rfl
  | cons d ds ih =>
    have ih' := fun v f => ih (fun d hd => hds d (List.mem_cons_of_mem _ hd)) v f
    have hres : (if found then csq (x ^ v) else x ^ v) = x ^ (2 * v) := by
      cases found with
      | true => rw [if_pos rfl, h, ← zpow_add₀ hx, two_mul]
      | false => simp [hf rfl]
    unfold nafExpLoop
    simp only
    rw [hres, List.foldl_cons]
    rcases hds d List.mem_cons_self with rfl | rfl | rfl
    · rw [if_neg (by simp), ih' _ _ (fun hh => by rw [hf hh]; rfl), add_zero]
    · rw [if_pos (by decide), if_pos (by decide), ← zpow_add_one₀ hx, ih' _ _ (by simp)]
    · rw [if_pos (by decide), if_neg (by decide), ← zpow_sub_one₀ hx, ih' _ _ (by simp)]
      rfl

end Libff
