import Verif.Lemmas.PairingAbs
import Verif.Lemmas.MillerSteps
import Mathlib.Algebra.Group.Subgroup.ZPowers.Basic
import Mathlib.GroupTheory.OrderOfElement
import Mathlib.Algebra.Group.Subgroup.Map

/-!
# What a curve must satisfy for its ate pairing to be bilinear

`K` is the base field, `T` the field of the twist, `L` the field of the pairing's values; `g` generates the second group. From the
conditions `AteSetup`, which are identities between constants, follow the hypotheses of the abstract theory (PairingAbs).
-/
namespace Libff
open WeierstrassCurve Affine

variable {K T L : Type*} [Field K] [DecidableEq K] [Field T] [DecidableEq T] [Field L] [DecidableEq L]

/-- Multiples of an element of order `r` are killed by `r`. -/
theorem smul_zmultiples {A : Type*} [AddCommGroup A] {g : A} {r : ℕ} (h : addOrderOf g = r) {Q : A}
    (hQ : Q ∈ AddSubgroup.zmultiples g) : r • Q = 0 := by
  obtain ⟨n, rfl⟩ := AddSubgroup.mem_zmultiples_iff.1 hQ
  rw [smul_comm, ← h, addOrderOf_nsmul_eq_zero, smul_zero]

omit [DecidableEq T] in
theorem Point.exists_some {W : Affine T} {P : W.Point} (h : P ≠ 0) : ∃ x y h, P = .some x y h := by
  cases P with
  | zero => exact absurd rfl h
  | some x y h' => exact ⟨x, y, h', rfl⟩

omit [DecidableEq T] in
theorem weier_eq_or_neg {a₂ a₄ a₆ x₁ y₁ x₂ y₂ : T} {h₁ : (weier a₂ a₄ a₆).Nonsingular x₁ y₁} {h₂ : (weier a₂ a₄ a₆).Nonsingular x₂ y₂}
    (hx : x₁ = x₂) : Point.some x₁ y₁ h₁ = Point.some x₂ y₂ h₂ ∨ Point.some x₁ y₁ h₁ = -Point.some x₂ y₂ h₂ := by
  subst hx
  by_cases hy : y₁ = y₂
  · subst hy; exact Or.inl rfl
  · obtain ⟨h', e⟩ := weier_neg h₂
    right
    rw [e]
    exact (weier_some_eq rfl (weier_y_of_x h₂ h₁ (Ne.symm hy)).symm).choose_spec

/-- Raising to the power `E`. -/
def rho (L : Type*) [Field L] (E : ℕ) : L →* L := powMonoidHom E

omit [DecidableEq L] in
theorem rho_apply (E : ℕ) (x : L) : rho L E x = x ^ E := rfl

/-- The conditions. -/
structure WAteSetup (ι : K →+* L) (τ : T →+* L) (a₂ a b : K) (a₂' a' b' : T) (c₂ cx cy : L) (qX qY : T) (q r E : ℕ)
    (g : (weier a₂' a' b').Point) : Prop where
  h2 : (2 : L) ≠ 0
  /-- the untwisting map -/
  f2 : TwistHom τ a₂' a' b' c₂ (ι a) (ι b) cx cy
  /-- the Frobenius map is additive -/
  frob : ∃ σ : L →+* L, ∀ x, σ x = x ^ q
  fixK : ∀ x : K, x ^ q = x
  frobX : cx ^ q = cx * τ qX
  frobY : cy ^ q = cy * τ qY
  prime : r.Prime
  order : addOrderOf g = r
  /-- on the generator, the twisted Frobenius map is multiplication by `q` -/
  gen : ∀ x y h, g = .some x y h → ∃ h', q • g = .some (qX * x ^ q) (qY * y ^ q) h'
  coprime : ¬ (r : ℤ) ∣ (q : ℤ) - 1
  root : ∀ c : L, c ^ 4 = 1 → c ^ E = 1
  sub : ∀ x z, ι x - cx * τ z ≠ 0 → (ι x - cx * τ z) ^ E = 1
  killT : ∀ t : T, t ≠ 0 → (τ t) ^ E = 1
  unit : ∀ x : L, x ≠ 0 → (x ^ E) ^ r = 1
  e₂ : ι a₂ = c₂

/-- The conditions for short Weierstrass curves. -/
abbrev AteSetup (ι : K →+* L) (τ : T →+* L) (a b : K) (a' b' : T) (cx cy : L) (qX qY : T) (q r E : ℕ) (g : (sw a' b').Point) : Prop :=
  WAteSetup ι τ 0 a b 0 a' b' 0 cx cy qX qY q r E g

namespace WAteSetup
variable {ι : K →+* L} {τ : T →+* L} {a₂ a b : K} {a₂' a' b' : T} {c₂ cx cy : L} {qX qY : T} {q r E : ℕ} {g : (weier a₂' a' b').Point}
  (S : WAteSetup ι τ a₂ a b a₂' a' b' c₂ cx cy qX qY q r E g)
include S

omit [DecidableEq K] [DecidableEq L] in
/-- Base change. -/
theorem f1 : TwistHom ι a₂ a b c₂ (ι a) (ι b) 1 1 := ⟨one_ne_zero, by ring, by rw [one_mul, S.e₂], by simp, by simp⟩

/-- The second group, over `L`. -/
def G : AddSubgroup (weier c₂ (ι a) (ι b)).Point := (AddSubgroup.zmultiples g).map (S.f2.hom S.h2)

/-- The first group, over `L`: all points over `K`. -/
def H : AddSubgroup (weier c₂ (ι a) (ι b)).Point := (S.f1.hom S.h2).range

/-- The untwisting map. -/
def psi : (weier a₂' a' b').Point →+ (weier c₂ (ι a) (ι b)).Point := S.f2.hom S.h2

/-- Base change. -/
def inc : (weier a₂ a b).Point →+ (weier c₂ (ι a) (ι b)).Point := S.f1.hom S.h2

theorem psi_zero : S.psi 0 = 0 := map_zero _

theorem psi_some {x y : T} (h) : S.psi (.some x y h) = .some (cx * τ x) (cy * τ y) (S.f2.nonsingular h) := rfl

theorem inc_some {x y : K} (h) : S.inc (.some x y h) = .some (1 * ι x) (1 * ι y) (S.f1.nonsingular h) := rfl

theorem psi_mem {Q} (hQ : Q ∈ AddSubgroup.zmultiples g) : S.psi Q ∈ S.G := AddSubgroup.mem_map_of_mem _ hQ

theorem inc_mem (P) : S.inc P ∈ S.H := ⟨P, rfl⟩

theorem psi_injective : Function.Injective S.psi := S.f2.map_injective

theorem inc_injective : Function.Injective S.inc := S.f1.map_injective

/-- Non-zero points of the second group have order `r`. -/
theorem order_of_mem {Q} (hQ : Q ∈ AddSubgroup.zmultiples g) (h0 : Q ≠ 0) : addOrderOf Q = r := by
  have := Fact.mk S.prime
  exact addOrderOf_eq_prime (smul_zmultiples S.order hQ) h0

theorem gen_ne : g ≠ 0 := by
  intro h
  have := S.order
  rw [h, addOrderOf_zero] at this
  exact S.prime.one_lt.ne this

/-- The Frobenius map on `L`-points, as a `TwistHom`. -/
theorem frobHom (σ : L →+* L) (hσ : ∀ x, σ x = x ^ q) : TwistHom σ c₂ (ι a) (ι b) c₂ (ι a) (ι b) 1 1 where
  ne := one_ne_zero
  sq := by ring
  e₂ := by rw [one_mul, hσ, ← S.e₂, ← map_pow, S.fixK]
  e₄ := by rw [one_pow, one_mul, hσ, ← map_pow, S.fixK]
  e₆ := by rw [one_pow, one_mul, hσ, ← map_pow, S.fixK]

theorem frob_H (σ : L →+* L) (hσ : ∀ x, σ x = x ^ q) (P) (hP : P ∈ S.H) : (S.frobHom σ hσ).map P = P := by
  obtain ⟨P, rfl⟩ := hP
  change (S.frobHom σ hσ).map (S.f1.map P) = S.f1.map P
  cases P with
  | zero => rfl
  | some x y h =>
    rw [S.f1.map_some, TwistHom.map_some]
    symm
    refine (weier_some_eq ?_ ?_).choose_spec <;> rw [one_mul, hσ, mul_pow, one_pow, ← map_pow, S.fixK]

theorem frob_psi (σ : L →+* L) (hσ : ∀ x, σ x = x ^ q) {x y : T} (h : (weier a₂' a' b').Nonsingular x y) :
    ∃ h', (S.frobHom σ hσ).map (S.psi (.some x y h)) = .some (cx * τ (qX * x ^ q)) (cy * τ (qY * y ^ q)) h' := by
  rw [S.psi_some, TwistHom.map_some]
  refine weier_some_eq ?_ ?_
  · rw [one_mul, hσ, mul_pow, S.frobX, map_mul, map_pow]; ring
  · rw [one_mul, hσ, mul_pow, S.frobY, map_mul, map_pow]; ring

theorem frob_G (σ : L →+* L) (hσ : ∀ x, σ x = x ^ q) (Q) (hQ : Q ∈ S.G) : (S.frobHom σ hσ).map Q = q • Q := by
  obtain ⟨Q, hQ, rfl⟩ := hQ
  obtain ⟨n, rfl⟩ := AddSubgroup.mem_zmultiples_iff.1 hQ
  change (S.frobHom σ hσ).hom S.h2 (S.psi (n • g)) = q • S.psi (n • g)
  have hg : (S.frobHom σ hσ).hom S.h2 (S.psi g) = q • S.psi g := by
    rw [← map_nsmul]
    obtain ⟨x, y, h, hgg⟩ := Point.exists_some S.gen_ne
    obtain ⟨h', e⟩ := S.gen x y h hgg
    rw [e]
    obtain ⟨h'', e'⟩ := S.frob_psi σ hσ h
    rw [← hgg] at e'
    exact e'
  rw [map_zsmul, map_zsmul, hg, smul_comm]

/-- `mul_by_q`. -/
theorem mulByQ {x y : T} {h : (weier a₂' a' b').Nonsingular x y} (hQ : Point.some x y h ∈ AddSubgroup.zmultiples g) :
    ∃ h', q • Point.some x y h = .some (qX * x ^ q) (qY * y ^ q) h' := by
  obtain ⟨σ, hσ⟩ := S.frob
  obtain ⟨h', e⟩ := S.frob_psi σ hσ h
  rw [S.frob_G σ hσ _ (S.psi_mem hQ), ← map_nsmul] at e
  cases hq : q • Point.some x y h with
  | zero =>
    rw [hq] at e
    exact absurd e.symm (Point.some_ne_zero h')
  | some u v hu =>
    rw [hq] at e
    rw [S.psi_some] at e
    injection e with e1 e2
    exact weier_some_eq (τ.injective (mul_left_cancel₀ S.f2.ne e1)).symm (τ.injective (mul_left_cancel₀ S.f2.cy_ne e2)).symm

theorem sep : Sep (rho L E) S.G S.H where
  root := S.root
  vert A hA P hP := by
    obtain ⟨σ, hσ⟩ := S.frob
    have fA := S.frob_G σ hσ A hA
    have fP := S.frob_H σ hσ P hP
    obtain ⟨Q, hQ, rfl⟩ := hA
    obtain ⟨P, rfl⟩ := hP
    change rho L E (vertVal (S.psi Q) (S.inc P)) = 1
    cases hQ' : Q with
    | zero =>
      cases P with
      | zero => exact map_one _
      | some x y h => exact map_one _
    | some u v hu =>
      cases hP' : P with
      | zero => exact map_one _
      | some x y h =>
        have key : (ι x - cx * τ u) ≠ 0 := by
          intro h0
          -- the two points agree up to sign, so the first is fixed by Frobenius
          have hx : cx * τ u = ι x := (sub_eq_zero.1 h0).symm
          have hfix : q • S.psi Q = S.psi Q := by
            have hor : S.psi Q = S.inc P ∨ S.psi Q = -S.inc P := by
              rw [hQ', hP']
              rw [S.psi_some, S.inc_some]
              exact weier_eq_or_neg (by rw [hx, one_mul])
            have fA : (S.frobHom σ hσ).hom S.h2 (S.psi Q) = q • S.psi Q := fA
            have fP : (S.frobHom σ hσ).hom S.h2 (S.inc P) = S.inc P := fP
            rw [← fA]
            rcases hor with e | e
            · rw [e, fP]
            · rw [e, map_neg, fP]
          have h1 : q • Q = Q := S.psi_injective (by rw [map_nsmul, hfix])
          have h2 : ((q : ℤ) - 1) • Q = 0 := by rw [sub_smul, one_smul, natCast_zsmul, h1, sub_self]
          have h3 := addOrderOf_dvd_iff_zsmul_eq_zero.2 h2
          rw [S.order_of_mem hQ (by rw [hQ']; exact Point.some_ne_zero _)] at h3
          exact S.coprime h3
        have : vertVal (S.psi (.some u v hu)) (S.inc (.some x y h)) = ι x - cx * τ u := by
          change 1 * ι x - cx * τ u = _
          rw [one_mul]
        rw [this, rho_apply]
        exact S.sub x u key

theorem rho_r (x : L) (hx : rho L E x ≠ 0) : rho L E x ^ r = 1 := by
  rw [rho_apply] at hx ⊢
  by_cases h0 : x = 0
  · subst h0
    by_cases hE : E = 0
    · rw [hE, pow_zero, one_pow]
    · exact absurd (zero_pow hE) hx
  · exact S.unit x h0

theorem smul_G (Q) (hQ : Q ∈ S.G) : r • Q = 0 := by
  obtain ⟨Q, hQ, rfl⟩ := hQ
  rw [← map_nsmul, smul_zmultiples S.order hQ, map_zero]

theorem good_q : Good (rho L E) S.G S.H q := by
  obtain ⟨σ, hσ⟩ := S.frob
  refine Good.frobenius S.sep S.h2 (S.frobHom σ hσ) (S.frob_G σ hσ) (S.frob_H σ hσ) fun x => ?_
  rw [rho_apply, rho_apply, hσ, ← pow_mul, ← pow_mul, mul_comm]

theorem good_modEq {m n : ℤ} (h : Good (rho L E) S.G S.H m) (e : n ≡ m [ZMOD r]) : Good (rho L E) S.G S.H n :=
  h.modEq S.sep S.smul_G S.rho_r e

/-! ## Lines -/

/-- The equation of a line of the twist gives the equation of its image. -/
theorem line_psi {A B : (weier a₂' a' b').Point} (hA : A ≠ 0) (hB : B ≠ 0) (hAB : A + B ≠ 0) {c₀ c₁ c₂ : T} (h : IsLine A B c₀ c₁ c₂) :
    c₁ ≠ 0 ∧ ∀ x y : L, cy * τ c₀ + τ c₁ * y + cy / cx * τ c₂ * x = τ c₁ * lineAt (S.psi A) (S.psi B) x y := by
  obtain ⟨κ, hκ, hl⟩ := h
  obtain ⟨x₁, y₁, h₁, x₂, y₂, h₂, x₃, y₃, h₃, ℓ, ν, -, -, -, e, -⟩ := line_sloped A B hA hB hAB
  have hA' : S.psi A ≠ 0 := fun h0 => hA (S.psi_injective (by rw [h0, map_zero]))
  have hB' : S.psi B ≠ 0 := fun h0 => hB (S.psi_injective (by rw [h0, map_zero]))
  have hAB' : S.psi A + S.psi B ≠ 0 := fun h0 => hAB (S.psi_injective (by rw [map_add, h0, map_zero]))
  obtain ⟨_, _, _, _, _, _, _, _, _, ℓ', ν', -, -, -, e', -⟩ := line_sloped (S.psi A) (S.psi B) hA' hB' hAB'
  have m := S.f2.lineAt_map S.h2 hA hB hAB
  have m0 : lineAt (S.psi A) (S.psi B) (cx * τ 0) (cy * τ 0) = cy * τ (lineAt A B 0 0) := m 0 0
  have m1 : lineAt (S.psi A) (S.psi B) (cx * τ 1) (cy * τ 0) = cy * τ (lineAt A B 1 0) := m 1 0
  rw [e, e'] at m0 m1
  simp only [map_zero, map_one, mul_zero, mul_one, zero_sub, map_neg, map_add] at m0 m1
  have d0 := hl 0 0
  have d1 := hl 0 1
  have d2 := hl 1 0
  rw [e] at d0 d1 d2
  have k1 : c₁ = κ := by linear_combination d1 - d0
  have k0 : c₀ = -(κ * ν) := by linear_combination d0
  have k2 : c₂ = -(κ * ℓ) := by linear_combination d2 - d0
  rw [k1]
  refine ⟨hκ, fun x y => ?_⟩
  have hcx := S.f2.ne
  have n0 : ν' = cy * τ ν := by linear_combination -m0
  have n1 : ℓ' = cy / cx * τ ℓ := by
    field_simp
    linear_combination m0 - m1
  rw [e', k0, k2, n0, n1]
  simp only [map_neg, map_mul]
  ring

/-- The value of a line at a point of the first group, up to a factor that the final exponentiation kills. -/
theorem line_eval {A B : (weier a₂' a' b').Point} (hA : A ≠ 0) (hB : B ≠ 0) (hAB : A + B ≠ 0) {c₀ c₁ c₂ : T} (h : IsLine A B c₀ c₁ c₂)
    {x y : K} (hP : (weier a₂ a b).Nonsingular x y) {c e : L} (hc : c ^ E = 1)
    (he : e = c * (cy * τ c₀ + τ c₁ * ι y + cy / cx * τ c₂ * ι x)) :
    e ^ E = rho L E (lineVal (S.psi A) (S.psi B) (S.inc (.some x y hP))) := by
  obtain ⟨h1, h2⟩ := S.line_psi hA hB hAB h
  rw [he, h2, mul_pow, hc, one_mul, mul_pow, S.killT _ h1, one_mul, rho_apply, S.inc_some, lineVal, one_mul, one_mul]

/-! ## The Miller loop -/

/-- `f` is the value of the Miller function `f_{n,Q}` at `P`, up to a factor that the final exponentiation kills. -/
def MInv (P : (weier a₂ a b).Point) (Q : (weier a₂' a' b').Point) (n : ℕ) (f : L) : Prop :=
  f ^ E = millerVal (rho L E) n (S.psi Q) (S.inc P)

variable {P : (weier a₂ a b).Point} {Q : (weier a₂' a' b').Point} {n : ℕ} {f e : L}

theorem MInv.one (hQ : Q ∈ AddSubgroup.zmultiples g) : S.MInv P Q 1 1 := by
  unfold MInv
  rw [one_pow, millerVal_one S.sep (S.psi_mem hQ) (S.inc_mem P)]

theorem MInv.double (hQ : Q ∈ AddSubgroup.zmultiples g) (h : S.MInv P Q n f)
    (he : e ^ E = rho L E (lineVal (S.psi (n • Q)) (S.psi (n • Q)) (S.inc P))) : S.MInv P Q (2 * n) (f * f * e) := by
  unfold MInv at h ⊢
  rw [two_mul, millerVal_add S.sep (S.psi_mem hQ) (S.inc_mem P), mul_pow, mul_pow, he, h, map_nsmul]

theorem MInv.add (h : S.MInv P Q n f)
    (he : e ^ E = rho L E (lineVal (S.psi (n • Q)) (S.psi Q) (S.inc P))) : S.MInv P Q (n + 1) (f * e) := by
  unfold MInv at h ⊢
  rw [millerVal_succ, mul_pow, he, h, map_nsmul]

theorem MInv.ne_zero (hQ : Q ∈ AddSubgroup.zmultiples g) (hE : E ≠ 0) (h : S.MInv P Q n f) : f ≠ 0 := by
  rintro rfl
  unfold MInv at h
  rw [zero_pow hE] at h
  exact millerVal_ne_zero S.sep (S.psi_mem hQ) (S.inc_mem P) n h.symm

/-- Small multiples of a non-zero point are different. -/
theorem smul_ne_zero_of_lt (hQ : Q ∈ AddSubgroup.zmultiples g) (h0 : Q ≠ 0) {n : ℤ} (hn : ¬ (r : ℤ) ∣ n) : n • Q ≠ 0 := by
  intro h
  exact hn (by rw [← S.order_of_mem hQ h0]; exact addOrderOf_dvd_iff_zsmul_eq_zero.2 h)

end WAteSetup
end Libff
