import Verif.Lemmas.MillerAbs
import Verif.Lemmas.TwistHom
import Mathlib.Algebra.GroupWithZero.Units.Basic
import Mathlib.Data.Int.ModEq

/-!
# Ate pairings are bilinear

`G` is a group of points on which the Frobenius map acts as multiplication by `q`, `H` a group of points it fixes. A
multiplier `m` is `Good` if lines are compatible with multiplication by `m` on `G`; powers of `q` up to sign and modulo the
group order are, and the reduced Miller function of a good multiplier is bilinear.
-/
namespace Libff
open WeierstrassCurve Affine

variable {F : Type*} [Field F] [DecidableEq F] {a₂ a₄ a₆ : F}

/-- A map of two groups of points into the non-zero elements of a field that is additive in each argument. -/
structure Bilin (e : (weier a₂ a₄ a₆).Point → (weier a₂ a₄ a₆).Point → F) (G H : AddSubgroup (weier a₂ a₄ a₆).Point) : Prop where
  left : ∀ Q ∈ G, ∀ S ∈ G, ∀ P ∈ H, e (Q + S) P = e Q P * e S P
  right : ∀ Q ∈ G, ∀ P ∈ H, ∀ R ∈ H, e Q (P + R) = e Q P * e Q R
  ne_zero : ∀ Q ∈ G, ∀ P ∈ H, e Q P ≠ 0

namespace Bilin
variable {e f : (weier a₂ a₄ a₆).Point → (weier a₂ a₄ a₆).Point → F} {G H : AddSubgroup (weier a₂ a₄ a₆).Point}

theorem mul (he : Bilin e G H) (hf : Bilin f G H) : Bilin (fun Q P => e Q P * f Q P) G H where
  left Q hQ S hS P hP := by rw [he.left Q hQ S hS P hP, hf.left Q hQ S hS P hP]; ring
  right Q hQ P hP R hR := by rw [he.right Q hQ P hP R hR, hf.right Q hQ P hP R hR]; ring
  ne_zero Q hQ P hP := mul_ne_zero (he.ne_zero Q hQ P hP) (hf.ne_zero Q hQ P hP)

theorem inv (he : Bilin e G H) : Bilin (fun Q P => (e Q P)⁻¹) G H where
  left Q hQ S hS P hP := by rw [he.left Q hQ S hS P hP, mul_inv]
  right Q hQ P hP R hR := by rw [he.right Q hQ P hP R hR, mul_inv]
  ne_zero Q hQ P hP := inv_ne_zero (he.ne_zero Q hQ P hP)

theorem congr (he : Bilin e G H) (h : ∀ Q ∈ G, ∀ P ∈ H, f Q P = e Q P) : Bilin f G H where
  left Q hQ S hS P hP := by rw [h _ (add_mem hQ hS) P hP, h Q hQ P hP, h S hS P hP, he.left Q hQ S hS P hP]
  right Q hQ P hP R hR := by rw [h Q hQ _ (add_mem hP hR), h Q hQ P hP, h Q hQ R hR, he.right Q hQ P hP R hR]
  ne_zero Q hQ P hP := by rw [h Q hQ P hP]; exact he.ne_zero Q hQ P hP

theorem zero_left (he : Bilin e G H) {P} (hP : P ∈ H) : e 0 P = 1 := by
  have := he.left 0 (zero_mem G) 0 (zero_mem G) P hP
  rw [add_zero] at this
  exact (mul_eq_left₀ (he.ne_zero 0 (zero_mem G) P hP)).1 this.symm

theorem zero_right (he : Bilin e G H) {Q} (hQ : Q ∈ G) : e Q 0 = 1 := by
  have := he.right Q hQ 0 (zero_mem H) 0 (zero_mem H)
  rw [add_zero] at this
  exact (mul_eq_left₀ (he.ne_zero Q hQ 0 (zero_mem H))).1 this.symm

theorem nsmul_left (he : Bilin e G H) {Q P} (hQ : Q ∈ G) (hP : P ∈ H) (n : ℕ) : e (n • Q) P = e Q P ^ n := by
  induction n with
  | zero => rw [zero_smul, pow_zero, he.zero_left hP]
  | succ n ih => rw [succ_nsmul, he.left _ (nsmul_mem hQ n) Q hQ P hP, ih, pow_succ]

theorem nsmul_right (he : Bilin e G H) {Q P} (hQ : Q ∈ G) (hP : P ∈ H) (n : ℕ) : e Q (n • P) = e Q P ^ n := by
  induction n with
  | zero => rw [zero_smul, pow_zero, he.zero_right hQ]
  | succ n ih => rw [succ_nsmul, he.right Q hQ _ (nsmul_mem hP n) P hP, ih, pow_succ]

theorem neg_left (he : Bilin e G H) {Q P} (hQ : Q ∈ G) (hP : P ∈ H) : e (-Q) P = (e Q P)⁻¹ := by
  have := he.left (-Q) (neg_mem hQ) Q hQ P hP
  rw [neg_add_cancel, he.zero_left hP] at this
  exact eq_inv_of_mul_eq_one_left this.symm

theorem neg_right (he : Bilin e G H) {Q P} (hQ : Q ∈ G) (hP : P ∈ H) : e Q (-P) = (e Q P)⁻¹ := by
  have := he.right Q hQ (-P) (neg_mem hP) P hP
  rw [neg_add_cancel, he.zero_right hQ] at this
  exact eq_inv_of_mul_eq_one_left this.symm

end Bilin

/-- The line through the negatives of two points. -/
theorem lineAt_neg_neg {A B : (weier a₂ a₄ a₆).Point} (hA : A ≠ 0) (hB : B ≠ 0) (hAB : A + B ≠ 0) (x y : F) :
    lineAt (-A) (-B) x y = -lineAt A B x (-y) := by
  have h : TwistHom (RingHom.id F) a₂ a₄ a₆ a₂ a₄ a₆ 1 (-1) :=
    ⟨one_ne_zero, by ring, by simp, by simp, by simp⟩
  have hm : ∀ A : (weier a₂ a₄ a₆).Point, h.map A = -A := by
    intro A
    cases A with
    | zero => rfl
    | some x y hxy =>
      obtain ⟨h', e⟩ := weier_neg hxy
      rw [h.map_some, e]
      simp
  by_cases h2 : (2 : F) = 0
  · -- every point is its own negative
    have hc : ∀ z : F, -z = z := fun z => by linear_combination -z * h2
    have hn : ∀ A : (weier a₂ a₄ a₆).Point, -A = A := by
      intro A
      cases A with
      | zero => rfl
      | some x y hxy =>
        obtain ⟨h', e⟩ := weier_neg hxy
        rw [e]; simp only [hc]
    rw [hn, hn, hc, hc]
  · have := h.lineAt_map h2 hA hB hAB x (-y)
    simpa [hm] using this

variable {ρ : F →* F} {G H : AddSubgroup (weier a₂ a₄ a₆).Point}

theorem Sep.line_neg_neg (h : Sep ρ G H) {A B P : (weier a₂ a₄ a₆).Point} (hA : A ∈ G) (hB : B ∈ G) (hP : P ∈ H) :
    ρ (lineVal (-A) (-B) P) = (ρ (lineVal A B P))⁻¹ := by
  rw [← eq_inv_of_mul_eq_one_right (h.line_neg hA hB hP)]
  by_cases hd : A = 0 ∨ B = 0 ∨ A + B = 0 ∨ P = 0
  · rw [h.line_degenerate (neg_mem hA) (neg_mem hB) hP, h.line_degenerate hA hB (neg_mem hP)]
    · rcases hd with hd | hd | hd | hd
      · exact Or.inl hd
      · exact Or.inr (Or.inl hd)
      · exact Or.inr (Or.inr (Or.inl hd))
      · exact Or.inr (Or.inr (Or.inr (by rw [hd, neg_zero])))
    · rcases hd with hd | hd | hd | hd
      · exact Or.inl (by rw [hd, neg_zero])
      · exact Or.inr (Or.inl (by rw [hd, neg_zero]))
      · exact Or.inr (Or.inr (Or.inl (by rw [← neg_add, hd, neg_zero])))
      · exact Or.inr (Or.inr (Or.inr hd))
  · push Not at hd
    cases P with
    | zero => exact absurd rfl hd.2.2.2
    | some x y hxy =>
      obtain ⟨h', e⟩ := weier_neg hxy
      rw [e, lineVal, lineVal, lineAt_neg_neg hd.1 hd.2.1 hd.2.2.1, h.rho_neg]

/-- Multiplication by `m` on `G` is compatible with lines. -/
structure Good (ρ : F →* F) (G H : AddSubgroup (weier a₂ a₄ a₆).Point) (m : ℤ) : Prop where
  at' : ∀ Q ∈ G, ∀ P ∈ H, ∀ R ∈ H, ρ (lineVal P R (m • Q)) = ρ (lineVal P R Q) ^ m
  of : ∀ Q ∈ G, ∀ S ∈ G, ∀ P ∈ H, ρ (lineVal (m • Q) (m • S) P) = ρ (lineVal Q S P) ^ m

namespace Good

theorem neg (h : Sep ρ G H) {m : ℤ} (g : Good ρ G H m) : Good ρ G H (-m) where
  at' Q hQ P hP R hR := by
    rw [neg_smul, zpow_neg, ← g.at' Q hQ P hP R hR]
    exact eq_inv_of_mul_eq_one_right (h.symm.line_neg hP hR (zsmul_mem hQ m))
  of Q hQ S hS P hP := by
    rw [neg_smul, neg_smul, zpow_neg, ← g.of Q hQ S hS P hP]
    exact h.line_neg_neg (zsmul_mem hQ m) (zsmul_mem hS m) hP

theorem mul {m n : ℤ} (g : Good ρ G H m) (k : Good ρ G H n) : Good ρ G H (m * n) where
  at' Q hQ P hP R hR := by
    rw [mul_smul, g.at' _ (zsmul_mem hQ n) P hP R hR, k.at' Q hQ P hP R hR, ← zpow_mul, mul_comm]
  of Q hQ S hS P hP := by
    rw [mul_smul, mul_smul, g.of _ (zsmul_mem hQ n) _ (zsmul_mem hS n) P hP, k.of Q hQ S hS P hP, ← zpow_mul, mul_comm]

theorem modEq (h : Sep ρ G H) {r : ℕ} (hG : ∀ Q ∈ G, r • Q = 0) (hρ : ∀ x, ρ x ≠ 0 → ρ x ^ r = 1) {m n : ℤ}
    (g : Good ρ G H m) (e : n ≡ m [ZMOD r]) : Good ρ G H n := by
  obtain ⟨k, hk⟩ := e.dvd
  obtain rfl : n = m + r * (-k) := by linear_combination -hk
  have hs : ∀ Q ∈ G, (m + r * (-k)) • Q = m • Q := by
    intro Q hQ
    rw [add_smul, mul_comm, mul_smul, natCast_zsmul, hG Q hQ, smul_zero, add_zero]
  have hp : ∀ x, ρ x ≠ 0 → ρ x ^ (m + r * (-k)) = ρ x ^ m := by
    intro x hx
    rw [zpow_add₀ hx, zpow_mul, zpow_natCast, hρ x hx, one_zpow, mul_one]
  exact ⟨fun Q hQ P hP R hR => by rw [hs Q hQ, hp _ (h.symm.line_ne_zero hP hR hQ), g.at' Q hQ P hP R hR],
    fun Q hQ S hS P hP => by rw [hs Q hQ, hs S hS, hp _ (h.line_ne_zero hQ hS hP), g.of Q hQ S hS P hP]⟩

/-- The Frobenius map. -/
theorem frobenius (h : Sep ρ G H) (h2 : (2 : F) ≠ 0) {σ : F →+* F} (f : TwistHom σ a₂ a₄ a₆ a₂ a₄ a₆ 1 1) {q : ℕ}
    (hG : ∀ Q ∈ G, f.map Q = q • Q) (hH : ∀ P ∈ H, f.map P = P) (hρ : ∀ x, ρ (σ x) = ρ x ^ q) : Good ρ G H q where
  at' Q hQ P hP R hR := by
    rw [zpow_natCast, natCast_zsmul]
    by_cases hd : P = 0 ∨ R = 0 ∨ P + R = 0 ∨ Q = 0
    · rw [h.symm.line_degenerate hP hR hQ hd, one_pow, h.symm.line_degenerate hP hR (nsmul_mem hQ q)]
      rcases hd with hd | hd | hd | hd
      · exact Or.inl hd
      · exact Or.inr (Or.inl hd)
      · exact Or.inr (Or.inr (Or.inl hd))
      · exact Or.inr (Or.inr (Or.inr (by rw [hd, smul_zero])))
    · push Not at hd
      rw [← hG Q hQ, ← hρ]
      congr 1
      cases Q with
      | zero => exact absurd rfl hd.2.2.2
      | some x y hxy =>
        have := f.lineAt_map h2 hd.1 hd.2.1 hd.2.2.1 x y
        rw [hH P hP, hH R hR, one_mul (σ (lineAt P R x y))] at this
        exact this
  of Q hQ S hS P hP := by
    rw [zpow_natCast, natCast_zsmul, natCast_zsmul]
    by_cases hd : Q = 0 ∨ S = 0 ∨ Q + S = 0 ∨ P = 0
    · rw [h.line_degenerate hQ hS hP hd, one_pow, h.line_degenerate (nsmul_mem hQ q) (nsmul_mem hS q) hP]
      rcases hd with hd | hd | hd | hd
      · exact Or.inl (by rw [hd, smul_zero])
      · exact Or.inr (Or.inl (by rw [hd, smul_zero]))
      · exact Or.inr (Or.inr (Or.inl (by rw [← smul_add, hd, smul_zero])))
      · exact Or.inr (Or.inr (Or.inr hd))
    · push Not at hd
      have hP' := hH P hP
      rw [← hG Q hQ, ← hG S hS, ← hρ]
      congr 1
      cases P with
      | zero => exact absurd rfl hd.2.2.2
      | some x y hxy =>
        have := f.lineAt_map h2 hd.1 hd.2.1 hd.2.2.1 x y
        rw [f.map_some] at hP'
        injection hP' with e1 e2
        rw [e1, e2, one_mul] at this
        exact this

/-- The reduced Miller function of a good multiplier is bilinear. -/
theorem bilin (h : Sep ρ G H) {n : ℕ} (g : Good ρ G H n) : Bilin (fun Q P => millerVal ρ n Q P) G H where
  left Q hQ S hS P hP := by
    have h1 := millerVal_right h hQ hS hP n
    have h2 := g.of Q hQ S hS P hP
    rw [zpow_natCast, natCast_zsmul, natCast_zsmul] at h2
    rw [h2] at h1
    exact (mul_right_cancel₀ (pow_ne_zero n (h.line_ne_zero hQ hS hP)) h1).symm
  right Q hQ P hP R hR := by
    have h1 := millerVal_left h hQ hP hR n
    have h2 := g.at' Q hQ P hP R hR
    rw [zpow_natCast, natCast_zsmul] at h2
    rw [h2] at h1
    exact (mul_right_cancel₀ (pow_ne_zero n (h.symm.line_ne_zero hP hR hQ)) h1).symm
  ne_zero Q hQ P hP := millerVal_ne_zero h hQ hP n

/-- The optimal ate pairing of Barreto–Naehrig curves: a Miller function and two more lines. -/
theorem bilin_bn (h : Sep ρ G H) {t q m : ℕ} (gq : Good ρ G H q) (gm : Good ρ G H m) (g : Good ρ G H (t + q + m : ℕ)) :
    Bilin (fun Q P => millerVal ρ t Q P * ρ (lineVal (t • Q) (q • Q) P) * ρ (lineVal ((t + q) • Q) (m • Q) P)) G H := by
  refine ((g.bilin h).mul ((gq.bilin h).mul (gm.bilin h)).inv).congr fun Q hQ P hP => ?_
  have e1 := millerVal_add h hQ hP (t + q) m
  have e2 := millerVal_add h hQ hP t q
  have n1 := millerVal_ne_zero h hQ hP q
  have n2 := millerVal_ne_zero h hQ hP m
  rw [e1, e2]
  field_simp

end Good
end Libff
