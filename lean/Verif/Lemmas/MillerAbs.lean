import Verif.Lemmas.LineRecip
import Mathlib.Algebra.BigOperators.Group.Finset.Basic
import Mathlib.Algebra.Group.Subgroup.Basic

/-!
# Reduced Miller functions are bilinear

`ρ` is the final exponentiation, seen as a monoid homomorphism that kills the vertical lines of points of one group at
points of the other (`Sep`) and the fourth roots of unity. Under `ρ` lines satisfy the cocycle identity without verticals,
and the reciprocity law exchanges the two groups.
-/
namespace Libff
open WeierstrassCurve Affine

variable {F : Type*} [Field F] [DecidableEq F] {a₂ a₄ a₆ : F}


/-- `ρ` kills the vertical lines through points of `G` at points of `H`, and the fourth roots of unity. -/
structure Sep (ρ : F →* F) (G H : AddSubgroup (weier a₂ a₄ a₆).Point) : Prop where
  vert : ∀ A ∈ G, ∀ P ∈ H, ρ (vertVal A P) = 1
  root : ∀ c : F, c ^ 4 = 1 → ρ c = 1

namespace Sep
variable {ρ : F →* F} {G H : AddSubgroup (weier a₂ a₄ a₆).Point}

theorem neg_one (h : Sep ρ G H) : ρ (-1) = 1 := h.root _ (by norm_num)

theorem rho_neg (h : Sep ρ G H) (x : F) : ρ (-x) = ρ x := by rw [← neg_one_mul, map_mul, h.neg_one, one_mul]

theorem symm (h : Sep ρ G H) : Sep ρ H G where
  vert A hA P hP := by
    rcases vertVal_comm A P with e | e <;> rw [e]
    · exact h.vert P hP A hA
    · rw [h.rho_neg]; exact h.vert P hP A hA
  root := h.root

/-- Degenerate lines are vertical. -/
theorem line_degenerate (h : Sep ρ G H) {A B P : (weier a₂ a₄ a₆).Point} (hA : A ∈ G) (hB : B ∈ G) (hP : P ∈ H)
    (hd : A = 0 ∨ B = 0 ∨ A + B = 0 ∨ P = 0) : ρ (lineVal A B P) = 1 := by
  cases P with
  | zero => exact map_one ρ
  | some x y hxy =>
    cases A with
    | zero => exact h.vert B hB _ hP
    | some x₁ y₁ h₁ =>
      cases B with
      | zero => exact h.vert _ hA _ hP
      | some x₂ y₂ h₂ =>
        rcases hd with hd | hd | hd | hd
        · exact absurd hd (Point.some_ne_zero h₁)
        · exact absurd hd (Point.some_ne_zero h₂)
        · have hxy' : x₁ = x₂ ∧ y₁ = (weier a₂ a₄ a₆).negY x₂ y₂ := by
            have := eq_neg_of_add_eq_zero_left hd
            rw [Point.neg_some] at this
            injection this with h1 h2
            exact ⟨h1, h2⟩
          rw [lineVal, lineAt, if_pos hxy']
          exact h.vert _ hA _ hP
        · exact absurd hd (Point.some_ne_zero hxy)

/-- The line at the negative of a point. -/
theorem line_neg (h : Sep ρ G H) {A B P : (weier a₂ a₄ a₆).Point} (hA : A ∈ G) (hB : B ∈ G) (hP : P ∈ H) :
    ρ (lineVal A B P) * ρ (lineVal A B (-P)) = 1 := by
  by_cases hd : A = 0 ∨ B = 0 ∨ A + B = 0 ∨ P = 0
  · rw [h.line_degenerate hA hB hP hd, h.line_degenerate hA hB (neg_mem hP) (by simpa using hd), one_mul]
  · push Not at hd
    rw [← map_mul, lineVal_neg hd.1 hd.2.1 hd.2.2.1 hd.2.2.2, h.rho_neg, map_mul, map_mul, h.vert A hA P hP,
      h.vert B hB P hP, h.vert _ (add_mem hA hB) P hP, one_mul, one_mul]

theorem line_ne_zero (h : Sep ρ G H) {A B P : (weier a₂ a₄ a₆).Point} (hA : A ∈ G) (hB : B ∈ G) (hP : P ∈ H) : ρ (lineVal A B P) ≠ 0 :=
  left_ne_zero_of_mul_eq_one (h.line_neg hA hB hP)

/-- The cocycle identity. -/
theorem cocycle (h : Sep ρ G H) {A B C P : (weier a₂ a₄ a₆).Point} (hA : A ∈ G) (hB : B ∈ G) (hC : C ∈ G) (hP : P ∈ H) :
    ρ (lineVal A B P) * ρ (lineVal (A + B) C P) = ρ (lineVal B C P) * ρ (lineVal A (B + C) P) := by
  cases P with
  | zero => simp only [lineVal, map_one]
  | some x y hxy =>
    obtain ⟨c, hc, e⟩ := lineAt_cocycle A B C hxy.left
    have := congrArg ρ e
    simp only [map_mul] at this
    rw [h.root c hc, one_mul, show ρ (vertAt (B + C) x) = 1 from h.vert _ (add_mem hB hC) _ hP,
      show ρ (vertAt (A + B) x) = 1 from h.vert _ (add_mem hA hB) _ hP, mul_one, mul_one] at this
    exact this

/-- The four points exchange. -/
theorem interchange (h : Sep ρ G H) {A B A' B' P : (weier a₂ a₄ a₆).Point} (hA : A ∈ G) (hB : B ∈ G) (hA' : A' ∈ G) (hB' : B' ∈ G)
    (hP : P ∈ H) :
    ρ (lineVal A B P) * ρ (lineVal A' B' P) * ρ (lineVal (A + B) (A' + B') P) =
      ρ (lineVal A A' P) * ρ (lineVal B B' P) * ρ (lineVal (A + A') (B + B') P) := by
  have h1 := h.cocycle hA hB (add_mem hA' hB') hP
  have h2 := h.cocycle hB hA' hB' hP
  have h3 := h.cocycle hA hA' (add_mem hB hB') hP
  have h4 := h.cocycle hA' hB hB' hP
  rw [show A' + (B + B') = B + (A' + B') by abel] at h3
  rw [lineVal_comm A' B, show A' + B = B + A' by abel] at h4
  calc _ = ρ (lineVal A' B' P) * (ρ (lineVal A B P) * ρ (lineVal (A + B) (A' + B') P)) := by ring
    _ = (ρ (lineVal B A' P) * ρ (lineVal (B + A') B' P)) * ρ (lineVal A (B + (A' + B')) P) := by rw [h1, h2]; ring
    _ = ρ (lineVal B B' P) * (ρ (lineVal A A' P) * ρ (lineVal (A + A') (B + B') P)) := by rw [h4, h3]; ring
    _ = _ := by ring

/-- Reciprocity. -/
theorem recip (h : Sep ρ G H) {A B P R : (weier a₂ a₄ a₆).Point} (hA : A ∈ G) (hB : B ∈ G) (hP : P ∈ H) (hR : R ∈ H) :
    ρ (lineVal A B P) * ρ (lineVal A B R) * ρ (lineVal P R (A + B)) =
      ρ (lineVal A B (P + R)) * (ρ (lineVal P R A) * ρ (lineVal P R B)) := by
  by_cases hd : A = 0 ∨ B = 0 ∨ A + B = 0
  · rw [h.line_degenerate hA hB hP (by tauto), h.line_degenerate hA hB hR (by tauto),
      h.line_degenerate hA hB (add_mem hP hR) (by tauto), one_mul, one_mul, one_mul]
    rcases hd with rfl | rfl | hd
    · rw [zero_add, h.symm.line_degenerate hP hR hA (by simp), one_mul]
    · rw [add_zero, h.symm.line_degenerate hP hR hB (by simp), mul_one]
    · rw [h.symm.line_degenerate hP hR (add_mem hA hB) (by tauto), show B = -A from eq_neg_of_add_eq_zero_right hd,
        h.symm.line_neg hP hR hA]
  by_cases hd' : P = 0 ∨ R = 0 ∨ P + R = 0
  · rw [h.symm.line_degenerate hP hR hA (by tauto), h.symm.line_degenerate hP hR hB (by tauto),
      h.symm.line_degenerate hP hR (add_mem hA hB) (by tauto), mul_one, mul_one, mul_one]
    rcases hd' with rfl | rfl | hd'
    · rw [zero_add, h.line_degenerate hA hB hP (by simp), one_mul]
    · rw [add_zero, h.line_degenerate hA hB hR (by simp), mul_one]
    · rw [h.line_degenerate hA hB (add_mem hP hR) (by tauto), show R = -P from eq_neg_of_add_eq_zero_right hd',
        h.line_neg hA hB hP]
  push Not at hd hd'
  have e := congrArg ρ (lineVal_recip hd.1 hd.2.1 hd.2.2 hd'.1 hd'.2.1 hd'.2.2)
  rw [h.rho_neg] at e
  simp only [map_mul] at e
  have e1 := h.line_neg hA hB (add_mem hP hR)
  have e2 := h.symm.line_neg hP hR (add_mem hA hB)
  calc ρ (lineVal A B P) * ρ (lineVal A B R) * ρ (lineVal P R (A + B))
      = (ρ (lineVal A B P) * ρ (lineVal A B R) * ρ (lineVal A B (-(P + R)))) * ρ (lineVal A B (P + R)) *
          ρ (lineVal P R (A + B)) := by
        rw [show ∀ a b c d e : F, a * b * c * d * e = a * b * e * (d * c) by intros; ring, e1, mul_one]
    _ = ρ (lineVal A B (P + R)) * (ρ (lineVal P R A) * ρ (lineVal P R B)) *
          (ρ (lineVal P R (A + B)) * ρ (lineVal P R (-(A + B)))) := by rw [e]; ring
    _ = _ := by rw [e2, mul_one]

end Sep

/-! ## The Miller function -/

/-- The reduced Miller function `f_{n,Q}(P)`: the product of the lines through `i Q` and `Q` for `i < n`. -/
def millerVal (ρ : F →* F) (n : ℕ) (Q P : (weier a₂ a₄ a₆).Point) : F :=
  ∏ i ∈ Finset.range n, ρ (lineVal (i • Q) Q P)

section
variable {ρ : F →* F} {G H : AddSubgroup (weier a₂ a₄ a₆).Point}

theorem millerVal_zero (Q P : (weier a₂ a₄ a₆).Point) : millerVal ρ 0 Q P = 1 := Finset.prod_range_zero _

theorem millerVal_succ (n : ℕ) (Q P : (weier a₂ a₄ a₆).Point) : millerVal ρ (n + 1) Q P = millerVal ρ n Q P * ρ (lineVal (n • Q) Q P) :=
  Finset.prod_range_succ _ _

theorem millerVal_one (h : Sep ρ G H) {Q P : (weier a₂ a₄ a₆).Point} (hQ : Q ∈ G) (hP : P ∈ H) : millerVal ρ 1 Q P = 1 := by
  rw [millerVal_succ, millerVal_zero, one_mul, zero_smul]
  exact h.line_degenerate (zero_mem G) hQ hP (by simp)

theorem millerVal_ne_zero (h : Sep ρ G H) {Q P : (weier a₂ a₄ a₆).Point} (hQ : Q ∈ G) (hP : P ∈ H) (n : ℕ) : millerVal ρ n Q P ≠ 0 :=
  Finset.prod_ne_zero_iff.2 fun _ _ => h.line_ne_zero (nsmul_mem hQ _) hQ hP

/-- Miller's formula. -/
theorem millerVal_add (h : Sep ρ G H) {Q P : (weier a₂ a₄ a₆).Point} (hQ : Q ∈ G) (hP : P ∈ H) (n m : ℕ) :
    millerVal ρ (n + m) Q P = millerVal ρ n Q P * millerVal ρ m Q P * ρ (lineVal (n • Q) (m • Q) P) := by
  induction m with
  | zero =>
    rw [add_zero, zero_smul, millerVal_zero, mul_one, h.line_degenerate (nsmul_mem hQ n) (zero_mem G) hP (by simp), mul_one]
  | succ m ih =>
    have hc := h.cocycle (nsmul_mem hQ n) (nsmul_mem hQ m) hQ hP
    rw [← add_assoc, millerVal_succ, ih, millerVal_succ, add_smul, mul_assoc, hc, succ_nsmul]
    ring

/-- Miller functions at a sum of points. -/
theorem millerVal_left (h : Sep ρ G H) {Q P R : (weier a₂ a₄ a₆).Point} (hQ : Q ∈ G) (hP : P ∈ H) (hR : R ∈ H) (n : ℕ) :
    millerVal ρ n Q P * millerVal ρ n Q R * ρ (lineVal P R (n • Q)) =
      millerVal ρ n Q (P + R) * ρ (lineVal P R Q) ^ n := by
  induction n with
  | zero =>
    simp only [millerVal_zero, zero_smul, pow_zero, mul_one, one_mul]
    exact h.symm.line_degenerate hP hR (zero_mem G) (by simp)
  | succ n ih =>
    have hr := h.recip (nsmul_mem hQ n) hQ hP hR
    rw [← succ_nsmul] at hr
    have hne := h.symm.line_ne_zero hP hR (nsmul_mem hQ n)
    apply mul_right_cancel₀ hne
    simp only [millerVal_succ]
    calc _ = (millerVal ρ n Q P * millerVal ρ n Q R * ρ (lineVal P R (n • Q))) *
          (ρ (lineVal (n • Q) Q P) * ρ (lineVal (n • Q) Q R) * ρ (lineVal P R ((n + 1) • Q))) := by ring
      _ = _ := by rw [ih, hr]; ring

/-- Miller functions of a sum of points. -/
theorem millerVal_right (h : Sep ρ G H) {Q S P : (weier a₂ a₄ a₆).Point} (hQ : Q ∈ G) (hS : S ∈ G) (hP : P ∈ H) (n : ℕ) :
    millerVal ρ n Q P * millerVal ρ n S P * ρ (lineVal (n • Q) (n • S) P) =
      millerVal ρ n (Q + S) P * ρ (lineVal Q S P) ^ n := by
  induction n with
  | zero =>
    simp only [millerVal_zero, zero_smul, pow_zero, mul_one, one_mul]
    exact h.line_degenerate (zero_mem G) (zero_mem G) hP (by simp)
  | succ n ih =>
    have hi := h.interchange (nsmul_mem hQ n) hQ (nsmul_mem hS n) hS hP
    rw [← succ_nsmul, ← succ_nsmul, ← smul_add] at hi
    have hne := h.line_ne_zero (nsmul_mem hQ n) (nsmul_mem hS n) hP
    apply mul_right_cancel₀ hne
    simp only [millerVal_succ]
    calc _ = (millerVal ρ n Q P * millerVal ρ n S P * ρ (lineVal (n • Q) (n • S) P)) *
          (ρ (lineVal (n • Q) Q P) * ρ (lineVal (n • S) S P) * ρ (lineVal ((n + 1) • Q) ((n + 1) • S) P)) := by ring
      _ = _ := by rw [ih, hi]; ring

end
end Libff
