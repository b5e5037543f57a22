import Verif.Model.PairingEdwards
import Verif.Model.Pairing12
import Verif.Props.Ext

/-!
# Double Miller loops
-/
namespace Libff

theorem Outcome.bind_eq_ok {α β : Type*} {o : Outcome α} {f : α → Outcome β} {b : β} :
    o.bind f = .ok b ↔ ∃ a, o = .ok a ∧ f a = .ok b := by
  cases o <;> simp [Outcome.bind]

theorem Outcome.map_eq_ok {α β : Type*} {o : Outcome α} {f : α → β} {b : β} : o.map f = .ok b ↔ ∃ a, o = .ok a ∧ f a = b := by
  cases o <;> simp [Outcome.map]

/-- If a body on a pair of accumulators acts as two bodies with the same index, so does the loop. -/
theorem ateLoop_prod {L I : Type*} [Mul L] (bit : Nat → Bool) (next : Bool → I → I) (step step1 step2 : Bool → L × I → Outcome (L × I))
    (h1 : ∀ b f i g j, step1 b (f, i) = .ok (g, j) → j = next b i)
    (h2 : ∀ b f i g j, step2 b (f, i) = .ok (g, j) → j = next b i)
    (h : ∀ b f1 f2 i f j, step b (f1 * f2, i) = .ok (f, j) ↔
      ∃ g1 g2, step1 b (f1, i) = .ok (g1, j) ∧ step2 b (f2, i) = .ok (g2, j) ∧ f = g1 * g2) :
    ∀ n found f1 f2 i f j, ateLoop bit step n found (f1 * f2, i) = .ok (f, j) ↔
      ∃ g1 g2, ateLoop bit step1 n found (f1, i) = .ok (g1, j) ∧ ateLoop bit step2 n found (f2, i) = .ok (g2, j) ∧ f = g1 * g2 := by
  intro n
  induction n with
  | zero =>
    intro found f1 f2 i f j
    simp only [ateLoop, Outcome.ok.injEq, Prod.mk.injEq]
    constructor
    · rintro ⟨rfl, rfl⟩
      exact ⟨f1, f2, ⟨rfl, rfl⟩, ⟨rfl, rfl⟩, rfl⟩
    · rintro ⟨g1, g2, ⟨rfl, rfl⟩, ⟨rfl, -⟩, rfl⟩
      exact ⟨rfl, rfl⟩
  | succ n ih =>
    intro found f1 f2 i f j
    simp only [ateLoop]
    split_ifs
    · exact ih _ _ _ _ _ _
    · simp only [Outcome.bind_eq_ok]
      constructor
      · rintro ⟨⟨f', i'⟩, e, e'⟩
        obtain ⟨g1, g2, a1, a2, rfl⟩ := (h _ _ _ _ _ _).1 e
        obtain ⟨k1, k2, b1, b2, rfl⟩ := (ih _ _ _ _ _ _).1 e'
        exact ⟨k1, k2, ⟨_, a1, b1⟩, ⟨_, a2, b2⟩, rfl⟩
      · rintro ⟨k1, k2, ⟨⟨g1, i1⟩, a1, b1⟩, ⟨⟨g2, i2⟩, a2, b2⟩, rfl⟩
        obtain rfl := h1 _ _ _ _ _ a1
        obtain rfl := h2 _ _ _ _ _ a2
        exact ⟨_, (h _ _ _ _ _ _).2 ⟨g1, g2, a1, a2, rfl⟩, (ih _ _ _ _ _ _).2 ⟨k1, k2, b1, b2, rfl⟩⟩

/-- The number of coefficients consumed does not depend on the arguments. -/
theorem ateLoop_idx {L I : Type*} (bit : Nat → Bool) (next : Bool → I → I) (step1 step2 : Bool → L × I → Outcome (L × I))
    (h1 : ∀ b f i g j, step1 b (f, i) = .ok (g, j) → j = next b i) (h2 : ∀ b f i g j, step2 b (f, i) = .ok (g, j) → j = next b i) :
    ∀ n found f1 f2 i s1 s2, ateLoop bit step1 n found (f1, i) = .ok s1 → ateLoop bit step2 n found (f2, i) = .ok s2 → s1.2 = s2.2 := by
  intro n
  induction n with
  | zero => rintro found f1 f2 i s1 s2 h1 h2; rw [← Outcome.ok.inj h1, ← Outcome.ok.inj h2]
  | succ n ih =>
    intro found f1 f2 i s1 s2 e1 e2
    simp only [ateLoop] at e1 e2
    split_ifs at e1 e2
    · exact ih _ _ _ _ _ _ e1 e2
    · obtain ⟨⟨g1, i1⟩, a1, b1⟩ := Outcome.bind_eq_ok.1 e1
      obtain ⟨⟨g2, i2⟩, a2, b2⟩ := Outcome.bind_eq_ok.1 e2
      obtain rfl := h1 _ _ _ _ _ a1
      obtain rfl := h2 _ _ _ _ _ a2
      exact ih _ _ _ _ _ _ b1 b2

/-- The form in which the loops are used: the combined loop succeeds exactly if both do, with the same index. -/
theorem ateLoop_prod_one {L I : Type*} [Monoid L] (bit : Nat → Bool) (next : Bool → I → I) (step step1 step2 : Bool → L × I → Outcome (L × I))
    (h1 : ∀ b f i g j, step1 b (f, i) = .ok (g, j) → j = next b i)
    (h2 : ∀ b f i g j, step2 b (f, i) = .ok (g, j) → j = next b i)
    (h : ∀ b f1 f2 i f j, step b (f1 * f2, i) = .ok (f, j) ↔
      ∃ g1 g2, step1 b (f1, i) = .ok (g1, j) ∧ step2 b (f2, i) = .ok (g2, j) ∧ f = g1 * g2) (n : ℕ) (i : I) (s : L × I) :
    ateLoop bit step n false (1, i) = .ok s ↔
      ∃ s1 s2, ateLoop bit step1 n false (1, i) = .ok s1 ∧ ateLoop bit step2 n false (1, i) = .ok s2 ∧ s1.2 = s.2 ∧ s2.2 = s.2 ∧
        s.1 = s1.1 * s2.1 := by
  have := ateLoop_prod bit next step step1 step2 h1 h2 h n false 1 1 i s.1 s.2
  rw [one_mul] at this
  rw [this]
  constructor
  · rintro ⟨g1, g2, a, b, c⟩; exact ⟨_, _, a, b, rfl, rfl, c⟩
  · rintro ⟨⟨g1, i1⟩, ⟨g2, i2⟩, a, b, c, d, e⟩
    obtain ⟨f, j⟩ := s
    simp only at c d; subst c; subst d
    exact ⟨_, _, a, b, e⟩

/-- `inverse()` of a product. -/
theorem inverseO_mul {L : Type*} [Field L] [InverseO L] [LawfulInverse L] (a b c : L) :
    inverseO (a * b) = .ok c ↔ ∃ x y, inverseO a = .ok x ∧ inverseO b = .ok y ∧ c = x * y := by
  by_cases ha : a = 0
  · subst ha; rw [zero_mul, LawfulInverse.inverseO_zero]; simp
  by_cases hb : b = 0
  · subst hb; rw [mul_zero, LawfulInverse.inverseO_zero]; simp
  rw [LawfulInverse.inverseO_ne a ha, LawfulInverse.inverseO_ne b hb, LawfulInverse.inverseO_ne _ (mul_ne_zero ha hb), mul_inv]
  constructor
  · intro h; exact ⟨_, _, rfl, rfl, (Outcome.ok.inj h).symm⟩
  · rintro ⟨x, y, hx, hy, rfl⟩; rw [← Outcome.ok.inj hx, ← Outcome.ok.inj hy]

/-! ## Embedding degree 12 -/
section
set_option synthInstance.maxSize 2000
variable {K : Type*} [Field K] [Squared K] [LawfulSquared K] {β : K} {ξ : Fp2 K β}

namespace Ate12

/-- The line of a coefficient, evaluated: an element of the big field. -/
def lineElt (ℓ : Fp2 K β → Fp2 K β → Fp2 K β → Fp12 K β ξ ξ) (P : AteG1Precomp K) (c : EllCoeffs (Fp2 K β)) : Fp12 K β ξ ξ :=
  ℓ c.ell_0 (Quad.scale (· * ·) P.PY c.ell_VW) (Quad.scale (· * ·) P.PX c.ell_VV)

variable {mulBy : Fp12 K β ξ ξ → Fp2 K β → Fp2 K β → Fp2 K β → Fp12 K β ξ ξ} {ℓ : Fp2 K β → Fp2 K β → Fp2 K β → Fp12 K β ξ ξ}

theorem evalCoeff_eq (hm : ∀ f a b c, mulBy f a b c = f * ℓ a b c) (P : AteG1Precomp K) (c : EllCoeffs (Fp2 K β)) (f : Fp12 K β ξ ξ) :
    evalCoeff mulBy P c f = f * lineElt ℓ P c := hm _ _ _ _

theorem millerStep_next (P : AteG1Precomp K) (Q : AteG2Precomp (Fp2 K β)) (b : Bool) (f : Fp12 K β ξ ξ) (i : ℕ) (g : Fp12 K β ξ ξ) (j : ℕ)
    (h : millerStep mulBy P Q b (f, i) = .ok (g, j)) : j = if b then i + 2 else i + 1 := by
  simp only [millerStep, Outcome.bind_eq_ok] at h
  obtain ⟨c, -, h⟩ := h
  cases b
  · simp only [Bool.false_eq_true, if_false, Outcome.ok.injEq, Prod.mk.injEq] at h ⊢
    exact h.2.symm
  · simp only [if_true, Outcome.map_eq_ok, Prod.mk.injEq] at h ⊢
    obtain ⟨_, -, -, h⟩ := h
    exact h.symm

theorem doubleMillerStep_iff (hm : ∀ f a b c, mulBy f a b c = f * ℓ a b c) (P1 : AteG1Precomp K) (Q1 : AteG2Precomp (Fp2 K β))
    (P2 : AteG1Precomp K) (Q2 : AteG2Precomp (Fp2 K β)) (b : Bool) (f1 f2 : Fp12 K β ξ ξ) (i : ℕ) (f : Fp12 K β ξ ξ) (j : ℕ) :
    doubleMillerStep mulBy P1 Q1 P2 Q2 b (f1 * f2, i) = .ok (f, j) ↔
      ∃ g1 g2, millerStep mulBy P1 Q1 b (f1, i) = .ok (g1, j) ∧ millerStep mulBy P2 Q2 b (f2, i) = .ok (g2, j) ∧ f = g1 * g2 := by
  simp only [doubleMillerStep, millerStep, evalCoeff_eq hm, Outcome.bind_eq_ok, LawfulSquared.squared_eq]
  cases b
  · simp only [Bool.false_eq_true, if_false, Outcome.ok.injEq, Prod.mk.injEq]
    constructor
    · rintro ⟨c1, e1, c2, e2, rfl, rfl⟩
      exact ⟨_, _, ⟨c1, e1, rfl, rfl⟩, ⟨c2, e2, rfl, rfl⟩, by ring⟩
    · rintro ⟨_, _, ⟨c1, e1, rfl, rfl⟩, ⟨c2, e2, rfl, -⟩, rfl⟩
      exact ⟨c1, e1, c2, e2, by ring, rfl⟩
  · simp only [if_true, Outcome.map_eq_ok, Outcome.bind_eq_ok, Prod.mk.injEq]
    constructor
    · rintro ⟨c1, e1, c2, e2, d1, k1, d2, k2, rfl, rfl⟩
      exact ⟨_, _, ⟨c1, e1, d1, k1, rfl, rfl⟩, ⟨c2, e2, d2, k2, rfl, rfl⟩, by ring⟩
    · rintro ⟨_, _, ⟨c1, e1, d1, k1, rfl, rfl⟩, ⟨c2, e2, d2, k2, rfl, -⟩, rfl⟩
      exact ⟨c1, e1, c2, e2, d1, k1, d2, k2, by ring, rfl⟩

section
variable [InverseO K] [LawfulInverse K] [Fact (¬ IsSquare β)] [Fact (∀ y : Fp2 K β, y * y * y ≠ ξ)]
  [Fact (¬ IsSquare (Cubic.gen : Fp6_3over2 K β ξ))]
theorem inverseO_mul (a b c : Fp12 K β ξ ξ)  : 
    inverseO (a * b) = .ok c ↔ ∃ x y, inverseO a = .ok x ∧ inverseO b = .ok y ∧ c = x * y := by
  by_cases ha : a = 0
  · subst ha; rw [zero_mul, LawfulInverse.inverseO_zero]; simp
  by_cases hb : b = 0
  · subst hb; rw [mul_zero, LawfulInverse.inverseO_zero]; simp
  rw [LawfulInverse.inverseO_ne a ha, LawfulInverse.inverseO_ne b hb, LawfulInverse.inverseO_ne _ (mul_ne_zero ha hb), mul_inv]
  constructor
  · intro h; exact ⟨a⁻¹, b⁻¹, rfl, rfl, by rw [← Outcome.ok.inj h]⟩
  · rintro ⟨x, y, hx, hy, rfl⟩; rw [← Outcome.ok.inj hx, ← Outcome.ok.inj hy]

/-- The inversion after the loop. -/
theorem inv_iff (A : Ate12 K β ξ) (a b f : Fp12 K β ξ ξ) :
    (if A.loopNeg then inverseO (a * b) else .ok (a * b)) = .ok f ↔
      ∃ x y, (if A.loopNeg then inverseO a else .ok a) = .ok x ∧ (if A.loopNeg then inverseO b else .ok b) = .ok y ∧ f = x * y := by
  cases A.loopNeg
  · simp only [Bool.false_eq_true, if_false, Outcome.ok.injEq]
    constructor
    · rintro rfl; exact ⟨_, _, rfl, rfl, rfl⟩
    · rintro ⟨_, _, rfl, rfl, rfl⟩; rfl
  · simp only [if_true]
    exact inverseO_mul a b f
end

/-- Both loops of `ate_double_miller_loop`, together. -/
theorem loop_iff (hm : ∀ f a b c, mulBy f a b c = f * ℓ a b c) (bit : Nat → Bool) (n : ℕ) (P1 : AteG1Precomp K)
    (Q1 : AteG2Precomp (Fp2 K β)) (P2 : AteG1Precomp K) (Q2 : AteG2Precomp (Fp2 K β)) (s : Fp12 K β ξ ξ × ℕ) :
    ateLoop bit (doubleMillerStep mulBy P1 Q1 P2 Q2) n false (1, 0) = .ok s ↔
      ∃ s1 s2, ateLoop bit (millerStep mulBy P1 Q1) n false (1, 0) = .ok s1 ∧
        ateLoop bit (millerStep mulBy P2 Q2) n false (1, 0) = .ok s2 ∧ s1.2 = s.2 ∧ s2.2 = s.2 ∧ s.1 = s1.1 * s2.1 :=
  ateLoop_prod_one bit (fun b i => if b then i + 2 else i + 1) _ _ _ (millerStep_next P1 Q1) (millerStep_next P2 Q2)
    (doubleMillerStep_iff hm P1 Q1 P2 Q2) n 0 s

theorem loop_idx (bit : Nat → Bool) (n : ℕ) (P1 : AteG1Precomp K) (Q1 : AteG2Precomp (Fp2 K β)) (P2 : AteG1Precomp K)
    (Q2 : AteG2Precomp (Fp2 K β)) (s1 s2 : Fp12 K β ξ ξ × ℕ) (h1 : ateLoop bit (millerStep mulBy P1 Q1) n false (1, 0) = .ok s1)
    (h2 : ateLoop bit (millerStep mulBy P2 Q2) n false (1, 0) = .ok s2) : s1.2 = s2.2 :=
  ateLoop_idx bit (fun b i => if b then i + 2 else i + 1) _ _ (millerStep_next P1 Q1) (millerStep_next P2 Q2) n false 1 1 0 s1 s2 h1 h2

end Ate12
end

/-! ## mnt4, mnt6 -/
namespace AteMnt
variable {K T : Type*} [Field K] [Field T] {nr : T → T} {u : T} [hu : MulBy nr u] {A : AteMnt K T nr}

omit [Field K] in
theorem millerStep_next (P : MntG1Precomp K T) (Q : MntG2Precomp T) (b : Bool) (f : Quad T nr) (i : ℕ × ℕ) (g : Quad T nr) (j : ℕ × ℕ)
    (h : A.millerStep P Q b (f, i) = .ok (g, j)) : j = if b then (i.1 + 1, i.2 + 1) else (i.1 + 1, i.2) := by
  simp only [millerStep, Outcome.bind_eq_ok] at h
  obtain ⟨c, -, h⟩ := h
  cases b
  · simp only [Bool.false_eq_true, if_false, Outcome.ok.injEq, Prod.mk.injEq] at h ⊢
    exact h.2.symm
  · simp only [if_true, Outcome.map_eq_ok, Prod.mk.injEq] at h ⊢
    obtain ⟨_, -, -, h⟩ := h
    exact h.symm

include hu in
theorem doubleMillerStep_iff (P1 : MntG1Precomp K T) (Q1 : MntG2Precomp T) (P2 : MntG1Precomp K T) (Q2 : MntG2Precomp T) (b : Bool)
    (f1 f2 : Quad T nr) (i : ℕ × ℕ) (f : Quad T nr) (j : ℕ × ℕ) :
    A.doubleMillerStep P1 Q1 P2 Q2 b (f1 * f2, i) = .ok (f, j) ↔
      ∃ g1 g2, A.millerStep P1 Q1 b (f1, i) = .ok (g1, j) ∧ A.millerStep P2 Q2 b (f2, i) = .ok (g2, j) ∧ f = g1 * g2 := by
  simp only [doubleMillerStep, millerStep, Outcome.bind_eq_ok, LawfulSquared.squared_eq]
  cases b
  · simp only [Bool.false_eq_true, if_false, Outcome.ok.injEq, Prod.mk.injEq]
    constructor
    · rintro ⟨c1, e1, c2, e2, rfl, rfl⟩
      exact ⟨_, _, ⟨c1, e1, rfl, rfl⟩, ⟨c2, e2, rfl, rfl⟩, by ring⟩
    · rintro ⟨_, _, ⟨c1, e1, rfl, rfl⟩, ⟨c2, e2, rfl, -⟩, rfl⟩
      exact ⟨c1, e1, c2, e2, by ring, rfl⟩
  · simp only [if_true, Outcome.map_eq_ok, Outcome.bind_eq_ok, Prod.mk.injEq]
    constructor
    · rintro ⟨c1, e1, c2, e2, d1, k1, d2, k2, rfl, rfl⟩
      exact ⟨_, _, ⟨c1, e1, d1, k1, rfl, rfl⟩, ⟨c2, e2, d2, k2, rfl, rfl⟩, by ring⟩
    · rintro ⟨_, _, ⟨c1, e1, d1, k1, rfl, rfl⟩, ⟨c2, e2, d2, k2, rfl, -⟩, rfl⟩
      exact ⟨c1, e1, c2, e2, d1, k1, d2, k2, by ring, rfl⟩

end AteMnt

/-! ## edwards -/
namespace AteEdw
variable {K T : Type*} [Field K] [Field T] {nr : T → T} {u : T} [hu : MulBy nr u] {A : AteEdw K T nr}

omit [Field K] in
theorem millerStep_next (P : EdwG1Precomp K) (Q : List (ConicCoeffs T)) (b : Bool) (f : Quad T nr) (i : ℕ) (g : Quad T nr) (j : ℕ)
    (h : A.millerStep P Q b (f, i) = .ok (g, j)) : j = if b then i + 2 else i + 1 := by
  simp only [millerStep, Outcome.bind_eq_ok] at h
  obtain ⟨c, -, h⟩ := h
  cases b
  · simp only [Bool.false_eq_true, if_false, Outcome.ok.injEq, Prod.mk.injEq] at h ⊢
    exact h.2.symm
  · simp only [if_true, Outcome.map_eq_ok, Prod.mk.injEq] at h ⊢
    obtain ⟨_, -, -, h⟩ := h
    exact h.symm

include hu in
theorem doubleMillerStep_iff (P1 : EdwG1Precomp K) (Q1 : List (ConicCoeffs T)) (P2 : EdwG1Precomp K) (Q2 : List (ConicCoeffs T)) (b : Bool)
    (f1 f2 : Quad T nr) (i : ℕ) (f : Quad T nr) (j : ℕ) :
    A.doubleMillerStep P1 Q1 P2 Q2 b (f1 * f2, i) = .ok (f, j) ↔
      ∃ g1 g2, A.millerStep P1 Q1 b (f1, i) = .ok (g1, j) ∧ A.millerStep P2 Q2 b (f2, i) = .ok (g2, j) ∧ f = g1 * g2 := by
  simp only [doubleMillerStep, millerStep, Outcome.bind_eq_ok, LawfulSquared.squared_eq]
  cases b
  · simp only [Bool.false_eq_true, if_false, Outcome.ok.injEq, Prod.mk.injEq]
    constructor
    · rintro ⟨c1, e1, c2, e2, rfl, rfl⟩
      exact ⟨_, _, ⟨c1, e1, rfl, rfl⟩, ⟨c2, e2, rfl, rfl⟩, by ring⟩
    · rintro ⟨_, _, ⟨c1, e1, rfl, rfl⟩, ⟨c2, e2, rfl, -⟩, rfl⟩
      exact ⟨c1, e1, c2, e2, by ring, rfl⟩
  · simp only [if_true, Outcome.map_eq_ok, Outcome.bind_eq_ok, Prod.mk.injEq]
    constructor
    · rintro ⟨c1, e1, c2, e2, d1, k1, d2, k2, rfl, rfl⟩
      exact ⟨_, _, ⟨c1, e1, d1, k1, rfl, rfl⟩, ⟨c2, e2, d2, k2, rfl, rfl⟩, by ring⟩
    · rintro ⟨_, _, ⟨c1, e1, d1, k1, rfl, rfl⟩, ⟨c2, e2, d2, k2, rfl, -⟩, rfl⟩
      exact ⟨c1, e1, c2, e2, d1, k1, d2, k2, by ring, rfl⟩

end AteEdw

end Libff
