import Verif.Spec.Bilinear

/-!
# Specification: a pairing separates group elements and reaches every root of unity
-/
namespace Libff

/-- With one argument fixed, two values of the pairing are the same exactly if the other arguments are `==`, and every `r`-th root of
unity but 1 is a value. `sub₁` and `sub₂` say which objects are the non-zero elements of the two groups. -/
structure PairingBijection {G₁ G₂ L : Type} [Field L] (eq₁ : G₁ → G₁ → Bool) (eq₂ : G₂ → G₂ → Bool) (sub₁ : G₁ → Prop) (sub₂ : G₂ → Prop)
    (r : Nat) (pair : G₁ → G₂ → Outcome L) : Prop where
  inj_left : ∀ p p' q, sub₁ p → sub₁ p' → sub₂ q → (pair p q = pair p' q ↔ eq₁ p p' = true)
  inj_right : ∀ p q q', sub₁ p → sub₂ q → sub₂ q' → (pair p q = pair p q' ↔ eq₂ q q' = true)
  surj_left : ∀ q (v : L), sub₂ q → v ^ r = 1 → v ≠ 1 → ∃ p, sub₁ p ∧ pair p q = .ok v
  surj_right : ∀ p (v : L), sub₁ p → v ^ r = 1 → v ≠ 1 → ∃ q, sub₂ q ∧ pair p q = .ok v

end Libff
