import Verif.Model.Outcome
import Mathlib.Algebra.Field.Basic
import Mathlib.Data.Fintype.Card
import Mathlib.Tactic.TypeStar

/-!
# What a final exponentiation is
-/
namespace Libff

/-- `fe` raises every non-zero element to the fixed power `E`, and aborts on zero; `E` is a multiple of `(|L| - 1) / r`
(where `r` divides `|L| - 1`), so that the result is an `r`-th root of unity, and is not a multiple of `|L| - 1`, so that the
result is not always 1. -/
structure IsFinalExp {L : Type*} [Field L] [Fintype L] (fe : L → Outcome L) (r E : ℕ) : Prop where
  zero : fe 0 = .abort
  pow : ∀ x : L, x ≠ 0 → fe x = .ok (x ^ E)
  dvd_card : r ∣ Fintype.card L - 1
  dvd : (Fintype.card L - 1) / r ∣ E
  not_dvd : ¬ (Fintype.card L - 1) ∣ E

/-- `double` computes the product of two values of `single`: it succeeds exactly if both single computations do, and then
returns the product. -/
def IsDoubleLoop {P Q L : Type*} [Mul L] (double : P → Q → P → Q → Outcome L) (single : P → Q → Outcome L) : Prop :=
  ∀ P1 Q1 P2 Q2 f, double P1 Q1 P2 Q2 = .ok f ↔ ∃ f1 f2, single P1 Q1 = .ok f1 ∧ single P2 Q2 = .ok f2 ∧ f = f1 * f2

end Libff
