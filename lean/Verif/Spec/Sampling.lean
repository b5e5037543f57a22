import Verif.Model.Outcome
import Mathlib.Data.Fintype.Pi
import Mathlib.Data.Fintype.BigOperators
import Mathlib.Data.Rat.Defs
import Mathlib.Algebra.Order.Field.Rat

/-!
# What it means that a program samples uniformly
-/
namespace Libff

/-- There are `2 ^ n` words of `n` bits. -/
instance bitVecFintype (n : Nat) : Fintype (BitVec n) :=
  Fintype.ofEquiv (Fin (2 ^ n)) ⟨BitVec.ofFin, BitVec.toFin, fun _ => rfl, fun _ => rfl⟩

open Classical in
/-- The fraction of the tapes of `k` words that have the property `φ`: its probability if every word is equally likely, whatever the
other words are. -/
noncomputable def prob {W : Type} [Fintype W] (k : Nat) (φ : List W → Prop) : ℚ :=
  ((Finset.univ.filter fun v : Fin k → W => φ (List.ofFn v)).card : ℚ) / (Fintype.card W : ℚ) ^ k

/-- The program `S` reads words from a tape and returns a result and the rest of the tape, or `none` if the tape is too short.
It samples uniformly from `A`, elements being compared with `eq`: -/
structure UniformOn {W α : Type} [Fintype W] (eq : α → α → Prop) (A : Set α)
    (S : List W → Outcome (Option (α × List W))) : Prop where
  /-- It does not abort, the result is in `A`, and it depends on the words consumed only. -/
  result : ∀ t, S t = .ok none ∨ ∃ pre rest x, t = pre ++ rest ∧ x ∈ A ∧ ∀ rest', S (pre ++ rest') = .ok (some (x, rest'))
  /-- All elements of `A` are equally likely, even for someone who knows how many words have been consumed. -/
  fair : ∀ k, ∀ x ∈ A, ∀ y ∈ A, prob k (fun t => ∃ x', S t = .ok (some (x', [])) ∧ eq x' x) =
    prob k (fun t => ∃ y', S t = .ok (some (y', [])) ∧ eq y' y)
  /-- With probability 1 it returns: if the tape is long enough, running out of words is as unlikely as one wants. -/
  ends : ∀ ε : ℚ, 0 < ε → ∃ k, prob k (fun t => S t = .ok none) < ε

/-- What a class offers for random elements, `B` being the elements it stands for, `eq` its `==`: `random_element()`,
`random_element_non_zero`, `random_element_non_zero_one` and `random_element_exclude` are uniform on the elements they name. -/
structure RandomElements {W α : Type} [Fintype W] (eq : α → α → Bool) (isZero : α → Bool) (one : α) (B : Set α)
    (randomElement nonZero nonZeroOne : List W → Outcome (Option (α × List W)))
    (exclude : α → List W → Outcome (Option (α × List W))) : Prop where
  randomElement : UniformOn (fun p q => eq p q = true) B randomElement
  nonZero : UniformOn (fun p q => eq p q = true) {p | p ∈ B ∧ isZero p = false} nonZero
  nonZeroOne : UniformOn (fun p q => eq p q = true) {p | p ∈ B ∧ isZero p = false ∧ eq p one = false} nonZeroOne
  exclude : ∀ y ∈ B, UniformOn (fun p q => eq p q = true) {p | p ∈ B ∧ eq p y = false} (exclude y)

end Libff
