import Mathlib.Data.Nat.Digits.Defs
import Verif.Model.Outcome
import Mathlib.Tactic.TypeStar

/-!
# Specification: what a printed text says (C83)
-/
namespace Libff.Print

/-- `t` is the number `v` written in base `b`: its characters are digits of the base, most significant first, whose positional value is `v`, and
there is no leading zero unless the number is the single digit `0`. -/
def Numeral (b : Nat) (t : List Char) (v : Nat) : Prop :=
  ∃ ds : List Nat, t = ds.map Nat.digitChar ∧ (∀ d ∈ ds, d < b) ∧ ds ≠ [] ∧ (ds.head? = some 0 → ds = [0]) ∧
    ds.foldl (fun acc d => acc * b + d) 0 = v

/-- `t` is the number `v` written with exactly `n` hexadecimal digits. -/
def HexNumeral (n : Nat) (t : List Char) (v : Nat) : Prop :=
  ∃ ds : List Nat, t = ds.map Nat.digitChar ∧ (∀ d ∈ ds, d < 16) ∧ ds.length = n ∧ ds.foldl (fun acc d => acc * 16 + d) 0 = v

/-- Printing never fails, and two elements are shown by the same text only if they are equal. -/
def Tells {K : Type*} (print : K → Outcome (List Char)) : Prop :=
  (∀ x, ∃ t, print x = .ok t) ∧ ∀ x y, print x = print y ↔ x = y

/-- Printing the elements denoting something never fails, and two of them are shown by the same text exactly if they denote the same. -/
def TellsDenoted {G A : Type*} (Rep : G → A → Prop) (print : G → Outcome (List Char)) : Prop :=
  (∀ p P, Rep p P → ∃ t, print p = .ok t) ∧ ∀ p q P Q, Rep p P → Rep q Q → (print p = print q ↔ P = Q)

end Libff.Print
