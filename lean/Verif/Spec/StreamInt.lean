import Verif.Spec.Codec
import Mathlib.Data.Nat.Digits.Defs

/-!
# The integer at the head of an arbitrary stream

Nothing is assumed about who wrote the stream.
-/
namespace Libff

/-- The value of bytes, least significant first. -/
def leBytes : List Byte → Nat
  | [] => 0
  | b :: bs => b.toNat + 256 * leBytes bs

/-- The character is a decimal digit. -/
def IsDigit (c : Byte) : Prop := 48 ≤ c.toNat ∧ c.toNat ≤ 57

/-- The stream `s` starts with an integer of value `v`, and `rest` is what follows. Binary: the next `8 n` bytes, least
significant first. Text: any white space, then at least one decimal digit, then the end of the token. -/
def StartsWithInt (binary : Bool) (n : Nat) (s : List Byte) (v : Nat) (rest : List Byte) : Prop :=
  if binary then ∃ bs, s = bs ++ rest ∧ bs.length = 8 * n ∧ v = leBytes bs
  else ∃ ws ds, s = ws ++ (ds ++ rest) ∧ (∀ c ∈ ws, isSpace c = true) ∧ ds ≠ [] ∧ (∀ c ∈ ds, IsDigit c) ∧
    TokenEnd rest ∧ v = Nat.ofDigits 10 (ds.map fun c => c.toNat - 48).reverse

end Libff
