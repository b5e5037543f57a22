/-!
# Specification vocabulary for limb vectors

A 64-bit limb is `BitVec 64`; a multi-limb integer is a list of limbs, least significant first.
`val` is the natural number it denotes.
-/
namespace Libff

/-- `mp_limb_t` on x86-64 (GMP_NUMB_BITS = 64). -/
abbrev Limb := BitVec 64

/-- The natural number denoted by a little-endian limb list. -/
def val : List Limb → Nat
  | [] => 0
  | a :: l => a.toNat + 2 ^ 64 * val l

/-- The `n`-limb little-endian representation of `v mod 2^(64 n)`. -/
def limbsOf : Nat → Nat → List Limb
  | 0, _ => []
  | n + 1, v => BitVec.ofNat 64 v :: limbsOf n (v / 2 ^ 64)

end Libff
