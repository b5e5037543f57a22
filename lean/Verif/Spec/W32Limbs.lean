/-!
# Limb vectors on platforms with limbs of 32 bits

The namespace `Libff.W32` repeats, for `sizeof(mp_limb_t) == 4`, what `Libff` has for limbs of 64 bits.
-/
namespace Libff.W32

/-- `mp_limb_t` on x86-32 (GMP_NUMB_BITS = 32). -/
abbrev Limb := BitVec 32

/-- The natural number denoted by a little-endian limb list. -/
def val : List Limb → Nat
  | [] => 0
  | a :: l => a.toNat + 2 ^ 32 * val l

/-- The `n`-limb little-endian representation of `v mod 2^(32 n)`. -/
def limbsOf : Nat → Nat → List Limb
  | 0, _ => []
  | n + 1, v => BitVec.ofNat 32 v :: limbsOf n (v / 2 ^ 32)

end Libff.W32
