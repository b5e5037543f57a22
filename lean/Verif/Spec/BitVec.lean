import Verif.Spec.Limbs
import Mathlib.Algebra.Ring.Defs
import Mathlib.Data.Nat.Cast.Defs

/-!
# Values of bit vectors
-/
namespace Libff

/-- Value of a bit vector, least significant bit first. -/
def bitsVal : List Bool → Nat
  | [] => 0
  | b :: bs => b.toNat + 2 * bitsVal bs

/-- `v` padded with zero bits to `len` bits. -/
def padBits (len : Nat) (v : List Bool) : List Bool := v ++ List.replicate (len - v.length) false

/-- Chunk number `i` of `v`, cut into chunks of `c` bits (the last one may be shorter). -/
def bitChunk (c : Nat) (v : List Bool) (i : Nat) : List Bool := (v.drop (i * c)).take c

/-- What the conversion functions of a prime field class do: the constructor from a bigint takes the
residue, `as_bigint` gives the canonical representative. (C05 is this for `Fp_model`.) -/
structure BigintCodec (K : Type*) [CommRing K] (p n : Nat) (toB : K → List Limb) (ofB : List Limb → K) : Prop where
  of : ∀ b, b.length = n → ofB b = (val b : K)
  to_lt : ∀ x, val (toB x) < p
  to_cast : ∀ x, ((val (toB x) : ℕ) : K) = x
  to_val : ∀ m < p, val (toB ((m : ℕ) : K)) = m

end Libff
