import Verif.Model.Fp

/-!
# `bigint<n>` (libff/algebra/field_utils/bigint.{hpp,tcc})
-/
namespace Libff

/-- `bigint::operator<`, bigint.tcc:98-102. -/
def bigintLt (a b : List Limb) : Bool := mpn_cmp a b == .lt

/-- `bigint::is_even`, bigint.tcc:124-128. -/
def bigintIsEven (a : List Limb) : Bool := (a.headD 0 &&& 1) == 0

/-- `bigint::max_bits`, bigint.hpp:52. -/
def bigintMaxBits (a : List Limb) : Nat := a.length * 64

/-- `__builtin_clzl` (undefined for 0). -/
def clzl (x : Limb) : Nat := 63 - Nat.log2 x.toNat

/-- The loop of `bigint::num_bits`, bigint.tcc:143-156; the argument lists the limbs from the most
significant one, so `i` is the length of the tail. -/
def numBitsLoop : List Limb → Nat
  | [] => 0
  | x :: rest => if x = 0 then numBitsLoop rest else (rest.length + 1) * 64 - clzl x

/-- `bigint::num_bits`, bigint.tcc:131-157. -/
def bigintNumBits (a : List Limb) : Nat := numBitsLoop a.reverse

/-- `bigint::test_bit`, bigint.tcc:178-191. -/
def testBit (a : List Limb) (bitno : Nat) : Bool :=
  if bitno ≥ a.length * 64 then false
  else
    let part := bitno / 64
    let bit := bitno - 64 * part
    (a.getD part 0 &&& ((1 : Limb) <<< bit)) != 0

/-- The bit-clearing step of fp.tcc:752-757: `data[part] &= ~(one << bit)`. -/
def clearBit (a : List Limb) (bitno : Nat) : List Limb :=
  let part := bitno / 64
  let bit := bitno - 64 * part
  a.set part (a.getD part 0 &&& ~~~((1 : Limb) <<< bit))

/-- `bigint::to_mpz`, bigint.tcc:166-175 (the mpz value is a natural number). The list is given from
the most significant limb. -/
def toMpzLoop (r : Nat) : List Limb → Nat
  | [] => r
  | x :: rest => toMpzLoop (r * 2 ^ 64 + x.toNat) rest

/-- `bigint::to_mpz`. -/
def bigintToMpz (a : List Limb) : Nat := toMpzLoop 0 a.reverse

/-- `bigint(const mpz_t)` for a non-negative argument, bigint.tcc:50-63: `n` times take the low limb
and shift; `assert(mpz_sgn(k) == 0)`. -/
def bigintOfMpz : Nat → Nat → Outcome (List Limb)
  | 0, k => if k = 0 then .ok [] else .abort
  | n + 1, k => (bigintOfMpz n (k / 2 ^ 64)).map (BitVec.ofNat 64 k :: ·)

/-- `mpn_set_str(rp, s, l, 10)` on digit values: the normalised limbs of the number
(GMP, not in the repository). -/
def setStrVal (digits : List Nat) : Nat := digits.foldl (fun v d => 10 * v + d) 0

/-- Number of limbs of a value without leading zero limbs. -/
def limbCount (v : Nat) : Nat := if v = 0 then 0 else Nat.log2 v / 64 + 1

/-- The digit check `assert(s[i] >= '0' && s[i] <= '9'); s_copy[i] = s[i] - '0'`
(bigint.tcc:33-37 and 239-243) over ASCII codes. -/
def digitVals : List (BitVec 8) → Outcome (List Nat)
  | [] => .ok []
  | c :: cs =>
    if 48 ≤ c.toNat ∧ c.toNat ≤ 57 then (digitVals cs).map ((c.toNat - 48) :: ·) else .abort

/-- `bigint(const char*)`, bigint.tcc:28-47, and the text branch of `operator>>`, bigint.tcc:233-251.
`mpn_set_str` reads at least one digit, so the empty string is an out-of-bounds read; if the number
needs more than `n` limbs the write runs past `data` before the assertion is evaluated.
(GMP's manual asks for one more limb of room than the number needs; the model assumes no write beyond
the limbs of the number.) -/
def bigintOfString (n : Nat) (s : List (BitVec 8)) : Outcome (List Limb) :=
  (digitVals s).bind fun ds =>
    if ds = [] then .ub
    else if n < limbCount (setStrVal ds) then .ub
    else .ok (limbsOf n (setStrVal ds))

end Libff
