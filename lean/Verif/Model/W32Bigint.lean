import Verif.Model.W32
import Verif.Model.Group
import Verif.Model.Stream
import Verif.Model.Algorithms

/-!
# `bigint<n>`, streams, exponentiation and scalar multiplication with limbs of 32 bits

The same lines as in `Model/Bigint`, `Model/Stream`, `Model/Group` and `powerBigint`, read on a platform with limbs (and `long`) of 32 bits.
-/
namespace Libff.W32

/-- `bigint::operator<`, bigint.tcc:98-102. -/
def bigintLt (a b : List Limb) : Bool := mpn_cmp a b == .lt

/-- `bigint::is_even`, bigint.tcc:124-128. -/
def bigintIsEven (a : List Limb) : Bool := (a.headD 0 &&& 1) == 0

/-- `bigint::max_bits`, bigint.hpp:52. -/
def bigintMaxBits (a : List Limb) : Nat := a.length * 32

/-- `__builtin_clzl` (undefined for 0). -/
def clzl (x : Limb) : Nat := 31 - Nat.log2 x.toNat

/-- The loop of `bigint::num_bits`, bigint.tcc:143-156; the argument lists the limbs from the most
significant one, so `i` is the length of the tail. -/
def numBitsLoop : List Limb → Nat
  | [] => 0
  | x :: rest => if x = 0 then numBitsLoop rest else (rest.length + 1) * 32 - clzl x

/-- `bigint::num_bits`, bigint.tcc:131-157. -/
def bigintNumBits (a : List Limb) : Nat := numBitsLoop a.reverse

/-- `bigint::test_bit`, bigint.tcc:178-191. -/
def testBit (a : List Limb) (bitno : Nat) : Bool :=
  if bitno ≥ a.length * 32 then false
  else
    let part := bitno / 32
    let bit := bitno - 32 * part
    (a.getD part 0 &&& ((1 : Limb) <<< bit)) != 0

/-- The bit-clearing step of fp.tcc:752-757: `data[part] &= ~(one << bit)`. -/
def clearBit (a : List Limb) (bitno : Nat) : List Limb :=
  let part := bitno / 32
  let bit := bitno - 32 * part
  a.set part (a.getD part 0 &&& ~~~((1 : Limb) <<< bit))

/-- `bigint::to_mpz`, bigint.tcc:166-175 (the mpz value is a natural number). The list is given from
the most significant limb. -/
def toMpzLoop (r : Nat) : List Limb → Nat
  | [] => r
  | x :: rest => toMpzLoop (r * 2 ^ 32 + x.toNat) rest

/-- `bigint::to_mpz`. -/
def bigintToMpz (a : List Limb) : Nat := toMpzLoop 0 a.reverse

/-- `bigint(const mpz_t)` for a non-negative argument, bigint.tcc:50-31: `n` times take the low limb
and shift; `assert(mpz_sgn(k) == 0)`. -/
def bigintOfMpz : Nat → Nat → Outcome (List Limb)
  | 0, k => if k = 0 then .ok [] else .abort
  | n + 1, k => (bigintOfMpz n (k / 2 ^ 32)).map (BitVec.ofNat 32 k :: ·)

/-- Number of limbs of a value without leading zero limbs. -/
def limbCount (v : Nat) : Nat := if v = 0 then 0 else Nat.log2 v / 32 + 1

/-- `bigint(const char*)`, bigint.tcc:28-47, and the text branch of `operator>>`, bigint.tcc:233-251.
`mpn_set_str` reads at least one digit, so the empty string is an out-of-bounds read; if the number
needs more than `n` limbs the write runs past `data` before the assertion is evaluated.
(GMP's manual asks for one more limb of room than the number needs; the model assumes no write beyond
the limbs of the number.) -/
def bigintOfString (n : Nat) (s : List (BitVec 8)) : Outcome (List Limb) :=
  (digitVals s).bind fun ds =>
    if ds = [] then .ub
    else if n < limbCount (setStrVal ds) then .ub
    else .ok (limbsOf n (setStrVal ds))

/-- Little-endian bytes of a limb (`out.write((char*)data, 8)` on x86-32). -/
def limbBytes (x : Limb) : List Byte := (List.range 4).map fun i => BitVec.ofNat 8 (x.toNat / 256 ^ i)

/-- `operator<<(ostream, bigint<n>)`, bigint.tcc:210-224. -/
def bigintWrite (binary : Bool) (a : List Limb) : List Byte :=
  if binary then a.flatMap limbBytes else writeNat (bigintToMpz a)

/-- `in.read((char*)data, 4*n)`, limb by limb. -/
def readLimbs : Nat → Reader (List Limb)
  | 0, s => .ok ([], s)
  | n + 1, s =>
    if s.length < 4 then .abort
    else (readLimbs n (s.drop 4)).map fun r => (BitVec.ofNat 32 (bytesVal (s.take 4)) :: r.1, r.2)

/-- `operator>>(istream, bigint<n>)`, bigint.tcc:227-254. -/
def bigintRead (binary : Bool) (n : Nat) : Reader (List Limb) := fun s =>
  if binary then readLimbs n s
  else
    let t := readToken s
    (bigintOfString n t.1).map fun l => (l, t.2)

/-- `Fp_model::bigint_repr`, fp.tcc:827-836. `mont = true` is a build with `MONTGOMERY_OUTPUT`. -/
def bigintRepr (mont : Bool) (P : FpParams) (a : List Limb) : Outcome (List Limb) :=
  if mont then .ok a else fpAsBigint P a

/-- `operator<<(ostream, Fp_model)`, fp.tcc:810-814. -/
def fpWrite (mont binary : Bool) (P : FpParams) (a : List Limb) : Outcome (List Byte) :=
  (bigintRepr mont P a).map (bigintWrite binary)

/-- `operator>>(istream, Fp_model)`, fp.tcc:817-824. -/
def fpRead (mont binary : Bool) (P : FpParams) : Reader (List Limb) := fun s =>
  (bigintRead binary P.n s).bind fun r =>
    if mont then .ok r else (mulReduce P r.1 P.Rsquared).map fun l => (l, r.2)

/-- `power(base, bigint<m>)`, algorithms.tcc:21-42. -/
def powerBigint {K : Type*} [Mul K] [One K] (base : K) (e : List Limb) : K :=
  (powLoop (fun x => x * x) base (testBit e) (bigintMaxBits e) (false, 1)).2



section
variable {G : Type*} [GroupOps G]
open GroupOps

/-- The loop of `scalar_mul`, curve_utils.tcc:19-32; `k` counts the remaining bits. -/
def scalarMulLoop (base : G) (e : List Limb) : Nat → Bool × G → G
  | 0, st => st.2
  | i + 1, (found, result) =>
    let result := if found then dbl result else result
    if testBit e i then scalarMulLoop base e i (true, add result base)
    else scalarMulLoop base e i (found, result)

/-- `scalar_mul(base, scalar)`, curve_utils.tcc:14-35; also `operator*(bigint, group)` of every group class
(e.g. alt_bn128_g1.hpp:82-92). -/
def scalarMul (base : G) (e : List Limb) : G :=
  scalarMulLoop base e (bigintMaxBits e) (false, zero)

end

/-- `mpn_rshift(c, c, n, 1)`: shift right by one bit (GMP contract). -/
def rshift1 : List Limb → List Limb
  | [] => []
  | x :: rest => BitVec.ofNat 32 (x.toNat / 2 + (rest.headD 0).toNat % 2 * 2 ^ 31) :: rshift1 rest

/-- The digit computed for an odd `c`, wnaf.tcc:30-34: `u = c.data[0] % (1u << (w+1))`, reduced to the
symmetric range. -/
def wnafDigit (w : Nat) (c0 : Limb) : Int :=
  let u : Int := (c0.toNat % 2 ^ (w + 1) : Nat)
  if u > 2 ^ w then u - 2 ^ (w + 1) else u

/-- One round of the loop, wnaf.tcc:27-52: the digit and the new `c`. The carry of `mpn_add_1` is dropped,
as in the code. -/
def wnafStep (w : Nat) (c : List Limb) : Int × List Limb :=
  if (c.headD 0 &&& 1) == 1 then
    let u := wnafDigit w (c.headD 0)
    let c := if u > 0 then (mpn_sub_1 c (BitVec.ofNat 32 u.toNat)).1
      else (mpn_add_1 c (BitVec.ofNat 32 (-u).toNat)).1
    (u, rshift1 c)
  else (0, rshift1 c)

/-- The loop of `find_wnaf`, wnaf.tcc:26-53. The first argument is the number of slots of `res` not yet
written (all zero); writing when none is left is out of bounds. -/
def wnafLoop (w : Nat) : Nat → List Limb → Outcome (List Int)
  | 0, c => if limbsIsZero c then .ok [] else .ub
  | k + 1, c =>
    if limbsIsZero c then .ok (List.replicate (k + 1) 0)
    else
      let r := wnafStep w c
      (wnafLoop w k r.2).map (r.1 :: ·)

/-- `find_wnaf(window_size, scalar)`, wnaf.tcc:19-56. The shifts `1u << (w+1)` and `1 << (w+1)` are
undefined for `w ≥ 30`. -/
def findWnaf (w : Nat) (scalar : List Limb) : Outcome (List Int) :=
  if 30 ≤ w then .ub else wnafLoop w (bigintMaxBits scalar + 1) scalar

section
variable {G : Type*} [GroupOps G]
open GroupOps

/-- The table of odd multiples, wnaf.tcc:62-69. -/
def oddTable : Nat → G → G → List G
  | 0, _, _ => []
  | k + 1, tmp, d => tmp :: oddTable k (add tmp d) d

/-- The main loop of `fixed_window_wnaf_exp`, wnaf.tcc:71-93, over the digits from the most significant
one. Table accesses out of range are undefined. -/
def wnafExpLoop (table : List G) : List Int → Bool × G → Outcome G
  | [], st => .ok st.2
  | d :: rest, (found, res) =>
    let res := if found then dbl res else res
    if d ≠ 0 then
      if d > 0 then
        match table[(d / 2).toNat]? with
        | some t => wnafExpLoop table rest (true, add res t)
        | none => .ub
      else
        match table[((-d) / 2).toNat]? with
        | some t => wnafExpLoop table rest (true, sub res t)
        | none => .ub
    else wnafExpLoop table rest (found, res)

/-- `fixed_window_wnaf_exp(window_size, base, scalar)`, wnaf.tcc:58-96. `1ul << (window_size-1)` is undefined
for window size 0. -/
def fixedWindowWnafExp (w : Nat) (base : G) (scalar : List Limb) : Outcome G :=
  if w = 0 then .ub
  else
    (findWnaf w scalar).bind fun naf =>
      wnafExpLoop (oddTable (2 ^ (w - 1)) base (dbl base)) naf.reverse (false, zero)

/-- The window choice, wnaf.tcc:101-109: the largest `i + 1` with `scalar_bits ≥ table[i]`, or 0; the
list argument is the table from the end. -/
def bestWindow (bits : Nat) : List Nat → Nat
  | [] => 0
  | t :: rest => if bits ≥ t then rest.length + 1 else bestWindow bits rest

/-- `opt_window_wnaf_exp(base, scalar, scalar_bits)`, wnaf.tcc:98-119. -/
def optWindowWnafExp (table : List Nat) (base : G) (scalar : List Limb) (bits : Nat) : Outcome G :=
  let best := bestWindow bits table.reverse
  if best > 0 then fixedWindowWnafExp best base scalar else .ok (scalarMul base scalar)

end

end Libff.W32
