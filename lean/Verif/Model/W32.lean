import Verif.Spec.W32Limbs
import Verif.Model.Outcome

/-!
# `Fp_model<n, modulus>` with limbs of 32 bits

The C++ templates are written in terms of `mp_limb_t` and `GMP_NUMB_BITS`. This is the reading of the same lines as in `Model/Mpn` and `Model/Fp`
on a platform with limbs (and `long`) of 32 bits. Line numbers refer to libff/algebra/fields/prime_base/fp.tcc.
-/
namespace Libff.W32

/-- ripple-carry addition with carry in; used for `mpn_add_n` (sizes equal). -/
def addC : List Limb → List Limb → Bool → List Limb × Bool
  | a :: as, b :: bs, c =>
    let s := a.toNat + b.toNat + c.toNat
    let r := addC as bs (decide (2 ^ 32 ≤ s))
    (BitVec.ofNat 32 s :: r.1, r.2)
  | _, _, c => ([], c)

/-- `mpn_add_n(rp, ap, bp, n)`: returns the limbs of the sum and the carry. -/
def mpn_add_n (a b : List Limb) : List Limb × Bool := addC a b false

/-- ripple-borrow subtraction with borrow in. -/
def subB : List Limb → List Limb → Bool → List Limb × Bool
  | a :: as, b :: bs, c =>
    let r := subB as bs (decide (a.toNat < b.toNat + c.toNat))
    (BitVec.ofNat 32 (2 ^ 32 + a.toNat - (b.toNat + c.toNat)) :: r.1, r.2)
  | _, _, c => ([], c)

/-- `mpn_sub_n(rp, ap, bp, n)`: returns the limbs of the difference and the borrow. -/
def mpn_sub_n (a b : List Limb) : List Limb × Bool := subB a b false

/-- `mpn_add_1(rp, sp, n, b)`: adds the single limb `b`, returns carry (0 or 1; `b` itself if `n = 0`). -/
def mpn_add_1 : List Limb → Limb → List Limb × Limb
  | [], b => ([], b)
  | a :: as, b =>
    let s := a.toNat + b.toNat
    let r := mpn_add_1 as (BitVec.ofNat 32 (s / 2 ^ 32))
    (BitVec.ofNat 32 s :: r.1, r.2)

/-- `mpn_sub_1(rp, sp, n, b)`. -/
def mpn_sub_1 : List Limb → Limb → List Limb × Limb
  | [], b => ([], b)
  | a :: as, b =>
    let r := mpn_sub_1 as (if a.toNat < b.toNat then 1 else 0)
    ((a - b) :: r.1, r.2)

/-- `mpn_sub(rp, s1p, s1n, s2p, s2n)` with `s1n ≥ s2n`: subtract the shorter operand,
propagate the borrow through the rest of the longer one. -/
def mpn_sub (a b : List Limb) : List Limb × Limb :=
  let lo := mpn_sub_n (a.take b.length) b
  let hi := mpn_sub_1 (a.drop b.length) (if lo.2 then 1 else 0)
  (lo.1 ++ hi.1, hi.2)

/-- `mpn_addmul_1(rp, s1p, n, k)`: `r += a*k`, with running carry limb `c`. -/
def addmulC : List Limb → List Limb → Limb → Limb → List Limb × Limb
  | r :: rs, a :: as, k, c =>
    let t := r.toNat + a.toNat * k.toNat + c.toNat
    let q := addmulC rs as k (BitVec.ofNat 32 (t / 2 ^ 32))
    (BitVec.ofNat 32 t :: q.1, q.2)
  | _, _, _, c => ([], c)

/-- `mpn_addmul_1`. -/
def mpn_addmul_1 (r a : List Limb) (k : Limb) : List Limb × Limb := addmulC r a k 0

/-- schoolbook multiplication producing `a.length + b.length` limbs: `mpn_mul_n`/`mpn_mul`. -/
def mpn_mul : List Limb → List Limb → List Limb
  | [], b => List.replicate b.length 0
  | a :: as, b =>
    -- 2^32 * (as * b) + a * b
    let rest := (0 : Limb) :: mpn_mul as b
    let lo := mpn_addmul_1 (rest.take b.length) b a
    lo.1 ++ (mpn_add_1 (rest.drop b.length) lo.2).1

/-- `mpn_cmp(ap, bp, n)`: most significant limb decides. -/
def mpn_cmp : List Limb → List Limb → Ordering
  | a :: as, b :: bs =>
    match mpn_cmp as bs with
    | .eq => compare a.toNat b.toNat
    | o => o
  | _, _ => .eq

/-- The static data of `Fp_model<n, modulus>` used by the arithmetic
(libff/algebra/fields/prime_base/fp.hpp:52-75: `modulus`, `inv`, `Rsquared`, `Rcubed`). -/
structure FpParams where
  n : Nat
  modulus : List Limb
  inv : Limb
  Rsquared : List Limb
  Rcubed : List Limb
  deriving DecidableEq

/-- The loop of fp.tcc:173-180 (`for i < n`).  The argument is the list of the limbs
`res[i], res[i+1], ..., res[2n-1]`; limbs below `i` are never read again and are dropped.
`assert(carryout == 0)` (fp.tcc:179) is the `abort` branch. -/
def redLoop (P : FpParams) : Nat → List Limb → Outcome (List Limb)
  | 0, res => .ok res
  | i + 1, res =>
    -- fp.tcc:175  k = inv * res[i]
    let k : Limb := P.inv * res.headD 0
    -- fp.tcc:177  carryout = mpn_addmul_1(res+i, modulus.data, n, k)
    let q := mpn_addmul_1 (res.take P.n) P.modulus k
    -- fp.tcc:178  carryout = mpn_add_1(res+n+i, res+n+i, n-i, carryout)
    let w := mpn_add_1 (res.drop P.n) q.2
    -- fp.tcc:179  assert(carryout == 0)
    if w.2 = 0 then redLoop P i (q.1 ++ w.1).tail else .abort

/-- `Fp_model::mul_reduce(other)` applied to `mont_repr = a`, portable path, fp.tcc:164-193. -/
def mulReduce (P : FpParams) (a b : List Limb) : Outcome (List Limb) :=
  (redLoop P P.n (mpn_mul a b)).bind fun hi =>
    if (mpn_cmp hi P.modulus).isGE then
      let d := mpn_sub hi P.modulus
      if d.2 = 0 then .ok d.1 else .abort
    else .ok hi

/-- `Fp_model::operator+=`, portable path, fp.tcc:419-435. -/
def addAssign (P : FpParams) (a b : List Limb) : Outcome (List Limb) :=
  let s := mpn_add_n a b
  let scratch := s.1 ++ [if s.2 then 1 else 0]
  if s.2 || (mpn_cmp s.1 P.modulus).isGE then
    let d := mpn_sub scratch P.modulus
    if d.2 = 0 then .ok (d.1.take P.n) else .abort
  else .ok (scratch.take P.n)

/-- `Fp_model::operator-=`, portable path, fp.tcc:509-530. -/
def subAssign (P : FpParams) (a b : List Limb) : Outcome (List Limb) :=
  let scratch :=
    if (mpn_cmp a b).isLT then
      let s := mpn_add_n a P.modulus
      s.1 ++ [if s.2 then (1 : Limb) else 0]
    else a ++ [0]
  let d := mpn_sub scratch b
  if d.2 = 0 then .ok (d.1.take P.n) else .abort

/-- `bigint::is_zero`, libff/algebra/field_utils/bigint.tcc:111-122. -/
def limbsIsZero : List Limb → Bool
  | [] => true
  | a :: l => if a = 0 then limbsIsZero l else false

/-- `Fp_model::operator-()`, fp.tcc:597-613. -/
def negRepr (P : FpParams) (a : List Limb) : List Limb :=
  if limbsIsZero a then a else (mpn_sub_n P.modulus a).1

/-- `bigint<n>` with `data[0] = x` and the other limbs zero
(bigint.hpp:36 `data[n] = {0}`, bigint.tcc:21-25, 67-72). -/
def smallBigint (n : Nat) (x : Limb) : List Limb :=
  match n with
  | 0 => []
  | k + 1 => x :: List.replicate k 0

/-- `Fp_model(const bigint<n>&)`, fp.tcc:197-201. -/
def fpOfBigint (P : FpParams) (b : List Limb) : Outcome (List Limb) := mulReduce P P.Rsquared b

/-- `Fp_model(const long x, const bool is_unsigned)`, fp.tcc:204-222.
`x` is the 32-bit pattern of the `long`.  `-x` overflows for the most negative long: undefined. -/
def fpOfLong (P : FpParams) (x : BitVec 32) (isUnsigned : Bool) : Outcome (List Limb) :=
  if isUnsigned || !x.msb then mulReduce P (smallBigint P.n x) P.Rsquared
  else if x = BitVec.intMin 32 then .ub
  else
    let d := mpn_sub_1 P.modulus (-x)
    if d.2 = 0 then mulReduce P d.1 P.Rsquared else .abort

/-- `Fp_model::as_bigint`, fp.tcc:245-252. -/
def fpAsBigint (P : FpParams) (a : List Limb) : Outcome (List Limb) :=
  mulReduce P a (smallBigint P.n 1)

/-- `Fp_model::as_ulong`, fp.tcc:255-258 and `bigint::as_ulong`, bigint.tcc:160-163. -/
def fpAsUlong (P : FpParams) (a : List Limb) : Outcome Limb :=
  (fpAsBigint P a).map fun l => l.headD 0

/-- `Fp_model::operator==`, fp.tcc:261-264 and `bigint::operator==`, bigint.tcc:86-90. -/
def fpEq (a b : List Limb) : Bool := mpn_cmp a b == .eq

/-- `Fp_model::squared`, portable path: `(*this) * (*this)` (fp.tcc:616-661). -/
def sqRepr (P : FpParams) (a : List Limb) : Outcome (List Limb) := mulReduce P a a

/-- `Fp_model::one`, fp.tcc:297-303. -/
def fpOne (P : FpParams) : Outcome (List Limb) := mulReduce P (smallBigint P.n 1) P.Rsquared

/-- `Fp_model::zero`, fp.tcc:289-294. -/
def fpZero (P : FpParams) : List Limb := List.replicate P.n 0

/-- Result of `mpn_gcdext`: `gn` limbs of G, `|sn|` limbs of S, and whether `sn < 0`. -/
structure GcdextResult where
  g : List Limb
  s : List Limb
  neg : Bool

/-- `mpn_gcdext(gp, sp, &sn, up, un, vp, vn)` as a function of `u`, `v`. -/
abbrev Gcdext := List Limb → List Limb → GcdextResult

/-- `Fp_model::invert`, fp.tcc:671-722, with `mpn_gcdext` given by `gx`.
`mpn_tdiv_qr(&q, r, 0, s, |sn|, modulus, n)` writes `|sn| - n + 1` quotient limbs to the single limb
`q`, so more than one is a buffer overrun; it also needs a nonzero top limb of the divisor. -/
def invertRepr (P : FpParams) (gx : Gcdext) (a : List Limb) : Outcome (List Limb) :=
  -- fp.tcc:677
  if limbsIsZero a then .abort else
  let r := gx a P.modulus
  -- fp.tcc:681: s has room for n+1 limbs, g for n limbs
  if P.n + 1 < r.s.length || P.n < r.g.length then .ub else
  -- fp.tcc:689
  if r.g = [1] then
    let red : Outcome (List Limb) :=
      if P.n ≤ r.s.length then
        if 1 < r.s.length - P.n + 1 then .ub
        else if P.modulus.getLast?.getD 0 = 0 then .ub
        else .ok (limbsOf P.n (val r.s % val P.modulus))
      else .ok (r.s ++ List.replicate (P.n - r.s.length) 0)
    red.bind fun m =>
      if r.neg then
        let d := mpn_sub_n P.modulus m
        if d.2 then .abort else mulReduce P d.1 P.Rcubed
      else mulReduce P m P.Rcubed
  else .abort

end Libff.W32
