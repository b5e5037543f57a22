import Verif.Model.Bigint
import Mathlib.Tactic.TypeStar

/-!
# Generic group code: scalar multiplication and wNAF

The C++ code is templated over a group class; `GroupOps` is the part of that interface the algorithms
use.
-/
namespace Libff

/-- The member functions of a group class the generic algorithms call (libff/algebra/curves/curve_utils.hpp,
e.g. alt_bn128_g1.hpp: `zero()`, `operator+`, `operator-`, `dbl()`). -/
class GroupOps (G : Type*) where
  zero : G
  add : G → G → G
  sub : G → G → G
  dbl : G → G

section
variable {G : Type*} [GroupOps G]
open GroupOps

/-- The loop of `scalar_mul`, curve_utils.tcc:19-32; `k` counts the remaining bits. -/
def scalarMulLoop (base : G) (e : List Limb) : Nat → Bool × G → G
  | 0, st => st.2
  | i + 1, (found, result) =>
    let result := if found then dbl result else result
    if testBit e i then scalarMulLoop base e i (true, add result base)
    else scalarMulLoop base e i (found, result)

/-- `scalar_mul(base, scalar)`, curve_utils.tcc:14-35; also `operator*(bigint, group)` of every group class
(e.g. alt_bn128_g1.hpp:82-92). -/
def scalarMul (base : G) (e : List Limb) : G :=
  scalarMulLoop base e (bigintMaxBits e) (false, zero)

end

/-- `mpn_rshift(c, c, n, 1)`: shift right by one bit (GMP contract). -/
def rshift1 : List Limb → List Limb
  | [] => []
  | x :: rest => BitVec.ofNat 64 (x.toNat / 2 + (rest.headD 0).toNat % 2 * 2 ^ 63) :: rshift1 rest

/-- The digit computed for an odd `c`, wnaf.tcc:30-34: `u = c.data[0] % (1u << (w+1))`, reduced to the
symmetric range. -/
def wnafDigit (w : Nat) (c0 : Limb) : Int :=
  let u : Int := (c0.toNat % 2 ^ (w + 1) : Nat)
  if u > 2 ^ w then u - 2 ^ (w + 1) else u

/-- One round of the loop, wnaf.tcc:27-52: the digit and the new `c`. The carry of `mpn_add_1` is dropped,
as in the code. -/
def wnafStep (w : Nat) (c : List Limb) : Int × List Limb :=
  if (c.headD 0 &&& 1) == 1 then
    let u := wnafDigit w (c.headD 0)
    let c := if u > 0 then (mpn_sub_1 c (BitVec.ofNat 64 u.toNat)).1
      else (mpn_add_1 c (BitVec.ofNat 64 (-u).toNat)).1
    (u, rshift1 c)
  else (0, rshift1 c)

/-- The loop of `find_wnaf`, wnaf.tcc:26-53. The first argument is the number of slots of `res` not yet
written (all zero); writing when none is left is out of bounds. -/
def wnafLoop (w : Nat) : Nat → List Limb → Outcome (List Int)
  | 0, c => if limbsIsZero c then .ok [] else .ub
  | k + 1, c =>
    if limbsIsZero c then .ok (List.replicate (k + 1) 0)
    else
      let r := wnafStep w c
      (wnafLoop w k r.2).map (r.1 :: ·)

/-- `find_wnaf(window_size, scalar)`, wnaf.tcc:19-56. The shifts `1u << (w+1)` and `1 << (w+1)` are
undefined for `w ≥ 30`. -/
def findWnaf (w : Nat) (scalar : List Limb) : Outcome (List Int) :=
  if 30 ≤ w then .ub else wnafLoop w (bigintMaxBits scalar + 1) scalar

section
variable {G : Type*} [GroupOps G]
open GroupOps

/-- The table of odd multiples, wnaf.tcc:62-69. -/
def oddTable : Nat → G → G → List G
  | 0, _, _ => []
  | k + 1, tmp, d => tmp :: oddTable k (add tmp d) d

/-- The main loop of `fixed_window_wnaf_exp`, wnaf.tcc:71-93, over the digits from the most significant
one. Table accesses out of range are undefined. -/
def wnafExpLoop (table : List G) : List Int → Bool × G → Outcome G
  | [], st => .ok st.2
  | d :: rest, (found, res) =>
    let res := if found then dbl res else res
    if d ≠ 0 then
      if d > 0 then
        match table[(d / 2).toNat]? with
        | some t => wnafExpLoop table rest (true, add res t)
        | none => .ub
      else
        match table[((-d) / 2).toNat]? with
        | some t => wnafExpLoop table rest (true, sub res t)
        | none => .ub
    else wnafExpLoop table rest (found, res)

/-- `fixed_window_wnaf_exp(window_size, base, scalar)`, wnaf.tcc:58-96. `1ul << (window_size-1)` is undefined
for window size 0. -/
def fixedWindowWnafExp (w : Nat) (base : G) (scalar : List Limb) : Outcome G :=
  if w = 0 then .ub
  else
    (findWnaf w scalar).bind fun naf =>
      wnafExpLoop (oddTable (2 ^ (w - 1)) base (dbl base)) naf.reverse (false, zero)

/-- The window choice, wnaf.tcc:101-109: the largest `i + 1` with `scalar_bits ≥ table[i]`, or 0; the
list argument is the table from the end. -/
def bestWindow (bits : Nat) : List Nat → Nat
  | [] => 0
  | t :: rest => if bits ≥ t then rest.length + 1 else bestWindow bits rest

/-- `opt_window_wnaf_exp(base, scalar, scalar_bits)`, wnaf.tcc:98-119. -/
def optWindowWnafExp (table : List Nat) (base : G) (scalar : List Limb) (bits : Nat) : Outcome G :=
  let best := bestWindow bits table.reverse
  if best > 0 then fixedWindowWnafExp best base scalar else .ok (scalarMul base scalar)

end
end Libff
