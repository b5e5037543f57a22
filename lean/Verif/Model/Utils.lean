import Verif.Model.Algorithms

/-!
# Integer helpers (libff/common/utils.cpp) and `get_root_of_unity`

`size_t` is `BitVec 64`; `int` and `long` are the integers of C++ (32 and 64 bits), with signed
overflow and out-of-range shifts as undefined behaviour.
-/
namespace Libff

/-- The loop of `log2`, utils.cpp:55-59: `while (n > 1) { n >>= 1; r++; }`; the fuel 64 is enough for
a 64-bit `n`. -/
def log2Loop : Nat → BitVec 64 → Nat → Nat
  | 0, _, r => r
  | f + 1, n, r => if n > 1 then log2Loop f (n >>> 1) (r + 1) else r

/-- `log2(n)`, utils.cpp:49-62. -/
def log2 (n : BitVec 64) : Nat :=
  log2Loop 64 n (if (n &&& (n - 1)) = 0 then 0 else 1)

/-- `get_power_of_two(n)`, utils.cpp:24-36. -/
def getPowerOfTwo (n : BitVec 64) : BitVec 64 :=
  let n := n - 1
  let n := n ||| (n >>> 1)
  let n := n ||| (n >>> 2)
  let n := n ||| (n >>> 4)
  let n := n ||| (n >>> 8)
  let n := n ||| (n >>> 16)
  let n := n ||| (n >>> 32)
  n + 1

/-- `round_to_next_power_of_2(n)`, utils.cpp:39-42: `1ULL << log2(n)`, undefined for a shift by 64. -/
def roundToNextPowerOf2 (n : BitVec 64) : Outcome (BitVec 64) :=
  if log2 n < 64 then .ok ((1 : BitVec 64) <<< log2 n) else .ub

/-- `is_power_of_2(n)`, utils.cpp:44-47. -/
def isPowerOf2 (n : BitVec 64) : Bool := (n != 0) && ((n &&& (n - 1)) == 0)

/-- `bitreverse(n, l)`, utils.cpp:77-86. -/
def bitreverseLoop : Nat → BitVec 64 → BitVec 64 → BitVec 64
  | 0, r, _ => r
  | l + 1, r, n => bitreverseLoop l ((r <<< 1) ||| (n &&& 1)) (n >>> 1)

/-- `bitreverse(n, l)`, utils.cpp:77-86. -/
def bitreverse (n : BitVec 64) (l : Nat) : BitVec 64 := bitreverseLoop l 0 n

/-- `x` fits a 64-bit signed integer. -/
def fitsI64 (x : Int) : Bool := decide (-2 ^ 63 ≤ x) && decide (x < 2 ^ 63)

/-- A signed 64-bit left shift `1l << k`: undefined when the result is not representable (k ≥ 63). -/
def oneShl (k : Nat) : Outcome Int := if k < 63 then .ok (2 ^ k) else .ub

/-- `div_ceil(x, y)` on `long long`, utils.cpp:101-108; the additions may overflow, and
`LLONG_MIN / -1` is undefined as well.  C++ division truncates. -/
def divCeil (x y : Int) : Outcome Int :=
  if y = 0 then .abort
  else if !fitsI64 (y - 1) then .ub
  else if !fitsI64 (x + (y - 1)) then .ub
  else if !fitsI64 (Int.tdiv (x + (y - 1)) y) then .ub
  else .ok (Int.tdiv (x + (y - 1)) y)

/-- `to_twos_complement(int i, size_t w)`, utils.cpp:64-69.  `1l << (w-1)` and `1L << w` must be
defined; the conversion of the (non-negative) result to `size_t` keeps the value. -/
def toTwosComplement (i : Int) (w : Nat) : Outcome (BitVec 64) :=
  if w = 0 then .ub                                   -- shift by (size_t)-1
  else (oneShl (w - 1)).bind fun h =>
    if ¬ (i ≥ -h) then .abort
    else if ¬ (i < h) then .abort
    else if i ≥ 0 then .ok (BitVec.ofInt 64 i)
    else (oneShl w).map fun W => BitVec.ofInt 64 (i + W)

/-- `from_twos_complement(size_t i, size_t w)`, utils.cpp:71-75: unsigned 64-bit arithmetic, then
conversion to `int` (value modulo 2^32, implementation-defined before C++20 but two's complement on
every supported compiler). -/
def fromTwosComplement (i : BitVec 64) (w : Nat) : Outcome Int :=
  if w = 0 ∨ 64 ≤ w then .ub
  else if ¬ (i.toNat < 2 ^ w) then .abort
  else
    let r : BitVec 64 := if i.toNat < 2 ^ (w - 1) then i else i - (1 : BitVec 64) <<< w
    .ok ((r.setWidth 32).toInt)

/-- The loop of `get_root_of_unity`, field_utils.tcc:108-111. -/
def squareTimes {K : Type*} [Mul K] : Nat → K → K
  | 0, x => x
  | k + 1, x => squareTimes k (x * x)

/-- `get_root_of_unity(n)`, field_utils.tcc:99-114.  `1u << logn` is a 32-bit shift: undefined for
`logn ≥ 32`.  `throw` is `abort`. -/
def getRootOfUnity {K : Type*} [Mul K] (s : Nat) (rootOfUnity : K) (n : BitVec 64) : Outcome K :=
  let logn := log2 n
  if 32 ≤ logn then .ub
  else if n ≠ BitVec.ofNat 64 (2 ^ logn) then .abort
  else if logn > s then .abort
  else .ok (squareTimes (s - logn) rootOfUnity)

/-- `random_element_non_zero`, utils.tcc:31-38, over the stream of values that `random_element`
returns (`none`: the stream is exhausted before an accepted value). -/
def randomNonZero {T : Type*} [Zero T] [DecidableEq T] : List T → Option T
  | [] => none
  | x :: xs => if x = 0 then randomNonZero xs else some x

/-- `random_element_non_zero_one`, utils.tcc:22-29. -/
def randomNonZeroOne {T : Type*} [Zero T] [One T] [DecidableEq T] : List T → Option T
  | [] => none
  | x :: xs => if x = 0 ∨ x = 1 then randomNonZeroOne xs else some x

/-- `random_element_exclude`, utils.tcc:40-47. -/
def randomExclude {T : Type*} [DecidableEq T] (y : T) : List T → Option T
  | [] => none
  | x :: xs => if x = y then randomExclude y xs else some x

end Libff
