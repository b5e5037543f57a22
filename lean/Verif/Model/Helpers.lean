import Verif.Model.Binary
import Verif.Model.Fp
import Verif.Model.Utils

/-!
# Small helpers

(libff/common/utils.{hpp,tcc,cpp}, `set_ulong` of fp.tcc, `square_multi` of gf32.cpp and gf64.cpp)
-/
namespace Libff

/-- `Fp_model::set_ulong`, fp.tcc:224-230. -/
def setUlong (P : FpParams) (x : BitVec 64) : Outcome (List Limb) := mulReduce P (smallBigint P.n x) P.Rsquared

/-- `exp2(k)`, utils.hpp:37: a shift by 64 or more is undefined. -/
def exp2 (k : BitVec 64) : Outcome (BitVec 64) := if 64 ≤ k.toNat then .ub else .ok (1#64 <<< k)

/-- The loop of `square_multi`: `i` and `num_times` are of type `int8_t`. `fuel` is a bound for the number of rounds. -/
def squareMultiLoop {K : Type} [Mul K] (numTimes : BitVec 8) : Nat → BitVec 8 → K → K
  | 0, _, pt => pt
  | f + 1, i, pt => if i.slt numTimes then squareMultiLoop numTimes f (i + 1) (pt * pt) else pt

/-- `square_multi`, gf32.cpp:155-161, gf64.cpp:172-178. -/
def squareMulti {K : Type} [Mul K] (pt : K) (numTimes : BitVec 8) : K := squareMultiLoop numTimes 128 0 pt

/-- `curve_size_in_bits(v)`, utils.tcc:16-20: `size` is `CurveT::size_in_bits()`. -/
def curveSizeInBits {α : Type} (size : BitVec 64) (v : List α) : BitVec 64 := BitVec.ofNat 64 v.length * size

/-- The bytes of a 64-bit word in memory, lowest address first. -/
def wordBytes (littleEndian : Bool) (w : BitVec 64) : List (BitVec 8) :=
  let bytes := (List.range 8).map fun i => w.extractLsb' (8 * i) 8
  if littleEndian then bytes else bytes.reverse

/-- `is_little_endian()`, utils.cpp:110-115, on a machine of the given kind. -/
def isLittleEndian (machineLittle : Bool) : Bool := (wordBytes machineLittle 0x12345678).head? == some 0x78

end Libff
