import Verif.Lemmas.FpType
import Verif.Model.Binary
import Verif.Model.Curve

/-!
# Model: `print`, `print_hex` and `print_coordinates`

The text a call writes to the standard output, as a list of characters. `%Nd`, `%Nx` (GMP), `%u` and `%016lx` are modelled by the digits they
are documented to write: GMP writes the value of the limbs without leading zeros, `%016lx` exactly sixteen digits. Text written before a failing
assertion is not recorded. The bn128 groups print through `toString` of the external field class and are not modelled.
-/
namespace Libff.Print

abbrev Text := List Char

/-- The digits of `v` in base `b` without leading zeros, most significant first, as written by `%Nd`, `%Nx` and `%u`. -/
def number (b v : Nat) : Text := if v = 0 then ['0'] else ((Nat.digits b v).reverse).map Nat.digitChar

/-- `%016" PRIx64 "`: sixteen hexadecimal digits. -/
def hex16 (x : BitVec 64) : Text := ((List.range 16).reverse).map fun i => Nat.digitChar (x.toNat / 16 ^ i % 16)

/-- `bigint::print`, bigint.tcc:74-78. -/
def bigintPrint (a : List Limb) : Text := number 10 (val a) ++ ['\n']

/-- `bigint::print_hex`, bigint.tcc:80-84. -/
def bigintPrintHex (a : List Limb) : Text := number 16 (val a) ++ ['\n']

/-- `Fp_model::print`, fp.tcc:278-286. A default constructed element is zero (bigint.hpp:39), so `tmp.mont_repr` is the integer one. -/
def fpPrint {P : FpParams} (x : Fp P) : Outcome Text := (mulReduce P (smallBigint P.n 1) x.repr).map bigintPrint

/-- `print` of `Fp2_model`, `Fp4_model`, `Fp6_2over3_model` and `Fp12_2over3over2_model`: fp2.hpp:61, fp4.hpp:60, fp6_2over3.hpp:63,
fp12_2over3over2.hpp:65. -/
def quadPrint {K : Type*} {nr : K → K} (f : K → Outcome Text) (x : Quad K nr) : Outcome Text :=
  (f x.c0).bind fun t0 => (f x.c1).map fun t1 => "c0/c1:\n".toList ++ t0 ++ t1

/-- `print` of `Fp3_model` and `Fp6_3over2_model`: fp3.hpp:62, fp6_3over2.hpp:64. -/
def cubicPrint {K : Type*} {nr : K → K} (f : K → Outcome Text) (x : Cubic K nr) : Outcome Text :=
  (f x.c0).bind fun t0 => (f x.c1).bind fun t1 => (f x.c2).map fun t2 => "c0/c1/c2:\n".toList ++ t0 ++ t1 ++ t2

/-- gf32.cpp:225-228. -/
def gf32Print (x : GF32) : Text := number 10 x.value.toNat ++ ['\n']
/-- gf64.cpp:266-269. -/
def gf64Print (x : GF64) : Text := hex16 x.value ++ ['\n']
/-- gf128.cpp:270-273. -/
def gf128Print (x : GF128) : Text := hex16 x.v1 ++ hex16 x.v0 ++ ['\n']
/-- gf192.cpp:324-327. -/
def gf192Print (x : GF192) : Text := hex16 x.v2 ++ hex16 x.v1 ++ hex16 x.v0 ++ ['\n']
/-- gf256.cpp:399-404. -/
def gf256Print (x : GF256) : Text := hex16 x.v3 ++ hex16 x.v2 ++ hex16 x.v1 ++ hex16 x.v0 ++ ['\n']

/-- A coordinate in the prime field inside `gmp_printf`: `%Nd` of `as_bigint()`, alt_bn128_g1.cpp:46-48. -/
def coord1 {P : FpParams} (x : Fp P) : Outcome Text := (fpAsBigint P x.repr).map fun b => number 10 (val b)

/-- A coordinate in the quadratic extension: `%Nd*z + %Nd` of `c1`, `c0`, alt_bn128_g2.cpp:51-55, bls12_381_g2.cpp and mnt4_g2.cpp alike. -/
def coord2 {P : FpParams} {nr : Fp P → Fp P} (x : Quad (Fp P) nr) : Outcome Text :=
  (coord1 x.c1).bind fun t1 => (coord1 x.c0).map fun t0 => t1 ++ "*z + ".toList ++ t0

/-- A coordinate in the cubic extension: `%Nd*z^2 + %Nd*z + %Nd` of `c2`, `c1`, `c0`, mnt6_g2.cpp:65-71, edwards_g2.cpp:57-63. -/
def coord3 {P : FpParams} {nr : Fp P → Fp P} (x : Cubic (Fp P) nr) : Outcome Text :=
  (coord1 x.c2).bind fun t2 => (coord1 x.c1).bind fun t1 => (coord1 x.c0).map fun t0 =>
    t2 ++ "*z^2 + ".toList ++ t1 ++ "*z + ".toList ++ t0

/-- `print` of the point classes: alt_bn128_g1.cpp:36-50, alt_bn128_g2.cpp:41-57, and alike in bls12_381, edwards, mnt4 and mnt6. `sh` formats a
coordinate; `isZero` and `toAffine` are the functions of the class. -/
def pointPrint {K : Type*} (isZero : Coord3 K → Bool) (toAffine : Coord3 K → Outcome (Coord3 K)) (sh : K → Outcome Text) (p : Coord3 K) :
    Outcome Text :=
  if isZero p then .ok "O\n".toList
  else (toAffine p).bind fun q => (sh q.X).bind fun x => (sh q.Y).map fun y => "(".toList ++ x ++ " , ".toList ++ y ++ ")\n".toList

/-- `print_coordinates` of the point classes: alt_bn128_g1.cpp:52-65, alt_bn128_g2.cpp:59-77, and alike. -/
def pointPrintCoordinates {K : Type*} (isZero : Coord3 K → Bool) (sh : K → Outcome Text) (p : Coord3 K) : Outcome Text :=
  if isZero p then .ok "O\n".toList
  else (sh p.X).bind fun x => (sh p.Y).bind fun y => (sh p.Z).map fun z =>
    "(".toList ++ x ++ " : ".toList ++ y ++ " : ".toList ++ z ++ ")\n".toList

end Libff.Print
