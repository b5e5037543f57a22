import Verif.Model.Bigint
import Mathlib.Tactic.TypeStar

/-!
# Exponentiation and square roots (libff/algebra/field_utils/algorithms.tcc) and
  `get_root_of_unity` (in Verif.Model.Utils)
-/
namespace Libff

/-- The common loop of `power` (algorithms.tcc:27-40, 58-70, 84-95): from bit `k - 1` down to bit 0.
The state is `(found_one, result)`; `sq` is the squaring used (`result * result` or
`result.squared()`). -/
def powLoop {K : Type*} [Mul K] (sq : K → K) (base : K) (bit : Nat → Bool) : Nat → Bool × K → Bool × K
  | 0, st => st
  | i + 1, st =>
    let res := if st.1 then sq st.2 else st.2
    powLoop sq base bit i (if bit i then (true, res * base) else (st.1, res))

/-- `power(base, bigint<m>)`, algorithms.tcc:21-42. -/
def powerBigint {K : Type*} [Mul K] [One K] (base : K) (e : List Limb) : K :=
  (powLoop (fun x => x * x) base (testBit e) (bigintMaxBits e) (false, 1)).2

/-- `power(base, unsigned long)`, algorithms.tcc:44-48. -/
def powerUlong {K : Type*} [Mul K] [One K] (base : K) (e : BitVec 64) : K := powerBigint base [e]

/-- `exponent & (1ull << i)`. -/
def bitAt (e : BitVec 64) (i : Nat) : Bool := (e &&& ((1 : BitVec 64) <<< i)) != 0

/-- `power(base, unsigned long long)`, algorithms.tcc:50-72. -/
def powerUll {K : Type*} [Mul K] [One K] (sq : K → K) (base : K) (e : BitVec 64) : K :=
  (powLoop sq base (bitAt e) 64 (false, 1)).2

/-- `power(base, vector<unsigned long long>)`, algorithms.tcc:74-100 (word 0 is the most significant). -/
def powerVec {K : Type*} [Mul K] [One K] (sq : K → K) (base : K) (e : List (BitVec 64)) : K :=
  (e.foldl (fun st w => powLoop sq base (bitAt w) 64 st) (false, 1)).2

/-- The static members of a field used by the square root: `s`, `t`, `t_minus_1_over_2`, `nqr`,
`nqr_to_t`. -/
structure SqrtConsts (K : Type*) where
  s : Nat
  t : List Limb
  tMinus1Over2 : List Limb
  nqr : K
  nqrToT : K

/-- Inner loop, algorithms.tcc:138-145: `m` such that `b^(2^m) = 1`.  `none`: still running after
`fuel` steps. -/
def tsOrder {K : Type*} [DecidableEq K] [One K] (sq : K → K) : Nat → K → Nat → Option Nat
  | 0, _, _ => none
  | fuel + 1, b2m, m => if b2m = 1 then some m else tsOrder sq fuel (sq b2m) (m + 1)

/-- `while (j > 0) { w = w.squared(); --j; }`, algorithms.tcc:147-153. -/
def tsSquare {K : Type*} (sq : K → K) : Nat → K → K
  | 0, w => w
  | j + 1, w => tsSquare sq j (sq w)

/-- Outer loop, algorithms.tcc:136-160, with state `(v, z, b, x)`.  `int j = v-m-1` is computed in the
integers (all values are below 2^31); a negative `j` runs the squaring loop zero times. -/
def tsLoop {K : Type*} [DecidableEq K] [Mul K] [One K] (sq : K → K) (innerFuel : Nat) :
    Nat → Nat → K → K → K → Option K
  | 0, _, _, _, _ => none
  | fuel + 1, v, z, b, x =>
    if b = 1 then some x
    else
      match tsOrder sq innerFuel b 0 with
      | none => none
      | some m =>
        let w := tsSquare sq ((v : Int) - m - 1).toNat z
        let z' := sq w
        tsLoop sq innerFuel fuel m z' (b * z') (x * w)

/-- `tonelli_shanks_sqrt(value)`, algorithms.tcc:102-162.  `debug` says whether the `#if DEBUG` check
of Euler's criterion (lines 123-131) is compiled.  `ok none`: the loops have not finished after `fuel`
rounds. -/
def tonelliShanks {K : Type*} [DecidableEq K] [Mul K] [One K] [Zero K] (debug : Bool) (sq : K → K)
    (C : SqrtConsts K) (fuel : Nat) (value : K) : Outcome (Option K) :=
  if C.s = 0 then .abort
  else if bigintIsEven C.t then .abort
  else if C.nqr = 0 then .abort
  else if value = 0 then .ok (some 0)
  else
    let w := powerBigint value C.tMinus1Over2
    let x := value * w
    let b := x * w
    if debug ∧ tsSquare sq (C.s - 1) b ≠ 1 then .abort
    else .ok (tsLoop sq fuel fuel C.s C.nqrToT b x)

end Libff
