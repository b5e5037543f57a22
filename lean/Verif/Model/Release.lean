import Verif.Model.Stream
import Verif.Model.Random
import Verif.Model.Utils
import Verif.Model.Algorithms
import Verif.Model.Ext
import Verif.Model.PairingCurves12

/-!
# The functions of a build without assertions (`NDEBUG`)

Many functions of the model take a flag `debug` that says whether their `assert` is compiled. This file has the variants
without assertions of the functions that do not: the code is the same, and what is done after a failed assertion is what
the C++ code does then.
-/
namespace Libff

/-- The loop of fp.tcc:173-180 without the assertion of line 179: the carry is dropped. -/
def redLoopR (P : FpParams) : Nat → List Limb → List Limb
  | 0, res => res
  | i + 1, res =>
    let k : Limb := P.inv * res.headD 0
    let q := mpn_addmul_1 (res.take P.n) P.modulus k
    let w := mpn_add_1 (res.drop P.n) q.2
    redLoopR P i (q.1 ++ w.1).tail

/-- `Fp_model::mul_reduce`, fp.tcc:164-193, without the assertions of lines 179 and 186. -/
def mulReduceR (P : FpParams) (a b : List Limb) : List Limb :=
  let hi := redLoopR P P.n (mpn_mul a b)
  if (mpn_cmp hi P.modulus).isGE then (mpn_sub hi P.modulus).1 else hi

/-- `Fp_model::operator+=`, fp.tcc:419-435, without the assertion of line 428. -/
def addAssignR (P : FpParams) (a b : List Limb) : List Limb :=
  let s := mpn_add_n a b
  let scratch := s.1 ++ [if s.2 then 1 else 0]
  if s.2 || (mpn_cmp s.1 P.modulus).isGE then (mpn_sub scratch P.modulus).1.take P.n else scratch.take P.n

/-- `Fp_model::operator-=`, fp.tcc:509-530, without the assertion of line 524. -/
def subAssignR (P : FpParams) (a b : List Limb) : List Limb :=
  let scratch :=
    if (mpn_cmp a b).isLT then
      let s := mpn_add_n a P.modulus
      s.1 ++ [if s.2 then (1 : Limb) else 0]
    else a ++ [0]
  (mpn_sub scratch b).1.take P.n

/-- `Fp_model(const bigint<n>&)`, fp.tcc:197-201. -/
def fpOfBigintR (P : FpParams) (b : List Limb) : List Limb := mulReduceR P P.Rsquared b

/-- `Fp_model::as_bigint`, fp.tcc:245-252. -/
def fpAsBigintR (P : FpParams) (a : List Limb) : List Limb := mulReduceR P a (smallBigint P.n 1)

/-- `Fp_model(const long x, const bool is_unsigned)`, fp.tcc:204-222, without the assertion of line 215. -/
def fpOfLongR (P : FpParams) (x : BitVec 64) (isUnsigned : Bool) : Outcome (List Limb) :=
  if isUnsigned || !x.msb then .ok (mulReduceR P (smallBigint P.n x) P.Rsquared)
  else if x = BitVec.intMin 64 then .ub
  else .ok (mulReduceR P (mpn_sub_1 P.modulus (-x)).1 P.Rsquared)

/-- `Fp_model::invert`, fp.tcc:671-722, without the assertions of lines 677, 689 and 714. For zero, `mpn_gcdext` is called
with a zero operand, which its contract excludes. -/
def invertReprR (P : FpParams) (gx : Gcdext) (a : List Limb) : Outcome (List Limb) :=
  if limbsIsZero a then .ub else
  let r := gx a P.modulus
  if P.n + 1 < r.s.length || P.n < r.g.length then .ub else
    let red : Outcome (List Limb) :=
      if P.n ≤ r.s.length then
        if 1 < r.s.length - P.n + 1 then .ub
        else if P.modulus.getLast?.getD 0 = 0 then .ub
        else .ok (limbsOf P.n (val r.s % val P.modulus))
      else .ok (r.s ++ List.replicate (P.n - r.s.length) 0)
    red.bind fun m =>
      .ok (mulReduceR P (if r.neg then (mpn_sub_n P.modulus m).1 else m) P.Rcubed)

/-- The integer read by `from_words`, fp.tcc:794-803, without the assertion of line 795. With too few words `start_bit` is
negative, and either the iterator `words.begin() + start_word` lies before the vector or the shift by `bit_offset` is
negative. -/
def fromWordsIntR (n bits : Nat) (words : List Limb) : Outcome (List Limb) :=
  if words.length * 64 < bits then .ub else fromWordsInt n bits words

/-- `Fp_model::from_words`, fp.tcc:788-807. -/
def fromWordsR (mont : Bool) (P : FpParams) (bits : Nat) (words : List Limb) : Outcome (List Limb × Bool) :=
  (fromWordsIntR P.n bits words).map fun d =>
    let r := if mont then d else mulReduceR P d P.Rsquared
    (r, bigintLt r P.modulus)

/-- `bigint(const mpz_t)`, bigint.tcc:50-63, without the assertion of line 61: the rest is dropped. -/
def bigintOfMpzR : Nat → Nat → List Limb
  | 0, _ => []
  | n + 1, k => BitVec.ofNat 64 k :: bigintOfMpzR n (k / 2 ^ 64)

/-- The copy of the digits, bigint.tcc:33-37 and 239-243, without the assertion: a character that is not a digit gives a
number that `mpn_set_str` does not accept. -/
def digitValsR : List (BitVec 8) → Outcome (List Nat)
  | [] => .ok []
  | c :: cs => if 48 ≤ c.toNat ∧ c.toNat ≤ 57 then (digitValsR cs).map ((c.toNat - 48) :: ·) else .ub

/-- `bigint(const char*)`, bigint.tcc:28-47, and the text branch of `operator>>`, bigint.tcc:233-251. -/
def bigintOfStringR (n : Nat) (s : List (BitVec 8)) : Outcome (List Limb) :=
  (digitValsR s).bind fun ds =>
    if ds = [] then .ub
    else if n < limbCount (setStrVal ds) then .ub
    else .ok (limbsOf n (setStrVal ds))

/-- `tonelli_shanks_sqrt`, algorithms.tcc:102-162, without the assertions of lines 106-108 and 130. -/
def tonelliShanksR {K : Type*} [DecidableEq K] [Mul K] [One K] [Zero K] (sq : K → K)
    (C : SqrtConsts K) (fuel : Nat) (value : K) : Option K :=
  if value = 0 then some 0
  else
    let w := powerBigint value C.tMinus1Over2
    let x := value * w
    let b := x * w
    tsLoop sq fuel fuel C.s C.nqrToT b x

/-- `SHA512_rng<FieldT>(idx)`, rng.tcc:25-75, without the assertion of line 31. -/
def sha512RngR (P : FpParams) (hash : Nat → BitVec 64 → List Limb) (idx : Nat) :
    Nat → BitVec 64 → Outcome (Option (List Limb))
  | 0, _ => .ok none
  | fuel + 1, iter =>
    if 8 < P.n then .ub
    else
      (maskLoop P.modulus (64 * P.n) ((hash idx iter).take P.n)).bind fun m =>
        if (mpn_cmp m P.modulus).isGE then sha512RngR P hash idx fuel (iter + 1)
        else .ok (some (fpOfBigintR P m))

/-- `to_twos_complement`, utils.cpp:64-69, without the assertions of lines 66 and 67. -/
def toTwosComplementR (i : Int) (w : Nat) : Outcome (BitVec 64) :=
  if i ≥ 0 then .ok (BitVec.ofInt 64 i) else (oneShl w).map fun W => BitVec.ofInt 64 (i + W)

/-- `from_twos_complement`, utils.cpp:71-75, without the assertion of line 73. -/
def fromTwosComplementR (i : BitVec 64) (w : Nat) : Outcome Int :=
  if w = 0 ∨ 64 ≤ w then .ub
  else
    let r : BitVec 64 := if i.toNat < 2 ^ (w - 1) then i else i - (1 : BitVec 64) <<< w
    .ok ((r.setWidth 32).toInt)

section Sparse
variable {K : Type*} [Add K] [Sub K] [Mul K] [Zero K]

/-- `Fp4_model::mul_by_023`, fp4.tcc:128-145, without the assertion of line 135. -/
def Fp4.mulBy023R {β γ : K} (x other : Fp4 K β γ) : Fp4 K β γ :=
  let B := other.c1; let A := other.c0; let b := x.c1; let a := x.c0
  let aA : Fp2 K β := ⟨a.c0 * A.c0, a.c1 * A.c0⟩
  let bB := b * B
  let beta_bB := fp4nr γ bB
  ⟨aA + beta_bB, (a + b) * (A + B) - aA - bB⟩

/-- `Fp6_2over3_model::mul_by_2345`, fp6_2over3.tcc:113-131, without the assertions of lines 120 and 121. -/
def Fp6_2over3.mulBy2345R {β γ : K} (x other : Fp6_2over3 K β γ) : Fp6_2over3 K β γ :=
  let B := other.c1; let A := other.c0; let b := x.c1; let a := x.c0
  let aA : Fp3 K β := ⟨a.c1 * A.c2 * γ, a.c2 * A.c2 * γ, a.c0 * A.c2⟩
  let bB := b * B
  let beta_bB := fp6nr γ bB
  ⟨aA + beta_bB, (a + b) * (A + B) - aA - bB⟩

end Sparse

namespace Ate12
variable {K : Type*} [Add K] [Sub K] [Mul K] [Neg K] [Zero K] [One K] [DecidableEq K] [Squared K] [InverseO K]
  {β : K} {ξ : Fp2 K β} (A : Ate12 K β ξ)

/-- `alt_bn128_ate_precompute_G2`, alt_bn128_pairing.cpp:304-365, without the assertions of lines 347 and 349. -/
def bnPrecomputeG2R (Q : Coord3 (Fp2 K β)) : Outcome (AteG2Precomp (Fp2 K β)) :=
  (Jac.toAffine Q).bind fun Qcopy =>
  (ateLoop (testBit A.loopCount) (precompStep A.bnDouble A.bnAdd Qcopy) (bigintMaxBits A.loopCount + 1) false
    (⟨Qcopy.X, Qcopy.Y, 1⟩, [])).map fun s =>
  let Q1 := A.mulByQ Qcopy
  let Q2 := A.mulByQ Q1
  let R : Coord3 (Fp2 K β) := if A.loopNeg then ⟨s.1.X, -s.1.Y, s.1.Z⟩ else s.1
  let Q2 : Coord3 (Fp2 K β) := ⟨Q2.X, -Q2.Y, Q2.Z⟩
  let a1 := A.bnAdd Q1 R
  let a2 := A.bnAdd Q2 a1.1
  ⟨Qcopy.X, Qcopy.Y, s.2 ++ [a1.2] ++ [a2.2]⟩

/-- `alt_bn128_ate_pairing`, alt_bn128_pairing.cpp:490-498. -/
def bnPairingR (P : Coord3 K) (Q : Coord3 (Fp2 K β)) : Outcome (Fp12 K β ξ ξ) :=
  (precomputeG1 P).bind fun prec_P => (A.bnPrecomputeG2R Q).bind fun prec_Q => A.bnMillerLoop prec_P prec_Q

/-- `alt_bn128_reduced_pairing`, alt_bn128_pairing.cpp:500-507,541-545. The inversion of zero in the final exponentiation
is undefined without the assertion of fp.tcc:677. -/
def bnReducedPairingR (P : Coord3 K) (Q : Coord3 (Fp2 K β)) : Outcome (Fp12 K β ξ ξ) :=
  (A.bnPairingR P Q).bind fun f => if f = 0 then .ub else A.bnFinalExponentiation f

end Ate12

end Libff
