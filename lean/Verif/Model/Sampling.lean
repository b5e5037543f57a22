import Verif.Model.Random
import Verif.Model.Ext
import Verif.Model.FieldMul
import Verif.Model.Binary
import Verif.Lemmas.FpType

/-!
# Programs that draw random words

A program draws from a tape of words: the results of `rd()` (32 bits, `std::random_device`) for prime fields and groups, the bytes that
`randombytes_buf` writes for the binary fields. It returns the result and the rest of the tape, or `none` if the tape ends first.
-/
namespace Libff

/-- A program drawing words of type `W`. -/
abbrev Sampler (W α : Type) := List W → Outcome (Option (α × List W))

namespace Sampler
variable {W α β : Type}

/-- No word is drawn. -/
def ret (x : α) : Sampler W α := fun t => .ok (some (x, t))

/-- One program after the other. -/
def bind (S : Sampler W α) (f : α → Sampler W β) : Sampler W β := fun t =>
  (S t).bind fun o => match o with
    | none => .ok none
    | some (x, rest) => f x rest

/-- A step that draws nothing but may abort. -/
def lift (o : Outcome α) : Sampler W α := fun t => o.map fun x => some (x, t)

/-- `do { x = S(); } while (f rejects x)`; `f x = none` means rejected. At most `fuel` rounds. -/
def retryFor (S : Sampler W α) (f : α → Outcome (Option β)) : Nat → Sampler W β
  | 0 => fun _ => .ok none
  | fuel + 1 => bind S fun x => fun rest => (f x).bind fun o => match o with
    | none => retryFor S f fuel rest
    | some y => .ok (some (y, rest))

/-- The loop without a limit: each round draws at least one word, so the tape ends before the rounds do. -/
def retry (S : Sampler W α) (f : α → Outcome (Option β)) : Sampler W β := fun t => retryFor S f (t.length + 1) t

/-- One call of `rd()`, or one byte of `randombytes_buf`. -/
def draw : Sampler W W
  | [] => .ok none
  | w :: t => .ok (some (w, t))

/-- `n` draws, in order. -/
def drawN : Nat → Sampler W (List W)
  | 0 => ret []
  | n + 1 => bind draw fun w => bind (drawN n) fun ws => ret (w :: ws)

end Sampler

open Sampler

/-- The limbs that overlay the 32-bit words of `bigint::randomize` (`reinterpret_cast` on a little-endian machine), bigint.tcc:199. -/
def limbsOfWords : List (BitVec 32) → List Limb
  | lo :: hi :: ws => (hi ++ lo) :: limbsOfWords ws
  | _ => []

/-- `bigint<n>::randomize`, bigint.tcc:193-206. -/
def bigintRandomize (n : Nat) : Sampler (BitVec 32) (List Limb) := bind (drawN (2 * n)) fun ws => ret (limbsOfWords ws)

/-- One round of the loop of `Fp_model::random_element`, fp.tcc:745-764, after `randomize`: bits above the top bit of the modulus are
cleared, and the candidate is kept if it is below the modulus. The last test only gives the object its type. -/
def fpAccept (P : FpParams) (r : List Limb) : Outcome (Option (Fp P)) :=
  (maskLoop P.modulus (64 * P.n) r).bind fun m =>
    if (mpn_cmp m P.modulus).isGE then .ok none
    else if h : m.length = P.n ∧ val m < P.p then .ok (some ⟨m, h.1, h.2⟩) else .ub

/-- `Fp_model::random_element`, fp.tcc:739-767. -/
def fpRandom (P : FpParams) : Sampler (BitVec 32) (Fp P) := retry (bigintRandomize P.n) (fpAccept P)

/-- `random_element` of `Fp2_model`, fp2.tcc:31-39, `Fp4_model`, fp4.tcc:42-50, `Fp6_2over3_model`, fp6_2over3.tcc:37-45, and
`Fp12_2over3over2_model`, fp12_2over3over2.tcc:35-43; `S` is that of the field below. -/
def quadRandom {W K : Type} {nr : K → K} (S : Sampler W K) : Sampler W (Quad K nr) := bind S fun c0 => bind S fun c1 => ret ⟨c0, c1⟩

/-- `random_element` of `Fp3_model`, fp3.tcc:31-40, and `Fp6_3over2_model`, fp6_3over2.tcc:36-45. -/
def cubicRandom {W K : Type} {nr : K → K} (S : Sampler W K) : Sampler W (Cubic K nr) :=
  bind S fun c0 => bind S fun c1 => bind S fun c2 => ret ⟨c0, c1, c2⟩

/-- `random_element` of every group class: `scalar_field::random_element().as_bigint() * G1_one`; alt_bn128_g1.cpp:362-365,
alt_bn128_g2.cpp:378-381, bls12_381_g1.cpp:346-349, bls12_381_g2.cpp:364-367, mnt4_g1.cpp:391-394, mnt4_g2.cpp:414-417, mnt6_g1.cpp:391-394,
mnt6_g2.cpp:420-423, edwards_g1.cpp:298-301, edwards_g2.cpp:328-331, bn128_g1.cpp:356-359, bn128_g2.cpp:383-386. -/
def groupRandom {G : Type} (ops : GroupOps G) (P : FpParams) (one : G) : Sampler (BitVec 32) G :=
  bind (fpRandom P) fun x => lift (fieldMul P x.repr one)

/-- The 64-bit number that eight bytes of memory hold. -/
def u64OfBytes : List Byte → BitVec 64
  | [b0, b1, b2, b3, b4, b5, b6, b7] => b7 ++ b6 ++ b5 ++ b4 ++ b3 ++ b2 ++ b1 ++ b0
  | _ => 0

/-- The 32-bit number that four bytes of memory hold. -/
def u32OfBytes : List Byte → BitVec 32
  | [b0, b1, b2, b3] => b3 ++ b2 ++ b1 ++ b0
  | _ => 0

/-- `gf32::randomize`, `random_element`, gf32.cpp:205-208, 245-250. -/
def gf32Random : Sampler Byte GF32 := bind (drawN 4) fun b => ret ⟨u32OfBytes b⟩
/-- `gf64::randomize`, `random_element`, gf64.cpp:246-249, 286-291. -/
def gf64Random : Sampler Byte GF64 := bind (drawN 8) fun b => ret ⟨u64OfBytes b⟩
/-- `gf128::randomize`, `random_element`, gf128.cpp:244-247, 275-280. -/
def gf128Random : Sampler Byte GF128 :=
  bind (drawN 16) fun b => ret ⟨u64OfBytes (b.take 8), u64OfBytes (b.drop 8)⟩
/-- `gf192::randomize`, `random_element`, gf192.cpp:295-298, 329-334. -/
def gf192Random : Sampler Byte GF192 :=
  bind (drawN 24) fun b => ret ⟨u64OfBytes (b.take 8), u64OfBytes ((b.drop 8).take 8), u64OfBytes (b.drop 16)⟩
/-- `gf256::randomize`, `random_element`, gf256.cpp:367-370, 406-411. -/
def gf256Random : Sampler Byte GF256 :=
  bind (drawN 32) fun b => ret ⟨u64OfBytes (b.take 8), u64OfBytes ((b.drop 8).take 8), u64OfBytes ((b.drop 16).take 8), u64OfBytes (b.drop 24)⟩

/-- `random_element_non_zero_one`, utils.tcc:22-29; `zero` is `is_zero()`, `one` is `== T::one()`. -/
def randomNonZeroOneS {W T : Type} (S : Sampler W T) (zero one : T → Bool) : Sampler W T :=
  retry S fun x => .ok (if zero x || one x then none else some x)
/-- `random_element_non_zero`, utils.tcc:31-38. -/
def randomNonZeroS {W T : Type} (S : Sampler W T) (zero : T → Bool) : Sampler W T :=
  retry S fun x => .ok (if zero x then none else some x)
/-- `random_element_exclude`, utils.tcc:40-47; `same` is `== y`. -/
def randomExcludeS {W T : Type} (S : Sampler W T) (same : T → Bool) : Sampler W T :=
  retry S fun x => .ok (if same x then none else some x)

end Libff
