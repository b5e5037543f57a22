import Verif.Model.Ext
import Verif.Model.Utils

/-!
# Field utilities (libff/algebra/field_utils/field_utils.tcc, libff/common/utils.cpp)

`debug` tells whether `assert` is active.
-/
namespace Libff

/-! ## Batch inversion -/

section
variable {K : Type*} [Zero K] [One K] [Mul K] [InverseO K] [DecidableEq K]

/-- The first loop of `batch_invert`, field_utils.tcc:242-247: the vector `prod` of the products of the
elements before each one, and the product of all. -/
def batchProducts (debug : Bool) : List K → K → Outcome (List K × K)
  | [], acc => .ok ([], acc)
  | el :: els, acc =>
    if debug ∧ el = 0 then .abort
    else (batchProducts debug els (acc * el)).map fun r => (acc :: r.1, r.2)

/-- The second loop, field_utils.tcc:251-256, on the pairs (element, product before it) from the last one
to the first; the result is in the same (reversed) order. -/
def batchBack : List (K × K) → K → List K
  | [], _ => []
  | (el, p) :: rest, accInv => (accInv * p) :: batchBack rest (accInv * el)

/-- `batch_invert(vec)`, field_utils.tcc:234-257; returns the new contents of `vec`. -/
def batchInvert (debug : Bool) (vec : List K) : Outcome (List K) :=
  (batchProducts debug vec 1).bind fun (prod, acc) =>
  (inverseO acc).map fun accInv => (batchBack (vec.zip prod).reverse accInv).reverse

end

/-! ## Bit vectors

A `bit_vector` is a list of booleans. -/

/-- One limb of a `bigint` gets a bit: `b.data[j / 64] |= bit << (j % 64)`, field_utils.tcc:133 and 152;
outside the array the access is undefined. (`1ll << 63` gives the top bit on every two's complement
machine.) -/
def orBit (b : List Limb) (j : Nat) (bit : Bool) : Outcome (List Limb) :=
  match b[j / 64]? with
  | none => .ub
  | some x => .ok (b.set (j / 64) (x ||| ((if bit then (1 : Limb) else 0) <<< (j % 64))))

/-- The inner loop of the two packing functions, field_utils.tcc:126-134 and 150-153: bits number `j`,
`j + 1`, … of the chunk. -/
def orBits : List Bool → Nat → List Limb → Outcome (List Limb)
  | [], _, b => .ok b
  | bit :: bits, j, b => (orBit b j bit).bind fun b => orBits bits (j + 1) b

section
variable {K : Type*} (ofB : List Limb → K) (n : Nat)

/-- The outer loop, field_utils.tcc:147-155 and 123-136, for the chunks from `i` on; the first argument is
the number of chunks left, `bitAt k` is the bit with number `k` of the input (zero past the end). `ofB` is
the constructor from a bigint of `n` limbs. -/
def packLoop (chunkBits : Nat) (bitAt : Nat → Bool) : Nat → Nat → Outcome (List K)
  | 0, _ => .ok []
  | k + 1, i =>
    (orBits ((List.range chunkBits).map fun j => bitAt (i * chunkBits + j)) 0 (List.replicate n 0)).bind
      fun b => (packLoop chunkBits bitAt k (i + 1)).map fun r => ofB b :: r

/-- `pack_bit_vector_into_field_element_vector(v, chunk_bits)`, field_utils.tcc:141-160; `floorBits` is
`floor_size_in_bits()`. A zero chunk size makes `div_ceil` throw. Sizes are taken to be below 2^63, so
`div_ceil` does not overflow. -/
def packBitVector (debug : Bool) (floorBits : Nat) (v : List Bool) (chunkBits : Nat) : Outcome (List K) :=
  if debug ∧ floorBits < chunkBits then .abort
  else if chunkBits = 0 then .abort
  else packLoop ofB n chunkBits (fun k => v.getD k false) ((v.length + (chunkBits - 1)) / chunkBits) 0

/-- `pack_int_vector_into_field_element_vector(v, w)`, field_utils.tcc:116-139. Words have 64 bits; a shift by
64 or more is undefined. -/
def packIntVector (floorBits : Nat) (v : List (BitVec 64)) (w : Nat) : Outcome (List K) :=
  if floorBits = 0 then .abort
  else if 64 < w ∧ v ≠ [] then .ub
  else packLoop ofB n floorBits (fun k => ((v.getD (k / w) 0) >>> (k % w)).getLsbD 0)
    ((v.length * w + (floorBits - 1)) / floorBits) 0

variable (toB : K → List Limb)

/-- `convert_bit_vector_to_field_element_vector`, field_utils.tcc:168-180. -/
def bitsToFieldVec [Zero K] [One K] (v : List Bool) : List K := v.map fun b => if b then 1 else 0

/-- `convert_field_element_to_bit_vector(el)`, field_utils.tcc:196-208; `ceilBits` is `ceil_size_in_bits()`. -/
def fieldToBits (ceilBits : Nat) (el : K) : List Bool := (List.range ceilBits).map fun i => testBit (toB el) i

/-- `convert_field_element_to_bit_vector(el, bitcount)`, field_utils.tcc:210-217. -/
def fieldToBitsN (ceilBits : Nat) (el : K) (bitcount : Nat) : List Bool :=
  let r := fieldToBits toB ceilBits el
  r.take bitcount ++ List.replicate (bitcount - r.length) false

/-- `convert_field_element_vector_to_bit_vector`, field_utils.tcc:182-194. -/
def fieldVecToBits (ceilBits : Nat) : List K → List Bool
  | [] => []
  | el :: v => fieldToBits toB ceilBits el ++ fieldVecToBits ceilBits v

/-- The loop of `convert_bit_vector_to_field_element`, field_utils.tcc:224-230. -/
def bitsToFieldLoop [Zero K] [Add K] : List Bool → K → K → K
  | [], res, _ => res
  | b :: bs, res, c => bitsToFieldLoop bs (res + if b then c else 0) (c + c)

/-- `convert_bit_vector_to_field_element`, field_utils.tcc:219-232. -/
def bitsToField [Zero K] [One K] [Add K] (debug : Bool) (ceilBits : Nat) (v : List Bool) : Outcome K :=
  if debug ∧ ceilBits < v.length then .abort else .ok (bitsToFieldLoop v 0 1)

end

/-- `int_list_to_bits(l, wordsize)`, utils.cpp:87-98: the words most significant bit first. `1UL << k` is
undefined for `k ≥ 64`. -/
def intListToBits (l : List (BitVec 64)) (wordsize : Nat) : Outcome (List Bool) :=
  if 64 < wordsize ∧ l ≠ [] then .ub
  else .ok (l.flatMap fun x => (List.range wordsize).map fun j => (x &&& ((1 : BitVec 64) <<< (wordsize - 1 - j))) != 0)

end Libff
