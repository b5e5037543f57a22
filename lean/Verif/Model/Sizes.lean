import Verif.Spec.Sizes
import Verif.Model.Params
import Verif.Model.Binary
import Verif.Model.Ext
import Verif.Model.Fp

/-!
# Size queries of the field and group classes, and the helpers of field_utils.tcc built on them
-/
namespace Libff

/-- fp.hpp:128-132 (`num_bits` is never 0, so `num_bits - 1` does not wrap around). -/
def fpInfo (D : PrimeField) : FieldInfo := ⟨D.P.modulus, 1, D.numBits, D.numBits - 1⟩

/-- fp2.hpp:104-108. -/
def fp2Info (D : PrimeField) : FieldInfo := ⟨D.P.modulus, 2, 2 * (fpInfo D).ceilBits, 2 * (fpInfo D).floorBits⟩

/-- fp3.hpp:103-107. -/
def fp3Info (D : PrimeField) : FieldInfo := ⟨D.P.modulus, 3, 3 * (fpInfo D).ceilBits, 3 * (fpInfo D).floorBits⟩

/-- fp4.hpp:112-116. -/
def fp4Info (D : PrimeField) : FieldInfo := ⟨D.P.modulus, 4, 2 * (fp2Info D).ceilBits, 2 * (fp2Info D).floorBits⟩

/-- fp6_3over2.hpp:107-111. -/
def fp6_3over2Info (D : PrimeField) : FieldInfo := ⟨D.P.modulus, 6, 3 * (fp2Info D).ceilBits, 3 * (fp2Info D).floorBits⟩

/-- fp6_2over3.hpp:115-119. -/
def fp6_2over3Info (D : PrimeField) : FieldInfo := ⟨D.P.modulus, 6, 2 * (fp3Info D).ceilBits, 2 * (fp3Info D).floorBits⟩

/-- fp12_2over3over2.hpp:120-124. -/
def fp12Info (D : PrimeField) : FieldInfo :=
  ⟨D.P.modulus, 12, 2 * (fp6_3over2Info D).ceilBits, 2 * (fp6_3over2Info D).floorBits⟩

/-- gf32.hpp:86-90 (`bigint<1>(2)`). -/
def gf32Info : FieldInfo := ⟨[2], 32, GF32.numBits, GF32.numBits⟩
/-- gf64.hpp:87-91 (`bigint<1>(2)`). -/
def gf64Info : FieldInfo := ⟨[2], 64, GF64.numBits, GF64.numBits⟩
/-- gf128.hpp:89-93 (`bigint<2>(2)`). -/
def gf128Info : FieldInfo := ⟨[2, 0], 128, GF128.numBits, GF128.numBits⟩
/-- gf192.hpp:89-93 (`bigint<3>(2)`). -/
def gf192Info : FieldInfo := ⟨[2, 0, 0], 192, GF192.numBits, GF192.numBits⟩
/-- gf256.hpp:91-95 (`bigint<4>(2)`). -/
def gf256Info : FieldInfo := ⟨[2, 0, 0, 0], 256, GF256.numBits, GF256.numBits⟩

/-- `log_of_field_size_helper`, field_utils.tcc:34-40 (prime fields) and 42-48 (binary fields except gf32, field_utils.hpp:24-57). -/
def logOfFieldSize (binary : Bool) (I : FieldInfo) : Nat := if binary then I.degree else I.ceilBits

/-- `soundness_log_of_field_size_helper`, field_utils.tcc:50-62 (prime fields) and 64-70 (binary fields except gf32). -/
def soundnessLogOfFieldSize (binary : Bool) (I : FieldInfo) : Nat := if binary then I.degree else I.ceilBits - 1

/-- `get_word_of_field_elem` for prime fields, field_utils.tcc:79-84: `as_bigint().data[word]`. -/
def fpWord (P : FpParams) (a : List Limb) (i : Nat) : Outcome (BitVec 64) := (fpAsBigint P a).bind fun b => wordAt b i

/-- `get_word_of_field_elem` for binary fields, field_utils.tcc:72-77: `to_words()[word]`; the argument is `to_words()`. -/
def binWord (words : List (BitVec 64)) (i : Nat) : Outcome (BitVec 64) := wordAt words i

/-- `coset_shift()`, field_utils.tcc:86-90. -/
def cosetShift {K : Type} [Squared K] (multiplicativeGenerator : K) : K := squared multiplicativeGenerator

/-- `size_in_bits()`, `field_char()` and `order()` of the group classes, alt_bn128_g1.hpp:74-76, alt_bn128_g2.hpp:78-80,
bls12_381_g1.hpp:72-74, bls12_381_g2.hpp:76-78, edwards_g1.hpp:70-72, edwards_g2.hpp:76-78, mnt4_g1.hpp:82-84, mnt4_g2.hpp:87-89,
mnt6_g1.hpp:82-84, mnt6_g2.hpp:87-89, bn128_g1.hpp:78-80. `F` is the class of the coordinates, `r` the scalar field. -/
def groupInfo (F : FieldInfo) (r : FpParams) : GroupInfo := ⟨F.char, r.modulus, F.ceilBits + 1⟩

/-- `bn128_G2`, bn128_g2.hpp:79-81: there is no class for the coordinates; `base_field` is `bn128_Fq`. -/
def bn128G2Info (Fq : FieldInfo) (r : FpParams) : GroupInfo := ⟨Fq.char, r.modulus, 2 * Fq.ceilBits + 1⟩

end Libff
