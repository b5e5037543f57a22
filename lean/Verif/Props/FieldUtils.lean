import Verif.Lemmas.FieldUtils
import Verif.Lemmas.FpType
import Verif.Props.Fp

/-!
# Bit vector conversions (C46)

Vocabulary (`Verif/Spec/BitVec.lean`): `bitsVal` is the number a bit vector denotes, least significant bit
first; `padBits` pads with zero bits; `bitChunk c v i` is the `i`-th block of `c` bits of `v`;
`BigintCodec` is the contract of `FieldT(bigint)` and `as_bigint`, which `C46_codec` proves for `Fp_model`.
-/
namespace Libff

/-- `as_bigint` on `Fp P` (fp.tcc:245-256). -/
def fpToB {P : FpParams} (x : Fp P) : List Limb :=
  match fpAsBigint P x.repr with
  | .ok r => r
  | _ => []

/-- `Fp_model(const bigint<n>&)` (fp.tcc:190-195), made total on vectors of the wrong length. -/
def fpOfB {P : FpParams} [hP : Fact P.Valid] (b : List Limb) : Fp P :=
  if h : b.length = P.n then Fp.ofOutcome (fpOfBigint P b)
    (Fp.ofOutcome_represents (Represents.ofBigint hP.out h))
  else 0

/-- C46. The conversions of `Fp_model` satisfy the contract the theorems below assume. -/
theorem C46_codec (P : FpParams) [hP : Fact P.Valid] : BigintCodec (Fp P) P.p P.n fpToB fpOfB := by
  have hv : ∀ x : Fp P, val (fpToB x) < P.p ∧ ((val (fpToB x) : ℕ) : ZMod P.p) = x.toZMod := fun x => by
    obtain ⟨r, h1, _, h3, h4⟩ := C05_as_bigint P hP.out x.repr x.toZMod x.represents
    rw [fpToB, h1]
    exact ⟨h3, h4⟩
  have : NeZero P.p := hP.out.neZero
  refine ⟨fun b hb => ?_, fun x => (hv x).1, fun x => ?_, fun m hm => ?_⟩
  · apply Fp.toZMod_injective
    rw [fpOfB, dif_pos hb, Fp.toZMod_ofOutcome (Represents.ofBigint hP.out hb), Fp.toZMod_natCast]
  · apply Fp.toZMod_injective
    rw [Fp.toZMod_natCast, (hv x).2]
  · have h := (hv (m : Fp P)).2
    rw [Fp.toZMod_natCast, ZMod.natCast_eq_natCast_iff', Nat.mod_eq_of_lt (hv _).1, Nat.mod_eq_of_lt hm] at h
    exact h

section
variable {K : Type*} [CommRing K] {p n : Nat} {toB : K → List Limb} {ofB : List Limb → K}

/-- C46. `convert_field_element_to_bit_vector(el)` has `ceil_size_in_bits()` bits and denotes the canonical
representative of `el`. -/
theorem C46_field_to_bits (hc : BigintCodec K p n toB ofB) (ceilBits : Nat) (hp : p ≤ 2 ^ ceilBits) (el : K) :
    (fieldToBits toB ceilBits el).length = ceilBits ∧
    bitsVal (fieldToBits toB ceilBits el) < p ∧ ((bitsVal (fieldToBits toB ceilBits el) : ℕ) : K) = el := by
  have h : bitsVal (fieldToBits toB ceilBits el) = val (toB el) := by
    rw [fieldToBits]
    simp only [testBit_eq]
    exact bits_of_testBit _ _ (lt_of_lt_of_le (hc.to_lt el) hp)
  refine ⟨by simp [fieldToBits], ?_, ?_⟩ <;> rw [h]
  · exact hc.to_lt el
  · exact hc.to_cast el

/-- C46. With an explicit bit count, the vector is cut or padded with zeros. -/
theorem C46_field_to_bits_count (hc : BigintCodec K p n toB ofB) (ceilBits : Nat) (hp : p ≤ 2 ^ ceilBits) (el : K)
    (bitcount : Nat) :
    (fieldToBitsN toB ceilBits el bitcount).length = bitcount ∧
    (∀ m < p, el = (m : K) → bitsVal (fieldToBitsN toB ceilBits el bitcount) = m % 2 ^ bitcount) := by
  obtain ⟨h1, h2, h3⟩ := C46_field_to_bits hc ceilBits hp el
  refine ⟨by simp [fieldToBitsN]; omega, fun m hm he => ?_⟩
  have hv : bitsVal (fieldToBits toB ceilBits el) = m := by
    rw [← hc.to_val _ h2, h3, he, hc.to_val _ hm]
  apply Nat.eq_of_testBit_eq
  intro i
  rw [Nat.testBit_mod_two_pow, ← hv, bitsVal_testBit, bitsVal_testBit, fieldToBitsN]
  by_cases hi : i < bitcount
  · simp only [hi, decide_true, Bool.true_and]
    by_cases h : i < (fieldToBits toB ceilBits el).length
    · rw [List.getD_append _ _ _ _ (by simp; omega), List.getD_eq_getElem _ _ (by simp; omega), List.getElem_take,
        List.getD_eq_getElem _ _ h]
    · rw [List.getD_append_right _ _ _ _ (by simp; omega), List.getD_replicate _ (by simp; omega),
        List.getD_eq_default _ _ (not_lt.1 h)]
  · rw [List.getD_eq_default _ _ (by simp; omega)]
    simp [hi]

/-- C46. `convert_bit_vector_to_field_element` returns the residue of the number; the debug build rejects
vectors longer than `ceil_size_in_bits()`. -/
theorem C46_bits_to_field (debug : Bool) (ceilBits : Nat) (v : List Bool) :
    bitsToField debug ceilBits v =
      if debug = true ∧ ceilBits < v.length then .abort else .ok (bitsVal v : K) := by
  rw [bitsToField, bitsToFieldLoop_spec]
  simp

/-- C46. Element → bits → element is the identity. -/
theorem C46_field_roundtrip (hc : BigintCodec K p n toB ofB) (debug : Bool) (ceilBits : Nat)
    (hp : p ≤ 2 ^ ceilBits) (el : K) :
    bitsToField debug ceilBits (fieldToBits toB ceilBits el) = .ok el := by
  obtain ⟨h1, _, h3⟩ := C46_field_to_bits hc ceilBits hp el
  rw [C46_bits_to_field, if_neg (by omega), h3]

/-- C46. Bits → element → bits pads with zeros to `ceil_size_in_bits()`, for every vector denoting a number
below the modulus (in particular every vector of at most `floor_size_in_bits()` bits). -/
theorem C46_bits_roundtrip (hc : BigintCodec K p n toB ofB) (debug : Bool) (ceilBits : Nat) (v : List Bool)
    (hl : v.length ≤ ceilBits) (hv : bitsVal v < p) :
    ∃ el : K, bitsToField debug ceilBits v = .ok el ∧ fieldToBits toB ceilBits el = padBits ceilBits v := by
  refine ⟨(bitsVal v : ℕ), by rw [C46_bits_to_field, if_neg (by omega)], ?_⟩
  rw [fieldToBits]
  simp only [testBit_eq, hc.to_val _ hv]
  exact map_testBit_bitsVal v ceilBits hl

/-- C46. A vector of at most `floor_size_in_bits()` bits denotes a number below the modulus. -/
theorem C46_floor_bits (floorBits : Nat) (hp : 2 ^ floorBits ≤ p) (v : List Bool) (hv : v.length ≤ floorBits) :
    bitsVal v < p :=
  lt_of_lt_of_le (bitsVal_lt v) (le_trans (Nat.pow_le_pow_right (by norm_num) hv) hp)

/-- C46. A vector denoting a number that is not reduced does not come back. -/
theorem C46_bits_not_reduced (hc : BigintCodec K p n toB ofB) (debug : Bool) (ceilBits : Nat) (hp : p ≤ 2 ^ ceilBits)
    (v : List Bool) (hv : p ≤ bitsVal v) (el : K) (h : bitsToField debug ceilBits v = .ok el) :
    fieldToBits toB ceilBits el ≠ padBits ceilBits v := by
  intro he
  have h2 := (C46_field_to_bits hc ceilBits hp el).2.1
  rw [he, bitsVal_padBits] at h2
  omega

/-- C46. `pack_bit_vector_into_field_element_vector`: one element per chunk of `chunk_bits` bits, element `i`
denotes chunk `i`, the last one possibly shorter. -/
theorem C46_pack (hc : BigintCodec K p n toB ofB) (debug : Bool) (floorBits : Nat) (hf : floorBits ≤ 64 * n)
    (v : List Bool) (chunkBits : Nat) (h0 : 0 < chunkBits) (hcb : chunkBits ≤ floorBits) :
    packBitVector ofB n debug floorBits v chunkBits =
      .ok ((List.range ((v.length + (chunkBits - 1)) / chunkBits)).map fun i => (bitsVal (bitChunk chunkBits v i) : K)) := by
  rw [packBitVector, if_neg (by omega), if_neg (by omega), packLoop_spec hc _ (by omega)]
  congr 1
  apply List.map_congr_left
  intro i _
  rw [Nat.zero_add, map_getD_chunk]

/-- C46. Converting the packed elements back to bits gives the chunks, each padded to `ceil_size_in_bits()`. -/
theorem C46_pack_unpack (hc : BigintCodec K p n toB ofB) (debug : Bool) (floorBits ceilBits : Nat)
    (hf : floorBits ≤ 64 * n) (hp : 2 ^ floorBits ≤ p) (hfc : floorBits ≤ ceilBits)
    (v : List Bool) (chunkBits : Nat) (h0 : 0 < chunkBits) (hcb : chunkBits ≤ floorBits) :
    ∃ r, packBitVector ofB n debug floorBits v chunkBits = .ok r ∧
      r.length = (v.length + (chunkBits - 1)) / chunkBits ∧
      fieldVecToBits toB ceilBits r =
        (List.range r.length).flatMap fun i => padBits ceilBits (bitChunk chunkBits v i) := by
  refine ⟨_, C46_pack hc debug floorBits hf v chunkBits h0 hcb, by simp, ?_⟩
  have hgen : ∀ l : List Nat, fieldVecToBits toB ceilBits
      (l.map fun i => (bitsVal (bitChunk chunkBits v i) : K)) =
      l.flatMap fun i => padBits ceilBits (bitChunk chunkBits v i) := fun l => by
    induction l with
    | nil => rfl
    | cons i l ih =>
      rw [List.map_cons, fieldVecToBits, ih, List.flatMap_cons]
      congr 1
      rw [fieldToBits]
      have hlen : (bitChunk chunkBits v i).length ≤ floorBits := by simp [bitChunk]; omega
      simp only [testBit_eq, hc.to_val _ (C46_floor_bits floorBits hp _ hlen)]
      exact map_testBit_bitsVal _ _ (by omega)
  rw [hgen]
  simp

/-- C46. Taking `chunk_bits` bits of every packed element and dropping the padding at the end gives the vector
back. -/
theorem C46_pack_roundtrip (hc : BigintCodec K p n toB ofB) (debug : Bool) (floorBits ceilBits : Nat)
    (hf : floorBits ≤ 64 * n) (hp : 2 ^ floorBits ≤ p) (hpc : p ≤ 2 ^ ceilBits)
    (v : List Bool) (chunkBits : Nat) (h0 : 0 < chunkBits) (hcb : chunkBits ≤ floorBits) :
    ∃ r, packBitVector ofB n debug floorBits v chunkBits = .ok r ∧
      (r.flatMap fun el => fieldToBitsN toB ceilBits el chunkBits).take v.length = v := by
  refine ⟨_, C46_pack hc debug floorBits hf v chunkBits h0 hcb, ?_⟩
  have hfc : floorBits ≤ ceilBits := by
    by_contra hlt
    have := Nat.pow_lt_pow_right (a := 2) (by norm_num) (not_le.1 hlt)
    omega
  have hone : ∀ i, fieldToBitsN toB ceilBits (bitsVal (bitChunk chunkBits v i) : K) chunkBits =
      padBits chunkBits (bitChunk chunkBits v i) := fun i => by
    have hlen : (bitChunk chunkBits v i).length ≤ chunkBits := by simp [bitChunk]
    rw [fieldToBitsN, fieldToBits]
    simp only [testBit_eq, hc.to_val _ (C46_floor_bits floorBits hp (bitChunk chunkBits v i) (by omega))]
    rw [map_testBit_bitsVal _ _ (by omega)]
    simp only [padBits, List.length_append, List.length_replicate]
    rw [Nat.add_sub_cancel' (by omega), Nat.sub_eq_zero_of_le (by omega : chunkBits ≤ ceilBits),
      List.take_append, List.take_of_length_le hlen, List.take_replicate, List.replicate_zero, List.append_nil]
    congr 2
    omega
  set k := (v.length + (chunkBits - 1)) / chunkBits with hk
  have hkl : v.length ≤ k * chunkBits := by
    have := Nat.div_add_mod (v.length + (chunkBits - 1)) chunkBits
    have h2 := Nat.mod_lt (v.length + (chunkBits - 1)) h0
    rw [← hk, Nat.mul_comm] at this
    omega
  -- full chunks are not padded, and only the last one can be short
  have hmain : ∀ t, ((List.range t).flatMap fun i => padBits chunkBits (bitChunk chunkBits v i)) =
      padBits (t * chunkBits) (v.take (t * chunkBits)) := fun t => by
    induction t with
    | zero => simp [padBits]
    | succ t ih =>
      rw [List.range_succ, List.flatMap_append, ih, Nat.succ_mul, List.take_add]
      simp only [List.flatMap_cons, List.flatMap_nil, List.append_nil, padBits, bitChunk, List.length_append,
        List.length_take, List.length_drop]
      by_cases hl : t * chunkBits ≤ v.length
      · rw [Nat.min_eq_left hl, Nat.sub_self, List.replicate_zero, List.append_nil, List.append_assoc]
        congr 3
        omega
      · rw [Nat.min_eq_right (by omega), List.drop_eq_nil_of_le (by omega), List.take_nil, List.append_nil,
          List.nil_append, List.append_assoc, ← List.replicate_add]
        congr 2
        omega
  rw [List.flatMap_map]
  simp only [hone]
  rw [hmain, padBits, List.take_of_length_le (by omega : v.length ≤ k * chunkBits), List.take_left]

/-- C46. A chunk size above `floor_size_in_bits()` is rejected in the debug build, zero always. -/
theorem C46_pack_rejects (v : List Bool) (floorBits chunkBits : Nat) :
    (floorBits < chunkBits → packBitVector ofB n true floorBits v chunkBits = .abort) ∧
    (∀ debug, packBitVector ofB n debug floorBits v 0 = .abort) := by
  refine ⟨fun h => by rw [packBitVector, if_pos ⟨rfl, h⟩], fun debug => ?_⟩
  rw [packBitVector, if_neg (by omega), if_pos rfl]

/-- C46. `pack_int_vector_into_field_element_vector(v, w)` packs the `w` low bits of every word, least
significant first, like the bit vector packing with full chunks. -/
theorem C46_pack_int (hc : BigintCodec K p n toB ofB) (debug : Bool) (floorBits : Nat) (h0 : 0 < floorBits)
    (hf : floorBits ≤ 64 * n) (v : List (BitVec 64)) (w : Nat) (hw : w ≤ 64) :
    packIntVector ofB n floorBits v w =
      packBitVector ofB n debug floorBits (v.flatMap fun x => (List.range w).map fun i => x.getLsbD i) floorBits := by
  have hlen : ∀ v : List (BitVec 64), (v.flatMap fun x => (List.range w).map fun i => x.getLsbD i).length = v.length * w := by
    intro v
    induction v with
    | nil => simp
    | cons x v ih => rw [List.flatMap_cons, List.length_append, ih]; simp; ring
  have hget : ∀ (v : List (BitVec 64)) (k : Nat), 0 < w → ((v.getD (k / w) 0) >>> (k % w)).getLsbD 0 =
      (v.flatMap fun x => (List.range w).map fun i => x.getLsbD i).getD k false := by
    intro v
    induction v with
    | nil => intro k _; simp
    | cons x v ih =>
      intro k hw0
      rw [List.flatMap_cons]
      by_cases hk : k < w
      · rw [Nat.div_eq_of_lt hk, Nat.mod_eq_of_lt hk, List.getD_cons_zero, List.getD_append _ _ _ _ (by simpa using hk),
          List.getD_eq_getElem _ _ (by simpa using hk)]
        simp
      · have e : k = (k - w) + w := by omega
        have e1 : k / w = (k - w) / w + 1 := by
          conv_lhs => rw [e]
          rw [Nat.add_div_right _ hw0]
        have e2 : k % w = (k - w) % w := by
          conv_lhs => rw [e]
          rw [Nat.add_mod_right]
        rw [e1, e2, List.getD_cons_succ, ih _ hw0, List.getD_append_right _ _ _ _ (by simp; omega)]
        simp
  rw [packIntVector, packBitVector, if_neg (by omega), if_neg (by omega), if_neg (by omega), if_neg (by omega), hlen]
  by_cases hw0 : 0 < w
  · simp only [hget v _ hw0]
  · have : w = 0 := by omega
    subst this
    rw [Nat.mul_zero, Nat.zero_add, Nat.div_eq_of_lt (by omega)]
    rfl

end

/-- C46. `int_list_to_bits` writes `wordsize` bits per word, most significant bit first. -/
theorem C46_int_list (l : List (BitVec 64)) (wordsize : Nat) (hw : wordsize ≤ 64) :
    ∃ f : BitVec 64 → List Bool, intListToBits l wordsize = .ok (l.flatMap f) ∧
      ∀ x, (f x).length = wordsize ∧ bitsVal (f x).reverse = x.toNat % 2 ^ wordsize := by
  refine ⟨_, by rw [intListToBits, if_neg (by omega)], fun x => ⟨by simp, ?_⟩⟩
  apply Nat.eq_of_testBit_eq
  intro i
  rw [bitsVal_testBit, Nat.testBit_mod_two_pow]
  by_cases hi : i < wordsize
  · rw [List.getD_eq_getElem _ _ (by simpa using hi), List.getElem_reverse, List.getElem_map, List.getElem_range]
    simp only [List.length_map, List.length_range, hi, decide_true, Bool.true_and]
    rw [show wordsize - 1 - (wordsize - 1 - i) = i by omega]
    have h := and_shiftLeft_one_ne_zero x i (by omega)
    simp only [h]
  · rw [List.getD_eq_default _ _ (by simpa using hi)]
    simp [hi]

/-! ## Concrete cases -/

/-- The hypotheses are met by the 2-limb field `p = 2^127 - 1` (127 = ceil, 126 = floor). -/
example : m127.p ≤ 2 ^ 127 ∧ 2 ^ 126 ≤ m127.p ∧ (126 : Nat) ≤ 64 * m127.n := by decide +kernel

example : packBitVector (fpOfB (P := m127)) 2 true 126 [true, true, false, true, true] 2 = .ok [3, 2, 1] := by
  decide +kernel

example : fieldVecToBits (fpToB (P := m127)) 3 [3, 2, 1] =
    [true, true, false, false, true, false, true, false, false] := by decide +kernel

example : intListToBits [6, 1] 3 = .ok [true, true, false, false, false, true] := by decide +kernel

example : bitsToField true 127 [false, true, true] = .ok (6 : Fp m127) := by decide +kernel

/-- The modulus itself, as 127 set bits, reads as zero. -/
example : bitsToField true 127 (List.replicate 127 true) = .ok (0 : Fp m127) ∧
    m127.p ≤ bitsVal (List.replicate 127 true) := by decide +kernel

end Libff
