import Verif.Lemmas.Stream
import Verif.Lemmas.Random
import Verif.Props.Fp

/-! # C12–C14: serialization, word vectors and randomness of prime field elements -/
namespace Libff

/-! ## C12 -/

/-- C12. Writing an element and reading it back restores it and consumes exactly what was written, in
all four build configurations (`MONTGOMERY_OUTPUT` on/off × `BINARY_OUTPUT` on/off). -/
theorem C12_roundtrip (P : FpParams) (hP : P.Valid) (mont binary : Bool) (a : List Limb)
    (x : ZMod P.p) (ha : Represents P a x) (rest : List Byte) (hr : ContOk binary rest) :
    ∃ out, fpWrite mont binary P a = .ok out ∧ fpRead mont binary P (out ++ rest) = .ok (a, rest) := by
  unfold fpWrite fpRead bigintRepr
  cases mont with
  | true =>
    refine ⟨_, rfl, ?_⟩
    have := bigintRead_write binary a rest hr
    rw [ha.len] at this
    rw [this]; rfl
  | false =>
    simp only [Bool.false_eq_true, if_false]
    obtain ⟨b, h1, h2, h3, h4⟩ := C05_as_bigint P hP a x ha
    rw [h1]
    refine ⟨_, rfl, ?_⟩
    have := bigintRead_write binary b rest hr
    rw [h2] at this
    rw [this, Outcome.bind_ok]
    obtain ⟨r, h5, h6⟩ := Represents.mulReduce_raw hP (a := b) (b := P.Rsquared) (z := x) h2 hP.r2len
      (lt_pR hP h2 hP.r2_lt) (by rw [h4, hP.r2_cast]; ring)
    rw [h5, Outcome.map_ok, h6.inj ha]

/-- C12. In the plain format the written number is the residue itself. -/
theorem C12_plain_text (P : FpParams) (hP : P.Valid) (a : List Limb) (x : ZMod P.p)
    (ha : Represents P a x) : fpWrite false false P a = .ok (writeNat x.val) := by
  obtain ⟨b, h1, h2, h3, h4⟩ := C05_as_bigint P hP a x ha
  have : NeZero P.p := hP.neZero
  rw [fpWrite, bigintRepr]
  simp only [Bool.false_eq_true, if_false]
  rw [h1, Outcome.map_ok, bigintWrite]
  simp only [Bool.false_eq_true, if_false]
  rw [bigintToMpz_eq, ← h4, ZMod.val_natCast_of_lt h3]

example : ∃ out, fpWrite false false m127 (limbsOf 2 6) = .ok out ∧
    fpRead false false m127 (out ++ [10]) = .ok (limbsOf 2 6, [10]) :=
  C12_roundtrip m127 (by decide) false false _ _ m127_repr3 [10] (Or.inr (by decide))

/-! ## C13 -/

theorem fromWordsInt_spec (n bits : Nat) (words : List Limb) (hb1 : 64 * (n - 1) < bits)
    (hb2 : bits ≤ 64 * n) (hn : 0 < n) (hw : bits ≤ 64 * words.length) :
    ∃ d, fromWordsInt n bits words = .ok d ∧ d.length = n ∧
      val d = val (words.drop (words.length - n)) % 2 ^ bits := by
  unfold fromWordsInt
  rw [if_neg (by omega)]
  simp only
  have hsw : (words.length * 64 - bits) / 64 = words.length - n := by omega
  have hoff : (words.length * 64 - bits) % 64 = 64 * n - bits := by omega
  rw [hsw, hoff]
  have hdl : (words.drop (words.length - n)).length = n := by simp; omega
  generalize words.drop (words.length - n) = d at hdl ⊢
  rw [if_pos ⟨hdl, hn⟩]
  refine ⟨_, rfl, by simp [hdl], ?_⟩
  apply Nat.eq_of_testBit_eq
  intro j
  rw [testBit_val, Nat.testBit_mod_two_pow, testBit_val]
  by_cases hj : j / 64 = n - 1
  · rw [hj, List.getD_eq_getElem?_getD, List.getElem?_set_self (by omega), Option.getD_some]
    rw [BitVec.testBit_toNat, BitVec.testBit_toNat, BitVec.getLsbD_ushiftRight,
      BitVec.getLsbD_shiftLeft]
    have e1 : ¬ (64 * n - bits + j % 64 < 64 * n - bits) := by omega
    have e2 : 64 * n - bits + j % 64 - (64 * n - bits) = j % 64 := by omega
    rw [e2]
    by_cases hjb : j < bits
    · have : 64 * n - bits + j % 64 < 64 := by omega
      simp [this, hjb]
    · have : ¬ (64 * n - bits + j % 64 < 64) := by omega
      simp [this, hjb]
  · rw [List.getD_eq_getElem?_getD, List.getElem?_set_ne (fun h => hj h.symm),
      ← List.getD_eq_getElem?_getD]
    by_cases hjb : j < bits
    · simp [hjb]
    · have : n ≤ j / 64 := by omega
      rw [List.getD_eq_getElem?_getD, List.getElem?_eq_none (by omega)]
      simp

/-- `ceil_size_in_bits()` of the modulus: its bit length, which needs all `n` limbs. -/
structure BitSize (P : FpParams) (bits : Nat) : Prop where
  lo : 2 ^ (bits - 1) ≤ P.p
  hi : P.p < 2 ^ bits
  limbs : 64 * (P.n - 1) < bits ∧ bits ≤ 64 * P.n

/-- C13. `from_words(to_words(x))` restores `x` and returns true. -/
theorem C13_roundtrip (P : FpParams) (hP : P.Valid) (mont : Bool) (bits : Nat) (hb : BitSize P bits)
    (a : List Limb) (x : ZMod P.p) (ha : Represents P a x) :
    (toWords mont P a).bind (fromWords mont P bits) = .ok (a, true) := by
  have key : ∀ b : List Limb, b.length = P.n → val b < P.p → fromWordsInt P.n bits b = .ok b := by
    intro b hbl hbv
    obtain ⟨d, h1, h2, h3⟩ := fromWordsInt_spec P.n bits b hb.limbs.1 hb.limbs.2 hP.n_pos
      (by rw [hbl]; exact hb.limbs.2)
    rw [h1]
    congr 1
    apply val_inj (by rw [h2, hbl])
    rw [h3, hbl, Nat.sub_self, List.drop_zero, Nat.mod_eq_of_lt (lt_trans hbv hb.hi)]
  have hlt : bigintLt a P.modulus = true := by
    rw [bigintLt, mpn_cmp_spec a P.modulus (by rw [ha.len, hP.len]), isEq_compare]
    simpa using ha.lt
  unfold toWords bigintRepr fromWords
  cases mont with
  | true =>
    simp only [if_true, Outcome.bind_ok]
    rw [key a ha.len ha.lt, Outcome.bind_ok, hlt]
  | false =>
    simp only [Bool.false_eq_true, if_false]
    obtain ⟨b, h1, h2, h3, h4⟩ := C05_as_bigint P hP a x ha
    rw [h1, Outcome.bind_ok, key b h2 h3, Outcome.bind_ok]
    obtain ⟨r, h5, h6⟩ := Represents.mulReduce_raw hP (a := b) (b := P.Rsquared) (z := x) h2 hP.r2len
      (lt_pR hP h2 hP.r2_lt) (by rw [h4, hP.r2_cast]; ring)
    rw [h5, Outcome.map_ok, h6.inj ha, hlt]

/-- C13, value part (plain format): the last `n` words, truncated to `bits` bits, denote an integer `v`;
the stored element represents `v mod p`. -/
theorem C13_from_words_value (P : FpParams) (hP : P.Valid) (bits : Nat) (hb : BitSize P bits)
    (words : List Limb) (hw : bits ≤ 64 * words.length) :
    ∃ r flag, fromWords false P bits words = .ok (r, flag) ∧
      Represents P r ((val (words.drop (words.length - P.n)) % 2 ^ bits : ℕ) : ZMod P.p) := by
  obtain ⟨d, h1, h2, h3⟩ := fromWordsInt_spec P.n bits words hb.limbs.1 hb.limbs.2 hP.n_pos hw
  obtain ⟨r, h5, h6⟩ := Represents.mulReduce_raw hP (a := d) (b := P.Rsquared) (z := (val d : ZMod P.p))
    h2 hP.r2len (lt_pR hP h2 hP.r2_lt) (by rw [hP.r2_cast]; ring)
  refine ⟨r, bigintLt r P.modulus, ?_, by rw [← h3]; exact h6⟩
  rw [fromWords, h1, Outcome.bind_ok]
  simp [h5]

/-- C13, flag part, `MONTGOMERY_OUTPUT` builds only (partial: in the default build the claim is false,
see `C13_flag_default_build_wrong`): the flag is true exactly when the truncated integer is below the
modulus, and the integer is stored unchanged. -/
theorem C13_flag_partial (P : FpParams) (hP : P.Valid) (bits : Nat) (hb : BitSize P bits)
    (words : List Limb) (hw : bits ≤ 64 * words.length) :
    ∃ r flag, fromWords true P bits words = .ok (r, flag) ∧ r.length = P.n ∧
      val r = val (words.drop (words.length - P.n)) % 2 ^ bits ∧
      (flag = true ↔ val (words.drop (words.length - P.n)) % 2 ^ bits < P.p) := by
  obtain ⟨d, h1, h2, h3⟩ := fromWordsInt_spec P.n bits words hb.limbs.1 hb.limbs.2 hP.n_pos hw
  refine ⟨d, bigintLt d P.modulus, ?_, h2, h3, ?_⟩
  · rw [fromWords, h1, Outcome.bind_ok]; simp
  · rw [bigintLt, mpn_cmp_spec d P.modulus (by rw [h2, hP.len]), isEq_compare, ← h3]
    simp

/-- C13, violation: in the default build (no `MONTGOMERY_OUTPUT`) the flag is computed after the
reduction and is true for *every* input, also when the encoded integer is not below the modulus. -/
theorem C13_flag_default_build_wrong (P : FpParams) (hP : P.Valid) (bits : Nat) (hb : BitSize P bits)
    (words : List Limb) (hw : bits ≤ 64 * words.length) :
    ∃ r, fromWords false P bits words = .ok (r, true) := by
  obtain ⟨d, h1, h2, h3⟩ := fromWordsInt_spec P.n bits words hb.limbs.1 hb.limbs.2 hP.n_pos hw
  obtain ⟨r, h5, h6⟩ := Represents.mulReduce_raw hP (a := d) (b := P.Rsquared) (z := (val d : ZMod P.p))
    h2 hP.r2len (lt_pR hP h2 hP.r2_lt) (by rw [hP.r2_cast]; ring)
  refine ⟨r, ?_⟩
  rw [fromWords, h1, Outcome.bind_ok]
  simp only [Bool.false_eq_true, if_false, h5, Outcome.map_ok]
  rw [bigintLt, mpn_cmp_spec r P.modulus (by rw [h6.len, hP.len]), isEq_compare]
  have := h6.lt
  simpa using this

theorem m127_bits : BitSize m127 127 := ⟨by decide +kernel, by decide +kernel, by decide⟩

/-- Concrete violation: the words of `p` itself (not below the modulus) are accepted. -/
example : fromWords false m127 127 m127.modulus = .ok (limbsOf 2 0, true) ∧
    val m127.modulus % 2 ^ 127 = m127.p := by decide +kernel

example : BitSize m127 127 ∧ 127 ≤ 64 * [1, 2, 3].length := ⟨m127_bits, by decide⟩

/-! ## C14 -/

theorem maskLoop_params (P : FpParams) (hP : P.Valid) (bits : Nat) (hb : BitSize P bits) (w : List Limb)
    (hw : w.length = P.n) :
    ∃ m, maskLoop P.modulus (64 * P.n) w = .ok m ∧ m.length = P.n ∧ val m = val w % 2 ^ bits := by
  obtain ⟨B, rfl⟩ : ∃ B, bits = B + 1 := ⟨bits - 1, by have := hb.limbs.1; omega⟩
  have hl := hb.limbs
  have hlen := hP.len
  obtain ⟨m, h1, h2, h3⟩ := maskLoop_spec P.modulus B (by omega) hb.lo hb.hi (64 * P.n) (by omega) w
    (by omega) (by have := val_lt w; rwa [hw] at this)
  exact ⟨m, h1, by omega, h3⟩

/-- C14. The loop never fails, and whenever it returns, the stored value is below the modulus. -/
theorem C14_canonical (P : FpParams) (hP : P.Valid) (bits : Nat) (hb : BitSize P bits)
    (tape : List (List Limb)) (htape : ∀ w ∈ tape, w.length = P.n) :
    randomLoop P tape = .ok none ∨
      ∃ r rest, randomLoop P tape = .ok (some (r, rest)) ∧ r.length = P.n ∧ val r < P.p := by
  induction tape with
  | nil => left; rfl
  | cons w tape ih =>
    obtain ⟨m, h1, h2, h3⟩ := maskLoop_params P hP bits hb w (htape w (by simp))
    rw [randomLoop, h1, Outcome.bind_ok, mpn_cmp_spec m P.modulus (by rw [h2, hP.len]), isGE_compare]
    by_cases h : P.p ≤ val m
    · rw [if_pos (by simpa using h)]
      exact ih (fun w hw => htape w (by simp [hw]))
    · rw [if_neg (by simpa using h)]
      exact Or.inr ⟨m, tape, rfl, h2, by omega⟩

/-- C14. Every canonical value is reachable in one step. -/
theorem C14_reachable (P : FpParams) (hP : P.Valid) (bits : Nat) (hb : BitSize P bits) (r : List Limb)
    (hr : r.length = P.n) (hlt : val r < P.p) (tape : List (List Limb)) :
    randomLoop P (r :: tape) = .ok (some (r, tape)) := by
  obtain ⟨m, h1, h2, h3⟩ := maskLoop_params P hP bits hb r hr
  have : m = r := by
    apply val_inj (by rw [h2, hr])
    rw [h3, Nat.mod_eq_of_lt (lt_trans hlt hb.hi)]
  subst this
  rw [randomLoop, h1, Outcome.bind_ok, mpn_cmp_spec m P.modulus (by rw [h2, hP.len]), isGE_compare,
    if_neg (by simpa using hlt)]

/-- C14. Among all `2^(64 n)` limb vectors of one `randomize()` call, each canonical value is produced
by exactly the same number of vectors, `2^(64 n - bits)`: no bias. -/
theorem C14_unbiased (P : FpParams) (hP : P.Valid) (bits : Nat) (hb : BitSize P bits) (r : List Limb)
    (hr : r.length = P.n) (hlt : val r < P.p) :
    ((Finset.range (2 ^ (64 * P.n))).filter
        (fun w => randomLoop P [limbsOf P.n w] = .ok (some (r, [])))).card
      = 2 ^ (64 * P.n - bits) := by
  rw [← card_mod_eq (64 * P.n) bits (val r) hb.limbs.2 (lt_trans hlt hb.hi)]
  congr 1
  apply Finset.filter_congr
  intro w hw
  rw [Finset.mem_range] at hw
  obtain ⟨m, h1, h2, h3⟩ := maskLoop_params P hP bits hb (limbsOf P.n w) (by simp)
  rw [val_limbsOf, Nat.mod_eq_of_lt hw] at h3
  rw [randomLoop, h1, Outcome.bind_ok, mpn_cmp_spec m P.modulus (by rw [h2, hP.len]), isGE_compare]
  have hrv : m = r ↔ val m = val r :=
    ⟨fun h => by rw [h], fun h => val_inj (by rw [h2, hr]) h⟩
  by_cases h : P.p ≤ val m
  · rw [if_pos (by simpa using h)]
    simp only [randomLoop]
    rw [← h3]
    constructor
    · intro h'; simp at h'
    · intro h'; omega
  · rw [if_neg (by simpa using h), ← h3, ← hrv]
    simp

/-- C14. `SHA512_rng`: whenever it returns, the result is the canonical stored form of a value. -/
theorem C14_sha512_canonical (P : FpParams) (hP : P.Valid) (bits : Nat) (hb : BitSize P bits)
    (hash : Nat → BitVec 64 → List Limb) (hhash : ∀ i j, (hash i j).length = 8)
    (hbits : bits ≤ 512) (idx fuel : Nat) (iter : BitVec 64) :
    sha512Rng P hash bits idx fuel iter = .ok none ∨
      ∃ r x, sha512Rng P hash bits idx fuel iter = .ok (some r) ∧ Represents P r x := by
  induction fuel generalizing iter with
  | zero => left; rfl
  | succ fuel ih =>
    have hn : P.n ≤ 8 := by have := hb.limbs.1; omega
    obtain ⟨m, h1, h2, h3⟩ := maskLoop_params P hP bits hb ((hash idx iter).take P.n)
      (by simp [hhash]; omega)
    rw [sha512Rng, if_neg (by omega), if_neg (by omega), h1, Outcome.bind_ok,
      mpn_cmp_spec m P.modulus (by rw [h2, hP.len]), isGE_compare]
    by_cases h : P.p ≤ val m
    · rw [if_pos (by simpa using h)]; exact ih _
    · rw [if_neg (by simpa using h)]
      obtain ⟨r, h5, h6⟩ := C05_of_bigint P hP m h2
      exact Or.inr ⟨r, _, by rw [h5, Outcome.map_ok], h6⟩

example : randomLoop m127 [m127.modulus, limbsOf 2 (2 ^ 127 + 5), []] =
    .ok (some (limbsOf 2 5, [[]])) := by decide +kernel

end Libff
