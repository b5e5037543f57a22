import Verif.Lemmas.Release
import Verif.Lemmas.ReleaseZero
import Verif.Lemmas.Witness
import Verif.Model.Binary
import Verif.Props.Fp
import Verif.Props.Nondegenerate

/-!
# C72: builds without assertions

`AssertOnly d r` (`Verif/Spec/Release.lean`): whatever value a build with assertions returns, a build without them
(`PERFORMANCE=ON`, `NDEBUG`) returns too. The findings at the end show what a build without assertions does where an
assertion would have failed.
-/
namespace Libff
open scoped Libff.Witness

/-! ## Prime fields -/

/-- **C72.** The operations of the prime field classes, for arbitrary (also inconsistent) parameters and arbitrary operands. -/
theorem C72_fp_ops (P : FpParams) (a b : List Limb) (x : BitVec 64) (u : Bool) (gx : Gcdext) :
    AssertOnly (addAssign P a b) (.ok (addAssignR P a b)) ∧ AssertOnly (subAssign P a b) (.ok (subAssignR P a b)) ∧
    AssertOnly (mulReduce P a b) (.ok (mulReduceR P a b)) ∧ AssertOnly (invertRepr P gx a) (invertReprR P gx a) ∧
    AssertOnly (fpOfLong P x u) (fpOfLongR P x u) ∧ AssertOnly (fpOfBigint P a) (.ok (fpOfBigintR P a)) ∧
    AssertOnly (fpAsBigint P a) (.ok (fpAsBigintR P a)) :=
  ⟨addAssign_assertOnly _ _ _, subAssign_assertOnly _ _ _, mulReduce_assertOnly _ _ _, invertRepr_assertOnly _ _ _,
    fpOfLong_assertOnly _ _ _, mulReduce_assertOnly _ _ _, mulReduce_assertOnly _ _ _⟩

/-- **C72.** Without assertions the prime field classes compute in the integers modulo `p`: the assertions never decide a
result on objects the API can produce. -/
theorem C72_fp_residues (P : FpParams) (hP : P.Valid) (a b : List Limb) (x y : ZMod P.p) (ha : Represents P a x)
    (hb : Represents P b y) :
    Represents P (addAssignR P a b) (x + y) ∧ Represents P (subAssignR P a b) (x - y) ∧
    Represents P (mulReduceR P a b) (x * y) ∧ (val (fpAsBigintR P a) < P.p ∧ (val (fpAsBigintR P a) : ZMod P.p) = x) := by
  obtain ⟨⟨r, h1, h2⟩, ⟨s, h3, h4⟩, -⟩ := C01_residues P hP a b x y ha hb
  obtain ⟨t, h5, h6⟩ := C02_mul_exact P hP a b x y ha hb
  obtain ⟨v, h7, -, h8, h9⟩ := C05_as_bigint P hP a x ha
  rw [Outcome.ok.inj (addAssign_assertOnly P a b r h1), Outcome.ok.inj (subAssign_assertOnly P a b s h3),
    Outcome.ok.inj (mulReduce_assertOnly P a b t h5), show fpAsBigintR P a = v from Outcome.ok.inj (mulReduce_assertOnly _ _ _ v h7)]
  exact ⟨h2, h4, h6, h8, h9⟩

example : m127.Valid ∧ Represents m127 (limbsOf 2 6) 3 := ⟨by decide +kernel, m127_repr3⟩

/-- **C72.** Without assertions a non-zero element is inverted, for every gcd routine that meets its contract. -/
theorem C72_fp_inverse (P : FpParams) (hP : P.Valid) (hp : P.p.Prime) (gx : Gcdext) (hgx : gx.Contract) (a : List Limb)
    (x : ZMod P.p) (ha : Represents P a x) (hx : x ≠ 0) : ∃ r y, invertReprR P gx a = .ok r ∧ Represents P r y ∧ x * y = 1 := by
  obtain ⟨r, y, h1, h2, h3⟩ := C03_inverse_exact P hP hp gx hgx a x ha hx
  exact ⟨r, y, invertRepr_assertOnly P gx a r h1, h2, h3⟩

/-- **C72.** Reading a prime field element from words. -/
theorem C72_from_words (mont : Bool) (P : FpParams) (bits : Nat) (w : List Limb) :
    AssertOnly (fromWords mont P bits w) (fromWordsR mont P bits w) := fromWords_assertOnly mont P bits w

/-- **C72.** `bigint` from a GMP integer and from a decimal string. -/
theorem C72_bigint (n k : Nat) (s : List (BitVec 8)) :
    AssertOnly (bigintOfMpz n k) (.ok (bigintOfMpzR n k)) ∧ AssertOnly (bigintOfString n s) (bigintOfStringR n s) :=
  ⟨bigintOfMpz_assertOnly n k, (digitVals_assertOnly s).bind fun _ => .refl _⟩

/-! ## Other fields -/

/-- **C72.** The inverses of the binary fields. -/
theorem C72_gf_inverse (a : GF32) (b : GF64) (c : GF128) (d : GF192) (e : GF256) :
    AssertOnly (GF32.inverse true a) (GF32.inverse false a) ∧ AssertOnly (GF64.inverse true b) (GF64.inverse false b) ∧
    AssertOnly (GF128.inverse true c) (GF128.inverse false c) ∧ AssertOnly (GF192.inverse true d) (GF192.inverse false d) ∧
    AssertOnly (GF256.inverse true e) (GF256.inverse false e) := by
  refine ⟨?_, ?_, ?_, ?_, ?_⟩ <;>
    simp only [GF32.inverse, GF64.inverse, GF128.inverse, GF192.inverse, GF256.inverse, Bool.false_eq_true, false_and, if_false] <;>
    exact .guard (.refl _)

/-- **C72.** The sparse products of the extension fields. -/
theorem C72_sparse {K : Type*} [Add K] [Sub K] [Mul K] [Zero K] [DecidableEq K] {β γ : K} (x y : Fp4 K β γ) (z w : Fp6_2over3 K β γ) :
    AssertOnly (x.mulBy023 y) (.ok (x.mulBy023R y)) ∧ AssertOnly (z.mulBy2345 w) (.ok (z.mulBy2345R w)) := by
  unfold Fp4.mulBy023 Fp6_2over3.mulBy2345
  exact ⟨.guard (.refl _), .guard (.guard (.refl _))⟩

/-- **C72.** Square roots: neither the three assertions at the start nor the check of Euler's criterion, compiled with `DEBUG`,
changes a result. -/
theorem C72_sqrt {K : Type*} [DecidableEq K] [Mul K] [One K] [Zero K] (sq : K → K) (C : SqrtConsts K) (fuel : Nat) (v : K) :
    AssertOnly (tonelliShanks true sq C fuel v) (tonelliShanks false sq C fuel v) ∧
    AssertOnly (tonelliShanks false sq C fuel v) (.ok (tonelliShanksR sq C fuel v)) := by
  unfold tonelliShanks tonelliShanksR
  simp only [Bool.false_eq_true, false_and, if_false]
  refine ⟨.ite (fun _ => .refl _) fun _ => .ite (fun _ => .refl _) fun _ => .ite (fun _ => .refl _) fun _ =>
    .ite (fun _ => .refl _) fun _ => .guard (.refl _), .guard (.guard (.guard ?_))⟩
  by_cases h : v = 0
  · rw [if_pos h, if_pos h]; exact .refl _
  · rw [if_neg h, if_neg h]; exact .refl _

/-- **C72.** Batch inversion and the conversions between bits and field elements. -/
theorem C72_field_utils {K : Type*} [Zero K] [One K] [Add K] [Mul K] [InverseO K] [DecidableEq K] (ofB : List Limb → K)
    (n size : Nat) (v : List K) (bits : List Bool) (chunk : Nat) :
    AssertOnly (batchInvert true v) (batchInvert false v) ∧
    AssertOnly (packBitVector ofB n true size bits chunk) (packBitVector ofB n false size bits chunk) ∧
    AssertOnly (bitsToField true size bits : Outcome K) (bitsToField false size bits) := by
  refine ⟨batchInvert_assertOnly v, ?_, ?_⟩
  · simp only [packBitVector, Bool.false_eq_true, false_and, if_false]
    exact .guard (.refl _)
  · simp only [bitsToField, Bool.false_eq_true, false_and, if_false]
    exact .guard (.refl _)

/-! ## Groups -/

section
variable {K : Type*} [Zero K] [One K] [Add K] [Sub K] [Mul K] [DecidableEq K] [Squared K] [InverseO K]

/-- **C72.** Mixed addition and batch normalisation in the three coordinate systems, and `to_special` of edwards. -/
theorem C72_group (mulA mulD : K → K) (p q : Coord3 K) (v : List (Coord3 K)) :
    AssertOnly (Jac.mixedAdd true p q) (Jac.mixedAdd false p q) ∧
    AssertOnly (Proj.mixedAdd mulA true p q) (Proj.mixedAdd mulA false p q) ∧
    AssertOnly (Edw.mixedAdd mulA mulD true p q) (Edw.mixedAdd mulA mulD false p q) ∧
    AssertOnly (Edw.toSpecial true p) (Edw.toSpecial false p) ∧
    AssertOnly (Jac.batchToSpecialNZ true v) (Jac.batchToSpecialNZ false v) ∧
    AssertOnly (Proj.batchToSpecialNZ true v) (Proj.batchToSpecialNZ false v) ∧
    AssertOnly (Edw.batchToSpecialNZ true v) (Edw.batchToSpecialNZ false v) := by
  refine ⟨?_, ?_, ?_, ?_, (batchInvert_assertOnly _).map _, (batchInvert_assertOnly _).map _, (batchInvert_assertOnly _).map _⟩
  · simp only [Jac.mixedAdd, Bool.false_and, Bool.false_eq_true, if_false]
    exact .guard (.refl _)
  · simp only [Proj.mixedAdd, Bool.false_and, Bool.false_eq_true, if_false]
    exact .ite (fun _ => .refl _) fun _ => .ite (fun _ => .refl _) fun _ => .guard (.refl _)
  · simp only [Edw.mixedAdd, Bool.false_and, Bool.false_eq_true, if_false]
    exact .ite (fun _ => .refl _) fun _ => .ite (fun _ => .refl _) fun _ => .guard (.refl _)
  · simp only [Edw.toSpecial, Bool.false_and, Bool.false_eq_true, if_false]
    exact .ite (fun _ => .refl _) fun _ => .bind (.refl _) fun _ => .guard (.refl _)

end

/-- **C72.** Reading an edwards point, with and without `USE_MIXED_ADDITION`. -/
theorem C72_edwards_read {K : Type} [Zero K] [One K] [Add K] [Sub K] [Neg K] [Mul K] [DecidableEq K] [Squared K] [InverseO K]
    (binary compress mixed : Bool) (c : FieldCodec K) (lsb : K → Outcome Bool) (sqrt : K → Outcome K) (mulA mulD : K → K)
    (s : List Byte) :
    AssertOnly (Edw.read binary compress c lsb sqrt true mixed mulA mulD s)
      (Edw.read binary compress c lsb sqrt false mixed mulA mulD s) := by
  unfold Edw.read
  refine .bind (.refl _) fun r => .ite (fun _ => ?_) fun _ => .refl _
  exact ((C72_group (fun x : K => x) (fun x => x) _ Edw.zero []).2.2.2.1 : AssertOnly (Edw.toSpecial true _) _).map _

/-- **C72.** bn128: mixed addition, batch inversion and normalisation, square roots. -/
theorem C72_bn128 {K : Type} [Field K] [DecidableEq K] (E : Bn128.EcOps K) (p q : Coord3 K) (v : List K) (ps : List (Coord3 K))
    (s tm fuel : Nat) (z el : K) :
    AssertOnly (Bn128.mixedAdd E true p q) (Bn128.mixedAdd E false p q) ∧
    AssertOnly (Bn128.batchInvert true v) (Bn128.batchInvert false v) ∧
    AssertOnly (Bn128.batchToSpecialNZ true ps) (Bn128.batchToSpecialNZ false ps) ∧
    AssertOnly (Bn128.sqrt true s tm z fuel el) (Bn128.sqrt false s tm z fuel el) := by
  refine ⟨?_, (bn128_batchProducts_assertOnly _ _).map _, ((bn128_batchProducts_assertOnly _ _).map _).map _, ?_⟩
  · simp only [Bn128.mixedAdd, Bool.false_and, Bool.false_eq_true, if_false]
    exact .ite (fun _ => .refl _) fun _ => .ite (fun _ => .refl _) fun _ => .guard (.refl _)
  · simp only [Bn128.sqrt, Bool.false_eq_true, false_and, if_false]
    exact .guard (.refl _)

/-- **C72.** Multi-exponentiation and the inner product. -/
theorem C72_multiexp {G S : Type*} [GroupOps G] [Zero S] [One S] [DecidableEq S] (toB : S → List Limb) (table : List Nat)
    (gs : List G) (ss : List S) (addB : G → G → Outcome G) (inner : List G → List S → Outcome G) (order : List Nat)
    (chunks : Nat) :
    AssertOnly (multiExpNaive toB true table gs ss) (multiExpNaive toB false table gs ss) ∧
    AssertOnly (multiExpPlain toB true gs ss) (multiExpPlain toB false gs ss) ∧
    AssertOnly (multiExpMixed true addB inner order gs ss chunks) (multiExpMixed false addB inner order gs ss chunks) := by
  refine ⟨naiveLoop_assertOnly _ _ _ _, naiveLoop_assertOnly _ _ _ _, ?_⟩
  simp only [multiExpMixed, Bool.false_eq_true, false_and, if_false]
  exact .guard (.refl _)

/-- **C72.** The inner product. -/
theorem C72_inner_product {K : Type*} [Zero K] [Add K] [Mul K] (a b : List K) :
    AssertOnly (innerProduct true a b 0) (innerProduct false a b 0) := innerProduct_assertOnly a b 0

/-- **C72.** Multi-exponentiation under OpenMP, for every distribution of the iterations to threads and every interleaving: a
value a build with assertions can return is one a build without can return, and then both can return the same. -/
theorem C72_multiexp_multicore {G S : Type} [GroupOps G] [Zero S] [One S] [DecidableEq S] (addB : G → G → Outcome G)
    (inner : List G → List S → Outcome G) (adds : List G → List S → Nat) (asg : List (List Nat)) (gs : List G) (ss : List S)
    (chunks : Nat) (x : G) (h : MultiExpMixedMulticore true addB inner adds asg gs ss chunks (.ok x)) (o : Outcome G) :
    MultiExpMixedMulticore true addB inner adds asg gs ss chunks o ↔ MultiExpMixedMulticore false addB inner adds asg gs ss chunks o := by
  by_cases hl : gs.length = ss.length
  · simp [MultiExpMixedMulticore, hl]
  · simp [MultiExpMixedMulticore, hl] at h

/-! ## Pairing, streams, utilities -/

/-- **C72.** The precomputation of alt_bn128, for arbitrary parameters. -/
theorem C72_bn_precompute {K : Type*} [Add K] [Sub K] [Mul K] [Neg K] [Zero K] [One K] [DecidableEq K] [Squared K] [InverseO K]
    {β : K} {ξ : Fp2 K β} (A : Ate12 K β ξ) (Q : Coord3 (Fp2 K β)) :
    AssertOnly (A.bnPrecomputeG2 Q) (A.bnPrecomputeG2R Q) := by
  unfold Ate12.bnPrecomputeG2 Ate12.bnPrecomputeG2R
  exact .bind (.refl _) fun Qc => .bind (.refl _) fun s => .guard (.guard (.refl _))

/-- **C72.** `input_bool` and `input_bool_vector`. -/
theorem C72_input_bool (s : List Byte) :
    AssertOnly (inputBool true s) (inputBool false s) ∧ AssertOnly (inputBoolVector true s) (inputBoolVector false s) :=
  ⟨inputBool_assertOnly s, .bind (.refl _) fun _ => .bind (.refl _) fun _ => readList_assertOnly inputBool_assertOnly _ _ _⟩

/-- **C72.** `to_twos_complement` and `from_twos_complement`. -/
theorem C72_twos_complement (i : Int) (k : BitVec 64) (w : Nat) :
    AssertOnly (toTwosComplement i w) (toTwosComplementR i w) ∧ AssertOnly (fromTwosComplement k w) (fromTwosComplementR k w) :=
  ⟨toTwosComplement_assertOnly i w, fromTwosComplement_assertOnly k w⟩

/-- **C72.** `SHA512_rng`. -/
theorem C72_sha512_rng (P : FpParams) (hash : Nat → BitVec 64 → List Limb) (bits idx fuel : Nat) :
    AssertOnly (sha512Rng P hash bits idx fuel 0) (sha512RngR P hash idx fuel 0) := sha512Rng_assertOnly P hash bits idx fuel 0

/-- **C72.** Leaving a profiling block. -/
theorem C72_leave_block (B : Prof.Build) (msg : String) (indent : Bool) (r : Prof.Reading) (s : Prof.State) :
    AssertOnly (Prof.leaveBlock { B with ndebug := false } msg indent r s) (Prof.leaveBlock { B with ndebug := true } msg indent r s) := by
  unfold Prof.leaveBlock
  refine .ite (fun _ => .refl _) fun _ => ?_
  cases s.blockNames with
  | nil => exact .refl _
  | cons t rest =>
    simp only [Bool.not_true, Bool.and_false, Bool.false_and, Bool.false_eq_true, if_false]
    exact .guard (.refl _)

/-! ## Findings: where the assertion is all that protects the caller -/

/-- C72, finding: `Fp(x)` for `x < −p` returns the residue of `x + 2^(64n)` instead of that of `x`. -/
theorem C72_of_long_wraps (P : FpParams) (hP : P.Valid) (x : BitVec 64) (h1 : -(2 : Int) ^ 63 < x.toInt)
    (h2 : x.toInt < -(P.p : Int)) : fpOfLong P x false = .abort ∧
      ∃ r, fpOfLongR P x false = .ok r ∧ Represents P r ((x.toInt + 2 ^ (64 * P.n) : Int) : ZMod P.p) := by
  refine ⟨C05_of_long_below P x h1 h2, ?_⟩
  have hm : x.msb = true := by
    by_contra hm
    have := BitVec.toInt_eq_msb_cond x
    rw [if_neg hm] at this
    omega
  have hti := BitVec.toInt_eq_msb_cond x
  rw [if_pos hm] at hti
  have hne : x ≠ BitVec.intMin 64 := by
    rintro rfl
    rw [BitVec.toInt_intMin] at h1
    norm_num at h1
  have hlt := (-x).isLt
  have hneg : ((-x).toNat : Int) = -x.toInt := by
    rw [BitVec.toNat_neg]
    have := x.isLt
    have h0 : 0 < x.toNat := by omega
    rw [Nat.mod_eq_of_lt (by omega)]
    omega
  unfold fpOfLongR
  rw [if_neg (by simp [hm]), if_neg hne]
  obtain ⟨hs1, hs2⟩ := mpn_sub_1_spec P.modulus (-x)
  have hdlt := val_lt (mpn_sub_1 P.modulus (-x)).1
  have hpv : val P.modulus = P.p := rfl
  rw [hs2] at hdlt
  rw [hP.len] at hs1 hs2 hdlt
  have hB : 2 ^ 64 ≤ 2 ^ (64 * P.n) := Nat.pow_le_pow_right (by decide) (by have := hP.n_pos; omega)
  generalize mpn_sub_1 P.modulus (-x) = d at *
  obtain ⟨B, hBe⟩ : ∃ B : ℕ, B = 2 ^ (64 * P.n) := ⟨_, rfl⟩
  rw [← hBe] at hs1 hdlt hB
  have hb : d.2.toNat = 1 := by
    rcases Nat.lt_or_ge d.2.toNat 1 with h | h
    · have : d.2.toNat = 0 := by omega
      rw [this] at hs1; omega
    · rcases Nat.lt_or_ge d.2.toNat 2 with h' | h'
      · omega
      · have := Nat.mul_le_mul_left B h'
        omega
  obtain ⟨r, e1, e2⟩ := Represents.mulReduce_raw hP (a := d.1) (b := P.Rsquared) hs2 hP.r2len (lt_pR hP hs2 hP.r2_lt)
    (z := (val d.1 : ZMod P.p)) (by rw [hP.r2_cast]; ring)
  refine ⟨_, rfl, ?_⟩
  rw [Outcome.ok.inj (mulReduce_assertOnly P _ _ r e1)]
  have hv : (val d.1 : Int) = x.toInt + B + P.p := by rw [hb] at hs1; omega
  have hc : (val d.1 : ZMod P.p) = ((x.toInt + B : Int) : ZMod P.p) := by
    have := congrArg (fun z : Int => (z : ZMod P.p)) hv
    push_cast at this
    rw [this]; simp
  rw [hc, hBe] at e2
  exact_mod_cast e2

/-- In the field with 2^61 − 1 elements, `Fp(-2^62)` would be a wrong element: 2^64 is 8 there, not 0. -/
example : let P : FpParams := ⟨1, [0x1fffffffffffffff], 0x2000000000000001, [64], [512]⟩
    P.Valid ∧ -(2 : Int) ^ 63 < (-(2 ^ 62) : BitVec 64).toInt ∧ (-(2 ^ 62) : BitVec 64).toInt < -(P.p : Int) ∧
    2 ^ (64 * P.n) % P.p = 8 := by decide +kernel

/-- C72, finding: with a modulus that uses the top bit of its highest limb, the dropped carry gives a wrong product. -/
theorem C72_top_bit_product : ∃ (P : FpParams) (a b : List Limb), val a < P.p ∧ val b < P.p ∧ mulReduce P a b = .abort ∧
    ¬ val (mulReduceR P a b) * 2 ^ (64 * P.n) ≡ val a * val b [MOD P.p] :=
  ⟨⟨1, [0xffffffffffffffff], 1, [1], [1]⟩, [0xfffffffffffffffe], [0xfffffffffffffffe], by decide, by decide, by decide, by decide⟩

/-- C72, finding: a GMP integer that does not fit is cut off without notice. -/
theorem C72_mpz_truncated (n k : Nat) : bigintOfMpzR n k = limbsOf n k := by
  induction n generalizing k with
  | zero => rfl
  | succ n ih => rw [bigintOfMpzR, limbsOf, ih]

example : bigintOfMpz 1 (2 ^ 64 + 5) = .abort ∧ bigintOfMpzR 1 (2 ^ 64 + 5) = [5] := by decide +kernel

/-- C72, finding: scalars beyond the number of bases are ignored; too few scalars are read past the end of the vector in both builds. -/
theorem C72_multiexp_lengths {G S : Type*} [GroupOps G] (toB : S → List Limb) (gs : List G) (ss : List S) (s : S)
    (hl : gs.length = ss.length) (extra : List S) :
    multiExpPlain toB true gs (ss ++ s :: extra) = .abort ∧
    multiExpPlain toB false gs (ss ++ s :: extra) = multiExpPlain toB true gs ss := by
  have : ∀ r, naiveLoop true (fun s g => .ok (scalarMul g (toB s))) gs (ss ++ s :: extra) r = .abort ∧
      naiveLoop false (fun s g => .ok (scalarMul g (toB s))) gs (ss ++ s :: extra) r =
        naiveLoop true (fun s g => .ok (scalarMul g (toB s))) gs ss r := by
    induction gs generalizing ss with
    | nil =>
      obtain rfl : ss = [] := List.length_eq_zero_iff.1 hl.symm
      exact fun r => ⟨rfl, rfl⟩
    | cons g gs ih =>
      cases ss with
      | nil => simp at hl
      | cons t ss => exact fun r => ih ss (by simpa using hl) _
  exact this _

/-- C72, finding: `input_bool` takes every number other than 1 for `false`. -/
theorem C72_input_bool_other : inputBool true [50, 10] = .abort ∧ inputBool false [50, 10] = .ok (false, []) := by decide +kernel

/-- C72, finding: a number that does not fit into `w` bits is changed without notice. -/
theorem C72_twos_complement_range : toTwosComplement 200 8 = .abort ∧ toTwosComplementR 200 8 = .ok 200 ∧
    fromTwosComplementR 200 8 = .ok (-56) ∧ fromTwosComplement 300 8 = .abort ∧ fromTwosComplementR 300 8 = .ok 44 := by
  decide +kernel

/-- C72, finding: batch inversion of a vector with a zero. With assertions it aborts at the zero. Without, in a field whose inverse
of zero is then zero (the binary fields), every entry of the vector becomes zero. -/
theorem C72_batch_invert_zero {K : Type*} [Field K] [InverseO K] [DecidableEq K] (h0 : inverseO (0 : K) = .ok 0) (v : List K)
    (h : (0 : K) ∈ v) : batchInvert true v = .abort ∧ batchInvert false v = .ok (List.replicate v.length 0) := by
  have hd : ∀ (v : List K) (acc : K), (0 : K) ∈ v → batchProducts true v acc = .abort := by
    intro v
    induction v with
    | nil => simp
    | cons x v ih =>
      intro acc hv
      unfold batchProducts
      by_cases hx : x = 0
      · rw [if_pos ⟨rfl, hx⟩]
      · rw [if_neg (by simp [hx]), ih _ ((List.mem_cons.1 hv).resolve_left (Ne.symm hx))]; rfl
  have hr : ∀ (v : List K) (acc : K), ∃ l : List K, l.length = v.length ∧ batchProducts false v acc = .ok (l, acc * v.prod) := by
    intro v
    induction v with
    | nil => exact fun acc => ⟨[], rfl, by simp [batchProducts]⟩
    | cons x v ih =>
      intro acc
      obtain ⟨l, h1, h2⟩ := ih (acc * x)
      refine ⟨acc :: l, by simp [h1], ?_⟩
      unfold batchProducts
      rw [if_neg (by simp), h2, List.prod_cons, mul_assoc]; rfl
  have hb : ∀ l : List (K × K), batchBack l 0 = List.replicate l.length 0 := by
    intro l
    induction l with
    | nil => rfl
    | cons x l ih => simp only [batchBack, zero_mul, ih, List.length_cons, List.replicate_succ]
  refine ⟨by rw [batchInvert, hd v 1 h]; rfl, ?_⟩
  obtain ⟨l, h1, h2⟩ := hr v 1
  rw [batchInvert, h2, List.prod_eq_zero h, mul_zero]
  simp [h0, hb, h1]

/-- The inverses of the binary fields return zero for zero when the assertion is removed. -/
example : GF32.inverse false 0 = .ok 0 ∧ GF64.inverse false 0 = .ok 0 := by decide +kernel
/-- The vector (3, 0, 2) over the field with 7 elements, with an inverse that is total. -/
example : @batchInvert (ZMod 7) _ _ _ ⟨fun x => .ok x⁻¹⟩ _ false [3, 0, 2] = .ok [0, 0, 0] :=
  (@C72_batch_invert_zero (ZMod 7) _ ⟨fun x => .ok x⁻¹⟩ _ (by simp [inverseO]) [3, 0, 2] (by simp)).2

/-- C72, finding: without the assertion, inverting zero calls `mpn_gcdext` with a zero operand. -/
theorem C72_inverse_zero (P : FpParams) (hP : P.Valid) (gx : Gcdext) (a : List Limb) (ha : Represents P a 0) :
    invertRepr P gx a = .abort ∧ invertReprR P gx a = .ub := by
  refine ⟨C03_inverse_zero P hP gx a ha, ?_⟩
  unfold invertReprR
  rw [if_pos ((ha.isZero hP).2 rfl)]

/-- C72, finding: `e(P, 0)` on alt_bn128 aborts in a build with assertions (`C51_alt_bn128_zero_aborts`). Without, the Miller
value is 0, and the final exponentiation inverts 0, which is undefined. -/
theorem C72_alt_bn128_zero (p : Coord3 alt_bn128_Fq) (q : Coord3 alt_bn128_Fq2) (h : Jac.isZero q = true) :
    alt_bn128_ate.bnPairingR p q = .ok 0 ∧ alt_bn128_ate.bnReducedPairingR p q = .ub := by
  have h0 := Ate12.bn_zero_release (A := alt_bn128_ate) rfl (by decide +kernel) (by decide +kernel) p h
  refine ⟨h0, ?_⟩
  unfold Ate12.bnReducedPairingR
  rw [h0, Outcome.bind_ok, if_pos rfl]

end Libff
