import Verif.Lemmas.FpType
import Verif.Model.Params

/-!
# C01–C05: prime field arithmetic

Vocabulary: `val` (`Verif/Spec/Limbs.lean`) is the number a limb vector denotes;
`FpParams.Valid` (`Verif/Spec/FpParams.lean`) says the static constants are the documented ones;
`Represents P l x` (`Verif/Spec/Mont.lean`) says the stored vector `l` is the canonical stored form of
the residue `x`.
-/
namespace Libff

/-- A small two-limb field used as witness: `p = 2^127 - 1`. -/
def m127 : FpParams where
  n := 2
  modulus := limbsOf 2 (2 ^ 127 - 1)
  inv := 1
  Rsquared := limbsOf 2 4
  Rcubed := limbsOf 2 8

instance : Fact m127.Valid := ⟨by decide⟩

theorem m127_repr3 : Represents m127 (limbsOf 2 6) 3 := by
  refine ⟨by decide, by decide, ?_⟩
  have h : ((val (limbsOf 2 6) : ℕ) : ZMod m127.p) = ((3 * 2 ^ (64 * m127.n) : ℕ) : ZMod m127.p) := by
    rw [ZMod.natCast_eq_natCast_iff']; decide +kernel
  rw [h]; push_cast; rfl

/-! ## C01 addition, subtraction, negation -/

/-- C01. Addition, for *every* modulus of `n` limbs (also one that uses all bits): no assertion fires,
the result is reduced and is the sum mod `p`. -/
theorem C01_add_exact (P : FpParams) (hlen : P.modulus.length = P.n) (a b : List Limb)
    (ha : a.length = P.n) (hb : b.length = P.n) (hap : val a < P.p) (hbp : val b < P.p) :
    ∃ r, addAssign P a b = .ok r ∧ r.length = P.n ∧ val r < P.p ∧
      val r = (val a + val b) % P.p := by
  obtain ⟨r, h1, h2, h3⟩ := addAssign_spec P hlen a b ha hb hap hbp
  exact ⟨r, h1, h2, by rw [h3]; exact Nat.mod_lt _ (by omega), h3⟩

/-- C01. Subtraction for every modulus of `n` limbs. -/
theorem C01_sub_exact (P : FpParams) (hlen : P.modulus.length = P.n) (a b : List Limb)
    (ha : a.length = P.n) (hb : b.length = P.n) (hap : val a < P.p) (hbp : val b < P.p) :
    ∃ r, subAssign P a b = .ok r ∧ r.length = P.n ∧ val r < P.p ∧
      (val r : Int) = ((val a : Int) - val b) % P.p := by
  obtain ⟨r, h1, h2, h3⟩ := subAssign_spec P hlen a b ha hb hap hbp
  refine ⟨r, h1, h2, by rw [h3]; exact Nat.mod_lt _ (by omega), ?_⟩
  rw [h3]
  have : ((val a + P.p - val b : Nat) : Int) = (val a : Int) - val b + P.p := by omega
  rw [Int.natCast_mod, this, Int.add_emod_right]

/-- C01. Negation for every modulus of `n` limbs. -/
theorem C01_neg_exact (P : FpParams) (hlen : P.modulus.length = P.n) (a : List Limb)
    (ha : a.length = P.n) (hap : val a < P.p) :
    (negRepr P a).length = P.n ∧ val (negRepr P a) < P.p ∧
      (val (negRepr P a) : Int) = (-(val a : Int)) % P.p := by
  obtain ⟨h2, h3⟩ := negRepr_spec P hlen a ha hap
  refine ⟨h2, by rw [h3]; exact Nat.mod_lt _ (by omega), ?_⟩
  rw [h3]
  have : ((P.p - val a : Nat) : Int) = -(val a : Int) + P.p := by omega
  rw [Int.natCast_mod, this, Int.add_emod_right]

/-- A modulus using all 64 bits of its only limb, where the carry out of the addition matters. -/
def fullBit : FpParams := ⟨1, [0xffffffffffffffc5], 0, [0], [0]⟩

example : addAssign fullBit [0xffffffffffffffc4] [0xffffffffffffffc3] = .ok [0xffffffffffffffc2] ∧
    subAssign fullBit [3] [0xffffffffffffffc4] = .ok [4] ∧ negRepr fullBit [1] = [0xffffffffffffffc4] ∧
    val [0xffffffffffffffc4] < fullBit.p := by decide

/-- C01 in terms of residues. -/
theorem C01_residues (P : FpParams) (hP : P.Valid) (a b : List Limb) (x y : ZMod P.p)
    (ha : Represents P a x) (hb : Represents P b y) :
    (∃ r, addAssign P a b = .ok r ∧ Represents P r (x + y)) ∧
    (∃ r, subAssign P a b = .ok r ∧ Represents P r (x - y)) ∧
    Represents P (negRepr P a) (-x) :=
  ⟨ha.add hP hb, ha.sub hP hb, ha.neg hP⟩

example : ∃ a b : List Limb, Represents m127 a 5 ∧ Represents m127 b (-7) :=
  ⟨_, _, Represents.exists_repr (by decide) _, Represents.exists_repr (by decide) _⟩

/-! ## C02 multiplication and squaring -/

/-- C02. Montgomery multiplication of stored elements returns the stored form of the product; the
carry assertion and the borrow assertion never fire. -/
theorem C02_mul_exact (P : FpParams) (hP : P.Valid) (a b : List Limb) (x y : ZMod P.p)
    (ha : Represents P a x) (hb : Represents P b y) :
    ∃ r, mulReduce P a b = .ok r ∧ Represents P r (x * y) := ha.mul hP hb

/-- C02. Squaring. -/
theorem C02_sq_exact (P : FpParams) (hP : P.Valid) (a : List Limb) (x : ZMod P.p)
    (ha : Represents P a x) : ∃ r, sqRepr P a = .ok r ∧ Represents P r (x ^ 2) := by
  rw [pow_two]; exact ha.mul hP ha

/-- C02 at the level of integers: `r < p` and `r · R ≡ a · b (mod p)`, where only one factor has to be
reduced. -/
theorem C02_mul_reduce (P : FpParams) (hP : P.Valid) (a b : List Limb) (ha : a.length = P.n)
    (hb : b.length = P.n) (hlt : val a < P.p ∨ val b < P.p) :
    ∃ r, mulReduce P a b = .ok r ∧ r.length = P.n ∧ val r < P.p ∧
      val r * 2 ^ (64 * P.n) ≡ val a * val b [MOD P.p] := by
  apply mulReduce_spec P hP a b ha hb
  rcases hlt with h | h
  · rw [Nat.mul_comm (val a)]; exact lt_pR hP hb h
  · exact lt_pR hP ha h

/-- The top-bit condition in C02 is needed: with a modulus that uses every bit the
`assert(carryout == 0)` of the reduction loop can fail although all other constants are right. -/
theorem C02_topBit_needed :
    ∃ (P : FpParams) (a b : List Limb), P.modulus.length = P.n ∧ a.length = P.n ∧ b.length = P.n ∧
      val a < P.p ∧ val b < P.p ∧ (P.inv.toNat * P.p + 1) % 2 ^ 64 = 0 ∧
      mulReduce P a b = .abort :=
  ⟨⟨1, [0xffffffffffffffff], 1, [1], [1]⟩, [0xfffffffffffffffe], [0xfffffffffffffffe],
    by decide⟩

example : mulReduce m127 (limbsOf 2 (2 ^ 126 + 12345)) (limbsOf 2 (2 ^ 126 + 77)) ≠ .abort ∧
    Represents m127 (limbsOf 2 6) 3 := ⟨by decide, m127_repr3⟩

/-! ## C03 inversion -/

/-- C03. For a prime modulus and any gcd routine meeting GMP's contract, inversion of a nonzero
element succeeds (no assertion, no buffer overrun) and returns the stored form of the inverse. -/
theorem C03_inverse_exact (P : FpParams) (hP : P.Valid) (hp : P.p.Prime) (gx : Gcdext)
    (hgx : gx.Contract) (a : List Limb) (x : ZMod P.p) (ha : Represents P a x) (hx : x ≠ 0) :
    ∃ r y, invertRepr P gx a = .ok r ∧ Represents P r y ∧ x * y = 1 := by
  have : Fact P.p.Prime := ⟨hp⟩
  obtain ⟨r, h1, h2⟩ := ha.inv hP hp hgx hx
  exact ⟨r, x⁻¹, h1, h2, mul_inv_cancel₀ hx⟩

/-- C03. Inverting zero is rejected. -/
theorem C03_inverse_zero (P : FpParams) (hP : P.Valid) (gx : Gcdext) (a : List Limb)
    (ha : Represents P a 0) : invertRepr P gx a = .abort := by
  unfold invertRepr
  rw [if_pos ((ha.isZero hP).2 rfl)]

/-- The contract is satisfiable (extended Euclid), and the hypotheses are met by a concrete element. -/
example : refGcdext.Contract ∧ Represents m127 (limbsOf 2 6) 3 ∧ (3 : ZMod m127.p) ≠ 0 :=
  ⟨refGcdext_contract, m127_repr3, by
    intro h
    have h' : ((3 : ℕ) : ZMod m127.p) = 0 := by exact_mod_cast h
    rw [ZMod.natCast_eq_zero_iff] at h'
    revert h'; decide⟩

/-! ## C04 field structure -/

/-- C04. With the operations of the library, decoding is a ring isomorphism onto `Z/pZ`; it is the map
computed by `as_bigint`. (`Fp P` is the type of reduced stored vectors, its `+ - * 0 1` are the
limb-level functions.) -/
theorem C04_ring_iso (P : FpParams) [hP : Fact P.Valid] :
    ∃ e : Fp P ≃+* ZMod P.p,
      ∀ x : Fp P, fpAsBigint P x.repr = .ok (limbsOf P.n (e x).val) :=
  ⟨Fp.equivZMod, fun x => x.represents.asBigint hP.out⟩

/-- C04. The operations of the type `Fp P` are those of the code. -/
theorem C04_ops_are_code (P : FpParams) [hP : Fact P.Valid] (x y : Fp P) :
    addAssign P x.repr y.repr = .ok (x + y).repr ∧
    subAssign P x.repr y.repr = .ok (x - y).repr ∧
    mulReduce P x.repr y.repr = .ok (x * y).repr ∧
    negRepr P x.repr = (-x).repr ∧
    fpZero P = (0 : Fp P).repr ∧ fpOne P = .ok (1 : Fp P).repr :=
  ⟨Fp.ofOutcome_repr _ _, Fp.ofOutcome_repr _ _, Fp.ofOutcome_repr _ _, rfl, rfl,
    Fp.ofOutcome_repr _ _⟩

/-- C04. For a prime modulus this is a field whose inverse is the code's inverse, for every gcd routine
meeting the contract. -/
theorem C04_field_inverse_is_code (P : FpParams) [hP : Fact P.Valid] [hp : Fact P.p.Prime]
    (gx : Gcdext) (hgx : gx.Contract) (x : Fp P) (hx : x ≠ 0) :
    invertRepr P gx x.repr = .ok (x⁻¹).repr ∧ x * x⁻¹ = 1 := by
  refine ⟨?_, mul_inv_cancel₀ hx⟩
  have hz : x.toZMod ≠ 0 := fun h => hx (Fp.toZMod_injective (h.trans Fp.toZMod_zero.symm))
  obtain ⟨r, h1, h2⟩ := x.represents.inv hP.out hp.out hgx hz
  rw [h1]
  congr 1
  have h3 := (x⁻¹).represents
  rw [Fp.toZMod_inv] at h3
  exact h2.inj h3

/-- C04. `operator==` holds exactly for equal residues. -/
theorem C04_eq_iff (P : FpParams) (hP : P.Valid) (a b : List Limb) (x y : ZMod P.p)
    (ha : Represents P a x) (hb : Represents P b y) : fpEq a b = true ↔ x = y := by
  have h := mpn_cmp_spec a b (by rw [ha.len, hb.len])
  rw [fpEq, h]
  simp only [beq_iff_eq, Nat.compare_eq_eq]
  constructor
  · intro hv
    have : a = b := val_inj (by rw [ha.len, hb.len]) hv
    subst this
    exact ha.val_unique hP hb
  · rintro rfl
    rw [ha.inj hb]

example : ∃ x y : Fp m127, x ≠ y ∧ x * y = 1 ∧ x ≠ 1 := ⟨2, 2 ^ 126, by decide +kernel⟩

/-! ## C05 conversions -/

/-- C05. `Fp(b)` for any `n`-limb integer (reduced or not) represents `b mod p`. -/
theorem C05_of_bigint (P : FpParams) (hP : P.Valid) (b : List Limb) (hb : b.length = P.n) :
    ∃ r, fpOfBigint P b = .ok r ∧ Represents P r (val b : ZMod P.p) := Represents.ofBigint hP hb

/-- C05. `as_bigint` returns the representative in `[0, p)`. -/
theorem C05_as_bigint (P : FpParams) (hP : P.Valid) (a : List Limb) (x : ZMod P.p)
    (ha : Represents P a x) :
    ∃ r, fpAsBigint P a = .ok r ∧ r.length = P.n ∧ val r < P.p ∧ (val r : ZMod P.p) = x := by
  have : NeZero P.p := hP.neZero
  have h1 := ZMod.val_lt x
  have hb := hP.topBit
  refine ⟨_, ha.asBigint hP, by simp, ?_, ?_⟩ <;>
    rw [val_limbsOf, Nat.mod_eq_of_lt (by omega)]
  · exact h1
  · simp

/-- C05. `Fp(x.as_bigint()) = x`. -/
theorem C05_roundtrip (P : FpParams) (hP : P.Valid) (a : List Limb) (x : ZMod P.p)
    (ha : Represents P a x) : (fpAsBigint P a).bind (fpOfBigint P) = .ok a := by
  obtain ⟨r, h1, h2, _, h4⟩ := C05_as_bigint P hP a x ha
  obtain ⟨r', h5, h6⟩ := C05_of_bigint P hP r h2
  rw [h1, Outcome.bind_ok, h5]
  rw [h4] at h6
  rw [h6.inj ha]

/-- C05. `Fp(b).as_bigint()` is `b mod p`. -/
theorem C05_roundtrip_int (P : FpParams) (hP : P.Valid) (b : List Limb) (hb : b.length = P.n) :
    ∃ r, (fpOfBigint P b).bind (fpAsBigint P) = .ok r ∧ r.length = P.n ∧
      val r = val b % P.p := by
  have : NeZero P.p := hP.neZero
  obtain ⟨r, h1, h2⟩ := C05_of_bigint P hP b hb
  obtain ⟨r', h3, h4, h5, h6⟩ := C05_as_bigint P hP r _ h2
  refine ⟨r', by rw [h1, Outcome.bind_ok, h3], h4, ?_⟩
  rw [ZMod.natCast_eq_natCast_iff'] at h6
  rw [← h6, Nat.mod_eq_of_lt h5]

/-- C05. `Fp(long)`: signed and unsigned.  For negative arguments the code needs `|x| ≤ p` (otherwise
its assertion fires) and `x ≠ LONG_MIN` (otherwise `-x` overflows). -/
theorem C05_of_long (P : FpParams) (hP : P.Valid) (x : BitVec 64) (isUnsigned : Bool)
    (h : isUnsigned = true ∨ (-(2 : Int) ^ 63 < x.toInt ∧ -(P.p : Int) ≤ x.toInt)) :
    ∃ r, fpOfLong P x isUnsigned = .ok r ∧
      Represents P r (((if isUnsigned then (x.toNat : Int) else x.toInt) : Int) : ZMod P.p) :=
  Represents.ofLong hP x isUnsigned h

/-- C05. `LONG_MIN` is undefined behaviour. -/
theorem C05_of_long_min (P : FpParams) : fpOfLong P (BitVec.intMin 64) false = .ub := by
  unfold fpOfLong
  rw [if_neg (by decide), if_pos rfl]

/-- C05. Where the precondition of `C05_of_long` fails otherwise, that is for `x < −p`, the assertion on the borrow
fires: no element is returned. So the three outcomes of `Fp(long)` are known for every argument. -/
theorem C05_of_long_below (P : FpParams) (x : BitVec 64) (h1 : -(2 : Int) ^ 63 < x.toInt)
    (h2 : x.toInt < -(P.p : Int)) : fpOfLong P x false = .abort := by
  have hm : x.msb = true := by
    by_contra hm
    have := BitVec.toInt_eq_msb_cond x
    rw [if_neg hm] at this
    omega
  have hti := BitVec.toInt_eq_msb_cond x
  rw [if_pos hm] at hti
  have hne : x ≠ BitVec.intMin 64 := by
    rintro rfl
    rw [BitVec.toInt_intMin] at h1
    norm_num at h1
  have hneg : ((-x).toNat : Int) = -x.toInt := by
    rw [BitVec.toNat_neg]
    have := x.isLt
    have h0 : 0 < x.toNat := by omega
    rw [Nat.mod_eq_of_lt (by omega)]
    omega
  unfold fpOfLong
  rw [if_neg (by simp [hm]), if_neg hne]
  obtain ⟨hs1, hs2⟩ := mpn_sub_1_spec P.modulus (-x)
  have hdlt := val_lt (mpn_sub_1 P.modulus (-x)).1
  have hpv : val P.modulus = P.p := rfl
  rw [if_neg]
  intro hd
  rw [hd] at hs1
  simp at hs1
  omega

/-- A one-limb prime field (modulus 2^61 − 1) and an argument below `−p`. -/
example : -(2 : Int) ^ 63 < (-(2 ^ 62) : BitVec 64).toInt ∧
    (-(2 ^ 62) : BitVec 64).toInt < -((2 ^ 61 - 1 : Nat) : Int) := by decide +kernel

/-- C05. `as_ulong` is the low 64 bits of the representative. -/
theorem C05_as_ulong (P : FpParams) (hP : P.Valid) (a : List Limb) (x : ZMod P.p)
    (ha : Represents P a x) :
    ∃ w, fpAsUlong P a = .ok w ∧ w.toNat = x.val % 2 ^ 64 := by
  have hn := hP.n_pos
  obtain ⟨n, hn'⟩ : ∃ n, P.n = n + 1 := ⟨P.n - 1, by omega⟩
  refine ⟨_, by rw [fpAsUlong, ha.asBigint hP, Outcome.map_ok], ?_⟩
  rw [hn', limbsOf, List.headD_cons, BitVec.toNat_ofNat]

example : fpOfLong m127 (-5) false = .ok (limbsOf 2 (2 ^ 127 - 1 - 10)) ∧
    -(2 : Int) ^ 63 < (-5 : BitVec 64).toInt ∧ -(m127.p : Int) ≤ (-5 : BitVec 64).toInt := by
  decide +kernel

end Libff
