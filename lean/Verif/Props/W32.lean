import Verif.Lemmas.W32
import Verif.Model.W32Params
import Verif.Lemmas.FpType
import Verif.Model.Params

/-!
# C79: platforms with limbs of 32 bits

`Libff.W32` is the model of the prime fields for `sizeof(mp_limb_t) == 4`. First the claims C01 to C05 for it, then: both platforms compute the
same. `halves` cuts each word of 64 bits into two of 32, low half first, which is how the same bytes are read on a little-endian machine.
-/
namespace Libff

/-- The words of 64 bits as words of 32 bits. -/
def halves : List Limb → List W32.Limb
  | [] => []
  | a :: l => a.truncate 32 :: (a >>> 32).truncate 32 :: halves l

namespace W32

/-- C79. The constants in the branches for limbs of 32 bits are those of the fields: `inv = -p⁻¹ mod 2^32`, `Rsquared = R² mod p`,
`Rcubed = R³ mod p` with `R = 2^(32 n)`, for all twelve prime fields. -/
theorem C79_constants : (alt_bn128_Fr_params.Valid ∧ alt_bn128_Fq_params.Valid) ∧ (bls12_381_Fr_params.Valid ∧ bls12_381_Fq_params.Valid) ∧
    (bn128_Fr_params.Valid ∧ bn128_Fq_params.Valid) ∧ (mnt4_Fr_params.Valid ∧ mnt4_Fq_params.Valid) ∧
    (mnt6_Fr_params.Valid ∧ mnt6_Fq_params.Valid) ∧ (edwards_Fr_params.Valid ∧ edwards_Fq_params.Valid) := by decide +kernel

/-- C79. `+=`, `-=`, unary `-`, `*=` and squaring on stored residues. -/
theorem C79_residues (P : FpParams) (hP : P.Valid) (a b : List Limb) (x y : ZMod P.p) (ha : Represents P a x) (hb : Represents P b y) :
    (∃ r, addAssign P a b = .ok r ∧ Represents P r (x + y)) ∧ (∃ r, subAssign P a b = .ok r ∧ Represents P r (x - y)) ∧
    Represents P (negRepr P a) (-x) ∧ (∃ r, mulReduce P a b = .ok r ∧ Represents P r (x * y)) ∧
    (∃ r, sqRepr P a = .ok r ∧ Represents P r (x ^ 2)) :=
  ⟨ha.add hP hb, ha.sub hP hb, ha.neg hP, ha.mul hP hb, by rw [pow_two]; exact ha.mul hP ha⟩

/-- C79. Inversion, for every gcd routine that meets GMP's contract. -/
theorem C79_inverse (P : FpParams) (hP : P.Valid) (hp : P.p.Prime) (gx : Gcdext) (hgx : gx.Contract) (a : List Limb) (x : ZMod P.p)
    (ha : Represents P a x) : (x ≠ 0 → ∃ r y, invertRepr P gx a = .ok r ∧ Represents P r y ∧ x * y = 1) ∧ (x = 0 → invertRepr P gx a = .abort) := by
  have : Fact P.p.Prime := ⟨hp⟩
  constructor
  · intro hx
    obtain ⟨r, h1, h2⟩ := ha.inv hP hp hgx hx
    exact ⟨r, x⁻¹, h1, h2, mul_inv_cancel₀ hx⟩
  · intro hx
    unfold invertRepr
    rw [if_pos ((ha.isZero hP).2 hx)]

/-- C79. Conversions: from a bigint, from a `long` of 32 bits (signed or unsigned), to a bigint. -/
theorem C79_convert (P : FpParams) (hP : P.Valid) :
    (∀ b : List Limb, b.length = P.n → ∃ r, fpOfBigint P b = .ok r ∧ Represents P r (val b : ZMod P.p)) ∧
    (∀ (x : BitVec 32) (isUnsigned : Bool), isUnsigned = true ∨ (-(2 : Int) ^ 31 < x.toInt ∧ -(P.p : Int) ≤ x.toInt) →
      ∃ r, fpOfLong P x isUnsigned = .ok r ∧ Represents P r (((if isUnsigned then (x.toNat : Int) else x.toInt) : Int) : ZMod P.p)) ∧
    ∀ (a : List Limb) (x : ZMod P.p), Represents P a x → fpAsBigint P a = .ok (limbsOf P.n x.val) :=
  ⟨fun _ hb => Represents.ofBigint hP hb, fun x u h => Represents.ofLong hP x u h, fun _ _ ha => ha.asBigint hP⟩

/-- C79. Decoding is a ring isomorphism onto `Z/pZ`. -/
theorem C79_ring_iso (P : FpParams) [hP : Fact P.Valid] :
    ∃ e : Fp P ≃+* ZMod P.p, ∀ x : Fp P, fpAsBigint P x.repr = .ok (limbsOf P.n (e x).val) :=
  ⟨Fp.equivZMod, fun x => x.represents.asBigint hP.out⟩

/-- Eight words, `(-1) + (-1) = -2`, `1 - 2 = -1`. -/
example : addAssign alt_bn128_Fq_params (limbsOf 8 (alt_bn128_Fq_params.p - 1)) (limbsOf 8 (alt_bn128_Fq_params.p - 1))
    = .ok (limbsOf 8 (alt_bn128_Fq_params.p - 2)) ∧
    subAssign edwards_Fr_params (limbsOf 6 1) (limbsOf 6 2) = .ok (limbsOf 6 (edwards_Fr_params.p - 1)) ∧
    fpOfLong mnt4_Fq_params (-5) false = fpOfBigint mnt4_Fq_params (limbsOf 10 (mnt4_Fq_params.p - 5)) ∧
    (∃ a, Represents bls12_381_Fq_params a 7) :=
  ⟨by decide +kernel, by decide +kernel, by decide +kernel, _, Represents.exists_repr C79_constants.2.1.2 _⟩

end W32

/-! ## Both platforms compute the same -/

theorem length_halves (l : List Limb) : (halves l).length = 2 * l.length := by
  induction l with
  | nil => rfl
  | cons a l ih => rw [halves, List.length_cons, List.length_cons, ih, List.length_cons]; omega

theorem val_halves (l : List Limb) : W32.val (halves l) = val l := by
  induction l with
  | nil => rfl
  | cons a l ih =>
    rw [halves, W32.val, W32.val, ih, val, BitVec.truncate_eq_setWidth, BitVec.truncate_eq_setWidth, BitVec.toNat_setWidth, BitVec.toNat_setWidth,
      BitVec.toNat_ushiftRight, Nat.shiftRight_eq_div_pow]
    have := a.isLt
    omega

/-- The constants of one field on both platforms: the same modulus in half as many words of twice the size. -/
structure SameField (P : FpParams) (Q : W32.FpParams) : Prop where
  v64 : P.Valid
  v32 : Q.Valid
  n : Q.n = 2 * P.n
  modulus : Q.modulus = halves P.modulus

/-- C79. The twelve prime fields are the same fields on both platforms. -/
theorem C79_same_fields : (SameField alt_bn128_Fr_params W32.alt_bn128_Fr_params ∧ SameField alt_bn128_Fq_params W32.alt_bn128_Fq_params) ∧
    (SameField bls12_381_Fr_params W32.bls12_381_Fr_params ∧ SameField bls12_381_Fq_params W32.bls12_381_Fq_params) ∧
    (SameField bn128_Fr_params W32.bn128_Fr_params ∧ SameField bn128_Fq_params W32.bn128_Fq_params) ∧
    (SameField mnt4_Fr_params W32.mnt4_Fr_params ∧ SameField mnt4_Fq_params W32.mnt4_Fq_params) ∧
    (SameField mnt6_Fr_params W32.mnt6_Fr_params ∧ SameField mnt6_Fq_params W32.mnt6_Fq_params) ∧
    (SameField edwards_Fr_params W32.edwards_Fr_params ∧ SameField edwards_Fq_params W32.edwards_Fq_params) := by
  have h := W32.C79_constants
  refine ⟨⟨⟨?_, h.1.1, rfl, ?_⟩, ⟨?_, h.1.2, rfl, ?_⟩⟩, ⟨⟨?_, h.2.1.1, rfl, ?_⟩, ⟨?_, h.2.1.2, rfl, ?_⟩⟩,
    ⟨⟨?_, h.2.2.1.1, rfl, ?_⟩, ⟨?_, h.2.2.1.2, rfl, ?_⟩⟩, ⟨⟨?_, h.2.2.2.1.1, rfl, ?_⟩, ⟨?_, h.2.2.2.1.2, rfl, ?_⟩⟩,
    ⟨⟨?_, h.2.2.2.2.1.1, rfl, ?_⟩, ⟨?_, h.2.2.2.2.1.2, rfl, ?_⟩⟩, ⟨⟨?_, h.2.2.2.2.2.1, rfl, ?_⟩, ⟨?_, h.2.2.2.2.2.2, rfl, ?_⟩⟩⟩ <;> decide +kernel

namespace SameField
variable {P : FpParams} {Q : W32.FpParams} (h : SameField P Q)
include h

theorem p : Q.p = P.p := by
  change W32.val Q.modulus = val P.modulus
  rw [h.modulus, val_halves]

theorem R : 2 ^ (32 * Q.n) = 2 ^ (64 * P.n) := by rw [h.n]; congr 1; omega

/-- Equal numbers are equal words. -/
theorem ext {r : List Limb} {s : List W32.Limb} (hr : r.length = P.n) (hs : s.length = Q.n) (hv : W32.val s = val r) : halves r = s :=
  W32.val_inj (by rw [length_halves, hr, hs, h.n]) (by rw [val_halves, hv])

theorem mul {a b : List Limb} (ha : a.length = P.n) (hb : b.length = P.n) (hab : val a * val b < P.p * 2 ^ (64 * P.n)) :
    W32.mulReduce Q (halves a) (halves b) = (mulReduce P a b).map halves := by
  obtain ⟨r, e1, l1, b1, c1⟩ := mulReduce_spec P h.v64 a b ha hb hab
  obtain ⟨s, e2, l2, b2, c2⟩ := W32.mulReduce_spec Q h.v32 (halves a) (halves b) (by rw [length_halves, ha, h.n])
    (by rw [length_halves, hb, h.n]) (by rw [val_halves, val_halves, h.p, h.R]; exact hab)
  rw [e1, e2, Outcome.map_ok]
  rw [val_halves, val_halves, h.p, h.R] at c2
  rw [h.p] at b2
  have hc : Nat.Coprime P.p (2 ^ (64 * P.n)) := h.v64.coprimeR.symm
  have hm : W32.val s ≡ val r [MOD P.p] := Nat.ModEq.cancel_right_of_coprime hc (c2.trans c1.symm)
  rw [h.ext l1 l2 (Nat.ModEq.eq_of_lt_of_lt hm b2 b1)]

theorem add {a b : List Limb} (ha : a.length = P.n) (hb : b.length = P.n) (hap : val a < P.p) (hbp : val b < P.p) :
    W32.addAssign Q (halves a) (halves b) = (addAssign P a b).map halves := by
  obtain ⟨r, e1, l1, c1⟩ := addAssign_spec P h.v64.len a b ha hb hap hbp
  obtain ⟨s, e2, l2, c2⟩ := W32.addAssign_spec Q h.v32.len (halves a) (halves b) (by rw [length_halves, ha, h.n])
    (by rw [length_halves, hb, h.n]) (by rw [val_halves, h.p]; exact hap) (by rw [val_halves, h.p]; exact hbp)
  rw [val_halves, val_halves, h.p, ← c1] at c2
  rw [e1, e2, Outcome.map_ok, h.ext l1 l2 c2]

theorem sub {a b : List Limb} (ha : a.length = P.n) (hb : b.length = P.n) (hap : val a < P.p) (hbp : val b < P.p) :
    W32.subAssign Q (halves a) (halves b) = (subAssign P a b).map halves := by
  obtain ⟨r, e1, l1, c1⟩ := subAssign_spec P h.v64.len a b ha hb hap hbp
  obtain ⟨s, e2, l2, c2⟩ := W32.subAssign_spec Q h.v32.len (halves a) (halves b) (by rw [length_halves, ha, h.n])
    (by rw [length_halves, hb, h.n]) (by rw [val_halves, h.p]; exact hap) (by rw [val_halves, h.p]; exact hbp)
  rw [val_halves, val_halves, h.p, ← c1] at c2
  rw [e1, e2, Outcome.map_ok, h.ext l1 l2 c2]

theorem neg {a : List Limb} (ha : a.length = P.n) (hap : val a < P.p) : W32.negRepr Q (halves a) = halves (negRepr P a) := by
  obtain ⟨l1, c1⟩ := negRepr_spec P h.v64.len a ha hap
  obtain ⟨l2, c2⟩ := W32.negRepr_spec Q h.v32.len (halves a) (by rw [length_halves, ha, h.n]) (by rw [val_halves, h.p]; exact hap)
  rw [val_halves, h.p, ← c1] at c2
  exact (h.ext l1 l2 c2).symm

theorem inv {a : List Limb} (gx : Gcdext) (hgx : gx.Contract) (gy : W32.Gcdext) (hgy : gy.Contract) (ha : a.length = P.n)
    (h0 : val a ≠ 0) (hc : Nat.Coprime (val a) P.p) : W32.invertRepr Q gy (halves a) = (invertRepr P gx a).map halves := by
  obtain ⟨r, e1, l1, b1, c1⟩ := invertRepr_spec P h.v64 gx hgx a ha h0 hc
  obtain ⟨s, e2, l2, b2, c2⟩ := W32.invertRepr_spec Q h.v32 gy hgy (halves a) (by rw [length_halves, ha, h.n]) (by rw [val_halves]; exact h0)
    (by rw [val_halves, h.p]; exact hc)
  rw [val_halves, h.p, h.R] at c2
  rw [h.p] at b2
  have hm : W32.val s ≡ val r [MOD P.p] := Nat.ModEq.cancel_left_of_coprime hc.symm (c2.trans c1.symm)
  rw [e1, e2, Outcome.map_ok, h.ext l1 l2 (Nat.ModEq.eq_of_lt_of_lt hm b2 b1)]

theorem rsquared : Q.Rsquared = halves P.Rsquared := by
  refine (h.ext h.v64.r2len h.v32.r2len ?_).symm
  rw [h.v32.r2, h.v64.r2, h.p, h.R]

end SameField

/-- C79. On elements (reduced vectors of `n` words) all operations of the two platforms give the same bytes; inversion for all gcd routines that meet
GMP's contract, and conversion from and to integers. -/
theorem C79_same_results (P : FpParams) (Q : W32.FpParams) (h : SameField P Q) (a b : List Limb) (ha : a.length = P.n) (hb : b.length = P.n)
    (hap : val a < P.p) (hbp : val b < P.p) :
    W32.addAssign Q (halves a) (halves b) = (addAssign P a b).map halves ∧ W32.subAssign Q (halves a) (halves b) = (subAssign P a b).map halves ∧
    W32.negRepr Q (halves a) = halves (negRepr P a) ∧ W32.mulReduce Q (halves a) (halves b) = (mulReduce P a b).map halves ∧
    W32.sqRepr Q (halves a) = (sqRepr P a).map halves ∧
    (P.p.Prime → val a ≠ 0 → ∀ (gx : Gcdext) (gy : W32.Gcdext), gx.Contract → gy.Contract →
      W32.invertRepr Q gy (halves a) = (invertRepr P gx a).map halves) ∧
    W32.fpAsBigint Q (halves a) = (fpAsBigint P a).map halves := by
  have small : halves (smallBigint P.n 1) = W32.smallBigint Q.n 1 := by
    have := h.v64.n_pos
    refine h.ext ?_ ?_ ?_
    · cases hn : P.n with
      | zero => omega
      | succ k => simp [smallBigint]
    · cases hn : Q.n with
      | zero => rw [h.n] at hn; omega
      | succ k => simp [W32.smallBigint]
    · rw [W32.val_smallBigint _ _ (by rw [h.n]; omega), val_smallBigint _ _ this]; rfl
  refine ⟨h.add ha hb hap hbp, h.sub ha hb hap hbp, h.neg ha hap, h.mul ha hb (lt_pR h.v64 ha hbp), h.mul ha ha (lt_pR h.v64 ha hap),
    fun hp h0 gx gy hgx hgy => h.inv gx hgx gy hgy ha h0 ?_, ?_⟩
  · exact Nat.Coprime.symm ((Nat.Prime.coprime_iff_not_dvd hp).2 fun hd => h0 (Nat.eq_zero_of_dvd_of_lt hd hap))
  · rw [W32.fpAsBigint, ← small]
    have hl : (smallBigint P.n 1).length = P.n := by
      have := h.v64.n_pos
      cases hn : P.n with
      | zero => omega
      | succ k => simp [smallBigint]
    refine h.mul ha hl ?_
    rw [Nat.mul_comm]
    exact lt_pR h.v64 hl hap

/-- C79. Elements made from the same integer (of `n` words, reduced or not) are the same bytes. -/
theorem C79_same_of_bigint (P : FpParams) (Q : W32.FpParams) (h : SameField P Q) (b : List Limb) (hb : b.length = P.n) :
    W32.fpOfBigint Q (halves b) = (fpOfBigint P b).map halves := by
  rw [W32.fpOfBigint, h.rsquared]
  refine h.mul h.v64.r2len hb ?_
  rw [Nat.mul_comm]
  exact lt_pR h.v64 hb h.v64.r2_lt

/-- C79. Elements made from the same `long` of 32 bits (on the wide platform the same number as a `long` of 64 bits) are the same bytes; except that
the constructor is undefined for `LONG_MIN` of the narrow platform, which the wide one converts. -/
theorem C79_same_of_long (P : FpParams) (Q : W32.FpParams) (h : SameField P Q) (hp : 2 ^ 31 ≤ P.p) (x : BitVec 32) :
    W32.fpOfLong Q x true = (fpOfLong P (x.zeroExtend 64) true).map halves ∧
    (x ≠ BitVec.intMin 32 → W32.fpOfLong Q x false = (fpOfLong P (x.signExtend 64) false).map halves) ∧
    (x = BitVec.intMin 32 → W32.fpOfLong Q x false = .ub ∧ ∃ r, fpOfLong P (x.signExtend 64) false = .ok r ∧ Represents P r (-2 ^ 31)) := by
  have key : ∀ (k : Int) (r : List Limb) (s : List W32.Limb), Represents P r (k : ZMod P.p) → W32.Represents Q s (k : ZMod Q.p) → halves r = s := by
    intro k r s hr hs
    refine h.ext hr.len hs.len ?_
    have e1 := hr.eq
    have e2 := hs.eq
    have e1' : ((val r : Int) : ZMod P.p) = ((k * 2 ^ (64 * P.n) : Int) : ZMod P.p) := by push_cast; exact_mod_cast e1
    have e2' : ((W32.val s : Int) : ZMod Q.p) = ((k * 2 ^ (32 * Q.n) : Int) : ZMod Q.p) := by push_cast; exact_mod_cast e2
    rw [ZMod.intCast_eq_intCast_iff] at e1' e2'
    have hR : (2 : Int) ^ (32 * Q.n) = 2 ^ (64 * P.n) := by exact_mod_cast h.R
    rw [h.p, hR] at e2'
    have e3 : W32.val s ≡ val r [MOD P.p] := Int.natCast_modEq_iff.1 (e2'.trans e1'.symm)
    exact Nat.ModEq.eq_of_lt_of_lt e3 (by rw [← h.p]; exact hs.lt) hr.lt
  have hs : (x.signExtend 64).toInt = x.toInt := BitVec.toInt_signExtend_of_le (by decide)
  have hlo : -(2 : Int) ^ 31 ≤ x.toInt := by have := BitVec.le_toInt x; simpa using this
  have hp' : (2 : Int) ^ 31 ≤ P.p := by exact_mod_cast hp
  refine ⟨?_, fun hx => ?_, fun hx => ?_⟩
  · obtain ⟨r, e1, r1⟩ := Represents.ofLong h.v64 (x.zeroExtend 64) true (.inl rfl)
    obtain ⟨s, e2, r2⟩ := W32.Represents.ofLong h.v32 x true (.inl rfl)
    rw [e1, e2, Outcome.map_ok]
    refine congrArg _ (key (x.toNat : Int) r s ?_ ?_).symm
    · have ht : (x.zeroExtend 64).toNat = x.toNat := by rw [BitVec.zeroExtend, BitVec.toNat_setWidth]; have := x.isLt; omega
      simpa [ht] using r1
    · simpa using r2
  · have hlt : -(2 : Int) ^ 31 < x.toInt := by
      refine lt_of_le_of_ne hlo fun e => hx (BitVec.eq_of_toInt_eq ?_)
      rw [← e]; decide
    obtain ⟨r, e1, r1⟩ := Represents.ofLong h.v64 (x.signExtend 64) false (.inr ⟨by rw [hs]; omega, by rw [hs]; omega⟩)
    obtain ⟨s, e2, r2⟩ := W32.Represents.ofLong h.v32 x false (.inr ⟨hlt, by rw [h.p]; omega⟩)
    rw [e1, e2, Outcome.map_ok]
    refine congrArg _ (key x.toInt r s ?_ ?_).symm
    · rw [← hs]; simpa using r1
    · simpa using r2
  · subst hx
    refine ⟨rfl, ?_⟩
    have h31 : (BitVec.intMin 32).toInt = -2 ^ 31 := by decide
    rw [h31] at hs
    obtain ⟨r, e1, r1⟩ := Represents.ofLong h.v64 ((BitVec.intMin 32).signExtend 64) false (.inr ⟨by rw [hs]; omega, by rw [hs]; omega⟩)
    refine ⟨r, e1, ?_⟩
    rw [if_neg (by decide), hs] at r1
    convert r1 using 1
    norm_num

/-- C79. `as_ulong` is where the platforms differ: 32 bits of the element's number instead of 64. -/
theorem C79_as_ulong (P : FpParams) (Q : W32.FpParams) (h : SameField P Q) (a : List Limb) (ha : a.length = P.n) (hap : val a < P.p) :
    W32.fpAsUlong Q (halves a) = (fpAsUlong P a).map (·.truncate 32) := by
  rw [W32.fpAsUlong, (C79_same_results P Q h a a ha ha hap hap).2.2.2.2.2.2, fpAsUlong]
  cases fpAsBigint P a with
  | ok l => cases l <;> rfl
  | abort => rfl
  | ub => rfl

/-- C79. Equality and comparison of stored words do not depend on the platform. -/
theorem C79_same_eq (a b : List Limb) (hl : a.length = b.length) : W32.mpn_cmp (halves a) (halves b) = mpn_cmp a b ∧
    W32.fpEq (halves a) (halves b) = fpEq a b := by
  have e : W32.mpn_cmp (halves a) (halves b) = mpn_cmp a b := by
    rw [W32.mpn_cmp_spec _ _ (by rw [length_halves, length_halves, hl]), mpn_cmp_spec _ _ hl, val_halves, val_halves]
  exact ⟨e, by rw [W32.fpEq, fpEq, e]⟩

/-- An element of alt_bn128's `Fr` on both platforms. -/
example : halves [0x1122334455667788, 5, 6, 7] = [0x55667788, 0x11223344, 5, 0, 6, 0, 7, 0] ∧
    W32.mulReduce W32.alt_bn128_Fr_params [0x55667788, 0x11223344, 5, 0, 6, 0, 7, 0] [9, 0, 0, 0, 0, 0, 0, 1]
      = (mulReduce alt_bn128_Fr_params [0x1122334455667788, 5, 6, 7] [9, 0, 0, 0x100000000]).map halves := by decide +kernel

end Libff
