import Verif.Props.W32
import Verif.Lemmas.W32Bigint

/-!
# C79: big integers, streams, powers and scalar multiples on platforms with limbs of 32 bits
-/
namespace Libff

theorem halves_ext {r : List Limb} {s : List W32.Limb} (hl : s.length = 2 * r.length) (hv : W32.val s = val r) : s = halves r :=
  W32.val_inj (by rw [length_halves, hl]) (by rw [val_halves, hv])

theorem pow_halves (r : List Limb) : 2 ^ (32 * (halves r).length) = 2 ^ (64 * r.length) := by rw [length_halves]; congr 1; omega

theorem maxBits_halves (a : List Limb) : W32.bigintMaxBits (halves a) = bigintMaxBits a := by
  rw [W32.bigintMaxBits, bigintMaxBits, length_halves]; omega

theorem testBit_halves (a : List Limb) : W32.testBit (halves a) = testBit a := by
  funext i
  rw [W32.testBit_eq, testBit_eq, val_halves]

theorem isZero_halves (a : List Limb) : W32.limbsIsZero (halves a) = limbsIsZero a := by
  rw [Bool.eq_iff_iff, W32.limbsIsZero_iff, limbsIsZero_iff, val_halves]

/-- C79. `max_bits`, `num_bits`, `test_bit`, `is_zero`, `is_even`, `to_mpz`, the comparison and the conversion from GMP integers of `bigint` give on both
platforms the same. -/
theorem C79_bigint (a b : List Limb) (hl : a.length = b.length) (i : Nat) (v : Nat) :
    W32.bigintMaxBits (halves a) = bigintMaxBits a ∧ W32.bigintNumBits (halves a) = bigintNumBits a ∧ W32.testBit (halves a) i = testBit a i ∧
    W32.limbsIsZero (halves a) = limbsIsZero a ∧ W32.bigintIsEven (halves a) = bigintIsEven a ∧ W32.bigintToMpz (halves a) = bigintToMpz a ∧
    W32.bigintLt (halves a) (halves b) = bigintLt a b ∧ W32.bigintOfMpz (2 * a.length) v = (bigintOfMpz a.length v).map halves := by
  refine ⟨maxBits_halves a, ?_, congrFun (testBit_halves a) i, isZero_halves a, ?_, ?_, ?_, ?_⟩
  · have h1 := W32.numBitsLoop_spec (halves a)
    have h2 := numBitsLoop_spec a
    rw [val_halves] at h1
    change W32.numBitsLoop _ = numBitsLoop _
    refine le_antisymm (not_lt.1 fun h => ?_) (not_lt.1 fun h => ?_)
    · have := h1.2 (by omega)
      have : 2 ^ numBitsLoop a.reverse ≤ 2 ^ (W32.numBitsLoop (halves a).reverse - 1) := Nat.pow_le_pow_right (by norm_num) (by omega)
      omega
    · have := h2.2 (by omega)
      have : 2 ^ W32.numBitsLoop (halves a).reverse ≤ 2 ^ (numBitsLoop a.reverse - 1) := Nat.pow_le_pow_right (by norm_num) (by omega)
      omega
  · rw [W32.bigintIsEven, bigintIsEven]
    cases a with
    | nil => rfl
    | cons x l =>
      simp only [halves, List.headD_cons]
      rw [Bool.eq_iff_iff, beq_iff_eq, beq_iff_eq]
      have e1 : (x &&& 1).toNat = x.toNat % 2 := by rw [BitVec.toNat_and]; simp
      have e2 : (x.truncate 32 &&& 1 : W32.Limb).toNat = x.toNat % 2 := by
        rw [BitVec.toNat_and, BitVec.truncate_eq_setWidth, BitVec.toNat_setWidth]
        simp
      rw [← BitVec.toNat_inj, ← BitVec.toNat_inj (x := x &&& 1), e1, e2]
      simp
  · rw [W32.bigintToMpz_eq, bigintToMpz_eq, val_halves]
  · rw [W32.bigintLt, bigintLt, (C79_same_eq a b hl).1]
  · rcases lt_or_ge v (2 ^ (64 * a.length)) with h | h
    · rw [bigintOfMpz_eq _ _ h, W32.bigintOfMpz_eq _ _ (by rw [show 32 * (2 * a.length) = 64 * a.length by ring]; exact h), Outcome.map_ok]
      refine congrArg _ (halves_ext (by simp) ?_)
      rw [W32.val_limbsOf, val_limbsOf, show 32 * (2 * a.length) = 64 * a.length by ring]
    · rw [bigintOfMpz_abort _ _ h, W32.bigintOfMpz_abort _ _ (by rw [show 32 * (2 * a.length) = 64 * a.length by ring]; exact h)]
      rfl

/-- C79. Decimal text gives the same integer, and is too long (or malformed, or empty) on both platforms alike. -/
theorem C79_of_string (n : Nat) (s : List (BitVec 8)) : W32.bigintOfString (2 * n) s = (bigintOfString n s).map halves := by
  rw [W32.bigintOfString, bigintOfString]
  cases digitVals s with
  | abort => rfl
  | ub => rfl
  | ok ds =>
    rw [Outcome.bind_ok, Outcome.bind_ok]
    by_cases h0 : ds = []
    · rw [if_pos h0, if_pos h0]; rfl
    rw [if_neg h0, if_neg h0]
    have hiff : 2 * n < W32.limbCount (setStrVal ds) ↔ n < limbCount (setStrVal ds) := by
      rw [← not_le, ← not_le, W32.limbCount_le_iff, limbCount_le_iff, show 32 * (2 * n) = 64 * n by ring]
    by_cases h1 : n < limbCount (setStrVal ds)
    · rw [if_pos h1, if_pos (hiff.2 h1)]; rfl
    · rw [if_neg h1, if_neg (fun h => h1 (hiff.1 h)), Outcome.map_ok]
      refine congrArg _ (halves_ext (by simp) ?_)
      rw [W32.val_limbsOf, val_limbsOf, show 32 * (2 * n) = 64 * n by ring]

/-! ## Powers and scalar multiples -/

/-- C79. `power` with a `bigint` exponent. -/
theorem C79_power {K : Type*} [Mul K] [One K] (base : K) (e : List Limb) : W32.powerBigint base (halves e) = powerBigint base e := by
  rw [W32.powerBigint, powerBigint, testBit_halves, maxBits_halves]

theorem scalarMulLoop_halves {G : Type*} [GroupOps G] (base : G) (e : List Limb) (k : Nat) (st : Bool × G) :
    W32.scalarMulLoop base (halves e) k st = scalarMulLoop base e k st := by
  induction k generalizing st with
  | zero => rfl
  | succ k ih =>
    obtain ⟨f, r⟩ := st
    rw [W32.scalarMulLoop, scalarMulLoop, testBit_halves]
    split <;> split <;> simp only [ih]

/-- C79. Scalar multiplication, in every group class (also one that does not meet the group laws). -/
theorem C79_scalar_mul {G : Type*} [GroupOps G] (base : G) (e : List Limb) : W32.scalarMul base (halves e) = scalarMul base e := by
  rw [W32.scalarMul, scalarMul, maxBits_halves, scalarMulLoop_halves]

theorem wrap_unique {M x y a b c d : Nat} (hx : x < M) (hy : y < M) (h1 : x + b = a + M * c) (h2 : y + b = a + M * d) : x = y := by
  rcases lt_trichotomy c d with h | h | h
  · have := Nat.mul_le_mul_left M (show c + 1 ≤ d from h); rw [Nat.mul_add] at this; omega
  · subst h; omega
  · have := Nat.mul_le_mul_left M (show d + 1 ≤ c from h); rw [Nat.mul_add] at this; omega

theorem sub_1_halves (c : List Limb) (u : Limb) (v : W32.Limb) (h : v.toNat = u.toNat) : (W32.mpn_sub_1 (halves c) v).1 = halves (mpn_sub_1 c u).1 := by
  obtain ⟨s1, l1⟩ := mpn_sub_1_spec c u
  obtain ⟨s2, l2⟩ := W32.mpn_sub_1_spec (halves c) v
  rw [pow_halves, val_halves, h] at s2
  refine halves_ext (by rw [l2, l1, length_halves]) ?_
  have b1 := val_lt (mpn_sub_1 c u).1
  have b2 := W32.val_lt (W32.mpn_sub_1 (halves c) v).1
  rw [l1] at b1
  rw [l2, pow_halves] at b2
  exact wrap_unique b2 b1 s2 s1

theorem add_1_halves (c : List Limb) (u : Limb) (v : W32.Limb) (h : v.toNat = u.toNat) : (W32.mpn_add_1 (halves c) v).1 = halves (mpn_add_1 c u).1 := by
  obtain ⟨s1, l1⟩ := mpn_add_1_spec c u
  obtain ⟨s2, l2⟩ := W32.mpn_add_1_spec (halves c) v
  rw [pow_halves, val_halves, h] at s2
  refine halves_ext (by rw [l2, l1, length_halves]) ?_
  have b1 := val_lt (mpn_add_1 c u).1
  have b2 := W32.val_lt (W32.mpn_add_1 (halves c) v).1
  rw [l1] at b1
  rw [l2, pow_halves] at b2
  have e1 := congrArg (· % 2 ^ (64 * c.length)) s1
  have e2 := congrArg (· % 2 ^ (64 * c.length)) s2
  simp only [Nat.add_mul_mod_self_left] at e1 e2
  rw [Nat.mod_eq_of_lt b1] at e1
  rw [Nat.mod_eq_of_lt b2] at e2
  rw [e1, e2]

theorem rshift1_halves (c : List Limb) : W32.rshift1 (halves c) = halves (rshift1 c) := by
  obtain ⟨v1, l1⟩ := rshift1_spec c
  obtain ⟨v2, l2⟩ := W32.rshift1_spec (halves c)
  exact halves_ext (by rw [l2, l1, length_halves]) (by rw [v2, v1, val_halves])

theorem wnafStep_halves (w : Nat) (hw : w < 30) (c : List Limb) : W32.wnafStep w (halves c) = ((wnafStep w c).1, halves (wnafStep w c).2) := by
  have hd : W32.wnafDigit w ((halves c).headD 0) = wnafDigit w (c.headD 0) := by
    rw [W32.wnafDigit, wnafDigit, W32.headD_mod _ _ (by omega), headD_mod _ _ (by omega), val_halves]
  rw [W32.wnafStep, wnafStep, W32.headD_odd, headD_odd, val_halves, hd]
  have hu : ∀ k : Nat, k ≤ 2 ^ (w + 1) → (BitVec.ofNat 32 k).toNat = (BitVec.ofNat 64 k).toNat := by
    intro k hk
    have : 2 ^ (w + 1) ≤ 2 ^ 30 := Nat.pow_le_pow_right (by norm_num) (by omega)
    rw [BitVec.toNat_ofNat, BitVec.toNat_ofNat, Nat.mod_eq_of_lt (by omega), Nat.mod_eq_of_lt (by omega)]
  have hr : -(2 : Int) ^ (w + 1) ≤ wnafDigit w (c.headD 0) ∧ wnafDigit w (c.headD 0) ≤ 2 ^ (w + 1) := by
    have h1 : ((c.headD 0).toNat % 2 ^ (w + 1) : Nat) < 2 ^ (w + 1) := Nat.mod_lt _ (by positivity)
    have h1' : (((c.headD 0).toNat % 2 ^ (w + 1) : Nat) : Int) < 2 ^ (w + 1) := by exact_mod_cast h1
    have h2 : (0 : Int) ≤ (((c.headD 0).toNat % 2 ^ (w + 1) : Nat) : Int) := Int.natCast_nonneg _
    unfold wnafDigit
    simp only []
    split <;> constructor <;> omega
  generalize wnafDigit w (c.headD 0) = u at hr ⊢
  by_cases ho : val c % 2 = 1
  · simp only [ho, decide_true, if_true]
    by_cases h0 : u > 0
    · simp only [h0, if_true]
      have hk : u.toNat ≤ 2 ^ (w + 1) := by
        have : ((u.toNat : Nat) : Int) ≤ ((2 ^ (w + 1) : Nat) : Int) := by push_cast; omega
        exact_mod_cast this
      rw [sub_1_halves c (BitVec.ofNat 64 u.toNat) _ (hu _ hk), rshift1_halves]
    · simp only [h0, if_false]
      have hk : (-u).toNat ≤ 2 ^ (w + 1) := by
        have : (((-u).toNat : Nat) : Int) ≤ ((2 ^ (w + 1) : Nat) : Int) := by push_cast; omega
        exact_mod_cast this
      rw [add_1_halves c (BitVec.ofNat 64 (-u).toNat) _ (hu _ hk), rshift1_halves]
  · simp only [ho, decide_false, Bool.false_eq_true, if_false, rshift1_halves]

theorem wnafLoop_halves (w : Nat) (hw : w < 30) (k : Nat) (c : List Limb) : W32.wnafLoop w k (halves c) = wnafLoop w k c := by
  induction k generalizing c with
  | zero => rw [W32.wnafLoop, wnafLoop, isZero_halves]
  | succ k ih => rw [W32.wnafLoop, wnafLoop, isZero_halves]; simp only [wnafStep_halves w hw, ih]

/-- C79. The wNAF digits, for every window and every scalar (also those for which the carry is lost: C26). -/
theorem C79_wnaf (w : Nat) (e : List Limb) : W32.findWnaf w (halves e) = findWnaf w e := by
  rw [W32.findWnaf, findWnaf, maxBits_halves]
  by_cases h : 30 ≤ w
  · rw [if_pos h, if_pos h]
  · rw [if_neg h, if_neg h, wnafLoop_halves w (by omega)]

theorem oddTable_w32 {G : Type*} [GroupOps G] (k : Nat) (t d : G) : W32.oddTable k t d = oddTable k t d := by
  induction k generalizing t with
  | zero => rfl
  | succ k ih => rw [W32.oddTable, oddTable, ih]

theorem wnafExpLoop_w32 {G : Type*} [GroupOps G] (table : List G) (ds : List Int) (st : Bool × G) :
    W32.wnafExpLoop table ds st = wnafExpLoop table ds st := by
  induction ds generalizing st with
  | nil => rfl
  | cons d ds ih =>
    obtain ⟨f, r⟩ := st
    rw [W32.wnafExpLoop, wnafExpLoop]
    simp only [ih]
    cases table[(d / 2).toNat]? <;> cases table[(-d / 2).toNat]? <;> rfl

theorem bestWindow_w32 (bits : Nat) (t : List Nat) : W32.bestWindow bits t = bestWindow bits t := by
  induction t with
  | nil => rfl
  | cons x t ih => rw [W32.bestWindow, bestWindow, ih]

/-- C79. Exponentiation with wNAF, with a given and with the chosen window. -/
theorem C79_wnaf_exp {G : Type*} [GroupOps G] (w : Nat) (table : List Nat) (base : G) (e : List Limb) (bits : Nat) :
    W32.fixedWindowWnafExp w base (halves e) = fixedWindowWnafExp w base e ∧
    W32.optWindowWnafExp table base (halves e) bits = optWindowWnafExp table base e bits := by
  have h : ∀ w, W32.fixedWindowWnafExp w base (halves e) = fixedWindowWnafExp w base e := by
    intro w
    rw [W32.fixedWindowWnafExp, fixedWindowWnafExp, C79_wnaf]
    simp only [oddTable_w32, wnafExpLoop_w32]
  refine ⟨h w, ?_⟩
  rw [W32.optWindowWnafExp, optWindowWnafExp]
  simp only [bestWindow_w32, h, C79_scalar_mul]

/-! ## Streams -/

theorem limbBytes_halves (x : Limb) : W32.limbBytes (x.truncate 32) ++ W32.limbBytes ((x >>> 32).truncate 32) = limbBytes x := by
  have h := x.isLt
  have e : ∀ m n : Nat, m % 256 = n % 256 → BitVec.ofNat 8 m = BitVec.ofNat 8 n := fun m n h => by
    rw [← BitVec.toNat_inj, BitVec.toNat_ofNat, BitVec.toNat_ofNat]; exact h
  simp only [W32.limbBytes, limbBytes, List.range, List.range.loop, List.map_cons, List.map_nil, List.cons_append, List.nil_append,
    BitVec.truncate_eq_setWidth, BitVec.toNat_setWidth, BitVec.toNat_ushiftRight, Nat.shiftRight_eq_div_pow]
  refine congrArg₂ _ (e _ _ ?_) (congrArg₂ _ (e _ _ ?_) (congrArg₂ _ (e _ _ ?_) (congrArg₂ _ (e _ _ ?_) (congrArg₂ _ (e _ _ ?_)
    (congrArg₂ _ (e _ _ ?_) (congrArg₂ _ (e _ _ ?_) (congrArg₂ _ (e _ _ ?_) rfl))))))) <;> norm_num <;> omega

/-- C79. The bytes of `n` words in memory, and thus of binary output, are the same on both (little-endian) platforms. -/
theorem C79_bytes (a : List Limb) : (halves a).flatMap W32.limbBytes = a.flatMap limbBytes := by
  induction a with
  | nil => rfl
  | cons x a ih => rw [halves, List.flatMap_cons, List.flatMap_cons, List.flatMap_cons, ih, ← List.append_assoc, limbBytes_halves]

/-- C79. What is written, in all four formats. -/
theorem C79_write (mont binary : Bool) (P : FpParams) (Q : W32.FpParams) (h : SameField P Q) (a : List Limb) (ha : a.length = P.n) (hap : val a < P.p) :
    W32.fpWrite mont binary Q (halves a) = fpWrite mont binary P a := by
  have hw : ∀ l, W32.bigintWrite binary (halves l) = bigintWrite binary l := by
    intro l
    rw [W32.bigintWrite, bigintWrite, C79_bytes, W32.bigintToMpz_eq, bigintToMpz_eq, val_halves]
  rw [W32.fpWrite, fpWrite, W32.bigintRepr, bigintRepr, (C79_same_results P Q h a a ha ha hap hap).2.2.2.2.2.2]
  cases mont
  · rw [if_neg (by decide), if_neg (by decide)]
    cases fpAsBigint P a with
    | ok l => exact congrArg _ (hw l)
    | abort => rfl
    | ub => rfl
  · exact congrArg _ (hw a)

theorem bytesVal_take (s : List Byte) (k : Nat) : bytesVal (s.take k) + 256 ^ (min k s.length) * bytesVal (s.drop k) = bytesVal s := by
  induction s generalizing k with
  | nil => simp [bytesVal]
  | cons b s ih =>
    cases k with
    | zero => simp [bytesVal]
    | succ k =>
      rw [List.take_succ_cons, List.drop_succ_cons, bytesVal, bytesVal, ← ih k, List.length_cons, Nat.succ_min_succ, pow_succ]
      ring

theorem bytesVal_lt (s : List Byte) : bytesVal s < 256 ^ s.length := by
  induction s with
  | nil => simp [bytesVal]
  | cons b s ih => rw [bytesVal, List.length_cons, pow_succ]; have := b.isLt; omega

theorem readLimbs_halves (n : Nat) (s : List Byte) : W32.readLimbs (2 * n) s = (readLimbs n s).map fun r => (halves r.1, r.2) := by
  induction n generalizing s with
  | zero => rfl
  | succ n ih =>
    rw [show 2 * (n + 1) = 2 * n + 1 + 1 by ring, W32.readLimbs, W32.readLimbs, readLimbs]
    by_cases h8 : s.length < 8
    · rw [if_pos h8]
      by_cases h4 : s.length < 4
      · rw [if_pos h4]; rfl
      · rw [if_neg h4, if_pos (by rw [List.length_drop]; omega)]; rfl
    · rw [if_neg h8, if_neg (by omega), if_neg (by rw [List.length_drop]; omega), List.drop_drop, ih]
      have hv : halves [BitVec.ofNat 64 (bytesVal (s.take 8))] = [BitVec.ofNat 32 (bytesVal (s.take 4)), BitVec.ofNat 32 (bytesVal ((s.drop 4).take 4))] := by
        symm
        refine halves_ext rfl ?_
        have b0 := bytesVal_lt (s.take 8)
        have b1 := bytesVal_lt (s.take 4)
        have b2 := bytesVal_lt ((s.drop 4).take 4)
        have e := bytesVal_take (s.take 8) 4
        rw [List.take_take, List.drop_take, show min 4 8 = 4 from rfl, List.length_take, show min 4 (min 8 s.length) = 4 by omega] at e
        rw [List.length_take, show min 8 s.length = 8 by omega] at b0
        rw [List.length_take, show min 4 s.length = 4 by omega] at b1
        rw [List.length_take, List.length_drop, show min 4 (s.length - 4) = 4 by omega] at b2
        rw [W32.val, W32.val, W32.val, val, val, BitVec.toNat_ofNat, BitVec.toNat_ofNat, BitVec.toNat_ofNat]
        norm_num at b0 b1 b2 e ⊢
        omega
      cases readLimbs n (s.drop 8) with
      | abort => rfl
      | ub => rfl
      | ok r =>
        simp only [Outcome.map_ok]
        rw [halves]
        rw [halves, halves] at hv
        simp only [List.cons.injEq] at hv
        rw [hv.1, hv.2.1]

theorem readLimbs_ok_length (n : Nat) (s : List Byte) (r : List Limb × List Byte) (h : readLimbs n s = .ok r) : r.1.length = n := by
  induction n generalizing s r with
  | zero => cases h; rfl
  | succ n ih =>
    rw [readLimbs] at h
    split_ifs at h
    cases hr : readLimbs n (s.drop 8) with
    | abort => rw [hr] at h; cases h
    | ub => rw [hr] at h; cases h
    | ok q =>
      rw [hr, Outcome.map_ok] at h
      cases h
      rw [List.length_cons, ih _ _ hr]

/-- C79. What is read, in all four formats, from every stream: the same element, the same rest, or the same failure. -/
theorem C79_read (mont binary : Bool) (P : FpParams) (Q : W32.FpParams) (h : SameField P Q) (s : List Byte) :
    W32.fpRead mont binary Q s = (fpRead mont binary P s).map fun r => (halves r.1, r.2) := by
  have hr : W32.bigintRead binary Q.n s = (bigintRead binary P.n s).map fun r => (halves r.1, r.2) := by
    rw [W32.bigintRead, bigintRead, h.n]
    cases binary
    · rw [if_neg (by decide), if_neg (by decide)]
      simp only [C79_of_string]
      cases bigintOfString P.n (readToken s).1 <;> rfl
    · exact readLimbs_halves P.n s
  have hlen : ∀ r, bigintRead binary P.n s = .ok r → r.1.length = P.n := by
    intro r e
    rw [bigintRead] at e
    cases binary
    · rw [if_neg (by decide)] at e
      simp only [bigintOfString] at e
      cases hd : digitVals (readToken s).1 with
      | abort => rw [hd] at e; cases e
      | ub => rw [hd] at e; cases e
      | ok ds =>
        rw [hd, Outcome.bind_ok] at e
        split_ifs at e <;> cases e
        simp
    · exact readLimbs_ok_length _ _ _ e
  rw [W32.fpRead, fpRead, hr]
  cases hb : bigintRead binary P.n s with
  | abort => rfl
  | ub => rfl
  | ok r =>
    rw [Outcome.map_ok, Outcome.bind_ok, Outcome.bind_ok]
    cases mont
    · rw [if_neg (by decide), if_neg (by decide), h.rsquared]
      have hl := hlen r hb
      rw [h.mul hl h.v64.r2len (lt_pR h.v64 hl h.v64.r2_lt)]
      cases mulReduce P r.1 P.Rsquared <;> rfl
    · rfl

/-- A scalar of two words of 64 bits, an element and a number that is one too large (2^64 in two words of 32). -/
example : W32.findWnaf 2 (halves [0xffffffff00000005, 7]) = findWnaf 2 [0xffffffff00000005, 7] ∧
    W32.bigintNumBits [5, 0xffffffff, 7, 0] = 67 ∧ W32.testBit [5, 0xffffffff, 7, 0] 66 = true ∧
    W32.fpWrite false false W32.alt_bn128_Fr_params (halves [1, 2, 3, 4]) = fpWrite false false alt_bn128_Fr_params [1, 2, 3, 4] ∧
    W32.bigintOfString 2 [49, 56, 52, 52, 54, 55, 52, 52, 48, 55, 51, 55, 48, 57, 53, 53, 49, 54, 49, 54] = .ub := by
  refine ⟨C79_wnaf _ _, by decide +kernel, by decide +kernel, C79_write _ _ _ _ C79_same_fields.1.1 _ rfl (by decide +kernel), by decide +kernel⟩

end Libff
