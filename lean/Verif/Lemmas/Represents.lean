import Verif.Lemmas.FpInv
import Verif.Spec.Mont
import Mathlib.FieldTheory.Finite.Basic
import Mathlib.Algebra.Field.ZMod

/-! # The limb-level operations on represented residues -/
namespace Libff

theorem FpParams.Valid.coprimeR {P : FpParams} (hP : P.Valid) : Nat.Coprime (2 ^ (64 * P.n)) P.p := by
  apply Nat.Coprime.pow_left
  have h2 : ¬ 2 ∣ P.p := by
    rintro ⟨k, hk⟩
    have := hP.inv
    rw [hk] at this
    have e : P.inv.toNat * (2 * k) = 2 * (P.inv.toNat * k) := by ring
    rw [e] at this
    omega
  exact (Nat.Prime.coprime_iff_not_dvd Nat.prime_two).2 h2

theorem FpParams.Valid.unitR {P : FpParams} (hP : P.Valid) : IsUnit ((2 : ZMod P.p) ^ (64 * P.n)) := by
  have := (ZMod.isUnit_iff_coprime (2 ^ (64 * P.n)) P.p).2 hP.coprimeR
  simpa using this

theorem FpParams.Valid.neZero {P : FpParams} (hP : P.Valid) : NeZero P.p := ⟨by have := hP.one_lt; omega⟩

theorem Represents.inj {P : FpParams} {l l' : List Limb} {x : ZMod P.p}
    (h : Represents P l x) (h' : Represents P l' x) : l = l' := by
  apply val_inj (by rw [h.len, h'.len])
  have : (val l : ZMod P.p) = (val l' : ZMod P.p) := by rw [h.eq, h'.eq]
  rw [ZMod.natCast_eq_natCast_iff'] at this
  rwa [Nat.mod_eq_of_lt h.lt, Nat.mod_eq_of_lt h'.lt] at this

theorem Represents.val_unique {P : FpParams} (hP : P.Valid) {l : List Limb} {x y : ZMod P.p}
    (h : Represents P l x) (h' : Represents P l y) : x = y :=
  hP.unitR.mul_right_cancel (h.eq.symm.trans h'.eq)

/-- Every canonical limb vector represents a residue. -/
theorem Represents.exists_val {P : FpParams} (hP : P.Valid) {l : List Limb}
    (hl : l.length = P.n) (hlt : val l < P.p) :
    Represents P l ((val l : ZMod P.p) * ((2 : ZMod P.p) ^ (64 * P.n))⁻¹) :=
  ⟨hl, hlt, by rw [mul_assoc, ZMod.inv_mul_of_unit _ hP.unitR, mul_one]⟩

theorem Represents.exists_repr {P : FpParams} (hP : P.Valid) (x : ZMod P.p) :
    Represents P (limbsOf P.n (x * 2 ^ (64 * P.n)).val) x := by
  have := hP.neZero
  have h1 := ZMod.val_lt (x * 2 ^ (64 * P.n))
  have hb := hP.topBit
  have hv : val (limbsOf P.n (x * 2 ^ (64 * P.n)).val) = (x * 2 ^ (64 * P.n)).val := by
    rw [val_limbsOf, Nat.mod_eq_of_lt (by omega)]
  exact ⟨by simp, by rw [hv]; exact h1, by rw [hv]; simp⟩

theorem Represents.add {P : FpParams} (hP : P.Valid) {a b : List Limb} {x y : ZMod P.p}
    (ha : Represents P a x) (hb : Represents P b y) :
    ∃ r, addAssign P a b = .ok r ∧ Represents P r (x + y) := by
  obtain ⟨r, hr, hl, hv⟩ := addAssign_spec P hP.len a b ha.len hb.len ha.lt hb.lt
  have hp := hP.one_lt
  refine ⟨r, hr, hl, by rw [hv]; exact Nat.mod_lt _ (by omega), ?_⟩
  rw [hv, ZMod.natCast_mod]
  push_cast
  rw [ha.eq, hb.eq]; ring

theorem Represents.sub {P : FpParams} (hP : P.Valid) {a b : List Limb} {x y : ZMod P.p}
    (ha : Represents P a x) (hb : Represents P b y) :
    ∃ r, subAssign P a b = .ok r ∧ Represents P r (x - y) := by
  obtain ⟨r, hr, hl, hv⟩ := subAssign_spec P hP.len a b ha.len hb.len ha.lt hb.lt
  have hp := hP.one_lt
  have hblt := hb.lt
  refine ⟨r, hr, hl, by rw [hv]; exact Nat.mod_lt _ (by omega), ?_⟩
  rw [hv, ZMod.natCast_mod, Nat.cast_sub (by omega)]
  push_cast
  rw [ha.eq, hb.eq, show ((P.p : Nat) : ZMod P.p) = 0 from ZMod.natCast_self _]; ring

theorem Represents.neg {P : FpParams} (hP : P.Valid) {a : List Limb} {x : ZMod P.p}
    (ha : Represents P a x) : Represents P (negRepr P a) (-x) := by
  obtain ⟨hl, hv⟩ := negRepr_spec P hP.len a ha.len ha.lt
  have hp := hP.one_lt
  have halt := ha.lt
  refine ⟨hl, by rw [hv]; exact Nat.mod_lt _ (by omega), ?_⟩
  rw [hv, ZMod.natCast_mod, Nat.cast_sub (by omega)]
  rw [ha.eq, show ((P.p : Nat) : ZMod P.p) = 0 from ZMod.natCast_self _]; ring

/-- Montgomery multiplication of two raw vectors whose product is below `p · R`. -/
theorem Represents.mulReduce_raw {P : FpParams} (hP : P.Valid) {a b : List Limb} {z : ZMod P.p}
    (ha : a.length = P.n) (hb : b.length = P.n) (hab : val a * val b < P.p * 2 ^ (64 * P.n))
    (hz : (val a : ZMod P.p) * val b = z * 2 ^ (64 * P.n) * 2 ^ (64 * P.n)) :
    ∃ r, mulReduce P a b = .ok r ∧ Represents P r z := by
  obtain ⟨r, hr, hl, hlt, hv⟩ := mulReduce_spec P hP a b ha hb hab
  refine ⟨r, hr, hl, hlt, ?_⟩
  rw [← ZMod.natCast_eq_natCast_iff] at hv
  push_cast at hv
  rw [hz] at hv
  exact hP.unitR.mul_right_cancel hv

theorem lt_pR {P : FpParams} (hP : P.Valid) {a b : List Limb} (ha : a.length = P.n)
    (hb : val b < P.p) : val a * val b < P.p * 2 ^ (64 * P.n) := by
  have h := val_lt a
  rw [ha] at h
  have hp := hP.one_lt
  rw [Nat.mul_comm P.p]
  exact Nat.mul_lt_mul_of_lt_of_le h hb.le (by omega)

theorem Represents.mul {P : FpParams} (hP : P.Valid) {a b : List Limb} {x y : ZMod P.p}
    (ha : Represents P a x) (hb : Represents P b y) :
    ∃ r, mulReduce P a b = .ok r ∧ Represents P r (x * y) := by
  refine mulReduce_raw hP ha.len hb.len (lt_pR hP ha.len hb.lt) ?_
  rw [ha.eq, hb.eq]; ring

theorem FpParams.Valid.r2_lt {P : FpParams} (hP : P.Valid) : val P.Rsquared < P.p := by
  rw [hP.r2]; exact Nat.mod_lt _ (by have := hP.one_lt; omega)

theorem FpParams.Valid.r2_cast {P : FpParams} (hP : P.Valid) :
    (val P.Rsquared : ZMod P.p) = 2 ^ (64 * P.n) * 2 ^ (64 * P.n) := by
  rw [hP.r2, ZMod.natCast_mod]; push_cast; ring

theorem Represents.ofBigint {P : FpParams} (hP : P.Valid) {b : List Limb} (hb : b.length = P.n) :
    ∃ r, fpOfBigint P b = .ok r ∧ Represents P r (val b : ZMod P.p) := by
  refine mulReduce_raw hP hP.r2len hb ?_ ?_
  · rw [Nat.mul_comm (val _)]; exact lt_pR hP hb hP.r2_lt
  · rw [hP.r2_cast]; ring

theorem Represents.asBigint {P : FpParams} (hP : P.Valid) {a : List Limb} {x : ZMod P.p}
    (ha : Represents P a x) : fpAsBigint P a = .ok (limbsOf P.n x.val) := by
  have := hP.neZero
  have hn := hP.n_pos
  have hv1 : val (smallBigint P.n 1) = 1 := by rw [val_smallBigint _ _ hn]; rfl
  obtain ⟨r, hr, hl, hlt, hv⟩ := mulReduce_spec P hP a (smallBigint P.n 1) ha.len (by simp) (by
    apply lt_pR hP ha.len; rw [hv1]; exact hP.one_lt)
  rw [fpAsBigint, hr]
  congr 1
  rw [← ZMod.natCast_eq_natCast_iff, hv1] at hv
  push_cast at hv
  rw [ha.eq] at hv
  have h2 : (val r : ZMod P.p) = x := by
    apply hP.unitR.mul_right_cancel; rw [hv]; simp
  have h3 : x.val = val r := by
    rw [← h2, ZMod.val_natCast_of_lt hlt]
  rw [h3, ← hl, limbsOf_val]

theorem Represents.one {P : FpParams} (hP : P.Valid) :
    ∃ r, fpOne P = .ok r ∧ Represents P r 1 := by
  refine mulReduce_raw hP (by simp) hP.r2len (lt_pR hP (by simp) hP.r2_lt) ?_
  rw [hP.r2_cast, val_smallBigint _ _ hP.n_pos]
  have : ((1 : Limb).toNat : ZMod P.p) = 1 := by simp
  rw [this]; ring

theorem Represents.zero {P : FpParams} (hP : P.Valid) : Represents P (fpZero P) 0 := by
  refine ⟨by simp [fpZero], ?_, ?_⟩
  · rw [fpZero, val_replicate_zero]; have := hP.one_lt; omega
  · rw [fpZero, val_replicate_zero]; simp

theorem Represents.isZero {P : FpParams} (hP : P.Valid) {a : List Limb} {x : ZMod P.p}
    (ha : Represents P a x) : limbsIsZero a = true ↔ x = 0 := by
  rw [limbsIsZero_iff]
  constructor
  · intro h
    have := ha.eq
    rw [h] at this
    apply hP.unitR.mul_right_cancel
    rw [← this]; simp
  · intro h
    have := ha.eq
    rw [h, zero_mul, ZMod.natCast_eq_zero_iff] at this
    exact Nat.eq_zero_of_dvd_of_lt this ha.lt

theorem Represents.ofLong {P : FpParams} (hP : P.Valid) (x : BitVec 64) (isUnsigned : Bool)
    (h : isUnsigned = true ∨ (-(2 : Int) ^ 63 < x.toInt ∧ -(P.p : Int) ≤ x.toInt)) :
    ∃ r, fpOfLong P x isUnsigned = .ok r ∧
      Represents P r (((if isUnsigned then (x.toNat : Int) else x.toInt) : Int) : ZMod P.p) := by
  have hpos : ∃ r, mulReduce P (smallBigint P.n x) P.Rsquared = .ok r ∧
      Represents P r (x.toNat : ZMod P.p) := by
    refine mulReduce_raw hP (by simp) hP.r2len (lt_pR hP (by simp) hP.r2_lt) ?_
    rw [hP.r2_cast, val_smallBigint _ _ hP.n_pos]; ring
  unfold fpOfLong
  by_cases hu : isUnsigned = true
  · rw [if_pos (by simp [hu]), if_pos hu]
    simpa using hpos
  · have hu' : isUnsigned = false := by simpa using hu
    rw [if_neg hu]
    obtain ⟨h1, h2⟩ := h.resolve_left hu
    by_cases hm : x.msb = true
    · rw [if_neg (by simp [hu', hm])]
      have hti := BitVec.toInt_eq_msb_cond x
      rw [if_pos hm] at hti
      have hne : x ≠ BitVec.intMin 64 := by
        rintro rfl
        rw [BitVec.toInt_intMin] at h1
        norm_num at h1
      rw [if_neg hne]
      have hneg : ((-x).toNat : Int) = -x.toInt := by
        rw [BitVec.toNat_neg]
        have := x.isLt
        have h0 : 0 < x.toNat := by
          have := BitVec.msb_eq_decide x
          rw [hm] at this
          have := of_decide_eq_true this.symm
          omega
        rw [Nat.mod_eq_of_lt (by omega)]
        omega
      have hs := mpn_sub_1_spec P.modulus (-x)
      generalize mpn_sub_1 P.modulus (-x) = d at *
      obtain ⟨hs1, hs2⟩ := hs
      have hdlt := val_lt d.1
      rw [hs2] at hdlt
      have hpv : val P.modulus = P.p := rfl
      have hle : (-x).toNat ≤ P.p := by omega
      simp only
      have hd0 : d.2.toNat = 0 := by
        by_contra hne
        have : 2 ^ (64 * P.modulus.length) * 1 ≤ 2 ^ (64 * P.modulus.length) * d.2.toNat :=
          Nat.mul_le_mul_left _ (by omega)
        omega
      rw [if_pos ((limb_eq_zero_iff _).2 hd0)]
      rw [hd0] at hs1
      refine mulReduce_raw hP (by rw [hs2, hP.len]) hP.r2len
        (lt_pR hP (by rw [hs2, hP.len]) hP.r2_lt) ?_
      have : (val d.1 : ZMod P.p) = ((x.toInt : Int) : ZMod P.p) := by
        have e : ((val d.1 : Int) : ZMod P.p) = ((P.p + x.toInt : Int) : ZMod P.p) := by
          congr 1; omega
        push_cast at e
        rw [e, show ((P.p : Nat) : ZMod P.p) = 0 from ZMod.natCast_self _, zero_add]
      rw [this, hP.r2_cast]; ring
    · rw [if_pos (by simpa [hu'] using hm)]
      have hti := BitVec.toInt_eq_msb_cond x
      rw [if_neg hm] at hti
      rw [hti]; simpa using hpos

theorem Represents.inv {P : FpParams} (hP : P.Valid) (hp : P.p.Prime) {gx : Gcdext}
    (hgx : gx.Contract) {a : List Limb} {x : ZMod P.p} (ha : Represents P a x) (hx : x ≠ 0) :
    ∃ r, invertRepr P gx a = .ok r ∧ Represents P r x⁻¹ := by
  have : Fact P.p.Prime := ⟨hp⟩
  have h0 : val a ≠ 0 := fun h => hx ((ha.isZero hP).1 ((limbsIsZero_iff a).2 h))
  have hc : Nat.Coprime (val a) P.p := by
    rw [Nat.coprime_comm, hp.coprime_iff_not_dvd]
    intro h
    have := Nat.le_of_dvd (by omega) h
    have := ha.lt
    omega
  obtain ⟨r, hr, hl, hlt, hv⟩ := invertRepr_spec P hP gx hgx a ha.len h0 hc
  refine ⟨r, hr, hl, hlt, ?_⟩
  rw [← ZMod.natCast_eq_natCast_iff] at hv
  push_cast at hv
  rw [ha.eq] at hv
  have hR := hP.unitR.ne_zero
  field_simp
  apply mul_right_cancel₀ hR
  linear_combination hv

end Libff
