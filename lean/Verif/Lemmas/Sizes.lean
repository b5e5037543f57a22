import Verif.Model.Sizes
import Verif.Spec.Constants
import Verif.Lemmas.FpType
import Verif.Lemmas.PointCount
import Mathlib.Algebra.CharP.CharAndCard

/-! # Lemmas for C77 -/
namespace Libff

/-- A field of `p^d` elements, reported as it is by the extension classes. -/
theorem tower_true {D : PrimeField} (h : D.Consistent) {K : Type} [Field K] [Fintype K] {I : FieldInfo} (hc : I.char = D.P.modulus)
    (hd : Fintype.card K = D.P.p ^ I.degree) (hpos : I.degree ≠ 0) (hceil : I.ceilBits = I.degree * D.numBits)
    (hfloor : I.floorBits = I.degree * (D.numBits - 1)) : I.TrueOf K ∧ Nat.card K < 2 ^ I.ceilBits := by
  have hp : val I.char = D.P.p := by rw [hc]
  have : Fact (D.P.p).Prime := ⟨h.prime⟩
  have hn : Nat.card K = D.P.p ^ I.degree := by rw [Nat.card_eq_fintype_card, hd]
  have hlt : Nat.card K < 2 ^ I.ceilBits := by
    rw [hn, hceil, mul_comm, pow_mul]; exact Nat.pow_lt_pow_left h.bits_hi hpos
  refine ⟨⟨by rw [hp]; exact h.prime, by rw [hp]; exact charP_of_card_eq_prime_pow hd, by rw [hp, hn], hlt.le, ?_⟩, hlt⟩
  rw [hn, hfloor, mul_comm, pow_mul]; exact Nat.pow_le_pow_left h.bits_lo _

/-- A field of `2^n` elements. -/
theorem binary_true {K : Type} [CommRing K] (hK : IsField K) {I : FieldInfo} (hc : val I.char = 2) (hd : Nat.card K = 2 ^ I.degree)
    (hceil : I.ceilBits = I.degree) (hfloor : I.floorBits = I.degree) : I.TrueOf K := by
  have := hK.isDomain
  have : Finite K := Nat.finite_of_card_ne_zero (by rw [hd]; positivity)
  have := Fintype.ofFinite K
  have : Fact (2 : Nat).Prime := ⟨Nat.prime_two⟩
  refine ⟨by rw [hc]; exact Nat.prime_two, ?_, by rw [hc, hd], by rw [hd, hceil], by rw [hd, hfloor]⟩
  rw [hc]; exact charP_of_card_eq_prime_pow (f := I.degree) (by rw [← Nat.card_eq_fintype_card, hd])

open WeierstrassCurve.Affine in
/-- A curve over such a field. -/
theorem group_true {K : Type} [Field K] [Finite K] [DecidableEq K] {F : FieldInfo} (hF : F.TrueOf K ∧ Nat.card K < 2 ^ F.ceilBits)
    {I : GroupInfo} {r : FpParams} (hr : r.p.Prime) {a₂ a₄ a₆ : K} {P : (weier a₂ a₄ a₆).Point} (hP : addOrderOf P = r.p)
    (hc : I.char = F.char) (ho : I.order = r.modulus) (hs : I.sizeInBits = F.ceilBits + 1) : I.TrueOf K (weier a₂ a₄ a₆).Point P := by
  have e : val I.order = r.p := by rw [ho]
  refine ⟨by rw [hc]; exact hF.1.char, by rw [e]; exact hr, by rw [e, Nat.card_zmultiples, hP], ?_⟩
  have h1 := point_card_le (F := K) (a₂ := a₂) (a₄ := a₄) (a₆ := a₆)
  have h2 := hF.2
  rw [hs, pow_succ]; omega

/-- Limb number `i`. -/
theorem limb_eq (l : List Limb) (i : Nat) (h : i < l.length) : (l[i]).toNat = val l / 2 ^ (64 * i) % 2 ^ 64 := by
  induction l generalizing i with
  | nil => simp at h
  | cons x l ih =>
    cases i with
    | zero => simp [val]; omega
    | succ i =>
      have h' : i < l.length := by simpa using h
      have e : val (x :: l) / 2 ^ (64 * (i + 1)) = val l / 2 ^ (64 * i) := by
        rw [show 64 * (i + 1) = 64 + 64 * i by ring, pow_add, ← Nat.div_div_eq_div_mul]
        congr 1
        have := x.isLt
        simp only [val]; omega
      rw [e]; simpa using ih i h'

theorem wordAt_eq {l : List Limb} {i : Nat} (h : i < l.length) :
    ∃ w, wordAt l i = .ok w ∧ w.toNat = val l / 2 ^ (64 * i) % 2 ^ 64 :=
  ⟨l[i], by simp [wordAt, h], limb_eq l i h⟩

theorem wordAt_ub {l : List Limb} {i : Nat} (h : l.length ≤ i) : wordAt l i = .ub := by
  simp [wordAt, List.getElem?_eq_none h]

end Libff
