import Verif.Spec.GroupCounters
import Verif.Lemmas.CurveBatch
import Verif.Lemmas.CurveEdwRep
import Verif.Lemmas.Bn128
import Verif.Lemmas.GroupRel
import Verif.Lemmas.Counters
import Mathlib.GroupTheory.OrderOfElement

/-! Lemmas for C73: counters of the group classes. -/
namespace Libff

namespace GCnt
theorem add_def (s t : GCnt) : s + t = ⟨s.add_cnt + t.add_cnt, s.dbl_cnt + t.dbl_cnt⟩ := rfl
theorem add_zero (s : GCnt) : s + ⟨0, 0⟩ = s := by simp [add_def]
theorem bumpAdd_eq (s : GCnt) : s.bumpAdd = s + ⟨1, 0⟩ := by simp [add_def, bumpAdd]
theorem bumpDbl_eq (s : GCnt) : s.bumpDbl = s + ⟨0, 1⟩ := by simp [add_def, bumpDbl]
end GCnt
open GCnt

section
variable {A : Type} [AddCommGroup A]

theorem tally_zero_left (a d : GCnt) (Q : A) : tally a d 0 Q = ⟨0, 0⟩ := by simp [tally]
theorem tally_zero_right (a d : GCnt) (P : A) : tally a d P 0 = ⟨0, 0⟩ := by simp [tally]
theorem tally_self (a d : GCnt) {P : A} (h : P ≠ 0) : tally a d P P = d := by simp [tally, h]
theorem tally_ne (a d : GCnt) {P Q : A} (h : P ≠ 0) (h' : Q ≠ 0) (hn : P ≠ Q) : tally a d P Q = a := by simp [tally, h, h', hn]
theorem tally_const (a : GCnt) {P Q : A} (h : P ≠ 0) (h' : Q ≠ 0) : tally a a P Q = a := by simp [tally, h, h']
theorem tally_nothing (P Q : A) : tally ⟨0, 0⟩ ⟨0, 0⟩ P Q = ⟨0, 0⟩ := by simp [tally]
end

/-! ## The generic cost of a scalar multiplication -/

section
variable {G A : Type} [GroupOps G] [AddCommGroup A] {Rep : G → A → Prop} {C : CountedOps G} {T : A → A → GCnt} {α : Int}

theorem scalarMulLoopC_true (h : ImplementsRel Rep) (hc : CountsBy inferInstance Rep C T)
    (hT : ∀ P Q : A, P ≠ 0 → Q ≠ 0 → P ≠ Q → T P Q = ⟨α, 0⟩) {base : G} {g : A} (hg : Rep base g) (e : List Limb) :
    ∀ (i : Nat) (res : G) (m : Nat) (s : GCnt), Rep res (m • g) → 0 < m → m * 2 ^ i + val e % 2 ^ i < addOrderOf g →
      scalarMulLoopC C base e i (true, res) s =
        (scalarMulLoop base e i (true, res), s + ⟨α * ((List.range i).countP (val e).testBit : Nat), i⟩) := by
  intro i
  induction i with
  | zero => intro res m s _ _ _; simp [scalarMulLoopC, scalarMulLoop, add_zero]
  | succ i ih =>
    intro res m s hr hm hlt
    have hd : Rep (GroupOps.dbl res) ((2 * m) • g) := by
      have := h.dbl hr
      rwa [← add_nsmul, ← two_mul] at this
    have hmod : val e % 2 ^ (i + 1) = ((val e).testBit i).toNat * 2 ^ i + val e % 2 ^ i := by
      rw [pow_succ, Nat.mod_mul, Nat.add_comm, Nat.mul_comm, ← Nat.toNat_testBit]
    have h2i : 0 < 2 ^ i := Nat.two_pow_pos i
    have hpow : 2 ^ (i + 1) = 2 * 2 ^ i := by rw [pow_succ, Nat.mul_comm]
    rw [hmod, hpow] at hlt
    unfold scalarMulLoopC scalarMulLoop
    simp only [if_true, hc.dbl s hr, testBit_eq]
    rw [List.range_succ, List.countP_append]
    cases hb : (val e).testBit i with
    | false =>
      rw [hb] at hlt
      simp only [Bool.false_eq_true, if_false]
      rw [ih _ (2 * m) _ hd (by omega) (by simp only [Bool.toNat_false] at hlt; nlinarith)]
      refine Prod.ext rfl ?_
      simp [add_def, hb]
      ring
    | true =>
      rw [hb] at hlt
      simp only [if_true]
      simp only [Bool.toNat_true] at hlt
      have hm2 : 2 * m < addOrderOf g := by
        have : m * 2 ≤ m * (2 * 2 ^ i) := Nat.mul_le_mul_left _ (by omega)
        omega
      have hg0 : g ≠ 0 := fun h0 => by
        rw [h0, addOrderOf_zero] at hm2; omega
      have hne0 : (2 * m) • g ≠ 0 := nsmul_ne_zero_of_lt_addOrderOf (by omega) hm2
      have hne : (2 * m) • g ≠ g := fun h1 => by
        have : (2 * m - 1) • g ≠ 0 := nsmul_ne_zero_of_lt_addOrderOf (by omega) (by omega)
        apply this
        obtain ⟨n, rfl⟩ : ∃ n, m = n + 1 := ⟨m - 1, by omega⟩
        have e2 : 2 * (n + 1) - 1 = 2 * n + 1 := by omega
        rw [e2]
        have e3 : 2 * (n + 1) = (2 * n + 1) + 1 := by omega
        rw [e3, succ_nsmul] at h1
        exact add_eq_right.1 h1
      rw [hc.add _ hd hg, hT _ _ hne0 hg0 hne]
      have ha : Rep (GroupOps.add (GroupOps.dbl res) base) ((2 * m + 1) • g) := by
        rw [succ_nsmul]; exact h.add hd hg
      simp only []
      rw [ih _ (2 * m + 1) _ ha (by omega) (by nlinarith)]
      refine Prod.ext rfl ?_
      simp [add_def, hb]
      constructor <;> ring

theorem scalarMulLoopC_false (hc : CountsBy inferInstance Rep C T) (base : G) (e : List Limb) (res : G) (s : GCnt) (k d : Nat)
    (hk : ∀ i, k ≤ i → (val e).testBit i = false) :
    scalarMulLoopC C base e (k + d) (false, res) s = scalarMulLoopC C base e k (false, res) s ∧
      scalarMulLoop base e (k + d) (false, res) = scalarMulLoop base e k (false, res) := by
  induction d with
  | zero => exact ⟨rfl, rfl⟩
  | succ d ih =>
    rw [← Nat.add_assoc]
    constructor
    · conv_lhs => unfold scalarMulLoopC
      simp only [testBit_eq, hk (k + d) (by omega), Bool.false_eq_true, if_false]
      exact ih.1
    · conv_lhs => unfold scalarMulLoop
      simp only [testBit_eq, hk (k + d) (by omega), Bool.false_eq_true, if_false]
      exact ih.2

theorem scalarMulC_count (h : ImplementsRel Rep) (hc : CountsBy inferInstance Rep C T) (hT0 : ∀ Q : A, T 0 Q = ⟨0, 0⟩)
    (hT : ∀ P Q : A, P ≠ 0 → Q ≠ 0 → P ≠ Q → T P Q = ⟨α, 0⟩) {base : G} {g : A} (hg : Rep base g) (e : List Limb)
    (hpos : 0 < val e) (hlt : val e < addOrderOf g) (s : GCnt) :
    scalarMulC C base e s = (scalarMul base e, s + ⟨α * ((onesOf (val e) : Int) - 1), ((val e).size : Int) - 1⟩) := by
  have hmax : (val e).size ≤ bigintMaxBits e := Nat.size_le.2 (by have := val_lt e; rwa [bigintMaxBits, Nat.mul_comm])
  obtain ⟨d, hd⟩ := Nat.exists_eq_add_of_le hmax
  obtain ⟨j, hj⟩ : ∃ j, (val e).size = j + 1 := ⟨(val e).size - 1, by
    have := Nat.size_pos.2 hpos; omega⟩
  unfold scalarMulC scalarMul
  have hz : ∀ i, (val e).size ≤ i → (val e).testBit i = false := fun i hi => Nat.testBit_lt_two_pow
    (lt_of_lt_of_le (Nat.size_le.1 le_rfl) (Nat.pow_le_pow_right (by norm_num) hi))
  rw [hd, (scalarMulLoopC_false hc base e C.zero s _ d hz).1, (scalarMulLoopC_false hc base e GroupOps.zero s _ d hz).2]
  have hlo : 2 ^ j ≤ val e := Nat.lt_size.1 (by omega)
  have hhi : val e < 2 ^ (j + 1) := Nat.size_le.1 (by omega)
  have hb : (val e).testBit j = true := Nat.testBit_of_two_pow_le_and_two_pow_add_one_gt hlo hhi
  unfold onesOf
  rw [hj, List.range_succ, List.countP_append]
  unfold scalarMulLoopC scalarMulLoop
  have h0 : Rep (GroupOps.zero : G) 0 := h.zero
  simp only [testBit_eq, hb, if_true, Bool.false_eq_true, if_false, hc.zero, hc.add s h0 hg, hT0]
  have ha : Rep (GroupOps.add (GroupOps.zero : G) base) (1 • g) := by
    rw [one_nsmul]; have := h.add h0 hg; rwa [zero_add] at this
  have hm : 1 * 2 ^ j + val e % 2 ^ j = val e := by
    have : val e / 2 ^ j = 1 := by
      have h1 : val e / 2 ^ j < 2 := Nat.div_lt_of_lt_mul (by rw [← pow_succ]; exact hhi)
      have h2 : 0 < val e / 2 ^ j := Nat.div_pos hlo (Nat.two_pow_pos j)
      omega
    have h3 := Nat.div_add_mod (val e) (2 ^ j)
    rw [this] at h3
    omega
  rw [scalarMulLoopC_true h hc hT hg e j _ 1 _ ha (by omega) (by rw [hm]; exact hlt)]
  refine Prod.ext rfl ?_
  simp [add_def, hb]

end

/-! ## The classes -/

section
variable {K : Type} [Field K] [DecidableEq K] [Squared K] [LawfulSquared K]

namespace Jac
variable {b : K}

/-- The doubling test of `operator+` is the comparison of the points. -/
theorem dblTest_iff {p q : Coord3 K} {P Q : (sw 0 b).Point} (hp : JacRep p P) (hq : JacRep q Q) (h1 : isZero p ≠ true) (h2 : isZero q ≠ true) :
    (p.X * squared q.Z = q.X * squared p.Z ∧ p.Y * (q.Z * squared q.Z) = q.Y * (p.Z * squared p.Z)) ↔ P = Q := by
  rw [← eq_rep hp hq]
  unfold eq
  rw [if_neg h1, if_neg h2]
  by_cases hx : p.X * squared q.Z = q.X * squared p.Z <;> simp [hx]

theorem addC_tally (counted : Bool) {p q : Coord3 K} {P Q : (sw 0 b).Point} (s : GCnt) (hp : JacRep p P) (hq : JacRep q Q) :
    addC counted p q s = (add p q, s + tally (if counted then ⟨1, 0⟩ else ⟨0, 0⟩) ⟨0, 1⟩ P Q) := by
  unfold addC
  by_cases h1 : isZero p = true
  · rw [if_pos h1, (isZero_rep hp).1 h1, tally_zero_left, GCnt.add_zero, add, if_pos h1]
  · by_cases h2 : isZero q = true
    · rw [if_neg h1, if_pos h2, (isZero_rep hq).1 h2, tally_zero_right, GCnt.add_zero, add, if_neg h1, if_pos h2]
    · have hP := mt (isZero_rep hp).2 h1
      have hQ := mt (isZero_rep hq).2 h2
      rw [if_neg h1, if_neg h2]
      by_cases h3 : P = Q
      · have h3' := (dblTest_iff hp hq h1 h2).2 h3
        subst h3
        rw [tally_self _ _ hP]
        simp only []
        rw [if_pos h3', dblC, bumpDbl_eq]
        refine Prod.ext ?_ rfl
        unfold add
        rw [if_neg h1, if_neg h2]
        simp only []
        rw [if_pos h3']
      · have h3' := mt (dblTest_iff hp hq h1 h2).1 h3
        rw [tally_ne _ _ hP hQ h3]
        simp only []
        rw [if_neg h3']
        cases counted <;> simp [bumpAdd_eq, GCnt.add_zero]

theorem countsBy (counted : Bool) :
    CountsBy Jac.ops (JacRep (W := sw 0 b)) (opsC counted) (tally (if counted then ⟨1, 0⟩ else ⟨0, 0⟩) ⟨0, 1⟩) where
  zero := rfl
  add s hp hq := addC_tally counted s hp hq
  sub s hp hq := addC_tally counted s hp (neg_rep hq)
  dbl s _ := Prod.ext rfl (bumpDbl_eq s)

theorem mixedAddC_tally {p q : Coord3 K} {P Q : (sw 0 b).Point} (s : GCnt) (hp : JacRep p P) (hq : JacRep q Q) (hs : isSpecial q = true) :
    mixedAddC p q s = (mixedAddRelease p q, s + sumTally P Q) := by
  unfold mixedAddC sumTally
  by_cases h1 : isZero p = true
  · rw [if_pos h1, (isZero_rep hp).1 h1, tally_zero_left, GCnt.add_zero, mixedAddRelease, if_pos h1]
  · by_cases h2 : isZero q = true
    · rw [if_neg h1, if_pos h2, (isZero_rep hq).1 h2, tally_zero_right, GCnt.add_zero, mixedAddRelease, if_neg h1, if_pos h2]
    · have hP := mt (isZero_rep hp).2 h1
      have hQ := mt (isZero_rep hq).2 h2
      have hz : q.Z = 1 := by
        rw [Bool.not_eq_true] at h2
        simpa [isSpecial, h2] using hs
      have ht := dblTest_iff hp hq h1 h2
      rw [hz, LawfulSquared.squared_eq (1 : K)] at ht
      simp only [mul_one] at ht
      rw [if_neg h1, if_neg h2]
      by_cases h3 : P = Q
      · have h3' := ht.2 h3
        subst h3
        rw [tally_self _ _ hP]
        simp only []
        rw [if_pos h3', dblC, bumpDbl_eq]
        refine Prod.ext ?_ rfl
        unfold mixedAddRelease
        rw [if_neg h1, if_neg h2]
        simp only []
        rw [if_pos h3']
      · have h3' := mt ht.1 h3
        rw [tally_ne _ _ hP hQ h3]
        simp only []
        rw [if_neg h3', bumpAdd_eq]

end Jac

namespace Proj
variable {a b : K} (mulA : K → K)

omit [LawfulSquared K] in
theorem countsBy : CountsBy (Proj.ops mulA) (ProjRep (W := sw a b)) (opsC mulA) (tally ⟨0, 0⟩ ⟨0, 0⟩) where
  zero := rfl
  add s _ _ := Prod.ext rfl (by rw [tally_nothing]; exact (GCnt.add_zero s).symm)
  sub s _ _ := Prod.ext rfl (by rw [tally_nothing]; exact (GCnt.add_zero s).symm)
  dbl s _ := Prod.ext rfl (bumpDbl_eq s)

omit [LawfulSquared K] in
theorem addC_tally {p q : Coord3 K} {P Q : (sw a b).Point} (s : GCnt) (hp : ProjRep p P) (hq : ProjRep q Q) :
    addC mulA p q s = (add mulA p q, s + sumTally P Q) := by
  unfold addC sumTally
  by_cases h1 : isZero p = true
  · rw [if_pos h1, (isZero_rep hp).1 h1, tally_zero_left, GCnt.add_zero, add, if_pos h1]
  · by_cases h2 : isZero q = true
    · rw [if_neg h1, if_pos h2, (isZero_rep hq).1 h2, tally_zero_right, GCnt.add_zero, add, if_neg h1, if_pos h2]
    · have hP := mt (isZero_rep hp).2 h1
      have hQ := mt (isZero_rep hq).2 h2
      rw [if_neg h1, if_neg h2]
      by_cases h3 : P = Q
      · have h3' := (eq_rep hp hq).2 h3
        subst h3
        rw [tally_self _ _ hP, if_pos h3', dblC, bumpDbl_eq, add, if_neg h1, if_neg h2, if_pos h3']
      · have h3' := mt (eq_rep hp hq).1 h3
        rw [tally_ne _ _ hP hQ h3, if_neg h3', bumpAdd_eq]

omit [LawfulSquared K] in
/-- `mixed_add` counts an addition always, and a doubling in addition when the points are equal. -/
theorem mixedAddC_eq (debug : Bool) {p q : Coord3 K} {P Q : (sw a b).Point} (s : GCnt) (hp : ProjRep p P) (hq : ProjRep q Q)
    (hs : isSpecial q = true) :
    mixedAddC mulA debug p q s = (mixedAdd mulA debug p q).map (·, s + ⟨1, 0⟩ + tally ⟨0, 0⟩ ⟨0, 1⟩ P Q) := by
  unfold mixedAddC mixedAdd
  rw [bumpAdd_eq]
  by_cases h1 : isZero p = true
  · rw [if_pos h1, if_pos h1, (isZero_rep hp).1 h1, tally_zero_left, GCnt.add_zero]; rfl
  · by_cases h2 : isZero q = true
    · rw [if_neg h1, if_pos h2, if_neg h1, if_pos h2, (isZero_rep hq).1 h2, tally_zero_right, GCnt.add_zero]; rfl
    · have hP := mt (isZero_rep hp).2 h1
      have hQ := mt (isZero_rep hq).2 h2
      have hz : q.Z = 1 := by
        rw [Bool.not_eq_true] at h2
        simpa [isSpecial, h2] using hs
      have ht : (p.X = p.Z * q.X ∧ p.Y = p.Z * q.Y) ↔ P = Q := by
        rw [← eq_rep hp hq]
        unfold eq
        rw [if_neg h1, if_neg h2, hz, mul_one, mul_one, mul_comm q.X, mul_comm q.Y]
        by_cases hx : p.X = p.Z * q.X <;> by_cases hy : p.Y = p.Z * q.Y <;> simp [hx, hy]
      have hd : (debug && !isSpecial q) ≠ true := by simp [hs]
      rw [if_neg h1, if_neg h2, if_neg hd, if_neg h1, if_neg h2, if_neg hd]
      by_cases h3 : P = Q
      · have h3' := ht.2 h3
        subst h3
        rw [tally_self _ _ hP]
        simp only []
        rw [if_pos h3', if_pos h3', dblC, bumpDbl_eq]
        rfl
      · have h3' := mt ht.1 h3
        rw [tally_ne _ _ hP hQ h3, GCnt.add_zero]
        simp only []
        rw [if_neg h3', if_neg h3']

end Proj

namespace Edw
variable {a d : K} (mulA mulD : K → K) {H : AddSubgroup (edwW a d).Point}

omit [LawfulSquared K] in
theorem plusC_tally {p q : Coord3 K} {P Q : (edwW a d).Point} (s : GCnt) (hp : EdwRep p P) (hq : EdwRep q Q) :
    plusC mulA mulD p q s = (plus mulA mulD p q, s + tally ⟨1, 0⟩ ⟨1, 0⟩ P Q) := by
  unfold plusC plus
  by_cases h1 : isZero p = true
  · rw [if_pos h1, if_pos h1, (isZero_rep hp).1 h1, tally_zero_left, GCnt.add_zero]
  · by_cases h2 : isZero q = true
    · rw [if_neg h1, if_pos h2, if_neg h1, if_pos h2, (isZero_rep hq).1 h2, tally_zero_right, GCnt.add_zero]
    · have hP := mt (isZero_rep hp).2 h1
      have hQ := mt (isZero_rep hq).2 h2
      rw [if_neg h1, if_neg h2, if_neg h1, if_neg h2, tally_const _ hP hQ, addC, bumpAdd_eq]

omit [LawfulSquared K] in
theorem countsBy : CountsBy (Edw.ops mulA mulD) (EdwRepIn H) (opsC mulA mulD) (tally ⟨1, 0⟩ ⟨1, 0⟩) where
  zero := rfl
  add s hp hq := plusC_tally mulA mulD s hp.2 hq.2
  sub s hp hq := plusC_tally mulA mulD s hp.2 (neg_rep hq.2)
  dbl s _ := Prod.ext rfl (bumpDbl_eq s)

omit [LawfulSquared K] in
theorem countsBy1 : CountsBy (Edw.ops1 mulD) (EdwRepIn H) (ops1C mulD) (tally ⟨1, 0⟩ ⟨1, 0⟩) where
  zero := rfl
  add s hp hq := plusC_tally _ mulD s hp.2 hq.2
  sub s hp hq := plusC_tally _ mulD s hp.2 (neg_rep hq.2)
  dbl s _ := Prod.ext rfl (bumpDbl_eq s)

end Edw
end

namespace Bn128
variable {K : Type} [Field K] [DecidableEq K] {b : K} (E : EcOps K)

theorem plusC_tally {p q : Coord3 K} {P Q : (sw 0 b).Point} (s : GCnt) (hp : JacRep p P) (hq : JacRep q Q) :
    plusC E p q s = (plus E p q, s + sumTally P Q) := by
  unfold plusC plus sumTally
  by_cases h1 : isZero p = true
  · rw [if_pos h1, if_pos h1, (isZero_rep hp).1 h1, tally_zero_left, GCnt.add_zero]
  · by_cases h2 : isZero q = true
    · rw [if_neg h1, if_pos h2, if_neg h1, if_pos h2, (isZero_rep hq).1 h2, tally_zero_right, GCnt.add_zero]
    · have hP := mt (isZero_rep hp).2 h1
      have hQ := mt (isZero_rep hq).2 h2
      rw [if_neg h1, if_neg h2, if_neg h1, if_neg h2]
      by_cases h3 : P = Q
      · have h3' := (eq_rep hp hq).2 h3
        subst h3
        rw [tally_self _ _ hP, if_pos h3', if_pos h3', dblC, bumpDbl_eq]
      · have h3' := mt (eq_rep hp hq).1 h3
        rw [tally_ne _ _ hP hQ h3, if_neg h3', if_neg h3', addC, bumpAdd_eq]

theorem mixedAddC_tally {p q : Coord3 K} {P Q : (sw 0 b).Point} (s : GCnt) (hp : JacRep p P) (hq : JacRep q Q) (hs : isSpecial q = true) :
    ∃ v, mixedAdd E true p q = .ok v ∧ mixedAddC E p q s = (v, s + sumTally P Q) := by
  unfold mixedAddC mixedAdd sumTally
  by_cases h1 : isZero p = true
  · rw [if_pos h1, if_pos h1, (isZero_rep hp).1 h1, tally_zero_left, GCnt.add_zero]
    exact ⟨_, rfl, rfl⟩
  · by_cases h2 : isZero q = true
    · rw [if_neg h1, if_pos h2, if_neg h1, if_pos h2, (isZero_rep hq).1 h2, tally_zero_right, GCnt.add_zero]
      exact ⟨_, rfl, rfl⟩
    · have hP := mt (isZero_rep hp).2 h1
      have hQ := mt (isZero_rep hq).2 h2
      have hz : q.Z = 1 := by
        rw [Bool.not_eq_true] at h2
        simpa [isSpecial, h2] using hs
      have ht : (p.X = q.X * (p.Z * p.Z) ∧ p.Y = q.Y * (p.Z * (p.Z * p.Z))) ↔ P = Q := by
        rw [← eq_rep hp hq]
        unfold eq
        rw [if_neg h1, if_neg h2, hz]
        have e1 : q.X * (p.Z * p.Z) = p.Z * p.Z * q.X := mul_comm _ _
        have e2 : q.Y * (p.Z * (p.Z * p.Z)) = p.Z * p.Z * p.Z * q.Y := by ring
        rw [e1, e2]
        simp only [one_mul]
        by_cases hx : p.X = p.Z * p.Z * q.X <;> simp [hx]
      have hd : (true && !isSpecial q) ≠ true := by simp [hs]
      rw [if_neg h1, if_neg h2, if_neg h1, if_neg h2, if_neg hd]
      refine ⟨_, rfl, ?_⟩
      by_cases h3 : P = Q
      · have h3' := ht.2 h3
        subst h3
        rw [tally_self _ _ hP]
        simp only []
        rw [if_pos h3', dblC, bumpDbl_eq]
        refine Prod.ext ?_ rfl
        unfold mixedAddRelease
        simp only []
        rw [if_pos h3']
      · have h3' := mt ht.1 h3
        rw [tally_ne _ _ hP hQ h3]
        simp only []
        rw [if_neg h3', bumpAdd_eq]

theorem countsBy : CountsBy (Bn128.ops E) (JacRep (W := sw 0 b)) (opsC E) sumTally where
  zero := rfl
  add s hp hq := plusC_tally E s hp hq
  sub s hp hq := plusC_tally E s hp (Jac.neg_rep hq)
  dbl s _ := Prod.ext rfl (bumpDbl_eq s)

end Bn128
end Libff
