import Verif.Lemmas.EdwTorsion
import Verif.Lemmas.Cofactor

/-!
# Scalar multiplication on the Edwards curve outside the group of prime order
-/
namespace Libff
open WeierstrassCurve Affine

section loop
variable {G : Type} [ops : GroupOps G] {A : Type*} [AddCommGroup A] {Rep : G → A → Prop} {base : G} {P : A} {r : Nat}

/-- One iteration of `scalar_mul`. -/
theorem mod_two_pow_bit (v n : Nat) : v % 2 ^ (n + 1) = (v.testBit n).toNat * 2 ^ n + v % 2 ^ n := by
  rw [pow_succ, Nat.mod_mul, Nat.add_comm, Nat.mul_comm, ← Nat.toNat_testBit]

/-- If doubling and adding are right as long as the multiple stays below `r`, so is `scalar_mul`. -/
theorem scalarMulLoop_below (hdbl : ∀ {p k}, 2 * k < r → Rep p (k • P) → Rep (GroupOps.dbl p) ((2 * k) • P))
    (hadd : ∀ {p k}, k + 1 < r → Rep p (k • P) → Rep (GroupOps.add p base) ((k + 1) • P)) (e : List Limb) (n : Nat) (f : Bool)
    {x : G} (k : Nat) (hx : Rep x (k • P)) (hf : f = false → k = 0) (hk : k * 2 ^ n + val e % 2 ^ n < r) :
    Rep (scalarMulLoop base e n (f, x)) ((k * 2 ^ n + val e % 2 ^ n) • P) := by
  induction n generalizing f x k with
  | zero => simpa [scalarMulLoop, Nat.mod_one] using hx
  | succ n ih =>
    rw [mod_two_pow_bit] at hk ⊢
    have hpos := Nat.two_pow_pos n
    have h2k : 2 * k < r := by
      have : 2 * k ≤ k * 2 ^ (n + 1) := by rw [pow_succ]; nlinarith
      omega
    have hy : Rep (if f = true then GroupOps.dbl x else x) ((2 * k) • P) := by
      cases f
      · have := hf rfl; subst this; simpa using hx
      · exact hdbl h2k hx
    unfold scalarMulLoop
    simp only [testBit_eq]
    cases hb : (val e).testBit n
    · rw [hb] at hk
      simp only [Bool.toNat_false, zero_mul, zero_add, Bool.false_eq_true, if_false] at hk ⊢
      have := ih f (2 * k) hy (fun h => by rw [hf h]) (by rw [pow_succ] at hk; linarith)
      rwa [show 2 * k * 2 ^ n = k * 2 ^ (n + 1) by ring] at this
    · rw [hb] at hk
      simp only [Bool.toNat_true, one_mul, if_true] at hk ⊢
      have e1 : (2 * k + 1) * 2 ^ n + val e % 2 ^ n = k * 2 ^ (n + 1) + (2 ^ n + val e % 2 ^ n) := by ring
      have hk1 : 2 * k + 1 < r := by
        have : 2 * k + 1 ≤ (2 * k + 1) * 2 ^ n := Nat.le_mul_of_pos_right _ hpos
        omega
      have := ih true (2 * k + 1) (hadd hk1 hy) (fun h => nomatch h) (by rw [e1]; exact hk)
      rwa [e1] at this

/-- The last addition of the multiplication by an odd `r`. -/
theorem scalarMulLoop_last (hdbl : ∀ {p k}, 2 * k < r → Rep p (k • P) → Rep (GroupOps.dbl p) ((2 * k) • P))
    (hadd : ∀ {p k}, k + 1 < r → Rep p (k • P) → Rep (GroupOps.add p base) ((k + 1) • P)) (hr : r % 2 = 1)
    (e : List Limb) (n : Nat) (f : Bool)
    {x : G} (k : Nat) (hx : Rep x (k • P)) (hf : f = false → k = 0) (hk : k * 2 ^ (n + 1) + val e % 2 ^ (n + 1) = r) :
    ∃ y, Rep y ((r - 1) • P) ∧ scalarMulLoop base e (n + 1) (f, x) = GroupOps.add y base := by
  induction n generalizing f x k with
  | zero =>
    have hb : (val e).testBit 0 = true := by
      rw [Nat.testBit_zero, decide_eq_true_eq]
      rw [zero_add, pow_one] at hk; omega
    have h2k : 2 * k = r - 1 := by
      rw [mod_two_pow_bit, hb] at hk
      simp only [zero_add, pow_one, pow_zero, Bool.toNat_true, one_mul, Nat.mod_one] at hk
      omega
    refine ⟨if f = true then GroupOps.dbl x else x, ?_, ?_⟩
    · rw [← h2k]
      cases f
      · have := hf rfl; subst this; simpa using hx
      · exact hdbl (by omega) hx
    · unfold scalarMulLoop
      simp only [testBit_eq, hb, if_true]
      rfl
  | succ n ih =>
    rw [mod_two_pow_bit] at hk
    have hpos := Nat.two_pow_pos (n + 1)
    have hpos' : 2 ≤ 2 ^ (n + 1) := by rw [pow_succ]; have := Nat.two_pow_pos n; omega
    have hb1 : (val e).testBit (n + 1) = true → 2 * k + 1 < r := fun hb => by
      rw [hb, Bool.toNat_true, one_mul] at hk
      have e1 : (2 * k + 1) * 2 ^ (n + 1) + val e % 2 ^ (n + 1) = r := by rw [← hk]; ring
      have : (2 * k + 1) * 2 ≤ (2 * k + 1) * 2 ^ (n + 1) := Nat.mul_le_mul_left _ hpos'
      omega
    have h2k : 2 * k < r := by
      have : 2 * k ≤ k * 2 ^ (n + 1 + 1) := by rw [pow_succ]; nlinarith
      omega
    have hy : Rep (if f = true then GroupOps.dbl x else x) ((2 * k) • P) := by
      cases f
      · have := hf rfl; subst this; simpa using hx
      · exact hdbl h2k hx
    unfold scalarMulLoop
    simp only [testBit_eq]
    cases hb : (val e).testBit (n + 1)
    · rw [hb] at hk
      simp only [Bool.toNat_false, zero_mul, zero_add, Bool.false_eq_true, if_false] at hk ⊢
      exact ih f (2 * k) hy (fun h => by rw [hf h]) (by rw [← hk]; ring)
    · have hk1 := hb1 hb
      rw [hb] at hk
      simp only [Bool.toNat_true, one_mul, if_true] at hk ⊢
      exact ih true (2 * k + 1) (hadd hk1 hy) (fun h => nomatch h) (by rw [← hk]; ring)

end loop

section
variable {K : Type} [Field K] [Finite K] [DecidableEq K] [Squared K] [LawfulSquared K] {d : K} {mulD : K → K} {r : Nat}

omit [Squared K] [LawfulSquared K] in
/-- The number of points. -/
theorem edw_card (h2 : (2 : K) ≠ 0) (hc : 1 - d ≠ 0) (hr : r.Prime) (hr2 : r ≠ 2) {g : (edwW 1 d).Point} (hg : addOrderOf g = r)
    (hb : 2 * Nat.card K + 1 < 8 * r) : Nat.card (edwW 1 d).Point = 4 * r := by
  haveI : Finite (edwW 1 d).Point := point_finite
  have h4 : 4 ∣ Nat.card (edwW 1 d).Point := edwT4_order h2 hc ▸ addOrderOf_dvd_natCard _
  have hrd : r ∣ Nat.card (edwW 1 d).Point := hg ▸ addOrderOf_dvd_natCard _
  have hco : Nat.Coprime 4 r := by
    rw [show (4 : Nat) = 2 ^ 2 from rfl]
    exact Nat.Coprime.pow_left 2 ((Nat.coprime_primes Nat.prime_two hr).2 hr2.symm)
  obtain ⟨m, hm⟩ := Nat.Coprime.mul_dvd_of_dvd_of_dvd hco h4 hrd
  have hle : Nat.card (edwW 1 d).Point ≤ 2 * Nat.card K + 1 := point_card_le
  have hpos : 0 < Nat.card (edwW 1 d).Point := Nat.card_pos
  have : m = 1 := by
    rcases m with _ | _ | m
    · rw [hm] at hpos; simp at hpos
    · rfl
    · have : 4 * r * (m + 1 + 1) = 8 * r + 4 * r * m := by ring
      omega
  rw [hm, this, mul_one]

namespace Edw
variable {P : (edwW 1 d).Point}

omit [Squared K] [LawfulSquared K] in
theorem four_mul_eq_zero (hr : r.Prime) (hcard : Nat.card (edwW 1 d).Point = 4 * r) (hP : 4 • P ≠ 0) {k : Nat} (hk : 4 • (k • P) = 0) : r ∣ k := by
  haveI : Finite (edwW 1 d).Point := point_finite
  have h1 : addOrderOf (4 • P) = r := by
    haveI := Fact.mk hr
    refine addOrderOf_eq_prime ?_ hP
    rw [← mul_smul, mul_comm, ← hcard]
    exact card_nsmul_eq_zero'
  rw [← h1]
  refine addOrderOf_dvd_of_nsmul_eq_zero ?_
  rw [smul_comm]; exact hk

omit [Finite K] in
theorem plus_ok (hD : ∀ x, mulD x = d * x) (h2 : (2 : K) ≠ 0) (hc : 1 - d ≠ 0) (hd : ¬ IsSquare d)
    {p q : Coord3 K} {P Q : (edwW 1 d).Point} (hp : EdwRep p P) (hq : EdwRep q Q) (h : P + Q = 0 ∨ 4 • (P + Q) ≠ 0) :
    EdwRep (plus (fun x => x) mulD p q) (P + Q) := by
  have h4 : 4 • edwT4 h2 hc = 0 := by rw [← edwT4_order h2 hc, addOrderOf_nsmul_eq_zero]
  have h22 : 4 • edwT2 hc = 0 := by
    rw [show (4 : Nat) = 2 * 2 from rfl, mul_nsmul, two_nsmul (edwT2 hc), edwT2_add, nsmul_zero]
  have n2 : edwT2 hc ≠ 0 := Point.some_ne_zero _
  have n4 : edwT4 h2 hc ≠ 0 := Point.some_ne_zero _
  rcases plus_exact hD h2 hc hd hp hq with hR | ⟨hS, -⟩ | ⟨hS | hS, -⟩
  · exact hR
  · rw [hS] at h
    exact absurd h22 (h.resolve_left n2)
  · rw [hS] at h
    exact absurd h4 (h.resolve_left n4)
  · rw [hS] at h
    exact absurd (by rw [smul_neg, h4, neg_zero]) (h.resolve_left (neg_ne_zero.2 n4))

omit [Finite K] in
theorem dbl_ok (hD : ∀ x, mulD x = d * x) (h2 : (2 : K) ≠ 0) (hc : 1 - d ≠ 0) (hd : ¬ IsSquare d)
    {p : Coord3 K} {P : (edwW 1 d).Point} (hp : EdwRep p P) (h : P + P = 0 ∨ 4 • (P + P) ≠ 0) :
    EdwRep (dbl1 mulD p) (P + P) := by
  have := plus_ok hD h2 hc hd hp hp h
  obtain ⟨k, hk, e⟩ := plus_self hD hp
  rw [e] at this
  exact (rep_scale_iff hk).1 this

/-- `dbl` is right for every element. -/
theorem dbl_all (hD : ∀ x, mulD x = d * x) (h2 : (2 : K) ≠ 0) (hc : 1 - d ≠ 0) (hd : ¬ IsSquare d) (hr : r.Prime) (hr2 : r ≠ 2)
    (hcard : Nat.card (edwW 1 d).Point = 4 * r) {p : Coord3 K} (hp : EdwRep p P) : EdwRep (dbl1 mulD p) (P + P) := by
  refine dbl_ok hD h2 hc hd hp ?_
  by_cases h4 : 4 • P = 0
  · left; rw [rep_four h2 hc hd hp h4, zero_add]
  · right
    rw [← two_nsmul]
    intro h
    exact hr2 ((Nat.prime_dvd_prime_iff_eq hr Nat.prime_two).1 (four_mul_eq_zero hr hcard h4 h))

/-- The steps of the multiplication of an element that is not of order two or four. -/
theorem mul_steps (hD : ∀ x, mulD x = d * x) (h2 : (2 : K) ≠ 0) (hc : 1 - d ≠ 0) (hd : ¬ IsSquare d) (hr : r.Prime)
    (hcard : Nat.card (edwW 1 d).Point = 4 * r) {p : Coord3 K} (hp : EdwRep p P) (h4 : 4 • P ≠ 0) :
    (∀ {x : Coord3 K} {k}, 2 * k < r → EdwRep x (k • P) → EdwRep (dbl1 mulD x) ((2 * k) • P)) ∧
    (∀ {x : Coord3 K} {k}, k + 1 < r → EdwRep x (k • P) → EdwRep (plus (fun x => x) mulD x p) ((k + 1) • P)) := by
  have key : ∀ {k}, k < r → k • P = 0 ∨ 4 • (k • P) ≠ 0 := fun {k} hk => by
    by_contra hcon
    push Not at hcon
    have := Nat.eq_zero_of_dvd_of_lt (four_mul_eq_zero hr hcard h4 hcon.2) hk
    exact hcon.1 (by rw [this, zero_smul])
  refine ⟨fun {x k} hk hx => ?_, fun {x k} hk hx => ?_⟩
  · have e : (2 * k) • P = k • P + k • P := by rw [← add_smul, two_mul]
    have := key hk
    rw [e] at this ⊢
    exact dbl_ok hD h2 hc hd hx this
  · have e : (k + 1) • P = k • P + P := by rw [add_smul, one_smul]
    have := key hk
    rw [e] at this ⊢
    exact plus_ok hD h2 hc hd hx hp this

omit [Finite K] in
theorem mul_zero_rep (hD : ∀ x, mulD x = d * x) (h2 : (2 : K) ≠ 0) (hc : 1 - d ≠ 0) {p : Coord3 K}
    (hp : EdwRep p (0 : (edwW 1 d).Point)) (e : List Limb) :
    EdwRep (@scalarMul _ (ops1 mulD) p e) (0 : (edwW 1 d).Point) := by
  have := @scalarMul_rel _ _ (ops1 mulD) _ _ (implementsRel1 (H := ⊥) hD h2 hc (fun P hP _ => hP)) p 0 ⟨rfl, hp⟩ e
  rw [smul_zero] at this
  exact this.2

/-- `scalar_mul` by an integer below `r`. -/
theorem mul_below (hD : ∀ x, mulD x = d * x) (h2 : (2 : K) ≠ 0) (hc : 1 - d ≠ 0) (hd : ¬ IsSquare d) (hr : r.Prime)
    (hcard : Nat.card (edwW 1 d).Point = 4 * r) {p : Coord3 K} (hp : EdwRep p P) {e : List Limb} (he : val e < r) :
    EdwRep (@scalarMul _ (ops1 mulD) p e) (val e • P) := by
  by_cases h4 : 4 • P = 0
  · have h0 := rep_four h2 hc hd hp h4
    subst h0
    rw [smul_zero]
    exact mul_zero_rep hD h2 hc hp e
  · obtain ⟨s1, s2⟩ := mul_steps hD h2 hc hd hr hcard hp h4
    have hm : val e % 2 ^ bigintMaxBits e = val e := Nat.mod_eq_of_lt (by have := val_lt e; rwa [bigintMaxBits, Nat.mul_comm])
    have := @scalarMulLoop_below _ (ops1 mulD) _ _ EdwRep p P r s1 s2 e (bigintMaxBits e) false zero 0
      (by rw [zero_smul]; exact zero_rep) (fun _ => rfl) (by rw [hm, zero_mul, zero_add]; exact he)
    rwa [hm, zero_mul, zero_add] at this

/-- `scalar_mul` by `r`. -/
theorem mul_order (hD : ∀ x, mulD x = d * x) (h2 : (2 : K) ≠ 0) (hc : 1 - d ≠ 0) (hd : ¬ IsSquare d) (hr : r.Prime) (hr2 : r ≠ 2)
    (hcard : Nat.card (edwW 1 d).Point = 4 * r) {p : Coord3 K} (hp : EdwRep p P) {e : List Limb} (he : val e = r) :
    (r • P = 0 → EdwRep (@scalarMul _ (ops1 mulD) p e) (0 : (edwW 1 d).Point)) ∧
    (isZero (@scalarMul _ (ops1 mulD) p e) = true ↔ r • (P + P) = 0) ∧
    (r • (P + P) ≠ 0 → (@scalarMul _ (ops1 mulD) p e).X = 0 ∧ (@scalarMul _ (ops1 mulD) p e).Y ≠ 0 ∧
      (@scalarMul _ (ops1 mulD) p e).Z = 0) := by
  haveI : Finite (edwW 1 d).Point := point_finite
  have e2 : r • (P + P) = r • P + r • P := smul_add _ _ _
  have h4r : 4 • (r • P) = 0 := by rw [← mul_smul, ← hcard]; exact card_nsmul_eq_zero'
  have hodd : r % 2 = 1 := hr.eq_two_or_odd.resolve_left hr2
  by_cases h4 : 4 • P = 0
  · have h0 := rep_four h2 hc hd hp h4
    subst h0
    have := mul_zero_rep hD h2 hc hp e
    refine ⟨fun _ => this, ?_, ?_⟩
    · rw [isZero_rep this]; simp
    · simp
  · obtain ⟨s1, s2⟩ := mul_steps hD h2 hc hd hr hcard hp h4
    have hm : val e % 2 ^ bigintMaxBits e = val e := Nat.mod_eq_of_lt (by have := val_lt e; rwa [bigintMaxBits, Nat.mul_comm])
    obtain ⟨n, hn⟩ : ∃ n, bigintMaxBits e = n + 1 := Nat.exists_eq_succ_of_ne_zero fun h0 => by
      rw [h0, pow_zero, Nat.mod_one] at hm
      exact hr.ne_zero (by omega)
    obtain ⟨y, hy, hl⟩ := @scalarMulLoop_last _ (ops1 mulD) _ _ EdwRep p P r s1 s2 hodd e n false zero 0
      (by rw [zero_smul]; exact zero_rep) (fun _ => rfl) (by rw [← hn, hm, zero_mul, zero_add, he])
    have hsum : (r - 1) • P + P = r • P := by
      have := hr.pos
      rw [← succ_nsmul]; congr 1; omega
    have hS : @scalarMul _ (ops1 mulD) p e = plus (fun x => x) mulD y p := by
      unfold scalarMul; rw [hn]; exact hl
    have hex := plus_exact hD h2 hc hd hy hp
    rw [hsum, ← hS] at hex
    rcases hex with hR | ⟨hT, hY, hZ⟩ | ⟨hT, hX, hY, hZ⟩
    · have h0 := rep_four h2 hc hd hR h4r
      rw [h0] at hR
      refine ⟨fun _ => hR, ?_, ?_⟩
      · rw [isZero_rep hR, e2, h0]; simp
      · rw [e2, h0]; simp
    · have h22 : r • (P + P) = 0 := by rw [e2, hT, edwT2_add]
      refine ⟨fun h0 => ?_, ?_, ?_⟩
      · exact ⟨hY, hZ⟩
      · simp [isZero, hY, hZ, h22]
      · intro h; exact absurd h22 h
    · have h22 : r • (P + P) ≠ 0 := by
        have hT2 : edwT2 hc ≠ 0 := Point.some_ne_zero _
        rcases hT with hT | hT
        · rw [e2, hT, edwT4_add]; exact hT2
        · rw [e2, hT, ← neg_add, edwT4_add]; exact neg_ne_zero.2 hT2
      refine ⟨fun h0 => ?_, ?_, fun _ => ⟨hX, hY, hZ⟩⟩
      · rw [e2, h0, zero_add] at h22; exact absurd rfl h22
      · exact iff_of_false (by simp [isZero, hY]) h22

end Edw
end
end Libff
