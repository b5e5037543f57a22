import Verif.Lemmas.EdwTorsionMul
import Verif.Props.BilinearEdw

/-!
# C74: elements of `edwards_G1` outside the group of order `r`

`edwards_G1` has no `mul_by_cofactor`, and `is_well_formed` accepts every point of the curve. These theorems say what the
operations do on all of them. `EdwRep p P` (Spec/Curve.lean): the object `p` denotes the point `P`; the group is Mathlib's.
-/
namespace Libff
open WeierstrassCurve Affine

theorem edwards_d_nonsquare : ¬ IsSquare edwards_d := by
  have rd : edwards_K.R1 (NM.of edwards_coeff_d_nat) edwards_d := FpRel.cast (by decide +kernel)
  refine not_isSquare_of_pow ?_ _ (fun h => ?_) ?_
  · rw [Fp.card]; decide +kernel
  · exact absurd ((edwards_K.o1.eq rd edwards_K.o1.zero).2 h) (by decide +kernel)
  · rw [Fp.card]
    exact edwards_K.o1.pow_ne rd edwards_K.o1.one 192 _ (by decide +kernel) (by decide +kernel)

theorem edwards_Fr_modulus : val edwards_Fr_params.modulus = edwards_Fr_params.p := by decide +kernel

/-- **C74.** The curve of `edwards_G1` has exactly `4 * order()` points. -/
theorem C74_edwards_G1_card : Nat.card (edwW 1 edwards_d).Point = 4 * val edwards_Fr_params.modulus := by
  obtain ⟨h2, hc, -, P, -, ho⟩ := C52_edwards_G1_generator
  rw [edwards_Fr_modulus]
  refine edw_card h2 hc edwards_Fr_prime (by decide +kernel) ho ?_
  rw [Nat.card_eq_fintype_card, Fp.card]
  decide +kernel

/-- The hypotheses of the lemmas. -/
theorem edwards_card : Nat.card (edwW 1 edwards_d).Point = 4 * edwards_Fr_params.p :=
  edwards_Fr_modulus ▸ C74_edwards_G1_card

/-- **C74.** Exactly the three points of order two and four are not denoted by any object. -/
theorem C74_edwards_G1_denotes (P : (edwW 1 edwards_d).Point) :
    (∃ p : Coord3 edwards_Fq, EdwRep p P) ↔ addOrderOf P ≠ 2 ∧ addOrderOf P ≠ 4 := by
  obtain ⟨h2, hc, -⟩ := C52_edwards_G1_generator
  constructor
  · rintro ⟨p, hp⟩
    have key : ∀ n, n ∣ 4 → n ≠ 1 → addOrderOf P ≠ n := by
      rintro n ⟨m, hm⟩ h1 rfl
      refine h1 (AddMonoid.addOrderOf_eq_one_iff.2 (Edw.rep_four h2 hc edwards_d_nonsquare hp ?_))
      rw [hm, mul_comm, mul_smul, addOrderOf_nsmul_eq_zero, smul_zero]
    exact ⟨key 2 ⟨2, rfl⟩ (by decide), key 4 ⟨1, rfl⟩ (by decide)⟩
  · rintro ⟨n2, n4⟩
    refine Edw.rep_exists h2 hc P ?_
    by_contra hcon
    push Not at hcon
    have hd := addOrderOf_dvd_of_nsmul_eq_zero hcon.2
    have hle := Nat.le_of_dvd (by decide) hd
    have h1 : addOrderOf P ≠ 1 := fun h => hcon.1 (AddMonoid.addOrderOf_eq_one_iff.1 h)
    interval_cases addOrderOf P <;> omega

/-- What a sum of two elements is if their sum as points is not one of the three points without an object, is the one of
order two, and is one of the two of order four. -/
structure EdwSumOutcome (s : Coord3 edwards_Fq) (S : (edwW 1 edwards_d).Point) : Prop where
  right : addOrderOf S ≠ 2 → addOrderOf S ≠ 4 → EdwRep s S
  two : addOrderOf S = 2 → Edw.isZero s = true
  four : addOrderOf S = 4 → Edw.isZero s = false ∧ s.X = 0 ∧ s.Z = 0 ∧
    Edw.isWellFormed (fun x => x) edwards_G1_mul_by_d s = true

/-- **C74.** `operator+` on all pairs of elements: it is the sum, unless the sum is one of the three points that the
coordinates cannot express. Then it is an object for which `is_zero()` holds, respectively `(0, Y, 0)`, which passes
`is_well_formed()`. -/
theorem C74_edwards_G1_add {p q : Coord3 edwards_Fq} {P Q : (edwW 1 edwards_d).Point} (hp : EdwRep p P) (hq : EdwRep q Q) :
    EdwSumOutcome (edwards_ops₁.add p q) (P + Q) := by
  obtain ⟨h2, hc, -⟩ := C52_edwards_G1_generator
  have hex := Edw.plus_exact (mulD := edwards_G1_mul_by_d) (fun _ => rfl) h2 hc edwards_d_nonsquare hp hq
  have o2 := edwT2_order hc
  have o4 := edwT4_order h2 hc
  have o4' : addOrderOf (- edwT4 h2 hc) = 4 := by rw [addOrderOf_neg, o4]
  refine ⟨fun n2 n4 => ?_, fun n2 => ?_, fun n4 => ?_⟩
  · rcases hex with h | ⟨h, -⟩ | ⟨h | h, -⟩
    · exact h
    · exact absurd (h ▸ o2) n2
    · exact absurd (h ▸ o4) n4
    · exact absurd (h ▸ o4') n4
  · rcases hex with h | ⟨h, hY, hZ⟩ | ⟨h | h, -⟩
    · exact absurd n2 ((C74_edwards_G1_denotes _).1 ⟨_, h⟩).1
    · exact decide_eq_true ⟨hY, hZ⟩
    · rw [h, o4] at n2; exact absurd n2 (by decide)
    · rw [h, o4'] at n2; exact absurd n2 (by decide)
  · rcases hex with h | ⟨h, -⟩ | ⟨-, hX, hY, hZ⟩
    · exact absurd n4 ((C74_edwards_G1_denotes _).1 ⟨_, h⟩).2
    · rw [h, o2] at n4; exact absurd n4 (by decide)
    · have h0 : Edw.isZero (edwards_ops₁.add p q) = false := decide_eq_false fun h => hY h.1
      refine ⟨h0, hX, hZ, ?_⟩
      unfold Edw.isWellFormed
      rw [h0, if_neg Bool.false_ne_true]
      refine decide_eq_true ?_
      change squared (Edw.plus _ edwards_G1_mul_by_d p q).Z * _ = squared (Edw.plus _ edwards_G1_mul_by_d p q).X * _
      rw [hX, hZ, LawfulSquared.squared_eq, mul_zero, zero_mul, zero_mul]

/-- **C74.** `dbl()` is right for every element. -/
theorem C74_edwards_G1_dbl {p : Coord3 edwards_Fq} {P : (edwW 1 edwards_d).Point} (hp : EdwRep p P) :
    EdwRep (edwards_ops₁.dbl p) (P + P) := by
  obtain ⟨h2, hc, -⟩ := C52_edwards_G1_generator
  exact Edw.dbl_all (fun _ => rfl) h2 hc edwards_d_nonsquare edwards_Fr_prime (by decide +kernel) edwards_card hp

/-- **C74.** Multiplication by any integer below `order()` is right for every element. -/
theorem C74_edwards_G1_mul {p : Coord3 edwards_Fq} {P : (edwW 1 edwards_d).Point} (hp : EdwRep p P) (e : List Limb)
    (he : val e < val edwards_Fr_params.modulus) : EdwRep (@scalarMul _ edwards_ops₁ p e) (val e • P) := by
  obtain ⟨h2, hc, -⟩ := C52_edwards_G1_generator
  rw [edwards_Fr_modulus] at he
  exact Edw.mul_below (fun _ => rfl) h2 hc edwards_d_nonsquare edwards_Fr_prime edwards_card hp he

/-- `p` is one of the `order()` many multiples of the generator. -/
def edwards_multiple (p : Coord3 edwards_Fq) : Prop :=
  ∃ k < val edwards_Fr_params.modulus, ∀ e, val e = k → Edw.eq p (@scalarMul _ edwards_ops₁ edwards_G1_one e) = true

theorem edwards_multiple_iff {p : Coord3 edwards_Fq} {P : (edwW 1 edwards_d).Point} (hp : EdwRep p P) :
    edwards_multiple p ↔ edwards_Fr_params.p • P = 0 := by
  obtain ⟨h2, hc, -, g, hg, ho⟩ := C52_edwards_G1_generator
  have : Finite (edwW 1 edwards_d).Point := point_finite
  unfold edwards_multiple
  constructor
  · rintro ⟨k, hk, h⟩
    have hv : val (limbsOf 3 k) = k := by
      rw [val_limbsOf, Nat.mod_eq_of_lt (hk.trans (by decide +kernel))]
    have := (Edw.eq_rep h2 hc hp (C74_edwards_G1_mul hg (limbsOf 3 k) (by rw [hv]; exact hk))).1 (h _ hv)
    rw [this, hv, smul_comm, ← ho, addOrderOf_nsmul_eq_zero, smul_zero]
  · intro h0
    obtain ⟨k, hk, e⟩ := torsion_mem edwards_Fr_prime edwards_card (by decide +kernel) ho h0
    rw [edwards_Fr_modulus]
    refine ⟨k, hk, fun e' hv => (Edw.eq_rep h2 hc hp (C74_edwards_G1_mul hg e' ?_)).2 (by rw [hv, e])⟩
    rw [hv, edwards_Fr_modulus]; exact hk

/-- **C74.** `p.dbl().dbl()` is a multiple of the generator, for every element `p`: this clears the cofactor 4. It is
injective on the multiples of the generator. -/
theorem C74_edwards_G1_cofactor {p : Coord3 edwards_Fq} {P : (edwW 1 edwards_d).Point} (hp : EdwRep p P) :
    edwards_multiple (edwards_ops₁.dbl (edwards_ops₁.dbl p)) ∧
    ∀ {q Q}, EdwRep q (Q : (edwW 1 edwards_d).Point) → edwards_multiple p → edwards_multiple q →
      Edw.eq (edwards_ops₁.dbl (edwards_ops₁.dbl p)) (edwards_ops₁.dbl (edwards_ops₁.dbl q)) = true → Edw.eq p q = true := by
  obtain ⟨h2, hc, -⟩ := C52_edwards_G1_generator
  have : Finite (edwW 1 edwards_d).Point := point_finite
  have h4 : ∀ R : (edwW 1 edwards_d).Point, R + R + (R + R) = 4 • R := fun R => by
    rw [show (4 : Nat) = 2 * 2 from rfl, mul_nsmul, two_nsmul, two_nsmul]
  have hpp := C74_edwards_G1_dbl (C74_edwards_G1_dbl hp)
  refine ⟨(edwards_multiple_iff hpp).2 ?_, fun {q Q} hq hmp hmq he => (Edw.eq_rep h2 hc hp hq).2 ?_⟩
  · rw [h4, ← mul_smul, mul_comm, ← edwards_card]; exact card_nsmul_eq_zero'
  · have hqq := C74_edwards_G1_dbl (C74_edwards_G1_dbl hq)
    have he := (Edw.eq_rep h2 hc hpp hqq).1 he
    rw [h4, h4] at he
    have hp0 := (edwards_multiple_iff hp).1 hmp
    have hq0 := (edwards_multiple_iff hq).1 hmq
    have h1 : edwards_Fr_params.p • (P - Q) = 0 := by rw [nsmul_sub, hp0, hq0, sub_zero]
    have h2 : 4 • (P - Q) = 0 := by rw [nsmul_sub, he, sub_self]
    have h3 := Nat.dvd_gcd (addOrderOf_dvd_of_nsmul_eq_zero h1) (addOrderOf_dvd_of_nsmul_eq_zero h2)
    rw [show Nat.gcd edwards_Fr_params.p 4 = 1 by decide +kernel] at h3
    exact sub_eq_zero.1 (AddMonoid.addOrderOf_eq_one_iff.1 (Nat.dvd_one.1 h3))

/-- **C74.** The test `order() * p == zero()` accepts exactly the elements whose double is a multiple of the generator. -/
theorem C74_edwards_G1_order_test {p : Coord3 edwards_Fq} {P : (edwW 1 edwards_d).Point} (hp : EdwRep p P) :
    Edw.eq (@scalarMul _ edwards_ops₁ p edwards_Fr_params.modulus) edwards_ops₁.zero = true ↔
      edwards_multiple (edwards_ops₁.dbl p) := by
  obtain ⟨h2, hc, -⟩ := C52_edwards_G1_generator
  rw [edwards_multiple_iff (C74_edwards_G1_dbl hp), ← (Edw.mul_order (fun _ => rfl) h2 hc edwards_d_nonsquare edwards_Fr_prime
    (by decide +kernel) edwards_card hp edwards_Fr_modulus).2.1]
  have hz : Edw.isZero edwards_ops₁.zero = true := (Edw.isZero_rep (d := edwards_d) (a := 1) Edw.zero_rep).2 rfl
  unfold Edw.eq
  by_cases h : Edw.isZero (@scalarMul _ edwards_ops₁ p edwards_Fr_params.modulus) = true
  · rw [if_pos h]; exact iff_of_true hz h
  · rw [if_neg h, if_pos hz]; exact iff_of_false Bool.false_ne_true h

/-- **C74.** The test `(order() - 1) * p == -p` accepts exactly the multiples of the generator. -/
theorem C74_edwards_G1_member {p : Coord3 edwards_Fq} {P : (edwW 1 edwards_d).Point} (hp : EdwRep p P) (e : List Limb)
    (he : val e + 1 = val edwards_Fr_params.modulus) :
    Edw.eq (@scalarMul _ edwards_ops₁ p e) (Edw.neg p) = true ↔ edwards_multiple p := by
  obtain ⟨h2, hc, -⟩ := C52_edwards_G1_generator
  rw [edwards_multiple_iff hp, Edw.eq_rep h2 hc (C74_edwards_G1_mul hp e (by omega)) (Edw.neg_rep hp), eq_neg_iff_add_eq_zero,
    ← succ_nsmul, he, edwards_Fr_modulus]

/-- **C74.** So the elements passing this test are first arguments for which the pairing is bilinear (C51), and if they are
not zero it is non-degenerate there. -/
theorem C74_edwards_G1_pairing {p : Coord3 edwards_Fq} {P : (edwW 1 edwards_d).Point} (hp : EdwRep p P) (e : List Limb)
    (he : val e + 1 = val edwards_Fr_params.modulus) (ht : Edw.eq (@scalarMul _ edwards_ops₁ p e) (Edw.neg p) = true) :
    edwards_arg₁ p :=
  ⟨P, (edwards_multiple_iff hp).1 ((C74_edwards_G1_member hp e he).1 ht), hp⟩

/-- **C74**, finding: there are elements that pass `is_well_formed()` and `order() * p == zero()` and are not multiples of
the generator, for instance `one()` with `X` and `Y` negated, which is `one() + (0, -1)`. -/
theorem C74_edwards_G1_wrong : ∃ p : Coord3 edwards_Fq, p = ⟨-edwards_G1_one.X, -edwards_G1_one.Y, edwards_G1_one.Z⟩ ∧
    Edw.isWellFormed (fun x => x) edwards_G1_mul_by_d p = true ∧ Edw.isZero p = false ∧
    Edw.eq (@scalarMul _ edwards_ops₁ p edwards_Fr_params.modulus) edwards_ops₁.zero = true ∧ ¬ edwards_multiple p := by
  obtain ⟨h2, hc, -, g, hg, ho⟩ := C52_edwards_G1_generator
  have hg0 : g ≠ 0 := ne_zero_of_order edwards_Fr_prime ho
  have hg' := hg
  rw [edwRep_iff] at hg'
  obtain ⟨-, hX, hY, hZ, hpt⟩ := hg'.resolve_left fun h => hg0 h.1
  have hpt2 := edwPt_add_T2 h2 hc hpt
  have h0 : g + edwT2 hc ≠ 0 := fun h => edwPt_order h2 hc edwards_d_nonsquare hpt2 (by rw [h, smul_zero])
  have hp : EdwRep (⟨-edwards_G1_one.X, -edwards_G1_one.Y, edwards_G1_one.Z⟩ : Coord3 edwards_Fq) (g + edwT2 hc) := by
    rw [edwRep_iff]
    refine Or.inr ⟨h0, neg_ne_zero.2 hX, neg_ne_zero.2 hY, hZ, ?_⟩
    simp only [div_neg]
    exact hpt2
  refine ⟨_, rfl, Edw.isWellFormed_rep (a := 1) (fun x => (one_mul x).symm) (fun _ => rfl) hp, ?_, ?_, fun hm => ?_⟩
  · exact Bool.eq_false_iff.2 fun h => h0 ((Edw.isZero_rep hp).1 h)
  · refine (C74_edwards_G1_order_test hp).2 ((edwards_multiple_iff (C74_edwards_G1_dbl hp)).2 ?_)
    rw [add_add_add_comm, edwT2_add, add_zero, nsmul_add, ← ho, addOrderOf_nsmul_eq_zero, zero_add]
  · have := (edwards_multiple_iff hp).1 hm
    rw [nsmul_add, ← ho, addOrderOf_nsmul_eq_zero, zero_add, ho] at this
    have := addOrderOf_dvd_of_nsmul_eq_zero this
    rw [edwT2_order] at this
    exact absurd this (by decide +kernel)

/-- **C74**, finding: two elements passing `is_well_formed()`, neither the negative of the other, whose sum passes
`is_zero()`. -/
theorem C74_edwards_G1_add_wrong : ∃ p q : Coord3 edwards_Fq, Edw.isWellFormed (fun x => x) edwards_G1_mul_by_d p = true ∧
    Edw.isWellFormed (fun x => x) edwards_G1_mul_by_d q = true ∧ Edw.eq p (Edw.neg q) = false ∧
    Edw.isZero (edwards_ops₁.add p q) = true := by
  obtain ⟨h2, hc, -, g, hg, ho⟩ := C52_edwards_G1_generator
  have hg0 : g ≠ 0 := ne_zero_of_order edwards_Fr_prime ho
  obtain ⟨p, rfl, hw, -, -, -⟩ := C74_edwards_G1_wrong
  have hg' := hg
  rw [edwRep_iff] at hg'
  obtain ⟨-, hX, hY, hZ, hpt⟩ := hg'.resolve_left fun h => hg0 h.1
  have hpt2 := edwPt_add_T2 h2 hc hpt
  have h0 : g + edwT2 hc ≠ 0 := fun h => edwPt_order h2 hc edwards_d_nonsquare hpt2 (by rw [h, smul_zero])
  have hp : EdwRep (⟨-edwards_G1_one.X, -edwards_G1_one.Y, edwards_G1_one.Z⟩ : Coord3 edwards_Fq) (g + edwT2 hc) := by
    rw [edwRep_iff]
    refine Or.inr ⟨h0, neg_ne_zero.2 hX, neg_ne_zero.2 hY, hZ, ?_⟩
    simp only [div_neg]
    exact hpt2
  have hn := Edw.neg_rep hg
  have hS : g + edwT2 hc + -g = edwT2 hc := by abel
  refine ⟨_, _, hw, Edw.isWellFormed_rep (a := 1) (fun x => (one_mul x).symm) (fun _ => rfl) hn, ?_, ?_⟩
  · refine Bool.eq_false_iff.2 fun h => ?_
    have := (Edw.eq_rep h2 hc hp (Edw.neg_rep hn)).1 h
    rw [neg_neg, add_eq_left] at this
    exact absurd this (Point.some_ne_zero _)
  · exact (C74_edwards_G1_add hp hn).two (by rw [hS]; exact edwT2_order hc)

/-- Every hypothesis `EdwRep p P` above holds for `one()`. -/
example : ∃ P : (edwW 1 edwards_d).Point, EdwRep edwards_G1_one P ∧ P ≠ 0 := by
  obtain ⟨-, -, -, g, hg, ho⟩ := C52_edwards_G1_generator
  exact ⟨g, hg, ne_zero_of_order edwards_Fr_prime ho⟩

/-- Points of order two and four exist, so the exceptional cases of `C74_edwards_G1_add` are not empty. -/
example : ∃ P Q : (edwW 1 edwards_d).Point, addOrderOf P = 2 ∧ addOrderOf Q = 4 :=
  ⟨_, _, edwT2_order C52_edwards_G1_generator.2.1, edwT4_order C52_edwards_G1_generator.1 C52_edwards_G1_generator.2.1⟩

/-- There is a scalar as `C74_edwards_G1_member` wants it. -/
example : val (limbsOf 3 (edwards_Fr_params.p - 1)) + 1 = val edwards_Fr_params.modulus := by decide +kernel

end Libff
