import Verif.Lemmas.GroupCounters
import Verif.Props.Bn128
import Verif.Props.BilinearEdw
import Verif.Props.GenAltBn128
import Verif.Props.GenBls12381
import Verif.Props.GenMnt4
import Verif.Props.GenMnt6

/-!
# C73: the operation counters of the group classes

With `PROFILE_OP_COUNTS` each group class counts additions and doublings.  alt_bn128 and bn128 count exactly; bls12_381 and the mnt
curves do not count the additions made with `+`, edwards counts a sum of equal points as an addition, and `mixed_add` of mnt and
edwards counts an addition that was not made.  The claim is therefore partial; what each class counts is stated exactly.
-/
namespace Libff
open GCnt
set_option synthInstance.maxSize 2000

section
variable {G A : Type} [AddCommGroup A] {ops : GroupOps G} {Rep : G → A → Prop} {C : CountedOps G}

private theorem unique_tally {T T' : A → A → GCnt} (h : CountsBy ops Rep C T) (h' : CountsBy ops Rep C T') {p q : G} {P Q : A}
    (hp : Rep p P) (hq : Rep q Q) : T P Q = T' P Q := by
  have e := congrArg Prod.snd ((h.add ⟨0, 0⟩ hp hq).symm.trans (h'.add ⟨0, 0⟩ hp hq))
  rw [GCnt.ext_iff]
  simpa [add_def] using e

private theorem not_counted {a d : GCnt} (i : @ImplementsRel G A ops _ Rep) (h : CountsBy ops Rep C (tally a d)) (had : a ≠ ⟨1, 0⟩ ∨ d ≠ ⟨0, 1⟩)
    {p : G} {P : A} (hp : Rep p P) (ho : 2 < addOrderOf P) : ¬CountsBy ops Rep C sumTally := fun h' => by
  have h0 : P ≠ 0 := fun h0 => by rw [h0, addOrderOf_zero] at ho; omega
  have h2 : P + P ≠ 0 := by rw [← two_nsmul]; exact nsmul_ne_zero_of_lt_addOrderOf (by omega) ho
  have hn : P ≠ P + P := fun e => h0 (left_eq_add.1 e)
  rcases had with ha | hd
  · have := unique_tally h h' hp (@ImplementsRel.dbl G A ops _ Rep i _ _ hp)
    rw [sumTally, tally_ne _ _ h0 h2 hn, tally_ne _ _ h0 h2 hn] at this
    exact ha this
  · have := unique_tally h h' hp hp
    rw [sumTally, tally_self _ _ h0, tally_self _ _ h0] at this
    exact hd this
end

section
variable {K : Type} [Field K] [DecidableEq K] [Squared K] [LawfulSquared K]

/-- **alt_bn128** (both groups; any curve `y² = x³ + b`): a sum of different points counts as one addition, a sum of equal points as one
doubling, a sum with zero as nothing, and `dbl` as one doubling. -/
theorem C73_alt_bn128_partial {b : K} : CountsBy Jac.ops (JacRep (W := sw 0 b)) (Jac.opsC true) sumTally :=
  Jac.countsBy true

/-- `mixed_add` of alt_bn128 and of bls12_381 counts in the same way. -/
theorem C73_mixed_add_partial {b : K} {p q : Coord3 K} {P Q : (sw 0 b).Point} (s : GCnt) (hp : JacRep p P) (hq : JacRep q Q)
    (hs : Jac.isSpecial q = true) (debug : Bool) :
    ∃ v, Jac.mixedAdd debug p q = .ok v ∧ Jac.mixedAddC p q s = (v, s + sumTally P Q) := by
  refine ⟨_, ?_, Jac.mixedAddC_tally s hp hq hs⟩
  simp [Jac.mixedAdd, hs]

/-- **bls12_381** counts the doublings, but a sum of different points with `+` or `-` as nothing. -/
theorem C73_bls12_381_tally {b : K} : CountsBy Jac.ops (JacRep (W := sw 0 b)) (Jac.opsC false) (tally ⟨0, 0⟩ ⟨0, 1⟩) :=
  Jac.countsBy false

omit [LawfulSquared K] in
/-- **mnt4 and mnt6**: `+` and `-` count nothing. -/
theorem C73_mnt_tally {a b : K} (mulA : K → K) :
    CountsBy (Proj.ops mulA) (ProjRep (W := sw a b)) (Proj.opsC mulA) (fun _ _ => ⟨0, 0⟩) := by
  have h := Proj.countsBy (a := a) (b := b) mulA
  have e : tally ⟨0, 0⟩ ⟨0, 0⟩ = fun _ _ : (sw a b).Point => (⟨0, 0⟩ : GCnt) := by
    funext P Q; exact tally_nothing P Q
  rwa [e] at h

omit [LawfulSquared K] in
/-- The member function `add` of mnt4 and mnt6 counts as expected. -/
theorem C73_mnt_add_partial {a b : K} (mulA : K → K) {p q : Coord3 K} {P Q : (sw a b).Point} (s : GCnt) (hp : ProjRep p P)
    (hq : ProjRep q Q) : Proj.addC mulA p q s = (Proj.add mulA p q, s + sumTally P Q) :=
  Proj.addC_tally mulA s hp hq

omit [LawfulSquared K] in
/-- `mixed_add` of mnt4 and mnt6 counts an addition always; when the points are equal it counts a doubling as well. -/
theorem C73_mnt_mixed_add {a b : K} (mulA : K → K) (debug : Bool) {p q : Coord3 K} {P Q : (sw a b).Point} (s : GCnt) (hp : ProjRep p P)
    (hq : ProjRep q Q) (hs : Proj.isSpecial q = true) :
    Proj.mixedAddC mulA debug p q s = (Proj.mixedAdd mulA debug p q).map (·, s + ⟨1, 0⟩ + tally ⟨0, 0⟩ ⟨0, 1⟩ P Q) :=
  Proj.mixedAddC_eq mulA debug s hp hq hs

omit [LawfulSquared K] in
/-- **edwards**: the sum of two points other than zero counts as one addition, also when they are equal. -/
theorem C73_edwards_tally {a d : K} (mulA mulD : K → K) (H : AddSubgroup (edwW a d).Point) :
    CountsBy (Edw.ops mulA mulD) (EdwRepIn H) (Edw.opsC mulA mulD) (tally ⟨1, 0⟩ ⟨1, 0⟩) ∧
      CountsBy (Edw.ops1 mulD) (EdwRepIn H) (Edw.ops1C mulD) (tally ⟨1, 0⟩ ⟨1, 0⟩) :=
  ⟨Edw.countsBy mulA mulD, Edw.countsBy1 mulD⟩

omit [LawfulSquared K] in
/-- `mixed_add` of edwards counts one addition always, also when an argument is zero. -/
theorem C73_edwards_mixed_add (mulA mulD : K → K) (debug : Bool) (p q : Coord3 K) (s : GCnt) :
    Edw.mixedAddC mulA mulD debug p q s = (Edw.mixedAdd mulA mulD debug p q).map (·, s + ⟨1, 0⟩) := by
  unfold Edw.mixedAddC; rw [bumpAdd_eq]

end

/-- **bn128**: as alt_bn128, whatever `bn::ecop` computes. -/
theorem C73_bn128_partial {K : Type} [Field K] [DecidableEq K] {b : K} (E : Bn128.EcOps K) :
    CountsBy (Bn128.ops E) (JacRep (W := sw 0 b)) (Bn128.opsC E) sumTally ∧
      ∀ {p q P Q} (s : GCnt), JacRep (W := sw 0 b) p P → JacRep (W := sw 0 b) q Q → Bn128.isSpecial q = true →
        ∃ v, Bn128.mixedAdd E true p q = .ok v ∧ Bn128.mixedAddC E p q s = (v, s + sumTally P Q) :=
  ⟨Bn128.countsBy E, fun s => Bn128.mixedAddC_tally E s⟩

/-! ## What a scalar multiplication costs

For a point of order `r` and a scalar `0 < k < r`: one doubling per bit after the first, and one addition per one after the first.  (No
sum in the loop can be a sum of equal points, or one with zero except the first.) -/

section
variable {K : Type} [Field K] [DecidableEq K] [Squared K] [LawfulSquared K]

/-- **alt_bn128**: the counters show exactly the additions and doublings of the method; **bls12_381** shows the doublings only. -/
theorem C73_jacobian_scalar_mul {b : K} (h2 : (2 : K) ≠ 0) {p : Coord3 K} {P : (sw 0 b).Point} (hp : JacRep p P) (e : List Limb)
    (hpos : 0 < val e) (hlt : val e < addOrderOf P) (s : GCnt) :
    scalarMulC (Jac.opsC true) p e s =
        (@scalarMul _ Jac.ops p e, s + ⟨(onesOf (val e) : Int) - 1, ((val e).size : Int) - 1⟩) ∧
      scalarMulC (Jac.opsC false) p e s = (@scalarMul _ Jac.ops p e, s + ⟨0, ((val e).size : Int) - 1⟩) := by
  letI : GroupOps (Coord3 K) := Jac.ops
  refine ⟨?_, ?_⟩
  · have h := scalarMulC_count (α := 1) (Jac.implementsRel (b := b) h2) (Jac.countsBy true) (tally_zero_left _ _)
      (fun _ _ h h' hn => tally_ne _ _ h h' hn) hp e hpos hlt s
    rwa [one_mul] at h
  · have h := scalarMulC_count (α := 0) (Jac.implementsRel (b := b) h2) (Jac.countsBy false) (tally_zero_left _ _)
      (fun _ _ h h' hn => tally_ne _ _ h h' hn) hp e hpos hlt s
    rwa [zero_mul] at h

/-- **mnt4, mnt6**: only the doublings are counted. -/
theorem C73_projective_scalar_mul {a b : K} {mulA : K → K} (hA : ∀ x, mulA x = a * x) (h2 : (2 : K) ≠ 0) {p : Coord3 K}
    {P : (sw a b).Point} (hp : ProjRep p P) (e : List Limb) (hpos : 0 < val e) (hlt : val e < addOrderOf P) (s : GCnt) :
    scalarMulC (Proj.opsC mulA) p e s = (@scalarMul _ (Proj.ops mulA) p e, s + ⟨0, ((val e).size : Int) - 1⟩) := by
  letI : GroupOps (Coord3 K) := Proj.ops mulA
  have h := scalarMulC_count (α := 0) (Proj.implementsRel (b := b) hA h2) (Proj.countsBy mulA) (tally_zero_left _ _)
    (fun _ _ h h' hn => tally_ne _ _ h h' hn) hp e hpos hlt s
  rwa [zero_mul] at h

/-- **edwards_G2**: exact. -/
theorem C73_edwards_G2_scalar_mul {a d : K} {mulA mulD : K → K} {H : AddSubgroup (edwW a d).Point} (hA : ∀ x, mulA x = a * x)
    (hD : ∀ x, mulD x = d * x) (h2 : (2 : K) ≠ 0) (hc : a - d ≠ 0) (hH : NoTwoTorsion H) {p : Coord3 K} {P : (edwW a d).Point}
    (hp : EdwRepIn H p P) (e : List Limb) (hpos : 0 < val e) (hlt : val e < addOrderOf P) (s : GCnt) :
    scalarMulC (Edw.opsC mulA mulD) p e s =
      (@scalarMul _ (Edw.ops mulA mulD) p e, s + ⟨(onesOf (val e) : Int) - 1, ((val e).size : Int) - 1⟩) := by
  letI : GroupOps (Coord3 K) := Edw.ops mulA mulD
  have h := scalarMulC_count (α := 1) (Edw.implementsRel hA hD h2 hc hH) (Edw.countsBy mulA mulD) (tally_zero_left _ _)
    (fun _ _ h h' hn => tally_ne _ _ h h' hn) hp e hpos hlt s
  rwa [one_mul] at h

/-- **edwards_G1**: exact. -/
theorem C73_edwards_G1_scalar_mul {d : K} {mulD : K → K} {H : AddSubgroup (edwW 1 d).Point} (hD : ∀ x, mulD x = d * x)
    (h2 : (2 : K) ≠ 0) (hc : 1 - d ≠ 0) (hH : NoTwoTorsion H) {p : Coord3 K} {P : (edwW 1 d).Point} (hp : EdwRepIn H p P)
    (e : List Limb) (hpos : 0 < val e) (hlt : val e < addOrderOf P) (s : GCnt) :
    scalarMulC (Edw.ops1C mulD) p e s =
      (@scalarMul _ (Edw.ops1 mulD) p e, s + ⟨(onesOf (val e) : Int) - 1, ((val e).size : Int) - 1⟩) := by
  letI : GroupOps (Coord3 K) := Edw.ops1 mulD
  have h := scalarMulC_count (α := 1) (Edw.implementsRel1 hD h2 hc hH) (Edw.countsBy1 mulD) (tally_zero_left _ _)
    (fun _ _ h h' hn => tally_ne _ _ h h' hn) hp e hpos hlt s
  rwa [one_mul] at h
end

/-- **bn128**: exact. -/
theorem C73_bn128_scalar_mul {K : Type} [Field K] [DecidableEq K] {b : K} {E : Bn128.EcOps K} (hE : E.Correct b) {p : Coord3 K}
    {P : (sw 0 b).Point} (hp : JacRep p P) (e : List Limb) (hpos : 0 < val e) (hlt : val e < addOrderOf P) (s : GCnt) :
    scalarMulC (Bn128.opsC E) p e s =
      (@scalarMul _ (Bn128.ops E) p e, s + ⟨(onesOf (val e) : Int) - 1, ((val e).size : Int) - 1⟩) := by
  letI : GroupOps (Coord3 K) := Bn128.ops E
  have h := scalarMulC_count (α := 1) (Bn128.implementsRel hE) (Bn128.countsBy E) (tally_zero_left _ _)
    (fun _ _ h h' hn => tally_ne _ _ h h' hn) hp e hpos hlt s
  rwa [one_mul] at h

/-- The hypotheses are met by the generator of `alt_bn128_G1` and the scalar 13 (binary 1101: three doublings, two additions). -/
example (s : GCnt) : (scalarMulC (Jac.opsC true) alt_bn128_G1_one (limbsOf 4 13) s).2 = s + ⟨2, 3⟩ := by
  obtain ⟨P, h, ho⟩ := C52_alt_bn128_G1_generator.2.2.2.2
  have e : val (limbsOf 4 13) = 13 := by decide +kernel
  rw [(C73_jacobian_scalar_mul C52_alt_bn128_G1_generator.1 h (limbsOf 4 13) (by rw [e]; decide) (by rw [e, ho]; decide +kernel) s).1, e]
  rfl

/-- The other classes at their generators, with the same scalar. -/
example (s : GCnt) : (scalarMulC (Proj.opsC mnt4_G1_mul_by_a) mnt4_G1_one (limbsOf 5 13) s).2 = s + ⟨0, 3⟩ := by
  obtain ⟨P, h, ho⟩ := C52_mnt4_G1_generator.2.2.2
  have e : val (limbsOf 5 13) = 13 := by decide +kernel
  rw [C73_projective_scalar_mul (mulA := mnt4_G1_mul_by_a) (fun _ => rfl) C52_mnt4_G1_generator.1 h (limbsOf 5 13) (by rw [e]; decide) (by rw [e, ho]; decide +kernel) s, e]
  rfl

example (s : GCnt) : (scalarMulC (Edw.ops1C edwards_G1_mul_by_d) edwards_G1_one (limbsOf 3 13) s).2 = s + ⟨2, 3⟩ := by
  obtain ⟨P, h, ho⟩ := edwards_g₁
  have e : val (limbsOf 3 13) = 13 := by decide +kernel
  rw [C73_edwards_G1_scalar_mul (mulD := edwards_G1_mul_by_d) (fun _ => rfl) C52_edwards_G1_generator.1 C52_edwards_G1_generator.2.1 edwards_H₁_two h (limbsOf 3 13)
    (by rw [e]; decide) (by rw [e, ho]; decide +kernel) s, e]
  rfl

/-- Sums at the generator `P` of `alt_bn128_G1`: `P + P` is a doubling, `P + 2P` an addition, `P + 0` nothing. -/
example : ∃ P : (sw 0 alt_bn128_b).Point, JacRep alt_bn128_G1_one P ∧ sumTally P P = ⟨0, 1⟩ ∧ sumTally P (P + P) = ⟨1, 0⟩ ∧
    sumTally P 0 = ⟨0, 0⟩ := by
  obtain ⟨P, h, ho⟩ := C52_alt_bn128_G1_generator.2.2.2.2
  have h0 : P ≠ 0 := fun h0 => by rw [h0, addOrderOf_zero] at ho; revert ho; decide +kernel
  have h2 : P + P ≠ 0 := by
    rw [← two_nsmul]; exact nsmul_ne_zero_of_lt_addOrderOf (by omega) (by rw [ho]; decide +kernel)
  exact ⟨P, h, tally_self _ _ h0, tally_ne _ _ h0 h2 fun e => h0 (left_eq_add.1 e), tally_zero_right _ _ _⟩

/-! ## Findings -/

/-- The counters of bls12_381 do not count as a user expects. -/
theorem C73_bls12_381_wrong : ¬CountsBy Jac.ops (JacRep (W := sw 0 bls12_381_b)) (Jac.opsC false) sumTally ∧
    ¬CountsBy Jac.ops (JacRep (W := sw 0 bls12_381_twist_b)) (Jac.opsC false) sumTally := by
  refine ⟨?_, ?_⟩
  · obtain ⟨P, h, ho⟩ := C52_bls12_381_G1_generator.2.2.2.2
    exact not_counted (Jac.implementsRel C52_bls12_381_G1_generator.1) (Jac.countsBy false) (Or.inl (by decide)) h
      (by rw [ho]; decide +kernel)
  · obtain ⟨P, h, ho⟩ := C52_bls12_381_G2_generator.2.2.2.2
    exact not_counted (Jac.implementsRel C52_bls12_381_G2_generator.1) (Jac.countsBy false) (Or.inl (by decide)) h
      (by rw [ho]; decide +kernel)

/-- Neither do those of mnt4 and mnt6. -/
theorem C73_mnt_wrong :
    ¬CountsBy (Proj.ops mnt4_G1_mul_by_a) (ProjRep (W := sw mnt4_a mnt4_b)) (Proj.opsC mnt4_G1_mul_by_a) sumTally ∧
    ¬CountsBy (Proj.ops mnt4_G2_mul_by_a) (ProjRep (W := sw mnt4_twist_a mnt4_twist_b)) (Proj.opsC mnt4_G2_mul_by_a) sumTally ∧
    ¬CountsBy (Proj.ops mnt6_G1_mul_by_a) (ProjRep (W := sw mnt6_a mnt6_b)) (Proj.opsC mnt6_G1_mul_by_a) sumTally ∧
    ¬CountsBy (Proj.ops mnt6_G2_mul_by_a) (ProjRep (W := sw mnt6_twist_a mnt6_twist_b)) (Proj.opsC mnt6_G2_mul_by_a) sumTally := by
  refine ⟨?_, ?_, ?_, ?_⟩
  · obtain ⟨P, h, ho⟩ := C52_mnt4_G1_generator.2.2.2
    exact not_counted (Proj.implementsRel (fun _ => rfl) C52_mnt4_G1_generator.1) (Proj.countsBy _) (Or.inl (by decide)) h
      (by rw [ho]; decide +kernel)
  · obtain ⟨P, h, ho⟩ := C52_mnt4_G2_generator.2.2.2
    exact not_counted (Proj.implementsRel (fun x => ((C36_mul_by_a mnt4_β mnt4_a mnt4_b).1 x).1) C52_mnt4_G2_generator.1)
      (Proj.countsBy _) (Or.inl (by decide)) h (by rw [ho]; decide +kernel)
  · obtain ⟨P, h, ho⟩ := C52_mnt6_G1_generator.2.2.2
    exact not_counted (Proj.implementsRel (fun _ => rfl) C52_mnt6_G1_generator.1) (Proj.countsBy _) (Or.inl (by decide)) h
      (by rw [ho]; decide +kernel)
  · obtain ⟨P, h, ho⟩ := C52_mnt6_G2_generator.2.2.2
    exact not_counted (Proj.implementsRel (fun x => ((C36_mul_by_a mnt6_β mnt6_a mnt6_b).2.1 x).1) C52_mnt6_G2_generator.1)
      (Proj.countsBy _) (Or.inl (by decide)) h (by rw [ho]; decide +kernel)

/-- Nor those of edwards, where `P + P` is counted as an addition. -/
theorem C73_edwards_wrong :
    ¬CountsBy (Edw.ops1 edwards_G1_mul_by_d) (EdwRepIn edwards_H₁) (Edw.ops1C edwards_G1_mul_by_d) sumTally := by
  obtain ⟨P, h, ho⟩ := edwards_g₁
  exact not_counted edwards_impl₁ (Edw.countsBy1 _) (Or.inr (by decide)) h (by rw [ho]; decide +kernel)

end Libff
