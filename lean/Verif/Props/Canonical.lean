import Verif.Lemmas.Canonical
import Verif.Props.CurveIO
import Verif.Props.Bn128
import Verif.Props.MillerStepsEdw

/-!
# Written bytes identify elements (C75)

`Identifies ok write Den Same` (`Verif/Spec/Canonical.lean`): values of `Den` can be written, and two outputs followed by admitted
continuations agree exactly if the values are the `Same` and the continuations agree. `JacRep`/`ProjRep`/`EdwRep` say which point an object
denotes; the same point has many objects. `compress`, `binary` and `mont` are the build options.
-/
namespace Libff
open WeierstrassCurve WeierstrassCurve.Affine

section
variable {K : Type} [Field K] [DecidableEq K] [Squared K] [LawfulSquared K] [InverseO K] [LawfulInverse K]
variable {binary compress : Bool} {c : FieldCodec K} {lsb : K → Outcome Bool} {Z : K → Prop}

theorem Jac.identifies {b : K} (hc : Identifies (ContOk binary) c.write (fun _ => True) (fun x y => x = y))
    (hl : ∀ y, ∃ b, lsb y = .ok b) (hZ : ∀ y, lsb (-y) = lsb y ↔ Z y) :
    Identifies (PointCont binary compress) (Jac.write binary compress c lsb) (fun p => ∃ P : (sw 0 b).Point, JacRep p P)
      (fun p q => Jac.eq p q = true ∨
        (compress = true ∧ Jac.eq p (Jac.neg q) = true ∧ ∃ x y, Jac.toAffine p = .ok ⟨x, y, 1⟩ ∧ Z y)) := by
  obtain ⟨h1, h2⟩ := swWrite_identifies (compress := compress) (Rep := fun p (P : (sw 0 b).Point) => JacRep p P) (isZero := Jac.isZero)
    (toAffine := Jac.toAffine) (by simp [Jac.isZero]) (fun x y => by simp [Jac.isZero]) (fun p P h => Jac.toAffine_rep h) hc hl
  refine ⟨fun p ⟨P, hp⟩ => h1 p P hp, ?_⟩
  rintro p q out out' rest rest' ⟨P, hp⟩ ⟨Q, hq⟩ e e' hr hr'
  rw [h2 p q P Q out out' rest rest' hp hq e e' hr hr']
  beta_reduce
  rw [SwSame, Jac.eq_rep hp hq, Jac.eq_rep hp (Jac.neg_rep hq)]
  refine and_congr_left fun _ => or_congr Iff.rfl (and_congr_right fun _ => and_congr_right fun _ => ?_)
  rcases Jac.toAffine_rep hp with ⟨rfl, e⟩ | ⟨x, y, hP, rfl, e⟩ <;> rw [e]
  · constructor
    · rintro ⟨x, y, h, h', -⟩; cases h'
    · rintro ⟨x, y, h, -⟩
      exact absurd (congrArg Coord3.Z (Outcome.ok.inj h)) zero_ne_one
  · constructor
    · rintro ⟨x', y', h, h', h''⟩
      simp only [Point.some.injEq] at h'
      obtain ⟨rfl, rfl⟩ := h'
      exact ⟨x, y, rfl, (hZ y).1 h''⟩
    · rintro ⟨x', y', h, h'⟩
      have h := Outcome.ok.inj h
      simp only [Coord3.mk.injEq, and_true] at h
      obtain ⟨rfl, rfl⟩ := h
      exact ⟨x, y, hP, rfl, (hZ y).2 h'⟩

theorem Proj.identifies {a b : K} (hc : Identifies (ContOk binary) c.write (fun _ => True) (fun x y => x = y))
    (hl : ∀ y, ∃ b, lsb y = .ok b) (hZ : ∀ y, lsb (-y) = lsb y ↔ Z y) :
    Identifies (PointCont binary compress) (Proj.write binary compress c lsb) (fun p => ∃ P : (sw a b).Point, ProjRep p P)
      (fun p q => Proj.eq p q = true ∨
        (compress = true ∧ Proj.eq p (Proj.neg q) = true ∧ ∃ x y, Proj.toAffine p = .ok ⟨x, y, 1⟩ ∧ Z y)) := by
  obtain ⟨h1, h2⟩ := swWrite_identifies (compress := compress) (Rep := fun p (P : (sw a b).Point) => ProjRep p P) (isZero := Proj.isZero)
    (toAffine := Proj.toAffine) (by simp [Proj.isZero]) (fun x y => by simp [Proj.isZero]) (fun p P h => Proj.toAffine_rep h) hc hl
  refine ⟨fun p ⟨P, hp⟩ => h1 p P hp, ?_⟩
  rintro p q out out' rest rest' ⟨P, hp⟩ ⟨Q, hq⟩ e e' hr hr'
  rw [h2 p q P Q out out' rest rest' hp hq e e' hr hr']
  beta_reduce
  rw [SwSame, Proj.eq_rep hp hq, Proj.eq_rep hp (Proj.neg_rep hq)]
  refine and_congr_left fun _ => or_congr Iff.rfl (and_congr_right fun _ => and_congr_right fun _ => ?_)
  rcases Proj.toAffine_rep hp with ⟨rfl, e⟩ | ⟨x, y, hP, rfl, e⟩ <;> rw [e]
  · constructor
    · rintro ⟨x, y, h, h', -⟩; cases h'
    · rintro ⟨x, y, h, -⟩
      exact absurd (congrArg Coord3.Z (Outcome.ok.inj h)) zero_ne_one
  · constructor
    · rintro ⟨x', y', h, h', h''⟩
      simp only [Point.some.injEq] at h'
      obtain ⟨rfl, rfl⟩ := h'
      exact ⟨x, y, rfl, (hZ y).1 h''⟩
    · rintro ⟨x', y', h, h'⟩
      have h := Outcome.ok.inj h
      simp only [Coord3.mk.injEq, and_true] at h
      obtain ⟨rfl, rfl⟩ := h
      exact ⟨x, y, hP, rfl, (hZ y).2 h'⟩

omit [Squared K] [LawfulSquared K] [InverseO K] [LawfulInverse K] in
theorem Bn128.identifies {b : K} {lsb : K → Bool} (hc : Identifies (ContOk binary) c.write (fun _ => True) (fun x y => x = y))
    (hZ : ∀ y, lsb (-y) = lsb y ↔ Z y) :
    Identifies (PointCont binary compress) (Bn128.write binary compress c lsb) (fun p => ∃ P : (sw 0 b).Point, JacRep p P)
      (fun p q => Bn128.eq p q = true ∨
        (compress = true ∧ Bn128.eq p (Bn128.neg q) = true ∧ ∃ x y, Bn128.toAffine p = ⟨x, y, 1⟩ ∧ Z y)) := by
  have hw : Bn128.write binary compress c lsb = fun g => swWrite binary compress c (fun y => .ok (lsb y)) Bn128.isZero
      (fun g => .ok (Bn128.toAffine g)) g := funext fun g => Bn128.write_eq binary compress c lsb g
  rw [hw]
  obtain ⟨h1, h2⟩ := swWrite_identifies (compress := compress) (lsb := fun y => .ok (lsb y)) (Rep := fun p (P : (sw 0 b).Point) => JacRep p P) (isZero := Bn128.isZero)
    (toAffine := fun g => .ok (Bn128.toAffine g)) (by simp [Bn128.isZero]) (fun x y => by simp [Bn128.isZero])
    (fun p P h => by simpa only [Outcome.ok.injEq] using Bn128.toAffine_rep h) hc (fun y => ⟨_, rfl⟩)
  refine ⟨fun p ⟨P, hp⟩ => h1 p P hp, ?_⟩
  rintro p q out out' rest rest' ⟨P, hp⟩ ⟨Q, hq⟩ e e' hr hr'
  rw [h2 p q P Q out out' rest rest' hp hq e e' hr hr']
  beta_reduce
  rw [SwSame, Bn128.eq_rep hp hq, Bn128.eq_rep hp (Bn128.neg_rep hq)]
  refine and_congr_left fun _ => or_congr Iff.rfl (and_congr_right fun _ => and_congr_right fun _ => ?_)
  rcases Bn128.toAffine_rep hp with ⟨rfl, e⟩ | ⟨x, y, hP, rfl, e⟩ <;> rw [e]
  · constructor
    · rintro ⟨x, y, h, h', -⟩; cases h'
    · rintro ⟨x, y, h, -⟩
      exact absurd (congrArg Coord3.Z h) zero_ne_one
  · constructor
    · rintro ⟨x', y', h, h', h''⟩
      simp only [Point.some.injEq] at h'
      obtain ⟨rfl, rfl⟩ := h'
      exact ⟨x, y, rfl, (hZ y).1 (Outcome.ok.inj h'')⟩
    · rintro ⟨x', y', h, h'⟩
      simp only [Coord3.mk.injEq, and_true] at h
      obtain ⟨rfl, rfl⟩ := h
      exact ⟨x, y, hP, rfl, congrArg Outcome.ok ((hZ y).2 h')⟩

theorem Edw.identifies (h2 : (2 : K) ≠ 0) {a d : K} (had : a - d ≠ 0)
    (hc : Identifies (ContOk binary) c.write (fun _ => True) (fun x y => x = y))
    (hl : ∀ y, ∃ b, lsb y = .ok b) (hZ : ∀ y, lsb (-y) = lsb y ↔ Z y) :
    Identifies (PointCont binary compress) (Edw.write binary compress c lsb) (fun p => ∃ P : (edwW a d).Point, EdwRep p P)
      (fun p q => Edw.eq p q = true ∨
        (compress = true ∧ ∃ x y, Edw.toAffine p = .ok ⟨x, y, 1⟩ ∧ Edw.toAffine q = .ok ⟨x, -y, 1⟩ ∧ Z y)) := by
  refine (Edw.write_identifies hc hl _ (fun p h => h)).congr (fun _ h => h) ?_
  rintro p q ⟨P, hp⟩ ⟨Q, hq⟩
  rw [Edw.eq_rep h2 had hp hq]
  constructor
  · rintro ⟨x, y, y', e, e', h⟩
    obtain ⟨u, v, h1, h3, h4, -⟩ := C37_to_affine hp
    obtain ⟨u', v', h1', h3', h4', -⟩ := C37_to_affine hq
    have k := Outcome.ok.inj (e.symm.trans h1)
    have k' := Outcome.ok.inj (e'.symm.trans h1')
    simp only [Coord3.mk.injEq, and_true] at k k'
    obtain ⟨rfl, rfl⟩ := k
    obtain ⟨rfl, rfl⟩ := k'
    have hyy : (y' - y) * (y' + y) = 0 := by
      have := (edwOn_root had h3).symm.trans (edwOn_root had h3')
      linear_combination -this
    rcases mul_eq_zero.1 hyy with hy | hy
    · rw [sub_eq_zero.1 hy] at h4'
      exact Or.inl ((Edw.eq_rep h2 had h4 h4').1 ((Edw.eq_rep h2 had h4 h4).2 rfl))
    · obtain rfl := eq_neg_of_add_eq_zero_left hy
      cases compress with
      | true => exact Or.inr ⟨rfl, x, y, e, e', (hZ y).1 (by simpa using h.symm)⟩
      | false =>
        have h : y = -y := by simpa using h
        rw [← h] at h4'
        exact Or.inl ((Edw.eq_rep h2 had h4 h4').1 ((Edw.eq_rep h2 had h4 h4).2 rfl))
  · rintro (rfl | ⟨rfl, x, y, e, e', h⟩)
    · obtain ⟨x, y, h1, -⟩ := C37_to_affine hp
      exact ⟨x, y, y, h1, by rw [← Edw.toAffine_congr h2 had hp hq, h1], by simp⟩
    · exact ⟨x, y, -y, e, e', by simpa using ((hZ y).2 h).symm⟩

end

section Bits
variable (P : FpParams) [hP : Fact P.Valid]

theorem fpLsb_total (y : Fp P) : ∃ b, fpLsb P y = .ok b := ⟨_, fpLsb_eq P y⟩

theorem fpLsb_neg_iff (y : Fp P) : fpLsb P (-y) = fpLsb P y ↔ y = 0 := by
  constructor
  · intro h
    by_contra h0
    rw [fpLsb_neg P y h0, fpLsb_eq P y] at h
    have := Outcome.ok.inj h
    simp at this
  · rintro rfl; rw [neg_zero]

end Bits

/-! ## Curves -/

section G1
variable (P : FpParams) [hP : Fact P.Valid] [hp : Fact P.p.Prime] (mont binary compress : Bool) (bits : Nat) (hb : BitSize P bits)
include hP hp hb

omit hp in
theorem fpObj_identifies : Identifies (ContOk binary) (fpObjCodec mont binary P bits).write (fun _ => True) (fun x y => x = y) :=
  (fpObjCodec_lawful P mont binary bits hb).stream.identifies

/-- **C75**, `alt_bn128_G1` and `bls12_381_G1`: in every format, two elements have the same bytes exactly if they are equal. -/
theorem C75_jacobian_g1 (b : Fp P) :
    Identifies (PointCont binary compress) (Jac.write binary compress (fpObjCodec mont binary P bits) (fpLsb P))
      (fun p => ∃ Q : (sw 0 b).Point, JacRep p Q) (fun p q => Jac.eq p q = true) := by
  refine (Jac.identifies (fpObj_identifies P mont binary bits hb) (fpLsb_total P) (fpLsb_neg_iff P)).congr (fun _ h => h) ?_
  rintro p q ⟨Q, hp⟩ ⟨R, hq⟩
  refine ⟨?_, Or.inl⟩
  rintro (h | ⟨-, h, x, y, h', rfl⟩)
  · exact h
  · rw [Jac.eq_rep hp (Jac.neg_rep hq)] at h
    rw [Jac.eq_rep hp hq]
    rcases Jac.toAffine_rep hp with ⟨rfl, e⟩ | ⟨x', y', hQ, rfl, e⟩
    · rw [← neg_eq_zero.1 h.symm]
    · have e := Outcome.ok.inj (h'.symm.trans e)
      simp only [Coord3.mk.injEq, and_true] at e
      obtain ⟨rfl, rfl⟩ := e
      have : -Point.some x 0 hQ = Point.some x 0 hQ := by rw [Point.neg_some]; simp [negY, sw, weier]
      rw [← this, h, neg_neg]

/-- **C75**, `mnt4_G1` and `mnt6_G1`. -/
theorem C75_projective_g1 (a b : Fp P) :
    Identifies (PointCont binary compress) (Proj.write binary compress (fpObjCodec mont binary P bits) (fpLsb P))
      (fun p => ∃ Q : (sw a b).Point, ProjRep p Q) (fun p q => Proj.eq p q = true) := by
  refine (Proj.identifies (fpObj_identifies P mont binary bits hb) (fpLsb_total P) (fpLsb_neg_iff P)).congr (fun _ h => h) ?_
  rintro p q ⟨Q, hp⟩ ⟨R, hq⟩
  refine ⟨?_, Or.inl⟩
  rintro (h | ⟨-, h, x, y, h', rfl⟩)
  · exact h
  · rw [Proj.eq_rep hp (Proj.neg_rep hq)] at h
    rw [Proj.eq_rep hp hq]
    rcases Proj.toAffine_rep hp with ⟨rfl, e⟩ | ⟨x', y', hQ, rfl, e⟩
    · rw [← neg_eq_zero.1 h.symm]
    · have e := Outcome.ok.inj (h'.symm.trans e)
      simp only [Coord3.mk.injEq, and_true] at e
      obtain ⟨rfl, rfl⟩ := e
      have : -Point.some x 0 hQ = Point.some x 0 hQ := by rw [Point.neg_some]; simp [negY, sw, weier]
      rw [← this, h, neg_neg]

/-- **C75**, `edwards_G1`. -/
theorem C75_edwards_g1 (d : Fp P) (hd : 1 - d ≠ 0) :
    Identifies (PointCont binary compress) (Edw.write binary compress (fpObjCodec mont binary P bits) (fpLsb P))
      (fun p => ∃ Q : (edwW 1 d).Point, EdwRep p Q) (fun p q => Edw.eq p q = true) := by
  refine (Edw.identifies (fp_two_ne_zero P) hd (fpObj_identifies P mont binary bits hb) (fpLsb_total P) (fpLsb_neg_iff P)).congr
    (fun _ h => h) ?_
  rintro p q ⟨Q, hp⟩ ⟨R, hq⟩
  refine ⟨?_, Or.inl⟩
  rintro (h | ⟨-, x, y, h, h', rfl⟩)
  · exact h
  · rw [neg_zero] at h'
    obtain ⟨u, v, h1, -, h4, -⟩ := C37_to_affine hp
    obtain ⟨u', v', h1', -, h4', -⟩ := C37_to_affine hq
    have k := Outcome.ok.inj (h.symm.trans h1)
    have k' := Outcome.ok.inj (h'.symm.trans h1')
    simp only [Coord3.mk.injEq, and_true] at k k'
    obtain ⟨rfl, rfl⟩ := k
    obtain ⟨rfl, rfl⟩ := k'
    rw [Edw.eq_rep (fp_two_ne_zero P) hd hp hq]
    exact (Edw.eq_rep (fp_two_ne_zero P) hd h4 h4').1 ((Edw.eq_rep (fp_two_ne_zero P) hd h4 h4).2 rfl)

end G1

section G2
variable (P : FpParams) [hP : Fact P.Valid] [hp : Fact P.p.Prime] (mont binary compress : Bool) (bits : Nat) (hb : BitSize P bits)
  (β : Fp P)
include hP hp hb

/-- **C75**, `alt_bn128_G2` and `bls12_381_G2`: equal elements have the same bytes; different ones have different bytes, except that in the
compressed format an element whose affine `Y` has `c0 = 0` has the bytes of its negative. -/
theorem C75_jacobian_g2 [Fact (¬ IsSquare β)] (b : Fp2 (Fp P) β) :
    Identifies (PointCont binary compress) (Jac.write binary compress (quadCodec binary (fpObjCodec mont binary P bits)) (fp2Lsb P))
      (fun p => ∃ Q : (sw 0 b).Point, JacRep p Q)
      (fun p q => Jac.eq p q = true ∨
        (compress = true ∧ Jac.eq p (Jac.neg q) = true ∧ ∃ x y, Jac.toAffine p = .ok ⟨x, y, 1⟩ ∧ y.c0 = 0)) :=
  Jac.identifies ((((fpObjCodec_lawful P mont binary bits hb).quad _).stream.identifies).congr (fun _ _ => ⟨trivial, trivial⟩) fun _ _ _ _ => Iff.rfl)
    (fun y => fpLsb_total P y.c0) (fun y => fpLsb_neg_iff P y.c0)

/-- **C75**, `mnt4_G2`. -/
theorem C75_projective_g2 [Fact (¬ IsSquare β)] (a b : Fp2 (Fp P) β) :
    Identifies (PointCont binary compress) (Proj.write binary compress (quadCodec binary (fpObjCodec mont binary P bits)) (fp2Lsb P))
      (fun p => ∃ Q : (sw a b).Point, ProjRep p Q)
      (fun p q => Proj.eq p q = true ∨
        (compress = true ∧ Proj.eq p (Proj.neg q) = true ∧ ∃ x y, Proj.toAffine p = .ok ⟨x, y, 1⟩ ∧ y.c0 = 0)) :=
  Proj.identifies ((((fpObjCodec_lawful P mont binary bits hb).quad _).stream.identifies).congr (fun _ _ => ⟨trivial, trivial⟩) fun _ _ _ _ => Iff.rfl)
    (fun y => fpLsb_total P y.c0) (fun y => fpLsb_neg_iff P y.c0)

/-- **C75**, `mnt6_G2`. -/
theorem C75_projective_g2_fp3 [Fact (∀ y : Fp P, y * y * y ≠ β)] (a b : Fp3 (Fp P) β) :
    Identifies (PointCont binary compress) (Proj.write binary compress (cubicCodec binary (fpObjCodec mont binary P bits)) (fp3Lsb P))
      (fun p => ∃ Q : (sw a b).Point, ProjRep p Q)
      (fun p q => Proj.eq p q = true ∨
        (compress = true ∧ Proj.eq p (Proj.neg q) = true ∧ ∃ x y, Proj.toAffine p = .ok ⟨x, y, 1⟩ ∧ y.c0 = 0)) :=
  Proj.identifies ((((fpObjCodec_lawful P mont binary bits hb).cubic _).stream.identifies).congr (fun _ _ => ⟨trivial, trivial, trivial⟩)
    fun _ _ _ _ => Iff.rfl) (fun y => fpLsb_total P y.c0) (fun y => fpLsb_neg_iff P y.c0)

/-- **C75**, `edwards_G2` on all points that are elements: two compressed elements `(x, y)` and `(x, -y)` with `y.c0 = 0` have the same bytes. -/
theorem C75_edwards_g2 [Fact (∀ y : Fp P, y * y * y ≠ β)] {a d : Fp3 (Fp P) β} (had : a - d ≠ 0) :
    Identifies (PointCont binary compress) (Edw.write binary compress (cubicCodec binary (fpObjCodec mont binary P bits)) (fp3Lsb P))
      (fun p => ∃ Q : (edwW a d).Point, EdwRep p Q)
      (fun p q => Edw.eq p q = true ∨
        (compress = true ∧ ∃ x y, Edw.toAffine p = .ok ⟨x, y, 1⟩ ∧ Edw.toAffine q = .ok ⟨x, -y, 1⟩ ∧ y.c0 = 0)) :=
  Edw.identifies (fun h => fp_two_ne_zero P (congrArg Cubic.c0 h)) had
    ((((fpObjCodec_lawful P mont binary bits hb).cubic _).stream.identifies).congr (fun _ _ => ⟨trivial, trivial, trivial⟩) fun _ _ _ _ => Iff.rfl)
    (fun y => fpLsb_total P y.c0) (fun y => fpLsb_neg_iff P y.c0)

/-- **C75**, `edwards_G2`, elements of a subgroup without a point of order two (in particular the group of order `r`): the exception does not
occur, two elements have the same bytes exactly if they are equal. -/
theorem C75_edwards_g2_subgroup [Fact (∀ y : Fp P, y * y * y ≠ β)] {a d : Fp3 (Fp P) β} (had : a - d ≠ 0)
    {H : AddSubgroup (edwW a d).Point} (hH : NoTwoTorsion H) :
    Identifies (PointCont binary compress) (Edw.write binary compress (cubicCodec binary (fpObjCodec mont binary P bits)) (fp3Lsb P))
      (fun p => ∃ Q : (edwW a d).Point, EdwRepIn H p Q) (fun p q => Edw.eq p q = true) := by
  have h2 : (2 : Fp3 (Fp P) β) ≠ 0 := fun h => fp_two_ne_zero P (congrArg Cubic.c0 h)
  refine (C75_edwards_g2 P mont binary compress bits hb β had).congr (fun _ h => h.imp fun _ h => h.2) ?_
  rintro p q ⟨Q, hQ, hp⟩ ⟨R, hR, hq⟩
  refine ⟨?_, Or.inl⟩
  rintro (h | ⟨-, x, y, h, h', -⟩)
  · exact h
  exfalso
  rcases Edw.toAffine_rep hp with ⟨-, e⟩ | ⟨h0, e, k⟩ <;> rcases Edw.toAffine_rep hq with ⟨-, e'⟩ | ⟨h0', e', k'⟩ <;>
    have e := Outcome.ok.inj (h.symm.trans e) <;> have e' := Outcome.ok.inj (h'.symm.trans e') <;>
    simp only [Coord3.mk.injEq, and_true] at e e'
  · obtain ⟨-, rfl⟩ := e
    have : (1 : Fp3 (Fp P) β) + 1 = 0 := by linear_combination -e'.2
    exact h2 (by rw [← this]; norm_num)
  · exact k'.1 (e'.1.symm.trans e.1)
  · exact k.1 (e.1.symm.trans e'.1)
  · rw [← e.1, ← e.2] at k
    rw [← e'.1, ← e'.2] at k'
    by_cases hs : Q + R = 0
    · have hQR : Q = -R := eq_neg_of_add_eq_zero_left hs
      rw [hQR] at k
      have := (edwPt_inj h2 had k (edwPt_neg k')).1
      have h3 : 2 * x = 0 := by linear_combination this
      exact (mul_ne_zero h2 k.1) h3
    · exact (edwPt_sum h2 had hH hQ hR k k' hs).1 (by ring)

end G2

/-- **C75**, `edwards_G2`, the elements of order `r` of the actual curve. -/
theorem C75_edwards_G2 (mont binary compress : Bool) (bits : Nat) (hb : BitSize edwards_Fq_params bits) :
    Identifies (PointCont binary compress)
      (Edw.write binary compress (cubicCodec binary (fpObjCodec mont binary edwards_Fq_params bits)) (fp3Lsb edwards_Fq_params) :
        Coord3 edwards_Fq3 → _)
      (fun p => ∃ Q, EdwRepIn edwards_H₂ p Q) (fun p q => Edw.eq p q = true) :=
  C75_edwards_g2_subgroup edwards_Fq_params mont binary compress bits hb _ C52_edwards_G2_generator.2.1 edwards_H₂_two

/-! ## bn128: external codec and low bit -/

/-- **C75**, `bn128_G1`: for any external codec that reads back what it writes and any low bit that tells nonzero elements from their
negatives. -/
theorem C75_bn128_g1 {K : Type} [Field K] [DecidableEq K] {b : K} {binary compress : Bool} {c : FieldCodec K} {lsb : K → Bool}
    (hc : StreamLaw binary (fun _ => True) c.write c.read) (hl : Bn128.LsbLaw lsb) :
    Identifies (PointCont binary compress) (Bn128.write binary compress c lsb) (fun p => ∃ Q : (sw 0 b).Point, JacRep p Q)
      (fun p q => Bn128.eq p q = true) := by
  refine (Bn128.identifies (Z := fun y => y = 0) hc.identifies fun y => ?_).congr (fun _ h => h) ?_
  · constructor
    · intro h
      by_contra h0
      rw [hl y h0] at h
      simp at h
    · rintro rfl; rw [neg_zero]
  rintro p q ⟨Q, hp⟩ ⟨R, hq⟩
  refine ⟨?_, Or.inl⟩
  rintro (h | ⟨-, h, x, y, h', rfl⟩)
  · exact h
  · rw [Bn128.eq_rep hp (Bn128.neg_rep hq)] at h
    rw [Bn128.eq_rep hp hq]
    rcases Bn128.toAffine_rep hp with ⟨rfl, e⟩ | ⟨x', y', hQ, rfl, e⟩
    · rw [← neg_eq_zero.1 h.symm]
    · have e := h'.symm.trans e
      simp only [Coord3.mk.injEq, and_true] at e
      obtain ⟨rfl, rfl⟩ := e
      have : -Point.some x 0 hQ = Point.some x 0 hQ := by rw [Point.neg_some]; simp [negY, sw, weier]
      rw [← this, h, neg_neg]

/-- **C75**, `bn128_G2`. -/
theorem C75_bn128_g2 {F : Type} [Field F] [DecidableEq F] {β : F} [Fact (¬ IsSquare β)] {b : Fp2 F β} {binary compress : Bool}
    {c : FieldCodec F} {lsb : F → Bool} (hc : StreamLaw binary (fun _ => True) c.write c.read) (hl : Bn128.LsbLaw lsb) :
    Identifies (PointCont binary compress) (Bn128.write binary compress (Bn128.fp2Codec binary c) (Bn128.fp2Lsb lsb))
      (fun p => ∃ Q : (sw 0 b).Point, JacRep p Q)
      (fun p q => Bn128.eq p q = true ∨
        (compress = true ∧ Bn128.eq p (Bn128.neg q) = true ∧ ∃ x y, Bn128.toAffine p = ⟨x, y, 1⟩ ∧ y.c0 = 0)) := by
  refine Bn128.identifies (K := Fp2 F β) (Z := fun y => y.c0 = 0) (Bn128.fp2Codec_stream hc).identifies fun y => ?_
  change lsb (-y.c0) = lsb y.c0 ↔ _
  constructor
  · intro h
    by_contra h0
    rw [hl y.c0 h0] at h
    simp at h
  · intro h; rw [h, neg_zero]

/-! ## Fields and vectors -/

/-- **C75**, all field classes: whatever codec reads back what it writes (C24 for `Fp_model`, `Fp2_model`, ..., `Fp12_2over3over2_model`) identifies the element. -/
theorem C75_field {α : Type} {binary : Bool} {valid : α → Prop} {c : FieldCodec α} {k : Nat} (h : c.Lawful binary valid k) :
    Identifies (ContOk binary) c.write valid (fun x y => x = y) := h.stream.identifies

/-- **C75**, vectors of field elements: same bytes exactly for equal vectors. -/
theorem C75_field_vector {α : Type} {binary : Bool} {valid : α → Prop} {c : FieldCodec α} {k : Nat} (h : c.Lawful binary valid k) :
    Identifies (fun _ => True) (vecWrite binary c.write) (fun v => (∀ x ∈ v, valid x) ∧ v.length < 2 ^ 64) (fun v w => v = w) := by
  refine ((C75_field h).vec (contOk_newline binary)).congr (fun _ h => h) fun v w _ _ => ?_
  rw [List.forall₂_eq_eq_eq]

/-- **C75**, vectors of group elements: the bytes identify the length and each entry, with the same notion of sameness as for one element. -/
theorem C75_group_vector {α : Type} {binary compress : Bool} {write : α → Outcome (List Byte)} {Den : α → Prop} {Same : α → α → Prop}
    (h : Identifies (PointCont binary compress) write Den Same) :
    Identifies (fun _ => True) (vecWrite binary write) (fun v => (∀ p ∈ v, Den p) ∧ v.length < 2 ^ 64) (List.Forall₂ Same) :=
  h.vec (pointCont_newline binary compress)

/-! ## Cases -/

/-- `(4 : 16 : 2)` and `(1 : 2 : 1)` are the same point: same bytes. -/
example (out out' : List Byte)
    (h : Jac.write false true (fpObjCodec false false w127 7) (fpLsb w127) ⟨4, 16, 2⟩ = .ok out)
    (h' : Jac.write false true (fpObjCodec false false w127 7) (fpLsb w127) ⟨1, 2, 1⟩ = .ok out') : out = out' := by
  have := ((C75_jacobian_g1 w127 false false true 7 w127_bits 3).2 ⟨4, 16, 2⟩ ⟨1, 2, 1⟩ out out' [] []
    ⟨Point.some 1 2 w127_point, fp_two_ne_zero w127, by norm_num, by norm_num⟩
    ⟨Point.some 1 2 w127_point, one_ne_zero, by norm_num, by norm_num⟩ h h' (Or.inl rfl) (Or.inl rfl)).2
    ⟨(Jac.eq_rep (b := 3) (P := Point.some 1 2 w127_point) (Q := Point.some 1 2 w127_point)
      ⟨fp_two_ne_zero w127, by norm_num, by norm_num⟩ ⟨one_ne_zero, by norm_num, by norm_num⟩).2 rfl, rfl⟩
  simpa using this

example : Identifies (fun _ => True) (vecWrite false (fpObjCodec false false w127 7).write)
    (fun v => (∀ x ∈ v, True) ∧ v.length < 2 ^ 64) (fun v w => v = w) :=
  C75_field_vector (fpObjCodec_lawful w127 false false 7 w127_bits)

/-- The exception in the compressed format of G2 occurs: `(1, u)` and `(1, -u)` on `y² = x³ - 2` over `F_127[u]/(u² + 1)`. -/
example : ∃ p q : Coord3 (Fp2 (Fp w127) (-1)), (∃ Q : (sw 0 (-2)).Point, JacRep p Q) ∧ (∃ Q : (sw 0 (-2)).Point, JacRep q Q) ∧
    ∃ x y, Jac.toAffine p = .ok ⟨x, y, 1⟩ ∧ y.c0 = 0 ∧ Jac.eq p (Jac.neg q) = true := by
  have hr : JacRep (⟨1, ⟨0, 1⟩, 1⟩ : Coord3 (Fp2 (Fp w127) (-1))) (Point.some 1 ⟨0, 1⟩ w127_g2_point) :=
    ⟨one_ne_zero, by norm_num, by norm_num⟩
  refine ⟨⟨1, ⟨0, 1⟩, 1⟩, Jac.neg ⟨1, ⟨0, 1⟩, 1⟩, ⟨_, hr⟩, ⟨_, Jac.neg_rep hr⟩, 1, ⟨0, 1⟩, ?_, rfl, ?_⟩
  · have hz : Jac.isZero (⟨1, ⟨0, 1⟩, 1⟩ : Coord3 (Fp2 (Fp w127) (-1))) = false := by simp [Jac.isZero]
    simp [Jac.toAffine, hz, LawfulInverse.inverseO_ne (1 : Fp2 (Fp w127) (-1)) one_ne_zero, LawfulSquared.squared_eq]
  · exact (Jac.eq_rep hr (Jac.neg_rep (Jac.neg_rep hr))).2 (neg_neg _).symm

end Libff
