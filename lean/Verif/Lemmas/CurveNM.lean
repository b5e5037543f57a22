import Verif.Lemmas.NM
import Verif.Lemmas.CurveBatch
import Verif.Lemmas.CurveEdwRep

/-!
# Curve arithmetic inside the kernel

The formulas of the group classes respect relations that respect the field operations, so a computation of
`scalarMul` over `NM p` gives a fact about the model of the library's group classes.
-/
namespace Libff
open WeierstrassCurve Affine
set_option linter.unusedSectionVars false

/-- Componentwise relation. -/
def Coord3.Rel {K L : Type} (R : K → L → Prop) (p : Coord3 K) (q : Coord3 L) : Prop :=
  R p.X q.X ∧ R p.Y q.Y ∧ R p.Z q.Z

section
variable {K L : Type} [Zero K] [One K] [Add K] [Sub K] [Neg K] [Mul K] [Squared K] [DecidableEq K]
  [Zero L] [One L] [Add L] [Sub L] [Neg L] [Mul L] [Squared L] [DecidableEq L] {R : K → L → Prop}

omit [One K] [Add K] [Sub K] [Neg K] [Mul K] [Squared K] [DecidableEq K]
  [One L] [Add L] [Sub L] [Neg L] [Mul L] [Squared L] [DecidableEq L] [Zero K] [Zero L] in
theorem rel_ite {P Q : Prop} [Decidable P] [Decidable Q] (h : P ↔ Q) {α β : Type} {S : α → β → Prop} {a b : α}
    {c d : β} (h1 : P → Q → S a c) (h2 : ¬ P → ¬ Q → S b d) : S (if P then a else b) (if Q then c else d) := by
  by_cases hP : P
  · rw [if_pos hP, if_pos (h.1 hP)]; exact h1 hP (h.1 hP)
  · rw [if_neg hP, if_neg (fun hQ => hP (h.2 hQ))]; exact h2 hP (fun hQ => hP (h.2 hQ))

/-- Group operations over related types. -/
structure RelGroup {G H : Type} (g : GroupOps G) (h : GroupOps H) (S : G → H → Prop) : Prop where
  zero : S g.zero h.zero
  add : ∀ {a b x y}, S a x → S b y → S (g.add a b) (h.add x y)
  dbl : ∀ {a x}, S a x → S (g.dbl a) (h.dbl x)

theorem RelGroup.scalarMulLoop {G H : Type} {g : GroupOps G} {h : GroupOps H} {S : G → H → Prop}
    (o : RelGroup g h S) {a : G} {x : H} (ha : S a x) (e : List Limb) (n : Nat) (f : Bool) {r : G} {s : H}
    (hr : S r s) : S (@scalarMulLoop _ g a e n (f, r)) (@scalarMulLoop _ h x e n (f, s)) := by
  induction n generalizing f r s with
  | zero => exact hr
  | succ n ih =>
    have h1 : S (if f = true then g.dbl r else r) (if f = true then h.dbl s else s) := by
      split
      · exact o.dbl hr
      · exact hr
    simp only [Libff.scalarMulLoop]
    split
    · exact ih true (o.add h1 ha)
    · exact ih f h1

theorem RelGroup.scalarMul {G H : Type} {g : GroupOps G} {h : GroupOps H} {S : G → H → Prop}
    (o : RelGroup g h S) {a : G} {x : H} (ha : S a x) (e : List Limb) :
    S (@scalarMul _ g a e) (@scalarMul _ h x e) := o.scalarMulLoop ha e _ _ o.zero

namespace Jac

theorem isZero_relates {p : Coord3 K} {q : Coord3 L} (h : RelOps R) (hp : Coord3.Rel R p q) :
    (isZero p = true ↔ isZero q = true) := by
  simp only [isZero, decide_eq_true_eq]; exact h.eq hp.2.2 h.zero

theorem dbl_relates (h : RelOps R) {p : Coord3 K} {q : Coord3 L} (hp : Coord3.Rel R p q) :
    Coord3.Rel R (dbl p) (dbl q) := by
  unfold dbl
  refine rel_ite (isZero_relates h hp) (fun _ _ => hp) (fun _ _ => ?_)
  obtain ⟨hX, hY, hZ⟩ := hp
  have A := h.squared hX
  have B := h.squared hY
  have C := h.squared B
  have D := h.sub (h.sub (h.squared (h.add hX B)) A) C
  have D := h.add D D
  have E := h.add (h.add A A) A
  have F := h.squared E
  have X3 := h.sub F (h.add D D)
  have C8 := h.add C C
  have C8 := h.add C8 C8
  have C8 := h.add C8 C8
  have Y3 := h.sub (h.mul E (h.sub D X3)) C8
  have YZ := h.mul hY hZ
  exact ⟨X3, Y3, h.add YZ YZ⟩

theorem add_relates (h : RelOps R) {p p' : Coord3 K} {q q' : Coord3 L} (hp : Coord3.Rel R p q)
    (hp' : Coord3.Rel R p' q') : Coord3.Rel R (add p p') (add q q') := by
  unfold add
  refine rel_ite (isZero_relates h hp) (fun _ _ => hp') (fun _ _ => ?_)
  refine rel_ite (isZero_relates h hp') (fun _ _ => hp) (fun _ _ => ?_)
  have Z1Z1 := h.squared hp.2.2
  have Z2Z2 := h.squared hp'.2.2
  have U1 := h.mul hp.1 Z2Z2
  have U2 := h.mul hp'.1 Z1Z1
  have S1 := h.mul hp.2.1 (h.mul hp'.2.2 Z2Z2)
  have S2 := h.mul hp'.2.1 (h.mul hp.2.2 Z1Z1)
  refine rel_ite (and_congr (h.eq U1 U2) (h.eq S1 S2)) (fun _ _ => dbl_relates h hp) (fun _ _ => ?_)
  have H := h.sub U2 U1
  have dS := h.sub S2 S1
  have I := h.squared (h.add H H)
  have J := h.mul H I
  have r := h.add dS dS
  have V := h.mul U1 I
  have X3 := h.sub (h.sub (h.squared r) J) (h.add V V)
  have SJ := h.mul S1 J
  exact ⟨X3, h.sub (h.mul r (h.sub V X3)) (h.add SJ SJ),
    h.mul (h.sub (h.sub (h.squared (h.add hp.2.2 hp'.2.2)) Z1Z1) Z2Z2) H⟩

theorem isWellFormed_relates (h : RelOps R) {b : K} {b' : L} (hb : R b b') {p : Coord3 K} {q : Coord3 L}
    (hp : Coord3.Rel R p q) : isWellFormed b p = isWellFormed b' q := by
  unfold isWellFormed
  refine rel_ite (S := Eq) (isZero_relates h hp) (fun _ _ => rfl) (fun _ _ => ?_)
  exact decide_eq_decide.2 (h.eq (h.squared hp.2.1) (h.add (h.mul hp.1 (h.squared hp.1))
    (h.mul hb (h.squared (h.mul hp.2.2 (h.squared hp.2.2))))))

end Jac

namespace Proj

theorem isZero_relates {p : Coord3 K} {q : Coord3 L} (h : RelOps R) (hp : Coord3.Rel R p q) :
    (isZero p = true ↔ isZero q = true) := by
  simp only [isZero, decide_eq_true_eq]; exact and_congr (h.eq hp.1 h.zero) (h.eq hp.2.2 h.zero)

variable {mA : K → K} {mA' : L → L}

theorem dblFormula_relates (h : RelOps R) (hA : ∀ {x y}, R x y → R (mA x) (mA' y)) {p : Coord3 K}
    {q : Coord3 L} (hp : Coord3.Rel R p q) : Coord3.Rel R (dblFormula mA p) (dblFormula mA' q) := by
  obtain ⟨hX, hY, hZ⟩ := hp
  have XX := h.squared hX
  have ZZ := h.squared hZ
  have w := h.add (hA ZZ) (h.add (h.add XX XX) XX)
  have YZ := h.mul hY hZ
  have s := h.add YZ YZ
  have ss := h.squared s
  have sss := h.mul s ss
  have R := h.mul hY s
  have RR := h.squared R
  have B := h.sub (h.sub (h.squared (h.add hX R)) XX) RR
  have hh := h.sub (h.squared w) (h.add B B)
  exact ⟨h.mul hh s, h.sub (h.mul w (h.sub B hh)) (h.add RR RR), sss⟩

theorem dbl_relates (h : RelOps R) (hA : ∀ {x y}, R x y → R (mA x) (mA' y)) {p : Coord3 K}
    {q : Coord3 L} (hp : Coord3.Rel R p q) : Coord3.Rel R (dbl mA p) (dbl mA' q) :=
  rel_ite (isZero_relates h hp) (fun _ _ => hp) (fun _ _ => dblFormula_relates h hA hp)

theorem plus_relates (h : RelOps R) (hA : ∀ {x y}, R x y → R (mA x) (mA' y)) {p p' : Coord3 K} {q q' : Coord3 L}
    (hp : Coord3.Rel R p q) (hp' : Coord3.Rel R p' q') : Coord3.Rel R (plus mA p p') (plus mA' q q') := by
  unfold plus
  refine rel_ite (isZero_relates h hp) (fun _ _ => hp') (fun _ _ => ?_)
  refine rel_ite (isZero_relates h hp') (fun _ _ => hp) (fun _ _ => ?_)
  have X1Z2 := h.mul hp.1 hp'.2.2
  have X2Z1 := h.mul hp.2.2 hp'.1
  have Y1Z2 := h.mul hp.2.1 hp'.2.2
  have Y2Z1 := h.mul hp.2.2 hp'.2.1
  refine rel_ite (and_congr (h.eq X1Z2 X2Z1) (h.eq Y1Z2 Y2Z1)) (fun _ _ => dblFormula_relates h hA hp)
    (fun _ _ => ?_)
  have ZZ := h.mul hp.2.2 hp'.2.2
  have u := h.sub Y2Z1 Y1Z2
  have v := h.sub X2Z1 X1Z2
  have vv := h.squared v
  have vvv := h.mul v vv
  have R := h.mul vv X1Z2
  have A := h.sub (h.mul (h.squared u) ZZ) (h.add (h.add vvv R) R)
  exact ⟨h.mul v A, h.sub (h.mul u (h.sub R A)) (h.mul vvv Y1Z2), h.mul vvv ZZ⟩

theorem isWellFormed_relates (h : RelOps R) {a b : K} {a' b' : L} (ha : R a a') (hb : R b b') {p : Coord3 K}
    {q : Coord3 L} (hp : Coord3.Rel R p q) : isWellFormed a b p = isWellFormed a' b' q := by
  unfold isWellFormed
  refine rel_ite (S := Eq) (isZero_relates h hp) (fun _ _ => rfl) (fun _ _ => ?_)
  have Z2 := h.squared hp.2.2
  exact decide_eq_decide.2 (h.eq (h.mul hp.2.2 (h.sub (h.squared hp.2.1) (h.mul hb Z2)))
    (h.mul hp.1 (h.add (h.squared hp.1) (h.mul ha Z2))))

end Proj

namespace Edw

theorem isZero_relates {p : Coord3 K} {q : Coord3 L} (h : RelOps R) (hp : Coord3.Rel R p q) :
    (isZero p = true ↔ isZero q = true) := by
  simp only [isZero, decide_eq_true_eq]; exact and_congr (h.eq hp.2.1 h.zero) (h.eq hp.2.2 h.zero)

variable {mA mD : K → K} {mA' mD' : L → L}

theorem add_relates (h : RelOps R) (hA : ∀ {x y}, R x y → R (mA x) (mA' y))
    (hD : ∀ {x y}, R x y → R (mD x) (mD' y)) {p p' : Coord3 K} {q q' : Coord3 L}
    (hp : Coord3.Rel R p q) (hp' : Coord3.Rel R p' q') : Coord3.Rel R (add mA mD p p') (add mA' mD' q q') := by
  have A := h.mul hp.2.2 hp'.2.2
  have B := hD (h.squared A)
  have C := h.mul hp.1 hp'.1
  have D := h.mul hp.2.1 hp'.2.1
  have E := h.mul C D
  have H := h.sub C (hA D)
  have I := h.sub (h.sub (h.mul (h.add hp.1 hp.2.1) (h.add hp'.1 hp'.2.1)) C) D
  exact ⟨h.mul (h.add E B) H, h.mul (h.sub E B) I, h.mul (h.mul A H) I⟩

theorem plus_relates (h : RelOps R) (hA : ∀ {x y}, R x y → R (mA x) (mA' y))
    (hD : ∀ {x y}, R x y → R (mD x) (mD' y)) {p p' : Coord3 K} {q q' : Coord3 L}
    (hp : Coord3.Rel R p q) (hp' : Coord3.Rel R p' q') : Coord3.Rel R (plus mA mD p p') (plus mA' mD' q q') :=
  rel_ite (isZero_relates h hp) (fun _ _ => hp') (fun _ _ =>
    rel_ite (isZero_relates h hp') (fun _ _ => hp) (fun _ _ => add_relates h hA hD hp hp'))

theorem dbl_relates (h : RelOps R) (hA : ∀ {x y}, R x y → R (mA x) (mA' y))
    (hD : ∀ {x y}, R x y → R (mD x) (mD' y)) {p : Coord3 K} {q : Coord3 L} (hp : Coord3.Rel R p q) :
    Coord3.Rel R (dbl mA mD p) (dbl mA' mD' q) := by
  refine rel_ite (isZero_relates h hp) (fun _ _ => hp) (fun _ _ => ?_)
  have A := h.squared hp.1
  have B := h.squared hp.2.1
  have U := hA B
  have C := h.add A U
  have D := h.sub A U
  have E := h.sub (h.sub (h.squared (h.add hp.1 hp.2.1)) A) B
  have dZZ := hD (h.squared hp.2.2)
  exact ⟨h.mul C D, h.mul E (h.sub (h.sub C dZZ) dZZ), h.mul D E⟩

theorem dbl1_relates (h : RelOps R)
    (hD : ∀ {x y}, R x y → R (mD x) (mD' y)) {p : Coord3 K} {q : Coord3 L} (hp : Coord3.Rel R p q) :
    Coord3.Rel R (dbl1 mD p) (dbl1 mD' q) := by
  refine rel_ite (isZero_relates h hp) (fun _ _ => hp) (fun _ _ => ?_)
  have A := h.squared hp.1
  have B := h.squared hp.2.1
  have C := h.add A B
  have D := h.sub A B
  have E := h.sub (h.squared (h.add hp.1 hp.2.1)) C
  have dZZ := hD (h.squared hp.2.2)
  exact ⟨h.mul C D, h.mul E (h.sub (h.sub C dZZ) dZZ), h.mul D E⟩

theorem isWellFormed_relates (h : RelOps R) (hA : ∀ {x y}, R x y → R (mA x) (mA' y))
    (hD : ∀ {x y}, R x y → R (mD x) (mD' y)) {p : Coord3 K} {q : Coord3 L} (hp : Coord3.Rel R p q) :
    isWellFormed mA mD p = isWellFormed mA' mD' q := by
  unfold isWellFormed
  refine rel_ite (S := Eq) (isZero_relates h hp) (fun _ _ => rfl) (fun _ _ => ?_)
  have X2 := h.squared hp.1
  have Y2 := h.squared hp.2.1
  have Z2 := h.squared hp.2.2
  exact decide_eq_decide.2 (h.eq (h.mul Z2 (h.sub (h.add (hA Y2) X2) (hD Z2))) (h.mul X2 Y2))

end Edw
end

/-! ## Orders of points -/

section
variable {K L : Type} [Zero K] [One K] [Add K] [Sub K] [Neg K] [Mul K] [Squared K] [DecidableEq K]
  [Field L] [Squared L] [LawfulSquared L] [DecidableEq L] {R : K → L → Prop}

/-- The operations over any type with the field operations. -/
@[reducible] def Jac.opsNM : GroupOps (Coord3 K) := ⟨Jac.zero, Jac.add, Jac.sub, Jac.dbl⟩
/-- The operations over any type with the field operations. -/
@[reducible] def Proj.opsNM (mA : K → K) : GroupOps (Coord3 K) := ⟨Proj.zero, Proj.plus mA, Proj.sub mA, Proj.dbl mA⟩

theorem Jac.relGroup (h : RelOps R) : RelGroup Jac.opsNM Jac.ops (Coord3.Rel R) where
  zero := ⟨h.zero, h.one, h.zero⟩
  add := Jac.add_relates h
  dbl := Jac.dbl_relates h

theorem Proj.relGroup {mA : K → K} {mA' : L → L} (h : RelOps R) (hA : ∀ {x y}, R x y → R (mA x) (mA' y)) :
    RelGroup (Proj.opsNM mA) (Proj.ops mA') (Coord3.Rel R) where
  zero := ⟨h.zero, h.one, h.zero⟩
  add := Proj.plus_relates h hA
  dbl := Proj.dbl_relates h hA

theorem addOrderOf_of_prime {A : Type*} [AddGroup A] {P : A} {r : Nat} (hr : r.Prime) (h0 : P ≠ 0)
    (h : r • P = 0) : addOrderOf P = r :=
  haveI := Fact.mk hr
  addOrderOf_eq_prime h h0

theorem Jac.order_of_check (h : RelOps R) (h2 : (2 : L) ≠ 0) {g : Coord3 K} {g' : Coord3 L}
    (hg : Coord3.Rel R g g') {b : L} {P : (sw 0 b).Point} (hP : JacRep g' P) {e : List Limb} (he : (val e).Prime)
    (h0 : Jac.isZero g = false) (h1 : Jac.isZero (@scalarMul _ Jac.opsNM g e) = true) :
    addOrderOf P = val e := by
  apply addOrderOf_of_prime he
  · intro hz
    have := (Jac.isZero_relates h hg).2 ((Jac.isZero_rep hP).2 hz)
    rw [h0] at this; cases this
  · have hs := @scalarMul_rel _ _ Jac.ops _ _ (Jac.implementsRel (b := b) h2) _ _ hP e
    exact (Jac.isZero_rep hs).1 ((Jac.isZero_relates h ((Jac.relGroup h).scalarMul hg e)).1 h1)

theorem Proj.order_of_check (h : RelOps R) (h2 : (2 : L) ≠ 0) {mA : K → K} {mA' : L → L} {a b : L}
    (hA : ∀ {x y}, R x y → R (mA x) (mA' y)) (hA' : ∀ x, mA' x = a * x) {g : Coord3 K} {g' : Coord3 L}
    (hg : Coord3.Rel R g g') {P : (sw a b).Point} (hP : ProjRep g' P) {e : List Limb} (he : (val e).Prime)
    (h0 : Proj.isZero g = false) (h1 : Proj.isZero (@scalarMul _ (Proj.opsNM mA) g e) = true) :
    addOrderOf P = val e := by
  apply addOrderOf_of_prime he
  · intro hz
    have := (Proj.isZero_relates h hg).2 ((Proj.isZero_rep hP).2 hz)
    rw [h0] at this; cases this
  · have hs := @scalarMul_rel _ _ (Proj.ops mA') _ _ (Proj.implementsRel (b := b) hA' h2) _ _ hP e
    exact (Proj.isZero_rep hs).1 ((Proj.isZero_relates h ((Proj.relGroup h hA).scalarMul hg e)).1 h1)

end

end Libff
