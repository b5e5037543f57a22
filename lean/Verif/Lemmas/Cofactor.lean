import Verif.Lemmas.PointCount
import Verif.Spec.Cofactor
import Verif.Spec.Bilinear

/-!
# Clearing the cofactor
-/
namespace Libff
open WeierstrassCurve Affine

section generic
variable {G : Type} {A : Type*} [ops : GroupOps G] [AddCommGroup A] [Finite A] {Rep : G → A → Prop}

theorem cofactorClears_of (h : ImplementsRel Rep) {eq : G → G → Bool} {isWf : G → Bool}
    (heq : ∀ {g g' a a'}, Rep g a → Rep g' a' → (eq g g' = true ↔ a = a')) (hw : ∀ g, isWf g = true ↔ ∃ a, Rep g a)
    {one : G} {a : A} (ha : Rep one a) {order : List Limb} (ho : addOrderOf a = val order) (hp : (val order).Prime)
    {n : Nat} (hc : Nat.card A = n * val order) (hn : n % val order ≠ 0) {cof : G → G}
    (hcof : ∀ {g x}, Rep g x → Rep (cof g) (n • x)) : CofactorClears ops eq isWf one order cof where
  wellFormed p hwp := by
    obtain ⟨x, hx⟩ := (hw p).1 hwp
    exact (hw _).2 ⟨_, hcof hx⟩
  killed p hwp := by
    obtain ⟨x, hx⟩ := (hw p).1 hwp
    refine (heq (scalarMul_rel h (hcof hx) order) h.zero).2 ?_
    rw [← mul_smul, mul_comm, ← hc]; exact card_nsmul_eq_zero'
  multiple p hwp := by
    obtain ⟨x, hx⟩ := (hw p).1 hwp
    obtain ⟨k, hk, he⟩ := cofactor_mem hp hc ho x
    exact ⟨k, hk, fun e hv => (heq (hcof hx) (scalarMul_rel h ha e)).2 (hv ▸ he)⟩
  member p hwp := by
    obtain ⟨x, hx⟩ := (hw p).1 hwp
    rw [heq (scalarMul_rel h hx order) h.zero]
    constructor
    · intro h0
      obtain ⟨k, hk, he⟩ := torsion_mem hp hc hn ho h0
      exact ⟨k, hk, fun e hv => (heq hx (scalarMul_rel h ha e)).2 (hv ▸ he)⟩
    · rintro ⟨k, hk, he⟩
      have hb : k < 2 ^ (64 * order.length) := hk.trans (val_lt order)
      have hv : val (limbsOf order.length k) = k := by rw [val_limbsOf, Nat.mod_eq_of_lt hb]
      have := (heq hx (scalarMul_rel h ha _)).1 (he _ hv)
      rw [this, hv, smul_comm, ← ho, addOrderOf_nsmul_eq_zero, smul_zero]
  injective p q hwp hwq hp0 hq0 he := by
    obtain ⟨x, hx⟩ := (hw p).1 hwp
    obtain ⟨y, hy⟩ := (hw q).1 hwq
    have hx0 := (heq (scalarMul_rel h hx order) h.zero).1 hp0
    have hy0 := (heq (scalarMul_rel h hy order) h.zero).1 hq0
    have he := (heq (hcof hx) (hcof hy)).1 he
    refine (heq hx hy).2 (sub_eq_zero.1 ?_)
    have h1 : val order • (x - y) = 0 := by rw [smul_sub, hx0, hy0, sub_zero]
    have h2 : n • (x - y) = 0 := by rw [smul_sub, he, sub_self]
    have h3 := addOrderOf_dvd_of_nsmul_eq_zero h1
    rcases (Nat.dvd_prime hp).1 h3 with h4 | h4
    · exact AddMonoid.addOrderOf_eq_one_iff.1 h4
    · have := addOrderOf_dvd_of_nsmul_eq_zero h2
      rw [h4] at this
      exact absurd (Nat.mod_eq_zero_of_dvd this) hn
  add p q hwp hwq := by
    obtain ⟨x, hx⟩ := (hw p).1 hwp
    obtain ⟨y, hy⟩ := (hw q).1 hwq
    exact (heq (hcof (h.add hx hy)) (h.add (hcof hx) (hcof hy))).2 (smul_add _ _ _)

/-- If the cofactor is not one, some element of the curve is not killed by the order. -/
theorem exists_outside (h : ImplementsRel Rep) {eq : G → G → Bool} {isWf : G → Bool}
    (heq : ∀ {g g' a a'}, Rep g a → Rep g' a' → (eq g g' = true ↔ a = a')) (hw : ∀ g, isWf g = true ↔ ∃ a, Rep g a)
    (hs : ∀ x, ∃ g, Rep g x) {a : A} {order : List Limb} (ho : addOrderOf a = val order) (hp : (val order).Prime)
    {n : Nat} (hc : Nat.card A = n * val order) (hn : n % val order ≠ 0) (h1 : 1 < n) :
    ∃ p, isWf p = true ∧ eq (scalarMul p order) ops.zero = false := by
  by_contra hcon
  push Not at hcon
  have hall : ∀ x : A, ∃ k < val order, x = k • a := fun x => by
    obtain ⟨g, hg⟩ := hs x
    have := hcon g ((hw g).2 ⟨x, hg⟩)
    rw [Bool.ne_false_iff] at this
    exact torsion_mem hp hc hn ho ((heq (scalarMul_rel h hg order) h.zero).1 this)
  have hsurj : Function.Surjective fun k : Fin (val order) => k.1 • a := fun x => by
    obtain ⟨k, hk, e⟩ := hall x
    exact ⟨⟨k, hk⟩, e.symm⟩
  have := Nat.card_le_card_of_surjective _ hsurj
  rw [hc, Nat.card_fin] at this
  have h2 : 2 * val order ≤ n * val order := Nat.mul_le_mul_right _ h1
  have := hp.pos
  omega

end generic

/-- Elements killed by the order are multiples of the generator. -/
theorem CofactorClears.nonzeroMultiple {G : Type} {ops : GroupOps G} {eq : G → G → Bool} {isWf : G → Bool} {one : G}
    {order : List Limb} {cof : G → G} (h : CofactorClears ops eq isWf one order cof) (isZero : G → Bool) {p : G}
    (hw : isWf p = true) (h0 : isZero p = false) (hk : eq (scalarMul p order) ops.zero = true) :
    NonzeroMultiple ops eq isZero one p := by
  obtain ⟨k, hk, he⟩ := (h.member p hw).1 hk
  exact ⟨h0, limbsOf order.length k, he _ (by rw [val_limbsOf, Nat.mod_eq_of_lt (hk.trans (val_lt order))])⟩

section curves
variable {F : Type} [Field F] [Finite F] [DecidableEq F] [Squared F] [LawfulSquared F]

theorem Jac.cofactorClears {b : F} (h2 : (2 : F) ≠ 0) (h3 : (3 : F) ≠ 0) (hb : b ≠ 0) {one : Coord3 F} {order : List Limb}
    (hone : ∃ P : (sw 0 b).Point, JacRep one P ∧ addOrderOf P = val order) (hp : (val order).Prime) {n : Nat}
    (hc : Nat.card (sw 0 b).Point = n * val order) (hn : n % val order ≠ 0) {cof : Coord3 F → Coord3 F}
    (hcof : ∀ {g} {x : (sw 0 b).Point}, JacRep g x → JacRep (cof g) (n • x)) :
    CofactorClears Jac.ops Jac.eq (Jac.isWellFormed b) one order cof := by
  obtain ⟨P, hP, ho⟩ := hone
  haveI : Finite (sw 0 b).Point := point_finite
  exact @cofactorClears_of _ _ Jac.ops _ _ _ (Jac.implementsRel (b := b) h2) _ _ Jac.eq_rep (C38_jacobian h2 h3 hb) _ _
    hP _ ho hp _ hc hn _ hcof

theorem Proj.cofactorClears {a b : F} {mA : F → F} (hA : ∀ x, mA x = a * x) (h2 : (2 : F) ≠ 0)
    (hd : 4 * a ^ 3 + 27 * b ^ 2 ≠ 0) {one : Coord3 F} {order : List Limb}
    (hone : ∃ P : (sw a b).Point, ProjRep one P ∧ addOrderOf P = val order) (hp : (val order).Prime) {n : Nat}
    (hc : Nat.card (sw a b).Point = n * val order) (hn : n % val order ≠ 0) {cof : Coord3 F → Coord3 F}
    (hcof : ∀ {g} {x : (sw a b).Point}, ProjRep g x → ProjRep (cof g) (n • x)) :
    CofactorClears (Proj.ops mA) Proj.eq (Proj.isWellFormed a b) one order cof := by
  obtain ⟨P, hP, ho⟩ := hone
  haveI : Finite (sw a b).Point := point_finite
  exact @cofactorClears_of _ _ (Proj.ops mA) _ _ _ (Proj.implementsRel (b := b) hA h2) _ _ Proj.eq_rep (C38_projective h2 hd)
    _ _ hP _ ho hp _ hc hn _ hcof

theorem Jac.scalarMul_rep {b : F} (h2 : (2 : F) ≠ 0) {e : List Limb} {n : Nat} (hn : val e = n) {g : Coord3 F}
    {x : (sw 0 b).Point} (hg : JacRep g x) : JacRep (@scalarMul _ Jac.ops g e) (n • x) :=
  hn ▸ @scalarMul_rel _ _ Jac.ops _ _ (Jac.implementsRel (b := b) h2) _ _ hg e

theorem Proj.scalarMul_rep {a b : F} {mA : F → F} (hA : ∀ x, mA x = a * x) (h2 : (2 : F) ≠ 0) {e : List Limb} {n : Nat}
    (hn : val e = n) {g : Coord3 F} {x : (sw a b).Point} (hg : ProjRep g x) :
    ProjRep (@scalarMul _ (Proj.ops mA) g e) (n • x) :=
  hn ▸ @scalarMul_rel _ _ (Proj.ops mA) _ _ (Proj.implementsRel (b := b) hA h2) _ _ hg e

theorem Jac.cofactorClears_mul {b : F} (h2 : (2 : F) ≠ 0) (h3 : (3 : F) ≠ 0) (hb : b ≠ 0) {one : Coord3 F}
    {order : List Limb} (hone : ∃ P : (sw 0 b).Point, JacRep one P ∧ addOrderOf P = val order) (hp : (val order).Prime)
    {n : Nat} (hc : Nat.card (sw 0 b).Point = n * val order) (hn : n % val order ≠ 0) {e : List Limb} (he : val e = n) :
    CofactorClears Jac.ops Jac.eq (Jac.isWellFormed b) one order (fun p => @scalarMul _ Jac.ops p e) :=
  Jac.cofactorClears h2 h3 hb hone hp hc hn fun hg => Jac.scalarMul_rep h2 he hg

theorem Proj.cofactorClears_mul {a b : F} {mA : F → F} (hA : ∀ x, mA x = a * x) (h2 : (2 : F) ≠ 0)
    (hd : 4 * a ^ 3 + 27 * b ^ 2 ≠ 0) {one : Coord3 F} {order : List Limb}
    (hone : ∃ P : (sw a b).Point, ProjRep one P ∧ addOrderOf P = val order) (hp : (val order).Prime) {n : Nat}
    (hc : Nat.card (sw a b).Point = n * val order) (hn : n % val order ≠ 0) {e : List Limb} (he : val e = n) :
    CofactorClears (Proj.ops mA) Proj.eq (Proj.isWellFormed a b) one order (fun p => @scalarMul _ (Proj.ops mA) p e) :=
  Proj.cofactorClears hA h2 hd hone hp hc hn fun hg => Proj.scalarMul_rep hA h2 he hg

theorem Jac.exists_outside {b : F} (h2 : (2 : F) ≠ 0) (h3 : (3 : F) ≠ 0) (hb : b ≠ 0) {one : Coord3 F}
    {order : List Limb} (hone : ∃ P : (sw 0 b).Point, JacRep one P ∧ addOrderOf P = val order) (hp : (val order).Prime)
    {n : Nat} (hc : Nat.card (sw 0 b).Point = n * val order) (hn : n % val order ≠ 0) (h1 : 1 < n) :
    ∃ p, Jac.isWellFormed b p = true ∧ Jac.eq (@scalarMul _ Jac.ops p order) Jac.zero = false := by
  obtain ⟨P, hP, ho⟩ := hone
  haveI : Finite (sw 0 b).Point := point_finite
  refine @Libff.exists_outside _ _ Jac.ops _ _ _ (Jac.implementsRel (b := b) h2) _ _ Jac.eq_rep (C38_jacobian h2 h3 hb)
    (fun x => ?_) _ _ ho hp _ hc hn h1
  rcases x with _ | ⟨x, y, hxy⟩
  · exact ⟨⟨0, 1, 0⟩, rfl⟩
  · exact ⟨⟨x, y, 1⟩, one_ne_zero, by simp, by simp⟩

theorem Proj.exists_outside {a b : F} {mA : F → F} (hA : ∀ x, mA x = a * x) (h2 : (2 : F) ≠ 0)
    (hd : 4 * a ^ 3 + 27 * b ^ 2 ≠ 0) {one : Coord3 F} {order : List Limb}
    (hone : ∃ P : (sw a b).Point, ProjRep one P ∧ addOrderOf P = val order) (hp : (val order).Prime) {n : Nat}
    (hc : Nat.card (sw a b).Point = n * val order) (hn : n % val order ≠ 0) (h1 : 1 < n) :
    ∃ p, Proj.isWellFormed a b p = true ∧ Proj.eq (@scalarMul _ (Proj.ops mA) p order) Proj.zero = false := by
  obtain ⟨P, hP, ho⟩ := hone
  haveI : Finite (sw a b).Point := point_finite
  refine @Libff.exists_outside _ _ (Proj.ops mA) _ _ _ (Proj.implementsRel (b := b) hA h2) _ _ Proj.eq_rep
    (C38_projective h2 hd) (fun x => ?_) _ _ ho hp _ hc hn h1
  rcases x with _ | ⟨x, y, hxy⟩
  · exact ⟨⟨0, 1, 0⟩, rfl, rfl⟩
  · exact ⟨⟨x, y, 1⟩, one_ne_zero, by simp, by simp⟩

end curves
end Libff
