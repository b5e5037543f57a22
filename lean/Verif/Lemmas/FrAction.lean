import Verif.Spec.FrAction
import Verif.Lemmas.GroupRel
import Verif.Lemmas.CurveBatch
import Verif.Lemmas.CurveEdwRep
import Mathlib.GroupTheory.OrderOfElement

/-!
# The scalar field acts faithfully on an element of order `p`
-/
namespace Libff

section
variable {G : Type} {A : Type*} [ops : GroupOps G] [AddCommGroup A] {Rep : G → A → Prop} {P : FpParams}
  [hP : Fact P.Valid]

theorem fieldMul_rel (h : ImplementsRel Rep) {g : G} {a : A} (hg : Rep g a) (x : Fp P) :
    fieldMul P x.repr g = .ok (scalarMul g (limbsOf P.n x.toZMod.val)) ∧
      Rep (scalarMul g (limbsOf P.n x.toZMod.val)) (x.toZMod.val • a) := by
  have := hP.out.neZero
  constructor
  · rw [fieldMul, x.represents.asBigint hP.out]; rfl
  · have := scalarMul_rel h hg (limbsOf P.n x.toZMod.val)
    rwa [val_limbsOf, Nat.mod_eq_of_lt (by
      have := ZMod.val_lt x.toZMod; have := hP.out.topBit; omega)] at this

theorem frActs_of_rel (h : ImplementsRel Rep) {eq : G → G → Bool} {isZero : G → Bool}
    (heq : ∀ {g g' a a'}, Rep g a → Rep g' a' → (eq g g' = true ↔ a = a'))
    (hz : ∀ {g a}, Rep g a → (isZero g = true ↔ a = 0)) {one : G} {a : A} (ha : Rep one a)
    (ho : addOrderOf a = P.p) :
    FrActs P ops eq isZero one (fun x => scalarMul one (limbsOf P.n x.toZMod.val)) := by
  have hp := hP.out.neZero
  have hk : ∀ m n : Nat, m • a = n • a ↔ (m : ZMod P.p) = n := by
    intro m n
    rw [ZMod.natCast_eq_natCast_iff, ← ho, nsmul_eq_nsmul_iff_modEq]
  have hv : ∀ x : ZMod P.p, ((x.val : Nat) : ZMod P.p) = x := fun x => ZMod.natCast_zmod_val x
  have hd := fun x : Fp P => (fieldMul_rel h ha x).2
  have hsub : ∀ m n : Nat, m • a - n • a = (m + (P.p - n % P.p)) • a := by
    intro m n
    rw [sub_eq_iff_eq_add, ← add_nsmul, hk]
    push_cast [Nat.cast_sub (Nat.mod_lt n (Nat.pos_of_ne_zero hp.out)).le]
    simp
  refine ⟨fun x => (fieldMul_rel h ha x).1, ?_, ?_, ?_, ?_, ?_, ?_, ?_⟩
  · refine (heq (hd 1) ha).2 ?_
    conv_rhs => rw [← one_nsmul a]
    rw [hk, hv, Fp.toZMod_one, Nat.cast_one]
  · intro x y
    refine (heq (hd _) (h.add (hd x) (hd y))).2 ?_
    rw [← add_nsmul, hk, Nat.cast_add, hv, hv, hv, Fp.toZMod_add]
  · intro x y
    refine (heq (hd _) (h.sub (hd x) (hd y))).2 ?_
    rw [hsub, hk, Nat.cast_add, Nat.cast_sub (Nat.mod_lt _ (Nat.pos_of_ne_zero hp.out)).le, hv, hv, Fp.toZMod_sub]
    simp [hv, sub_eq_add_neg]
  · intro x y
    refine ⟨_, (fieldMul_rel h (hd y) x).1, (heq (hd _) (fieldMul_rel h (hd y) x).2).2 ?_⟩
    rw [← mul_nsmul', hk, Nat.cast_mul, hv, hv, hv, Fp.toZMod_mul]
  · intro x y
    refine (heq (hd x) (hd y)).trans ?_
    rw [hk, hv, hv]
    exact ⟨fun e => Fp.toZMod_injective e, fun e => e ▸ rfl⟩
  · intro x
    refine (hz (hd x)).trans ?_
    rw [← zero_nsmul a, hk, hv, Nat.cast_zero, ← Fp.toZMod_zero]
    exact ⟨fun e => Fp.toZMod_injective e, fun e => e ▸ rfl⟩
  · refine (hz (scalarMul_rel h ha _)).2 ?_
    change P.p • a = 0
    rw [← ho, addOrderOf_nsmul_eq_zero]

end

section
variable {K : Type} [Field K] [DecidableEq K] [Squared K] [LawfulSquared K] {P : FpParams} [hP : Fact P.Valid]

theorem Jac.frActs {b : K} (h2 : (2 : K) ≠ 0) {one : Coord3 K}
    (h : ∃ a : (sw 0 b).Point, JacRep one a ∧ addOrderOf a = P.p) :
    ∃ f, FrActs P Jac.ops Jac.eq Jac.isZero one f := by
  obtain ⟨a, ha, ho⟩ := h
  exact ⟨_, @frActs_of_rel _ _ Jac.ops _ _ _ _ (Jac.implementsRel h2) _ _ Jac.eq_rep Jac.isZero_rep _ _ ha ho⟩

theorem Proj.frActs {mulA : K → K} {a b : K} (hA : ∀ x, mulA x = a * x) (h2 : (2 : K) ≠ 0) {one : Coord3 K}
    (h : ∃ Q : (sw a b).Point, ProjRep one Q ∧ addOrderOf Q = P.p) :
    ∃ f, FrActs P (Proj.ops mulA) Proj.eq Proj.isZero one f := by
  obtain ⟨Q, ha, ho⟩ := h
  exact ⟨_, @frActs_of_rel _ _ (Proj.ops mulA) _ _ _ _ (Proj.implementsRel hA h2) _ _ Proj.eq_rep Proj.isZero_rep
    _ _ ha ho⟩

theorem Edw.frActs {mulA mulD : K → K} {a d : K} (hA : ∀ x, mulA x = a * x) (hD : ∀ x, mulD x = d * x)
    (h2 : (2 : K) ≠ 0) (hc : a - d ≠ 0) (hodd : P.p % 2 = 1) {one : Coord3 K}
    (h : ∃ Q : (edwW a d).Point, EdwRep one Q ∧ addOrderOf Q = P.p) :
    ∃ f, FrActs P (Edw.ops mulA mulD) Edw.eq Edw.isZero one f := by
  obtain ⟨Q, ha, ho⟩ := h
  have hQ : Q ∈ (torsionSub P.p : AddSubgroup (edwW a d).Point) := by
    change P.p • Q = 0
    rw [← ho, addOrderOf_nsmul_eq_zero]
  exact ⟨_, @frActs_of_rel _ _ (Edw.ops mulA mulD) _ _ _ _
    (Edw.implementsRel hA hD h2 hc (noTwoTorsion_torsionSub _ hodd)) _ _
    (fun h h' => Edw.eq_rep h2 hc h.2 h'.2) (fun h => Edw.isZero_rep h.2) _ _ ⟨hQ, ha⟩ ho⟩

theorem Edw.frActs1 {mulD : K → K} {d : K} (hD : ∀ x, mulD x = d * x)
    (h2 : (2 : K) ≠ 0) (hc : 1 - d ≠ 0) (hodd : P.p % 2 = 1) {one : Coord3 K}
    (h : ∃ Q : (edwW 1 d).Point, EdwRep one Q ∧ addOrderOf Q = P.p) :
    ∃ f, FrActs P (Edw.ops1 mulD) Edw.eq Edw.isZero one f := by
  obtain ⟨Q, ha, ho⟩ := h
  have hQ : Q ∈ (torsionSub P.p : AddSubgroup (edwW 1 d).Point) := by
    change P.p • Q = 0
    rw [← ho, addOrderOf_nsmul_eq_zero]
  exact ⟨_, @frActs_of_rel _ _ (Edw.ops1 mulD) _ _ _ _
    (Edw.implementsRel1 hD h2 hc (noTwoTorsion_torsionSub _ hodd)) _ _
    (fun h h' => Edw.eq_rep h2 hc h.2 h'.2) (fun h => Edw.isZero_rep h.2) _ _ ⟨hQ, ha⟩ ho⟩

end

end Libff
