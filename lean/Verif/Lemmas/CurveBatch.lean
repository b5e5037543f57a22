import Verif.Lemmas.CurveJac
import Verif.Lemmas.CurveProj
import Verif.Lemmas.GroupRel
import Verif.Lemmas.FieldUtils

/-!
# Batch normalisation of points, and the classes as group implementations
-/
namespace Libff
open WeierstrassCurve Affine

theorem batchInvert_ok {K : Type*} [Field K] [DecidableEq K] [InverseO K] [LawfulInverse K] (debug : Bool)
    (vec : List K) (h : ∀ x ∈ vec, x ≠ 0) : batchInvert debug vec = .ok (vec.map (·⁻¹)) := by
  have hp : vec.prod ≠ 0 := List.prod_ne_zero (fun h0 => h 0 h0 rfl)
  unfold batchInvert
  rw [batchProducts_eq debug vec h, Outcome.bind_ok]
  simp only
  rw [LawfulInverse.inverseO_ne _ (mul_ne_zero one_ne_zero hp), Outcome.map_ok,
    batchBack_prefProds vec h 1 one_ne_zero]

variable {K : Type*} [Field K] [DecidableEq K] [Squared K] [LawfulSquared K]

namespace Jac
variable {b : K}

/-- The operations of a Jacobian group class, as the generic algorithms use them. -/
@[reducible] def ops : GroupOps (Coord3 K) := ⟨zero, add, sub, dbl⟩

theorem implementsRel (h2 : (2 : K) ≠ 0) :
    @ImplementsRel _ _ ops _ (JacRep (W := sw 0 b)) :=
  letI : GroupOps (Coord3 K) := ops
  { unique := rep_unique
    zero := rfl
    add := add_rep h2
    sub := sub_rep h2
    dbl := dbl_rep h2 }

variable [InverseO K] [LawfulInverse K]

theorem batchToSpecialNZ_rep (debug : Bool) (vec : List (Coord3 K)) (Ps : List (sw 0 b).Point)
    (h : List.Forall₂ JacRep vec Ps) (hnz : ∀ P ∈ Ps, P ≠ 0) :
    ∃ l, batchToSpecialNZ debug vec = .ok l ∧ List.Forall₂ JacRep l Ps ∧ ∀ p ∈ l, isSpecial p = true := by
  have hz : ∀ z ∈ vec.map (·.Z), z ≠ 0 := by
    clear debug
    induction h with
    | nil => simp
    | @cons p P ps Ps hp _ ih =>
      intro z hz
      rcases List.mem_cons.1 hz with rfl | hz
      · intro h0
        exact hnz P List.mem_cons_self (rep_of_Z hp h0)
      · exact ih (fun Q hQ => hnz Q (List.mem_cons_of_mem _ hQ)) z hz
  refine ⟨scaleAll vec ((vec.map (·.Z)).map (·⁻¹)), by simp only [batchToSpecialNZ, batchInvert_ok debug _ hz, Outcome.map_ok], ?_, ?_⟩
  · clear hz
    induction h with
    | nil => exact List.Forall₂.nil
    | @cons p P ps Ps hp _ ih =>
      refine List.Forall₂.cons ?_ (ih (fun Q hQ => hnz Q (List.mem_cons_of_mem _ hQ)))
      rcases P with _ | ⟨x, y, hP⟩
      · exact absurd rfl (hnz _ List.mem_cons_self)
      · obtain ⟨hZ, hX, hY⟩ := hp
        refine ⟨one_ne_zero, ?_, ?_⟩
        · simp only [LawfulSquared.squared_eq]
          rw [hX]
          field_simp
        · simp only [LawfulSquared.squared_eq]
          rw [hY]
          field_simp
  · clear hz hnz h
    induction vec with
    | nil => simp [scaleAll]
    | cons p ps ih =>
      intro q hq
      rcases List.mem_cons.1 hq with rfl | hq
      · simp [isSpecial]
      · exact ih q hq

theorem toAffine_spec {p : Coord3 K} {P : (sw 0 b).Point} (h : JacRep p P) :
    ∃ r, toAffine p = .ok r ∧ JacRep r P ∧ isSpecial r = true := by
  rcases toAffine_rep h with ⟨rfl, e⟩ | ⟨x, y, hP, rfl, e⟩
  · exact ⟨_, e, rfl, by simp [isSpecial, isZero]⟩
  · exact ⟨_, e, ⟨one_ne_zero, by simp, by simp⟩, by simp [isSpecial]⟩

end Jac

namespace Proj
variable {a b : K} {mulA : K → K}

/-- The operations of a projective group class, as the generic algorithms use them. -/
@[reducible] def ops (mulA : K → K) : GroupOps (Coord3 K) := ⟨zero, plus mulA, sub mulA, dbl mulA⟩

theorem implementsRel (hA : ∀ x, mulA x = a * x) (h2 : (2 : K) ≠ 0) :
    @ImplementsRel _ _ (ops mulA) _ (ProjRep (W := sw a b)) :=
  letI : GroupOps (Coord3 K) := ops mulA
  { unique := rep_unique
    zero := ⟨rfl, rfl⟩
    add := plus_rep hA h2
    sub := sub_rep hA h2
    dbl := dbl_rep hA h2 }

variable [InverseO K] [LawfulInverse K]

omit [Squared K] [LawfulSquared K] in
theorem batchToSpecialNZ_rep (debug : Bool) (vec : List (Coord3 K)) (Ps : List (sw a b).Point)
    (h : List.Forall₂ ProjRep vec Ps) (hnz : ∀ P ∈ Ps, P ≠ 0) :
    ∃ l, batchToSpecialNZ debug vec = .ok l ∧ List.Forall₂ ProjRep l Ps ∧ ∀ p ∈ l, isSpecial p = true := by
  have hz : ∀ z ∈ vec.map (·.Z), z ≠ 0 := by
    clear debug
    induction h with
    | nil => simp
    | @cons p P ps Ps hp _ ih =>
      intro z hz
      rcases List.mem_cons.1 hz with rfl | hz
      · rcases P with _ | ⟨x, y, hP⟩
        · exact absurd rfl (hnz _ List.mem_cons_self)
        · exact hp.1
      · exact ih (fun Q hQ => hnz Q (List.mem_cons_of_mem _ hQ)) z hz
  refine ⟨scaleAll vec ((vec.map (·.Z)).map (·⁻¹)), by simp only [batchToSpecialNZ, batchInvert_ok debug _ hz, Outcome.map_ok], ?_, ?_⟩
  · clear hz
    induction h with
    | nil => exact List.Forall₂.nil
    | @cons p P ps Ps hp _ ih =>
      refine List.Forall₂.cons ?_ (ih (fun Q hQ => hnz Q (List.mem_cons_of_mem _ hQ)))
      rcases P with _ | ⟨x, y, hP⟩
      · exact absurd rfl (hnz _ List.mem_cons_self)
      · obtain ⟨hZ, hX, hY⟩ := hp
        refine ⟨one_ne_zero, ?_, ?_⟩
        · simp only
          rw [hX]
          field_simp
        · simp only
          rw [hY]
          field_simp
  · clear hz hnz h
    induction vec with
    | nil => simp [scaleAll]
    | cons p ps ih =>
      intro q hq
      rcases List.mem_cons.1 hq with rfl | hq
      · simp [isSpecial]
      · exact ih q hq

omit [Squared K] [LawfulSquared K] in
theorem toAffine_spec {p : Coord3 K} {P : (sw a b).Point} (h : ProjRep p P) :
    ∃ r, toAffine p = .ok r ∧ ProjRep r P ∧ isSpecial r = true := by
  rcases toAffine_rep h with ⟨rfl, e⟩ | ⟨x, y, hP, rfl, e⟩
  · exact ⟨_, e, ⟨rfl, rfl⟩, by simp [isSpecial, isZero]⟩
  · exact ⟨_, e, ⟨one_ne_zero, by simp, by simp⟩, by simp [isSpecial]⟩

end Proj
end Libff
