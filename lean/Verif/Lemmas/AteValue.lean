import Verif.Lemmas.AteSetup
import Verif.Lemmas.AteLoop
import Verif.Model.Pairing12

/-!
# The Miller loops of alt_bn128 and bls12_381 compute Miller functions

The field `L` of the values is arbitrary here: only that `squared` squares and that `mul_by_…` multiplies by the line's value
matters.
-/
namespace Libff
open WeierstrassCurve Affine

theorem vecAt_prefix {α : Type*} {cs e C : List α} (h : cs ++ e <+: C) {i : ℕ} {x : α} (hx : e[i]? = some x) :
    vecAt C (cs.length + i) = .ok x := by
  obtain ⟨t, rfl⟩ := h
  have hi : i < e.length := by
    rw [List.getElem?_eq_some_iff] at hx
    exact hx.1
  unfold vecAt
  rw [List.append_assoc, List.getElem?_append_right (by omega), Nat.add_sub_cancel_left, List.getElem?_append_left hi, hx]

theorem vecAt_prefix0 {α : Type*} {cs e C : List α} (h : cs ++ e <+: C) {x : α} (hx : e[0]? = some x) :
    vecAt C cs.length = .ok x := vecAt_prefix h hx

/-- The common form of the bodies of the two loops. -/
def genPre {R C : Type*} (dbl add : R → R × C) (bit : Bool) (s : R × List C) : Outcome (R × List C) :=
  let d := dbl s.1
  let cs := s.2 ++ [d.2]
  if bit then
    let a := add d.1
    .ok (a.1, cs ++ [a.2])
  else .ok (d.1, cs)

/-- The common form of the bodies of the two loops. -/
def genMil {L C : Type*} (sq : L → L) (ev : C → L → L) (cs : List C) (bit : Bool) (s : L × ℕ) : Outcome (L × ℕ) :=
  (vecAt cs s.2).bind fun c =>
  let f := sq s.1
  let f := ev c f
  if bit then (vecAt cs (s.2 + 1)).map fun c => (ev c f, s.2 + 2)
  else .ok (f, s.2 + 1)

variable {K T L : Type*} [Field K] [DecidableEq K] [Field T] [DecidableEq T] [Field L] [DecidableEq L]

namespace WAteSetup
variable {ι : K →+* L} {τ : T →+* L} {a b : K} {a' b' : T} {cx cy : L} {qX qY : T} {q r E : ℕ} {g : (sw a' b').Point}
  (S : AteSetup ι τ a b a' b' cx cy qX qY q r E g)

/-- The two loops fit together. -/
theorem fused {R C : Type*} {Rep : ℕ → R → Prop} {dbl add : R → R × C} {sq : L → L} {ev : C → L → L} {elt : C → L} {N : ℕ}
    {P : (sw a b).Point} {Q : (sw a' b').Point} (hQ : Q ∈ AddSubgroup.zmultiples g)
    (hsq : ∀ f, sq f = f * f) (hev : ∀ c f, ev c f = f * elt c)
    (hd : ∀ n R, 1 ≤ n → 2 * n ≤ N → Rep n R → Rep (2 * n) (dbl R).1 ∧
      elt (dbl R).2 ^ E = rho L E (lineVal (S.psi (n • Q)) (S.psi (n • Q)) (S.inc P)))
    (ha : ∀ n R, 2 ≤ n → n + 1 ≤ N → Rep n R → Rep (n + 1) (add R).1 ∧
      elt (add R).2 ^ E = rho L E (lineVal (S.psi (n • Q)) (S.psi Q) (S.inc P))) :
    AteFused (· ++ ·) List.length (genPre dbl add) (genMil sq ev) (· <+: ·) (fun n R f => Rep n R ∧ S.MInv P Q n f) N where
  refl _ := List.prefix_refl _
  trans _ _ _ := List.IsPrefix.trans
  step n bit R cs f h1 hN hi := by
    obtain ⟨hR, hf⟩ := hi
    obtain ⟨hR2, he2⟩ := hd n R h1 (by omega) hR
    have hf2 := MInv.double S hQ hf he2
    cases bit with
    | false =>
      refine ⟨(dbl R).1, [(dbl R).2], f * f * elt (dbl R).2, rfl, List.prefix_append _ _, fun C' hC => ?_, hR2, hf2⟩
      simp only [genMil, vecAt_prefix0 hC rfl, Outcome.bind, hsq, hev, Bool.false_eq_true, if_false, List.length_append,
        List.length_singleton]
    | true =>
      obtain ⟨hR3, he3⟩ := ha (2 * n) (dbl R).1 (by omega) (by simpa using hN) hR2
      have hf3 := MInv.add S hf2 he3
      refine ⟨(add (dbl R).1).1, [(dbl R).2, (add (dbl R).1).2], f * f * elt (dbl R).2 * elt (add (dbl R).1).2, ?_,
        List.prefix_append _ _, fun C' hC => ?_, hR3, hf3⟩
      · simp [genPre]
      · simp only [genMil, vecAt_prefix0 hC rfl, vecAt_prefix hC (i := 1) rfl, Outcome.bind, Outcome.map, hsq, hev, if_true,
          List.length_append]
        rfl

/-! ## The values of the lines -/

theorem lineVal_inc_zero (A B : (sw (ι a) (ι b)).Point) : rho L E (lineVal A B (S.inc 0)) = 1 := by
  rw [show S.inc 0 = 0 from map_zero _]
  exact map_one _

/-- The line of alt_bn128. -/
theorem elt024 {ξ : T} {w4 : L} (h3 : cy * cy = τ ξ) (h4 : cx * w4 = τ ξ) (hw : cy ^ E = 1)
    {A B : (sw a' b').Point} (hA : A ≠ 0) (hB : B ≠ 0) (hAB : A + B ≠ 0) {c c₁ c₂ : T} (h : IsLine A B c c₁ c₂)
    {x y : K} (hP : (sw a b).Nonsingular x y) {e : L} (he : e = τ (ξ * c) + τ c₁ * ι y * cy + τ c₂ * ι x * w4) :
    e ^ E = rho L E (lineVal (S.psi A) (S.psi B) (S.inc (.some x y hP))) := by
  refine S.line_eval hA hB hAB h hP hw ?_
  have hcx := S.f2.ne
  have hw4 : w4 = τ ξ / cx := by rw [← h4]; field_simp
  rw [he, map_mul, hw4, ← h3]
  field_simp

/-- The line of bls12_381. -/
theorem elt045 {ξ : T} {w2 w3 : L} (h3 : w3 * w3 = τ ξ) (hx : cx * w2 = 1) (hy : cy * w3 = 1) (hξ : ξ ≠ 0)
    {A B : (sw a' b').Point} (hA : A ≠ 0) (hB : B ≠ 0) (hAB : A + B ≠ 0) {c₀ c c₂ : T} (h : IsLine A B c₀ c c₂)
    {x y : K} (hP : (sw a b).Nonsingular x y) {e : L} (he : e = τ (ξ * c) * ι y + τ c₀ * w3 + τ c₂ * ι x * (w2 * w3)) :
    e ^ E = rho L E (lineVal (S.psi A) (S.psi B) (S.inc (.some x y hP))) := by
  refine S.line_eval hA hB hAB h hP (S.killT _ hξ) ?_
  have hcx := S.f2.ne
  have hcy := S.f2.cy_ne
  have hu : w2 = cx⁻¹ := eq_inv_of_mul_eq_one_right hx
  have hv : w3 = cy⁻¹ := eq_inv_of_mul_eq_one_right hy
  rw [he, map_mul, ← h3, hu, hv]
  field_simp
  ring

include S in
/-- The middle coefficient of a line is not zero. -/
theorem line_coeff_ne {A B : (sw a' b').Point} (hA : A ≠ 0) (hB : B ≠ 0) (hAB : A + B ≠ 0) {c₀ c₁ c₂ : T}
    (h : IsLine A B c₀ c₁ c₂) : c₁ ≠ 0 := (S.line_psi hA hB hAB h).1

end WAteSetup
end Libff
