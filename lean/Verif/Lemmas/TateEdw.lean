import Verif.Lemmas.AteEdwPairing

/-!
# The Tate pairing of edwards in terms of Miller functions

Here the lines go through points of the first group and are evaluated at a point of the second. The loop count is the order `r`, so the
last addition step adds `P` to `-P`; what it returns is a multiple of the vertical line, which the final exponentiation kills.
-/
namespace Libff
set_option linter.unusedSectionVars false
open WeierstrassCurve Affine AteMnt

namespace WAteSetup
variable {K T L : Type*} [Field K] [DecidableEq K] [Field T] [DecidableEq T] [Field L] [DecidableEq L]
variable {ι : K →+* L} {τ : T →+* L} {a₂ a b : K} {a₂' a' b' : T} {c₂ cx cy : L} {qX qY : T} {q r E : ℕ} {g : (weier a₂' a' b').Point}
  (S : WAteSetup ι τ a₂ a b a₂' a' b' c₂ cx cy qX qY q r E g)

/-- The equation of a line of the first curve gives the equation of its image. -/
theorem line_inc {A B : (weier a₂ a b).Point} (hA : A ≠ 0) (hB : B ≠ 0) (hAB : A + B ≠ 0) {c₀ c₁ c₂ : K} (h : IsLine A B c₀ c₁ c₂) :
    c₁ ≠ 0 ∧ ∀ x y : L, ι c₀ + ι c₁ * y + ι c₂ * x = ι c₁ * lineAt (S.inc A) (S.inc B) x y := by
  obtain ⟨κ, hκ, hl⟩ := h
  obtain ⟨x₁, y₁, h₁, x₂, y₂, h₂, x₃, y₃, h₃, ℓ, ν, -, -, -, e, -⟩ := line_sloped A B hA hB hAB
  have hA' : S.inc A ≠ 0 := fun h0 => hA (S.inc_injective (by rw [h0, map_zero]))
  have hB' : S.inc B ≠ 0 := fun h0 => hB (S.inc_injective (by rw [h0, map_zero]))
  have hAB' : S.inc A + S.inc B ≠ 0 := fun h0 => hAB (S.inc_injective (by rw [map_add, h0, map_zero]))
  obtain ⟨_, _, _, _, _, _, _, _, _, ℓ', ν', -, -, -, e', -⟩ := line_sloped (S.inc A) (S.inc B) hA' hB' hAB'
  have m := S.f1.lineAt_map S.h2 hA hB hAB
  have m0 : lineAt (S.inc A) (S.inc B) (1 * ι 0) (1 * ι 0) = 1 * ι (lineAt A B 0 0) := m 0 0
  have m1 : lineAt (S.inc A) (S.inc B) (1 * ι 1) (1 * ι 0) = 1 * ι (lineAt A B 1 0) := m 1 0
  rw [e, e'] at m0 m1
  simp only [map_zero, map_one, mul_zero, mul_one, one_mul, zero_sub, map_neg, map_add, map_sub] at m0 m1
  have d0 := hl 0 0
  have d1 := hl 0 1
  have d2 := hl 1 0
  rw [e] at d0 d1 d2
  have k1 : c₁ = κ := by linear_combination d1 - d0
  have k0 : c₀ = -(κ * ν) := by linear_combination d0
  have k2 : c₂ = -(κ * ℓ) := by linear_combination d2 - d0
  rw [k1]
  refine ⟨hκ, fun x y => ?_⟩
  have n0 : ν' = ι ν := by linear_combination -m0
  have n1 : ℓ' = ι ℓ := by linear_combination m0 - m1
  rw [e', k0, k2, n0, n1]
  simp only [map_neg, map_mul]
  ring

/-- `f` is the value of the Miller function `f_{n,P}` at `Q`, up to a factor that the final exponentiation kills. -/
def TInv (P : (weier a₂ a b).Point) (Q : (weier a₂' a' b').Point) (n : ℕ) (f : L) : Prop :=
  f ^ E = millerVal (rho L E) n (S.inc P) (S.psi Q)

variable {P : (weier a₂ a b).Point} {Q : (weier a₂' a' b').Point} {n : ℕ} {f e : L}

theorem TInv.one (hQ : Q ∈ AddSubgroup.zmultiples g) : S.TInv P Q 1 1 := by
  unfold TInv
  rw [one_pow, millerVal_one S.sep.symm (S.inc_mem P) (S.psi_mem hQ)]

theorem TInv.double (hQ : Q ∈ AddSubgroup.zmultiples g) (h : S.TInv P Q n f)
    (he : e ^ E = rho L E (lineVal (S.inc (n • P)) (S.inc (n • P)) (S.psi Q))) : S.TInv P Q (2 * n) (f * f * e) := by
  unfold TInv at h ⊢
  rw [two_mul, millerVal_add S.sep.symm (S.inc_mem P) (S.psi_mem hQ), mul_pow, mul_pow, he, h, map_nsmul]

theorem TInv.add (h : S.TInv P Q n f)
    (he : e ^ E = rho L E (lineVal (S.inc (n • P)) (S.inc P) (S.psi Q))) : S.TInv P Q (n + 1) (f * e) := by
  unfold TInv at h ⊢
  rw [millerVal_succ, mul_pow, he, h, map_nsmul]

/-- The two loops fit together. -/
theorem tate_fused {R C : Type*} {Rep : ℕ → R → Prop} {dbl add : R → R × C} {sq : L → L} {ev : C → L} {N : ℕ}
    (hQ : Q ∈ AddSubgroup.zmultiples g) (hsq : SqSpec sq)
    (hd : ∀ n R, 1 ≤ n → 2 * n ≤ N → Rep n R → Rep (2 * n) (dbl R).1 ∧
      ev (dbl R).2 ^ E = rho L E (lineVal (S.inc (n • P)) (S.inc (n • P)) (S.psi Q)))
    (ha : ∀ n R, 2 ≤ n → n + 1 ≤ N → Rep n R → Rep (n + 1) (add R).1 ∧
      ev (add R).2 ^ E = rho L E (lineVal (S.inc (n • P)) (S.inc P) (S.psi Q))) :
    AteFused (· ++ ·) List.length (genPre dbl add) (genMil3 sq ev ev) (· <+: ·) (fun n R f => Rep n R ∧ S.TInv P Q n f) N where
  refl _ := List.prefix_refl _
  trans _ _ _ := List.IsPrefix.trans
  step n bit R cs f h1 hN hi := by
    obtain ⟨hR, hf⟩ := hi
    obtain ⟨hR2, he2⟩ := hd n R h1 (by omega) hR
    have hf2 := TInv.double S hQ hf he2
    cases bit with
    | false =>
      refine ⟨(dbl R).1, [(dbl R).2], f * f * ev (dbl R).2, rfl, List.prefix_append _ _, fun C' hC => ?_, hR2, hf2⟩
      simp only [genMil3, vecAt_prefix0 hC rfl, Outcome.bind, hsq f, Bool.false_eq_true, if_false, List.length_append,
        List.length_singleton]
    | true =>
      obtain ⟨hR3, he3⟩ := ha (2 * n) (dbl R).1 (by omega) (by simpa using hN) hR2
      have hf3 := TInv.add S hf2 he3
      refine ⟨(add (dbl R).1).1, [(dbl R).2, (add (dbl R).1).2], f * f * ev (dbl R).2 * ev (add (dbl R).1).2, ?_,
        List.prefix_append _ _, fun C' hC => ?_, hR3, hf3⟩
      · simp [genPre]
      · simp only [genMil3, vecAt_prefix0 hC rfl, vecAt_prefix hC (i := 1) rfl, Outcome.bind, Outcome.map, hsq f, if_true,
          List.length_append]
        rfl

/-- The first group's points killed by `r`, over `L`. -/
def Hr : AddSubgroup (weier c₂ (ι a) (ι b)).Point := (torsionSub r).map S.inc

theorem inc_mem_Hr (hP : P ∈ (torsionSub r : AddSubgroup (weier a₂ a b).Point)) : S.inc P ∈ S.Hr := AddSubgroup.mem_map_of_mem _ hP

theorem sep_r : Sep (rho L E) S.Hr S.G where
  vert A hA P hP := by
    obtain ⟨A, -, rfl⟩ := hA
    exact S.sep.symm.vert _ (S.inc_mem A) P hP
  root := S.root

/-- The Miller function of the order is bilinear. -/
theorem tate_bilin : Bilin (fun P Q => millerVal (rho L E) r P Q) S.Hr S.G := by
  have g0 : Good (rho L E) S.Hr S.G 0 := by
    refine ⟨fun Q hQ P hP R hR => ?_, fun Q hQ R hR P hP => ?_⟩
    · rw [zero_smul, zpow_zero]
      exact S.sep_r.symm.line_degenerate hP hR (zero_mem _) (by simp)
    · rw [zero_smul, zero_smul, zpow_zero]
      exact S.sep_r.line_degenerate (zero_mem _) (zero_mem _) hP (by simp)
  refine Good.bilin S.sep_r (g0.modEq S.sep_r (r := r) (fun Q hQ => ?_) S.rho_r (by simp [Int.modEq_zero_iff_dvd]))
  obtain ⟨Q, hQ, rfl⟩ := hQ
  rw [← map_nsmul, show r • Q = 0 from hQ, map_zero]

/-- The value of the reduced Tate pairing. -/
noncomputable def tateVal (P : (torsionSub r : AddSubgroup (weier a₂ a b).Point)) (Q : (weier a₂' a' b').Point) : L :=
  millerVal (rho L E) r (S.inc P) (S.psi Q)

theorem tateVal_bilin : BilinMap (AddSubgroup.zmultiples g) S.tateVal where
  add_left P P' Q hQ := by
    unfold tateVal
    rw [AddSubgroup.coe_add, map_add]
    exact S.tate_bilin.left _ (S.inc_mem_Hr P.2) _ (S.inc_mem_Hr P'.2) _ (S.psi_mem hQ)
  add_right P Q Q' hQ hQ' := by
    unfold tateVal
    rw [map_add]
    exact S.tate_bilin.right _ (S.inc_mem_Hr P.2) _ (S.psi_mem hQ) _ (S.psi_mem hQ')
  ne_zero P Q hQ := S.tate_bilin.ne_zero _ (S.inc_mem_Hr P.2) _ (S.psi_mem hQ)

end WAteSetup

/-- The value of `g_RR_at_Q`, `g_RP_at_Q`. -/
def edwT {K T L : Type*} [Field K] [Field T] [Field L] (ε : K →+* T) (τ : T →+* L) (w : L) (pq : EdwTateG2Precomp T) (cc : ConicCoeffs K) : L :=
  τ (ε cc.c_XZ + ε cc.c_XY * pq.y0) + τ (ε cc.c_ZZ * pq.eta) * w

namespace WAteSetup
variable {K T L : Type*} [Field K] [DecidableEq K] [Field T] [DecidableEq T] [Field L] [DecidableEq L]
variable {ε : K →+* T} {τ : T →+* L} {a d : K} {a' d' : T} {c₂ cx cy : L} {qX qY : T} {q r E : ℕ} {g : (edwW a' d').Point}
  (S : WAteSetup (τ.comp ε) τ (2 * (a + d)) ((a - d) ^ 2) 0 (2 * (a' + d')) ((a' - d') ^ 2) 0 c₂ cx cy qX qY q r E g)

include S in
theorem two_K : (2 : K) ≠ 0 := fun h => S.h2 (by rw [← map_ofNat (τ.comp ε), h, map_zero])

/-- The value of a conic at a point of the twist. -/
theorem edwEltT {u : T} {w : L} (W : MntRoots τ u cx cy w E) (hc : a - d ≠ 0) (hcc : a' - d' = ε (a - d) * u)
    {A B : (edwW a d).Point} (hA : A ≠ 0) (hB : B ≠ 0) (hAB : A + B ≠ 0) {cc : ConicCoeffs K} (h : IsConic A B cc.c_ZZ cc.c_XY cc.c_XZ)
    {Q : (edwW a' d').Point} {x y : T} (hQ : EdwPt x y Q) :
    edwT ε τ w ⟨y, (1 + y) * (u * x)⁻¹⟩ cc ^ E = rho L E (lineVal (S.inc A) (S.inc B) (S.psi Q)) := by
  obtain ⟨κ, ℓ, ν, hκ, hl, eZ, eXY, eXZ⟩ := h.line S.two_K hA hB hAB
  obtain ⟨-, hl'⟩ := S.line_inc hA hB hAB hl
  have hu := W.hu
  have hδ : a' - d' ≠ 0 := by
    rw [hcc]; exact mul_ne_zero ((map_ne_zero ε).2 hc) hu
  obtain ⟨hx, hy, hon, hns, rfl⟩ := hQ
  have w1 := hon.w_ne hδ hx
  have hu' : τ u ≠ 0 := (map_ne_zero τ).2 hu
  have hw := W.w_ne
  have hw2 := W.hw
  have ex : cx = (τ u)⁻¹ := eq_inv_of_mul_eq_one_left W.hx
  have ey : cy = (τ u * w)⁻¹ := eq_inv_of_mul_eq_one_left W.hy
  have hx' : τ x ≠ 0 := (map_ne_zero τ).2 hx
  have hw1 : 1 - τ y ≠ 0 := by
    rw [← map_one τ, ← map_sub]
    exact (map_ne_zero τ).2 w1
  rw [S.psi_some, lineVal, rho_apply]
  have key : edwT ε τ w ⟨y, (1 + y) * (u * x)⁻¹⟩ cc = τ (1 - y) * ((τ.comp ε) κ * lineAt (S.inc A) (S.inc B)
      (cx * τ ((a' - d') * (1 + y) / (1 - y))) (cy * τ (2 * ((a' - d') * (1 + y) / (1 - y)) / x))) := by
    rw [← hl', edwT, ex, ey, eZ, eXY, eXZ, hcc]
    generalize a - d = δ
    simp only [RingHom.comp_apply, map_mul, map_add, map_neg, map_sub, map_div₀, map_one, map_ofNat, map_inv₀]
    field_simp
    linear_combination (τ (ε κ) * τ (ε δ) * 2 * (1 + τ y)) * hw2
  rw [key, mul_pow, S.killT _ w1, one_mul, mul_pow, RingHom.comp_apply, S.killT _ ((map_ne_zero ε).2 hκ), one_mul]

end WAteSetup

namespace WAteSetup
variable {K T L : Type*} [Field K] [DecidableEq K] [Squared K] [LawfulSquared K] [Field T] [DecidableEq T] [Field L] [DecidableEq L]
variable {ε : K →+* T} {τ : T →+* L} {d : K} {a' d' : T} {c₂ cx cy : L} {qX qY : T} {q r E : ℕ} {g : (edwW a' d').Point}
  (S : WAteSetup (τ.comp ε) τ (2 * (1 + d)) ((1 - d) ^ 2) 0 (2 * (a' + d')) ((a' - d') ^ 2) 0 c₂ cx cy qX qY q r E g)
include S

/-- The second coordinates of points of the two groups differ. -/
theorem edw_y_ne {u : T} {w : L} (W : MntRoots τ u cx cy w E) (hE : E ≠ 0) (hcc : a' - d' = ε (1 - d) * u)
    {P : (edwW 1 d).Point} {x₁ y₁ : K} (hP : EdwPt x₁ y₁ P) {Q : (edwW a' d').Point} {x y : T} (hQ : EdwPt x y Q)
    (hm : Q ∈ AddSubgroup.zmultiples g) : y ≠ ε y₁ := by
  intro h
  have hv := S.sep.vert _ (S.psi_mem hm) _ (S.inc_mem P)
  obtain ⟨-, -, -, h1, rfl⟩ := hP
  obtain ⟨-, -, -, h2, rfl⟩ := hQ
  rw [S.psi_some, S.inc_some] at hv
  have ex : cx = (τ u)⁻¹ := eq_inv_of_mul_eq_one_left W.hx
  have hu' : τ u ≠ 0 := (map_ne_zero τ).2 W.hu
  have e0 : vertVal (.some (cx * τ ((a' - d') * (1 + y) / (1 - y))) (cy * τ (2 * ((a' - d') * (1 + y) / (1 - y)) / x)) (S.f2.nonsingular h2))
      (.some (1 * (τ.comp ε) ((1 - d) * (1 + y₁) / (1 - y₁))) (1 * (τ.comp ε) (2 * ((1 - d) * (1 + y₁) / (1 - y₁)) / x₁)) (S.f1.nonsingular h1)) = 0 := by
    change 1 * (τ.comp ε) ((1 - d) * (1 + y₁) / (1 - y₁)) - cx * τ ((a' - d') * (1 + y) / (1 - y)) = 0
    rw [h, hcc, ex]
    generalize 1 - d = δ
    simp only [RingHom.comp_apply, map_mul, map_add, map_sub, map_div₀, map_one]
    rw [sub_eq_zero, one_mul]
    have : ∀ D p t : L, p ≠ 0 → D * (1 + t) / (1 - t) = p⁻¹ * (D * p * (1 + t) / (1 - t)) := by
      intro D p t hp
      rw [mul_div_assoc, mul_div_assoc, ← mul_assoc, mul_comm D p, inv_mul_cancel_left₀ hp]
    exact this _ _ _ hu'
  rw [e0, rho_apply, zero_pow hE] at hv
  exact zero_ne_one hv

/-- The last addition step, which adds `P` to `-P`. -/
theorem edw_tate_last {u : T} {w : L} (W : MntRoots τ u cx cy w E) (hE : E ≠ 0) (hc : 1 - d ≠ 0) (hcc : a' - d' = ε (1 - d) * u)
    {P : (edwW 1 d).Point} {x₁ y₁ : K} (hP : EdwPt x₁ y₁ P) {R : ExtCoord K} (hR : EdwExtRep R (-P))
    {Q : (edwW a' d').Point} {x y : T} (hQ : EdwPt x y Q) (hm : Q ∈ AddSubgroup.zmultiples g) :
    edwT ε τ w ⟨y, (1 + y) * (u * x)⁻¹⟩ (AteEdw.tateMixedAdd ⟨x₁, y₁, 1, x₁ * y₁⟩ R).2 ^ E = 1 := by
  obtain ⟨x₂, y₂, z, rfl, hz, hp⟩ := hR.obtain
  obtain ⟨rfl, rfl⟩ := edwPt_inj S.two_K hc hp (edwPt_neg hP)
  have hne := S.edw_y_ne W hE hcc hP hQ hm
  obtain ⟨hx, hy, hon, -, -⟩ := hP
  have w1 := hon.w_ne' hc hx
  have key : edwT ε τ w ⟨y, (1 + y) * (u * x)⁻¹⟩ (AteEdw.tateMixedAdd ⟨x₁, y₂, 1, x₁ * y₂⟩ ⟨-x₁ * z, y₂ * z, z, -x₁ * y₂ * z⟩).2 =
      τ (ε (2 * x₁ * z * (1 + y₂)) * (ε y₂ - y)) := by
    simp only [edwT, AteEdw.tateMixedAdd, map_mul, map_add, map_sub, map_neg, map_one, map_ofNat]
    ring
  rw [key, S.killT]
  exact mul_ne_zero ((map_ne_zero ε).2 (mul_ne_zero (mul_ne_zero (mul_ne_zero S.two_K hx) hz) w1)) (sub_ne_zero.2 hne.symm)

/-- The two loops, on a point of the first group. -/
theorem edw_tate_loops (hr : r % 2 = 1) {u : T} {w : L} (W : MntRoots τ u cx cy w E) (hE : E ≠ 0) (hc : 1 - d ≠ 0)
    (hcc : a' - d' = ε (1 - d) * u)
    {P : (edwW 1 d).Point} {x₁ y₁ : K} (hP : EdwPt x₁ y₁ P) (hPr : r • P = 0) {Q : (edwW a' d').Point} {x y : T} (hQ : EdwPt x y Q)
    (hm : Q ∈ AddSubgroup.zmultiples g) {k : ℕ} (hk : r < 2 ^ k) {sq : L → L} (hsq : SqSpec sq) :
    ∃ R cs f, ateLoop r.testBit (genPre AteEdw.tateDouble (AteEdw.tateMixedAdd ⟨x₁, y₁, 1, x₁ * y₁⟩)) k false (⟨x₁, y₁, 1, x₁ * y₁⟩, []) = .ok (R, cs) ∧
      (∀ cs', cs <+: cs' → ateLoop r.testBit (genMil3 sq (edwT ε τ w ⟨y, (1 + y) * (u * x)⁻¹⟩) (edwT ε τ w ⟨y, (1 + y) * (u * x)⁻¹⟩) cs') k false
        (1, 0) = .ok (f, cs.length)) ∧ S.TInv P Q r f := by
  have h0 : P ≠ 0 := by
    obtain ⟨-, -, -, h, rfl⟩ := hP
    exact Point.some_ne_zero _
  have hor : addOrderOf P = r := by
    have := Fact.mk S.prime
    exact addOrderOf_eq_prime hPr h0
  have small : ∀ m : ℕ, 1 ≤ m → m < r → m • P ≠ 0 := fun m h1 h2 h => by
    have := addOrderOf_dvd_of_nsmul_eq_zero h
    rw [hor] at this
    have := Nat.le_of_dvd h1 this
    omega
  have hH : NoTwoTorsion (torsionSub r : AddSubgroup (edwW 1 d).Point) := noTwoTorsion_torsionSub _ hr
  have hm' : P ∈ (torsionSub r : AddSubgroup (edwW 1 d).Point) := hPr
  have hone : EdwExtRep ⟨x₁, y₁, 1, x₁ * y₁⟩ P := edwExtRep_mk one_ne_zero hP (by simp)
  have F := S.tate_fused (P := P) (Q := Q) (Rep := fun n R => n < r → EdwExtRep R (n • P)) (dbl := AteEdw.tateDouble)
    (add := AteEdw.tateMixedAdd ⟨x₁, y₁, 1, x₁ * y₁⟩)
    (ev := edwT ε τ w ⟨y, (1 + y) * (u * x)⁻¹⟩) (N := r) hm hsq
    (fun n R h1 hn hR => by
      have hR := hR (by omega)
      have ha : n • P + n • P ≠ 0 := by
        rw [← two_nsmul, ← mul_nsmul']
        exact small _ (by omega) (by omega)
      obtain ⟨e1, e2⟩ := C50_edw_tate_double S.two_K hc hH R _ (nsmul_mem hm' n) hR
      refine ⟨fun _ => ?_, S.edwEltT W hc hcc (small n h1 (by omega)) (small n h1 (by omega)) ha e2 hQ⟩
      rwa [mul_nsmul', two_nsmul])
    (fun n R h1 hn hR => by
      have hR := hR (by omega)
      by_cases hl : n + 1 = r
      · refine ⟨fun h => absurd h (by omega), ?_⟩
        have hn : n • P = -P := by
          rw [← hl, succ_nsmul] at hPr
          exact eq_neg_of_add_eq_zero_left hPr
        rw [hn] at hR ⊢
        rw [S.edw_tate_last W hE hc hcc hP hR hQ hm, map_neg]
        exact (S.sep.symm.line_degenerate (neg_mem (S.inc_mem P)) (S.inc_mem P) (S.psi_mem hm) (by simp)).symm
      have hnP : n • P ≠ 0 := small n (by omega) (by omega)
      have hab : n • P ≠ P := fun h => by
        refine small (n - 1) (by omega) (by omega) ?_
        obtain ⟨k, rfl⟩ : ∃ k, n = k + 1 := ⟨n - 1, by omega⟩
        rw [succ_nsmul] at h
        simpa using h
      have hab' : n • P + P ≠ 0 := by
        rw [← succ_nsmul]
        exact small _ (by omega) (by omega)
      obtain ⟨e1, e3⟩ := C50_edw_tate_add S.two_K hc hH _ R _ _ (nsmul_mem hm' n) hm' hab hab' hR hone rfl
      exact ⟨fun _ => by rwa [succ_nsmul], S.edwEltT W hc hcc hnP h0 hab' e3 hQ⟩)
  obtain ⟨R, cs, f, e1, -, e2, -, e4⟩ := F.loop (by omega) k ⟨x₁, y₁, 1, x₁ * y₁⟩ [] 1 hk ⟨fun _ => by rwa [one_nsmul], TInv.one S hm⟩
  exact ⟨R, cs, f, e1, e2, e4⟩

end WAteSetup

namespace AteEdw
variable {K T : Type} [Field K] [DecidableEq K] [Squared K] [LawfulSquared K] [InverseO K] [LawfulInverse K]
  [Field T] [DecidableEq T] [Squared T] [LawfulSquared T] [InverseO T] [LawfulInverse T] {nr : T → T} {u : T} [MulBy nr u]
  [Fact (¬ IsSquare u)]
variable {A : AteEdw K T nr} {ε : K →+* T} {d : K} {a' d' : T} {r : ℕ}

/-- The parameters of the Tate pairing. -/
structure TateParams (A : AteEdw K T nr) (ε : K →+* T) (u : T) (d : K) (a' d' : T) (r : ℕ) : Prop where
  embed : ∀ x, A.embed x = ε x
  scale : ∀ x t, A.scale x t = ε x * t
  hc : 1 - d ≠ 0
  hcc : a' - d' = ε (1 - d) * u
  mod : val A.modulusR = r
  odd : r % 2 = 1

theorem tateG_eq (M : TateParams A ε u d a' d' r) (pq : EdwTateG2Precomp T) (cc : ConicCoeffs K) :
    (A.tateG pq cc : Quad T nr) = edwT ε (tau (nr := nr)) Quad.gen pq cc := by
  rw [tateG, tau_add, edwT]
  simp only [M.scale, M.embed]

theorem tate_miller_step (M : TateParams A ε u d a' d' r) (pq : EdwTateG2Precomp T) (cs : List (ConicCoeffs K)) :
    A.tateMillerStep cs pq = genMil3 (L := Quad T nr) squared (edwT ε (tau (nr := nr)) Quad.gen pq)
      (edwT ε (tau (nr := nr)) Quad.gen pq) cs := by
  funext b s
  unfold tateMillerStep genMil3
  simp only [tateG_eq M]

variable {c₂ cx cy : Quad T nr} {qX qY : T} {q E : ℕ} {g : (edwW a' d').Point}
  (S : WAteSetup (L := Quad T nr) ((tau (nr := nr)).comp ε) tau (2 * (1 + d)) ((1 - d) ^ 2) 0 (2 * (a' + d')) ((a' - d') ^ 2) 0 c₂ cx cy
    qX qY q r E g)

/-- The function before the final exponentiation. -/
theorem tate_value (M : TateParams A ε u d a' d' r) (W : MntRoots (L := Quad T nr) tau u cx cy Quad.gen E) (hE : E ≠ 0)
    {P : (torsionSub r : AddSubgroup (edwW 1 d).Point)} {p : Coord3 K} (hp : EdwRep p (P : (edwW 1 d).Point)) (hP : P ≠ 0)
    {Q : (edwW a' d').Point} {q : Coord3 T} (hq : EdwRep q Q)
    (hQ : Q ∈ AddSubgroup.zmultiples g) (h0 : Q ≠ 0) :
    ∃ f, ((A.tatePrecomputeG1 p).bind fun prec_P => (tatePrecomputeG2 nr q).bind fun prec_Q => A.tateMillerLoop prec_P prec_Q) = .ok f ∧
      f ^ E = S.tateVal P Q := by
  obtain ⟨-, e1, hpt⟩ := (Edw.toAffine_rep hp).resolve_left fun h => hP (Subtype.ext h.1)
  obtain ⟨-, e2, hqt⟩ := (Edw.toAffine_rep hq).resolve_left fun h => h0 h.1
  have hk : r < 2 ^ bigintMaxBits A.modulusR := by
    rw [← M.mod, bigintMaxBits, mul_comm]; exact val_lt _
  obtain ⟨R, cs, f, e3, e4, e5⟩ := S.edw_tate_loops M.odd W hE M.hc M.hcc hpt P.2 hqt hQ hk (sq := squared)
    (fun f => LawfulSquared.squared_eq f)
  have hb : r.testBit (bigintMaxBits A.modulusR) = false := Nat.testBit_lt_two_pow hk
  have hu : u * (q.Z / q.X) ≠ 0 := mul_ne_zero W.hu hqt.1
  have e1' : A.tatePrecomputeG1 p = .ok cs := by
    rw [tatePrecomputeG1, e1, testBit_fun, M.mod]
    simp only [Outcome.bind, precomp_step]
    rw [ateLoop, if_pos rfl, hb, e3]; rfl
  have e2' : tatePrecomputeG2 nr q = .ok ⟨q.Z / q.Y, (1 + q.Z / q.Y) * (u * (q.Z / q.X))⁻¹⟩ := by
    rw [tatePrecomputeG2, e2]
    simp only [Outcome.bind, MulBy.mulBy (nr := nr), LawfulInverse.inverseO_ne _ hu, LawfulInverse.inverseO_ne _ (one_ne_zero (α := T)), Outcome.map,
      inv_one, mul_one]
  refine ⟨f, ?_, e5⟩
  rw [e1', e2']
  simp only [Outcome.bind, tateMillerLoop, tate_miller_step M, testBit_fun, M.mod, e4 cs (List.prefix_refl _), Outcome.map]

end AteEdw
end Libff
