import Verif.Lemmas.AteValue
import Verif.Lemmas.AteMntBilin
import Verif.Lemmas.Bilinear
import Verif.Props.MillerStepsEdw

/-!
# The Miller loop of edwards computes Miller functions
-/
namespace Libff
open WeierstrassCurve Affine

/-- The form of the body of the loop of `edwards_ate_miller_loop`. -/
def genMil3 {L C : Type*} [Mul L] (sq : L → L) (eD eA : C → L) (cs : List C) (bit : Bool) (s : L × ℕ) : Outcome (L × ℕ) :=
  (vecAt cs s.2).bind fun c =>
  let f := sq s.1 * eD c
  if bit then (vecAt cs (s.2 + 1)).map fun c => (f * eA c, s.2 + 2)
  else .ok (f, s.2 + 1)

variable {K T L : Type*} [Field K] [DecidableEq K] [Field T] [DecidableEq T] [Field L] [DecidableEq L]

namespace WAteSetup
section
variable {ι : K →+* L} {τ : T →+* L} {a₂ a b : K} {a₂' a' b' : T} {c₂ cx cy : L} {qX qY : T} {q r E : ℕ} {g : (weier a₂' a' b').Point}
  (S : WAteSetup ι τ a₂ a b a₂' a' b' c₂ cx cy qX qY q r E g)

/-- The two loops fit together. -/
theorem fused3 {R C : Type*} {Rep : ℕ → R → Prop} {dbl add : R → R × C} {sq : L → L} {eD eA : C → L} {N : ℕ}
    {P : (weier a₂ a b).Point} {Q : (weier a₂' a' b').Point} (hQ : Q ∈ AddSubgroup.zmultiples g) (hsq : SqSpec sq)
    (hd : ∀ n R, 1 ≤ n → 2 * n ≤ N → Rep n R → Rep (2 * n) (dbl R).1 ∧
      eD (dbl R).2 ^ E = rho L E (lineVal (S.psi (n • Q)) (S.psi (n • Q)) (S.inc P)))
    (ha : ∀ n R, 2 ≤ n → n + 1 ≤ N → Rep n R → Rep (n + 1) (add R).1 ∧
      eA (add R).2 ^ E = rho L E (lineVal (S.psi (n • Q)) (S.psi Q) (S.inc P))) :
    AteFused (· ++ ·) List.length (genPre dbl add) (genMil3 sq eD eA) (· <+: ·) (fun n R f => Rep n R ∧ S.MInv P Q n f) N where
  refl _ := List.prefix_refl _
  trans _ _ _ := List.IsPrefix.trans
  step n bit R cs f h1 hN hi := by
    obtain ⟨hR, hf⟩ := hi
    obtain ⟨hR2, he2⟩ := hd n R h1 (by omega) hR
    have hf2 := MInv.double S hQ hf he2
    cases bit with
    | false =>
      refine ⟨(dbl R).1, [(dbl R).2], f * f * eD (dbl R).2, rfl, List.prefix_append _ _, fun C' hC => ?_, hR2, hf2⟩
      simp only [genMil3, vecAt_prefix0 hC rfl, Outcome.bind, hsq f, Bool.false_eq_true, if_false, List.length_append,
        List.length_singleton]
    | true =>
      obtain ⟨hR3, he3⟩ := ha (2 * n) (dbl R).1 (by omega) (by simpa using hN) hR2
      have hf3 := MInv.add S hf2 he3
      refine ⟨(add (dbl R).1).1, [(dbl R).2, (add (dbl R).1).2], f * f * eD (dbl R).2 * eA (add (dbl R).1).2, ?_,
        List.prefix_append _ _, fun C' hC => ?_, hR3, hf3⟩
      · simp [genPre]
      · simp only [genMil3, vecAt_prefix0 hC rfl, vecAt_prefix hC (i := 1) rfl, Outcome.bind, Outcome.map, hsq f, if_true,
          List.length_append]
        rfl
end
end WAteSetup

/-- The line behind a conic. -/
theorem IsConic.line {a d : T} {A B : (edwW a d).Point} {cZ cXY cXZ : T} (h2 : (2 : T) ≠ 0) (hA : A ≠ 0) (hB : B ≠ 0) (hAB : A + B ≠ 0)
    (h : IsConic A B cZ cXY cXZ) : ∃ κ ℓ ν, κ ≠ 0 ∧ IsLine A B (-(κ * ν)) κ (-(κ * ℓ)) ∧ cZ = 2 * κ * (a - d) ∧
      cXY = κ * (ν - ℓ * (a - d)) ∧ cXZ = -(κ * (ν + ℓ * (a - d))) := by
  obtain ⟨κ, hκ, hl⟩ := h
  obtain ⟨x₁, y₁, h₁, x₂, y₂, h₂, x₃, y₃, h₃, ℓ, ν, -, -, -, e, -⟩ := line_sloped A B hA hB hAB
  have hn : (-1 : T) ≠ 0 := neg_ne_zero.2 one_ne_zero
  have d0 := hl 1 0 one_ne_zero zero_ne_one
  have d1 := hl (-1) 0 hn zero_ne_one
  have d2 := hl 1 (-1) one_ne_zero (fun h => h2 (by linear_combination -h))
  rw [e] at d0 d1 d2
  have hw : (1 - -1 : T) = 2 := by norm_num
  rw [hw] at d2
  simp only [add_zero, sub_zero, mul_one, div_one, mul_zero, one_mul, add_neg_cancel, zero_div, zero_mul, zero_add, div_neg] at d0 d1 d2
  have eZ : cZ = 2 * κ * (a - d) := by
    refine mul_left_cancel₀ h2 ?_
    linear_combination d0 + d1
  have eXZ : cXZ = -(κ * (ν + ℓ * (a - d))) := by
    linear_combination d0 - eZ
  refine ⟨κ, ℓ, ν, hκ, ⟨κ, hκ, fun x y => ?_⟩, eZ, ?_, eXZ⟩
  · rw [e]; ring
  · linear_combination eXZ - d2

/-- The value of `g_RR_at_P`, at `P_XY`, `P_XZ`, `P_ZZplusYZ`. -/
def edwD (ι : K →+* L) (τ : T →+* L) (w : L) (pp : EdwG1Precomp K) (cc : ConicCoeffs T) : L :=
  ι pp.P_XY * τ cc.c_XY + ι pp.P_XZ * τ cc.c_XZ + ι pp.P_ZZplusYZ * τ cc.c_ZZ * w

/-- The value of `g_RQ_at_P`. -/
def edwA (ι : K →+* L) (τ : T →+* L) (w : L) (pp : EdwG1Precomp K) (cc : ConicCoeffs T) : L :=
  ι pp.P_ZZplusYZ * τ cc.c_ZZ + (ι pp.P_XY * τ cc.c_XY + ι pp.P_XZ * τ cc.c_XZ) * w

/-- The precomputed values are those of the point. -/
inductive EdwAff {a d : K} : (edwW a d).Point → EdwG1Precomp K → Prop
  | zero : EdwAff 0 ⟨0, 0, 2⟩
  | pt {x y : K} {P : (edwW a d).Point} (h : EdwPt x y P) : EdwAff P ⟨x * y, x, 1 + y⟩

namespace WAteSetup
variable {ε : K →+* T} {τ : T →+* L} {a d : K} {a' d' : T} {c₂ cx cy : L} {qX qY : T} {q r E : ℕ} {g : (edwW a' d').Point}
  (S : WAteSetup (τ.comp ε) τ (2 * (a + d)) ((a - d) ^ 2) 0 (2 * (a' + d')) ((a' - d') ^ 2) 0 c₂ cx cy qX qY q r E g)

include S in
theorem two_T : (2 : T) ≠ 0 := fun h => S.h2 (by rw [← map_ofNat τ, h, map_zero])

theorem edwEltD {u : T} {w : L} (W : MntRoots τ u cx cy w E) (hc : a - d ≠ 0) (hcc : a' - d' = ε (a - d) * u)
    {A B : (edwW a' d').Point} (hA : A ≠ 0) (hB : B ≠ 0)
    (hAB : A + B ≠ 0) {cc : ConicCoeffs T} (h : IsConic A B cc.c_ZZ cc.c_XY cc.c_XZ) {P : (edwW a d).Point} {pp : EdwG1Precomp K}
    (hP : EdwAff P pp) : edwD (τ.comp ε) τ w pp cc ^ E = rho L E (lineVal (S.psi A) (S.psi B) (S.inc P)) := by
  have h2 := S.two_T
  obtain ⟨κ, ℓ, ν, hκ, hl, eZ, eXY, eXZ⟩ := h.line h2 hA hB hAB
  have hu := W.hu
  have hδ : a' - d' ≠ 0 := by
    rw [hcc]; exact mul_ne_zero ((map_ne_zero ε).2 hc) hu
  cases hP with
  | zero =>
    have e : edwD (τ.comp ε) τ w ⟨0, 0, 2⟩ cc = τ (2 * cc.c_ZZ) * w := by
      simp only [edwD, map_zero, zero_mul, zero_add, map_ofNat, map_mul]
    rw [e, mul_pow, W.kill, S.killT, one_mul, show S.inc 0 = 0 from map_zero _]
    · exact (map_one _).symm
    · rw [eZ]
      exact mul_ne_zero h2 (mul_ne_zero (mul_ne_zero h2 hκ) hδ)
  | @pt x y P hp =>
    obtain ⟨hx, hy, hon, hns, rfl⟩ := hp
    have w1 := hon.w_ne hc hx
    have hu' : τ u ≠ 0 := (map_ne_zero τ).2 hu
    have hw := W.w_ne
    refine S.line_eval hA hB hAB hl hns (c := τ (ε (x * (1 - y)) * u) * w) ?_ ?_
    · rw [mul_pow, W.kill, S.killT, one_mul]
      exact mul_ne_zero ((map_ne_zero ε).2 (mul_ne_zero hx w1)) hu
    · have ex : cx = (τ u)⁻¹ := eq_inv_of_mul_eq_one_left W.hx
      have ey : cy = (τ u * w)⁻¹ := eq_inv_of_mul_eq_one_left W.hy
      have hx' : τ (ε x) ≠ 0 := (map_ne_zero τ).2 ((map_ne_zero ε).2 hx)
      have hw1 : 1 - τ (ε y) ≠ 0 := by
        rw [← map_one τ, ← map_one ε, ← map_sub, ← map_sub]
        exact (map_ne_zero τ).2 ((map_ne_zero ε).2 w1)
      rw [edwD, ex, ey, eZ, eXY, eXZ, hcc]
      generalize a - d = δ
      simp only [RingHom.comp_apply, map_mul, map_add, map_neg, map_sub, map_div₀, map_one, map_ofNat]
      field_simp
      ring

theorem edwEltA {u : T} {w : L} (W : MntRoots τ u cx cy w E) (hc : a - d ≠ 0) (hcc : a' - d' = ε (a - d) * u) (ha : a' = u)
    {A B : (edwW a' d').Point} (hA : A ≠ 0) (hB : B ≠ 0)
    (hAB : A + B ≠ 0) {cc : ConicCoeffs T} {c : T} (hcZ : cc.c_ZZ = a' * c) (h : IsConic A B c cc.c_XY cc.c_XZ) {P : (edwW a d).Point}
    {pp : EdwG1Precomp K} (hP : EdwAff P pp) :
    edwA (τ.comp ε) τ w pp cc ^ E = rho L E (lineVal (S.psi A) (S.psi B) (S.inc P)) := by
  have e := S.edwEltD W hc hcc hA hB hAB (cc := ⟨c, cc.c_XY, cc.c_XZ⟩) h hP
  rw [← e]
  have : edwA (τ.comp ε) τ w pp cc = w * edwD (τ.comp ε) τ w pp ⟨c, cc.c_XY, cc.c_XZ⟩ := by
    simp only [edwA, edwD, hcZ, ha, map_mul, ← W.hw]
    ring
  rw [this, mul_pow, W.kill, one_mul]

/-- The two loops, on a point of the twist. -/
theorem edw_loops [Squared T] [LawfulSquared T] {nr : T → T} {A : AteEdw K T nr} (hA : ∀ x, A.mulA x = a' * x) (hr : r % 2 = 1)
    {u : T} {w : L} (W : MntRoots τ u cx cy w E) (hc : a - d ≠ 0) (hcc : a' - d' = ε (a - d) * u) (ha : a' = u)
    {Q : (edwW a' d').Point} {x y : T} (hp : EdwPt x y Q) (hQ : Q ∈ AddSubgroup.zmultiples g) {N k : ℕ} (hN1 : 1 ≤ N) (hN : N < r)
    (hk : N < 2 ^ k) {P : (edwW a d).Point} {pp : EdwG1Precomp K} (hP : EdwAff P pp) {sq : L → L} (hsq : SqSpec sq) :
    ∃ R cs f, ateLoop N.testBit (genPre A.double (A.mixedAdd ⟨x, y, 1, x * y⟩)) k false (⟨x, y, 1, x * y⟩, []) = .ok (R, cs) ∧
      (∀ cs', cs <+: cs' → ateLoop N.testBit (genMil3 sq (edwD (τ.comp ε) τ w pp) (edwA (τ.comp ε) τ w pp) cs') k false
        (1, 0) = .ok (f, cs.length)) ∧ S.MInv P Q N f := by
  have h0 : Q ≠ 0 := by
    obtain ⟨-, -, -, h, rfl⟩ := hp
    exact Point.some_ne_zero _
  have h2 := S.two_T
  have hδ : a' - d' ≠ 0 := by
    rw [hcc]; exact mul_ne_zero ((map_ne_zero ε).2 hc) W.hu
  have small : ∀ m : ℕ, 1 ≤ m → m < r → m • Q ≠ 0 := fun m h1 h2 => by
    have := S.smul_ne_zero_of_lt hQ h0 (n := m) (fun hd => by
      have := Nat.le_of_dvd h1 (Int.natCast_dvd_natCast.1 hd)
      omega)
    rwa [natCast_zsmul] at this
  have hH : NoTwoTorsion (torsionSub r : AddSubgroup (edwW a' d').Point) := noTwoTorsion_torsionSub _ hr
  have hm : Q ∈ (torsionSub r : AddSubgroup (edwW a' d').Point) := smul_zmultiples S.order hQ
  have hone : EdwExtRep ⟨x, y, 1, x * y⟩ Q := edwExtRep_mk one_ne_zero hp (by simp)
  have F := S.fused3 (Rep := fun n R => EdwExtRep R (n • Q)) (dbl := A.double) (add := A.mixedAdd ⟨x, y, 1, x * y⟩)
    (eD := edwD (τ.comp ε) τ w pp) (eA := edwA (τ.comp ε) τ w pp) (N := N) (P := P) hQ hsq
    (fun n R h1 hn hR => by
      have ha : n • Q + n • Q ≠ 0 := by
        rw [← two_nsmul, ← mul_nsmul']
        exact small _ (by omega) (by omega)
      obtain ⟨e1, e2⟩ := C50_edw_double A hA h2 hδ hH R _ (nsmul_mem hm n) hR
      refine ⟨?_, S.edwEltD W hc hcc (small n h1 (by omega)) (small n h1 (by omega)) ha e2 hP⟩
      rwa [mul_nsmul', two_nsmul])
    (fun n R h1 hn hR => by
      have hnQ : n • Q ≠ 0 := small n (by omega) (by omega)
      have hab : n • Q ≠ Q := fun h => by
        refine small (n - 1) (by omega) (by omega) ?_
        obtain ⟨k, rfl⟩ : ∃ k, n = k + 1 := ⟨n - 1, by omega⟩
        rw [succ_nsmul] at h
        simpa using h
      have hab' : n • Q + Q ≠ 0 := by
        rw [← succ_nsmul]
        exact small _ (by omega) (by omega)
      obtain ⟨e1, c, e2, e3⟩ := C50_edw_add A hA h2 hδ hH _ R _ _ (nsmul_mem hm n) hm hab hab' hR hone rfl
      exact ⟨by rwa [succ_nsmul], S.edwEltA W hc hcc ha hnQ h0 hab' e2 e3 hP⟩)
  obtain ⟨R, cs, f, e1, -, e2, -, e4⟩ := F.loop hN1 k ⟨x, y, 1, x * y⟩ [] 1 hk ⟨by rwa [one_nsmul], MInv.one S hQ⟩
  exact ⟨R, cs, f, e1, e2, e4⟩

end WAteSetup
end Libff
