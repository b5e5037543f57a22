import Verif.Lemmas.AteValue
import Verif.Lemmas.AteSetup12
import Verif.Lemmas.Bilinear
import Verif.Lemmas.Bigint
import Verif.Lemmas.Ate12Pairing
import Verif.Model.PairingMnt
import Verif.Props.MillerSteps

/-!
# The Miller loops of mnt4 and mnt6 compute Miller functions
-/
namespace Libff
open WeierstrassCurve Affine

/-- The form of the body of the loop of `ate_precompute_G2`. -/
def genPre2 {R D A : Type*} (dbl : R → R × D) (add : R → R × A) (bit : Bool) (s : R × List D × List A) : Outcome (R × List D × List A) :=
  let d := dbl s.1
  if bit then
    let a := add d.1
    .ok (a.1, s.2.1 ++ [d.2], s.2.2 ++ [a.2])
  else .ok (d.1, s.2.1 ++ [d.2], s.2.2)

/-- The form of the body of the loop of `ate_miller_loop`. -/
def genMil2 {L D A : Type*} [Mul L] (sq : L → L) (eD : D → L) (eA : A → L) (cs : List D × List A) (bit : Bool) (s : L × ℕ × ℕ) :
    Outcome (L × ℕ × ℕ) :=
  (vecAt cs.1 s.2.1).bind fun dc =>
  let f := sq s.1 * eD dc
  if bit then (vecAt cs.2 s.2.2).map fun ac => (f * eA ac, s.2.1 + 1, s.2.2 + 1)
  else .ok (f, s.2.1 + 1, s.2.2)

/-- Loops and changes of state. -/
theorem ateLoop_map {σ σ' : Type*} (φ : σ → σ') {bit : ℕ → Bool} {step : Bool → σ → Outcome σ} {step' : Bool → σ' → Outcome σ'}
    (h : ∀ b s, step' b (φ s) = (step b s).map φ) : ∀ (k : ℕ) (f : Bool) (s : σ),
    ateLoop bit step' k f (φ s) = (ateLoop bit step k f s).map φ
  | 0, _, _ => rfl
  | k + 1, f, s => by
    rw [ateLoop, ateLoop]
    split
    · exact ateLoop_map φ h k _ s
    · rw [h]
      cases step (bit k) s with
      | ok s' => exact ateLoop_map φ h k _ s'
      | abort => rfl
      | ub => rfl

/-- Appending to both lists. -/
def app2 {D A : Type*} (c e : List D × List A) : List D × List A := (c.1 ++ e.1, c.2 ++ e.2)

/-- Both lengths. -/
def len2 {D A : Type*} (c : List D × List A) : ℕ × ℕ := (c.1.length, c.2.length)

/-- Both are prefixes. -/
def le2 {D A : Type*} (c c' : List D × List A) : Prop := c.1 <+: c'.1 ∧ c.2 <+: c'.2

variable {K T L : Type*} [Field K] [DecidableEq K] [Field T] [DecidableEq T] [Field L] [DecidableEq L]

namespace WAteSetup
variable {ι : K →+* L} {τ : T →+* L} {a b : K} {a' b' : T} {cx cy : L} {qX qY : T} {q r E : ℕ} {g : (sw a' b').Point}
  (S : AteSetup ι τ a b a' b' cx cy qX qY q r E g)

/-- The two loops fit together. -/
theorem fused2 {R D A : Type*} {Rep : ℕ → R → Prop} {dbl : R → R × D} {add : R → R × A} {sq : L → L} {eD : D → L} {eA : A → L} {N : ℕ}
    {P : (sw a b).Point} {Q : (sw a' b').Point} (hQ : Q ∈ AddSubgroup.zmultiples g) (hsq : SqSpec sq)
    (hd : ∀ n R, 1 ≤ n → 2 * n ≤ N → Rep n R → Rep (2 * n) (dbl R).1 ∧
      eD (dbl R).2 ^ E = rho L E (lineVal (S.psi (n • Q)) (S.psi (n • Q)) (S.inc P)))
    (ha : ∀ n R, 2 ≤ n → n + 1 ≤ N → Rep n R → Rep (n + 1) (add R).1 ∧
      eA (add R).2 ^ E = rho L E (lineVal (S.psi (n • Q)) (S.psi Q) (S.inc P))) :
    AteFused app2 len2 (genPre2 dbl add) (genMil2 sq eD eA) le2 (fun n R f => Rep n R ∧ S.MInv P Q n f) N where
  refl _ := ⟨List.prefix_refl _, List.prefix_refl _⟩
  trans _ _ _ h h' := ⟨h.1.trans h'.1, h.2.trans h'.2⟩
  step n bit R cs f h1 hN hi := by
    obtain ⟨hR, hf⟩ := hi
    obtain ⟨hR2, he2⟩ := hd n R h1 (by omega) hR
    have hf2 := MInv.double S hQ hf he2
    cases bit with
    | false =>
      refine ⟨(dbl R).1, ([(dbl R).2], []), f * f * eD (dbl R).2, ?_, ⟨List.prefix_append _ _, List.prefix_append _ _⟩,
        fun C' hC => ?_, hR2, hf2⟩
      · simp [genPre2, app2]
      · simp only [genMil2, len2, app2, vecAt_prefix0 hC.1 rfl, Outcome.bind, hsq f, Bool.false_eq_true, if_false, List.length_append,
          List.length_singleton, List.length_nil, Nat.add_zero]
    | true =>
      obtain ⟨hR3, he3⟩ := ha (2 * n) (dbl R).1 (by omega) (by simpa using hN) hR2
      have hf3 := MInv.add S hf2 he3
      refine ⟨(add (dbl R).1).1, ([(dbl R).2], [(add (dbl R).1).2]), f * f * eD (dbl R).2 * eA (add (dbl R).1).2, ?_,
        ⟨List.prefix_append _ _, List.prefix_append _ _⟩, fun C' hC => ?_, hR3, hf3⟩
      · simp [genPre2, app2]
      · simp only [genMil2, len2, app2, vecAt_prefix0 hC.1 rfl, vecAt_prefix0 hC.2 rfl, Outcome.bind, Outcome.map, hsq f, if_true,
          List.length_append, List.length_singleton]

end WAteSetup

/-- The roots of the twist that mnt4 and mnt6 use. -/
structure MntRoots {T L : Type*} [Field T] [Field L] (τ : T →+* L) (u : T) (cx cy w : L) (E : ℕ) : Prop where
  hw : w * w = τ u
  hx : cx * τ u = 1
  hy : cy * (τ u * w) = 1
  kill : w ^ E = 1

/-- The value of `g_RR_at_P`. -/
def mntD (ι : K →+* L) (τ : T →+* L) (u : T) (w : L) (x y : K) (dc : MntDblCoeffs T) : L :=
  τ (-dc.c_4C + dc.c_L) - τ (dc.c_J * u) * ι x + τ (dc.c_H * u) * ι y * w

/-- The value of `g_RQ_at_P`. -/
def mntA (ι : K →+* L) (τ : T →+* L) (u : T) (w : L) (xQ yQ : T) (x y : K) (ac : MntAddCoeffs T) : L :=
  τ (ac.c_RZ * u) * ι y - (τ (yQ * u⁻¹ * ac.c_RZ) + (ι x - τ (xQ * u⁻¹)) * τ ac.c_L1) * w

namespace WAteSetup
variable {ι : K →+* L} {τ : T →+* L} {a b : K} {a' b' : T} {cx cy : L} {qX qY : T} {q r E : ℕ} {g : (sw a' b').Point}
  (S : AteSetup ι τ a b a' b' cx cy qX qY q r E g)

theorem _root_.Libff.MntRoots.hu {τ : T →+* L} {u : T} {cx cy w : L} {E : ℕ} (W : MntRoots τ u cx cy w E) : u ≠ 0 := by
  rintro rfl
  have := W.hx
  rw [map_zero, mul_zero] at this
  exact zero_ne_one this

theorem _root_.Libff.MntRoots.w_ne {τ : T →+* L} {u : T} {cx cy w : L} {E : ℕ} (W : MntRoots τ u cx cy w E) : w ≠ 0 := by
  rintro rfl
  have := W.hy
  rw [mul_zero, mul_zero] at this
  exact zero_ne_one this

theorem eltD {u : T} {w : L} (W : MntRoots τ u cx cy w E) {A B : (sw a' b').Point} (hA : A ≠ 0) (hB : B ≠ 0) (hAB : A + B ≠ 0)
    {dc : MntDblCoeffs T} (h : IsLine A B (dc.c_L - dc.c_4C) dc.c_H (-dc.c_J)) {x y : K} (hP : (sw a b).Nonsingular x y) :
    mntD ι τ u w x y dc ^ E = rho L E (lineVal (S.psi A) (S.psi B) (S.inc (.some x y hP))) := by
  have hu := W.hu
  refine S.line_eval hA hB hAB h hP (c := τ u * w) (by rw [mul_pow, S.killT u hu, W.kill, one_mul]) ?_
  have hu' : τ u ≠ 0 := (map_ne_zero τ).2 hu
  have hw := W.w_ne
  have ex : cx = (τ u)⁻¹ := eq_inv_of_mul_eq_one_left W.hx
  have ey : cy = (τ u * w)⁻¹ := eq_inv_of_mul_eq_one_left W.hy
  rw [mntD, ex, ey]
  simp only [map_mul, map_add, map_neg, map_sub]
  field_simp
  ring

theorem eltA {u : T} {w : L} (W : MntRoots τ u cx cy w E) {A B : (sw a' b').Point} (hA : A ≠ 0) (hB : B ≠ 0) (hAB : A + B ≠ 0)
    {xQ yQ : T} {ac : MntAddCoeffs T} (h : IsLine A B (ac.c_L1 * xQ - ac.c_RZ * yQ) ac.c_RZ (-ac.c_L1)) {x y : K}
    (hP : (sw a b).Nonsingular x y) :
    mntA ι τ u w xQ yQ x y ac ^ E = rho L E (lineVal (S.psi A) (S.psi B) (S.inc (.some x y hP))) := by
  have hu := W.hu
  refine S.line_eval hA hB hAB h hP (S.killT u hu) ?_
  have hu' : τ u ≠ 0 := (map_ne_zero τ).2 hu
  have hw := W.w_ne
  have ex : cx = (τ u)⁻¹ := eq_inv_of_mul_eq_one_left W.hx
  have ey : cy = (τ u * w)⁻¹ := eq_inv_of_mul_eq_one_left W.hy
  rw [mntA, ex, ey]
  simp only [map_mul, map_add, map_neg, map_sub, map_inv₀]
  rw [← W.hw]
  field_simp
  ring

/-- The two loops, on a point of the twist. -/
theorem mnt_loops [Squared T] [LawfulSquared T] {nr : T → T} {A : AteMnt K T nr} {g : (sw A.twistA b').Point}
    (S : AteSetup ι τ a b A.twistA b' cx cy qX qY q r E g) (h8 : ∀ x, A.scale (-A.eight) x = -8 * x) (h2 : (2 : T) ≠ 0)
    {u : T} {w : L} (W : MntRoots τ u cx cy w E) {x y : T} {hxy : (sw A.twistA b').Nonsingular x y}
    (hQ : Point.some x y hxy ∈ AddSubgroup.zmultiples g) {N k : ℕ} (hN1 : 1 ≤ N) (hN : N < r) (hk : N < 2 ^ k) {x0 y0 : K}
    (hP : (sw a b).Nonsingular x0 y0) {sq : L → L} (hsq : SqSpec sq) :
    ∃ R ds as f, ateLoop N.testBit (genPre2 A.double (AteMnt.mixedAdd x y (squared y))) k false (⟨x, y, 1, 1⟩, [], []) = .ok (R, ds, as) ∧
      (∀ ds' as', ds <+: ds' → as <+: as' → ateLoop N.testBit (genMil2 sq (mntD ι τ u w x0 y0) (mntA ι τ u w x y x0 y0) (ds', as')) k false
        (1, 0, 0) = .ok (f, ds.length, as.length)) ∧ ExtRep R (N • Point.some x y hxy) ∧
      S.MInv (.some x0 y0 hP) (.some x y hxy) N f := by
  have h0 : Point.some x y hxy ≠ 0 := Point.some_ne_zero _
  have small : ∀ m : ℕ, 1 ≤ m → m < r → m • Point.some x y hxy ≠ 0 := fun m h1 h2 => by
    have := S.smul_ne_zero_of_lt hQ h0 (n := m) (fun hd => by
      have := Nat.le_of_dvd h1 (Int.natCast_dvd_natCast.1 hd)
      omega)
    rwa [natCast_zsmul] at this
  have hone : JacRep ⟨x, y, 1⟩ (Point.some x y hxy) := ⟨one_ne_zero, by simp, by simp⟩
  have F := S.fused2 (Rep := fun n R => ExtRep R (n • Point.some x y hxy)) (dbl := A.double) (add := AteMnt.mixedAdd x y (squared y))
    (eD := mntD ι τ u w x0 y0) (eA := mntA ι τ u w x y x0 y0) (N := N) (P := .some x0 y0 hP) hQ hsq
    (fun n R h1 hn hR => by
      have ha : n • Point.some x y hxy + n • Point.some x y hxy ≠ 0 := by
        rw [← two_nsmul, ← mul_nsmul']
        exact small _ (by omega) (by omega)
      obtain ⟨e1, e2⟩ := C50_mnt_double A h8 h2 R _ ha hR
      refine ⟨?_, S.eltD W (small n h1 (by omega)) (small n h1 (by omega)) ha e2 hP⟩
      rwa [mul_nsmul', two_nsmul])
    (fun n R h1 hn hR => by
      have ha : n • Point.some x y hxy ≠ 0 := small n (by omega) (by omega)
      have hab : n • Point.some x y hxy ≠ Point.some x y hxy := fun h => by
        refine small (n - 1) (by omega) (by omega) ?_
        obtain ⟨k, rfl⟩ : ∃ k, n = k + 1 := ⟨n - 1, by omega⟩
        rw [succ_nsmul] at h
        simpa using h
      have hab' : n • Point.some x y hxy + Point.some x y hxy ≠ 0 := by
        rw [← succ_nsmul]
        exact small _ (by omega) (by omega)
      obtain ⟨e1, e2⟩ := C50_mnt_add h2 x y R _ _ ha h0 hab hab' hR hone
      rw [pow_two, ← LawfulSquared.squared_eq] at e1 e2
      exact ⟨by rwa [succ_nsmul], S.eltA W ha h0 hab' e2 hP⟩)
  obtain ⟨R, ⟨ds, as⟩, f, e1, -, e2, e3, e4⟩ := F.loop hN1 k ⟨x, y, 1, 1⟩ ([], []) 1 hk
    ⟨by rw [one_nsmul]; exact ⟨hone, by simp⟩, MInv.one S hQ⟩
  exact ⟨R, ds, as, f, e1, fun ds' as' h h' => e2 (ds', as') ⟨h, h'⟩, e3, e4⟩

/-- The additional step for negative loop counts has no effect. -/
theorem mnt_neg [Squared T] [LawfulSquared T] {nr : T → T} {A : AteMnt K T nr} {g : (sw A.twistA b').Point}
    (S : AteSetup ι τ a b A.twistA b' cx cy qX qY q r E g) (h2 : (2 : T) ≠ 0)
    {u : T} {w : L} (W : MntRoots τ u cx cy w E) {x y : T} {hxy : (sw A.twistA b').Nonsingular x y}
    (hQ : Point.some x y hxy ∈ AddSubgroup.zmultiples g) {x0 y0 : K} (hP : (sw a b).Nonsingular x0 y0)
    {R : ExtCoord T} {B : (sw A.twistA b').Point} (hB : B ≠ 0) (hBB : B + B ≠ 0) (hR : ExtRep R B) {zi : T} (hzi : R.Z * zi = 1) :
    mntA ι τ u w x y x0 y0 (AteMnt.mixedAdd (R.X * squared zi) (-R.Y * (squared zi * zi)) (squared (-R.Y * (squared zi * zi))) R).2 ^ E = 1 := by
  obtain ⟨X, Y, Z, t⟩ := R
  obtain ⟨hJ, ht⟩ := hR
  simp only at hJ ht hzi
  subst ht
  have hZ : Z ≠ 0 := fun h => by rw [h, zero_mul] at hzi; exact zero_ne_one hzi
  have ezi : zi = Z⁻¹ := eq_inv_of_mul_eq_one_right hzi
  have eh : X * (zi * zi) * Z ^ 2 = X := by
    rw [ezi]; field_simp
  have eRZ : (AteMnt.mixedAdd (X * squared zi) (-Y * (squared zi * zi)) (squared (-Y * (squared zi * zi))) ⟨X, Y, Z, Z ^ 2⟩).2.c_RZ = 0 := by
    simp only [AteMnt.mixedAdd, LawfulSquared.squared_eq, eh]
    ring
  have eL1 : (AteMnt.mixedAdd (X * squared zi) (-Y * (squared zi * zi)) (squared (-Y * (squared zi * zi))) ⟨X, Y, Z, Z ^ 2⟩).2.c_L1 = -(4 * Y) := by
    simp only [AteMnt.mixedAdd, LawfulSquared.squared_eq, ezi]
    field_simp
    ring
  have hY : Y ≠ 0 := by
    rintro rfl
    cases B with
    | zero => exact hB rfl
    | some xB yB hxB =>
      obtain ⟨-, -, h4⟩ := hJ
      simp only at h4
      have : yB = 0 := by
        rcases mul_eq_zero.1 h4.symm with h | h
        · exact h
        · exact absurd h (pow_ne_zero _ hZ)
      subst this
      obtain ⟨h', e⟩ := weier_neg hxB
      refine hBB ?_
      rw [add_eq_zero_iff_eq_neg, e]
      exact (weier_some_eq rfl (by simp)).choose_spec
  have hL : -(4 * Y) ≠ 0 := neg_ne_zero.2 (mul_ne_zero (by rw [show (4 : T) = 2 * 2 by norm_num]; exact mul_ne_zero h2 h2) hY)
  have hv := S.sep.vert _ (S.psi_mem hQ) _ (S.inc_mem (.some x0 y0 hP))
  have hv' : vertVal (S.psi (.some x y hxy)) (S.inc (.some x0 y0 hP)) = ι x0 - τ (x * u⁻¹) := by
    change 1 * ι x0 - cx * τ x = _
    rw [eq_inv_of_mul_eq_one_left W.hx, map_mul, map_inv₀]
    ring
  rw [hv', rho_apply] at hv
  rw [mntA, eRZ, eL1]
  have : τ (0 * u) * ι y0 - (τ (y * u⁻¹ * 0) + (ι x0 - τ (x * u⁻¹)) * τ (-(4 * Y))) * w =
      (-1) * ((ι x0 - τ (x * u⁻¹)) * τ (-(4 * Y)) * w) := by
    rw [zero_mul, mul_zero, map_zero]; ring
  rw [this, mul_pow, mul_pow, mul_pow, hv, S.killT _ hL, W.kill, S.root (-1) (by norm_num), one_mul, one_mul, one_mul]

end WAteSetup
end Libff
