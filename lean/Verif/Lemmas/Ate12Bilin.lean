import Verif.Lemmas.AteValue
import Verif.Props.MillerSteps

/-!
# The pairings of alt_bn128 and bls12_381 in terms of Miller functions

The field `L` of the values is arbitrary here.
-/
namespace Libff
set_option synthInstance.maxSize 2000
open WeierstrassCurve Affine

/-- The affine coordinates that `to_affine_coordinates` produces for a point. -/
def AffCoord {K : Type*} [Field K] {W : Affine K} (P : W.Point) (x y : K) : Prop :=
  match P with
  | .zero => x = 0 ∧ y = 1
  | .some x' y' _ => x = x' ∧ y = y'

variable {K L : Type*} [Field K] [DecidableEq K] [Squared K] [LawfulSquared K] {β : K} {ξ : Fp2 K β} [Fact (¬ IsSquare β)]
  [Field L] [DecidableEq L]

namespace WAteSetup
variable {A : Ate12 K β ξ} {ι : K →+* L} {τ : Fp2 K β →+* L} {b : K} {cx cy : L} {qX qY : Fp2 K β} {q r E : ℕ}
  {g : (sw 0 A.twistB).Point} (S : AteSetup ι τ 0 b 0 A.twistB cx cy qX qY q r E g)
  {P : (sw 0 b).Point} {Q : (sw 0 A.twistB).Point} {x0 y0 : K}

/-- The value of the line of a coefficient, alt_bn128. -/
def bnElt (ι : K →+* L) (τ : Fp2 K β →+* L) (w3 w4 : L) (x y : K) (c : EllCoeffs (Fp2 K β)) : L :=
  τ c.ell_0 + τ c.ell_VW * ι y * w3 + τ c.ell_VV * ι x * w4

/-- The value of the line of a coefficient, bls12_381. -/
def blsElt (ι : K →+* L) (τ : Fp2 K β →+* L) (w3 w5 : L) (x y : K) (c : EllCoeffs (Fp2 K β)) : L :=
  τ c.ell_VW * ι y + τ c.ell_0 * w3 + τ c.ell_VV * ι x * w5

omit [Squared K] [LawfulSquared K] in
theorem bnElt_eq {w4 : L} (h3 : cy * cy = τ A.twist) (h4 : cx * w4 = τ A.twist) (hw : cy ^ E = 1)
    (kill : ∀ s t, s ≠ 0 ∨ t ≠ 0 → (τ s + τ t * cy) ^ E = 1) (hP : AffCoord P x0 y0)
    {B C : (sw 0 A.twistB).Point} (hB : B ≠ 0) (hC : C ≠ 0) (hBC : B + C ≠ 0) {c : EllCoeffs (Fp2 K β)} {c₀ : Fp2 K β}
    (h0 : c.ell_0 = A.twist * c₀) (hl : IsLine B C c₀ c.ell_VW c.ell_VV) :
    bnElt ι τ cy w4 x0 y0 c ^ E = rho L E (lineVal (S.psi B) (S.psi C) (S.inc P)) := by
  cases P with
  | zero =>
    obtain ⟨rfl, rfl⟩ := hP
    have := S.line_coeff_ne hB hC hBC hl
    change _ = rho L E (lineVal (S.psi B) (S.psi C) (S.inc 0))
    rw [S.lineVal_inc_zero, bnElt, map_one, map_zero, mul_one, mul_zero, zero_mul, add_zero]
    exact kill _ _ (Or.inr this)
  | some x y h =>
    obtain ⟨rfl, rfl⟩ := hP
    exact S.elt024 h3 h4 hw hB hC hBC hl h (by rw [bnElt, h0])

omit [Squared K] [LawfulSquared K] in
theorem blsElt_eq {w2 w3 : L} (h3 : w3 * w3 = τ A.twist) (hx : cx * w2 = 1) (hy : cy * w3 = 1) (hξ : A.twist ≠ 0)
    (kill : ∀ s t, s ≠ 0 ∨ t ≠ 0 → (τ s + τ t * w3) ^ E = 1) (hP : AffCoord P x0 y0)
    {B C : (sw 0 A.twistB).Point} (hB : B ≠ 0) (hC : C ≠ 0) (hBC : B + C ≠ 0) {c : EllCoeffs (Fp2 K β)} {c₁ : Fp2 K β}
    (h1 : c.ell_VW = A.twist * c₁) (hl : IsLine B C c.ell_0 c₁ c.ell_VV) :
    blsElt ι τ w3 (w2 * w3) x0 y0 c ^ E = rho L E (lineVal (S.psi B) (S.psi C) (S.inc P)) := by
  cases P with
  | zero =>
    obtain ⟨rfl, rfl⟩ := hP
    have := S.line_coeff_ne hB hC hBC hl
    change _ = rho L E (lineVal (S.psi B) (S.psi C) (S.inc 0))
    rw [S.lineVal_inc_zero, blsElt, map_one, map_zero, mul_one, mul_zero, zero_mul, add_zero]
    exact kill _ _ (Or.inl (by rw [h1]; exact mul_ne_zero hξ this))
  | some x y h =>
    obtain ⟨rfl, rfl⟩ := hP
    exact S.elt045 h3 hx hy hξ hB hC hBC hl h (by rw [blsElt, h1])

include S in
omit [Squared K] [LawfulSquared K] in
/-- The multiples that occur in the loop are not zero. -/
theorem nsmul_ne (hQ : Q ∈ AddSubgroup.zmultiples g) (h0 : Q ≠ 0) {n : ℕ} (h1 : 1 ≤ n) (hn : n < r) : n • Q ≠ 0 := by
  rw [← natCast_zsmul]
  refine S.smul_ne_zero_of_lt hQ h0 fun h => ?_
  have := Nat.le_of_dvd h1 (Int.natCast_dvd_natCast.1 h)
  omega

/-- The loops of alt_bn128. -/
theorem bn_fused (hh : A.twoInv = 2⁻¹) (h2 : (2 : K) ≠ 0) (h3' : (3 : K) ≠ 0) {w4 : L}
    (h3 : cy * cy = τ A.twist) (h4 : cx * w4 = τ A.twist) (hw : cy ^ E = 1)
    (kill : ∀ s t, s ≠ 0 ∨ t ≠ 0 → (τ s + τ t * cy) ^ E = 1) (hP : AffCoord P x0 y0)
    (hQ : Q ∈ AddSubgroup.zmultiples g) (hQ0 : Q ≠ 0) {Qc : Coord3 (Fp2 K β)} (hQc : ProjRep Qc Q) (hQ1 : Qc.Z = 1)
    {N : ℕ} (hN : N < r) {sq : L → L} {ev : EllCoeffs (Fp2 K β) → L → L} (hsq : ∀ f, sq f = f * f)
    (hev : ∀ c f, ev c f = f * bnElt ι τ cy w4 x0 y0 c) :
    AteFused (· ++ ·) List.length (genPre A.bnDouble (A.bnAdd Qc)) (genMil sq ev) (· <+: ·)
      (fun n R f => ProjRep R (n • Q) ∧ S.MInv P Q n f) N := by
  refine S.fused (Rep := fun n R => ProjRep R (n • Q)) hQ hsq hev ?_ ?_
  · intro n R h1 hn hR
    have hne := S.nsmul_ne hQ hQ0 h1 (by omega)
    have hne2 := S.nsmul_ne hQ hQ0 (n := 2 * n) (by omega) (by omega)
    rw [two_mul, add_smul] at hne2 ⊢
    obtain ⟨⟨hp, c, e, hl⟩, -⟩ := C50_12_double A hh h2 h3' R (n • Q) hne hR
    exact ⟨hp, S.bnElt_eq h3 h4 hw kill hP hne hne hne2 e hl⟩
  · intro n R h1 hn hR
    have hne := S.nsmul_ne hQ hQ0 (n := n) (by omega) (by omega)
    have hne2 := S.nsmul_ne hQ hQ0 (n := n + 1) (by omega) (by omega)
    have hne3 : n • Q ≠ Q := by
      intro h
      refine S.nsmul_ne hQ hQ0 (n := n - 1) (by omega) (by omega) ?_
      obtain ⟨m, rfl⟩ : ∃ m, n = m + 1 := ⟨n - 1, by omega⟩
      rw [succ_nsmul] at h
      rw [Nat.add_sub_cancel]
      exact add_eq_right.1 h
    rw [succ_nsmul] at hne2 ⊢
    obtain ⟨⟨hp, c, e, hl⟩, -⟩ := C50_12_add A Qc R (n • Q) Q hne hQ0 hne3 hR hQc hQ1
    exact ⟨hp, S.bnElt_eq h3 h4 hw kill hP hne hQ0 hne2 e hl⟩

/-- The loops of bls12_381. -/
theorem bls_fused (hh : A.twoInv = 2⁻¹) (h2 : (2 : K) ≠ 0) (h3' : (3 : K) ≠ 0) {w2 w3 : L}
    (h3 : w3 * w3 = τ A.twist) (hx : cx * w2 = 1) (hy : cy * w3 = 1) (hξ : A.twist ≠ 0)
    (kill : ∀ s t, s ≠ 0 ∨ t ≠ 0 → (τ s + τ t * w3) ^ E = 1) (hP : AffCoord P x0 y0)
    (hQ : Q ∈ AddSubgroup.zmultiples g) (hQ0 : Q ≠ 0) {Qc : Coord3 (Fp2 K β)} (hQc : ProjRep Qc Q) (hQ1 : Qc.Z = 1)
    {N : ℕ} (hN : N < r) {sq : L → L} {ev : EllCoeffs (Fp2 K β) → L → L} (hsq : ∀ f, sq f = f * f)
    (hev : ∀ c f, ev c f = f * blsElt ι τ w3 (w2 * w3) x0 y0 c) :
    AteFused (· ++ ·) List.length (genPre A.blsDouble (A.blsAdd Qc)) (genMil sq ev) (· <+: ·)
      (fun n R f => ProjRep R (n • Q) ∧ S.MInv P Q n f) N := by
  refine S.fused (Rep := fun n R => ProjRep R (n • Q)) hQ hsq hev ?_ ?_
  · intro n R h1 hn hR
    have hne := S.nsmul_ne hQ hQ0 h1 (by omega)
    have hne2 := S.nsmul_ne hQ hQ0 (n := 2 * n) (by omega) (by omega)
    rw [two_mul, add_smul] at hne2 ⊢
    obtain ⟨-, hp, c, e, hl⟩ := C50_12_double A hh h2 h3' R (n • Q) hne hR
    exact ⟨hp, S.blsElt_eq h3 hx hy hξ kill hP hne hne hne2 e hl⟩
  · intro n R h1 hn hR
    have hne := S.nsmul_ne hQ hQ0 (n := n) (by omega) (by omega)
    have hne2 := S.nsmul_ne hQ hQ0 (n := n + 1) (by omega) (by omega)
    have hne3 : n • Q ≠ Q := by
      intro h
      refine S.nsmul_ne hQ hQ0 (n := n - 1) (by omega) (by omega) ?_
      obtain ⟨m, rfl⟩ : ∃ m, n = m + 1 := ⟨n - 1, by omega⟩
      rw [succ_nsmul] at h
      rw [Nat.add_sub_cancel]
      exact add_eq_right.1 h
    rw [succ_nsmul] at hne2 ⊢
    obtain ⟨-, hp, c, e, hl⟩ := C50_12_add A Qc R (n • Q) Q hne hQ0 hne3 hR hQc hQ1
    exact ⟨hp, S.blsElt_eq h3 hx hy hξ kill hP hne hQ0 hne2 e hl⟩

/-- The pairing of alt_bn128, before the final exponentiation. -/
theorem bn_value (hh : A.twoInv = 2⁻¹) (h2 : (2 : K) ≠ 0) (h3' : (3 : K) ≠ 0) {w4 : L}
    (h3 : cy * cy = τ A.twist) (h4 : cx * w4 = τ A.twist) (hw : cy ^ E = 1)
    (kill : ∀ s t, s ≠ 0 ∨ t ≠ 0 → (τ s + τ t * cy) ^ E = 1) (hP : AffCoord P x0 y0)
    {x y : Fp2 K β} {hxy : (sw 0 A.twistB).Nonsingular x y} (hQ : Point.some x y hxy ∈ AddSubgroup.zmultiples g)
    {N m k : ℕ} (hN1 : 1 ≤ N) (hN : N < r) (hk : N < 2 ^ k) {sq : L → L} {ev : EllCoeffs (Fp2 K β) → L → L}
    (hsq : ∀ f, sq f = f * f) (hev : ∀ c f, ev c f = f * bnElt ι τ cy w4 x0 y0 c)
    (hm : (m : ℤ) ≡ -(q * q) [ZMOD r]) (d0 : ¬ (r : ℤ) ∣ q) (d1 : ¬ (r : ℤ) ∣ N - q) (d2 : ¬ (r : ℤ) ∣ N + q)
    (d3 : ¬ (r : ℤ) ∣ m) (d4 : ¬ (r : ℤ) ∣ N + q - m) (d5 : ¬ (r : ℤ) ∣ N + q + m)
    {Q1 Q2 : Coord3 (Fp2 K β)} (hQ1 : Q1 = ⟨qX * x ^ q, qY * y ^ q, 1⟩)
    (hQ2 : Q2 = ⟨qX * (qX * x ^ q) ^ q, -(qY * (qY * y ^ q) ^ q), 1⟩) :
    ∃ R cs f, ateLoop N.testBit (genPre A.bnDouble (A.bnAdd ⟨x, y, 1⟩)) k false (⟨x, y, 1⟩, []) = .ok (R, cs) ∧
      ateLoop N.testBit (genMil sq ev (cs ++ [(A.bnAdd Q1 R).2] ++ [(A.bnAdd Q2 (A.bnAdd Q1 R).1).2])) k false (1, 0) =
        .ok (f, cs.length) ∧
      (ev (A.bnAdd Q2 (A.bnAdd Q1 R).1).2 (ev (A.bnAdd Q1 R).2 f)) ^ E =
        millerVal (rho L E) N (S.psi (.some x y hxy)) (S.inc P) *
          rho L E (lineVal (N • S.psi (.some x y hxy)) (q • S.psi (.some x y hxy)) (S.inc P)) *
          rho L E (lineVal ((N + q) • S.psi (.some x y hxy)) (m • S.psi (.some x y hxy)) (S.inc P)) := by
  have hQ0 : Point.some x y hxy ≠ 0 := Point.some_ne_zero _
  generalize hQd : Point.some x y hxy = Q at hQ hQ0 ⊢
  have hQc : ProjRep (⟨x, y, 1⟩ : Coord3 (Fp2 K β)) Q := by
    rw [← hQd]; exact ⟨one_ne_zero, by simp, by simp⟩
  have F := S.bn_fused hh h2 h3' h3 h4 hw kill hP hQ hQ0 hQc rfl hN hsq hev
  obtain ⟨R, cs, f, e1, -, e2, hR, hf⟩ := F.loop hN1 k ⟨x, y, 1⟩ [] 1 hk ⟨by rw [one_smul]; exact hQc, MInv.one S hQ⟩
  -- the two Frobenius images
  have n1 : q • Q ≠ 0 := by
    rw [← natCast_zsmul]; exact S.smul_ne_zero_of_lt hQ hQ0 d0
  have r1 : ProjRep Q1 (q • Q) := by
    rw [← hQd] at hQ ⊢
    obtain ⟨h', e⟩ := S.mulByQ hQ
    rw [e, hQ1]; exact ⟨one_ne_zero, by simp, by simp⟩
  have hmQ : m • Q = -(q • (q • Q)) := by
    have : ((m : ℤ) + q * q) • Q = 0 := by
      rw [← S.order_of_mem hQ hQ0] at hm
      refine addOrderOf_dvd_iff_zsmul_eq_zero.1 ?_
      have := (Int.modEq_iff_dvd.1 hm)
      have h' := dvd_neg.2 this
      have h2 : -(-((q : ℤ) * q) - m) = m + q * q := by ring
      rw [h2] at h'
      exact h'
    rw [add_zsmul, mul_zsmul, natCast_zsmul, natCast_zsmul, natCast_zsmul] at this
    exact eq_neg_of_add_eq_zero_left this
  have r2 : ProjRep Q2 (m • Q) := by
    rw [hmQ]
    rw [← hQd] at hQ ⊢
    obtain ⟨h', e⟩ := S.mulByQ hQ
    have hQ' : Point.some _ _ h' ∈ AddSubgroup.zmultiples g := by
      rw [← e]; exact AddSubgroup.nsmul_mem _ hQ _
    obtain ⟨h'', e'⟩ := S.mulByQ hQ'
    obtain ⟨h3, e3⟩ := weier_neg h''
    rw [e, e', e3, hQ2]; exact ⟨one_ne_zero, by simp, by simp⟩
  have n2 : N • Q ≠ 0 := S.nsmul_ne hQ hQ0 hN1 hN
  have n3 : N • Q ≠ q • Q := by
    intro h
    refine S.smul_ne_zero_of_lt hQ hQ0 d1 ?_
    rw [sub_smul, natCast_zsmul, natCast_zsmul, h, sub_self]
  have n4 : N • Q + q • Q ≠ 0 := by
    intro h
    refine S.smul_ne_zero_of_lt hQ hQ0 d2 ?_
    rw [add_smul, natCast_zsmul, natCast_zsmul, h]
  have n5 : m • Q ≠ 0 := by
    rw [← natCast_zsmul]; exact S.smul_ne_zero_of_lt hQ hQ0 d3
  have n6 : N • Q + q • Q ≠ m • Q := by
    intro h
    refine S.smul_ne_zero_of_lt hQ hQ0 d4 ?_
    rw [sub_smul, add_smul, natCast_zsmul, natCast_zsmul, natCast_zsmul, h, sub_self]
  have n7 : N • Q + q • Q + m • Q ≠ 0 := by
    intro h
    refine S.smul_ne_zero_of_lt hQ hQ0 d5 ?_
    rw [add_smul, add_smul, natCast_zsmul, natCast_zsmul, natCast_zsmul, h]
  obtain ⟨⟨p1, c, e, hl⟩, -⟩ := C50_12_add A Q1 R _ _ n2 n1 n3 hR r1 (by rw [hQ1])
  have v1 := S.bnElt_eq h3 h4 hw kill hP n2 n1 n4 e hl
  obtain ⟨⟨p2, c', e', hl'⟩, -⟩ := C50_12_add A Q2 _ _ _ n4 n5 n6 p1 r2 (by rw [hQ2])
  have v2 := S.bnElt_eq h3 h4 hw kill hP n4 n5 n7 e' hl'
  refine ⟨R, cs, f, e1, e2 _ (by rw [List.append_assoc]; exact List.prefix_append _ _), ?_⟩
  rw [hev, hev, mul_pow, mul_pow, v1, v2, hf, add_smul, map_add, map_nsmul, map_nsmul, map_nsmul]

/-- The pairing of bls12_381, before the inversion and the final exponentiation. -/
theorem bls_value (hh : A.twoInv = 2⁻¹) (h2 : (2 : K) ≠ 0) (h3' : (3 : K) ≠ 0) {w2 w3 : L}
    (h3 : w3 * w3 = τ A.twist) (hx : cx * w2 = 1) (hy : cy * w3 = 1) (hξ : A.twist ≠ 0)
    (kill : ∀ s t, s ≠ 0 ∨ t ≠ 0 → (τ s + τ t * w3) ^ E = 1) (hP : AffCoord P x0 y0)
    {x y : Fp2 K β} {hxy : (sw 0 A.twistB).Nonsingular x y} (hQ : Point.some x y hxy ∈ AddSubgroup.zmultiples g)
    {N k : ℕ} (hN1 : 1 ≤ N) (hN : N < r) (hk : N < 2 ^ k) {sq : L → L} {ev : EllCoeffs (Fp2 K β) → L → L}
    (hsq : ∀ f, sq f = f * f) (hev : ∀ c f, ev c f = f * blsElt ι τ w3 (w2 * w3) x0 y0 c) :
    ∃ R cs f, ateLoop N.testBit (genPre A.blsDouble (A.blsAdd ⟨x, y, 1⟩)) k false (⟨x, y, 1⟩, []) = .ok (R, cs) ∧
      ateLoop N.testBit (genMil sq ev cs) k false (1, 0) = .ok (f, cs.length) ∧
      f ^ E = millerVal (rho L E) N (S.psi (.some x y hxy)) (S.inc P) := by
  have hQ0 : Point.some x y hxy ≠ 0 := Point.some_ne_zero _
  generalize hQd : Point.some x y hxy = Q at hQ hQ0 ⊢
  have hQc : ProjRep (⟨x, y, 1⟩ : Coord3 (Fp2 K β)) Q := by
    rw [← hQd]; exact ⟨one_ne_zero, by simp, by simp⟩
  have F := S.bls_fused hh h2 h3' h3 hx hy hξ kill hP hQ hQ0 hQc rfl hN hsq hev
  obtain ⟨R, cs, f, e1, -, e2, hR, hf⟩ := F.loop hN1 k ⟨x, y, 1⟩ [] 1 hk ⟨by rw [one_smul]; exact hQc, MInv.one S hQ⟩
  exact ⟨R, cs, f, e1, e2 _ (List.prefix_refl _), hf⟩

end WAteSetup
end Libff
