import Verif.Lemmas.AteMntPairing

/-!
# The affine Miller loops of mnt4 and mnt6 compute Miller functions
-/
namespace Libff
set_option linter.unusedSectionVars false
open WeierstrassCurve Affine

/-! ## The digits -/

/-- The digits after the leading one. -/
def nafTail : List Int → List Int
  | [] => []
  | d :: ds => if d = 0 then nafTail ds else ds

/-- What the digits do to a multiplier. -/
def nafEnd (n : ℕ) : List Int → ℕ
  | [] => n
  | d :: ds => nafEnd (2 * (n : ℤ) + d).toNat ds

/-- The digits are 0, 1 and -1, and no multiple on the way is exceptional. -/
def nafOk (r n : ℕ) : List Int → Bool
  | [] => true
  | d :: ds => decide (1 ≤ n) && decide (2 * n + 1 < r) && (d == 0 || d == 1 || d == -1) && nafOk r (2 * (n : ℤ) + d).toNat ds

theorem nafLoop_tail {σ : Type*} (step : Int → σ → Outcome σ) : ∀ (ds : List Int) (s : σ),
    AteMnt.nafLoop step ds false s = AteMnt.nafLoop step (nafTail ds) true s
  | [], s => rfl
  | d :: ds, s => by
    rw [AteMnt.nafLoop, if_pos rfl, nafTail]
    by_cases h : d = 0
    · rw [if_pos h, show decide (d ≠ 0) = false by simpa using h]
      exact nafLoop_tail step ds s
    · rw [if_neg h, show decide (d ≠ 0) = true by simpa using h]

variable {F : Type*} [Field F] [DecidableEq F] {a₂ a₄ a₆ : F}

/-- Subtraction of a point. -/
theorem millerVal_sub {ρ : F →* F} {G H : AddSubgroup (weier a₂ a₄ a₆).Point} (h : Sep ρ G H) {Q P : (weier a₂ a₄ a₆).Point} (hQ : Q ∈ G)
    (hP : P ∈ H) (n : ℕ) : millerVal ρ n Q P = millerVal ρ (n + 1) Q P * ρ (lineVal ((n + 1) • Q) (-Q) P) := by
  have hc := h.cocycle (nsmul_mem hQ n) hQ (neg_mem hQ) hP
  rw [add_neg_cancel, h.line_degenerate hQ (neg_mem hQ) hP (by simp), h.line_degenerate (nsmul_mem hQ n) (zero_mem G) hP (by simp), one_mul,
    ← succ_nsmul] at hc
  rw [millerVal_succ, mul_assoc, hc, mul_one]

/-- The tangent of the affine loop. -/
theorem affine_tangent (h2 : (2 : F) ≠ 0) {x y : F} {h : (sw a₄ a₆).Nonsingular x y}
    (hAA : Point.some x y h + Point.some x y h ≠ 0) {γ : F} (hγ : γ = (3 * x ^ 2 + a₄) * (2 * y)⁻¹) :
    2 * y ≠ 0 ∧ (∃ h', Point.some x y h + Point.some x y h = .some (γ ^ 2 - (x + x)) (γ * (x - (γ ^ 2 - (x + x))) - y) h') ∧
      IsLine (Point.some x y h) (Point.some x y h) (γ * x - y) 1 (-γ) := by
  have hy : y ≠ 0 := by
    rintro rfl
    exact hAA (weier_add_inv neg_zero.symm)
  have hγ' : γ = (3 * x ^ 2 + 2 * 0 * x + a₄) / (2 * y) := by rw [hγ]; field_simp; ring
  refine ⟨mul_ne_zero h2 hy, ?_, 1, one_ne_zero, fun x' y' => ?_⟩
  · exact weier_dbl h2 hy (by rw [← hγ']; ring) (by rw [← hγ'])
  · rw [lineAt_tangent h2 hy, ← hγ']
    ring

/-- The chord of the affine loop. -/
theorem affine_chord {x y x₂ y₂ : F} {h : (sw a₄ a₆).Nonsingular x y} {h₂ : (sw a₄ a₆).Nonsingular x₂ y₂}
    (hne : Point.some x y h ≠ Point.some x₂ y₂ h₂) (hs : Point.some x y h + Point.some x₂ y₂ h₂ ≠ 0) {γ : F}
    (hγ : γ = (y - y₂) * (x - x₂)⁻¹) :
    x - x₂ ≠ 0 ∧ (∃ h', Point.some x y h + Point.some x₂ y₂ h₂ = .some (γ ^ 2 - (x + x₂)) (γ * (x - (γ ^ 2 - (x + x₂))) - y) h') ∧
      IsLine (Point.some x y h) (Point.some x₂ y₂ h₂) (γ * x₂ - y₂) 1 (-γ) := by
  have hx : x ≠ x₂ := by
    rintro rfl
    by_cases hy : y = y₂
    · subst hy; exact hne rfl
    · exact hs (weier_add_inv (weier_y_of_x h h₂ hy))
  have hx' := sub_ne_zero.2 hx
  have hγ' : γ = (y₂ - y) / (x₂ - x) := by
    rw [hγ, ← neg_sub y₂ y, ← neg_sub x₂ x, ← div_eq_mul_inv, neg_div_neg_eq]
  refine ⟨hx', ?_, 1, one_ne_zero, fun x' y' => ?_⟩
  · exact weier_add_of_ne hx (by rw [← hγ']; ring) (by rw [← hγ'])
  · rw [lineAt_of_X_ne hx, ← div_eq_mul_inv] at *
    rw [hγ]
    field_simp
    ring

section
variable {K T : Type} [Field K] [DecidableEq K] [Squared K] [LawfulSquared K] [InverseO K] [LawfulInverse K]
  [Field T] [DecidableEq T] [Squared T] [LawfulSquared T] [InverseO T] [LawfulInverse T] {nr : T → T} {u : T} [MulBy nr u]
  [Fact (¬ IsSquare u)]

namespace AteMnt
variable {A : AteMnt K T nr} {ε : K →+* T} {r : ℕ} {a b : K} {b' : T} {cx cy : Quad T nr} {qX qY : T} {q E : ℕ}
  {g : (sw A.twistA b').Point}
  (S : AteSetup (L := Quad T nr) ((tau (nr := nr)).comp ε) tau a b A.twistA b' cx cy qX qY q r E g)

/-- The value of a line. -/
def affL (A : AteMnt K T nr) (x0 y0 : K) (γ c : T) : Quad T nr :=
  ⟨A.scale y0 (squared A.twist), A.scale (-x0) (γ * A.twist) + c⟩

theorem eltAff (M : MntParams A ε u r) (W : MntRoots (L := Quad T nr) tau u cx cy Quad.gen E) {B C : (sw A.twistA b').Point} (hB : B ≠ 0)
    (hC : C ≠ 0) (hBC : B + C ≠ 0) {γ c : T} (h : IsLine B C c 1 (-γ)) {x0 y0 : K} (hP : (sw a b).Nonsingular x0 y0) :
    affL A x0 y0 γ c ^ E = rho (Quad T nr) E (lineVal (S.psi B) (S.psi C) (S.inc (.some x0 y0 hP))) := by
  have hu := W.hu
  refine S.line_eval hB hC hBC h hP (c := tau u * tau u) (by rw [mul_pow, S.killT u hu, one_mul]) ?_
  have hu' : (tau u : Quad T nr) ≠ 0 := (map_ne_zero tau).2 hu
  have hw := W.w_ne
  have ex : cx = (tau u)⁻¹ := eq_inv_of_mul_eq_one_left W.hx
  have ey : cy = (tau u * Quad.gen)⁻¹ := eq_inv_of_mul_eq_one_left W.hy
  rw [affL, tau_add, ex, ey]
  simp only [M.scale, M.twist, LawfulSquared.squared_eq, RingHom.comp_apply, map_mul, map_add, map_neg, map_one]
  have hw2 := W.hw
  generalize (Quad.gen : Quad T nr) = w at *
  rw [← hw2]
  field_simp
  ring

/-- The two loops, on a point of the twist. -/
theorem affine_loops (M : MntParams A ε u r) (W : MntRoots (L := Quad T nr) tau u cx cy Quad.gen E)
    (hm : ∀ (y : K) (t : T) (f : Quad T nr), A.mulSparse f ⟨A.scale y (squared A.twist), t⟩ = .ok (f * ⟨A.scale y (squared A.twist), t⟩))
    {x0 y0 : K} (hP : (sw a b).Nonsingular x0 y0) {x y : T} {hxy : (sw A.twistA b').Nonsingular x y}
    (hQ : Point.some x y hxy ∈ AddSubgroup.zmultiples g) : ∀ (ds : List Int) (n : ℕ), 1 ≤ n → nafOk r n ds = true →
    ∀ (RX RY : T) (cs : List (MntAffineCoeffs T)) (f : Quad T nr) (hR : ∃ h, n • Point.some x y hxy = .some RX RY h)
      (hf : S.MInv (.some x0 y0 hP) (.some x y hxy) n f),
    ∃ RX' RY' es f', nafLoop (A.affinePrecompStep x y) ds true (RX, RY, cs) = .ok (RX', RY', cs ++ es) ∧
      (∀ pq : MntAffineG2 T, pq.QX = x → pq.QY = y → cs ++ es <+: pq.coeffs →
        nafLoop (A.affineMillerStep ⟨x0, y0, A.scale y0 (squared A.twist)⟩ pq) ds true (f, cs.length) = .ok (f', (cs ++ es).length)) ∧
      S.MInv (.some x0 y0 hP) (.some x y hxy) (nafEnd n ds) f'
  | [], n, h1, hok, RX, RY, cs, f, hR, hf => ⟨RX, RY, [], f, by simp [nafLoop], fun pq _ _ _ => by simp [nafLoop], hf⟩
  | d :: ds, n, h1, hok, RX, RY, cs, f, hR, hf => by
    simp only [nafOk, Bool.and_eq_true, decide_eq_true_eq, Bool.or_eq_true, beq_iff_eq] at hok
    obtain ⟨⟨⟨-, hr⟩, hd⟩, hok⟩ := hok
    have hQ0 : Point.some x y hxy ≠ 0 := Point.some_ne_zero _
    have small : ∀ k : ℕ, 1 ≤ k → k < r → k • Point.some x y hxy ≠ 0 := fun k hk hkr => by
      have := S.smul_ne_zero_of_lt hQ hQ0 (n := (k : ℤ)) (fun hd => by
        have := Nat.le_of_dvd hk (Int.natCast_dvd_natCast.1 hd)
        omega)
      rwa [natCast_zsmul] at this
    obtain ⟨hn, eR⟩ := hR
    have e2 : (2 * n) • Point.some x y hxy = n • Point.some x y hxy + n • Point.some x y hxy := by rw [two_mul, add_smul]
    have h2n := small (2 * n) (by omega) (by omega)
    rw [e2, eR] at h2n
    obtain ⟨γ, hγ⟩ : ∃ γ, γ = (3 * RX ^ 2 + A.twistA) * (2 * RY)⁻¹ := ⟨_, rfl⟩
    obtain ⟨hy2, ⟨hD, eD⟩, lD⟩ := affine_tangent M.two h2n hγ
    obtain ⟨DX, hDX⟩ : ∃ DX, DX = γ ^ 2 - (RX + RX) := ⟨_, rfl⟩
    obtain ⟨DY, hDY⟩ : ∃ DY, DY = γ * (RX - DX) - RY := ⟨_, rfl⟩
    have hi : inverseO (RY + RY) = .ok (2 * RY)⁻¹ := by
      rw [← two_mul]; exact LawfulInverse.inverseO_ne _ hy2
    have vD := eltAff S M W (Point.some_ne_zero _) (Point.some_ne_zero _) h2n lD hP
    have hf2 := WAteSetup.MInv.double S hQ hf (by rw [eR]; exact vD)
    have eD' : ∃ h', (2 * n) • Point.some x y hxy = .some DX DY h' := by
      rw [e2, eR, eD]
      exact weier_some_eq hDX (by rw [hDY, hDX])
    obtain ⟨c1, hc1⟩ : ∃ c1 : MntAffineCoeffs T, c1 = ⟨RX, RY, γ, γ * A.twist, γ * RX⟩ := ⟨_, rfl⟩
    have γ_eq : (squared RX + squared RX + squared RX + A.twistA) * (2 * RY)⁻¹ = γ := by
      rw [hγ, LawfulSquared.squared_eq]; ring
    have m1 : ∀ t : T, A.scale (-x0) (γ * A.twist) + γ * RX - t = A.scale (-x0) (γ * A.twist) + (γ * RX - t) := fun t => by ring
    by_cases h0 : d = 0
    · subst h0
      have en : (2 * (n : ℤ) + 0).toNat = 2 * n := by omega
      rw [en] at hok
      obtain ⟨RX', RY', es, f', p1, p2, p3⟩ := affine_loops M W hm hP hQ ds (2 * n) (by omega) hok DX DY (cs ++ [c1]) _ eD' hf2
      refine ⟨RX', RY', c1 :: es, f', ?_, fun pq hx hy hC => ?_, ?_⟩
      · rw [nafLoop, if_neg (by simp), affinePrecompStep]
        simp only [hi, Outcome.bind, γ_eq, ne_eq, not_true_eq_false, if_false]
        rw [LawfulSquared.squared_eq γ, ← pow_two, ← hDX, ← hDY, ← hc1, p1, List.append_assoc]
        rfl
      · rw [nafLoop, if_neg (by simp), affineMillerStep]
        simp only [vecAt_prefix0 hC rfl, Outcome.bind, hc1, m1, hm, ne_eq, not_true_eq_false, if_false]
        have := p2 pq hx hy (by rw [List.append_assoc]; exact hC)
        rw [List.length_append, List.length_singleton] at this
        rw [LawfulSquared.squared_eq f]
        refine this.trans ?_
        rw [List.append_assoc, hc1]; rfl
      · rw [nafEnd, en]; exact p3
    · obtain ⟨hDn, eDn⟩ := eD'
      have hDQ : Point.some DX DY hDn ≠ Point.some x y hxy := fun h => by
        have := small (2 * n - 1) (by omega) (by omega)
        apply this
        have e : (2 * n - 1 + 1) • Point.some x y hxy = Point.some x y hxy := by
          rw [Nat.sub_add_cancel (by omega), eDn, h]
        rwa [succ_nsmul, add_eq_right] at e
      have hDQ' : Point.some DX DY hDn + Point.some x y hxy ≠ 0 := by
        have := small (2 * n + 1) (by omega) (by omega)
        rwa [succ_nsmul, eDn] at this
      obtain ⟨hneg, eneg⟩ := weier_neg hxy
      have hx' : inverseO (DX - x) = .ok (DX - x)⁻¹ :=
        LawfulInverse.inverseO_ne _ (affine_chord hDQ hDQ' rfl).1
      rcases hd with (hd | hd) | hd
      · exact absurd hd h0
      · subst hd
        obtain ⟨δ, hδ⟩ : ∃ δ, δ = (DY - y) * (DX - x)⁻¹ := ⟨_, rfl⟩
        obtain ⟨-, ⟨hS, eS⟩, lS⟩ := affine_chord hDQ hDQ' hδ
        have vS := eltAff S M W (Point.some_ne_zero _) (Point.some_ne_zero _) hDQ' lS hP
        have hf3 := WAteSetup.MInv.add S hf2 (by rw [eDn]; exact vS)
        have en : (2 * (n : ℤ) + 1).toNat = 2 * n + 1 := by omega
        rw [en] at hok
        obtain ⟨SX, hSX⟩ : ∃ SX, SX = δ ^ 2 - (DX + x) := ⟨_, rfl⟩
        obtain ⟨SY, hSY⟩ : ∃ SY, SY = δ * (DX - SX) - DY := ⟨_, rfl⟩
        have eS' : ∃ h', (2 * n + 1) • Point.some x y hxy = .some SX SY h' := by
          rw [succ_nsmul, eDn, eS]
          exact weier_some_eq hSX (by rw [hSY, hSX])
        obtain ⟨c2, hc2⟩ : ∃ c2 : MntAffineCoeffs T, c2 = ⟨DX, DY, δ, δ * A.twist, δ * x⟩ := ⟨_, rfl⟩
        obtain ⟨RX', RY', es, f', p1, p2, p3⟩ := affine_loops M W hm hP hQ ds (2 * n + 1) (by omega) hok SX SY (cs ++ [c1, c2]) _ eS' hf3
        refine ⟨RX', RY', c1 :: c2 :: es, f', ?_, fun pq hx hy hC => ?_, ?_⟩
        · rw [nafLoop, if_neg (by simp), affinePrecompStep]
          simp only [hi, Outcome.bind, γ_eq, ne_eq, one_ne_zero, not_false_eq_true, if_true, zero_lt_one, gt_iff_lt]
          rw [LawfulSquared.squared_eq γ, ← pow_two, ← hDX, ← hDY, ← hc1, hx']
          simp only [Outcome.map, Outcome.bind]
          rw [← hδ, LawfulSquared.squared_eq δ, ← pow_two, ← hSX, ← hSY, ← hc2, List.append_assoc cs [c1] [c2]]
          refine p1.trans ?_
          rw [List.append_assoc]; rfl
        · rw [nafLoop, if_neg (by simp), affineMillerStep]
          simp only [vecAt_prefix0 hC rfl, vecAt_prefix hC (i := 1) rfl, Outcome.bind, hc1, hc2, m1, hm, ne_eq, one_ne_zero,
            not_false_eq_true, if_true, zero_lt_one, gt_iff_lt, hy, Outcome.map, add_sub_assoc]
          have := p2 pq hx hy (by rw [List.append_assoc]; exact hC)
          rw [List.length_append] at this
          rw [LawfulSquared.squared_eq f]
          refine this.trans ?_
          rw [List.append_assoc, hc1, hc2]; rfl
        · rw [nafEnd, en]; exact p3
      · subst hd
        have hDQ2 : Point.some DX DY hDn ≠ Point.some x (-y) hneg := fun h => by
          rw [h, ← eneg, neg_add_cancel] at hDQ'
          exact hDQ' rfl
        have hDQ2' : Point.some DX DY hDn + Point.some x (-y) hneg ≠ 0 := fun h => by
          rw [← eneg, add_neg_eq_zero] at h
          exact hDQ h
        obtain ⟨δ, hδ⟩ : ∃ δ, δ = (DY - -y) * (DX - x)⁻¹ := ⟨_, rfl⟩
        obtain ⟨-, ⟨hS, eS⟩, lS⟩ := affine_chord hDQ2 hDQ2' hδ
        have vS := eltAff S M W (Point.some_ne_zero _) (Point.some_ne_zero _) hDQ2' lS hP
        obtain ⟨m, hmn⟩ : ∃ m, 2 * n = m + 1 := ⟨2 * n - 1, by omega⟩
        have hf3 : S.MInv (.some x0 y0 hP) (.some x y hxy) m (f * f * affL A x0 y0 γ (γ * RX - RY) * affL A x0 y0 δ (δ * x - -y)) := by
          unfold WAteSetup.MInv at hf2 ⊢
          rw [mul_pow, hf2, vS, millerVal_sub S.sep (S.psi_mem hQ) (S.inc_mem _) m, hmn, ← eDn, ← eneg, hmn, map_nsmul, map_neg]
        have en : (2 * (n : ℤ) + -1).toNat = m := by omega
        rw [en] at hok
        obtain ⟨SX, hSX⟩ : ∃ SX, SX = δ ^ 2 - (DX + x) := ⟨_, rfl⟩
        obtain ⟨SY, hSY⟩ : ∃ SY, SY = δ * (DX - SX) - DY := ⟨_, rfl⟩
        have eS' : ∃ h', m • Point.some x y hxy = .some SX SY h' := by
          have e : m • Point.some x y hxy = (2 * n) • Point.some x y hxy + -Point.some x y hxy := by
            rw [hmn, succ_nsmul, add_neg_cancel_right]
          rw [e, eDn, eneg, eS]
          exact weier_some_eq hSX (by rw [hSY, hSX])
        obtain ⟨c2, hc2⟩ : ∃ c2 : MntAffineCoeffs T, c2 = ⟨DX, DY, δ, δ * A.twist, δ * x⟩ := ⟨_, rfl⟩
        obtain ⟨RX', RY', es, f', p1, p2, p3⟩ := affine_loops M W hm hP hQ ds m (by omega) hok SX SY (cs ++ [c1, c2]) _ eS' hf3
        rw [sub_neg_eq_add] at hδ p2
        refine ⟨RX', RY', c1 :: c2 :: es, f', ?_, fun pq hx hy hC => ?_, ?_⟩
        · rw [nafLoop, if_neg (by simp), affinePrecompStep]
          simp only [hi, Outcome.bind, γ_eq, ne_eq, neg_eq_zero, one_ne_zero, not_false_eq_true, if_true, gt_iff_lt, Left.neg_pos_iff,
            not_lt.2 zero_le_one, if_false]
          rw [LawfulSquared.squared_eq γ, ← pow_two, ← hDX, ← hDY, ← hc1, hx']
          simp only [Outcome.map, Outcome.bind]
          rw [← hδ, LawfulSquared.squared_eq δ, ← pow_two, ← hSX, ← hSY, ← hc2, List.append_assoc cs [c1] [c2]]
          refine p1.trans ?_
          rw [List.append_assoc]; rfl
        · rw [nafLoop, if_neg (by simp), affineMillerStep]
          simp only [vecAt_prefix0 hC rfl, vecAt_prefix hC (i := 1) rfl, Outcome.bind, hc1, hc2, m1, hm, ne_eq, neg_eq_zero, one_ne_zero,
            not_false_eq_true, if_true, gt_iff_lt, Left.neg_pos_iff, not_lt.2 zero_le_one, if_false, hy, Outcome.map, add_assoc]
          have := p2 pq hx hy (by rw [List.append_assoc]; exact hC)
          rw [List.length_append] at this
          rw [LawfulSquared.squared_eq f]
          refine this.trans ?_
          rw [List.append_assoc, hc1, hc2]; rfl
        · rw [nafEnd, en]; exact p3

theorem ateVal_neg (hn : A.loopNeg = true) (P : (sw a b).Point) (Q : (sw A.twistA b').Point) :
    (ateVal S P Q)⁻¹ = millerVal (rho (Quad T nr) E) (val A.loopCount) (S.psi Q) (S.inc P) := by
  rw [ateVal, if_pos hn, inv_inv]

/-- What the loop count's digits have to satisfy. -/
def NafCheck (r : ℕ) (loopCount : List Limb) : Bool :=
  match findWnaf 1 loopCount with
  | .ok naf => nafOk r 1 (nafTail naf.reverse) && nafEnd 1 (nafTail naf.reverse) == val loopCount
  | _ => false

theorem affine_value (M : MntParams A ε u r) (W : MntRoots (L := Quad T nr) tau u cx cy Quad.gen E)
    (hm : ∀ (y : K) (t : T) (f : Quad T nr), A.mulSparse f ⟨A.scale y (squared A.twist), t⟩ = .ok (f * ⟨A.scale y (squared A.twist), t⟩))
    (hc : NafCheck r A.loopCount = true)
    {x0 y0 : K} (hP : (sw a b).Nonsingular x0 y0) {p : Coord3 K} {z0 : K} (hp : Proj.toAffine p = .ok ⟨x0, y0, z0⟩)
    {x y : T} {hxy : (sw A.twistA b').Nonsingular x y} (hQ : Point.some x y hxy ∈ AddSubgroup.zmultiples g)
    {Q : Coord3 T} {z : T} (hQc : Proj.toAffine Q = .ok ⟨x, y, z⟩) :
    ∃ f, ((A.affinePrecomputeG1 p).bind fun prec_P => (A.affinePrecomputeG2 Q).bind fun prec_Q => A.affineMillerLoop prec_P prec_Q) = .ok f ∧
      f ^ E = millerVal (rho (Quad T nr) E) (val A.loopCount) (S.psi (.some x y hxy)) (S.inc (.some x0 y0 hP)) := by
  unfold NafCheck at hc
  cases hn : findWnaf 1 A.loopCount with
  | ok naf =>
    rw [hn] at hc
    simp only [Bool.and_eq_true, beq_iff_eq] at hc
    obtain ⟨RX', RY', es, f', p1, p2, p3⟩ := affine_loops S M W hm hP hQ (nafTail naf.reverse) 1 le_rfl hc.1 x y [] 1
      ⟨hxy, one_smul _ _⟩ (WAteSetup.MInv.one S hQ)
    rw [hc.2] at p3
    refine ⟨f', ?_, p3⟩
    simp only [affinePrecomputeG1, hp, Outcome.map, Outcome.bind, affinePrecomputeG2, hQc, hn, nafLoop_tail, p1, affineMillerLoop]
    have := p2 ⟨x, y, [] ++ es⟩ rfl rfl (List.prefix_refl _)
    rw [List.length_nil] at this
    rw [this]
  | abort => rw [hn] at hc; cases hc
  | ub => rw [hn] at hc; cases hc

/-- The value when the loop count is meant to be negative. -/
noncomputable def affVal (P : (sw a b).Point) (Q : (sw A.twistA b').Point) : Quad T nr := (ateVal S P Q)⁻¹

theorem affVal_eq (P : (sw a b).Point) (Q : (sw A.twistA b').Point) : affVal S P Q = (ateVal S P Q)⁻¹ := rfl

theorem affine_value_neg (hn : A.loopNeg = true) (M : MntParams A ε u r) (W : MntRoots (L := Quad T nr) tau u cx cy Quad.gen E)
    (hm : ∀ (y : K) (t : T) (f : Quad T nr), A.mulSparse f ⟨A.scale y (squared A.twist), t⟩ = .ok (f * ⟨A.scale y (squared A.twist), t⟩))
    (hc : NafCheck r A.loopCount = true)
    {x0 y0 : K} (hP : (sw a b).Nonsingular x0 y0) {p : Coord3 K} {z0 : K} (hp : Proj.toAffine p = .ok ⟨x0, y0, z0⟩)
    {x y : T} {hxy : (sw A.twistA b').Nonsingular x y} (hQ : Point.some x y hxy ∈ AddSubgroup.zmultiples g)
    {Q : Coord3 T} {z : T} (hQc : Proj.toAffine Q = .ok ⟨x, y, z⟩) :
    ∃ f, ((A.affinePrecomputeG1 p).bind fun prec_P => (A.affinePrecomputeG2 Q).bind fun prec_Q => A.affineMillerLoop prec_P prec_Q) = .ok f ∧
      f ^ E = affVal S (.some x0 y0 hP) (.some x y hxy) := by
  obtain ⟨f, h, hf⟩ := affine_value S M W hm hc hP hp hQ hQc
  exact ⟨f, h, by rw [hf, affVal, ateVal_neg S hn]⟩

end AteMnt
end
end Libff
