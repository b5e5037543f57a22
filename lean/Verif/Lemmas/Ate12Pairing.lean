import Verif.Lemmas.Ate12Bilin
import Verif.Lemmas.AteTower12
import Verif.Lemmas.AteSetup12
import Verif.Lemmas.Bigint
import Verif.Lemmas.Bilinear
import Verif.Spec.Pairing

/-!
# The pairing functions of alt_bn128 and bls12_381 compute Miller functions

The conditions on the field `L` of the values are collected in structures over an arbitrary field, so that only the proofs of
these structures look into the tower.
-/
namespace Libff
set_option synthInstance.maxSize 2000
open WeierstrassCurve Affine

theorem Jac.affCoord {K : Type} [Field K] [DecidableEq K] [Squared K] [LawfulSquared K] [InverseO K] [LawfulInverse K] {b : K}
    {p : Coord3 K} {P : (sw 0 b).Point} (h : JacRep p P) : ∃ x y z, Jac.toAffine p = .ok ⟨x, y, z⟩ ∧ AffCoord P x y := by
  rcases Jac.toAffine_rep h with ⟨rfl, e⟩ | ⟨x, y, hP, rfl, e⟩
  · exact ⟨_, _, _, e, rfl, rfl⟩
  · exact ⟨_, _, _, e, rfl, rfl⟩

/-- `sq` squares. -/
def SqSpec {L : Type*} [Field L] (sq : L → L) : Prop := ∀ f, sq f = f * f

/-- `ev` multiplies by `elt`. -/
def EvSpec {L C : Type*} [Field L] (ev : C → L → L) (elt : C → L) : Prop := ∀ c f, ev c f = f * elt c

/-- The roots of the twist that alt_bn128 uses. -/
structure BnRoots {T L : Type*} [Field T] [Field L] (τ : T →+* L) (t : T) (cx cy w4 : L) (E : ℕ) : Prop where
  h3 : cy * cy = τ t
  h4 : cx * w4 = τ t
  kill : ∀ s t, s ≠ 0 ∨ t ≠ 0 → (τ s + τ t * cy) ^ E = 1

theorem BnRoots.hw {T L : Type*} [Field T] [Field L] {τ : T →+* L} {t : T} {cx cy w4 : L} {E : ℕ} (h : BnRoots τ t cx cy w4 E) :
    cy ^ E = 1 := by
  have := h.kill 0 1 (Or.inr one_ne_zero)
  rwa [map_zero, map_one, zero_add, one_mul] at this

/-- The roots of the twist that bls12_381 uses. -/
structure BlsRoots {T L : Type*} [Field T] [Field L] (τ : T →+* L) (t : T) (cx cy w2 w3 : L) (E : ℕ) : Prop where
  h3 : w3 * w3 = τ t
  hx : cx * w2 = 1
  hy : cy * w3 = 1
  ht : t ≠ 0
  kill : ∀ s t, s ≠ 0 ∨ t ≠ 0 → (τ s + τ t * w3) ^ E = 1

/-- The arithmetic of the loop count of a BN curve. -/
structure BnArith (r q N m k : ℕ) : Prop where
  pos : 1 ≤ N
  lt : N < r
  bits : N < 2 ^ k
  hm : (m : ℤ) ≡ -(q * q) [ZMOD r]
  d0 : ¬ (r : ℤ) ∣ q
  d1 : ¬ (r : ℤ) ∣ N - q
  d2 : ¬ (r : ℤ) ∣ N + q
  d3 : ¬ (r : ℤ) ∣ m
  d4 : ¬ (r : ℤ) ∣ N + q - m
  d5 : ¬ (r : ℤ) ∣ N + q + m

/-- `alt_bn128_ate_miller_loop` with a positive loop count, over an arbitrary field. -/
def genBnMiller {L C : Type*} (bit : ℕ → Bool) (k : ℕ) (sq : L → L) (ev : C → L → L) (one : L) (cs : List C) : Outcome L :=
  (ateLoop bit (genMil sq ev cs) k false (one, 0)).bind fun s =>
  (vecAt cs s.2).bind fun c =>
  let f := ev c s.1
  (vecAt cs (s.2 + 1)).map fun c => ev c f

theorem genBnMiller_eq {L C : Type*} {bit : ℕ → Bool} {k : ℕ} {sq : L → L} {ev : C → L → L} {one : L} {cs : List C} {c1 c2 : C} {f : L}
    (h : ateLoop bit (genMil sq ev (cs ++ [c1] ++ [c2])) k false (one, 0) = .ok (f, cs.length)) :
    genBnMiller bit k sq ev one (cs ++ [c1] ++ [c2]) = .ok (ev c2 (ev c1 f)) := by
  have e1 : vecAt (cs ++ [c1] ++ [c2]) cs.length = .ok c1 :=
    vecAt_prefix0 (cs := cs) (e := [c1, c2]) (C := cs ++ [c1] ++ [c2]) (by simp) rfl
  have e2 : vecAt (cs ++ [c1] ++ [c2]) (cs.length + 1) = .ok c2 :=
    vecAt_prefix (cs := cs) (e := [c1, c2]) (C := cs ++ [c1] ++ [c2]) (by simp) rfl
  simp only [genBnMiller, h, Outcome.bind, e1, e2, Outcome.map]

section
variable {K L : Type*} [Field K] [DecidableEq K] [Squared K] [LawfulSquared K] {β : K} {ξ : Fp2 K β} [Fact (¬ IsSquare β)]
  [Field L] [DecidableEq L]

/-- The parameters of alt_bn128's pairing, as far as they do not concern the tower. -/
structure BnParams (A : Ate12 K β ξ) (qX qY : Fp2 K β) (q : ℕ) : Prop where
  half : A.twoInv = 2⁻¹
  two : (2 : K) ≠ 0
  three : (3 : K) ≠ 0
  neg : A.loopNeg = false
  mulByQ : ∀ X Y, A.mulByQ ⟨X, Y, 1⟩ = ⟨qX * X ^ q, qY * Y ^ q, 1⟩

variable {A : Ate12 K β ξ} {ι : K →+* L} {τ : Fp2 K β →+* L} {b : K} {cx cy : L} {qX qY : Fp2 K β} {q r E : ℕ}
  {g : (sw 0 A.twistB).Point} (S : AteSetup ι τ 0 b 0 A.twistB cx cy qX qY q r E g)
  {P : (sw 0 b).Point} {x0 y0 : K}

theorem Ate12.precompStep_eq (dbl : Coord3 (Fp2 K β) → Coord3 (Fp2 K β) × EllCoeffs (Fp2 K β))
    (add : Coord3 (Fp2 K β) → Coord3 (Fp2 K β) → Coord3 (Fp2 K β) × EllCoeffs (Fp2 K β)) (Qc : Coord3 (Fp2 K β)) :
    Ate12.precompStep dbl add Qc = genPre dbl (add Qc) := rfl

theorem testBit_fun (a : List Limb) : testBit a = (val a).testBit := funext (testBit_eq a)

namespace WAteSetup

/-- The value of the pairing of alt_bn128. -/
noncomputable def bnVal (N m : ℕ) (P : (sw 0 b).Point) (Q : (sw 0 A.twistB).Point) : L :=
  millerVal (rho L E) N (S.psi Q) (S.inc P) * rho L E (lineVal (N • S.psi Q) (q • S.psi Q) (S.inc P)) *
    rho L E (lineVal ((N + q) • S.psi Q) (m • S.psi Q) (S.inc P))

theorem bn_miller [InverseO K] {w4 : L} (B : BnParams A qX qY q) (W : BnRoots τ A.twist cx cy w4 E) {m : ℕ}
    (D : BnArith r q (val A.loopCount) m (bigintMaxBits A.loopCount + 1)) {sq : L → L} {ev : EllCoeffs (Fp2 K β) → L → L}
    (hsq : SqSpec sq) (hev : EvSpec ev (bnElt ι τ cy w4 x0 y0)) (hP : AffCoord P x0 y0)
    {x y : Fp2 K β} {hxy : (sw 0 A.twistB).Nonsingular x y} (hQ : Point.some x y hxy ∈ AddSubgroup.zmultiples g)
    {Q : Coord3 (Fp2 K β)} (hQc : Jac.toAffine Q = .ok ⟨x, y, 1⟩) :
    ∃ pq f, A.bnPrecomputeG2 Q = .ok pq ∧
      genBnMiller (testBit A.loopCount) (bigintMaxBits A.loopCount + 1) sq ev 1 pq.coeffs = .ok f ∧
      f ^ E = S.bnVal (val A.loopCount) m P (.some x y hxy) := by
  obtain ⟨R, cs, f, e1, e2, e3⟩ := S.bn_value B.half B.two B.three W.h3 W.h4 W.hw W.kill hP hQ D.pos D.lt D.bits hsq hev
    D.hm D.d0 D.d1 D.d2 D.d3 D.d4 D.d5 rfl rfl
  have e4 := genBnMiller_eq e2
  rw [← testBit_fun] at e4 e1
  refine ⟨⟨x, y, _⟩, _, ?_, e4, e3⟩
  simp only [Ate12.bnPrecomputeG2, hQc, Outcome.bind, Ate12.precompStep_eq, e1, B.mulByQ, ne_eq, not_true, if_false, B.neg,
      Bool.false_eq_true]

/-- It is bilinear. -/
theorem bnVal_bilin {N m : ℕ} (hm : (m : ℤ) ≡ -(q * q) [ZMOD r]) (h : ((N + q + m : ℕ) : ℤ) ≡ -(q * q * q) [ZMOD r]) :
    BilinMap (AddSubgroup.zmultiples g) (S.bnVal N m) :=
  S.bilinMap (Good.bilin_bn S.sep S.good_q (S.good_modEq ((S.good_q.mul S.good_q).neg S.sep) hm)
    (S.good_modEq (((S.good_q.mul S.good_q).mul S.good_q).neg S.sep) h))

omit [DecidableEq L] in
/-- The final exponentiation. -/
theorem reduce {fe : L → Outcome L} (hfe : ∀ x, x ≠ 0 → fe x = .ok (x ^ E)) (hE : E ≠ 0) {o : Outcome L} {v : L}
    (ho : ∃ f, o = .ok f ∧ f ^ E = v) (hv : v ≠ 0) : o.bind fe = .ok v := by
  obtain ⟨f, rfl, rfl⟩ := ho
  refine hfe f fun h => hv ?_
  rw [h, zero_pow hE]

/-- The value of the pairing of bls12_381. -/
noncomputable def blsVal (N : ℕ) (P : (sw 0 b).Point) (Q : (sw 0 A.twistB).Point) : L :=
  (millerVal (rho L E) N (S.psi Q) (S.inc P))⁻¹

theorem blsVal_bilin {N : ℕ} (h : (N : ℤ) ≡ -q [ZMOD r]) : BilinMap (AddSubgroup.zmultiples g) (S.blsVal N) :=
  S.bilinMap (Good.bilin S.sep (S.good_modEq (S.good_q.neg S.sep) h)).inv

theorem bls_miller [InverseO K] [InverseO L] [LawfulInverse L] {w2 w3 : L} (hh : A.twoInv = 2⁻¹) (h2 : (2 : K) ≠ 0) (h3' : (3 : K) ≠ 0)
    (W : BlsRoots τ A.twist cx cy w2 w3 E) (hN1 : 1 ≤ val A.loopCount) (hN : val A.loopCount < r)
    (hk : val A.loopCount < 2 ^ (bigintMaxBits A.loopCount + 1)) {sq : L → L} {ev : EllCoeffs (Fp2 K β) → L → L}
    (hsq : SqSpec sq) (hev : EvSpec ev (blsElt ι τ w3 (w2 * w3) x0 y0)) (hP : AffCoord P x0 y0)
    {x y : Fp2 K β} {hxy : (sw 0 A.twistB).Nonsingular x y} (hQ : Point.some x y hxy ∈ AddSubgroup.zmultiples g)
    {Q : Coord3 (Fp2 K β)} (hQc : Jac.toAffine Q = .ok ⟨x, y, 1⟩)
    (hne : S.blsVal (val A.loopCount) P (.some x y hxy) ≠ 0) (hE : E ≠ 0) :
    ∃ pq f, A.blsPrecomputeG2 Q = .ok pq ∧
      ((ateLoop (testBit A.loopCount) (genMil sq ev pq.coeffs) (bigintMaxBits A.loopCount + 1) false (1, 0)).bind fun s =>
        inverseO s.1) = .ok f ∧
      f ^ E = S.blsVal (val A.loopCount) P (.some x y hxy) := by
  obtain ⟨R, cs, f, e1, e2, e3⟩ := S.bls_value hh h2 h3' W.h3 W.hx W.hy W.ht W.kill hP hQ hN1 hN hk hsq hev
  rw [← testBit_fun] at e1 e2
  have hf : f ≠ 0 := fun h => by
    rw [blsVal, ← e3, h, zero_pow hE, inv_zero] at hne
    exact hne rfl
  refine ⟨⟨x, y, cs⟩, f⁻¹, ?_, by rw [e2]; exact LawfulInverse.inverseO_ne f hf, by rw [inv_pow, e3, blsVal]⟩
  simp only [Ate12.blsPrecomputeG2, hQc, Outcome.bind, Ate12.precompStep_eq, e1, Outcome.map]

end WAteSetup
end

namespace Ate12
variable {K : Type*} [Field K] [DecidableEq K] [Squared K] [LawfulSquared K] [InverseO K] {β : K} {ξ : Fp2 K β}
  [Fact (¬ IsSquare β)] [Fact (∀ y : Fp2 K β, y * y * y ≠ ξ)] [Fact (¬ IsSquare (Cubic.gen : Fp6_3over2 K β ξ))]

theorem squared12 : SqSpec (squared : Fp12 K β ξ ξ → Fp12 K β ξ ξ) := fun f => by
  have := LawfulSquared.squared_eq f
  with_reducible_and_instances exact this

theorem bnElt_scale (x y : K) (c : EllCoeffs (Fp2 K β)) : (⟨⟨c.ell_0, 0, Quad.scale (· * ·) x c.ell_VV⟩, ⟨0, Quad.scale (· * ·) y c.ell_VW, 0⟩⟩ : Fp12 K β ξ ξ) =
    WAteSetup.bnElt (iota ξ) (tau ξ) w3 w4 x y c := by
  have h1 := line024 (ξ := ξ) c.ell_0 (Quad.scale (· * ·) y c.ell_VW) (Quad.scale (· * ·) x c.ell_VV)
  have h2 := tau_scale (ξ := ξ) y c.ell_VW
  have h3 := tau_scale (ξ := ξ) x c.ell_VV
  unfold WAteSetup.bnElt
  linear_combination h1 + w3 * h2 + w4 * h3

theorem blsElt_scale (x y : K) (c : EllCoeffs (Fp2 K β)) : (⟨⟨Quad.scale (· * ·) y c.ell_VW, 0, 0⟩, ⟨0, c.ell_0, Quad.scale (· * ·) x c.ell_VV⟩⟩ : Fp12 K β ξ ξ) =
    WAteSetup.blsElt (iota ξ) (tau ξ) w3 (w2 * w3) x y c := by
  have h1 := line045 (ξ := ξ) c.ell_0 (Quad.scale (· * ·) y c.ell_VW) (Quad.scale (· * ·) x c.ell_VV)
  have h2 := tau_scale (ξ := ξ) y c.ell_VW
  have h3 := tau_scale (ξ := ξ) x c.ell_VV
  unfold WAteSetup.blsElt
  linear_combination h1 + h2 + w2 * w3 * h3

theorem eval024 (x y : K) : EvSpec (evalCoeff Fp12.mulBy024 ⟨x, y⟩) (WAteSetup.bnElt (iota ξ) (tau ξ) w3 w4 x y) := by
  intro c f
  have h := C21_fp12_mul_by_024 K β ξ f c.ell_0 (Quad.scale (· * ·) y c.ell_VW) (Quad.scale (· * ·) x c.ell_VV)
  rw [bnElt_scale] at h
  unfold evalCoeff
  with_reducible_and_instances exact h

theorem eval045 (x y : K) : EvSpec (evalCoeff Fp12.mulBy045 ⟨x, y⟩) (WAteSetup.blsElt (iota ξ) (tau ξ) w3 (w2 * w3) x y) := by
  intro c f
  have h := C21_fp12_mul_by_045 K β ξ f c.ell_0 (Quad.scale (· * ·) y c.ell_VW) (Quad.scale (· * ·) x c.ell_VV)
  rw [blsElt_scale] at h
  unfold evalCoeff
  with_reducible_and_instances exact h

theorem bnMillerLoop_eq (A : Ate12 K β ξ) (hn : A.loopNeg = false) (x y : K) (pq : AteG2Precomp (Fp2 K β)) :
    A.bnMillerLoop ⟨x, y⟩ pq = genBnMiller (testBit A.loopCount) (bigintMaxBits A.loopCount + 1) squared (evalCoeff Fp12.mulBy024 ⟨x, y⟩)
      1 pq.coeffs := by
  unfold bnMillerLoop
  rw [hn]
  rfl

variable {A : Ate12 K β ξ} {b : K} {qX qY : Fp2 K β} {q r E : ℕ} {g : (sw 0 A.twistB).Point}

/-- `alt_bn128_ate_pairing` in terms of Miller functions. -/
theorem bn_pairing (S : AteSetup (L := Fp12 K β ξ ξ) (iota ξ) (tau ξ) 0 b 0 A.twistB w2 w3 qX qY q r E g)
    (B : BnParams A qX qY q) (W : BnRoots (L := Fp12 K β ξ ξ) (tau ξ) A.twist w2 w3 w4 E) {m : ℕ}
    (D : BnArith r q (val A.loopCount) m (bigintMaxBits A.loopCount + 1))
    {P : (sw 0 b).Point} {p : Coord3 K} {x0 y0 z0 : K} (hp : Jac.toAffine p = .ok ⟨x0, y0, z0⟩) (hP : AffCoord P x0 y0)
    {x y : Fp2 K β} {hxy : (sw 0 A.twistB).Nonsingular x y} (hQ : Point.some x y hxy ∈ AddSubgroup.zmultiples g)
    {Q : Coord3 (Fp2 K β)} (hQc : Jac.toAffine Q = .ok ⟨x, y, 1⟩) :
    ∃ f, A.bnPairing p Q = .ok f ∧ f ^ E = S.bnVal (val A.loopCount) m P (.some x y hxy) := by
  obtain ⟨pq, f, e1, e2, e3⟩ := S.bn_miller B W D squared12 (eval024 x0 y0) hP hQ hQc
  refine ⟨f, ?_, e3⟩
  simp only [bnPairing, precomputeG1, hp, Outcome.map, Outcome.bind, e1]
  rw [bnMillerLoop_eq A B.neg]
  exact e2

theorem blsMillerLoop_eq (A : Ate12 K β ξ) (hn : A.loopNeg = true) (x y : K) (pq : AteG2Precomp (Fp2 K β)) :
    A.blsMillerLoop ⟨x, y⟩ pq = (ateLoop (testBit A.loopCount) (genMil squared (evalCoeff Fp12.mulBy045 ⟨x, y⟩) pq.coeffs)
      (bigintMaxBits A.loopCount + 1) false (1, 0)).bind fun s => inverseO s.1 := by
  unfold blsMillerLoop
  rw [hn]
  rfl

/-- `bls12_381_ate_pairing` in terms of Miller functions. -/
theorem bls_pairing [LawfulInverse K] {cx cy : Fp12 K β ξ ξ}
    (S : AteSetup (L := Fp12 K β ξ ξ) (iota ξ) (tau ξ) 0 b 0 A.twistB cx cy qX qY q r E g)
    (hh : A.twoInv = 2⁻¹) (h2 : (2 : K) ≠ 0) (h3' : (3 : K) ≠ 0) (hn : A.loopNeg = true)
    (W : BlsRoots (L := Fp12 K β ξ ξ) (tau ξ) A.twist cx cy w2 w3 E) (hN1 : 1 ≤ val A.loopCount) (hN : val A.loopCount < r)
    (hk : val A.loopCount < 2 ^ (bigintMaxBits A.loopCount + 1))
    {P : (sw 0 b).Point} {p : Coord3 K} {x0 y0 z0 : K} (hp : Jac.toAffine p = .ok ⟨x0, y0, z0⟩) (hP : AffCoord P x0 y0)
    {x y : Fp2 K β} {hxy : (sw 0 A.twistB).Nonsingular x y} (hQ : Point.some x y hxy ∈ AddSubgroup.zmultiples g)
    {Q : Coord3 (Fp2 K β)} (hQc : Jac.toAffine Q = .ok ⟨x, y, 1⟩)
    (hne : S.blsVal (val A.loopCount) P (.some x y hxy) ≠ 0) (hE : E ≠ 0) :
    ∃ f, A.blsPairing p Q = .ok f ∧
      f ^ E = S.blsVal (val A.loopCount) P (.some x y hxy) := by
  obtain ⟨pq, f, e1, e2, e3⟩ := S.bls_miller hh h2 h3' W hN1 hN hk squared12 (eval045 x0 y0) hP hQ hQc hne hE
  refine ⟨f, ?_, e3⟩
  simp only [blsPairing, precomputeG1, hp, Outcome.map, Outcome.bind, e1]
  rw [blsMillerLoop_eq A hn]
  exact e2

end Ate12
end Libff
