import Verif.Lemmas.CurveNM
import Verif.Lemmas.OutcomeRel
import Verif.Model.Pairing12
import Verif.Model.PairingMnt
import Mathlib.Tactic.Ring

/-!
# Evaluating pairings inside the kernel

The pairing functions respect relations that respect the field operations, so running the model of the code over `NM p` gives
facts about the model over the library's fields.
-/
namespace Libff
set_option linter.unusedSectionVars false
set_option synthInstance.maxSize 2000

theorem ateLoop_relates {σ τ : Type} {S : σ → τ → Prop} {bit : Nat → Bool} {f : Bool → σ → Outcome σ} {g : Bool → τ → Outcome τ}
    (h : ∀ b s t, S s t → Outcome.Rel S (f b s) (g b t)) :
    ∀ n found {s t}, S s t → Outcome.Rel S (ateLoop bit f n found s) (ateLoop bit g n found t)
  | 0, _, _, _, hs => .ok hs
  | n + 1, found, _, _, hs => by
    unfold ateLoop
    exact Outcome.Rel.ite Iff.rfl (ateLoop_relates h n _ hs) ((h _ _ _ hs).bind fun hs => ateLoop_relates h n _ hs)

theorem vecAt_relates {α β : Type} {S : α → β → Prop} {v : List α} {w : List β} (h : List.Forall₂ S v w) (i : Nat) :
    Outcome.Rel S (vecAt v i) (vecAt w i) := by
  induction h generalizing i with
  | nil => exact .ub
  | cons h _ ih =>
    cases i with
    | zero => exact .ok h
    | succ i => exact ih i

/-- `R` is compatible with `inverse()`. -/
structure RelInv {K L : Type} [InverseO K] [InverseO L] (R : K → L → Prop) : Prop where
  inv : ∀ {a x}, R a x → Outcome.Rel R (inverseO a) (inverseO x)

instance NM.instInverseO {p : Nat} : InverseO (NM p) := ⟨fun a => if a = 0 then .abort else .ok (fastPow (Nat.log2 p + 1) a (p - 2))⟩

theorem fpRelInv {P : FpParams} [hP : Fact P.Valid] [Fact P.p.Prime] [DecidableEq (Fp P)] [LawfulInverse (Fp P)] : RelInv (FpRel P) := by
  refine ⟨@fun a x h => ?_⟩
  have h0 := fpRelOps.eq h fpRelOps.zero
  by_cases hx : x = 0
  · subst hx
    rw [LawfulInverse.inverseO_zero]
    show Outcome.Rel _ (if a = 0 then _ else _) _
    rw [if_pos (h0.2 rfl)]
    exact .abort
  · rw [LawfulInverse.inverseO_ne x hx]
    show Outcome.Rel _ (if a = 0 then _ else _) _
    rw [if_neg (fun e => hx (h0.1 e))]
    have h1 := fpRelOps.fastPow (Nat.log2 P.p + 1) h (P.p - 2)
    have hp : P.p - 2 < 2 ^ (Nat.log2 P.p + 1) := lt_of_le_of_lt (Nat.sub_le _ _) Nat.lt_log2_self
    rw [fastPow_eq _ x _ hp] at h1
    have e : x ^ (P.p - 2) = x⁻¹ := by
      have h2 := FiniteField.pow_card_sub_one_eq_one x hx
      rw [Fp.card] at h2
      refine eq_inv_of_mul_eq_one_left ?_
      rw [← pow_succ, ← h2]
      congr 1
      have := hP.out.one_lt
      omega
    rw [e] at h1
    exact .ok h1

section
variable {K L : Type} [Zero K] [One K] [Add K] [Sub K] [Neg K] [Mul K] [Squared K] [DecidableEq K] [InverseO K]
  [Zero L] [One L] [Add L] [Sub L] [Neg L] [Mul L] [Squared L] [DecidableEq L] [InverseO L] {R : K → L → Prop}

theorem RelInv.quad (h : RelOps R) (hi : RelInv R) {nr : K → K} {nr' : L → L} (hnr : ∀ {a x}, R a x → R (nr a) (nr' x)) :
    RelInv (Quad.Rel R : Quad K nr → Quad L nr' → Prop) := by
  refine ⟨@fun a x hx => ?_⟩
  exact (hi.inv (h.sub (h.squared hx.1) (hnr (h.squared hx.2)))).map fun ht => ⟨h.mul hx.1 ht, h.neg (h.mul hx.2 ht)⟩

theorem RelInv.cubic (h : RelOps R) (hi : RelInv R) {nr : K → K} {nr' : L → L} (hnr : ∀ {a x}, R a x → R (nr a) (nr' x)) :
    RelInv (Cubic.Rel R : Cubic K nr → Cubic L nr' → Prop) := by
  refine ⟨@fun a x hx => ?_⟩
  have c0 := h.sub (h.squared hx.1) (hnr (h.mul hx.2.1 hx.2.2))
  have c1 := h.sub (hnr (h.squared hx.2.2)) (h.mul hx.1 hx.2.1)
  have c2 := h.sub (h.squared hx.2.1) (h.mul hx.1 hx.2.2)
  exact (hi.inv (h.add (h.mul hx.1 c0) (hnr (h.add (h.mul hx.2.2 c1) (h.mul hx.2.1 c2))))).map
    fun ht => ⟨h.mul ht c0, h.mul ht c1, h.mul ht c2⟩

theorem Jac.toAffine_relates (h : RelOps R) (hi : RelInv R) {p : Coord3 K} {q : Coord3 L} (hp : Coord3.Rel R p q) :
    Outcome.Rel (Coord3.Rel R) (Jac.toAffine p) (Jac.toAffine q) := by
  unfold Jac.toAffine
  refine Outcome.Rel.ite (Jac.isZero_relates h hp) (.ok ⟨h.zero, h.one, h.zero⟩) ((hi.inv hp.2.2).map ?_)
  exact fun hz => ⟨h.mul hp.1 (h.squared hz), h.mul hp.2.1 (h.mul (h.squared hz) hz), h.one⟩

theorem Proj.toAffine_relates (h : RelOps R) (hi : RelInv R) {p : Coord3 K} {q : Coord3 L} (hp : Coord3.Rel R p q) :
    Outcome.Rel (Coord3.Rel R) (Proj.toAffine p) (Proj.toAffine q) := by
  unfold Proj.toAffine
  refine Outcome.Rel.ite (Proj.isZero_relates h hp) (.ok ⟨h.zero, h.one, h.zero⟩) ((hi.inv hp.2.2).map ?_)
  exact fun hz => ⟨h.mul hp.1 hz, h.mul hp.2.1 hz, h.one⟩
end

/-- Closes goals `R (expression) (same expression)`. -/
macro "relate" h:term : tactic => `(tactic|
  repeat' first
    | assumption
    | with_reducible apply RelOps.add $h
    | with_reducible apply RelOps.sub $h
    | with_reducible apply RelOps.mul $h
    | with_reducible apply RelOps.neg $h
    | with_reducible apply RelOps.squared $h
    | with_reducible exact RelOps.zero $h
    | with_reducible exact RelOps.one $h)

/-! ## Embedding degree 12 -/
namespace Ate12
variable {K L : Type} [Zero K] [One K] [Add K] [Sub K] [Neg K] [Mul K] [Squared K] [DecidableEq K] [InverseO K]
  [Zero L] [One L] [Add L] [Sub L] [Neg L] [Mul L] [Squared L] [DecidableEq L] [InverseO L] {R : K → L → Prop}
  {β : K} {ξ : Fp2 K β} {β' : L} {ξ' : Fp2 L β'} {A : Ate12 K β ξ} {A' : Ate12 L β' ξ'}

/-- Related parameters. -/
structure Rel (R : K → L → Prop) (A : Ate12 K β ξ) (A' : Ate12 L β' ξ') : Prop where
  o : RelOps R
  i : RelInv R
  β : R β β'
  ξ : Quad.Rel R ξ ξ'
  twoInv : R A.twoInv A'.twoInv
  twist : Quad.Rel R A.twist A'.twist
  twistB : Quad.Rel R A.twistB A'.twistB
  mulByQ : ∀ {p q}, Coord3.Rel (Quad.Rel R) p q → Coord3.Rel (Quad.Rel R) (A.mulByQ p) (A'.mulByQ q)
  loopCount : A.loopCount = A'.loopCount
  loopNeg : A.loopNeg = A'.loopNeg

theorem Rel.o2 (H : Rel R A A') : RelOps (Quad.Rel R : Fp2 K β → Fp2 L β' → Prop) := H.o.quad (H.o.mulConst H.β)
theorem Rel.o6 (H : Rel R A A') : RelOps (Cubic.Rel (Quad.Rel R) : Fp6_3over2 K β ξ → Fp6_3over2 L β' ξ' → Prop) :=
  H.o2.cubic (H.o2.mulConst H.ξ)
/-- Related elements of the field of values. -/
abbrev R12 (R : K → L → Prop) (ξ : Fp2 K β) (ξ' : Fp2 L β') : Fp12 K β ξ ξ → Fp12 L β' ξ' ξ' → Prop := Quad.Rel (Cubic.Rel (Quad.Rel R))

theorem Rel.o12 (H : Rel R A A') : RelOps (R12 R ξ ξ') :=
  H.o6.quad (H.o.fp12nr H.β H.ξ)
theorem Rel.i2 (H : Rel R A A') : RelInv (Quad.Rel R : Fp2 K β → Fp2 L β' → Prop) := RelInv.quad H.o H.i (H.o.mulConst H.β)
theorem Rel.i6 (H : Rel R A A') : RelInv (Cubic.Rel (Quad.Rel R) : Fp6_3over2 K β ξ → Fp6_3over2 L β' ξ' → Prop) :=
  RelInv.cubic H.o2 H.i2 (H.o2.mulConst H.ξ)
theorem Rel.i12 (H : Rel R A A') : RelInv (R12 R ξ ξ') :=
  RelInv.quad H.o6 H.i6 (H.o.fp12nr H.β H.ξ)

theorem scale_relates (h : RelOps R) {c : K} {c' : L} (hc : R c c') {x : Fp2 K β} {x' : Fp2 L β'} (hx : Quad.Rel R x x') :
    Quad.Rel R (Quad.scale (· * ·) c x) (Quad.scale (· * ·) c' x') := ⟨h.mul hc hx.1, h.mul hc hx.2⟩

/-- Related coefficients. -/
def EllRel (R : K → L → Prop) (c : EllCoeffs (Fp2 K β)) (c' : EllCoeffs (Fp2 L β')) : Prop :=
  Quad.Rel R c.ell_0 c'.ell_0 ∧ Quad.Rel R c.ell_VW c'.ell_VW ∧ Quad.Rel R c.ell_VV c'.ell_VV

/-- Related results of a step. -/
def StepRel (R : K → L → Prop) (s : Coord3 (Fp2 K β) × EllCoeffs (Fp2 K β)) (s' : Coord3 (Fp2 L β') × EllCoeffs (Fp2 L β')) : Prop :=
  Coord3.Rel (Quad.Rel R) s.1 s'.1 ∧ EllRel R s.2 s'.2

theorem bnDouble_relates (H : Rel R A A') {p : Coord3 (Fp2 K β)} {q : Coord3 (Fp2 L β')} (hp : Coord3.Rel (Quad.Rel R) p q) :
    StepRel R (A.bnDouble p) (A'.bnDouble q) := by
  obtain ⟨hX, hY, hZ⟩ := hp
  have ht := H.twist
  have hB := H.twistB
  have hi := H.twoInv
  refine ⟨⟨?_, ?_, ?_⟩, ?_, ?_, ?_⟩ <;> dsimp only [bnDouble, doublingCore] <;> relate H.o2
  all_goals refine scale_relates H.o hi ?_ ; relate H.o2

theorem blsDouble_relates (H : Rel R A A') {p : Coord3 (Fp2 K β)} {q : Coord3 (Fp2 L β')} (hp : Coord3.Rel (Quad.Rel R) p q) :
    StepRel R (A.blsDouble p) (A'.blsDouble q) := by
  obtain ⟨hX, hY, hZ⟩ := hp
  have ht := H.twist
  have hB := H.twistB
  have hi := H.twoInv
  refine ⟨⟨?_, ?_, ?_⟩, ?_, ?_, ?_⟩ <;> dsimp only [blsDouble, doublingCore] <;> relate H.o2
  all_goals refine scale_relates H.o hi ?_ ; relate H.o2

theorem bnAdd_relates (H : Rel R A A') {p p' : Coord3 (Fp2 K β)} {q q' : Coord3 (Fp2 L β')} (hp : Coord3.Rel (Quad.Rel R) p q)
    (hp' : Coord3.Rel (Quad.Rel R) p' q') : StepRel R (A.bnAdd p p') (A'.bnAdd q q') := by
  obtain ⟨hX, hY, hZ⟩ := hp
  obtain ⟨hX', hY', hZ'⟩ := hp'
  have ht := H.twist
  refine ⟨⟨?_, ?_, ?_⟩, ?_, ?_, ?_⟩ <;> dsimp only [bnAdd, additionCore] <;> relate H.o2

theorem blsAdd_relates (H : Rel R A A') {p p' : Coord3 (Fp2 K β)} {q q' : Coord3 (Fp2 L β')} (hp : Coord3.Rel (Quad.Rel R) p q)
    (hp' : Coord3.Rel (Quad.Rel R) p' q') : StepRel R (A.blsAdd p p') (A'.blsAdd q q') := by
  obtain ⟨hX, hY, hZ⟩ := hp
  obtain ⟨hX', hY', hZ'⟩ := hp'
  have ht := H.twist
  refine ⟨⟨?_, ?_, ?_⟩, ?_, ?_, ?_⟩ <;> dsimp only [blsAdd, additionCore] <;> relate H.o2

/-- Related states of the precomputation. -/
def PreRel (R : K → L → Prop) (s : Coord3 (Fp2 K β) × List (EllCoeffs (Fp2 K β)))
    (s' : Coord3 (Fp2 L β') × List (EllCoeffs (Fp2 L β'))) : Prop :=
  Coord3.Rel (Quad.Rel R) s.1 s'.1 ∧ List.Forall₂ (EllRel R) s.2 s'.2

theorem precompStep_relates {dbl : Coord3 (Fp2 K β) → Coord3 (Fp2 K β) × EllCoeffs (Fp2 K β)}
    {add : Coord3 (Fp2 K β) → Coord3 (Fp2 K β) → Coord3 (Fp2 K β) × EllCoeffs (Fp2 K β)}
    {dbl' : Coord3 (Fp2 L β') → Coord3 (Fp2 L β') × EllCoeffs (Fp2 L β')}
    {add' : Coord3 (Fp2 L β') → Coord3 (Fp2 L β') → Coord3 (Fp2 L β') × EllCoeffs (Fp2 L β')}
    (hd : ∀ {p q}, Coord3.Rel (Quad.Rel R) p q → StepRel R (dbl p) (dbl' q))
    (ha : ∀ {p p' q q'}, Coord3.Rel (Quad.Rel R) p q → Coord3.Rel (Quad.Rel R) p' q' → StepRel R (add p p') (add' q q'))
    {Q : Coord3 (Fp2 K β)} {Q' : Coord3 (Fp2 L β')} (hQ : Coord3.Rel (Quad.Rel R) Q Q') (b : Bool)
    {s : Coord3 (Fp2 K β) × List (EllCoeffs (Fp2 K β))} {s' : Coord3 (Fp2 L β') × List (EllCoeffs (Fp2 L β'))} (hs : PreRel R s s') :
    Outcome.Rel (PreRel R) (precompStep dbl add Q b s) (precompStep dbl' add' Q' b s') := by
  have h1 := hd hs.1
  have h2 := forall₂_app hs.2 h1.2
  have h3 := ha hQ h1.1
  dsimp only [precompStep]
  exact Outcome.Rel.ite Iff.rfl (.ok ⟨h3.1, forall₂_app h2 h3.2⟩) (.ok ⟨h1.1, h2⟩)

/-- Related results of the precomputations. -/
def G1Rel (R : K → L → Prop) (s : AteG1Precomp K) (s' : AteG1Precomp L) : Prop := R s.PX s'.PX ∧ R s.PY s'.PY
/-- Related results of the precomputations. -/
def G2Rel (R : K → L → Prop) (s : AteG2Precomp (Fp2 K β)) (s' : AteG2Precomp (Fp2 L β')) : Prop :=
  Quad.Rel R s.QX s'.QX ∧ Quad.Rel R s.QY s'.QY ∧ List.Forall₂ (EllRel R) s.coeffs s'.coeffs

theorem precomputeG1_relates (h : RelOps R) (hi : RelInv R) {p : Coord3 K} {q : Coord3 L} (hp : Coord3.Rel R p q) :
    Outcome.Rel (G1Rel R) (precomputeG1 p) (precomputeG1 q) :=
  (Jac.toAffine_relates h hi hp).map fun h => ⟨h.1, h.2.1⟩

theorem bnPrecomputeG2_relates (H : Rel R A A') {p : Coord3 (Fp2 K β)} {q : Coord3 (Fp2 L β')} (hp : Coord3.Rel (Quad.Rel R) p q) :
    Outcome.Rel (G2Rel R) (A.bnPrecomputeG2 p) (A'.bnPrecomputeG2 q) := by
  unfold bnPrecomputeG2
  refine (Jac.toAffine_relates H.o2 H.i2 hp).bind @fun Q Q' hQ => ?_
  rw [H.loopCount]
  have h0 : PreRel R (⟨Q.X, Q.Y, 1⟩, []) (⟨Q'.X, Q'.Y, 1⟩, []) := ⟨⟨hQ.1, hQ.2.1, H.o2.one⟩, .nil⟩
  refine (ateLoop_relates (S := PreRel R) (fun b _ _ hs => precompStep_relates (bnDouble_relates H) (bnAdd_relates H) hQ b hs) _ _ h0).bind @fun s s' hs => ?_
  have h1 := H.mulByQ hQ
  have h2 := H.mulByQ h1
  refine Outcome.Rel.ite (not_congr (H.o2.eq h1.2.2 H.o2.one)) .abort ?_
  refine Outcome.Rel.ite (not_congr (H.o2.eq h2.2.2 H.o2.one)) .abort ?_
  have hR : Coord3.Rel (Quad.Rel R) (if A.loopNeg = true then (⟨s.1.X, -s.1.Y, s.1.Z⟩ : Coord3 _) else s.1)
      (if A'.loopNeg = true then (⟨s'.1.X, -s'.1.Y, s'.1.Z⟩ : Coord3 _) else s'.1) :=
    rel_ite (by rw [H.loopNeg]) (fun _ _ => ⟨hs.1.1, H.o2.neg hs.1.2.1, hs.1.2.2⟩) (fun _ _ => hs.1)
  have h3 := bnAdd_relates H h1 hR
  have h4 := bnAdd_relates H (p := ⟨(A.mulByQ (A.mulByQ Q)).X, -(A.mulByQ (A.mulByQ Q)).Y, (A.mulByQ (A.mulByQ Q)).Z⟩)
    (q := ⟨(A'.mulByQ (A'.mulByQ Q')).X, -(A'.mulByQ (A'.mulByQ Q')).Y, (A'.mulByQ (A'.mulByQ Q')).Z⟩) ⟨h2.1, H.o2.neg h2.2.1, h2.2.2⟩ h3.1
  exact .ok ⟨hQ.1, hQ.2.1, forall₂_app (forall₂_app hs.2 h3.2) h4.2⟩

theorem blsPrecomputeG2_relates (H : Rel R A A') {p : Coord3 (Fp2 K β)} {q : Coord3 (Fp2 L β')} (hp : Coord3.Rel (Quad.Rel R) p q) :
    Outcome.Rel (G2Rel R) (A.blsPrecomputeG2 p) (A'.blsPrecomputeG2 q) := by
  unfold blsPrecomputeG2
  refine (Jac.toAffine_relates H.o2 H.i2 hp).bind @fun Q Q' hQ => ?_
  rw [H.loopCount]
  have h0 : PreRel R (⟨Q.X, Q.Y, 1⟩, []) (⟨Q'.X, Q'.Y, 1⟩, []) := ⟨⟨hQ.1, hQ.2.1, H.o2.one⟩, .nil⟩
  refine (ateLoop_relates (S := PreRel R) (fun b _ _ hs => precompStep_relates (blsDouble_relates H) (blsAdd_relates H) hQ b hs) _ _ h0).map @fun s s' hs => ⟨hQ.1, hQ.2.1, hs.2⟩

theorem mulBy024_relates (H : Rel R A A') {f : Fp12 K β ξ ξ} {f' : Fp12 L β' ξ' ξ'} (hf : R12 R ξ ξ' f f') {a b c : Fp2 K β}
    {a' b' c' : Fp2 L β'} (ha : Quad.Rel R a a') (hb : Quad.Rel R b b') (hc : Quad.Rel R c c') :
    R12 R ξ ξ' (Fp12.mulBy024 f a b c) (Fp12.mulBy024 f' a' b' c') := by
  obtain ⟨⟨h0, h1, h2⟩, h3, h4, h5⟩ := hf
  have hξ := H.ξ
  refine ⟨⟨?_, ?_, ?_⟩, ?_, ?_, ?_⟩ <;> dsimp only [Fp12.mulBy024] <;> relate H.o2

theorem mulBy045_relates (H : Rel R A A') {f : Fp12 K β ξ ξ} {f' : Fp12 L β' ξ' ξ'} (hf : R12 R ξ ξ' f f') {a b c : Fp2 K β}
    {a' b' c' : Fp2 L β'} (ha : Quad.Rel R a a') (hb : Quad.Rel R b b') (hc : Quad.Rel R c c') :
    R12 R ξ ξ' (Fp12.mulBy045 f a b c) (Fp12.mulBy045 f' a' b' c') := by
  obtain ⟨⟨h0, h1, h2⟩, h3, h4, h5⟩ := hf
  have hξ := H.ξ
  refine ⟨⟨?_, ?_, ?_⟩, ?_, ?_, ?_⟩ <;> dsimp only [Fp12.mulBy045] <;> relate H.o2

section
variable {m : Fp12 K β ξ ξ → Fp2 K β → Fp2 K β → Fp2 K β → Fp12 K β ξ ξ}
  {m' : Fp12 L β' ξ' ξ' → Fp2 L β' → Fp2 L β' → Fp2 L β' → Fp12 L β' ξ' ξ'}

theorem evalCoeff_relates (o : RelOps R)
    (hm : ∀ {f f' a b c a' b' c'}, R12 R ξ ξ' f f' → Quad.Rel R a a' → Quad.Rel R b b' → Quad.Rel R c c' →
      R12 R ξ ξ' (m f a b c) (m' f' a' b' c'))
    {P : AteG1Precomp K} {P' : AteG1Precomp L} (hP : G1Rel R P P') {c : EllCoeffs (Fp2 K β)} {c' : EllCoeffs (Fp2 L β')}
    (hc : EllRel R c c') {f : Fp12 K β ξ ξ} {f' : Fp12 L β' ξ' ξ'} (hf : R12 R ξ ξ' f f') :
    R12 R ξ ξ' (evalCoeff m P c f) (evalCoeff m' P' c' f') :=
  hm hf hc.1 (scale_relates o hP.2 hc.2.1) (scale_relates o hP.1 hc.2.2)

/-- Related states of the Miller loop. -/
def MilRel (R : K → L → Prop) (ξ : Fp2 K β) (ξ' : Fp2 L β') (s : Fp12 K β ξ ξ × Nat) (s' : Fp12 L β' ξ' ξ' × Nat) : Prop :=
  R12 R ξ ξ' s.1 s'.1 ∧ s.2 = s'.2

theorem millerStep_relates (H : Rel R A A')
    (hm : ∀ {f f' a b c a' b' c'}, R12 R ξ ξ' f f' → Quad.Rel R a a' → Quad.Rel R b b' → Quad.Rel R c c' →
      R12 R ξ ξ' (m f a b c) (m' f' a' b' c'))
    {P : AteG1Precomp K} {P' : AteG1Precomp L} (hP : G1Rel R P P') {Q : AteG2Precomp (Fp2 K β)} {Q' : AteG2Precomp (Fp2 L β')}
    (hQ : G2Rel R Q Q') (b : Bool) {s : Fp12 K β ξ ξ × Nat} {s' : Fp12 L β' ξ' ξ' × Nat} (hs : MilRel R ξ ξ' s s') :
    Outcome.Rel (MilRel R ξ ξ') (millerStep m P Q b s) (millerStep m' P' Q' b s') := by
  unfold millerStep
  rw [hs.2]
  refine (vecAt_relates hQ.2.2 _).bind @fun c c' hc => ?_
  have h1 := evalCoeff_relates H.o hm hP hc (H.o12.squared hs.1)
  exact Outcome.Rel.ite Iff.rfl ((vecAt_relates hQ.2.2 _).map fun hc => ⟨evalCoeff_relates H.o hm hP hc h1, rfl⟩) (.ok ⟨h1, rfl⟩)
end

theorem ifNeg_relates (H : Rel R A A') {neg : Bool} {f : Fp12 K β ξ ξ} {f' : Fp12 L β' ξ' ξ'} (h : R12 R ξ ξ' f f') :
    Outcome.Rel (R12 R ξ ξ') (if neg = true then inverseO f else .ok f) (if neg = true then inverseO f' else .ok f') := by
  cases neg
  · exact .ok h
  · exact H.i12.inv h

theorem bnMillerLoop_relates (H : Rel R A A') {P : AteG1Precomp K} {P' : AteG1Precomp L} (hP : G1Rel R P P')
    {Q : AteG2Precomp (Fp2 K β)} {Q' : AteG2Precomp (Fp2 L β')} (hQ : G2Rel R Q Q') :
    Outcome.Rel (R12 R ξ ξ') (A.bnMillerLoop P Q) (A'.bnMillerLoop P' Q') := by
  unfold bnMillerLoop
  rw [H.loopCount, H.loopNeg]
  have h0 : MilRel R ξ ξ' (1, 0) (1, 0) := ⟨H.o12.one, rfl⟩
  refine (ateLoop_relates (S := MilRel R ξ ξ') (fun b _ _ hs => millerStep_relates (m := Fp12.mulBy024) (m' := Fp12.mulBy024) H (fun hf ha hb hc => mulBy024_relates H hf ha hb hc) hP hQ b hs) _ _ h0).bind @fun s s' hs => ?_
  refine (ifNeg_relates H hs.1).bind @fun f f' hf => ?_
  rw [hs.2]
  refine (vecAt_relates hQ.2.2 _).bind @fun c c' hc => ?_
  refine (vecAt_relates hQ.2.2 _).map @fun d d' hd => ?_
  exact evalCoeff_relates (m := Fp12.mulBy024) (m' := Fp12.mulBy024) H.o (fun hf ha hb hc => mulBy024_relates H hf ha hb hc) hP hd (evalCoeff_relates (m := Fp12.mulBy024) (m' := Fp12.mulBy024) H.o (fun hf ha hb hc => mulBy024_relates H hf ha hb hc) hP hc hf)

theorem blsMillerLoop_relates (H : Rel R A A') {P : AteG1Precomp K} {P' : AteG1Precomp L} (hP : G1Rel R P P')
    {Q : AteG2Precomp (Fp2 K β)} {Q' : AteG2Precomp (Fp2 L β')} (hQ : G2Rel R Q Q') :
    Outcome.Rel (R12 R ξ ξ') (A.blsMillerLoop P Q) (A'.blsMillerLoop P' Q') := by
  unfold blsMillerLoop
  rw [H.loopCount, H.loopNeg]
  have h0 : MilRel R ξ ξ' (1, 0) (1, 0) := ⟨H.o12.one, rfl⟩
  refine (ateLoop_relates (S := MilRel R ξ ξ') (fun b _ _ hs => millerStep_relates (m := Fp12.mulBy045) (m' := Fp12.mulBy045) H (fun hf ha hb hc => mulBy045_relates H hf ha hb hc) hP hQ b hs) _ _ h0).bind @fun s s' hs => ?_
  exact ifNeg_relates H hs.1

theorem bnPairing_relates (H : Rel R A A') {p : Coord3 K} {p' : Coord3 L} (hp : Coord3.Rel R p p') {q : Coord3 (Fp2 K β)}
    {q' : Coord3 (Fp2 L β')} (hq : Coord3.Rel (Quad.Rel R) q q') : Outcome.Rel (R12 R ξ ξ') (A.bnPairing p q) (A'.bnPairing p' q') :=
  (precomputeG1_relates H.o H.i hp).bind fun h1 => (bnPrecomputeG2_relates H hq).bind fun h2 => bnMillerLoop_relates H h1 h2

theorem blsPairing_relates (H : Rel R A A') {p : Coord3 K} {p' : Coord3 L} (hp : Coord3.Rel R p p') {q : Coord3 (Fp2 K β)}
    {q' : Coord3 (Fp2 L β')} (hq : Coord3.Rel (Quad.Rel R) q q') : Outcome.Rel (R12 R ξ ξ') (A.blsPairing p q) (A'.blsPairing p' q') :=
  (precomputeG1_relates H.o H.i hp).bind fun h1 => (blsPrecomputeG2_relates H hq).bind fun h2 => blsMillerLoop_relates H h1 h2

end Ate12

/-! ## mnt4 and mnt6 -/
namespace AteMnt
variable {K L T U : Type} [Zero K] [One K] [Add K] [Sub K] [Neg K] [Mul K] [Squared K] [DecidableEq K] [InverseO K]
  [Zero L] [One L] [Add L] [Sub L] [Neg L] [Mul L] [Squared L] [DecidableEq L] [InverseO L]
  [Zero T] [One T] [Add T] [Sub T] [Neg T] [Mul T] [Squared T] [DecidableEq T] [InverseO T]
  [Zero U] [One U] [Add U] [Sub U] [Neg U] [Mul U] [Squared U] [DecidableEq U] [InverseO U]
  {RK : K → L → Prop} {RT : T → U → Prop} {nr : T → T} {nr' : U → U} {A : AteMnt K T nr} {A' : AteMnt L U nr'}

/-- Related parameters. -/
structure Rel (RK : K → L → Prop) (RT : T → U → Prop) (A : AteMnt K T nr) (A' : AteMnt L U nr') : Prop where
  oK : RelOps RK
  iK : RelInv RK
  o : RelOps RT
  i : RelInv RT
  nr : ∀ {a x}, RT a x → RT (nr a) (nr' x)
  embed : ∀ {a x}, RK a x → RT (A.embed a) (A'.embed x)
  scale : ∀ {a x b y}, RK a x → RT b y → RT (A.scale a b) (A'.scale x y)
  eight : RK A.eight A'.eight
  twist : RT A.twist A'.twist
  twistA : RT A.twistA A'.twistA
  loopCount : A.loopCount = A'.loopCount
  loopNeg : A.loopNeg = A'.loopNeg

/-- Related points. -/
def ExtRel (RT : T → U → Prop) (p : ExtCoord T) (q : ExtCoord U) : Prop := RT p.X q.X ∧ RT p.Y q.Y ∧ RT p.Z q.Z ∧ RT p.T q.T
/-- Related coefficients. -/
def DblRel (RT : T → U → Prop) (p : MntDblCoeffs T) (q : MntDblCoeffs U) : Prop :=
  RT p.c_H q.c_H ∧ RT p.c_4C q.c_4C ∧ RT p.c_J q.c_J ∧ RT p.c_L q.c_L
/-- Related coefficients. -/
def AddRel (RT : T → U → Prop) (p : MntAddCoeffs T) (q : MntAddCoeffs U) : Prop := RT p.c_L1 q.c_L1 ∧ RT p.c_RZ q.c_RZ

theorem double_relates (H : Rel RK RT A A') {p : ExtCoord T} {q : ExtCoord U} (hp : ExtRel RT p q) :
    ExtRel RT (A.double p).1 (A'.double q).1 ∧ DblRel RT (A.double p).2 (A'.double q).2 := by
  obtain ⟨hX, hY, hZ, hT⟩ := hp
  have hA := H.twistA
  refine ⟨⟨?_, ?_, ?_, ?_⟩, ?_, ?_, ?_, ?_⟩ <;> dsimp only [double] <;> relate H.o
  all_goals refine H.scale (H.oK.neg H.eight) ?_ ; relate H.o

theorem mixedAdd_relates (o : RelOps RT) {x y z : T} {x' y' z' : U} (hx : RT x x') (hy : RT y y') (hz : RT z z') {p : ExtCoord T}
    {q : ExtCoord U} (hp : ExtRel RT p q) :
    ExtRel RT (mixedAdd x y z p).1 (mixedAdd x' y' z' q).1 ∧ AddRel RT (mixedAdd x y z p).2 (mixedAdd x' y' z' q).2 := by
  obtain ⟨hX, hY, hZ, hT⟩ := hp
  refine ⟨⟨?_, ?_, ?_, ?_⟩, ?_, ?_⟩ <;> dsimp only [mixedAdd] <;> relate o

/-- Related results of the precomputation. -/
def G1Rel (RK : K → L → Prop) (RT : T → U → Prop) (s : MntG1Precomp K T) (s' : MntG1Precomp L U) : Prop :=
  RK s.PX s'.PX ∧ RK s.PY s'.PY ∧ RT s.PX_twist s'.PX_twist ∧ RT s.PY_twist s'.PY_twist

theorem precomputeG1_relates (H : Rel RK RT A A') {p : Coord3 K} {q : Coord3 L} (hp : Coord3.Rel RK p q) :
    Outcome.Rel (G1Rel RK RT) (A.precomputeG1 p) (A'.precomputeG1 q) :=
  (Proj.toAffine_relates H.oK H.iK hp).map fun h => ⟨h.1, h.2.1, H.scale h.1 H.twist, H.scale h.2.1 H.twist⟩

/-- Related states. -/
def PreRel (RT : T → U → Prop) (s : PrecompState T) (s' : PrecompState U) : Prop :=
  ExtRel RT s.R s'.R ∧ List.Forall₂ (DblRel RT) s.dbl s'.dbl ∧ List.Forall₂ (AddRel RT) s.add s'.add

theorem precompStep_relates (H : Rel RK RT A A') {x y z : T} {x' y' z' : U} (hx : RT x x') (hy : RT y y') (hz : RT z z') (b : Bool)
    {s : PrecompState T} {s' : PrecompState U} (hs : PreRel RT s s') :
    Outcome.Rel (PreRel RT) (A.precompStep x y z b s) (A'.precompStep x' y' z' b s') := by
  have h1 := double_relates H hs.1
  have h2 := forall₂_app hs.2.1 h1.2
  have h3 := mixedAdd_relates H.o hx hy hz h1.1
  dsimp only [precompStep]
  exact Outcome.Rel.ite Iff.rfl (.ok ⟨h3.1, h2, forall₂_app hs.2.2 h3.2⟩) (.ok ⟨h1.1, h2, hs.2.2⟩)

/-- Related results of the precomputation. -/
def G2Rel (RT : T → U → Prop) (s : MntG2Precomp T) (s' : MntG2Precomp U) : Prop :=
  RT s.QX s'.QX ∧ RT s.QY s'.QY ∧ RT s.QY2 s'.QY2 ∧ RT s.QX_over_twist s'.QX_over_twist ∧ RT s.QY_over_twist s'.QY_over_twist ∧
  List.Forall₂ (DblRel RT) s.dbl_coeffs s'.dbl_coeffs ∧ List.Forall₂ (AddRel RT) s.add_coeffs s'.add_coeffs

theorem precomputeG2_relates (H : Rel RK RT A A') {p : Coord3 T} {q : Coord3 U} (hp : Coord3.Rel RT p q) :
    Outcome.Rel (G2Rel RT) (A.precomputeG2 p) (A'.precomputeG2 q) := by
  unfold precomputeG2
  refine (Proj.toAffine_relates H.o H.i hp).bind @fun Q Q' hQ => ?_
  refine (H.i.inv H.twist).bind @fun t t' ht => ?_
  have hy2 := H.o.squared hQ.2.1
  rw [H.loopCount, H.loopNeg]
  have h0 : PreRel RT ⟨⟨Q.X, Q.Y, 1, 1⟩, [], []⟩ ⟨⟨Q'.X, Q'.Y, 1, 1⟩, [], []⟩ := ⟨⟨hQ.1, hQ.2.1, H.o.one, H.o.one⟩, .nil, .nil⟩
  refine (ateLoop_relates (S := PreRel RT) (fun b _ _ hs => precompStep_relates H hQ.1 hQ.2.1 hy2 b hs) _ _ h0).bind @fun s s' hs => ?_
  refine Outcome.Rel.map (S := List.Forall₂ (AddRel RT)) ?_ @fun v v' hv =>
    ⟨hQ.1, hQ.2.1, hy2, H.o.mul hQ.1 ht, H.o.mul hQ.2.1 ht, hs.2.1, hv⟩
  refine Outcome.Rel.ite Iff.rfl ?_ (.ok hs.2.2)
  refine (H.i.inv hs.1.2.2.1).map @fun z z' hz => forall₂_app hs.2.2 ?_
  have h2 := H.o.squared hz
  have hY := H.o.mul (H.o.neg hs.1.2.1) (H.o.mul h2 hz)
  exact (mixedAdd_relates H.o (H.o.mul hs.1.1 h2) hY (H.o.squared hY) hs.1).2

theorem gRR_relates (H : Rel RK RT A A') {P : MntG1Precomp K T} {P' : MntG1Precomp L U} (hP : G1Rel RK RT P P') {c : MntDblCoeffs T}
    {c' : MntDblCoeffs U} (hc : DblRel RT c c') : Quad.Rel RT (gRR (nr := nr) P c) (gRR (nr := nr') P' c') := by
  obtain ⟨-, -, hx, hy⟩ := hP
  obtain ⟨h1, h2, h3, h4⟩ := hc
  refine ⟨?_, ?_⟩ <;> dsimp only [gRR] <;> relate H.o

theorem gRQ_relates (H : Rel RK RT A A') {l : T} {l' : U} (hl : RT l l') {P : MntG1Precomp K T} {P' : MntG1Precomp L U}
    (hP : G1Rel RK RT P P') {Q : MntG2Precomp T} {Q' : MntG2Precomp U} (hQ : G2Rel RT Q Q') {c : MntAddCoeffs T} {c' : MntAddCoeffs U}
    (hc : AddRel RT c c') : Quad.Rel RT (gRQ (nr := nr) l P Q c) (gRQ (nr := nr') l' P' Q' c') := by
  obtain ⟨-, -, hx, hy⟩ := hP
  obtain ⟨h1, h2⟩ := hc
  obtain ⟨-, -, -, -, h3, -⟩ := hQ
  refine ⟨?_, ?_⟩ <;> dsimp only [gRQ] <;> relate H.o

theorem l1Coeff_relates (H : Rel RK RT A A') {P : MntG1Precomp K T} {P' : MntG1Precomp L U}
    (hP : G1Rel RK RT P P') {Q : MntG2Precomp T} {Q' : MntG2Precomp U} (hQ : G2Rel RT Q Q') :
    RT (A.l1Coeff P Q) (A'.l1Coeff P' Q') := H.o.sub (H.embed hP.1) hQ.2.2.2.1

theorem Rel.oL (H : Rel RK RT A A') : RelOps (Quad.Rel RT : Quad T nr → Quad U nr' → Prop) := H.o.quad H.nr
theorem Rel.iL (H : Rel RK RT A A') : RelInv (Quad.Rel RT : Quad T nr → Quad U nr' → Prop) := RelInv.quad H.o H.i H.nr

/-- Related states of the Miller loop. -/
def MilRel (RT : T → U → Prop) (nr : T → T) (nr' : U → U) (s : Quad T nr × Nat × Nat) (s' : Quad U nr' × Nat × Nat) : Prop :=
  Quad.Rel RT s.1 s'.1 ∧ s.2 = s'.2

theorem millerStep_relates (H : Rel RK RT A A') {P : MntG1Precomp K T} {P' : MntG1Precomp L U}
    (hP : G1Rel RK RT P P') {Q : MntG2Precomp T} {Q' : MntG2Precomp U} (hQ : G2Rel RT Q Q') (b : Bool) {s : Quad T nr × Nat × Nat}
    {s' : Quad U nr' × Nat × Nat} (hs : MilRel RT nr nr' s s') :
    Outcome.Rel (MilRel RT nr nr') (A.millerStep P Q b s) (A'.millerStep P' Q' b s') := by
  unfold millerStep
  rw [hs.2]
  refine (vecAt_relates hQ.2.2.2.2.2.1 _).bind @fun c c' hc => ?_
  have h1 := H.oL.mul (H.oL.squared hs.1) (gRR_relates H hP hc)
  refine Outcome.Rel.ite Iff.rfl ((vecAt_relates hQ.2.2.2.2.2.2 _).map @fun c c' hc => ?_) (.ok ⟨h1, rfl⟩)
  exact ⟨H.oL.mul h1 (gRQ_relates H (l1Coeff_relates H hP hQ) hP hQ hc), rfl⟩

theorem millerLoop_relates (H : Rel RK RT A A') {P : MntG1Precomp K T} {P' : MntG1Precomp L U}
    (hP : G1Rel RK RT P P') {Q : MntG2Precomp T} {Q' : MntG2Precomp U} (hQ : G2Rel RT Q Q') :
    Outcome.Rel (Quad.Rel RT) (A.millerLoop P Q) (A'.millerLoop P' Q') := by
  unfold millerLoop
  rw [H.loopCount, H.loopNeg]
  have h0 : MilRel RT nr nr' (1, 0, 0) (1, 0, 0) := ⟨H.oL.one, rfl⟩
  refine (ateLoop_relates (S := MilRel RT nr nr') (fun b _ _ hs => millerStep_relates H hP hQ b hs) _ _ h0).bind @fun s s' hs => ?_
  rw [hs.2]
  refine Outcome.Rel.ite Iff.rfl ((vecAt_relates hQ.2.2.2.2.2.2 _).bind @fun c c' hc => ?_) (.ok hs.1)
  exact H.iL.inv (H.oL.mul hs.1 (gRQ_relates H (l1Coeff_relates H hP hQ) hP hQ hc))

theorem pairing_relates (H : Rel RK RT A A') {p : Coord3 K} {p' : Coord3 L} (hp : Coord3.Rel RK p p') {q : Coord3 T} {q' : Coord3 U}
    (hq : Coord3.Rel RT q q') : Outcome.Rel (Quad.Rel RT) (A.pairing p q) (A'.pairing p' q') :=
  (precomputeG1_relates H hp).bind fun h1 => (precomputeG2_relates H hq).bind fun h2 => millerLoop_relates H h1 h2

end AteMnt
end Libff
