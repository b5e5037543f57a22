import Verif.Lemmas.PairingRel
import Verif.Lemmas.PairingEval
import Verif.Model.PairingCurvesW
import Verif.Props.FinalExp
import Verif.Props.GenEdwards

/-!
# Evaluating the pairing of edwards inside the kernel
-/
namespace Libff
set_option linter.unusedSectionVars false
set_option synthInstance.maxSize 2000
set_option maxRecDepth 100000

theorem Edw.toAffine_relates {K L : Type} [Zero K] [One K] [Add K] [Sub K] [Neg K] [Mul K] [Squared K] [DecidableEq K] [InverseO K]
    [Zero L] [One L] [Add L] [Sub L] [Neg L] [Mul L] [Squared L] [DecidableEq L] [InverseO L] {R : K → L → Prop}
    (h : RelOps R) (hi : RelInv R) {p : Coord3 K} {q : Coord3 L} (hp : Coord3.Rel R p q) :
    Outcome.Rel (Coord3.Rel R) (Edw.toAffine p) (Edw.toAffine q) := by
  unfold Edw.toAffine
  refine Outcome.Rel.ite (Edw.isZero_relates h hp) (.ok ⟨h.zero, h.one, h.one⟩) ((hi.inv (h.mul hp.1 hp.2.1)).map ?_)
  exact fun hz => ⟨h.mul (h.mul hp.2.1 hp.2.2) hz, h.mul (h.mul hp.1 hp.2.2) hz, h.one⟩

namespace AteEdw
variable {K L T U : Type} [Zero K] [One K] [Add K] [Sub K] [Neg K] [Mul K] [Squared K] [DecidableEq K] [InverseO K]
  [Zero L] [One L] [Add L] [Sub L] [Neg L] [Mul L] [Squared L] [DecidableEq L] [InverseO L]
  [Zero T] [One T] [Add T] [Sub T] [Neg T] [Mul T] [Squared T] [DecidableEq T] [InverseO T]
  [Zero U] [One U] [Add U] [Sub U] [Neg U] [Mul U] [Squared U] [DecidableEq U] [InverseO U]
  {RK : K → L → Prop} {RT : T → U → Prop} {nr : T → T} {nr' : U → U} {A : AteEdw K T nr} {A' : AteEdw L U nr'}

/-- Related parameters. -/
structure Rel (RK : K → L → Prop) (RT : T → U → Prop) (A : AteEdw K T nr) (A' : AteEdw L U nr') : Prop where
  oK : RelOps RK
  iK : RelInv RK
  o : RelOps RT
  i : RelInv RT
  nr : ∀ {a x}, RT a x → RT (nr a) (nr' x)
  embed : ∀ {a x}, RK a x → RT (A.embed a) (A'.embed x)
  scale : ∀ {a x b y}, RK a x → RT b y → RT (A.scale a b) (A'.scale x y)
  mulA : ∀ {a x}, RT a x → RT (A.mulA a) (A'.mulA x)
  loopCount : A.loopCount = A'.loopCount
  modulusR : A.modulusR = A'.modulusR

/-- Related coefficients. -/
def ConicRel (RT : T → U → Prop) (p : ConicCoeffs T) (q : ConicCoeffs U) : Prop := RT p.c_ZZ q.c_ZZ ∧ RT p.c_XY q.c_XY ∧ RT p.c_XZ q.c_XZ

open AteMnt (ExtRel)

theorem double_relates (H : Rel RK RT A A') {p : ExtCoord T} {q : ExtCoord U} (hp : ExtRel RT p q) :
    ExtRel RT (A.double p).1 (A'.double q).1 ∧ ConicRel RT (A.double p).2 (A'.double q).2 := by
  obtain ⟨hX, hY, hZ, hT⟩ := hp
  have h1 := H.mulA (H.o.squared hX)
  have h2 := H.mulA (H.o.mul hX hT)
  refine ⟨⟨?_, ?_, ?_, ?_⟩, ?_, ?_, ?_⟩ <;> dsimp only [double] <;> relate H.o

theorem mixedAdd_relates (H : Rel RK RT A A') {b : ExtCoord T} {b' : ExtCoord U} (hb : ExtRel RT b b') {p : ExtCoord T}
    {q : ExtCoord U} (hp : ExtRel RT p q) :
    ExtRel RT (A.mixedAdd b p).1 (A'.mixedAdd b' q).1 ∧ ConicRel RT (A.mixedAdd b p).2 (A'.mixedAdd b' q).2 := by
  obtain ⟨hX, hY, hZ, hT⟩ := hp
  obtain ⟨bX, bY, bZ, bT⟩ := hb
  have h1 := H.mulA (H.o.mul hX bX)
  have h2 := H.mulA (H.o.add (H.o.sub (H.o.mul (H.o.sub hT hX) (H.o.add bT bX)) (H.o.mul hT bT)) (H.o.mul hX bX))
  refine ⟨⟨?_, ?_, ?_, ?_⟩, ?_, ?_, ?_⟩ <;> dsimp only [mixedAdd] <;> relate H.o

/-- Related results of the precomputation. -/
def G1Rel (RK : K → L → Prop) (s : EdwG1Precomp K) (s' : EdwG1Precomp L) : Prop :=
  RK s.P_XY s'.P_XY ∧ RK s.P_XZ s'.P_XZ ∧ RK s.P_ZZplusYZ s'.P_ZZplusYZ

theorem precomputeG1_relates (H : Rel RK RT A A') {p : Coord3 K} {q : Coord3 L} (hp : Coord3.Rel RK p q) :
    Outcome.Rel (G1Rel RK) (precomputeG1 p) (precomputeG1 q) :=
  (Edw.toAffine_relates H.oK H.iK hp).map fun h => ⟨H.oK.mul h.1 h.2.1, h.1, H.oK.add H.oK.one h.2.1⟩

/-- Related states. -/
def PreRel (RT : T → U → Prop) (s : ExtCoord T × List (ConicCoeffs T)) (s' : ExtCoord U × List (ConicCoeffs U)) : Prop :=
  ExtRel RT s.1 s'.1 ∧ List.Forall₂ (ConicRel RT) s.2 s'.2

theorem precompStep_relates (H : Rel RK RT A A') {b : ExtCoord T} {b' : ExtCoord U} (hb : ExtRel RT b b') (bit : Bool)
    {s : ExtCoord T × List (ConicCoeffs T)} {s' : ExtCoord U × List (ConicCoeffs U)} (hs : PreRel RT s s') :
    Outcome.Rel (PreRel RT) (precompStep A.double A.mixedAdd b bit s) (precompStep A'.double A'.mixedAdd b' bit s') := by
  have h1 := double_relates H hs.1
  have h2 := forall₂_app hs.2 h1.2
  have h3 := mixedAdd_relates H hb h1.1
  dsimp only [precompStep]
  exact Outcome.Rel.ite Iff.rfl (.ok ⟨h3.1, forall₂_app h2 h3.2⟩) (.ok ⟨h1.1, h2⟩)

theorem precomputeG2_relates (H : Rel RK RT A A') {p : Coord3 T} {q : Coord3 U} (hp : Coord3.Rel RT p q) :
    Outcome.Rel (List.Forall₂ (ConicRel RT)) (A.precomputeG2 p) (A'.precomputeG2 q) := by
  unfold precomputeG2
  refine (Edw.toAffine_relates H.o H.i hp).bind @fun Q Q' hQ => ?_
  rw [H.loopCount]
  have hE : ExtRel RT ⟨Q.X, Q.Y, Q.Z, Q.X * Q.Y⟩ ⟨Q'.X, Q'.Y, Q'.Z, Q'.X * Q'.Y⟩ := ⟨hQ.1, hQ.2.1, hQ.2.2, H.o.mul hQ.1 hQ.2.1⟩
  exact (ateLoop_relates (S := PreRel RT) (fun b _ _ hs => precompStep_relates H hE b hs) _ _ ⟨hE, .nil⟩).map fun hs => hs.2

theorem gRR_relates (H : Rel RK RT A A') {P : EdwG1Precomp K} {P' : EdwG1Precomp L} (hP : G1Rel RK P P') {c : ConicCoeffs T}
    {c' : ConicCoeffs U} (hc : ConicRel RT c c') : Quad.Rel RT (A.gRR P c) (A'.gRR P' c') :=
  ⟨H.o.add (H.scale hP.1 hc.2.1) (H.scale hP.2.1 hc.2.2), H.scale hP.2.2 hc.1⟩

theorem gRQ_relates (H : Rel RK RT A A') {P : EdwG1Precomp K} {P' : EdwG1Precomp L} (hP : G1Rel RK P P') {c : ConicCoeffs T}
    {c' : ConicCoeffs U} (hc : ConicRel RT c c') : Quad.Rel RT (A.gRQ P c) (A'.gRQ P' c') :=
  ⟨H.scale hP.2.2 hc.1, H.o.add (H.scale hP.1 hc.2.1) (H.scale hP.2.1 hc.2.2)⟩

theorem Rel.oL (H : Rel RK RT A A') : RelOps (Quad.Rel RT : Quad T nr → Quad U nr' → Prop) := H.o.quad H.nr

/-- Related states of the Miller loop. -/
def MilRel (RT : T → U → Prop) (nr : T → T) (nr' : U → U) (s : Quad T nr × Nat) (s' : Quad U nr' × Nat) : Prop :=
  Quad.Rel RT s.1 s'.1 ∧ s.2 = s'.2

theorem millerStep_relates (H : Rel RK RT A A') {P : EdwG1Precomp K} {P' : EdwG1Precomp L} (hP : G1Rel RK P P')
    {Q : List (ConicCoeffs T)} {Q' : List (ConicCoeffs U)} (hQ : List.Forall₂ (ConicRel RT) Q Q') (b : Bool) {s : Quad T nr × Nat}
    {s' : Quad U nr' × Nat} (hs : MilRel RT nr nr' s s') :
    Outcome.Rel (MilRel RT nr nr') (A.millerStep P Q b s) (A'.millerStep P' Q' b s') := by
  unfold millerStep
  rw [hs.2]
  refine (vecAt_relates hQ _).bind @fun c c' hc => ?_
  have h1 := H.oL.mul (H.oL.squared hs.1) (gRR_relates H hP hc)
  refine Outcome.Rel.ite Iff.rfl ((vecAt_relates hQ _).map @fun c c' hc => ?_) (.ok ⟨h1, rfl⟩)
  exact ⟨H.oL.mul h1 (gRQ_relates H hP hc), rfl⟩

theorem pairing_relates (H : Rel RK RT A A') {p : Coord3 K} {p' : Coord3 L} (hp : Coord3.Rel RK p p') {q : Coord3 T} {q' : Coord3 U}
    (hq : Coord3.Rel RT q q') : Outcome.Rel (Quad.Rel RT) (A.pairing p q) (A'.pairing p' q') := by
  refine (precomputeG1_relates H hp).bind fun h1 => (precomputeG2_relates H hq).bind fun h2 => ?_
  unfold millerLoop
  rw [H.loopCount]
  exact (ateLoop_relates (S := MilRel RT nr nr') (fun b _ _ hs => millerStep_relates H h1 h2 b hs) _ _ ⟨H.oL.one, rfl⟩).map fun hs => hs.1

end AteEdw

namespace edwards_K
/-- `edwards_ate` over `NM p`. -/
def ate : AteEdw Fq Fq3 (fp6nr β) where
  embed x := ⟨x, 0, 0⟩
  scale := Cubic.scale (· * ·)
  mulA := edwardsMulByA
  loopCount := limbsOf 3 edwards_ate_loop_count
  modulusR := limbsOf 3 edwards_Fr_params.p
/-- `G1::one()`. -/
def g1 : Coord3 Fq := Edw.ofAffine (NM.of edwards_G1_one_nat.1) (NM.of edwards_G1_one_nat.2)
/-- `G2::one()`. -/
def g2 : Coord3 Fq3 := Edw.ofAffine (dec3 NM.of edwards_G2_one_nat.1) (dec3 NM.of edwards_G2_one_nat.2)

theorem i1 : RelInv R1 := fpRelInv
theorem i3 : RelInv R3 := RelInv.cubic o1 i1 (o1.mulConst rβ)

theorem ate_rel : AteEdw.Rel R1 R3 ate edwards_ate where
  oK := o1
  iK := i1
  o := o3
  i := i3
  nr := o1.fp6nr rβ
  embed h := ⟨h, o1.zero, o1.zero⟩
  scale h h' := ⟨o1.mul h h'.1, o1.mul h h'.2.1, o1.mul h h'.2.2⟩
  mulA h := ⟨o1.mul (o1.mul o1.one rβ) h.2.2, h.1, h.2.1⟩
  loopCount := rfl
  modulusR := rfl

theorem g1_rel : Coord3.Rel R1 g1 edwards_G1_one := by
  have hx : R1 (NM.of edwards_G1_one_nat.1) _ := FpRel.cast (by decide +kernel)
  have hy : R1 (NM.of edwards_G1_one_nat.2) _ := FpRel.cast (by decide +kernel)
  exact ⟨hy, hx, o1.mul hx hy⟩
theorem g2_rel : Coord3.Rel R3 g2 edwards_G2_one := by
  have hx : R3 (dec3 NM.of edwards_G2_one_nat.1) _ := dec3_rel _ (by decide +kernel)
  have hy : R3 (dec3 NM.of edwards_G2_one_nat.2) _ := dec3_rel _ (by decide +kernel)
  exact ⟨hy, hx, o3.mul hx hy⟩
theorem z1_rel : Coord3.Rel R1 Edw.zero Edw.zero := ⟨o1.one, o1.zero, o1.mul o1.zero o1.one⟩
theorem z2_rel : Coord3.Rel R3 Edw.zero Edw.zero := ⟨o3.one, o3.zero, o3.mul o3.zero o3.one⟩
end edwards_K
end Libff
