import Verif.Lemmas.PairingRelEdw

/-!
# A value of the Tate pairing of edwards

The value below is the result of running the model of the code over `NM p` inside the kernel.
-/
namespace Libff
set_option linter.unusedSectionVars false
set_option synthInstance.maxSize 2000
set_option maxRecDepth 100000

namespace AteEdw
variable {K L T U : Type} [Zero K] [One K] [Add K] [Sub K] [Neg K] [Mul K] [Squared K] [DecidableEq K] [InverseO K]
  [Zero L] [One L] [Add L] [Sub L] [Neg L] [Mul L] [Squared L] [DecidableEq L] [InverseO L]
  [Zero T] [One T] [Add T] [Sub T] [Neg T] [Mul T] [Squared T] [DecidableEq T] [InverseO T]
  [Zero U] [One U] [Add U] [Sub U] [Neg U] [Mul U] [Squared U] [DecidableEq U] [InverseO U]
  {RK : K → L → Prop} {RT : T → U → Prop} {nr : T → T} {nr' : U → U} {A : AteEdw K T nr} {A' : AteEdw L U nr'}
open AteMnt (ExtRel)

theorem tateDouble_relates (o : RelOps RK) {p : ExtCoord K} {q : ExtCoord L} (hp : ExtRel RK p q) :
    ExtRel RK (tateDouble p).1 (tateDouble q).1 ∧ ConicRel RK (tateDouble p).2 (tateDouble q).2 := by
  obtain ⟨hX, hY, hZ, hT⟩ := hp
  refine ⟨⟨?_, ?_, ?_, ?_⟩, ?_, ?_, ?_⟩ <;> dsimp only [tateDouble] <;> relate o

theorem tateMixedAdd_relates (o : RelOps RK) {b : ExtCoord K} {b' : ExtCoord L} (hb : ExtRel RK b b') {p : ExtCoord K}
    {q : ExtCoord L} (hp : ExtRel RK p q) :
    ExtRel RK (tateMixedAdd b p).1 (tateMixedAdd b' q).1 ∧ ConicRel RK (tateMixedAdd b p).2 (tateMixedAdd b' q).2 := by
  obtain ⟨hX, hY, hZ, hT⟩ := hp
  obtain ⟨bX, bY, bZ, bT⟩ := hb
  refine ⟨⟨?_, ?_, ?_, ?_⟩, ?_, ?_, ?_⟩ <;> dsimp only [tateMixedAdd] <;> relate o

theorem tatePrecompStep_relates (o : RelOps RK) {b : ExtCoord K} {b' : ExtCoord L} (hb : ExtRel RK b b') (bit : Bool)
    {s : ExtCoord K × List (ConicCoeffs K)} {s' : ExtCoord L × List (ConicCoeffs L)} (hs : PreRel RK s s') :
    Outcome.Rel (PreRel RK) (precompStep tateDouble tateMixedAdd b bit s) (precompStep tateDouble tateMixedAdd b' bit s') := by
  have h1 := tateDouble_relates o hs.1
  have h2 := forall₂_app hs.2 h1.2
  have h3 := tateMixedAdd_relates o hb h1.1
  dsimp only [precompStep]
  exact Outcome.Rel.ite Iff.rfl (.ok ⟨h3.1, forall₂_app h2 h3.2⟩) (.ok ⟨h1.1, h2⟩)

theorem tatePrecomputeG1_relates (H : Rel RK RT A A') {p : Coord3 K} {q : Coord3 L} (hp : Coord3.Rel RK p q) :
    Outcome.Rel (List.Forall₂ (ConicRel RK)) (A.tatePrecomputeG1 p) (A'.tatePrecomputeG1 q) := by
  unfold tatePrecomputeG1
  refine (Edw.toAffine_relates H.oK H.iK hp).bind @fun Q Q' hQ => ?_
  rw [H.modulusR]
  have hE : ExtRel RK ⟨Q.X, Q.Y, Q.Z, Q.X * Q.Y⟩ ⟨Q'.X, Q'.Y, Q'.Z, Q'.X * Q'.Y⟩ := ⟨hQ.1, hQ.2.1, hQ.2.2, H.oK.mul hQ.1 hQ.2.1⟩
  exact (ateLoop_relates (S := PreRel RK) (fun b _ _ hs => tatePrecompStep_relates H.oK hE b hs) _ _ ⟨hE, .nil⟩).map fun hs => hs.2

/-- Related results of the precomputation. -/
def TateG2Rel (RT : T → U → Prop) (s : EdwTateG2Precomp T) (s' : EdwTateG2Precomp U) : Prop := RT s.y0 s'.y0 ∧ RT s.eta s'.eta

theorem tatePrecomputeG2_relates (H : Rel RK RT A A') {p : Coord3 T} {q : Coord3 U} (hp : Coord3.Rel RT p q) :
    Outcome.Rel (TateG2Rel RT) (tatePrecomputeG2 nr p) (tatePrecomputeG2 nr' q) := by
  unfold tatePrecomputeG2
  refine (Edw.toAffine_relates H.o H.i hp).bind @fun Q Q' hQ => (H.i.inv hQ.2.2).bind fun h1 => (H.i.inv (H.nr hQ.1)).map fun h2 => ?_
  exact ⟨H.o.mul hQ.2.1 h1, H.o.mul (H.o.add hQ.2.2 hQ.2.1) h2⟩

theorem tateG_relates (H : Rel RK RT A A') {P : EdwTateG2Precomp T} {P' : EdwTateG2Precomp U} (hP : TateG2Rel RT P P') {c : ConicCoeffs K}
    {c' : ConicCoeffs L} (hc : ConicRel RK c c') : Quad.Rel RT (A.tateG P c) (A'.tateG P' c') :=
  ⟨H.o.add (H.embed hc.2.2) (H.scale hc.2.1 hP.1), H.scale hc.1 hP.2⟩

theorem tateMillerStep_relates (H : Rel RK RT A A') {P : EdwTateG2Precomp T} {P' : EdwTateG2Precomp U} (hP : TateG2Rel RT P P')
    {Q : List (ConicCoeffs K)} {Q' : List (ConicCoeffs L)} (hQ : List.Forall₂ (ConicRel RK) Q Q') (b : Bool) {s : Quad T nr × Nat}
    {s' : Quad U nr' × Nat} (hs : MilRel RT nr nr' s s') :
    Outcome.Rel (MilRel RT nr nr') (A.tateMillerStep Q P b s) (A'.tateMillerStep Q' P' b s') := by
  unfold tateMillerStep
  rw [hs.2]
  refine (vecAt_relates hQ _).bind @fun c c' hc => ?_
  have h1 := H.oL.mul (H.oL.squared hs.1) (tateG_relates H hP hc)
  refine Outcome.Rel.ite Iff.rfl ((vecAt_relates hQ _).map @fun c c' hc => ?_) (.ok ⟨h1, rfl⟩)
  exact ⟨H.oL.mul h1 (tateG_relates H hP hc), rfl⟩

/-- The pairing before the final exponentiation. -/
def tatePairing (A : AteEdw K T nr) (P : Coord3 K) (Q : Coord3 T) : Outcome (Quad T nr) :=
  (A.tatePrecomputeG1 P).bind fun prec_P => (tatePrecomputeG2 nr Q).bind fun prec_Q => A.tateMillerLoop prec_P prec_Q

theorem tatePairing_relates (H : Rel RK RT A A') {p : Coord3 K} {p' : Coord3 L} (hp : Coord3.Rel RK p p') {q : Coord3 T} {q' : Coord3 U}
    (hq : Coord3.Rel RT q q') : Outcome.Rel (Quad.Rel RT) (A.tatePairing p q) (A'.tatePairing p' q') := by
  refine (tatePrecomputeG1_relates H hp).bind fun h1 => (tatePrecomputeG2_relates H hq).bind fun h2 => ?_
  unfold tateMillerLoop
  rw [H.modulusR]
  exact (ateLoop_relates (S := MilRel RT nr nr') (fun b _ _ hs => tateMillerStep_relates H h2 h1 b hs) _ _ ⟨H.oL.one, rfl⟩).map fun hs => hs.1

end AteEdw

namespace edwards_K
/-- The Miller value of the generators. -/
def tv : Fq6 := ⟨⟨NM.of 4906113842493723803407581322290455220802090853245477243, NM.of 3634962231526254847529657627008419444930723488933617066, NM.of 5973133839473507515669342827289561316777925651889656498⟩, ⟨NM.of 2219809598697270718761246528723716533515322541033868984, NM.of 3991695298556111199267015932362867039369889687761029646, NM.of 2415009456556036539586970271440960712438462870574180906⟩⟩
theorem tv_eq : ate.tatePairing g1 g2 = .ok tv := by decide +kernel
theorem tv_ne : tv ≠ 0 := by decide +kernel
theorem tv_E : edwards_E < 2 ^ 1000 := by decide +kernel
theorem tv_pow : fastPow 1000 tv edwards_E ≠ 1 := by decide +kernel
end edwards_K

open edwards_K in
theorem edwards_tate_one : ∃ w, edwards_tate_reduced_pairing edwards_G1_one edwards_G2_one = .ok w ∧ w ≠ 1 := by
  have h := reduced_ne_one o6 C49_edwards (AteEdw.tatePairing_relates ate_rel g1_rel g2_rel) tv_eq tv_ne 1000 tv_E tv_pow
  unfold edwards_tate_reduced_pairing AteEdw.tateReducedPairing
  unfold AteEdw.tatePairing at h
  with_reducible_and_instances exact h

end Libff
