import Verif.Lemmas.PairingEval

/-!
# Evaluating the affine ate pairings inside the kernel
-/
namespace Libff
set_option linter.unusedSectionVars false
set_option synthInstance.maxSize 2000
namespace AteMnt
variable {K L T U : Type} [Zero K] [One K] [Add K] [Sub K] [Neg K] [Mul K] [Squared K] [DecidableEq K] [InverseO K]
  [Zero L] [One L] [Add L] [Sub L] [Neg L] [Mul L] [Squared L] [DecidableEq L] [InverseO L]
  [Zero T] [One T] [Add T] [Sub T] [Neg T] [Mul T] [Squared T] [DecidableEq T] [InverseO T]
  [Zero U] [One U] [Add U] [Sub U] [Neg U] [Mul U] [Squared U] [DecidableEq U] [InverseO U]
  {RK : K → L → Prop} {RT : T → U → Prop} {nr : T → T} {nr' : U → U} {A : AteMnt K T nr} {A' : AteMnt L U nr'}

theorem nafLoop_relates {σ τ : Type} {S : σ → τ → Prop} {f : Int → σ → Outcome σ} {g : Int → τ → Outcome τ}
    (h : ∀ d s t, S s t → Outcome.Rel S (f d s) (g d t)) :
    ∀ ds found {s t}, S s t → Outcome.Rel S (nafLoop f ds found s) (nafLoop g ds found t)
  | [], _, _, _, hs => .ok hs
  | d :: ds, found, _, _, hs => by
    unfold nafLoop
    exact Outcome.Rel.ite Iff.rfl (nafLoop_relates h ds _ hs) ((h _ _ _ hs).bind fun hs => nafLoop_relates h ds _ hs)

/-- Related coefficients. -/
def AffRel (RT : T → U → Prop) (c : MntAffineCoeffs T) (c' : MntAffineCoeffs U) : Prop :=
  RT c.old_RX c'.old_RX ∧ RT c.old_RY c'.old_RY ∧ RT c.gamma c'.gamma ∧ RT c.gamma_twist c'.gamma_twist ∧ RT c.gamma_X c'.gamma_X
/-- Related states. -/
def AffPreRel (RT : T → U → Prop) (s : T × T × List (MntAffineCoeffs T)) (s' : U × U × List (MntAffineCoeffs U)) : Prop :=
  RT s.1 s'.1 ∧ RT s.2.1 s'.2.1 ∧ List.Forall₂ (AffRel RT) s.2.2 s'.2.2
/-- Related precomputed values. -/
def AffG2Rel (RT : T → U → Prop) (s : MntAffineG2 T) (s' : MntAffineG2 U) : Prop :=
  RT s.QX s'.QX ∧ RT s.QY s'.QY ∧ List.Forall₂ (AffRel RT) s.coeffs s'.coeffs
/-- Related precomputed values. -/
def AffG1Rel (RK : K → L → Prop) (RT : T → U → Prop) (s : MntAffineG1 K T) (s' : MntAffineG1 L U) : Prop :=
  RK s.PX s'.PX ∧ RK s.PY s'.PY ∧ RT s.PY_twist_squared s'.PY_twist_squared

theorem affinePrecompStep_relates (H : Rel RK RT A A') {QX QY : T} {QX' QY' : U} (hX : RT QX QX') (hY : RT QY QY') (d : Int)
    {s : T × T × List (MntAffineCoeffs T)} {s' : U × U × List (MntAffineCoeffs U)} (hs : AffPreRel RT s s') :
    Outcome.Rel (AffPreRel RT) (A.affinePrecompStep QX QY d s) (A'.affinePrecompStep QX' QY' d s') := by
  obtain ⟨h1, h2, h3⟩ := hs
  unfold affinePrecompStep
  refine (H.i.inv (H.o.add h2 h2)).bind @fun i i' hi => ?_
  have hq := H.o.squared h1
  have hg := H.o.mul (H.o.add (H.o.add (H.o.add hq hq) hq) H.twistA) hi
  have hRX := H.o.sub (H.o.squared hg) (H.o.add h1 h1)
  have hRY := H.o.sub (H.o.mul hg (H.o.sub h1 hRX)) h2
  have hc := forall₂_app h3 (show AffRel RT ⟨s.1, s.2.1, _, _, _⟩ ⟨s'.1, s'.2.1, _, _, _⟩ from ⟨h1, h2, hg, H.o.mul hg H.twist, H.o.mul hg h1⟩)
  refine Outcome.Rel.ite Iff.rfl ?_ (.ok ⟨hRX, hRY, hc⟩)
  refine (H.i.inv (H.o.sub hRX hX)).map @fun j j' hj => ?_
  have key : ∀ {g : T} {g' : U}, RT g g' → ∀ {x y : T} {x' y' : U}, RT x x' → RT y y' → ∀ {cs cs'}, List.Forall₂ (AffRel RT) cs cs' →
      AffPreRel RT (squared g - (x + QX), g * (x - (squared g - (x + QX))) - y, cs ++ [⟨x, y, g, g * A.twist, g * QX⟩])
        (squared g' - (x' + QX'), g' * (x' - (squared g' - (x' + QX'))) - y', cs' ++ [⟨x', y', g', g' * A'.twist, g' * QX'⟩]) := by
    intro g g' hg x y x' y' hx hy cs cs' hcs
    have h4 := H.o.sub (H.o.squared hg) (H.o.add hx hX)
    exact ⟨h4, H.o.sub (H.o.mul hg (H.o.sub hx h4)) hy, forall₂_app hcs ⟨hx, hy, hg, H.o.mul hg H.twist, H.o.mul hg hX⟩⟩
  by_cases hd : d > 0
  · simp only [if_pos hd]
    exact key (H.o.mul (H.o.sub hRY hY) hj) hRX hRY hc
  · simp only [if_neg hd]
    exact key (H.o.mul (H.o.add hRY hY) hj) hRX hRY hc

theorem outcome_bind_same {α β γ : Type} {S : β → γ → Prop} (o : Outcome α) {f : α → Outcome β} {g : α → Outcome γ}
    (h : ∀ a, Outcome.Rel S (f a) (g a)) : Outcome.Rel S (o.bind f) (o.bind g) := by
  cases o with
  | ok a => exact h a
  | abort => exact .abort
  | ub => exact .ub

theorem affinePrecomputeG2_relates (H : Rel RK RT A A') {p : Coord3 T} {q : Coord3 U} (hp : Coord3.Rel RT p q) :
    Outcome.Rel (AffG2Rel RT) (A.affinePrecomputeG2 p) (A'.affinePrecomputeG2 q) := by
  unfold affinePrecomputeG2
  refine (Proj.toAffine_relates H.o H.i hp).bind @fun Q Q' hQ => ?_
  rw [H.loopCount]
  refine outcome_bind_same _ fun naf => ?_
  refine (nafLoop_relates (S := AffPreRel RT) (fun d _ _ hs => affinePrecompStep_relates H hQ.1 hQ.2.1 d hs) _ _
    (⟨hQ.1, hQ.2.1, .nil⟩)).map @fun s s' hs => ⟨hQ.1, hQ.2.1, hs.2.2⟩

theorem affinePrecomputeG1_relates (H : Rel RK RT A A') {p : Coord3 K} {q : Coord3 L} (hp : Coord3.Rel RK p q) :
    Outcome.Rel (AffG1Rel RK RT) (A.affinePrecomputeG1 p) (A'.affinePrecomputeG1 q) := by
  unfold affinePrecomputeG1
  exact (Proj.toAffine_relates H.oK H.iK hp).map @fun P P' hP => ⟨hP.1, hP.2.1, H.scale hP.2.1 (H.o.squared H.twist)⟩

/-- Related states of the Miller loop. -/
def AffMilRel (RT : T → U → Prop) (nr : T → T) (nr' : U → U) (s : Quad T nr × Nat) (s' : Quad U nr' × Nat) : Prop :=
  Quad.Rel RT s.1 s'.1 ∧ s.2 = s'.2

/-- Related sparse multiplications. -/
def SparseRel (RT : T → U → Prop) (A : AteMnt K T nr) (A' : AteMnt L U nr') : Prop :=
  ∀ {f g : Quad T nr} {f' g' : Quad U nr'}, Quad.Rel RT f f' → Quad.Rel RT g g' →
    Outcome.Rel (Quad.Rel RT) (A.mulSparse f g) (A'.mulSparse f' g')

theorem affineMillerStep_relates (H : Rel RK RT A A') (hm : SparseRel RT A A') {P : MntAffineG1 K T} {P' : MntAffineG1 L U}
    (hP : AffG1Rel RK RT P P') {Q : MntAffineG2 T} {Q' : MntAffineG2 U} (hQ : AffG2Rel RT Q Q') (d : Int) {s : Quad T nr × Nat}
    {s' : Quad U nr' × Nat} (hs : AffMilRel RT nr nr' s s') :
    Outcome.Rel (AffMilRel RT nr nr') (A.affineMillerStep P Q d s) (A'.affineMillerStep P' Q' d s') := by
  unfold affineMillerStep
  rw [hs.2]
  refine (vecAt_relates hQ.2.2 _).bind @fun c c' hc => ?_
  refine (hm ((H.o.quad H.nr).squared hs.1) ⟨hP.2.2, H.o.sub (H.o.add (H.scale (H.oK.neg hP.1) hc.2.2.2.1) hc.2.2.2.2) hc.2.1⟩).bind @fun f f' hf => ?_
  refine Outcome.Rel.ite Iff.rfl ?_ (.ok ⟨hf, rfl⟩)
  refine (vecAt_relates hQ.2.2 _).bind @fun c c' hc => ?_
  refine (hm hf ?_).map @fun f f' hf => ⟨hf, rfl⟩
  by_cases hd : d > 0
  · simp only [if_pos hd]
    exact ⟨hP.2.2, H.o.sub (H.o.add (H.scale (H.oK.neg hP.1) hc.2.2.2.1) hc.2.2.2.2) hQ.2.1⟩
  · simp only [if_neg hd]
    exact ⟨hP.2.2, H.o.add (H.o.add (H.scale (H.oK.neg hP.1) hc.2.2.2.1) hc.2.2.2.2) hQ.2.1⟩

/-- The Miller value of `affine_reduced_pairing`. -/
def affineValue (A : AteMnt K T nr) (P : Coord3 K) (Q : Coord3 T) : Outcome (Quad T nr) :=
  (A.affinePrecomputeG1 P).bind fun prec_P => (A.affinePrecomputeG2 Q).bind fun prec_Q => A.affineMillerLoop prec_P prec_Q

theorem affineReducedPairing_value (A : AteMnt K T nr) (fe : Quad T nr → Outcome (Quad T nr)) (p : Coord3 K) (q : Coord3 T) :
    A.affineReducedPairing fe p q = (A.affineValue p q).bind fe := by
  unfold affineReducedPairing affineValue
  cases A.affinePrecomputeG1 p with
  | ok P =>
    cases A.affinePrecomputeG2 q with
    | ok Q => rfl
    | abort => rfl
    | ub => rfl
  | abort => rfl
  | ub => rfl

theorem affineReduced_congr (A : AteMnt K T nr) {fe : Quad T nr → Outcome (Quad T nr)} {p p' : Coord3 K} {q q' : Coord3 T}
    (h : Proj.toAffine p = Proj.toAffine p') (h' : Proj.toAffine q = Proj.toAffine q') :
    A.affineReducedPairing fe p q = A.affineReducedPairing fe p' q' := by
  unfold affineReducedPairing affinePrecomputeG1 affinePrecomputeG2
  rw [h, h']

theorem affineValue_relates (H : Rel RK RT A A') (hm : SparseRel RT A A') {p : Coord3 K} {p' : Coord3 L} (hp : Coord3.Rel RK p p')
    {q : Coord3 T} {q' : Coord3 U} (hq : Coord3.Rel RT q q') : Outcome.Rel (Quad.Rel RT) (A.affineValue p q) (A'.affineValue p' q') := by
  unfold affineValue
  refine (affinePrecomputeG1_relates H hp).bind @fun P P' hP => (affinePrecomputeG2_relates H hq).bind @fun Q Q' hQ => ?_
  unfold affineMillerLoop
  rw [H.loopCount]
  refine outcome_bind_same _ fun naf => ?_
  exact (nafLoop_relates (S := AffMilRel RT nr nr') (fun d _ _ hs => affineMillerStep_relates H hm hP hQ d hs) _ _
    (⟨(H.o.quad H.nr).one, rfl⟩)).map @fun s s' hs => hs.1
end AteMnt

section
variable {K L : Type} [Zero K] [One K] [Add K] [Sub K] [Neg K] [Mul K] [Squared K] [DecidableEq K]
  [Zero L] [One L] [Add L] [Sub L] [Neg L] [Mul L] [Squared L] [DecidableEq L] {R : K → L → Prop}

theorem mulBy023_relates (h : RelOps R) {β : K} {β' : L} (hβ : R β β') {f g : Fp4 K β β} {f' g' : Fp4 L β' β'}
    (hf : Quad.Rel (Quad.Rel R) f f') (hg : Quad.Rel (Quad.Rel R) g g') :
    Outcome.Rel (Quad.Rel (Quad.Rel R)) (Fp4.mulBy023 f g) (Fp4.mulBy023 f' g') := by
  have o2 : RelOps (Quad.Rel R : Fp2 K β → Fp2 L β' → Prop) := h.quad (h.mulConst hβ)
  unfold Fp4.mulBy023
  refine Outcome.Rel.ite (not_congr (h.eq hg.1.2 h.zero)) .abort (.ok ?_)
  have hb := o2.mul hf.2 hg.2
  have ha : (Quad.Rel R : Fp2 K β → Fp2 L β' → Prop) ⟨f.c0.c0 * g.c0.c0, f.c0.c1 * g.c0.c0⟩ ⟨f'.c0.c0 * g'.c0.c0, f'.c0.c1 * g'.c0.c0⟩ :=
    ⟨h.mul hf.1.1 hg.1.1, h.mul hf.1.2 hg.1.1⟩
  exact ⟨o2.add ha (h.fp4nr hβ hb), o2.sub (o2.sub (o2.mul (o2.add hf.1 hf.2) (o2.add hg.1 hg.2)) ha) hb⟩

theorem mulBy2345_relates (h : RelOps R) {β : K} {β' : L} (hβ : R β β') {f g : Fp6_2over3 K β β} {f' g' : Fp6_2over3 L β' β'}
    (hf : Quad.Rel (Cubic.Rel R) f f') (hg : Quad.Rel (Cubic.Rel R) g g') :
    Outcome.Rel (Quad.Rel (Cubic.Rel R)) (Fp6_2over3.mulBy2345 f g) (Fp6_2over3.mulBy2345 f' g') := by
  have o3 : RelOps (Cubic.Rel R : Fp3 K β → Fp3 L β' → Prop) := h.cubic (h.mulConst hβ)
  unfold Fp6_2over3.mulBy2345
  refine Outcome.Rel.ite (not_congr (h.eq hg.1.1 h.zero)) .abort (Outcome.Rel.ite (not_congr (h.eq hg.1.2.1 h.zero)) .abort (.ok ?_))
  have hb := o3.mul hf.2 hg.2
  have ha : (Cubic.Rel R : Fp3 K β → Fp3 L β' → Prop) ⟨f.c0.c1 * g.c0.c2 * β, f.c0.c2 * g.c0.c2 * β, f.c0.c0 * g.c0.c2⟩
      ⟨f'.c0.c1 * g'.c0.c2 * β', f'.c0.c2 * g'.c0.c2 * β', f'.c0.c0 * g'.c0.c2⟩ :=
    ⟨h.mul (h.mul hf.1.2.1 hg.1.2.2) hβ, h.mul (h.mul hf.1.2.2 hg.1.2.2) hβ, h.mul hf.1.1 hg.1.2.2⟩
  exact ⟨o3.add ha (h.fp6nr hβ hb), o3.sub (o3.sub (o3.mul (o3.add hf.1 hf.2) (o3.add hg.1 hg.2)) ha) hb⟩
end

namespace mnt4_K
/-- `mnt4_ate` over `NM p`, with the sparse multiplication. -/
def ateA : AteMnt Fq Fq2 (fp4nr β) := { ate with mulSparse := Fp4.mulBy023 }
theorem ateA_rel : AteMnt.Rel R1 R2 ateA mnt4_ate := { ate_rel with }
theorem ateA_sparse : AteMnt.SparseRel R2 ateA mnt4_ate := fun hf hg => mulBy023_relates o1 rβ hf hg
end mnt4_K
namespace mnt6_K
/-- `mnt6_ate` over `NM p`, with the sparse multiplication. -/
def ateA : AteMnt Fq Fq3 (fp6nr β) := { ate with mulSparse := Fp6_2over3.mulBy2345 }
theorem ateA_rel : AteMnt.Rel R1 R3 ateA mnt6_ate := { ate_rel with }
theorem ateA_sparse : AteMnt.SparseRel R3 ateA mnt6_ate := fun hf hg => mulBy2345_relates o1 rβ hf hg
end mnt6_K
end Libff
