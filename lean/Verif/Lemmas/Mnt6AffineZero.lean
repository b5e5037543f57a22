import Verif.Lemmas.AffineRel
import Verif.Lemmas.Mnt6Zero
import Verif.Props.Ext

/-!
# The affine mnt6 pairing at the zero of G2
-/
namespace Libff
set_option synthInstance.maxSize 2000
set_option maxRecDepth 100000

namespace AteMnt

/-- The loop of indices of `affine_ate_miller_loop`. -/
def affIdxStep (n : Nat) (d : Int) (i : Nat) : Outcome Nat :=
  if i < n then if d ≠ 0 then if i + 1 < n then .ok (i + 2) else .ub else .ok (i + 1) else .ub

section
variable {K T : Type} [Add K] [Sub K] [Mul K] [Neg K] [Zero K] [One K] [DecidableEq K] [Squared K] [InverseO K]
  [Add T] [Sub T] [Mul T] [Neg T] [Zero T] [One T] [DecidableEq T] [Squared T] [InverseO T] {nr : T → T} (A : AteMnt K T nr)

theorem affine_inv {S : Quad T nr → Prop} (hsq : ∀ x, S x → S (squared x)) (P : MntAffineG1 K T) (Q : MntAffineG2 T)
    (hm : ∀ c ∈ Q.coeffs, ∀ f, S f →
      (∃ g, A.mulSparse f ⟨P.PY_twist_squared, A.scale (-P.PX) c.gamma_twist + c.gamma_X - c.old_RY⟩ = .ok g ∧ S g) ∧
      (∃ g, A.mulSparse f ⟨P.PY_twist_squared, A.scale (-P.PX) c.gamma_twist + c.gamma_X - Q.QY⟩ = .ok g ∧ S g) ∧
      ∃ g, A.mulSparse f ⟨P.PY_twist_squared, A.scale (-P.PX) c.gamma_twist + c.gamma_X + Q.QY⟩ = .ok g ∧ S g) :
    ∀ ds found f i j, S f → nafLoop (affIdxStep Q.coeffs.length) ds found i = .ok j →
      ∃ g, nafLoop (A.affineMillerStep P Q) ds found (f, i) = .ok (g, j) ∧ S g
  | [], _, f, i, j, hf, h => ⟨f, by cases h; rfl, hf⟩
  | d :: ds, found, f, i, j, hf, h => by
    unfold nafLoop at h ⊢
    by_cases hfd : found = false
    · rw [if_pos hfd] at h ⊢
      exact affine_inv hsq P Q hm ds _ f i j hf h
    · rw [if_neg hfd] at h ⊢
      obtain ⟨i', h1, h2⟩ := Outcome.bind_eq_ok.1 h
      have : ∃ g, A.affineMillerStep P Q d (f, i) = .ok (g, i') ∧ S g := by
        unfold affIdxStep at h1
        split_ifs at h1 with c1 c2 c3
        · obtain ⟨a, ham, hav, -⟩ := vecAt_lt c1
          obtain ⟨b, hbm, hbv, -⟩ := vecAt_lt c3
          obtain ⟨g1, e1, s1⟩ := (hm a ham _ (hsq _ hf)).1
          cases h1
          unfold affineMillerStep
          dsimp only
          rw [hav]
          by_cases hd : d > 0
          · obtain ⟨g2, e2, s2⟩ := (hm b hbm _ s1).2.1
            refine ⟨g2, ?_, s2⟩
            show (A.mulSparse _ _).bind _ = _
            rw [e1]
            refine (if_pos c2).trans ?_
            rw [hbv]
            simp only [if_pos hd]
            show (A.mulSparse _ _).map _ = _
            rw [e2]
            rfl
          · obtain ⟨g2, e2, s2⟩ := (hm b hbm _ s1).2.2
            refine ⟨g2, ?_, s2⟩
            show (A.mulSparse _ _).bind _ = _
            rw [e1]
            refine (if_pos c2).trans ?_
            rw [hbv]
            simp only [if_neg hd]
            show (A.mulSparse _ _).map _ = _
            rw [e2]
            rfl
        · obtain ⟨a, ham, hav, -⟩ := vecAt_lt c1
          obtain ⟨g1, e1, s1⟩ := (hm a ham _ (hsq _ hf)).1
          cases h1
          refine ⟨g1, ?_, s1⟩
          unfold affineMillerStep
          dsimp only
          rw [hav]
          show (A.mulSparse _ _).bind _ = _
          rw [e1]
          exact if_neg c2
      obtain ⟨g, hg, hS⟩ := this
      rw [hg]
      exact affine_inv hsq P Q hm ds _ g i' j hS h2

theorem affineReduced_ok {fe : Quad T nr → Outcome (Quad T nr)} {p : Coord3 K} {q : Coord3 T} {P : MntAffineG1 K T} {Q : MntAffineG2 T}
    {naf : List Int} {f v : Quad T nr} {j : Nat} (hP : A.affinePrecomputeG1 p = .ok P) (hQ : A.affinePrecomputeG2 q = .ok Q)
    (hn : findWnaf 1 A.loopCount = .ok naf) (h : nafLoop (A.affineMillerStep P Q) naf.reverse false (1, 0) = .ok (f, j)) (hf : fe f = .ok v) :
    A.affineReducedPairing fe p q = .ok v := by
  unfold affineReducedPairing
  rw [hP, hQ]
  show (A.affineMillerLoop P Q).bind fe = _
  have : A.affineMillerLoop P Q = .ok f := by
    unfold affineMillerLoop
    rw [hn]
    show (nafLoop (A.affineMillerStep P Q) naf.reverse false (1, 0)).map _ = _
    rw [h]
    rfl
  rw [this]
  exact hf

theorem affinePrecomputeG2_congr {q q' : Coord3 T} (h : Proj.toAffine q = Proj.toAffine q') :
    A.affinePrecomputeG2 q = A.affinePrecomputeG2 q' := by
  unfold affinePrecomputeG2
  rw [h]
end

section
variable {K : Type} [Zero K] {nr : K → K}

/-- The value lies in the base field. -/
def InBase (x : Cubic K nr) : Prop := x.c1 = 0 ∧ x.c2 = 0
/-- The shape of the coefficients. -/
def AffShape (n : Nat) (Q : MntAffineG2 (Cubic K nr)) : Prop :=
  InBase Q.QY ∧ (∀ c ∈ Q.coeffs, InBase c.gamma_twist ∧ InBase c.gamma_X ∧ InBase c.old_RY) ∧ Q.coeffs.length = n

instance decInBase [DecidableEq K] (x : Cubic K nr) : Decidable (InBase x) := by unfold InBase; infer_instance
instance decAffShape [DecidableEq K] (n : Nat) (Q : MntAffineG2 (Cubic K nr)) : Decidable (AffShape n Q) := by
  unfold AffShape; infer_instance

theorem AffShape.transfer {L : Type} [Zero L] {nr' : L → L} {R : K → L → Prop} (hz : ∀ a x, R a x → (a = 0 ↔ x = 0)) {n : Nat}
    {Q : MntAffineG2 (Cubic K nr)} {Q' : MntAffineG2 (Cubic L nr')} (h : AffG2Rel (Cubic.Rel R) Q Q') (hQ : AffShape n Q) :
    AffShape n Q' := by
  have key : ∀ (a : Cubic K nr) (x : Cubic L nr'), Cubic.Rel R a x → InBase a → InBase x := fun a x h hb =>
    ⟨(hz _ _ h.2.1).1 hb.1, (hz _ _ h.2.2).1 hb.2⟩
  refine ⟨key _ _ h.2.1 hQ.1, forall₂_all ?_ h.2.2 hQ.2.1, h.2.2.length_eq ▸ hQ.2.2⟩
  rintro a b ⟨-, h1, -, h2, h3⟩ ⟨q1, q2, q3⟩
  exact ⟨key _ _ h2 q1, key _ _ h3 q2, key _ _ h1 q3⟩
end

end AteMnt

namespace mnt6_K
/-- The signed digits of the loop count. -/
def naf : List Int := match findWnaf 1 mnt6_ate.loopCount with
  | .ok l => l
  | _ => []
theorem naf_eq : findWnaf 1 mnt6_ate.loopCount = .ok naf := by decide +kernel

theorem za_shape : (match ateA.affinePrecomputeG2 ⟨0, 1, 0⟩ with
    | .ok Q => decide (AteMnt.AffShape 196 Q)
    | _ => false) = true := by decide +kernel
theorem za_idx : AteMnt.nafLoop (AteMnt.affIdxStep 196) naf.reverse false 0 = .ok 196 := by decide +kernel

theorem za_precomp : ∃ Q, mnt6_ate.affinePrecomputeG2 ⟨0, 1, 0⟩ = .ok Q ∧ AteMnt.AffShape 196 Q := by
  have h := za_shape
  cases e : ateA.affinePrecomputeG2 ⟨0, 1, 0⟩ with
  | ok Q =>
    rw [e] at h
    obtain ⟨Q', h1, h2⟩ := (AteMnt.affinePrecomputeG2_relates ateA_rel z2_rel).ok_right e
    exact ⟨Q', h1, AteMnt.AffShape.transfer (fun _ _ h => o1.eq h o1.zero) h2 (of_decide_eq_true h)⟩
  | abort => rw [e] at h; exact absurd h (by decide)
  | ub => rw [e] at h; exact absurd h (by decide)

theorem good_sparse {f l : mnt6_Fq6} (hf : Good f) {y : mnt6_Fq} (hy : y ≠ 0) (h0 : l.c0 = ⟨0, 0, y⟩) (h1 : AteMnt.InBase l.c1) :
    ∃ g, mnt6_ate.mulSparse f l = .ok g ∧ Good g := by
  obtain ⟨⟨a, b, c⟩, ⟨v, w, z⟩⟩ := l
  cases h0
  obtain ⟨hw, hz⟩ := h1
  dsimp only at hw hz
  subst hw hz
  refine ⟨_, ?_, good_mul _ _ hf (good_line2 y v fun h => hy (congrArg (fun z : mnt6_Fq6 => z.c0.c2) h))⟩
  exact (C21_fp6_mul_by_2345 _ _ f ⟨⟨0, 0, y⟩, ⟨v, 0, 0⟩⟩).trans (if_pos ⟨rfl, rfl⟩)

theorem za_miller {y : mnt6_Fq} (hy : y ≠ 0) {P : MntAffineG1 mnt6_Fq mnt6_Fq3} (hP : P.PY_twist_squared = ⟨0, 0, y⟩)
    {Q : MntAffineG2 mnt6_Fq3} (hQ : AteMnt.AffShape 196 Q) :
    ∃ g, AteMnt.nafLoop (mnt6_ate.affineMillerStep P Q) naf.reverse false (1, 0) = .ok (g, 196) ∧ Good g := by
  have hi := za_idx
  rw [← hQ.2.2] at hi
  rw [← hQ.2.2]
  refine AteMnt.affine_inv mnt6_ate (S := Good) good_squared P Q ?_ _ _ 1 0 _ good_one hi
  intro c hc f hf
  obtain ⟨⟨g1, g2⟩, ⟨x1, x2⟩, r1, r2⟩ := hQ.2.1 c hc
  obtain ⟨y1, y2⟩ := hQ.1
  have hs1 : ∀ k : mnt6_Fq, (mnt6_ate.scale k c.gamma_twist).c1 = k * c.gamma_twist.c1 := fun _ => rfl
  have hs2 : ∀ k : mnt6_Fq, (mnt6_ate.scale k c.gamma_twist).c2 = k * c.gamma_twist.c2 := fun _ => rfl
  refine ⟨good_sparse hf hy hP ⟨?_, ?_⟩, good_sparse hf hy hP ⟨?_, ?_⟩, good_sparse hf hy hP ⟨?_, ?_⟩⟩ <;>
    simp [hs1, hs2, g1, g2, x1, x2, r1, r2, y1, y2]
end mnt6_K
end Libff
