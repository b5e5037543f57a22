import Verif.Lemmas.PairingEval
import Verif.Lemmas.OrderMnt6
import Verif.Lemmas.MillerDouble
import Verif.Props.ConstMnt6

/-!
# The mnt6 pairing at the zero of G2

The code runs its loops on `(0, 1)`, which is not on the twist. All line values are then eigenvectors of the square of the
Frobenius map, for third roots of unity, and the final exponentiation sends them to 1.
-/
namespace Libff
set_option synthInstance.maxSize 2000
set_option maxRecDepth 100000

namespace AteMnt

/-- The loop of indices of `ate_miller_loop`. -/
def idxStep (nd na : Nat) (bit : Bool) (s : Nat × Nat) : Outcome (Nat × Nat) :=
  if s.1 < nd then if bit then if s.2 < na then .ok (s.1 + 1, s.2 + 1) else .ub else .ok (s.1 + 1, s.2) else .ub

theorem vecAt_lt {α : Type*} {v : List α} {i : Nat} (h : i < v.length) : ∃ a ∈ v, vecAt v i = .ok a ∧ v[i]? = some a :=
  ⟨v[i], List.getElem_mem h, by simp [vecAt, h], by simp [h]⟩

section
variable {K T : Type} [Add K] [Sub K] [Mul K] [Neg K] [Zero K] [One K] [DecidableEq K] [Squared K] [InverseO K]
  [Add T] [Sub T] [Mul T] [Neg T] [Zero T] [One T] [DecidableEq T] [Squared T] [InverseO T] {nr : T → T} (A : AteMnt K T nr)

theorem miller_inv {S : Quad T nr → Prop} (hmul : ∀ x y, S x → S y → S (x * y)) (hsq : ∀ x, S x → S (squared x))
    (P : MntG1Precomp K T) (Q : MntG2Precomp T) {na : Nat} (hna : na ≤ Q.add_coeffs.length)
    (hd : ∀ d ∈ Q.dbl_coeffs, S (gRR P d)) (ha : ∀ a ∈ Q.add_coeffs.take na, S (gRQ (A.l1Coeff P Q) P Q a))
    (bit : Nat → Bool) : ∀ n found f i j t, S f → ateLoop bit (idxStep Q.dbl_coeffs.length na) n found (i, j) = .ok t →
      ∃ g, ateLoop bit (A.millerStep P Q) n found (f, i, j) = .ok (g, t) ∧ S g
  | 0, _, f, i, j, t, hf, h => ⟨f, by cases h; rfl, hf⟩
  | n + 1, found, f, i, j, t, hf, h => by
    unfold ateLoop at h ⊢
    by_cases hfd : found = false
    · rw [if_pos hfd] at h ⊢
      exact miller_inv hmul hsq P Q hna hd ha bit n _ f i j t hf h
    · rw [if_neg hfd] at h ⊢
      obtain ⟨⟨i', j'⟩, h1, h2⟩ := Outcome.bind_eq_ok.1 h
      have : ∃ g, A.millerStep P Q (bit n) (f, i, j) = .ok (g, i', j') ∧ S g := by
        unfold idxStep at h1
        dsimp only at h1
        split_ifs at h1 with c1 c2 c3
        · obtain ⟨d, hdm, hdv, -⟩ := vecAt_lt c1
          obtain ⟨a, ham, hav, hag⟩ := vecAt_lt (lt_of_lt_of_le c3 hna)
          have ham' : a ∈ Q.add_coeffs.take na := List.mem_of_getElem? (i := j) (by rw [List.getElem?_take_of_lt c3, hag])
          have h3 := hmul _ _ (hmul _ _ (hsq _ hf) (hd d hdm)) (ha a ham')
          cases h1
          refine ⟨_, ?_, h3⟩
          unfold millerStep
          dsimp only
          rw [hdv, hav]
          exact if_pos c2
        · obtain ⟨d, hdm, hdv, -⟩ := vecAt_lt c1
          have h3 := hmul _ _ (hsq _ hf) (hd d hdm)
          cases h1
          refine ⟨_, ?_, h3⟩
          unfold millerStep
          dsimp only
          rw [hdv]
          exact if_neg c2
      obtain ⟨g, hg, hS⟩ := this
      rw [hg]
      exact miller_inv hmul hsq P Q hna hd ha bit n _ g i' j' t hS h2
end

section
variable {K T : Type} [Add K] [Sub K] [Mul K] [Neg K] [Zero K] [One K] [DecidableEq K] [Squared K] [InverseO K]
  [Add T] [Sub T] [Mul T] [Neg T] [Zero T] [One T] [DecidableEq T] [Squared T] [InverseO T] {nr : T → T} (A : AteMnt K T nr)

theorem reduced_abort {fe : Quad T nr → Outcome (Quad T nr)} {p : Coord3 K} {q : Coord3 T} {P : MntG1Precomp K T} {Q : MntG2Precomp T}
    (hP : A.precomputeG1 p = .ok P) (hQ : A.precomputeG2 q = .ok Q) (h : A.millerLoop P Q = .abort) :
    A.reducedPairing fe p q = .abort := by
  unfold reducedPairing pairing
  rw [hP, hQ]
  show (A.millerLoop P Q).bind fe = _
  rw [h]; rfl

theorem reduced_ok {fe : Quad T nr → Outcome (Quad T nr)} {p : Coord3 K} {q : Coord3 T} {P : MntG1Precomp K T} {Q : MntG2Precomp T}
    {f v : Quad T nr} (hP : A.precomputeG1 p = .ok P) (hQ : A.precomputeG2 q = .ok Q) (h : A.millerLoop P Q = .ok f) (hf : fe f = .ok v) :
    A.reducedPairing fe p q = .ok v := by
  unfold reducedPairing pairing
  rw [hP, hQ]
  show (A.millerLoop P Q).bind fe = _
  rw [h]; exact hf

theorem precomputeG2_congr {q q' : Coord3 T} (h : Proj.toAffine q = Proj.toAffine q') : A.precomputeG2 q = A.precomputeG2 q' := by
  unfold precomputeG2
  rw [h]

theorem reduced_congr {fe : Quad T nr → Outcome (Quad T nr)} {p p' : Coord3 K} {q q' : Coord3 T}
    (h : Proj.toAffine p = Proj.toAffine p') (h' : Proj.toAffine q = Proj.toAffine q') :
    A.reducedPairing fe p q = A.reducedPairing fe p' q' := by
  unfold reducedPairing pairing precomputeG1
  rw [h, A.precomputeG2_congr h']
end

/-! ### The shape of the precomputed coefficients -/
section
variable {K : Type} [Zero K] {nr : K → K}

/-- A doubling line of the loop. -/
def DblShape (d : MntDblCoeffs (Cubic K nr)) : Prop :=
  (d.c_H.c0 ≠ 0 ∧ d.c_H.c1 = 0 ∧ d.c_H.c2 = 0) ∧ (d.c_4C.c1 = 0 ∧ d.c_4C.c2 = 0) ∧ (d.c_J.c0 = 0 ∧ d.c_J.c1 = 0) ∧
    d.c_L.c1 = 0 ∧ d.c_L.c2 = 0
/-- An addition line of the loop. -/
def AddShape (a : MntAddCoeffs (Cubic K nr)) : Prop :=
  (a.c_L1.c1 = 0 ∧ a.c_L1.c2 = 0) ∧ a.c_RZ.c0 = 0 ∧ a.c_RZ.c1 ≠ 0 ∧ a.c_RZ.c2 = 0
/-- The line after the loop. -/
def LastShape (a : MntAddCoeffs (Cubic K nr)) : Prop :=
  (a.c_L1.c0 ≠ 0 ∧ a.c_L1.c1 = 0 ∧ a.c_L1.c2 = 0) ∧ a.c_RZ.c0 = 0 ∧ a.c_RZ.c1 = 0 ∧ a.c_RZ.c2 = 0
/-- The precomputed values. -/
def ZShape (nd na : Nat) (Q : MntG2Precomp (Cubic K nr)) : Prop :=
  ((Q.QX_over_twist.c0 = 0 ∧ Q.QX_over_twist.c1 = 0 ∧ Q.QX_over_twist.c2 = 0) ∧ Q.QY_over_twist.c0 = 0 ∧ Q.QY_over_twist.c1 = 0) ∧
    (∀ d ∈ Q.dbl_coeffs, DblShape d) ∧ Q.dbl_coeffs.length = nd ∧ (∀ a ∈ Q.add_coeffs.take na, AddShape a) ∧
    (∀ a ∈ Q.add_coeffs.drop na, LastShape a) ∧ Q.add_coeffs.length = na + 1

instance decDblShape [DecidableEq K] (d : MntDblCoeffs (Cubic K nr)) : Decidable (DblShape d) := by unfold DblShape; infer_instance
instance decAddShape [DecidableEq K] (d : MntAddCoeffs (Cubic K nr)) : Decidable (AddShape d) := by unfold AddShape; infer_instance
instance decLastShape [DecidableEq K] (d : MntAddCoeffs (Cubic K nr)) : Decidable (LastShape d) := by unfold LastShape; infer_instance
instance decZShape [DecidableEq K] (nd na : Nat) (Q : MntG2Precomp (Cubic K nr)) : Decidable (ZShape nd na Q) := by
  unfold ZShape; infer_instance
end

theorem forall₂_all {α β : Type} {R : α → β → Prop} {p : α → Prop} {q : β → Prop} (h : ∀ a b, R a b → p a → q b) {l : List α}
    {l' : List β} (hl : List.Forall₂ R l l') (hp : ∀ a ∈ l, p a) : ∀ b ∈ l', q b := by
  induction hl with
  | nil => intro b hb; simp at hb
  | cons hab _ ih =>
    intro b hb
    rcases List.mem_cons.1 hb with rfl | hb
    · exact h _ _ hab (hp _ List.mem_cons_self)
    · exact ih (fun a ha => hp a (List.mem_cons_of_mem _ ha)) b hb

section
variable {K L : Type} [Zero K] [Zero L] {nr : K → K} {nr' : L → L} {R : K → L → Prop}

theorem ZShape.transfer (hz : ∀ a x, R a x → (a = 0 ↔ x = 0)) {nd na : Nat} {Q : MntG2Precomp (Cubic K nr)}
    {Q' : MntG2Precomp (Cubic L nr')} (h : G2Rel (Cubic.Rel R) Q Q') (hQ : ZShape nd na Q) : ZShape nd na Q' := by
  obtain ⟨hX, hY, hY2, hXt, hYt, hdbl, hadd⟩ := h
  obtain ⟨⟨⟨a0, a1, a2⟩, b0, b1⟩, hd, hn, ha, hl, hm⟩ := hQ
  refine ⟨⟨⟨(hz _ _ hXt.1).1 a0, (hz _ _ hXt.2.1).1 a1, (hz _ _ hXt.2.2).1 a2⟩, (hz _ _ hYt.1).1 b0, (hz _ _ hYt.2.1).1 b1⟩,
    forall₂_all ?_ hdbl hd, hdbl.length_eq ▸ hn, forall₂_all ?_ (List.forall₂_take na hadd) ha,
    forall₂_all ?_ (List.forall₂_drop na hadd) hl, hadd.length_eq ▸ hm⟩
  · rintro a b ⟨h1, h2, h3, h4⟩ ⟨⟨q1, q2, q3⟩, ⟨q4, q5⟩, ⟨q6, q7⟩, q8, q9⟩
    exact ⟨⟨fun e => q1 ((hz _ _ h1.1).2 e), (hz _ _ h1.2.1).1 q2, (hz _ _ h1.2.2).1 q3⟩, ⟨(hz _ _ h2.2.1).1 q4, (hz _ _ h2.2.2).1 q5⟩,
      ⟨(hz _ _ h3.1).1 q6, (hz _ _ h3.2.1).1 q7⟩, (hz _ _ h4.2.1).1 q8, (hz _ _ h4.2.2).1 q9⟩
  · rintro a b ⟨h1, h2⟩ ⟨⟨q1, q2⟩, q3, q4, q5⟩
    exact ⟨⟨(hz _ _ h1.2.1).1 q1, (hz _ _ h1.2.2).1 q2⟩, (hz _ _ h2.1).1 q3, fun e => q4 ((hz _ _ h2.2.1).2 e), (hz _ _ h2.2.2).1 q5⟩
  · rintro a b ⟨h1, h2⟩ ⟨⟨q0, q1, q2⟩, q3, q4, q5⟩
    exact ⟨⟨fun e => q0 ((hz _ _ h1.1).2 e), (hz _ _ h1.2.1).1 q1, (hz _ _ h1.2.2).1 q2⟩, (hz _ _ h2.1).1 q3, (hz _ _ h2.2.1).1 q4, (hz _ _ h2.2.2).1 q5⟩
end

/-! ### The shape of the lines -/
section
variable {K : Type} [Field K] {nr : K → K} {β : K} [hm : MulBy nr β] {nr2 : Cubic K nr → Cubic K nr}

/-- The precomputed values of the first argument, for the twist `⟨0, 1, 0⟩`. -/
def PShape (x y : K) (P : MntG1Precomp K (Cubic K nr)) : Prop := P.PX = x ∧ P.PX_twist = ⟨0, x, 0⟩ ∧ P.PY_twist = ⟨0, y, 0⟩

include hm in
theorem gRR_shape {x y : K} {P : MntG1Precomp K (Cubic K nr)} (hP : PShape x y P) {d : MntDblCoeffs (Cubic K nr)} (hd : DblShape d)
    (hy : y ≠ 0) : ∃ u v : K, v ≠ 0 ∧ (gRR P d : Quad (Cubic K nr) nr2) = ⟨⟨u, 0, 0⟩, ⟨0, v, 0⟩⟩ := by
  obtain ⟨-, hX, hY⟩ := hP
  obtain ⟨⟨q1, q2, q3⟩, ⟨q4, q5⟩, ⟨q6, q7⟩, q8, q9⟩ := hd
  refine ⟨(gRR P d : Quad (Cubic K nr) nr2).c0.c0, d.c_H.c0 * y, mul_ne_zero q1 hy, ?_⟩
  unfold gRR
  rw [hX, hY]
  refine Quad.ext (Cubic.ext rfl ?_ ?_) (Cubic.ext ?_ ?_ ?_) <;> simp [q2, q3, q4, q5, q6, q7, q8, q9]

include hm in
theorem gRQ_shape {x y : K} {P : MntG1Precomp K (Cubic K nr)} (hP : PShape x y P) {Q : MntG2Precomp (Cubic K nr)} {nd na : Nat}
    (hQ : ZShape nd na Q) {a : MntAddCoeffs (Cubic K nr)} (ha : AddShape a) (hy : y ≠ 0) :
    ∃ u v : K, u ≠ 0 ∧ (gRQ (⟨P.PX, 0, 0⟩ - Q.QX_over_twist) P Q a : Quad (Cubic K nr) nr2) = ⟨⟨0, 0, u⟩, ⟨v, 0, 0⟩⟩ := by
  obtain ⟨hx, hX, hY⟩ := hP
  obtain ⟨⟨⟨a0, a1, a2⟩, b0, b1⟩, -⟩ := hQ
  obtain ⟨⟨q1, q2⟩, q3, q4, q5⟩ := ha
  refine ⟨a.c_RZ.c1 * y, (gRQ (⟨P.PX, 0, 0⟩ - Q.QX_over_twist) P Q a : Quad (Cubic K nr) nr2).c1.c0, mul_ne_zero q4 hy, ?_⟩
  unfold gRQ
  rw [hY]
  refine Quad.ext (Cubic.ext ?_ ?_ ?_) (Cubic.ext rfl ?_ ?_) <;> simp [q1, q2, q3, q5, a0, a1, a2, b0, b1]

include hm in
theorem gRQ_last {x y : K} {P : MntG1Precomp K (Cubic K nr)} (hP : PShape x y P) {Q : MntG2Precomp (Cubic K nr)} {nd na : Nat}
    (hQ : ZShape nd na Q) {a : MntAddCoeffs (Cubic K nr)} (ha : LastShape a) :
    (gRQ (⟨P.PX, 0, 0⟩ - Q.QX_over_twist) P Q a : Quad (Cubic K nr) nr2) = ⟨⟨0, 0, 0⟩, ⟨-(x * a.c_L1.c0), 0, 0⟩⟩ := by
  obtain ⟨hx, hX, hY⟩ := hP
  obtain ⟨⟨⟨a0, a1, a2⟩, b0, b1⟩, -⟩ := hQ
  obtain ⟨⟨q0, q1, q2⟩, q3, q4, q5⟩ := ha
  unfold gRQ
  rw [hY]
  refine Quad.ext (Cubic.ext ?_ ?_ ?_) (Cubic.ext ?_ ?_ ?_) <;> simp [q1, q2, q3, q4, q5, a0, a1, a2, b0, b1, hx]
end

end AteMnt

/-- A point with `y = 0` is its own negative, so it is zero in a group of odd order. -/
theorem sw_y_ne_zero_of_odd_card {K : Type} [Field K] [DecidableEq K] {a b : K} {n : ℕ} (hn : Nat.card (sw a b).Point = n) (ho : Odd n)
    {x y : K} {h : (sw a b).Nonsingular x y} : y ≠ 0 := by
  rintro rfl
  have h1 : -WeierstrassCurve.Affine.Point.some x 0 h = WeierstrassCurve.Affine.Point.some x 0 h := by
    rw [WeierstrassCurve.Affine.Point.neg_some]
    congr 1
    simp [WeierstrassCurve.Affine.negY, weier]
  have h2 : (2 : ℕ) • WeierstrassCurve.Affine.Point.some x 0 h = 0 := by
    rw [two_nsmul]
    nth_rw 1 [← h1]
    exact neg_add_cancel _
  have h3 : n • WeierstrassCurve.Affine.Point.some x 0 h = 0 := by
    rw [← hn]
    exact card_nsmul_eq_zero'
  obtain ⟨k, rfl⟩ := ho
  rw [add_nsmul, mul_nsmul, h2, nsmul_zero, zero_add, one_nsmul] at h3
  exact WeierstrassCurve.Affine.Point.some_ne_zero h h3

/-- An eigenvector of the `q`-th power for a third root of unity. -/
theorem eigen_pow {L : Type*} [Field L] {x e : L} {q E : Nat} (hx : x ≠ 0) (hq : 0 < q) (h : x ^ q = e * x) (he : e * e * e = 1)
    (hE : (q - 1) * 3 ∣ E) : x ^ E = 1 := by
  obtain ⟨m, rfl⟩ := hE
  have : x ^ (q - 1) = e := by
    apply mul_right_cancel₀ hx
    rw [← h, ← pow_succ, Nat.sub_add_cancel hq]
  rw [pow_mul, pow_mul, this, pow_succ, pow_two, he, one_pow]

section
variable {K : Type} [Field K] {β γ : K}

theorem fp6_frob_line1 (c31 c32 c6 : Nat → K) (h : c6 2 * c31 2 = 1) (u v : K) :
    Fp6_2over3.frobeniusMap c31 c32 c6 2 (⟨⟨u, 0, 0⟩, ⟨0, v, 0⟩⟩ : Fp6_2over3 K β γ) = ⟨⟨u, 0, 0⟩, ⟨0, v, 0⟩⟩ := by
  simp [Fp6_2over3.frobeniusMap, Quad.frobMap, Fp3.frobeniusMap, Cubic.frobMap, Cubic.scale, ← mul_assoc, h]

theorem fp6_frob_line2 (c31 c32 c6 : Nat → K) (h : c32 2 = c6 2) (u v : K) :
    Fp6_2over3.frobeniusMap c31 c32 c6 2 (⟨⟨0, 0, u⟩, ⟨v, 0, 0⟩⟩ : Fp6_2over3 K β γ) =
      (⟨⟨c6 2, 0, 0⟩, ⟨0, 0, 0⟩⟩ : Fp6_2over3 K β γ) * ⟨⟨0, 0, u⟩, ⟨v, 0, 0⟩⟩ := by
  refine Quad.ext (Cubic.ext ?_ ?_ ?_) (Cubic.ext ?_ ?_ ?_) <;>
    simp [Fp6_2over3.frobeniusMap, Quad.frobMap, Fp3.frobeniusMap, Cubic.frobMap, Cubic.scale, h, Quad.mul_def, fp6nr]

theorem fp6_cube_one (z : K) (h : z * z * z = 1) : (⟨⟨z, 0, 0⟩, ⟨0, 0, 0⟩⟩ : Fp6_2over3 K β γ) * ⟨⟨z, 0, 0⟩, ⟨0, 0, 0⟩⟩ * ⟨⟨z, 0, 0⟩, ⟨0, 0, 0⟩⟩ = 1 := by
  refine Quad.ext (Cubic.ext ?_ ?_ ?_) (Cubic.ext ?_ ?_ ?_) <;>
    simp [Quad.mul_def, fp6nr, h]
end

namespace mnt6_K
theorem z_shape : (match ate.precomputeG2 ⟨0, 1, 0⟩ with
    | .ok Q => decide (AteMnt.ZShape 148 70 Q)
    | _ => false) = true := by decide +kernel
theorem z_idx : ateLoop (testBit mnt6_ate.loopCount) (AteMnt.idxStep 148 70) (bigintMaxBits mnt6_ate.loopCount) false (0, 0) =
    .ok (148, 70) := by decide +kernel

theorem z_precomp : ∃ Q, mnt6_ate.precomputeG2 ⟨0, 1, 0⟩ = .ok Q ∧ AteMnt.ZShape 148 70 Q := by
  have h := z_shape
  cases e : ate.precomputeG2 ⟨0, 1, 0⟩ with
  | ok Q =>
    rw [e] at h
    obtain ⟨Q', h1, h2⟩ := (AteMnt.precomputeG2_relates ate_rel z2_rel).ok_right e
    exact ⟨Q', h1, AteMnt.ZShape.transfer (fun _ _ h => o1.eq h o1.zero) h2 (of_decide_eq_true h)⟩
  | abort => rw [e] at h; exact absurd h (by decide)
  | ub => rw [e] at h; exact absurd h (by decide)

theorem t31 : R1 (NM.of (mnt6_Fq3_frob_c1.getD 2 0)) ((mnt6_Fq3_frob_c1.getD 2 0 : Nat) : mnt6_Fq) := FpRel.cast (by decide +kernel)
theorem t32 : R1 (NM.of (mnt6_Fq3_frob_c2.getD 2 0)) ((mnt6_Fq3_frob_c2.getD 2 0 : Nat) : mnt6_Fq) := FpRel.cast (by decide +kernel)
theorem t6 : R1 (NM.of (mnt6_Fq6_frob_c1.getD 2 0)) ((mnt6_Fq6_frob_c1.getD 2 0 : Nat) : mnt6_Fq) := FpRel.cast (by decide +kernel)
theorem t_mul : ((mnt6_Fq6_frob_c1.getD 2 0 : Nat) : mnt6_Fq) * ((mnt6_Fq3_frob_c1.getD 2 0 : Nat) : mnt6_Fq) = 1 :=
  (o1.eq (o1.mul t6 t31) o1.one).1 (by decide +kernel)
theorem t_eq : ((mnt6_Fq3_frob_c2.getD 2 0 : Nat) : mnt6_Fq) = ((mnt6_Fq6_frob_c1.getD 2 0 : Nat) : mnt6_Fq) :=
  (o1.eq t32 t6).1 (by decide +kernel)
theorem t_cube : ((mnt6_Fq6_frob_c1.getD 2 0 : Nat) : mnt6_Fq) * ((mnt6_Fq6_frob_c1.getD 2 0 : Nat) : mnt6_Fq) *
    ((mnt6_Fq6_frob_c1.getD 2 0 : Nat) : mnt6_Fq) = 1 :=
  (o1.eq (o1.mul (o1.mul t6 t6) t6) o1.one).1 (by decide +kernel)

/-- The values that the final exponentiation sends to 1. -/
def Good (x : mnt6_Fq6) : Prop := x ≠ 0 ∧ x ^ mnt6_final_exponent = 1

theorem q_dvd : (mnt6_Fq_params.p ^ 2 - 1) * 3 ∣ mnt6_final_exponent := by decide +kernel
theorem q_pos : 0 < mnt6_Fq_params.p ^ 2 := by decide +kernel

theorem good_line1 (u v : mnt6_Fq) (hv : v ≠ 0) : Good (⟨⟨u, 0, 0⟩, ⟨0, v, 0⟩⟩ : mnt6_Fq6) := by
  have h0 : (⟨⟨u, 0, 0⟩, ⟨0, v, 0⟩⟩ : mnt6_Fq6) ≠ 0 := fun h => hv (congrArg (fun z : mnt6_Fq6 => z.c1.c1) h)
  have h1 := C23_mnt6_Fq6 2 ⟨⟨u, 0, 0⟩, ⟨0, v, 0⟩⟩
  rw [fp6_frob_line1 _ _ _ t_mul] at h1
  exact ⟨h0, eigen_pow (e := 1) h0 q_pos (by rw [one_mul]; exact h1.symm) (by rw [one_mul, one_mul]) q_dvd⟩

theorem good_line2 (u v : mnt6_Fq) (h0 : (⟨⟨0, 0, u⟩, ⟨v, 0, 0⟩⟩ : mnt6_Fq6) ≠ 0) : Good (⟨⟨0, 0, u⟩, ⟨v, 0, 0⟩⟩ : mnt6_Fq6) := by
  have h1 := C23_mnt6_Fq6 2 ⟨⟨0, 0, u⟩, ⟨v, 0, 0⟩⟩
  rw [fp6_frob_line2 _ _ _ t_eq] at h1
  exact ⟨h0, eigen_pow h0 q_pos h1.symm (fp6_cube_one _ t_cube) q_dvd⟩

theorem good_mul (x y : mnt6_Fq6) (hx : Good x) (hy : Good y) : Good (x * y) :=
  ⟨mul_ne_zero hx.1 hy.1, by rw [mul_pow, hx.2, hy.2, one_mul]⟩
theorem good_squared (x : mnt6_Fq6) (hx : Good x) : Good (squared x) := by
  rw [LawfulSquared.squared_eq]; exact good_mul _ _ hx hx
theorem good_one : Good 1 := ⟨one_ne_zero, one_pow _⟩
theorem good_inv (x : mnt6_Fq6) (hx : Good x) : Good x⁻¹ := ⟨inv_ne_zero hx.1, by rw [inv_pow, hx.2, inv_one]⟩

/-- The Miller value. -/
theorem z_miller {x y : mnt6_Fq} (hy : y ≠ 0) {P : MntG1Precomp mnt6_Fq mnt6_Fq3} (hP : AteMnt.PShape x y P)
    {Q : MntG2Precomp mnt6_Fq3} (hQ : AteMnt.ZShape 148 70 Q) :
    (x = 0 → mnt6_ate.millerLoop P Q = .abort) ∧ (x ≠ 0 → ∃ f, mnt6_ate.millerLoop P Q = .ok f ∧ Good f) := by
  have hd : ∀ d ∈ Q.dbl_coeffs, Good (AteMnt.gRR P d) := fun d hd => by
    obtain ⟨u, v, hv, e⟩ := AteMnt.gRR_shape (nr2 := fp6nr mnt6_β) hP (hQ.2.1 d hd) hy
    rw [e]; exact good_line1 u v hv
  have ha : ∀ a ∈ Q.add_coeffs.take 70, Good (AteMnt.gRQ (mnt6_ate.l1Coeff P Q) P Q a) := fun a ha => by
    obtain ⟨u, v, hu, e⟩ := AteMnt.gRQ_shape (nr2 := fp6nr mnt6_β) hP hQ (hQ.2.2.2.1 a ha) hy
    have h : Good (⟨⟨0, 0, u⟩, ⟨v, 0, 0⟩⟩ : mnt6_Fq6) := good_line2 u v fun h => hu (congrArg (fun z : mnt6_Fq6 => z.c0.c2) h)
    rw [← e] at h
    exact h
  have hlen := hQ.2.2.2.2.2
  have hi := z_idx
  have hnd := hQ.2.2.1
  rw [← hnd] at hi
  obtain ⟨g, hg, hG⟩ := AteMnt.miller_inv mnt6_ate (S := Good) good_mul good_squared P Q (by omega) hd ha _ _ _ 1 0 0 _ good_one hi
  have hm : 70 < Q.add_coeffs.length := by omega
  obtain ⟨a, -, hav, hag⟩ := AteMnt.vecAt_lt hm
  have hmem : a ∈ Q.add_coeffs.drop 70 := List.mem_of_getElem? (i := 0) (by rw [List.getElem?_drop]; exact hag)
  have hL := hQ.2.2.2.2.1 a hmem
  have e := AteMnt.gRQ_last (nr2 := fp6nr mnt6_β) hP hQ hL
  have hrun : mnt6_ate.millerLoop P Q = inverseO (g * (⟨⟨0, 0, 0⟩, ⟨-(x * a.c_L1.c0), 0, 0⟩⟩ : mnt6_Fq6)) := by
    rw [← e]
    unfold AteMnt.millerLoop
    rw [hg]
    show (vecAt Q.add_coeffs 70).bind _ = _
    rw [hav]
    rfl
  constructor
  · rintro rfl
    have : (⟨⟨0, 0, 0⟩, ⟨-(0 * a.c_L1.c0), 0, 0⟩⟩ : mnt6_Fq6) = 0 := by rw [zero_mul, neg_zero]; rfl
    rw [hrun, this, mul_zero]
    exact LawfulInverse.inverseO_zero
  · intro hx
    have hl : Good (⟨⟨0, 0, 0⟩, ⟨-(x * a.c_L1.c0), 0, 0⟩⟩ : mnt6_Fq6) :=
      good_line2 0 _ fun h => neg_ne_zero.2 (mul_ne_zero hx hL.1.1) (congrArg (fun z : mnt6_Fq6 => z.c1.c0) h)
    have h2 := good_mul _ _ hG hl
    exact ⟨_, hrun.trans (LawfulInverse.inverseO_ne _ h2.1), good_inv _ h2⟩

end mnt6_K

end Libff
