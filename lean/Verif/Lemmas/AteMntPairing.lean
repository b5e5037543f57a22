import Verif.Lemmas.AteMntBilin

/-!
# The pairing functions of mnt4 and mnt6 in terms of Miller functions
-/
namespace Libff
set_option linter.unusedSectionVars false
open WeierstrassCurve Affine

section
variable {K T : Type} [Field K] [DecidableEq K] [Squared K] [LawfulSquared K] [InverseO K] [LawfulInverse K]
  [Field T] [DecidableEq T] [Squared T] [LawfulSquared T] [InverseO T] [LawfulInverse T] {nr : T → T} {u : T} [MulBy nr u]
  [Fact (¬ IsSquare u)]

/-- The parameters of the pairing. -/
structure MntParams (A : AteMnt K T nr) (ε : K →+* T) (u : T) (r : ℕ) : Prop where
  embed : ∀ x, A.embed x = ε x
  scale : ∀ x t, A.scale x t = ε x * t
  eight : A.eight = 8
  twist : A.twist = u
  two : (2 : T) ≠ 0
  pos : 1 ≤ val A.loopCount
  lt : val A.loopCount < r
  r2 : ¬ (r : ℤ) ∣ 2 * val A.loopCount

namespace AteMnt

/-- The embedding of the twist's field. -/
def tau : T →+* Quad T nr := Quad.ofBase

theorem tau_add (a b : T) : (⟨a, b⟩ : Quad T nr) = tau a + tau b * Quad.gen := Quad.eq_ofBase_add _

variable {A : AteMnt K T nr} {ε : K →+* T} {r : ℕ}

theorem gRR_eq (M : MntParams A ε u r) (x y : K) (dc : MntDblCoeffs T) :
    (gRR ⟨x, y, A.scale x A.twist, A.scale y A.twist⟩ dc : Quad T nr) = mntD ((tau (nr := nr)).comp ε) tau u Quad.gen x y dc := by
  rw [gRR, tau_add, mntD]
  simp only [M.scale, M.twist, RingHom.comp_apply, map_mul, map_add, map_sub, map_neg]
  ring

theorem gRQ_eq (M : MntParams A ε u r) (x y : K) (ac : MntAddCoeffs T) {pq : MntG2Precomp T} {xQ yQ : T}
    (hx : pq.QX_over_twist = xQ * u⁻¹) (hy : pq.QY_over_twist = yQ * u⁻¹) :
    (gRQ (A.l1Coeff ⟨x, y, A.scale x A.twist, A.scale y A.twist⟩ pq) ⟨x, y, A.scale x A.twist, A.scale y A.twist⟩ pq ac : Quad T nr) =
      mntA ((tau (nr := nr)).comp ε) tau u Quad.gen xQ yQ x y ac := by
  rw [gRQ, tau_add, mntA, l1Coeff, hx, hy, M.embed]
  simp only [M.scale, M.twist, RingHom.comp_apply, map_mul, map_add, map_sub, map_neg]
  ring

/-- The state of the loop as a tuple. -/
def toTuple (s : PrecompState T) : ExtCoord T × List (MntDblCoeffs T) × List (MntAddCoeffs T) := (s.R, s.dbl, s.add)

theorem toTuple_ok {o : Outcome (PrecompState T)} {R ds as} (h : o.map toTuple = .ok (R, ds, as)) : o = .ok ⟨R, ds, as⟩ := by
  cases o with
  | ok s =>
    obtain ⟨R', ds', as'⟩ := s
    simp only [Outcome.map, toTuple, Outcome.ok.injEq, Prod.mk.injEq] at h
    obtain ⟨rfl, rfl, rfl⟩ := h
    rfl
  | abort => cases h
  | ub => cases h

theorem precomp_loop (A : AteMnt K T nr) (x y z : T) (bit : ℕ → Bool) (k : ℕ) (f : Bool) (s : PrecompState T) :
    ateLoop bit (genPre2 A.double (mixedAdd x y z)) k f (toTuple s) = (ateLoop bit (A.precompStep x y z) k f s).map toTuple :=
  ateLoop_map toTuple (fun b s => by
    unfold genPre2 precompStep
    cases b <;> rfl) k f s

theorem miller_step (M : MntParams A ε u r) (x y : K) {pq : MntG2Precomp T} {xQ yQ : T}
    (hx : pq.QX_over_twist = xQ * u⁻¹) (hy : pq.QY_over_twist = yQ * u⁻¹) :
    A.millerStep ⟨x, y, A.scale x A.twist, A.scale y A.twist⟩ pq = genMil2 (L := Quad T nr) squared
      (mntD ((tau (nr := nr)).comp ε) tau u Quad.gen x y) (mntA ((tau (nr := nr)).comp ε) tau u Quad.gen xQ yQ x y) (pq.dbl_coeffs, pq.add_coeffs) := by
  funext b s
  unfold millerStep genMil2
  simp only [gRR_eq M, gRQ_eq M x y _ hx hy]

variable {a b : K} {b' : T} {cx cy : Quad T nr} {qX qY : T} {q E : ℕ} {g : (sw A.twistA b').Point}
  (S : AteSetup (L := Quad T nr) ((tau (nr := nr)).comp ε) tau a b A.twistA b' cx cy qX qY q r E g)

/-- The value of the reduced pairing. -/
noncomputable def ateVal (P : (sw a b).Point) (Q : (sw A.twistA b').Point) : Quad T nr :=
  if A.loopNeg then (millerVal (rho (Quad T nr) E) (val A.loopCount) (S.psi Q) (S.inc P))⁻¹
  else millerVal (rho (Quad T nr) E) (val A.loopCount) (S.psi Q) (S.inc P)

theorem ateVal_bilin (h : (val A.loopCount : ℤ) ≡ (if A.loopNeg then -q else q) [ZMOD r]) :
    BilinMap (AddSubgroup.zmultiples g) (ateVal S) := by
  unfold ateVal
  cases hn : A.loopNeg with
  | true =>
    rw [hn, if_pos rfl] at h
    exact S.bilinMap (Good.bilin S.sep (S.good_modEq (S.good_q.neg S.sep) h)).inv
  | false =>
    rw [hn, if_neg (by simp)] at h
    exact S.bilinMap (Good.bilin S.sep (S.good_modEq S.good_q h))

theorem pairing_value (M : MntParams A ε u r) (W : MntRoots (L := Quad T nr) tau u cx cy Quad.gen E) (hE : E ≠ 0)
    {x0 y0 : K} (hP : (sw a b).Nonsingular x0 y0) {p : Coord3 K} {z0 : K} (hp : Proj.toAffine p = .ok ⟨x0, y0, z0⟩)
    {x y : T} {hxy : (sw A.twistA b').Nonsingular x y} (hQ : Point.some x y hxy ∈ AddSubgroup.zmultiples g)
    {Q : Coord3 T} {z : T} (hQc : Proj.toAffine Q = .ok ⟨x, y, z⟩) :
    ∃ f, A.pairing p Q = .ok f ∧ f ^ E = ateVal S (.some x0 y0 hP) (.some x y hxy) := by
  have h8 : ∀ x, A.scale (-A.eight) x = -8 * x := fun x => by rw [M.scale, M.eight, map_neg, map_ofNat]
  have hk : val A.loopCount < 2 ^ bigintMaxBits A.loopCount := by
    rw [bigintMaxBits, mul_comm]; exact val_lt _
  obtain ⟨R, ds, as, f, e1, e2, e3, e4⟩ := WAteSetup.mnt_loops S h8 M.two W hQ M.pos M.lt hk hP
    (sq := squared) (fun f => LawfulSquared.squared_eq f)
  rw [← testBit_fun] at e1
  simp only [← testBit_fun] at e2
  have e1' := toTuple_ok ((precomp_loop A x y (squared y) _ _ _ ⟨⟨x, y, 1, 1⟩, [], []⟩).symm.trans e1)
  have hu := W.hu
  have hti : inverseO A.twist = .ok u⁻¹ := by rw [M.twist]; exact LawfulInverse.inverseO_ne u hu
  have h0 : Point.some x y hxy ≠ 0 := Point.some_ne_zero _
  cases hn : A.loopNeg with
  | false =>
    refine ⟨f, ?_, ?_⟩
    · simp only [pairing, precomputeG1, hp, Outcome.map, Outcome.bind, precomputeG2, hQc, hti, e1', hn, Bool.false_eq_true, if_false]
      simp only [millerLoop, hn, Bool.false_eq_true, if_false]
      rw [miller_step M x0 y0 (xQ := x) (yQ := y) rfl rfl, e2 _ _ (List.prefix_refl _) (List.prefix_refl _)]
      rfl
    · rw [ateVal, hn, if_neg (by simp)]; exact e4
  | true =>
    have hB : val A.loopCount • Point.some x y hxy ≠ 0 := by
      have := S.smul_ne_zero_of_lt hQ h0 (n := val A.loopCount) (fun hd => by
        have := Nat.le_of_dvd M.pos (Int.natCast_dvd_natCast.1 hd)
        have := M.lt
        omega)
      rwa [natCast_zsmul] at this
    have hBB : val A.loopCount • Point.some x y hxy + val A.loopCount • Point.some x y hxy ≠ 0 := by
      have := S.smul_ne_zero_of_lt hQ h0 M.r2
      rwa [mul_zsmul, natCast_zsmul, two_zsmul] at this
    have hZ : R.Z ≠ 0 := by
      have := e3.1
      generalize val A.loopCount • Point.some x y hxy = B at hB this
      cases B with
      | zero => exact absurd rfl hB
      | some _ _ _ => exact this.1
    have hzi : inverseO R.Z = .ok (R.Z)⁻¹ := LawfulInverse.inverseO_ne _ hZ
    have hneg := WAteSetup.mnt_neg S M.two W hQ hP hB hBB e3 (mul_inv_cancel₀ hZ)
    have hf : f ≠ 0 := WAteSetup.MInv.ne_zero S hQ hE e4
    obtain ⟨ac, hac⟩ : ∃ ac, ac = (mixedAdd (R.X * squared R.Z⁻¹) (-R.Y * (squared R.Z⁻¹ * R.Z⁻¹)) (squared (-R.Y * (squared R.Z⁻¹ * R.Z⁻¹))) R).2 :=
      ⟨_, rfl⟩
    rw [← hac] at hneg
    have hg : mntA ((tau (nr := nr)).comp ε) tau u Quad.gen x y x0 y0 ac ≠ 0 := fun h => by
      rw [h, zero_pow hE] at hneg
      exact zero_ne_one hneg
    refine ⟨(f * mntA ((tau (nr := nr)).comp ε) tau u Quad.gen x y x0 y0 ac)⁻¹, ?_, ?_⟩
    · simp only [pairing, precomputeG1, hp, Outcome.map, Outcome.bind, precomputeG2, hQc, hti, e1', hn, if_true, hzi, ← hac]
      simp only [millerLoop, hn, if_true]
      rw [miller_step M x0 y0 (xQ := x) (yQ := y) rfl rfl, e2 _ _ (List.prefix_refl _) (List.prefix_append _ _)]
      simp only [Outcome.bind, vecAt_prefix0 (List.prefix_refl (as ++ [ac])) rfl]
      rw [gRQ_eq M x0 y0 ac (xQ := x) (yQ := y) rfl rfl]
      exact LawfulInverse.inverseO_ne _ (mul_ne_zero hf hg)
    · rw [ateVal, hn, if_pos rfl, inv_pow, mul_pow, hneg, mul_one, e4]

end AteMnt
end
end Libff
