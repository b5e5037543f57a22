import Verif.Lemmas.TateEdw

/-!
# The Miller loops of edwards on the neutral element

The mixed addition of `(0, 1, 1, 0)` to itself gives `(0, 0, 0, 0)` and zero coefficients, so the Miller value is 0.
-/
namespace Libff
set_option linter.unusedSectionVars false
open AteMnt

/-- The two loops when the first addition step gives zero coefficients. -/
theorem zero_fused {R C L : Type*} [Field L] {dbl add : R → R × C} {sq : L → L} {eD eA : C → L} (O Z : R) (hsq : SqSpec sq)
    (d1 : (dbl O).1 = O) (d2 : (dbl Z).1 = Z) (a1 : (add O).1 = Z) (a2 : (add Z).1 = Z) (a3 : eA (add O).2 = 0) (N : ℕ) :
    AteFused (· ++ ·) List.length (genPre dbl add) (genMil3 sq eD eA) (· <+: ·)
      (fun n R f => (R = O ∧ ∃ k, n = 2 ^ k) ∨ (R = Z ∧ f = 0)) N where
  refl _ := List.prefix_refl _
  trans _ _ _ := List.IsPrefix.trans
  step n bit R cs f h1 hN hi := by
    cases bit with
    | false =>
      refine ⟨(dbl R).1, [(dbl R).2], f * f * eD (dbl R).2, rfl, List.prefix_append _ _, fun C' hC => ?_, ?_⟩
      · simp only [genMil3, vecAt_prefix0 hC rfl, Outcome.bind, hsq f, Bool.false_eq_true, if_false, List.length_append,
          List.length_singleton]
      · rcases hi with ⟨rfl, k, rfl⟩ | ⟨rfl, rfl⟩
        · exact Or.inl ⟨d1, k + 1, by simp [pow_succ, mul_comm]⟩
        · exact Or.inr ⟨d2, by simp⟩
    | true =>
      refine ⟨(add (dbl R).1).1, [(dbl R).2, (add (dbl R).1).2], f * f * eD (dbl R).2 * eA (add (dbl R).1).2, ?_,
        List.prefix_append _ _, fun C' hC => ?_, ?_⟩
      · simp [genPre]
      · simp only [genMil3, vecAt_prefix0 hC rfl, vecAt_prefix hC (i := 1) rfl, Outcome.bind, Outcome.map, hsq f, if_true,
          List.length_append]
        rfl
      · right
        rcases hi with ⟨rfl, k, rfl⟩ | ⟨rfl, rfl⟩
        · rw [d1]; exact ⟨a1, by rw [a3, mul_zero]⟩
        · rw [d2]; exact ⟨a2, by simp⟩

namespace AteEdw
variable {K T : Type} [Field K] [DecidableEq K] [Squared K] [LawfulSquared K] [InverseO K] [LawfulInverse K]
  [Field T] [DecidableEq T] [Squared T] [LawfulSquared T] [InverseO T] [LawfulInverse T] {nr : T → T} {u : T} [MulBy nr u]
  [Fact (¬ IsSquare u)]
variable {A : AteEdw K T nr} {ε : K →+* T} {d : K} {a' d' : T} {r : ℕ}

theorem not_two_pow {N : ℕ} (h : 2 ^ N.log2 ≠ N) : ¬ ∃ k, N = 2 ^ k := by
  rintro ⟨k, rfl⟩
  rw [Nat.log2_two_pow] at h
  exact h rfl

/-- The Tate pairing with the neutral element on the left, before the final exponentiation. -/
theorem tate_zero_left (M : TateParams A ε u d a' d' r) (h2 : 2 ^ r.log2 ≠ r) (hr : 1 ≤ r) {p : Coord3 K} (hp : EdwRep p (0 : (edwW 1 d).Point))
    {Q : (edwW a' d').Point} {q : Coord3 T} (hq : EdwRep q Q) (h0 : Q ≠ 0) (hu : u ≠ 0) :
    ((A.tatePrecomputeG1 p).bind fun prec_P => (tatePrecomputeG2 nr q).bind fun prec_Q => A.tateMillerLoop prec_P prec_Q) = .ok 0 := by
  have e1 := ((Edw.toAffine_rep hp).resolve_right fun h => h.1 rfl).2
  obtain ⟨-, e2, hqt⟩ := (Edw.toAffine_rep hq).resolve_left fun h => h0 h.1
  have hk : r < 2 ^ bigintMaxBits A.modulusR := by
    rw [← M.mod, bigintMaxBits, mul_comm]; exact val_lt _
  have hb : r.testBit (bigintMaxBits A.modulusR) = false := Nat.testBit_lt_two_pow hk
  have hu' : u * (q.Z / q.X) ≠ 0 := mul_ne_zero hu hqt.1
  have e2' : tatePrecomputeG2 nr q = .ok ⟨q.Z / q.Y, (1 + q.Z / q.Y) * (u * (q.Z / q.X))⁻¹⟩ := by
    rw [tatePrecomputeG2, e2]
    simp only [Outcome.bind, MulBy.mulBy (nr := nr), LawfulInverse.inverseO_ne _ hu', LawfulInverse.inverseO_ne _ (one_ne_zero (α := T)), Outcome.map,
      inv_one, mul_one]
  have F := zero_fused (L := Quad T nr) (dbl := tateDouble) (add := tateMixedAdd ⟨0, 1, 1, 0 * 1⟩) (sq := squared)
    (eD := edwT ε (tau (nr := nr)) Quad.gen ⟨q.Z / q.Y, (1 + q.Z / q.Y) * (u * (q.Z / q.X))⁻¹⟩)
    (eA := edwT ε (tau (nr := nr)) Quad.gen ⟨q.Z / q.Y, (1 + q.Z / q.Y) * (u * (q.Z / q.X))⁻¹⟩) (⟨0, 1, 1, 0 * 1⟩ : ExtCoord K) ⟨0, 0, 0, 0⟩
    (fun f => LawfulSquared.squared_eq f) (by ext <;> simp [tateDouble, LawfulSquared.squared_eq])
    (by ext <;> simp [tateDouble, LawfulSquared.squared_eq]) (by ext <;> simp [tateMixedAdd]) (by ext <;> simp [tateMixedAdd])
    (by simp [tateMixedAdd, edwT]) r
  obtain ⟨R, cs, f, e3, -, e4, e5⟩ := F.loop hr (bigintMaxBits A.modulusR) ⟨0, 1, 1, 0 * 1⟩ [] 1 hk (Or.inl ⟨rfl, 0, rfl⟩)
  have hf := (e5.resolve_left fun h => not_two_pow h2 h.2).2
  have e1' : A.tatePrecomputeG1 p = .ok cs := by
    rw [tatePrecomputeG1, e1, testBit_fun, M.mod]
    simp only [Outcome.bind, precomp_step]
    rw [ateLoop, if_pos rfl, hb, e3]; rfl
  have e4 := e4 cs (List.prefix_refl _)
  rw [List.length_nil] at e4
  rw [e1', e2']
  simp only [Outcome.bind, tateMillerLoop, tate_miller_step M, testBit_fun, M.mod, e4, Outcome.map, hf]

/-- The Tate pairing with the neutral element on the right. -/
theorem tate_zero_right (hn : nr 0 = 0) {q : Coord3 T} (hq : EdwRep q (0 : (edwW a' d').Point)) : tatePrecomputeG2 nr q = .abort := by
  have e2 := ((Edw.toAffine_rep hq).resolve_right fun h => h.1 rfl).2
  rw [tatePrecomputeG2, e2]
  simp only [Outcome.bind, hn, LawfulInverse.inverseO_ne _ (one_ne_zero (α := T)), LawfulInverse.inverseO_zero,
    Outcome.map]

/-- The precomputation always succeeds. -/
theorem tatePrecomputeG1_ok {P : (edwW 1 d).Point} {p : Coord3 K} (hp : EdwRep p P) : ∃ cs, A.tatePrecomputeG1 p = .ok cs := by
  have hl : ∀ (bit : ℕ → Bool) (Q : ExtCoord K) (k : ℕ) (b : Bool) (s : ExtCoord K × List (ConicCoeffs K)),
      ∃ s', ateLoop bit (precompStep tateDouble tateMixedAdd Q) k b s = .ok s' := by
    intro bit Q k
    induction k with
    | zero => intro b s; exact ⟨s, rfl⟩
    | succ k ih =>
      intro b s
      rw [ateLoop]
      split_ifs
      · exact ih _ _
      · rw [precompStep]
        split_ifs <;> exact ih _ _
  have : ∃ pa, Edw.toAffine p = .ok pa := by
    rcases Edw.toAffine_rep hp with ⟨-, e⟩ | ⟨-, e, -⟩ <;> exact ⟨_, e⟩
  obtain ⟨pa, e⟩ := this
  obtain ⟨s, hs⟩ := hl (testBit A.modulusR) ⟨pa.X, pa.Y, pa.Z, pa.X * pa.Y⟩ (bigintMaxBits A.modulusR + 1) false
    (⟨pa.X, pa.Y, pa.Z, pa.X * pa.Y⟩, [])
  exact ⟨s.2, by rw [tatePrecomputeG1, e]; simp only [Outcome.bind, hs, Outcome.map]⟩

variable {a : K}

/-- The ate pairing with the neutral element on the right, before the final exponentiation. -/
theorem ate_zero_right (M : Params A ε u a d a' d' r) (h2 : 2 ^ (val A.loopCount).log2 ≠ val A.loopCount) {P : (edwW a d).Point} {p : Coord3 K}
    (hp : EdwRep p P) {q : Coord3 T} (hq : EdwRep q (0 : (edwW a' d').Point)) : A.pairing p q = .ok 0 := by
  obtain ⟨pp, e1, hP⟩ := precomputeG1_eq hp
  have e2 := ((Edw.toAffine_rep hq).resolve_right fun h => h.1 rfl).2
  have hk : val A.loopCount < 2 ^ bigintMaxBits A.loopCount := by
    rw [bigintMaxBits, mul_comm]; exact val_lt _
  have F := zero_fused (L := Quad T nr) (dbl := A.double) (add := A.mixedAdd ⟨0, 1, 1, 0 * 1⟩) (sq := squared)
    (eD := edwD ((tau (nr := nr)).comp ε) tau Quad.gen pp)
    (eA := edwA ((tau (nr := nr)).comp ε) tau Quad.gen pp) (⟨0, 1, 1, 0 * 1⟩ : ExtCoord T) ⟨0, 0, 0, 0⟩
    (fun f => LawfulSquared.squared_eq f) (by ext <;> simp [double, LawfulSquared.squared_eq, M.mulA])
    (by ext <;> simp [double, LawfulSquared.squared_eq, M.mulA]) (by ext <;> simp [mixedAdd, M.mulA]) (by ext <;> simp [mixedAdd, M.mulA])
    (by simp [mixedAdd, edwA, M.mulA]) (val A.loopCount)
  obtain ⟨R, cs, f, e3, -, e4, e5⟩ := F.loop M.pos (bigintMaxBits A.loopCount) ⟨0, 1, 1, 0 * 1⟩ [] 1 hk (Or.inl ⟨rfl, 0, rfl⟩)
  have hf := (e5.resolve_left fun h => not_two_pow h2 h.2).2
  have e4 := e4 cs (List.prefix_refl _)
  rw [List.length_nil] at e4
  simp only [pairing, e1, Outcome.bind, precomputeG2, e2, precomp_step, testBit_fun, e3, Outcome.map, millerLoop, miller_step M, e4, hf]

end AteEdw
end Libff
