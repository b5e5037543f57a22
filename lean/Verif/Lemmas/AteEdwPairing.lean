import Verif.Lemmas.AteEdwBilin
import Verif.Lemmas.AteMntSetup

/-!
# The pairing function of edwards in terms of Miller functions
-/
namespace Libff
set_option linter.unusedSectionVars false
open WeierstrassCurve Affine AteMnt

namespace AteEdw
section
variable {K T : Type} [Field K] [DecidableEq K] [Squared K] [LawfulSquared K] [InverseO K] [LawfulInverse K]
  [Field T] [DecidableEq T] [Squared T] [LawfulSquared T] [InverseO T] [LawfulInverse T] {nr : T → T} {u : T} [MulBy nr u]
  [Fact (¬ IsSquare u)]

/-- The parameters of the pairing. -/
structure Params (A : AteEdw K T nr) (ε : K →+* T) (u : T) (a d : K) (a' d' : T) (r : ℕ) : Prop where
  scale : ∀ x t, A.scale x t = ε x * t
  mulA : ∀ x, A.mulA x = a' * x
  ha : a' = u
  hc : a - d ≠ 0
  hcc : a' - d' = ε (a - d) * u
  pos : 1 ≤ val A.loopCount
  lt : val A.loopCount < r
  odd : r % 2 = 1

variable {A : AteEdw K T nr} {ε : K →+* T} {a d : K} {a' d' : T} {r : ℕ}

theorem gRR_eq (M : Params A ε u a d a' d' r) (pp : EdwG1Precomp K) (cc : ConicCoeffs T) :
    (A.gRR pp cc : Quad T nr) = edwD ((tau (nr := nr)).comp ε) tau Quad.gen pp cc := by
  rw [gRR, tau_add, edwD]
  simp only [M.scale, RingHom.comp_apply, map_mul, map_add]

theorem gRQ_eq (M : Params A ε u a d a' d' r) (pp : EdwG1Precomp K) (cc : ConicCoeffs T) :
    (A.gRQ pp cc : Quad T nr) = edwA ((tau (nr := nr)).comp ε) tau Quad.gen pp cc := by
  rw [gRQ, tau_add, edwA]
  simp only [M.scale, RingHom.comp_apply, map_mul, map_add]

theorem miller_step (M : Params A ε u a d a' d' r) (pp : EdwG1Precomp K) (cs : List (ConicCoeffs T)) :
    A.millerStep pp cs = genMil3 (L := Quad T nr) squared (edwD ((tau (nr := nr)).comp ε) tau Quad.gen pp)
      (edwA ((tau (nr := nr)).comp ε) tau Quad.gen pp) cs := by
  funext b s
  unfold millerStep genMil3
  simp only [gRR_eq M, gRQ_eq M]

theorem precomp_step {T : Type} (dbl : ExtCoord T → ExtCoord T × ConicCoeffs T) (add : ExtCoord T → ExtCoord T → ExtCoord T × ConicCoeffs T)
    (Q : ExtCoord T) : precompStep dbl add Q = genPre dbl (add Q) := rfl

variable {c₂ cx cy : Quad T nr} {qX qY : T} {q E : ℕ} {g : (edwW a' d').Point}
  (S : WAteSetup (L := Quad T nr) ((tau (nr := nr)).comp ε) tau (2 * (a + d)) ((a - d) ^ 2) 0 (2 * (a' + d')) ((a' - d') ^ 2) 0 c₂ cx cy
    qX qY q r E g)

/-- The value of the reduced pairing. -/
noncomputable def ateVal (N : ℕ) (P : (edwW a d).Point) (Q : (edwW a' d').Point) : Quad T nr :=
  millerVal (rho (Quad T nr) E) N (S.psi Q) (S.inc P)

theorem ateVal_bilin {N : ℕ} (h : (N : ℤ) ≡ -q [ZMOD r]) : BilinMap (AddSubgroup.zmultiples g) (ateVal S N) :=
  S.bilinMap (Good.bilin S.sep (S.good_modEq (S.good_q.neg S.sep) h))

theorem precomputeG1_eq {P : (edwW a d).Point} {p : Coord3 K} (hp : EdwRep p P) :
    ∃ pp, precomputeG1 p = .ok pp ∧ EdwAff P pp := by
  unfold precomputeG1
  rcases Edw.toAffine_rep hp with ⟨rfl, e⟩ | ⟨-, e, h⟩
  · refine ⟨_, by rw [e]; rfl, ?_⟩
    have : (1 + 1 : K) = 2 := one_add_one_eq_two
    simp only [zero_mul, this]
    exact .zero
  · exact ⟨_, by rw [e]; rfl, .pt h⟩

theorem pairing_value (M : Params A ε u a d a' d' r) (W : MntRoots (L := Quad T nr) tau u cx cy Quad.gen E)
    {P : (edwW a d).Point} {p : Coord3 K} (hp : EdwRep p P) {Q : (edwW a' d').Point} {q : Coord3 T} (hq : EdwRep q Q)
    (hQ : Q ∈ AddSubgroup.zmultiples g) (h0 : Q ≠ 0) :
    ∃ f, A.pairing p q = .ok f ∧ f ^ E = ateVal S (val A.loopCount) P Q := by
  obtain ⟨pp, e1, hP⟩ := precomputeG1_eq hp
  obtain ⟨-, e2, hpt⟩ := (Edw.toAffine_rep hq).resolve_left fun h => h0 h.1
  have hk : val A.loopCount < 2 ^ bigintMaxBits A.loopCount := by
    rw [bigintMaxBits, mul_comm]; exact val_lt _
  obtain ⟨R, cs, f, e3, e4, e5⟩ := S.edw_loops M.mulA M.odd W M.hc M.hcc M.ha hpt hQ M.pos M.lt hk hP (sq := squared)
    (fun f => LawfulSquared.squared_eq f)
  rw [← testBit_fun] at e3
  simp only [← testBit_fun] at e4
  refine ⟨f, ?_, e5⟩
  simp only [pairing, e1, Outcome.bind, precomputeG2, e2, precomp_step, e3, Outcome.map, millerLoop, miller_step M,
    e4 cs (List.prefix_refl _)]

end

end AteEdw

/-- What `mul_by_q` does to the generator, from C54. -/
theorem Edw.gen_of_endo {T : Type} [Field T] [DecidableEq T] [Fintype T] [Squared T] [LawfulSquared T] [InverseO T] [LawfulInverse T] {a d : T}
    {mulA mulD : T → T} (hA : ∀ x, mulA x = a * x) (hD : ∀ x, mulD x = d * x)
    (h2 : (2 : T) ≠ 0) (hc : a - d ≠ 0) {one : Coord3 T} {qm : List Limb} {m : Coord3 T → Coord3 T} {wf : Coord3 T → Bool} {p n r : ℕ}
    (hpp : p.Prime) (hT : Fintype.card T = p ^ n) (hr : r % 2 = 1) {qX qY c : T} (hc0 : c ≠ 0)
    (hE : TwistEndo (Edw.ops mulA mulD) Edw.eq wf (fun p => ∃ Q : (edwW a d).Point, EdwRepIn (torsionSub r) p Q) one qm m)
    {g : (edwW a d).Point} (hone : EdwRepIn (torsionSub r) one g) (hm : ∀ X Y Z, m ⟨X, Y, Z⟩ = ⟨X ^ p, c * Y ^ p, c * Z ^ p⟩)
    (hX : qX * (a - d) ^ p = a - d) (hY : qY * c = qX)
    (hq : val qm = p) (x y : T) (h : (edwW a d).Nonsingular x y) (hg : g = .some x y h) :
    ∃ h', p • g = .some (qX * x ^ p) (qY * y ^ p) h' := by
  letI := Edw.ops mulA mulD
  have hH : NoTwoTorsion (torsionSub r : AddSubgroup (edwW a d).Point) := noTwoTorsion_torsionSub _ hr
  have hI : ImplementsRel (EdwRepIn (torsionSub r : AddSubgroup (edwW a d).Point)) := Edw.implementsRel hA hD h2 hc hH
  have v1 : val ([1] : List Limb) = 1 := rfl
  have r1 := scalarMul_rel hI hone [1]
  rw [v1, one_smul] at r1
  obtain ⟨P', hP'⟩ := hE.valid_map ⟨_, hone⟩
  obtain ⟨P'', hP''⟩ := hE.valid_map ⟨_, r1⟩
  have e1 := (Edw.eq_rep h2 hc hP''.2 (scalarMul_rel hI hP' [1]).2).1 (hE.scalar ⟨_, hone⟩ [1])
  have e2 := (Edw.eq_rep h2 hc hP''.2 (scalarMul_rel hI r1 qm).2).1 (hE.mul_q [1])
  rw [v1, one_smul] at e1
  rw [hq] at e2
  rw [← e2, e1]
  have hg0 : g ≠ 0 := by rw [hg]; exact Point.some_ne_zero _
  have hp1 := hone.2
  rw [edwRep_iff] at hp1
  obtain ⟨-, hX1, hY1, hZ1, hpt⟩ := hp1.resolve_left fun h => hg0 h.1
  have hp2 := hP'.2
  obtain ⟨X, Y, Z⟩ := one
  simp only at hX1 hY1 hZ1 hpt
  rw [hm, edwRep_iff] at hp2
  obtain ⟨-, hX2, hY2, hZ2, hpt2⟩ := hp2.resolve_left fun h => mul_ne_zero hc0 (pow_ne_zero p hZ1) h.2.2
  obtain ⟨σ, hσ⟩ := exists_frob hpp hT
  obtain ⟨-, -, hon, h3, e3⟩ := hpt
  obtain ⟨-, -, hon2, h4, e4⟩ := hpt2
  rw [hg] at e3
  injection e3 with ex ey
  rw [e4]
  have ezy : c * Z ^ p / (c * Y ^ p) = (Z / Y) ^ p := by rw [div_pow]; field_simp
  have ezx : c * Z ^ p / X ^ p = c * (Z / X) ^ p := by rw [div_pow]; field_simp
  have hw := hon.w_ne hc (div_ne_zero hZ1 hX1)
  have hzx : Z / X ≠ 0 := div_ne_zero hZ1 hX1
  have key : qX * x ^ p = (a - d) * (1 + c * Z ^ p / (c * Y ^ p)) / (1 - c * Z ^ p / (c * Y ^ p)) := by
    rw [ezy, ex, ← hσ, ← hσ, map_div₀, map_mul, map_add, map_sub σ 1, map_one, mul_div_assoc, mul_div_assoc, ← mul_assoc, hσ (a - d), hX]
  refine weier_some_eq key ?_
  simp only
  rw [← key, ezx, ey, ← ex]
  simp only [div_pow, mul_pow]
  rw [← hσ 2, map_ofNat, ← hY]
  field_simp

end Libff
