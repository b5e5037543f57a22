import Verif.Spec.KeyCommit
import Verif.Props.MultiexpCurves
import Verif.Props.FrAction

/-!
# C89: a commitment with a key made by `batch_exp` is the multiple by the inner product
-/
namespace Libff

open WeierstrassCurve Affine

section
variable {G A : Type} [AddCommGroup A] {P : FpParams} [hP : Fact P.Valid]

theorem frSum_map_nsmul {a : A} (ha : P.p • a = 0) : ∀ v s : List (Fp P),
    frSum (v.map fun x => x.toZMod.val • a) s = (frDot v s).toZMod.val • a
  | [], s => by simp [frSum, frDot, Fp.toZMod_zero]
  | _ :: _, [] => by simp [frSum, frDot, Fp.toZMod_zero]
  | x :: v, y :: s => by
    have hp := hP.out.neZero
    have ih := frSum_map_nsmul ha v s
    have hk : ∀ m n : Nat, (m : ZMod P.p) = n → m • a = n • a := by
      intro m n e
      rw [ZMod.natCast_eq_natCast_iff] at e
      exact nsmul_eq_nsmul_iff_modEq.2 (e.of_dvd (addOrderOf_dvd_of_nsmul_eq_zero ha))
    have e1 : frDot (x :: v) (y :: s) = x * y + frDot v s := by simp [frDot]
    have e2 : frSum ((x :: v).map fun x => x.toZMod.val • a) (y :: s) =
        y.toZMod.val • x.toZMod.val • a + frSum (v.map fun x => x.toZMod.val • a) s := by simp [frSum]
    rw [e1, e2, ih, ← mul_nsmul', ← add_nsmul]
    apply hk
    simp [Fp.toZMod_add, Fp.toZMod_mul, mul_comm]

theorem keyCommit_of_rel {ops : GroupOps G} {Rep : G → A → Prop} {Special : G → Prop} {ma : G → G → Outcome G}
    {norm : List G → Outcome (List G)} {eq : G → G → Bool} {one : G} {a : A} (h : ImplementsRel Rep)
    (heq : ∀ {g g' a a'}, Rep g a → Rep g' a' → (eq g g' = true ↔ a = a')) (ha : Rep one a) (ho : addOrderOf a = P.p)
    (hn : NormalisesTo Rep Special norm) (hm : MultiExpCorrect P ops Rep Special ma norm) : KeyCommit P ops eq ma norm one := by
  intro size window h1 h2 h3
  obtain ⟨T, hT, -, hB⟩ := hm.fixed_base size window one a ha h1 h2 h3
  refine ⟨T, hT, fun v order hl hperm => ?_⟩
  obtain ⟨key, hkey, hrep⟩ := (hB v order hperm).1
  obtain ⟨special, hsp, hrep', hspec⟩ := hn hrep
  refine ⟨key, special, hkey, hsp, fun s chunks order debug hs hc hperm => ?_⟩
  have hp0 : P.p • a = 0 := by rw [← ho, addOrderOf_nsmul_eq_zero]
  have hlk : key.length = v.length := by simpa using hrep.length_eq
  have hlk' : special.length = v.length := by simpa using hrep'.length_eq
  obtain ⟨g, hg, rg⟩ := hm.bdlo12 key _ s chunks order hrep (by omega) (by omega) hc hperm
  obtain ⟨g', hg', rg'⟩ := hm.with_mixed_addition debug special _ s chunks order hrep' (by omega) (by omega) hspec hc hperm
  obtain ⟨hf, rf⟩ := fieldMul_rel h ha (frDot v s)
  rw [frSum_map_nsmul hp0] at rg rg'
  exact ⟨g, g', _, hg, hg', hf, (heq rg rf).2 rfl, (heq rg' rf).2 rfl⟩

end

section
variable {K : Type} [Field K] [DecidableEq K] [Squared K] [LawfulSquared K] [InverseO K] [LawfulInverse K] {P : FpParams} [Fact P.Valid]

theorem Jac.keyCommit {b : K} (h2 : (2 : K) ≠ 0) (debug : Bool) {one : Coord3 K} (hroom : P.p + 2 ^ 29 ≤ 2 ^ (64 * P.n))
    (h : ∃ a : (sw 0 b).Point, JacRep one a ∧ addOrderOf a = P.p) :
    KeyCommit P Jac.ops Jac.eq (Jac.mixedAdd debug) (@batchToSpecial _ Jac.ops Jac.isZero Jac.toAffine (Jac.batchToSpecialNZ debug)) one := by
  obtain ⟨a, ha, ho⟩ := h
  exact @keyCommit_of_rel _ _ _ _ _ Jac.ops _ _ _ _ _ _ _ (Jac.implementsRel h2) Jac.eq_rep ha ho (fun hg => C33_jacobian debug _ _ hg)
    (C57_jacobian h2 hroom debug)

theorem Proj.keyCommit {mulA : K → K} {a b : K} (hA : ∀ x, mulA x = a * x) (h2 : (2 : K) ≠ 0) (debug : Bool) {one : Coord3 K}
    (hroom : P.p + 2 ^ 29 ≤ 2 ^ (64 * P.n)) (h : ∃ Q : (sw a b).Point, ProjRep one Q ∧ addOrderOf Q = P.p) :
    KeyCommit P (Proj.ops mulA) Proj.eq (Proj.mixedAdd mulA debug)
      (@batchToSpecial _ (Proj.ops mulA) Proj.isZero Proj.toAffine (Proj.batchToSpecialNZ debug)) one := by
  obtain ⟨Q, ha, ho⟩ := h
  exact @keyCommit_of_rel _ _ _ _ _ (Proj.ops mulA) _ _ _ _ _ _ _ (Proj.implementsRel hA h2) Proj.eq_rep ha ho
    (fun hg => C33_projective mulA debug _ _ hg) (C57_projective hA h2 hroom debug)

theorem Edw.keyCommit {mulA mulD : K → K} {a d : K} (hA : ∀ x, mulA x = a * x) (hD : ∀ x, mulD x = d * x)
    (h2 : (2 : K) ≠ 0) (hc : a - d ≠ 0) (hodd : P.p % 2 = 1) (debug : Bool) {one : Coord3 K} (hroom : P.p + 2 ^ 29 ≤ 2 ^ (64 * P.n))
    (h : ∃ Q : (edwW a d).Point, EdwRep one Q ∧ addOrderOf Q = P.p) :
    KeyCommit P (Edw.ops mulA mulD) Edw.eq (Edw.mixedAdd mulA mulD debug)
      (@batchToSpecial _ (Edw.ops mulA mulD) Edw.isZero (Edw.toSpecial debug) (Edw.batchToSpecialNZ debug)) one := by
  obtain ⟨Q, ha, ho⟩ := h
  have hQ : Q ∈ (torsionSub P.p : AddSubgroup (edwW a d).Point) := by
    change P.p • Q = 0
    rw [← ho, addOrderOf_nsmul_eq_zero]
  have hH : NoTwoTorsion (torsionSub P.p : AddSubgroup (edwW a d).Point) := noTwoTorsion_torsionSub _ hodd
  exact @keyCommit_of_rel _ _ _ _ _ (Edw.ops mulA mulD) _ _ _ _ _ _ _ (Edw.implementsRel hA hD h2 hc hH)
    (fun h h' => Edw.eq_rep h2 hc h.2 h'.2) ⟨hQ, ha⟩ ho (edwIn_normalises fun vec Ps h => C33_edwards h2 hc debug vec Ps h)
    (C57_edwards_twisted hA hD h2 hc hH hroom debug)

theorem Edw.keyCommit1 {mulD : K → K} {d : K} (hD : ∀ x, mulD x = d * x)
    (h2 : (2 : K) ≠ 0) (hc : 1 - d ≠ 0) (hodd : P.p % 2 = 1) (debug : Bool) {one : Coord3 K} (hroom : P.p + 2 ^ 29 ≤ 2 ^ (64 * P.n))
    (h : ∃ Q : (edwW 1 d).Point, EdwRep one Q ∧ addOrderOf Q = P.p) :
    KeyCommit P (Edw.ops1 mulD) Edw.eq (Edw.mixedAdd (fun x => x) mulD debug)
      (@batchToSpecial _ (Edw.ops1 mulD) Edw.isZero (Edw.toSpecial debug) (Edw.batchToSpecialNZ debug)) one := by
  obtain ⟨Q, ha, ho⟩ := h
  have hQ : Q ∈ (torsionSub P.p : AddSubgroup (edwW 1 d).Point) := by
    change P.p • Q = 0
    rw [← ho, addOrderOf_nsmul_eq_zero]
  have hH : NoTwoTorsion (torsionSub P.p : AddSubgroup (edwW 1 d).Point) := noTwoTorsion_torsionSub _ hodd
  exact @keyCommit_of_rel _ _ _ _ _ (Edw.ops1 mulD) _ _ _ _ _ _ _ (Edw.implementsRel1 hD h2 hc hH)
    (fun h h' => Edw.eq_rep h2 hc h.2 h'.2) ⟨hQ, ha⟩ ho
    (edwIn_normalises fun vec Ps h => C33_edwards (mulA := fun x => x) (mulD := mulD) h2 hc debug vec Ps h)
    (C57_edwards_untwisted hD h2 hc hH hroom debug)

end

/-- **C89.** `alt_bn128_G1`. -/
theorem C89_alt_bn128_G1 (debug : Bool) :
    KeyCommit alt_bn128_Fr_params Jac.ops Jac.eq (Jac.mixedAdd debug)
      (@batchToSpecial _ Jac.ops Jac.isZero Jac.toAffine (Jac.batchToSpecialNZ debug)) alt_bn128_G1_one :=
  Jac.keyCommit (b := alt_bn128_b) (alt_bn128_K.o1.two_ne (by decide +kernel)) debug (by decide +kernel) C52_alt_bn128_G1_generator.2.2.2.2

/-- **C89.** `alt_bn128_G2`. -/
theorem C89_alt_bn128_G2 (debug : Bool) :
    KeyCommit alt_bn128_Fr_params Jac.ops Jac.eq (Jac.mixedAdd debug)
      (@batchToSpecial _ Jac.ops Jac.isZero Jac.toAffine (Jac.batchToSpecialNZ debug)) alt_bn128_G2_one :=
  Jac.keyCommit (b := alt_bn128_twist_b) (alt_bn128_K.o2.two_ne (by decide +kernel)) debug (by decide +kernel) C52_alt_bn128_G2_generator.2.2.2.2

/-- **C89.** `bls12_381_G1`. -/
theorem C89_bls12_381_G1 (debug : Bool) :
    KeyCommit bls12_381_Fr_params Jac.ops Jac.eq (Jac.mixedAdd debug)
      (@batchToSpecial _ Jac.ops Jac.isZero Jac.toAffine (Jac.batchToSpecialNZ debug)) bls12_381_G1_one :=
  Jac.keyCommit (b := bls12_381_b) (bls12_381_K.o1.two_ne (by decide +kernel)) debug (by decide +kernel) C52_bls12_381_G1_generator.2.2.2.2

/-- **C89.** `bls12_381_G2`. -/
theorem C89_bls12_381_G2 (debug : Bool) :
    KeyCommit bls12_381_Fr_params Jac.ops Jac.eq (Jac.mixedAdd debug)
      (@batchToSpecial _ Jac.ops Jac.isZero Jac.toAffine (Jac.batchToSpecialNZ debug)) bls12_381_G2_one :=
  Jac.keyCommit (b := bls12_381_twist_b) (bls12_381_K.o2.two_ne (by decide +kernel)) debug (by decide +kernel) C52_bls12_381_G2_generator.2.2.2.2

/-- **C89.** `mnt4_G1`. -/
theorem C89_mnt4_G1 (debug : Bool) :
    KeyCommit mnt4_Fr_params (Proj.ops mnt4_G1_mul_by_a) Proj.eq (Proj.mixedAdd mnt4_G1_mul_by_a debug)
      (@batchToSpecial _ (Proj.ops mnt4_G1_mul_by_a) Proj.isZero Proj.toAffine (Proj.batchToSpecialNZ debug)) mnt4_G1_one :=
  Proj.keyCommit (fun _ => rfl) (mnt4_K.o1.two_ne (by decide +kernel)) debug (by decide +kernel) C52_mnt4_G1_generator.2.2.2

/-- **C89.** `mnt4_G2`. -/
theorem C89_mnt4_G2 (debug : Bool) :
    KeyCommit mnt4_Fr_params (Proj.ops mnt4_G2_mul_by_a) Proj.eq (Proj.mixedAdd mnt4_G2_mul_by_a debug)
      (@batchToSpecial _ (Proj.ops mnt4_G2_mul_by_a) Proj.isZero Proj.toAffine (Proj.batchToSpecialNZ debug)) mnt4_G2_one :=
  Proj.keyCommit (fun x => ((C36_mul_by_a mnt4_β mnt4_a mnt4_b).1 x).1) (mnt4_K.o2.two_ne (by decide +kernel)) debug (by decide +kernel) C52_mnt4_G2_generator.2.2.2

/-- **C89.** `mnt6_G1`. -/
theorem C89_mnt6_G1 (debug : Bool) :
    KeyCommit mnt6_Fr_params (Proj.ops mnt6_G1_mul_by_a) Proj.eq (Proj.mixedAdd mnt6_G1_mul_by_a debug)
      (@batchToSpecial _ (Proj.ops mnt6_G1_mul_by_a) Proj.isZero Proj.toAffine (Proj.batchToSpecialNZ debug)) mnt6_G1_one :=
  Proj.keyCommit (fun _ => rfl) (mnt6_K.o1.two_ne (by decide +kernel)) debug (by decide +kernel) C52_mnt6_G1_generator.2.2.2

/-- **C89.** `mnt6_G2`. -/
theorem C89_mnt6_G2 (debug : Bool) :
    KeyCommit mnt6_Fr_params (Proj.ops mnt6_G2_mul_by_a) Proj.eq (Proj.mixedAdd mnt6_G2_mul_by_a debug)
      (@batchToSpecial _ (Proj.ops mnt6_G2_mul_by_a) Proj.isZero Proj.toAffine (Proj.batchToSpecialNZ debug)) mnt6_G2_one :=
  Proj.keyCommit (fun x => ((C36_mul_by_a mnt6_β mnt6_a mnt6_b).2.1 x).1) (mnt6_K.o3.two_ne (by decide +kernel)) debug (by decide +kernel) C52_mnt6_G2_generator.2.2.2

/-- **C89.** `edwards_G1`. -/
theorem C89_edwards_G1 (debug : Bool) :
    KeyCommit edwards_Fr_params (Edw.ops1 edwards_G1_mul_by_d) Edw.eq (Edw.mixedAdd (fun x => x) edwards_G1_mul_by_d debug)
      (@batchToSpecial _ (Edw.ops1 edwards_G1_mul_by_d) Edw.isZero (Edw.toSpecial debug) (Edw.batchToSpecialNZ debug)) edwards_G1_one :=
  Edw.keyCommit1 (d := edwards_d) (mulD := edwards_G1_mul_by_d) (fun _ => rfl) (edwards_K.o1.two_ne (by decide +kernel)) (by exact C52_edwards_G1_generator.2.1)
    (by decide +kernel) debug (by decide +kernel) (by exact C52_edwards_G1_generator.2.2.2)

/-- **C89.** `edwards_G2`. -/
theorem C89_edwards_G2 (debug : Bool) :
    KeyCommit edwards_Fr_params (Edw.ops edwards_G2_mul_by_a edwards_G2_mul_by_d) Edw.eq (Edw.mixedAdd edwards_G2_mul_by_a edwards_G2_mul_by_d debug)
      (@batchToSpecial _ (Edw.ops edwards_G2_mul_by_a edwards_G2_mul_by_d) Edw.isZero (Edw.toSpecial debug) (Edw.batchToSpecialNZ debug)) edwards_G2_one :=
  Edw.keyCommit (a := edwards_twist_a) (d := edwards_twist_d) (mulA := edwards_G2_mul_by_a) (mulD := edwards_G2_mul_by_d)
    (fun x => (C37_mul_by _ edwards_d x).1) (fun x => (C37_mul_by _ edwards_d x).2.1) (edwards_K.o3.two_ne (by decide +kernel))
    (by exact C52_edwards_G2_generator.2.1) (by decide +kernel) debug (by decide +kernel) (by exact C52_edwards_G2_generator.2.2.2)

/-- The key for polynomials: with `vᵢ = τ ^ i` the inner product with the coefficients is the value of the polynomial at `τ` by Horner's rule, so that
what C89 says of a commitment is that it is `p(τ) * one`. -/
theorem frDot_powers {P : FpParams} [Fact P.Valid] (τ : Fp P) (c : List (Fp P)) :
    frDot ((List.range c.length).map fun i => τ ^ i) c = c.foldr (fun x acc => x + τ * acc) 0 := by
  have key : ∀ (c : List (Fp P)) (k : Nat), frDot ((List.range' k c.length).map fun i => τ ^ i) c =
      τ ^ k * c.foldr (fun x acc => x + τ * acc) 0 := by
    intro c
    induction c with
    | nil => intro k; simp [frDot]
    | cons x c ih =>
      intro k
      have := ih (k + 1)
      simp only [frDot, List.length_cons, List.range'_succ, List.map_cons, List.zipWith_cons_cons, List.sum_cons, List.foldr_cons] at this ⊢
      rw [this]
      ring
  have := key c 0
  rwa [← List.range_eq_range', pow_zero, one_mul] at this

theorem KeyCommit.linear {G : Type} {P : FpParams} [Fact P.Valid] {ops : GroupOps G} {eq : G → G → Bool} {ma : G → G → Outcome G}
    {norm : List G → Outcome (List G)} {one : G} (h : KeyCommit P ops eq ma norm one) (size : Nat) (hp : P.p ≤ 2 ^ size) :
    ∃ T key g h, getWindowTable size 5 one = .ok T ∧ batchExp (frLimbs (P := P)) size 5 T [1, 0] [1, 3] = .ok key ∧
      sumBdlo (P := P) [0, 1] 2 key [5, 7] = .ok g ∧ fieldMul P (26 : Fp P).repr one = .ok h ∧ eq g h = true := by
  obtain ⟨T, hT, h⟩ := h size 5 (by decide) (by decide) hp
  obtain ⟨key, special, hk, -, h⟩ := h [1, 3] [1, 0] (by simp) (show List.Perm [1, 0] (List.range 2) by decide)
  obtain ⟨g, g', r, hg, -, hr, he, -⟩ := h [5, 7] 2 [0, 1] true rfl (by decide) (by decide)
  have e : frDot [1, 3] [5, 7] = (26 : Fp P) := by simp only [frDot, List.zipWith_cons_cons, List.zipWith_nil_left, List.sum_cons, List.sum_nil]; norm_num
  exact ⟨T, key, g, r, hT, hk, hg, e ▸ hr, he⟩

/-- A commitment to `5 + 7x` with the key made of `τ = 3`: the hypotheses are met and the result is `26 * one`. -/
example : ∃ T key g h, @getWindowTable _ Jac.ops 254 5 alt_bn128_G1_one = .ok T ∧
    @batchExp _ _ Jac.ops (frLimbs (P := alt_bn128_Fr_params)) 254 5 T [1, 0] [1, 3] = .ok key ∧
    @sumBdlo alt_bn128_Fr_params _ Jac.ops [0, 1] 2 key [5, 7] = .ok g ∧
    @fieldMul _ Jac.ops alt_bn128_Fr_params (26 : Fp alt_bn128_Fr_params).repr alt_bn128_G1_one = .ok h ∧ Jac.eq g h = true :=
  (C89_alt_bn128_G1 true).linear 254 (by decide +kernel)

end Libff
