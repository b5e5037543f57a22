import Verif.Model.GroupsBn128
import Verif.Lemmas.Bn128
import Verif.Lemmas.MultiexpRel
import Verif.Props.GenAltBn128
import Verif.Props.ConstAltBn128
import Verif.Props.CurveIO

/-!
# C61: what the bn128 classes add to the external library

`E : EcOps K` are the external functions `ECAdd` and `ECDouble`; `E.Correct b` (`Verif/Spec/Bn128.lean`) is what is assumed of
them. `JacRep p P` says that the triple `p` denotes the point `P` of `y² = x³ + b`.
-/
namespace Libff
namespace Bn128
open WeierstrassCurve WeierstrassCurve.Affine
end Bn128
open Bn128 WeierstrassCurve WeierstrassCurve.Affine
set_option synthInstance.maxSize 2000

section
variable {K : Type} [Field K] [DecidableEq K] {b : K} {E : EcOps K}

/-- **C61.** `zero`, `+`, binary `-` and `dbl` implement the group of the curve. -/
theorem C61_group (hE : E.Correct b) :
    @ImplementsRel _ _ ⟨Bn128.zero, Bn128.plus E, Bn128.sub E, Bn128.dbl E⟩ _ (JacRep (W := sw 0 b)) :=
  implementsRel hE

/-- **C61.** Unary minus, the comparisons, `to_affine_coordinates`/`to_special`, `is_special`. -/
theorem C61_predicates {p q : Coord3 K} {P Q : (sw 0 b).Point} (hp : JacRep p P) (hq : JacRep q Q) :
    JacRep (Bn128.neg p) (-P) ∧ (Bn128.isZero p = true ↔ P = 0) ∧ (Bn128.eq p q = true ↔ P = Q) ∧
      JacRep (Bn128.toAffine p) P ∧ Bn128.isSpecial (Bn128.toAffine p) = true ∧
      ((P = 0 ∧ Bn128.toAffine p = ⟨0, 1, 0⟩) ∨ ∃ x y h, P = Point.some x y h ∧ Bn128.toAffine p = ⟨x, y, 1⟩) :=
  ⟨Bn128.neg_rep hp, Bn128.isZero_rep hp, Bn128.eq_rep hp hq, (Bn128.toAffine_spec hp).1, (Bn128.toAffine_spec hp).2,
    Bn128.toAffine_rep hp⟩

/-- **C61.** `is_well_formed` accepts exactly the triples that denote a point. -/
theorem C61_well_formed (hΔ : (sw 0 b).Δ ≠ 0) (p : Coord3 K) :
    Bn128.isWellFormed b p = true ↔ ∃ P : (sw 0 b).Point, JacRep p P := Bn128.isWellFormed_iff hΔ p

/-- **C61.** `mixed_add` with a second argument in special form, in release and debug builds. -/
theorem C61_mixed_add (hE : E.Correct b) (h2 : (2 : K) ≠ 0) (debug : Bool) {p q : Coord3 K} {P Q : (sw 0 b).Point}
    (hp : JacRep p P) (hq : JacRep q Q) (hs : Bn128.isSpecial q = true) :
    ∃ r, Bn128.mixedAdd E debug p q = .ok r ∧ JacRep r (P + Q) := Bn128.mixedAdd_rep hE h2 debug hp hq hs

/-- **C61.** `batch_to_special`, on any vector, zeros included. -/
theorem C61_batch_to_special (E : EcOps K) (debug : Bool) (vec : List (Coord3 K)) (Ps : List (sw 0 b).Point)
    (h : List.Forall₂ JacRep vec Ps) :
    ∃ l, @batchToSpecial _ (Bn128.ops E) Bn128.isZero (fun p => .ok (Bn128.toAffine p)) (Bn128.batchToSpecialNZ debug) vec = .ok l ∧
      List.Forall₂ JacRep l Ps ∧ ∀ p ∈ l, Bn128.isSpecial p = true :=
  letI : GroupOps (Coord3 K) := Bn128.ops E
  batchToSpecial_rel (Rep := JacRep (W := sw 0 b)) (fun p => Bn128.isSpecial p = true) Bn128.isZero Bn128.isZero_rep
    (fun p => .ok (Bn128.toAffine p)) ⟨_, rfl, Bn128.toAffine_spec (b := b) (P := 0) (p := Bn128.zero) rfl⟩ _
    (Bn128.batchToSpecialNZ_rep debug) vec Ps h

/-- **C61.** Multiplication by an integer of any number of limbs. -/
theorem C61_scalar_mul (hE : E.Correct b) {p : Coord3 K} {P : (sw 0 b).Point} (hp : JacRep p P) (e : List Limb) :
    JacRep (@scalarMul _ (Bn128.ops E) p e) (val e • P) :=
  @scalarMul_rel _ _ (Bn128.ops E) _ _ (implementsRel hE) _ _ hp e

/-- The contract is met by the formulas of libff's own Jacobian classes. -/
example (h2 : (2 : K) ≠ 0) : ∃ E : EcOps K, E.Correct b :=
  letI : Squared K := ⟨fun x => x * x⟩
  haveI : LawfulSquared K := ⟨fun _ => rfl⟩
  ⟨_, Bn128.jac_correct h2⟩

/-! ## Square roots -/

section
variable [Fintype K] {s tm : Nat} {z : K}

/-- **C61.** With `|K| - 1 = 2^s (2 tm + 1)` and `z^(2^(s-1)) = -1`, `sqrt` returns a root of every square other than zero. -/
theorem C61_sqrt (hs : 0 < s) (hcard : Fintype.card K = 2 ^ s * (2 * tm + 1) + 1) (hz : z ^ 2 ^ (s - 1) = -1) (debug : Bool) (a : K)
    (ha : IsSquare a) (h0 : a ≠ 0) :
    ∃ x, x * x = a ∧ ∀ fuel, s ≤ fuel → Bn128.sqrt debug s tm z fuel a = .ok (some x) :=
  Bn128.sqrt_square hs hcard hz debug a ha h0

/-- **C61.** On a non-square the debug build aborts and the release build never returns. -/
theorem C61_sqrt_nonsquare (hs : 0 < s) (hcard : Fintype.card K = 2 ^ s * (2 * tm + 1) + 1) (hz : z ^ 2 ^ (s - 1) = -1) (fuel : Nat)
    (a : K) (ha : ¬ IsSquare a) :
    Bn128.sqrt true s tm z fuel a = .abort ∧ Bn128.sqrt false s tm z fuel a = .ok none :=
  Bn128.sqrt_nonsquare hs hcard hz fuel a ha

end

/-- **Finding.** Zero is a square, but `sqrt(0)` aborts in debug builds and never returns in release builds; the functions of the
other curves treat zero separately. -/
theorem C61_sqrt_zero_never_returns (s tm : Nat) (z : K) (fuel : Nat) :
    Bn128.sqrt true s tm z fuel 0 = .abort ∧ Bn128.sqrt false s tm z fuel 0 = .ok none :=
  Bn128.sqrt_zero s tm z fuel

/-! ## Streams of points -/

/-- A point of odd order has no vanishing `y`. -/
theorem y_ne_zero_of_odd {P : (sw 0 b).Point} {n : Nat} (hn : n • P = 0) (hodd : n % 2 = 1) {x y : K}
    {h : (sw 0 b).Nonsingular x y} (e : P = Point.some x y h) : y ≠ 0 := by
  rintro rfl
  have h1 : P + P = 0 := by
    rw [e]
    exact Point.add_of_Y_eq rfl (by simp [negY, sw, weier])
  have h2 : n • P = P := by
    obtain ⟨k, rfl⟩ : ∃ k, n = 2 * k + 1 := ⟨n / 2, by omega⟩
    rw [add_nsmul, mul_comm, mul_nsmul', two_nsmul, h1, nsmul_zero, zero_add, one_nsmul]
  rw [h2, e] at hn
  exact Point.some_ne_zero _ hn

variable {binary compress : Bool} {c : FieldCodec K} {lsb : K → Bool} {sq : K → Outcome (Option K)}

/-- **C61**, `bn128_G1`: every point of odd order (the curve has prime order `r`) is read back as an equal point, in text and
binary builds, compressed or not. The external codec must read back what it writes and the low bit tell an element from its
negative. -/
theorem C61_g1_stream (hc : StreamLaw binary (fun _ => True) c.write c.read) (hl : LsbLaw lsb) (hq : SqrtNZ sq) {p : Coord3 K}
    {P : (sw 0 b).Point} (hp : JacRep p P) {n : Nat} (hn : n • P = 0) (hodd : n % 2 = 1) :
    ∃ q, ReadsBack (PointCont binary compress) (Bn128.write binary compress c lsb) (Bn128.read binary compress c lsb b sq) p q ∧
      JacRep q P ∧ Bn128.eq p q = true :=
  ⟨_, Bn128.read_write hc hp (fun _ => hq) (fun _ _ y _ e => ⟨y_ne_zero_of_odd hn hodd e, hl y (y_ne_zero_of_odd hn hodd e)⟩),
    Bn128.normal_rep hp, (Bn128.eq_rep hp (Bn128.normal_rep hp)).2 rfl⟩

/-- **C61**, `std::vector<bn128_G1>`. -/
theorem C61_g1_vector_stream (hc : StreamLaw binary (fun _ => True) c.write c.read) (hl : LsbLaw lsb) (hq : SqrtNZ sq)
    {v : List (Coord3 K)} {Ps : List (sw 0 b).Point} {n : Nat} (hodd : n % 2 = 1)
    (hv : List.Forall₂ (fun p P => JacRep p P ∧ n • P = 0) v Ps) (hlen : v.length < 2 ^ 64) :
    ∃ w, ReadsBack (fun _ => True) (vecWrite binary (Bn128.write binary compress c lsb))
      (vecRead binary (Bn128.read binary compress c lsb b sq)) v w ∧ List.Forall₂ (fun p P => JacRep p P ∧ n • P = 0) w Ps :=
  readsBack_vec (fun _ _ h => by
    obtain ⟨q, h1, h2, -⟩ := C61_g1_stream (compress := compress) hc hl hq h.1 h.2 hodd
    exact ⟨q, h1, h2, h.2⟩) hv hlen

end

section
variable {F : Type} [Field F] [DecidableEq F] {β : F} [Fact (¬ IsSquare β)] {b : Fp2 F β}
variable {binary compress : Bool} {c : FieldCodec F} {lsb : F → Bool} {sq : Fp2 F β → Outcome (Option (Fp2 F β))}

/-- **C61**, `bn128_G2`: read back as an equal point if stored uncompressed, or if zero, or if the first coefficient of the affine
`Y` is not zero. -/
theorem C61_g2_stream (hc : StreamLaw binary (fun _ => True) c.write c.read) (hl : LsbLaw lsb) (hq : SqrtNZ sq)
    {p : Coord3 (Fp2 F β)} {P : (sw 0 b).Point} (hp : JacRep p P)
    (hy : compress = true → ∀ x y h, P = Point.some x y h → y.c0 ≠ 0) :
    ∃ q, ReadsBack (PointCont binary compress) (Bn128.write binary compress (fp2Codec binary c) (Bn128.fp2Lsb lsb))
        (Bn128.read binary compress (fp2Codec binary c) (Bn128.fp2Lsb lsb) b sq) p q ∧
      JacRep q P ∧ Bn128.eq p q = true :=
  ⟨_, Bn128.read_write (fp2Codec_stream hc) hp (fun _ => hq) (fun hcomp x y h e =>
      ⟨fun h0 => hy hcomp x y h e (congrArg Quad.c0 h0), hl y.c0 (hy hcomp x y h e)⟩),
    Bn128.normal_rep hp, (Bn128.eq_rep hp (Bn128.normal_rep hp)).2 rfl⟩

/-- **C61**, `std::vector<bn128_G2>`. -/
theorem C61_g2_vector_stream (hc : StreamLaw binary (fun _ => True) c.write c.read) (hl : LsbLaw lsb) (hq : SqrtNZ sq)
    {v : List (Coord3 (Fp2 F β))} {Ps : List (sw 0 b).Point}
    (hv : List.Forall₂ (fun p P => JacRep p P ∧ (compress = true → ∀ x y h, P = Point.some x y h → y.c0 ≠ 0)) v Ps)
    (hlen : v.length < 2 ^ 64) :
    ∃ w, ReadsBack (fun _ => True) (vecWrite binary (Bn128.write binary compress (fp2Codec binary c) (Bn128.fp2Lsb lsb)))
      (vecRead binary (Bn128.read binary compress (fp2Codec binary c) (Bn128.fp2Lsb lsb) b sq)) v w ∧
      List.Forall₂ (fun p P => JacRep p P ∧ (compress = true → ∀ x y h, P = Point.some x y h → y.c0 ≠ 0)) w Ps :=
  readsBack_vec (fun _ _ h => by
    obtain ⟨q, h1, h2, -⟩ := C61_g2_stream (compress := compress) hc hl hq h.1 h.2
    exact ⟨q, h1, h2, h.2⟩) hv hlen

/-- **Finding.** Compressed points of `bn128_G2` whose affine `Y` has first coefficient zero are written like their negatives: no
reader recovers both. -/
theorem C61_g2_compressed_wrong (h2 : (2 : F) ≠ 0) (cc : FieldCodec (Fp2 F β)) (x y : Fp2 F β) (h : (sw 0 b).Nonsingular x y)
    (h0 : y.c0 = 0) (hy : y ≠ 0) (read : Reader (Coord3 (Fp2 F β))) :
    Bn128.write binary true cc (Bn128.fp2Lsb lsb) ⟨x, y, 1⟩ = Bn128.write binary true cc (Bn128.fp2Lsb lsb) ⟨x, -y, 1⟩ ∧
      ¬ ∃ q q', ReadsBack (PointCont binary true) (Bn128.write binary true cc (Bn128.fp2Lsb lsb)) read ⟨x, y, 1⟩ q ∧
        ReadsBack (PointCont binary true) (Bn128.write binary true cc (Bn128.fp2Lsb lsb)) read ⟨x, -y, 1⟩ q' ∧
        JacRep q (Point.some x y h) ∧ JacRep q' (-Point.some x y h) := by
  have hz : ∀ y : Fp2 F β, Bn128.isZero (⟨x, y, 1⟩ : Coord3 (Fp2 F β)) = false := fun y => by simp [Bn128.isZero]
  have e1 : ∀ y : Fp2 F β, Bn128.toAffine (⟨x, y, 1⟩ : Coord3 (Fp2 F β)) = ⟨x, y, 1⟩ := fun y => by
    simp [Bn128.toAffine, hz]
  have e2 : Bn128.fp2Lsb lsb (-y) = Bn128.fp2Lsb lsb y := by
    simp only [Bn128.fp2Lsb, Quad.neg_c0, h0, neg_zero]
  have e : Bn128.write binary true cc (Bn128.fp2Lsb lsb) ⟨x, y, 1⟩ = Bn128.write binary true cc (Bn128.fp2Lsb lsb) ⟨x, -y, 1⟩ := by
    simp only [Bn128.write, e1, hz, e2, if_true]
  refine ⟨e, ?_⟩
  rintro ⟨q, q', h1, h2', h3, h4⟩
  rw [h1.unique h2' e [] (Or.inl rfl)] at h3
  have h5 : Point.some x y h = -Point.some x y h := Jac.rep_unique h3 h4
  rw [Point.neg_some, Point.some.injEq] at h5
  have h6 : y = -y := by simpa [negY, sw, weier] using h5.2
  have h2'' : (2 : Fp2 F β) ≠ 0 := fun h => h2 (congrArg Quad.c0 h)
  have h7 : 2 * y = 0 := by linear_combination h6
  rcases mul_eq_zero.1 h7 with h | h
  · exact h2'' h
  · exact hy h

end

/-! ## Streams of precomputations and of target group elements -/

section
variable {F : Type} {nr : F → F} {binary : Bool} {c : FieldCodec F}

/-- **Finding.** `in >> prec` for a `bn128_ate_G1_precomp` consumes exactly what `out << prec` wrote, but leaves the object as it
was: the round trip holds only if the object already had the value written. -/
theorem C61_g1_precomp_not_restored (hc : StreamLaw binary (fun _ => True) c.write c.read) (p old : Coord3 F) :
    ∃ out, writeG1Precomp binary c p = .ok out ∧ (∀ rest, readG1Precomp binary c old (out ++ rest) = .ok (old, rest)) ∧
      ((∀ rest, readG1Precomp binary c old (out ++ rest) = .ok (p, rest)) ↔ old = p) := by
  obtain ⟨out, h1, h2⟩ := readG1Precomp_write hc p
  refine ⟨out, h1, fun rest => h2 old rest, fun h => ?_, fun h rest => h ▸ h2 old rest⟩
  have := (h2 old []).symm.trans (h [])
  exact congrArg Prod.fst (Outcome.ok.inj this)

/-- **Finding.** For a `bn128_ate_G2_precomp` the coefficients come back, the point `Q` stays what it was. -/
theorem C61_g2_precomp_partly_restored (hc : StreamLaw binary (fun _ => True) c.write c.read) (q old : G2Precomp F nr)
    (hl : q.coeffs.length < 2 ^ 64) :
    ∃ out, writeG2Precomp binary c q = .ok out ∧
      (∀ rest, readG2Precomp binary c old (out ++ rest) = .ok (⟨old.Q, q.coeffs⟩, rest)) ∧
      ((∀ rest, readG2Precomp binary c old (out ++ rest) = .ok (q, rest)) ↔ old.Q = q.Q) := by
  obtain ⟨out, h1, h2⟩ := readG2Precomp_write hc q hl
  refine ⟨out, h1, fun rest => h2 old rest, fun h => ?_, fun h rest => by rw [h2 old rest, h]⟩
  have := (h2 old []).symm.trans (h [])
  have h3 : (⟨old.Q, q.coeffs⟩ : G2Precomp F nr) = q := congrArg Prod.fst (Outcome.ok.inj this)
  exact (congrArg G2Precomp.Q h3 : (⟨old.Q, q.coeffs⟩ : G2Precomp F nr).Q = q.Q)

/-- **C61**, `bn128_GT`: every element is read back (`c` codes the members of type `bn::Fp6`). -/
theorem C61_gt_stream (hc : StreamLaw binary (fun _ => True) c.write c.read) :
    StreamLaw binary (fun _ => True) (writeGT (nr := nr) binary c) (readGT binary c) := fp2Codec_stream hc

end

/-- **C61**, `bn128_GT::unitary_inverse`: over a field `F = bn::Fp6` with `bn::Fp12 = F[w]/(w² - β)`, it is the inverse of every element of norm one,
in particular of every `x^(q^6 - 1)` (C22). -/
theorem C61_gt_unitary_inverse {F : Type} [Field F] {β : F} (x : Fp2 F β)
    (hx : x.c0 * x.c0 - β * (x.c1 * x.c1) = 1) : x * Bn128.unitaryInverse x = 1 := by
  apply Quad.ext
  · simp only [Bn128.unitaryInverse, Quad.mul_c0, Quad.one_c0]
    linear_combination hx
  · simp only [Bn128.unitaryInverse, Quad.mul_c1, Quad.one_c1]
    ring

/-! ## The constants of bn128 -/

instance bn128_Fr_valid : Fact bn128_Fr_params.Valid := ⟨bn128_Fr_consistent.params⟩

/-- **C61.** bn128 has the fields of alt_bn128. -/
theorem C61_same_fields : bn128_Fq_params.p = alt_bn128_Fq_params.p ∧ bn128_Fr_params.p = alt_bn128_Fr_params.p := by
  decide +kernel

/-- **C61.** `bn128_twist_coeff_b`, given by its digits, is `b / (9 + u)`, and `bn128_coeff_b` is the `b` of alt_bn128. -/
theorem C61_coefficients : bn128_b = alt_bn128_b ∧ bn128_twist_b = alt_bn128_twist_b :=
  ⟨rfl, (alt_bn128_K.o2.eq (dec2_rel _ (by decide +kernel)) alt_bn128_twist_b_rel).1 (by decide +kernel)⟩

theorem bn128_Δ_ne {T : Type} [Field T] {b : T} (h2 : (2 : T) ≠ 0) (h3 : (3 : T) ≠ 0) (hb : b ≠ 0) : (sw 0 b).Δ ≠ 0 := by
  have : (sw 0 b).Δ = -(2 * 2 * 2 * 2 * (3 * 3 * 3) * (b * b)) := by
    simp only [sw, weier, WeierstrassCurve.Δ, WeierstrassCurve.b₂, WeierstrassCurve.b₄, WeierstrassCurve.b₆, WeierstrassCurve.b₈]
    ring
  rw [this, neg_ne_zero]
  simp [h2, h3, hb]

theorem bn128_G2_h_val : val bn128_G2_h = bn128_G2_h_nat := by decide +kernel

theorem bn128_twist_b_rel : alt_bn128_K.R2 (dec2 NM.of bn128_twist_b_nat) bn128_twist_b := dec2_rel _ (by decide +kernel)

/-- **C61.** `bn128_G1::one()` denotes a point of `y² = x³ + b` whose order is `r`. -/
theorem C61_g1_generator : Bn128.isWellFormed bn128_b bn128_G1_one = true ∧
    ∃ P : (sw 0 bn128_b).Point, JacRep bn128_G1_one P ∧ addOrderOf P = bn128_Fr_params.p := by
  have h := Jac.genCheck_sound alt_bn128_K.o1 (b := NM.of 3) (b' := bn128_b) (g := ⟨NM.of 1, NM.of 2, 1⟩) (g' := bn128_G1_one)
    (FpRel.cast (by decide +kernel))
    ⟨FpRel.cast (v := 1) (by decide +kernel), FpRel.cast (v := 2) (by decide +kernel), alt_bn128_K.o1.one⟩
    (e := bn128_Fr_params.modulus) bn128_Fr_prime (by decide +kernel)
  refine ⟨?_, h.2.2.2.2⟩
  obtain ⟨P, hP, -⟩ := h.2.2.2.2
  exact (Bn128.isWellFormed_iff (bn128_Δ_ne h.1 h.2.1 h.2.2.1) _).2 ⟨P, hP⟩

/-- **C61.** `bn128_G2::one()` denotes a point of `y² = x³ + b'` whose order is `r`. -/
theorem C61_g2_generator : Bn128.isWellFormed bn128_twist_b bn128_G2_one = true ∧
    ∃ P : (sw 0 bn128_twist_b).Point, JacRep bn128_G2_one P ∧ addOrderOf P = bn128_Fr_params.p := by
  have h := Jac.genCheck_sound alt_bn128_K.o2 (g := ⟨dec2 NM.of bn128_G2_one_nat.1, dec2 NM.of bn128_G2_one_nat.2, 1⟩)
    bn128_twist_b_rel (g' := bn128_G2_one)
    ⟨dec2_rel _ (by decide +kernel), dec2_rel _ (by decide +kernel), alt_bn128_K.o2.one⟩
    (e := bn128_Fr_params.modulus) bn128_Fr_prime (by decide +kernel)
  refine ⟨?_, h.2.2.2.2⟩
  obtain ⟨P, hP, -⟩ := h.2.2.2.2
  exact (Bn128.isWellFormed_iff (bn128_Δ_ne h.1 h.2.1 h.2.2.1) _).2 ⟨P, hP⟩

/-- **C61.** The constants for square roots in `bn::Fp` meet the hypotheses of `C61_sqrt`. -/
theorem C61_sqrt_constants_g1 : 0 < bn128_Fq_s ∧
    Fintype.card alt_bn128_Fq = 2 ^ bn128_Fq_s * (2 * bn128_Fq_t_minus_1_over_2 + 1) + 1 ∧
    bn128_Fq_nqr_to_t ^ 2 ^ (bn128_Fq_s - 1) = -1 := by
  refine ⟨by decide, by rw [Fp.card]; decide +kernel, ?_⟩
  have h : bn128_Fq_nqr_to_t + 1 = 0 :=
    (alt_bn128_K.o1.eq (alt_bn128_K.o1.add (FpRel.cast (by decide +kernel)) alt_bn128_K.o1.one) alt_bn128_K.o1.zero).1 (by decide +kernel)
  change bn128_Fq_nqr_to_t ^ 1 = -1
  rw [pow_one]
  exact eq_neg_of_add_eq_zero_left h

/-- **C61.** The constants for square roots in `bn::Fp2` meet the hypotheses of `C61_sqrt`. -/
theorem C61_sqrt_constants_g2 : 0 < bn128_Fq2_s ∧
    Fintype.card alt_bn128_Fq2 = 2 ^ bn128_Fq2_s * (2 * bn128_Fq2_t_minus_1_over_2 + 1) + 1 ∧
    bn128_Fq2_nqr_to_t ^ 2 ^ (bn128_Fq2_s - 1) = -1 := by
  have h := C52_alt_bn128_square_roots.1
  have hc := h.card
  rw [h.t_odd] at hc
  have ht : val (alt_bn128_Fq2_data.sqrtConsts 8 (dec2 Nat.cast : _ → alt_bn128_Fq2)).tMinus1Over2 = bn128_Fq2_t_minus_1_over_2 := by
    decide +kernel
  rw [ht] at hc
  exact ⟨by decide, hc, h.z⟩

theorem bn128_sqrt_law_g1 (debug : Bool) (fuel : Nat) (hf : bn128_Fq_s ≤ fuel) : SqrtNZ (Bn128.sqrtG1 debug fuel) := fun y hy => by
  obtain ⟨h1, h2, h3⟩ := C61_sqrt_constants_g1
  obtain ⟨x, e1, e2⟩ := C61_sqrt h1 h2 h3 debug (y * y) ⟨y, rfl⟩ (mul_ne_zero hy hy)
  exact ⟨x, e2 fuel hf, e1⟩

theorem bn128_sqrt_law_g2 (debug : Bool) (fuel : Nat) (hf : bn128_Fq2_s ≤ fuel) : SqrtNZ (Bn128.sqrtG2 debug fuel) := fun y hy => by
  obtain ⟨h1, h2, h3⟩ := C61_sqrt_constants_g2
  obtain ⟨x, e1, e2⟩ := C61_sqrt h1 h2 h3 debug (y * y) ⟨y, rfl⟩ (mul_ne_zero hy hy)
  exact ⟨x, e2 fuel hf, e1⟩

/-- **C61.** Points of `bn128_G1` with the constants of the curve: any point of order dividing `r`, text or binary, compressed or
not, release or debug. -/
theorem C61_bn128_G1_stream {binary : Bool} (compress debug : Bool) (fuel : Nat) (hf : bn128_Fq_s ≤ fuel) {c : FieldCodec alt_bn128_Fq}
    {lsb : alt_bn128_Fq → Bool} (hc : StreamLaw binary (fun _ => True) c.write c.read) (hl : LsbLaw lsb)
    {p : Coord3 alt_bn128_Fq} {P : (sw 0 bn128_b).Point} (hp : JacRep p P) (hr : bn128_Fr_params.p • P = 0) :
    ∃ q, ReadsBack (PointCont binary compress) (Bn128.write binary compress c lsb)
        (Bn128.read binary compress c lsb bn128_b (Bn128.sqrtG1 debug fuel)) p q ∧ JacRep q P ∧ Bn128.eq p q = true :=
  C61_g1_stream hc hl (bn128_sqrt_law_g1 debug fuel hf) hp hr (by decide +kernel)

/-- **C61.** Points of `bn128_G2` with the constants of the curve. -/
theorem C61_bn128_G2_stream {binary : Bool} (compress debug : Bool) (fuel : Nat) (hf : bn128_Fq2_s ≤ fuel) {c : FieldCodec alt_bn128_Fq}
    {lsb : alt_bn128_Fq → Bool} (hc : StreamLaw binary (fun _ => True) c.write c.read) (hl : LsbLaw lsb)
    {p : Coord3 alt_bn128_Fq2} {P : (sw 0 bn128_twist_b).Point} (hp : JacRep p P)
    (hy : compress = true → ∀ x y h, P = Point.some x y h → y.c0 ≠ 0) :
    ∃ q, ReadsBack (PointCont binary compress) (Bn128.write binary compress (fp2Codec binary c) (Bn128.fp2Lsb lsb))
        (Bn128.read binary compress (fp2Codec binary c) (Bn128.fp2Lsb lsb) bn128_twist_b (Bn128.sqrtG2 debug fuel)) p q ∧
      JacRep q P ∧ Bn128.eq p q = true :=
  C61_g2_stream hc hl (bn128_sqrt_law_g2 debug fuel hf) hp hy

/-- **C61.** Multi-exponentiation on `bn128_G1` with scalars in `bn128_Fr`. -/
theorem C61_bn128_G1_multi_exp {E : EcOps alt_bn128_Fq} (hE : E.Correct bn128_b) (debug : Bool) :
    MultiExpCorrect bn128_Fr_params (Bn128.ops E) (JacRep (W := sw 0 bn128_b)) (fun p => Bn128.isSpecial p = true)
      (Bn128.mixedAdd E debug)
      (@batchToSpecial _ (Bn128.ops E) Bn128.isZero (fun p => .ok (Bn128.toAffine p)) (Bn128.batchToSpecialNZ debug)) :=
  @multiExpCorrect _ _ (Bn128.ops E) _ _ _ _ (implementsRel hE) (by decide +kernel) _ _ _
    (fun hg hh hs => C61_mixed_add hE (alt_bn128_K.o1.two_ne (by decide +kernel)) debug hg hh hs)
    (fun hg => C61_batch_to_special E debug _ _ hg)

/-- **C61.** Multi-exponentiation on `bn128_G2`. -/
theorem C61_bn128_G2_multi_exp {E : EcOps alt_bn128_Fq2} (hE : E.Correct bn128_twist_b) (debug : Bool) :
    MultiExpCorrect bn128_Fr_params (Bn128.ops E) (JacRep (W := sw 0 bn128_twist_b)) (fun p => Bn128.isSpecial p = true)
      (Bn128.mixedAdd E debug)
      (@batchToSpecial _ (Bn128.ops E) Bn128.isZero (fun p => .ok (Bn128.toAffine p)) (Bn128.batchToSpecialNZ debug)) :=
  @multiExpCorrect _ _ (Bn128.ops E) _ _ _ _ (implementsRel hE) (by decide +kernel) _ _ _
    (fun hg hh hs => C61_mixed_add hE (alt_bn128_K.o2.two_ne (by decide +kernel)) debug hg hh hs)
    (fun hg => C61_batch_to_special E debug _ _ hg)

/-- **C61.** `mul_by_cofactor`: the identity on `bn128_G1` (cofactor 1), multiplication by the stored cofactor on `bn128_G2`. -/
theorem C61_mul_by_cofactor {E : EcOps alt_bn128_Fq2} (hE : E.Correct bn128_twist_b) {p : Coord3 alt_bn128_Fq2}
    {P : (sw 0 bn128_twist_b).Point} (hp : JacRep p P) (g : Coord3 alt_bn128_Fq) :
    (∀ n, n = bn128_G2_h_nat → JacRep (Bn128.mulByCofactorG2 E p) (n • P)) ∧ Bn128.mulByCofactorG1 g = g :=
  ⟨fun n hn => by
    have h := fun e => C61_scalar_mul hE hp e
    have h' : ∀ e, val e = n → JacRep (@scalarMul _ (Bn128.ops E) p e) (n • P) := fun e he => he ▸ h e
    exact h' bn128_G2_h (bn128_G2_h_val.trans hn.symm), rfl⟩

/-! ## Witnesses -/

/-- The contract on the actual curve is met by libff's Jacobian formulas, and the generator denotes a point of it. -/
example : ∃ (E : EcOps alt_bn128_Fq) (p : Coord3 alt_bn128_Fq) (P : (sw 0 bn128_b).Point), E.Correct bn128_b ∧ JacRep p P ∧ P ≠ 0 := by
  obtain ⟨P, h1, h2⟩ := C61_g1_generator.2
  refine ⟨⟨Jac.add, Jac.dbl⟩, bn128_G1_one, P, ⟨fun hp hq _ _ _ => Jac.add_rep (alt_bn128_K.o1.two_ne (by decide +kernel)) hp hq,
    fun hp => Jac.dbl_rep (alt_bn128_K.o1.two_ne (by decide +kernel)) hp⟩, h1, ?_⟩
  rintro rfl
  rw [addOrderOf_zero] at h2
  revert h2
  decide +kernel

/-- A codec and a low bit that meet the laws: those of `alt_bn128_Fq`. -/
example : ∃ (c : FieldCodec alt_bn128_Fq) (lsb : alt_bn128_Fq → Bool), StreamLaw false (fun _ => True) c.write c.read ∧ LsbLaw lsb := by
  refine ⟨fpObjCodec false false alt_bn128_Fq_params 254, fun y => y.toZMod.val % 2 == 1,
    (fpObjCodec_lawful alt_bn128_Fq_params false false 254 ⟨by decide +kernel, by decide +kernel, by decide⟩).stream, fun y hy => ?_⟩
  obtain ⟨b, h1, h2⟩ := fp_signBit alt_bn128_Fq_params y
  rcases h2 with h2 | h2
  · exact absurd h2 hy
  · rw [fpLsb_eq] at h1 h2
    beta_reduce
    rw [Outcome.ok.inj h1, Outcome.ok.inj h2]

/-- Reading a written `bn128_ate_G1_precomp` into a fresh object: with the codec of the one limb field the text of `(1, 2, 1)` is read
without complaint and `(0, 0, 0)` remains. -/
example : ∃ out, writeG1Precomp false (fpObjCodec false false w127 7) ⟨1, 2, 1⟩ = .ok out ∧
    readG1Precomp false (fpObjCodec false false w127 7) ⟨0, 0, 0⟩ out = .ok (⟨0, 0, 0⟩, []) := by
  obtain ⟨out, h1, h2, -⟩ := C61_g1_precomp_not_restored (binary := false) (fpObjCodec_lawful w127 false false 7 w127_bits).stream
    ⟨1, 2, 1⟩ ⟨0, 0, 0⟩
  exact ⟨out, h1, by simpa using h2 []⟩

end Libff
