import Verif.Lemmas.CurveIO
import Verif.Props.Ext
import Verif.Props.Edwards
import Verif.Lemmas.Witness
import Mathlib.Tactic.NormNum.Prime

/-!
# Serialization of curve points (C39)

Vocabulary: `JacRep`/`ProjRep`/`EdwRep` (`Verif/Spec/Curve.lean`) say which point of the elliptic curve an object
denotes. `ReadsBack ok write read p q` (`Verif/Spec/CurveIO.lean`) says that writing `p` succeeds and reading the
output, followed by anything `ok`, gives `q` and leaves the rest. `compress = true` is the default format,
`compress = false` the one of `NO_PT_COMPRESSION` builds; `binary`, `mont`, `debug`, `mixed` are the other build
options. The field operators, `as_bigint` and `sqrt` are the limb level models; `fuel` bounds the loops of `sqrt`,
any `fuel ≥ s` will do.
-/
namespace Libff
open WeierstrassCurve WeierstrassCurve.Affine

theorem fp_two_ne_zero (P : FpParams) [hP : Fact P.Valid] : (2 : Fp P) ≠ 0 := by
  intro h
  have h1 : ((2 : ℕ) : Fp P) = 0 := by exact_mod_cast h
  rw [CharP.cast_eq_zero_iff (Fp P) P.p] at h1
  have h2 := p_odd P
  have h3 := hP.out.one_lt
  rcases (Nat.dvd_prime Nat.prime_two).1 h1 with h | h <;> omega

/-- Lifting to vectors. -/
theorem readsBack_vec₂ {α β : Type} {Rep Rep' : α → β → Prop} {binary compress : Bool}
    {write : α → Outcome (List Byte)} {read : Reader α}
    (h : ∀ p P, Rep p P → ∃ q, ReadsBack (PointCont binary compress) write read p q ∧ Rep' q P)
    {v : List α} {Ps : List β} (hv : List.Forall₂ Rep v Ps) (hl : v.length < 2 ^ 64) :
    ∃ w, ReadsBack (fun _ => True) (vecWrite binary write) (vecRead binary read) v w ∧ List.Forall₂ Rep' w Ps := by
  have key : ∃ w, List.Forall₂ (ReadsBack (PointCont binary compress) write read) v w ∧ List.Forall₂ Rep' w Ps := by
    clear hl
    induction hv with
    | nil => exact ⟨[], .nil, .nil⟩
    | cons hx _ ih =>
      obtain ⟨w, h1, h2⟩ := ih
      obtain ⟨q, h3, h4⟩ := h _ _ hx
      exact ⟨q :: w, .cons h3 h1, .cons h4 h2⟩
  obtain ⟨w, h1, h2⟩ := key
  exact ⟨w, vecRead_readsBack h1 hl, h2⟩

/-- Lifting to vectors, with one relation. -/
theorem readsBack_vec {α β : Type} {Rep : α → β → Prop} {binary compress : Bool} {write : α → Outcome (List Byte)}
    {read : Reader α}
    (h : ∀ p P, Rep p P → ∃ q, ReadsBack (PointCont binary compress) write read p q ∧ Rep q P)
    {v : List α} {Ps : List β} (hv : List.Forall₂ Rep v Ps) (hl : v.length < 2 ^ 64) :
    ∃ w, ReadsBack (fun _ => True) (vecWrite binary write) (vecRead binary read) v w ∧ List.Forall₂ Rep w Ps :=
  readsBack_vec₂ h hv hl

/-- The same where the reading back of each point may use that its group element is one of the list. -/
theorem readsBack_vec_on {α β : Type} {Rep : α → β → Prop} {binary compress : Bool} {write : α → Outcome (List Byte)}
    {read : Reader α} {v : List α} {Ps : List β}
    (h : ∀ p P, P ∈ Ps → Rep p P → ∃ q, ReadsBack (PointCont binary compress) write read p q ∧ Rep q P)
    (hv : List.Forall₂ Rep v Ps) (hl : v.length < 2 ^ 64) :
    ∃ w, ReadsBack (fun _ => True) (vecWrite binary write) (vecRead binary read) v w ∧ List.Forall₂ Rep w Ps := by
  have hv' : List.Forall₂ (fun p P => P ∈ Ps ∧ Rep p P) v Ps := by
    have key : ∀ (v : List α) (Qs : List β), (∀ Q ∈ Qs, Q ∈ Ps) → List.Forall₂ Rep v Qs →
        List.Forall₂ (fun p P => P ∈ Ps ∧ Rep p P) v Qs := by
      intro v Qs hs hq
      induction hq with
      | nil => exact .nil
      | cons hx _ ih =>
        exact .cons ⟨hs _ List.mem_cons_self, hx⟩ (ih fun Q hQ => hs Q (List.mem_cons_of_mem _ hQ))
    exact key v Ps (fun _ h => h) hv
  obtain ⟨w, h1, h2⟩ := readsBack_vec (Rep := fun p P => P ∈ Ps ∧ Rep p P) (binary := binary) (compress := compress)
    (write := write) (read := read)
    (fun p P hp => (h p P hp.1 hp.2).imp fun _ hq => ⟨hq.1, hp.1, hq.2⟩) hv' hl
  exact ⟨w, h1, h2.imp fun _ _ h => h.2⟩

section G1
variable (P : FpParams) [hP : Fact P.Valid] [hp : Fact P.p.Prime] (mont binary compress debug mixed : Bool) (bits : Nat)
  (hb : BitSize P bits) (C : SqrtConsts (Fp P)) (hC : C.Valid) (fuel : Nat) (hf : C.s ≤ fuel)
include hP hp hb hC hf

/-- **C39**, `alt_bn128_G1` and `bls12_381_G1`: every point is read back as an equal point, compressed or not. What
is read is the affine form of what was written. -/
theorem C39_jacobian_g1 (b : Fp P) {g : Coord3 (Fp P)} {Q : (sw 0 b).Point} (hg : JacRep g Q) :
    ∃ q, ReadsBack (PointCont binary compress)
        (Jac.write binary compress (fpObjCodec mont binary P bits) (fpLsb P))
        (Jac.read binary compress (fpObjCodec mont binary P bits) (fpLsb P) (fieldSqrt debug C fuel) b) g q ∧
      JacRep q Q ∧ Jac.toAffine g = .ok q ∧ Jac.eq g q = true := by
  obtain ⟨q, h1, h2⟩ := Jac.read_write (compress := compress) (sqrt := fieldSqrt debug C fuel) (lsb := fpLsb P)
    (fun _ => trivial) (fpObjCodec_lawful P mont binary bits hb).stream (fun _ => sqrtLaw_fieldSqrt C hC debug fuel hf)
    hg (fun _ => ⟨fun _ => fp_signBit P 1, fun _ y _ _ => fp_signBit P y⟩)
  obtain ⟨r, hr, hr'⟩ := Jac.toAffine_spec hg
  have : r = q := by rw [h1] at hr; exact (Outcome.ok.inj hr).symm
  subst this
  exact ⟨r, h2, hr'.1, h1, (Jac.eq_rep hg hr'.1).2 rfl⟩

/-- **C39**, `mnt4_G1` and `mnt6_G1`. -/
theorem C39_projective_g1 (a b : Fp P) {g : Coord3 (Fp P)} {Q : (sw a b).Point} (hg : ProjRep g Q) :
    ∃ q, ReadsBack (PointCont binary compress)
        (Proj.write binary compress (fpObjCodec mont binary P bits) (fpLsb P))
        (Proj.read binary compress (fpObjCodec mont binary P bits) (fpLsb P) (fieldSqrt debug C fuel) a b) g q ∧
      ProjRep q Q ∧ Proj.toAffine g = .ok q ∧ Proj.eq g q = true := by
  obtain ⟨q, h1, h2⟩ := Proj.read_write (compress := compress) (sqrt := fieldSqrt debug C fuel) (lsb := fpLsb P)
    (fun _ => trivial) (fpObjCodec_lawful P mont binary bits hb).stream (fun _ => sqrtLaw_fieldSqrt C hC debug fuel hf)
    hg (fun _ => ⟨fun _ => fp_signBit P 1, fun _ y _ _ => fp_signBit P y⟩)
  obtain ⟨r, hr, hr'⟩ := Proj.toAffine_spec hg
  have : r = q := by rw [h1] at hr; exact (Outcome.ok.inj hr).symm
  subst this
  exact ⟨r, h2, hr'.1, h1, (Proj.eq_rep hg hr'.1).2 rfl⟩

/-- **C39**, `edwards_G1`: curve `x² + y² = 1 + d x² y²` with `d ≠ 1`. -/
theorem C39_edwards_g1 (d : Fp P) (hd : 1 - d ≠ 0) {g : Coord3 (Fp P)} {Q : (edwW 1 d).Point} (hg : EdwRep g Q) :
    ∃ q, ReadsBack (PointCont binary compress)
        (Edw.write binary compress (fpObjCodec mont binary P bits) (fpLsb P))
        (Edw.read binary compress (fpObjCodec mont binary P bits) (fpLsb P) (fieldSqrt debug C fuel) debug mixed
          (fun x => x) (fun x => d * x)) g q ∧
      EdwRep q Q ∧ Edw.eq g q = true := by
  obtain ⟨x, y, h1, h2, h3, -⟩ := C37_to_affine hg
  obtain ⟨out, h4, h5⟩ := Edw.readAffine_write (compress := compress) (sqrt := fieldSqrt debug C fuel) (lsb := fpLsb P)
    (fun _ => trivial) (fpObjCodec_lawful P mont binary bits hb).stream (mulA := fun x => x) (mulD := fun x => d * x)
    (fun x => (one_mul x).symm) (fun _ => rfl) hd h1 h2 (fun _ => fp_signBit P y)
    (fun _ => sqrtLaw_fieldSqrt C hC debug fuel hf)
  obtain ⟨r, h6, h7, -⟩ := Edw.toSpecial_spec (fp_two_ne_zero P) hd debug h3
  cases mixed with
  | true =>
    refine ⟨r, ⟨out, h4, fun rest hr => ?_⟩, h7, (Edw.eq_rep (fp_two_ne_zero P) hd hg h7).2 rfl⟩
    rw [Edw.read, h5 rest hr, Outcome.bind_ok]
    have h6' : Edw.toSpecial debug ⟨y, x, x * y⟩ = .ok r := h6
    simp only [if_true, h6', Outcome.map_ok]
  | false =>
    refine ⟨_, ⟨out, h4, fun rest hr => ?_⟩, h3, (Edw.eq_rep (fp_two_ne_zero P) hd hg h3).2 rfl⟩
    rw [Edw.read, h5 rest hr, Outcome.bind_ok]
    rfl

/-- **C39**, `std::vector<alt_bn128_G1>` and `std::vector<bls12_381_G1>`. -/
theorem C39_jacobian_g1_vector (b : Fp P) {v : List (Coord3 (Fp P))} {Qs : List (sw 0 b).Point}
    (hv : List.Forall₂ JacRep v Qs) (hl : v.length < 2 ^ 64) :
    ∃ w, ReadsBack (fun _ => True)
        (vecWrite binary (Jac.write binary compress (fpObjCodec mont binary P bits) (fpLsb P)))
        (vecRead binary (Jac.read binary compress (fpObjCodec mont binary P bits) (fpLsb P)
          (fieldSqrt debug C fuel) b)) v w ∧ List.Forall₂ JacRep w Qs :=
  readsBack_vec (fun _ _ hg => (C39_jacobian_g1 P mont binary compress debug bits hb C hC fuel hf b hg).imp
    fun _ h => ⟨h.1, h.2.1⟩) hv hl

/-- **C39**, `std::vector<mnt4_G1>` and `std::vector<mnt6_G1>`. -/
theorem C39_projective_g1_vector (a b : Fp P) {v : List (Coord3 (Fp P))} {Qs : List (sw a b).Point}
    (hv : List.Forall₂ ProjRep v Qs) (hl : v.length < 2 ^ 64) :
    ∃ w, ReadsBack (fun _ => True)
        (vecWrite binary (Proj.write binary compress (fpObjCodec mont binary P bits) (fpLsb P)))
        (vecRead binary (Proj.read binary compress (fpObjCodec mont binary P bits) (fpLsb P)
          (fieldSqrt debug C fuel) a b)) v w ∧ List.Forall₂ ProjRep w Qs :=
  readsBack_vec (fun _ _ hg => (C39_projective_g1 P mont binary compress debug bits hb C hC fuel hf a b hg).imp
    fun _ h => ⟨h.1, h.2.1⟩) hv hl

/-- **C39**, `std::vector<edwards_G1>`. -/
theorem C39_edwards_g1_vector (d : Fp P) (hd : 1 - d ≠ 0) {v : List (Coord3 (Fp P))} {Qs : List (edwW 1 d).Point}
    (hv : List.Forall₂ EdwRep v Qs) (hl : v.length < 2 ^ 64) :
    ∃ w, ReadsBack (fun _ => True)
        (vecWrite binary (Edw.write binary compress (fpObjCodec mont binary P bits) (fpLsb P)))
        (vecRead binary (Edw.read binary compress (fpObjCodec mont binary P bits) (fpLsb P)
          (fieldSqrt debug C fuel) debug mixed (fun x => x) (fun x => d * x))) v w ∧ List.Forall₂ EdwRep w Qs :=
  readsBack_vec (fun _ _ hg => (C39_edwards_g1 P mont binary compress debug mixed bits hb C hC fuel hf d hd hg).imp
    fun _ h => ⟨h.1, h.2.1⟩) hv hl

end G1

section G2
variable (P : FpParams) [hP : Fact P.Valid] [hp : Fact P.p.Prime] (mont binary compress debug mixed : Bool) (bits : Nat)
  (hb : BitSize P bits) (β : Fp P)
include hP hp hb

/-- **C39**, `alt_bn128_G2` and `bls12_381_G2`: read back as an equal point, if the point is stored uncompressed, or
if it is zero, or if its affine `Y` has a nonzero `c0` or is zero. -/
theorem C39_jacobian_g2 [Fact (¬ IsSquare β)] (C : SqrtConsts (Fp2 (Fp P) β)) (hC : C.Valid) (fuel : Nat)
    (hf : C.s ≤ fuel) (b : Fp2 (Fp P) β) {g : Coord3 (Fp2 (Fp P) β)} {Q : (sw 0 b).Point} (hg : JacRep g Q)
    (hy : compress = true → ∀ x y h, Q = Point.some x y h → y.c0 ≠ 0 ∨ y = 0) :
    ∃ q, ReadsBack (PointCont binary compress)
        (Jac.write binary compress (quadCodec binary (fpObjCodec mont binary P bits)) (fp2Lsb P))
        (Jac.read binary compress (quadCodec binary (fpObjCodec mont binary P bits)) (fp2Lsb P)
          (fieldSqrt debug C fuel) b) g q ∧
      JacRep q Q ∧ Jac.toAffine g = .ok q ∧ Jac.eq g q = true := by
  obtain ⟨q, h1, h2⟩ := Jac.read_write (compress := compress) (sqrt := fieldSqrt debug C fuel) (lsb := fp2Lsb P)
    (fun _ => ⟨trivial, trivial⟩) ((fpObjCodec_lawful P mont binary bits hb).quad _).stream
    (fun _ => sqrtLaw_fieldSqrt C hC debug fuel hf)
    hg (fun hc => ⟨fun _ => fp2_signBit P 1 (Or.inl one_ne_zero), fun x y h e => fp2_signBit P y (hy hc x y h e)⟩)
  obtain ⟨r, hr, hr'⟩ := Jac.toAffine_spec hg
  have : r = q := by rw [h1] at hr; exact (Outcome.ok.inj hr).symm
  subst this
  exact ⟨r, h2, hr'.1, h1, (Jac.eq_rep hg hr'.1).2 rfl⟩

/-- **C39**, `mnt4_G2`. -/
theorem C39_projective_g2 [Fact (¬ IsSquare β)] (C : SqrtConsts (Fp2 (Fp P) β)) (hC : C.Valid) (fuel : Nat)
    (hf : C.s ≤ fuel) (a b : Fp2 (Fp P) β) {g : Coord3 (Fp2 (Fp P) β)} {Q : (sw a b).Point} (hg : ProjRep g Q)
    (hy : compress = true → ∀ x y h, Q = Point.some x y h → y.c0 ≠ 0 ∨ y = 0) :
    ∃ q, ReadsBack (PointCont binary compress)
        (Proj.write binary compress (quadCodec binary (fpObjCodec mont binary P bits)) (fp2Lsb P))
        (Proj.read binary compress (quadCodec binary (fpObjCodec mont binary P bits)) (fp2Lsb P)
          (fieldSqrt debug C fuel) a b) g q ∧
      ProjRep q Q ∧ Proj.toAffine g = .ok q ∧ Proj.eq g q = true := by
  obtain ⟨q, h1, h2⟩ := Proj.read_write (compress := compress) (sqrt := fieldSqrt debug C fuel) (lsb := fp2Lsb P)
    (fun _ => ⟨trivial, trivial⟩) ((fpObjCodec_lawful P mont binary bits hb).quad _).stream
    (fun _ => sqrtLaw_fieldSqrt C hC debug fuel hf)
    hg (fun hc => ⟨fun _ => fp2_signBit P 1 (Or.inl one_ne_zero), fun x y h e => fp2_signBit P y (hy hc x y h e)⟩)
  obtain ⟨r, hr, hr'⟩ := Proj.toAffine_spec hg
  have : r = q := by rw [h1] at hr; exact (Outcome.ok.inj hr).symm
  subst this
  exact ⟨r, h2, hr'.1, h1, (Proj.eq_rep hg hr'.1).2 rfl⟩

/-- **C39**, `mnt6_G2`. -/
theorem C39_projective_g2_fp3 [Fact (∀ y : Fp P, y * y * y ≠ β)] (C : SqrtConsts (Fp3 (Fp P) β)) (hC : C.Valid)
    (fuel : Nat) (hf : C.s ≤ fuel) (a b : Fp3 (Fp P) β) {g : Coord3 (Fp3 (Fp P) β)} {Q : (sw a b).Point}
    (hg : ProjRep g Q) (hy : compress = true → ∀ x y h, Q = Point.some x y h → y.c0 ≠ 0 ∨ y = 0) :
    ∃ q, ReadsBack (PointCont binary compress)
        (Proj.write binary compress (cubicCodec binary (fpObjCodec mont binary P bits)) (fp3Lsb P))
        (Proj.read binary compress (cubicCodec binary (fpObjCodec mont binary P bits)) (fp3Lsb P)
          (fieldSqrt debug C fuel) a b) g q ∧
      ProjRep q Q ∧ Proj.toAffine g = .ok q ∧ Proj.eq g q = true := by
  obtain ⟨q, h1, h2⟩ := Proj.read_write (compress := compress) (sqrt := fieldSqrt debug C fuel) (lsb := fp3Lsb P)
    (fun _ => ⟨trivial, trivial, trivial⟩) ((fpObjCodec_lawful P mont binary bits hb).cubic _).stream
    (fun _ => sqrtLaw_fieldSqrt C hC debug fuel hf)
    hg (fun hc => ⟨fun _ => fp3_signBit P 1 (Or.inl one_ne_zero), fun x y h e => fp3_signBit P y (hy hc x y h e)⟩)
  obtain ⟨r, hr, hr'⟩ := Proj.toAffine_spec hg
  have : r = q := by rw [h1] at hr; exact (Outcome.ok.inj hr).symm
  subst this
  exact ⟨r, h2, hr'.1, h1, (Proj.eq_rep hg hr'.1).2 rfl⟩

/-- **C39**, `edwards_G2`; the condition is on the affine `y = Z/Y`. -/
theorem C39_edwards_g2 [Fact (∀ y : Fp P, y * y * y ≠ β)] (C : SqrtConsts (Fp3 (Fp P) β)) (hC : C.Valid)
    (fuel : Nat) (hf : C.s ≤ fuel) {mulA mulD : Fp3 (Fp P) β → Fp3 (Fp P) β} {a d : Fp3 (Fp P) β}
    (hA : ∀ x, mulA x = a * x) (hD : ∀ x, mulD x = d * x) (had : a - d ≠ 0) {g : Coord3 (Fp3 (Fp P) β)}
    {Q : (edwW a d).Point} (hg : EdwRep g Q) (hy : compress = true → Q ≠ 0 → (g.Z / g.Y).c0 ≠ 0) :
    ∃ q, ReadsBack (PointCont binary compress)
        (Edw.write binary compress (cubicCodec binary (fpObjCodec mont binary P bits)) (fp3Lsb P))
        (Edw.read binary compress (cubicCodec binary (fpObjCodec mont binary P bits)) (fp3Lsb P)
          (fieldSqrt debug C fuel) debug mixed mulA mulD) g q ∧
      EdwRep q Q ∧ Edw.eq g q = true := by
  have h2 : (2 : Fp3 (Fp P) β) ≠ 0 := fun h => fp_two_ne_zero P (congrArg Cubic.c0 h)
  have hxy : ∃ x y, Edw.toAffine g = .ok ⟨x, y, 1⟩ ∧ EdwOn a d x y ∧ EdwRep (Edw.ofAffine x y) Q ∧
      (compress = true → y.c0 ≠ 0) := by
    obtain ⟨x, y, h3, h4, h5, h6⟩ := C37_to_affine hg
    refine ⟨x, y, h3, h4, h5, fun hc => ?_⟩
    rcases Edw.toAffine_rep hg with ⟨h0, e⟩ | ⟨h0, e, -⟩
    · rw [(h6 h0).2]; exact one_ne_zero
    · rw [e] at h3
      have := congrArg Coord3.Y (Outcome.ok.inj h3)
      simp only at this
      rw [← this]
      exact hy hc h0
  obtain ⟨x, y, h1, h3, h4, h5⟩ := hxy
  obtain ⟨out, h6, h7⟩ := Edw.readAffine_write (compress := compress) (sqrt := fieldSqrt debug C fuel) (lsb := fp3Lsb P)
    (fun _ => ⟨trivial, trivial, trivial⟩) ((fpObjCodec_lawful P mont binary bits hb).cubic _).stream hA hD had h1 h3
    (fun hc => fp3_signBit P y (Or.inl (h5 hc))) (fun _ => sqrtLaw_fieldSqrt C hC debug fuel hf)
  obtain ⟨r, h8, h9, -⟩ := Edw.toSpecial_spec h2 had debug h4
  cases mixed with
  | true =>
    refine ⟨r, ⟨out, h6, fun rest hr => ?_⟩, h9, (Edw.eq_rep h2 had hg h9).2 rfl⟩
    rw [Edw.read, h7 rest hr, Outcome.bind_ok]
    have h8' : Edw.toSpecial debug ⟨y, x, x * y⟩ = .ok r := h8
    simp only [if_true, h8', Outcome.map_ok]
  | false =>
    refine ⟨_, ⟨out, h6, fun rest hr => ?_⟩, h4, (Edw.eq_rep h2 had hg h4).2 rfl⟩
    rw [Edw.read, h7 rest hr, Outcome.bind_ok]
    rfl

/-- **C39**, `std::vector<alt_bn128_G2>` and `std::vector<bls12_381_G2>`, under the same condition on each point. -/
theorem C39_jacobian_g2_vector [Fact (¬ IsSquare β)] (C : SqrtConsts (Fp2 (Fp P) β)) (hC : C.Valid) (fuel : Nat)
    (hf : C.s ≤ fuel) (b : Fp2 (Fp P) β) {v : List (Coord3 (Fp2 (Fp P) β))} {Qs : List (sw 0 b).Point}
    (hv : List.Forall₂ JacRep v Qs) (hl : v.length < 2 ^ 64)
    (hy : compress = true → ∀ Q ∈ Qs, ∀ x y h, Q = Point.some x y h → y.c0 ≠ 0 ∨ y = 0) :
    ∃ w, ReadsBack (fun _ => True)
        (vecWrite binary (Jac.write binary compress (quadCodec binary (fpObjCodec mont binary P bits)) (fp2Lsb P)))
        (vecRead binary (Jac.read binary compress (quadCodec binary (fpObjCodec mont binary P bits)) (fp2Lsb P)
          (fieldSqrt debug C fuel) b)) v w ∧ List.Forall₂ JacRep w Qs :=
  readsBack_vec_on (compress := compress) (fun _ Q hQ hg => (C39_jacobian_g2 P mont binary compress debug bits hb β C hC
    fuel hf b hg (fun hc => hy hc Q hQ)).imp fun _ h => ⟨h.1, h.2.1⟩) hv hl

/-- **C39**, `std::vector<mnt4_G2>`. -/
theorem C39_projective_g2_vector [Fact (¬ IsSquare β)] (C : SqrtConsts (Fp2 (Fp P) β)) (hC : C.Valid) (fuel : Nat)
    (hf : C.s ≤ fuel) (a b : Fp2 (Fp P) β) {v : List (Coord3 (Fp2 (Fp P) β))} {Qs : List (sw a b).Point}
    (hv : List.Forall₂ ProjRep v Qs) (hl : v.length < 2 ^ 64)
    (hy : compress = true → ∀ Q ∈ Qs, ∀ x y h, Q = Point.some x y h → y.c0 ≠ 0 ∨ y = 0) :
    ∃ w, ReadsBack (fun _ => True)
        (vecWrite binary (Proj.write binary compress (quadCodec binary (fpObjCodec mont binary P bits)) (fp2Lsb P)))
        (vecRead binary (Proj.read binary compress (quadCodec binary (fpObjCodec mont binary P bits)) (fp2Lsb P)
          (fieldSqrt debug C fuel) a b)) v w ∧ List.Forall₂ ProjRep w Qs :=
  readsBack_vec_on (compress := compress) (fun _ Q hQ hg => (C39_projective_g2 P mont binary compress debug bits hb β C
    hC fuel hf a b hg (fun hc => hy hc Q hQ)).imp fun _ h => ⟨h.1, h.2.1⟩) hv hl

/-- **C39**, `std::vector<mnt6_G2>`. -/
theorem C39_projective_g2_fp3_vector [Fact (∀ y : Fp P, y * y * y ≠ β)] (C : SqrtConsts (Fp3 (Fp P) β))
    (hC : C.Valid) (fuel : Nat) (hf : C.s ≤ fuel) (a b : Fp3 (Fp P) β) {v : List (Coord3 (Fp3 (Fp P) β))}
    {Qs : List (sw a b).Point} (hv : List.Forall₂ ProjRep v Qs) (hl : v.length < 2 ^ 64)
    (hy : compress = true → ∀ Q ∈ Qs, ∀ x y h, Q = Point.some x y h → y.c0 ≠ 0 ∨ y = 0) :
    ∃ w, ReadsBack (fun _ => True)
        (vecWrite binary (Proj.write binary compress (cubicCodec binary (fpObjCodec mont binary P bits)) (fp3Lsb P)))
        (vecRead binary (Proj.read binary compress (cubicCodec binary (fpObjCodec mont binary P bits)) (fp3Lsb P)
          (fieldSqrt debug C fuel) a b)) v w ∧ List.Forall₂ ProjRep w Qs :=
  readsBack_vec_on (compress := compress) (fun _ Q hQ hg => (C39_projective_g2_fp3 P mont binary compress debug bits hb β
    C hC fuel hf a b hg (fun hc => hy hc Q hQ)).imp fun _ h => ⟨h.1, h.2.1⟩) hv hl

/-- **C39**, `std::vector<edwards_G2>`. -/
theorem C39_edwards_g2_vector [Fact (∀ y : Fp P, y * y * y ≠ β)] (C : SqrtConsts (Fp3 (Fp P) β)) (hC : C.Valid)
    (fuel : Nat) (hf : C.s ≤ fuel) {mulA mulD : Fp3 (Fp P) β → Fp3 (Fp P) β} {a d : Fp3 (Fp P) β}
    (hA : ∀ x, mulA x = a * x) (hD : ∀ x, mulD x = d * x) (had : a - d ≠ 0) {v : List (Coord3 (Fp3 (Fp P) β))}
    {Qs : List (edwW a d).Point}
    (hv : List.Forall₂ (fun g Q => EdwRep g Q ∧ (compress = true → Q ≠ 0 → (g.Z / g.Y).c0 ≠ 0)) v Qs)
    (hl : v.length < 2 ^ 64) :
    ∃ w, ReadsBack (fun _ => True)
        (vecWrite binary (Edw.write binary compress (cubicCodec binary (fpObjCodec mont binary P bits)) (fp3Lsb P)))
        (vecRead binary (Edw.read binary compress (cubicCodec binary (fpObjCodec mont binary P bits)) (fp3Lsb P)
          (fieldSqrt debug C fuel) debug mixed mulA mulD)) v w ∧ List.Forall₂ EdwRep w Qs :=
  readsBack_vec₂ (compress := compress) (fun _ _ hg => (C39_edwards_g2 P mont binary compress debug mixed bits hb β C hC
    fuel hf hA hD had hg.1 hg.2).imp fun _ h => ⟨h.1, h.2.1⟩) hv hl

end G2

/-! ## The compressed G2 format is not injective -/

section Wrong
variable (P : FpParams) [hP : Fact P.Valid] [hp : Fact P.p.Prime]

omit hp in
theorem fp2Lsb_neg_of_c0 {β : Fp P} {y : Fp2 (Fp P) β} (h : y.c0 = 0) : fp2Lsb P (-y) = fp2Lsb P y := by
  have : (-y).c0 = -y.c0 := rfl
  rw [fp2Lsb, fp2Lsb, this, h, neg_zero]

omit hp in
theorem fp3Lsb_neg_of_c0 {β : Fp P} {y : Fp3 (Fp P) β} (h : y.c0 = 0) : fp3Lsb P (-y) = fp3Lsb P y := by
  have : (-y).c0 = -y.c0 := rfl
  rw [fp3Lsb, fp3Lsb, this, h, neg_zero]

/-- Two objects with the same output are read back as the same object. -/
theorem ReadsBack.unique {α : Type} {ok : List Byte → Prop} {write : α → Outcome (List Byte)} {read : Reader α}
    {x x' y y' : α} (h : ReadsBack ok write read x y) (h' : ReadsBack ok write read x' y') (e : write x = write x')
    (rest : List Byte) (hr : ok rest) : y = y' := by
  obtain ⟨o, h1, h2⟩ := h
  obtain ⟨o', h3, h4⟩ := h'
  rw [h1, h3] at e
  have e' := Outcome.ok.inj e
  have h5 := h2 rest hr
  rw [e', h4 rest hr] at h5
  exact (congrArg Prod.fst (Outcome.ok.inj h5)).symm

variable (binary : Bool)

/-- **C39 does not hold for compressed G2 points** of `alt_bn128_G2` and `bls12_381_G2`: a point whose affine `Y` is
nonzero with `Y.c0 = 0` is written exactly as its negative, so no reader at all restores both. -/
theorem C39_jacobian_g2_wrong (β : Fp P) [Fact (¬ IsSquare β)] (c : FieldCodec (Fp2 (Fp P) β)) (b : Fp2 (Fp P) β)
    (x y : Fp2 (Fp P) β) (h : (sw 0 b).Nonsingular x y) (h0 : y.c0 = 0) (hy : y ≠ 0)
    (read : Reader (Coord3 (Fp2 (Fp P) β))) :
    Jac.write binary true c (fp2Lsb P) ⟨x, y, 1⟩ = Jac.write binary true c (fp2Lsb P) ⟨x, -y, 1⟩ ∧
      ¬ ∃ q q', ReadsBack (PointCont binary true) (Jac.write binary true c (fp2Lsb P)) read ⟨x, y, 1⟩ q ∧
        ReadsBack (PointCont binary true) (Jac.write binary true c (fp2Lsb P)) read ⟨x, -y, 1⟩ q' ∧
        JacRep q (Point.some x y h) ∧ JacRep q' (-Point.some x y h) := by
  have e1 : ∀ y : Fp2 (Fp P) β, Jac.toAffine ⟨x, y, 1⟩ = .ok ⟨x, y, 1⟩ := fun y => by
    have hz : Jac.isZero (⟨x, y, 1⟩ : Coord3 (Fp2 (Fp P) β)) = false := by simp [Jac.isZero]
    simp [Jac.toAffine, hz, LawfulInverse.inverseO_ne (1 : Fp2 (Fp P) β) one_ne_zero, LawfulSquared.squared_eq]
  have e : Jac.write binary true c (fp2Lsb P) ⟨x, y, 1⟩ = Jac.write binary true c (fp2Lsb P) ⟨x, -y, 1⟩ := by
    rw [Jac.write, swWrite, swWrite, e1, e1, Outcome.bind_ok, Outcome.bind_ok]
    simp only [writeY, if_true, fp2Lsb_neg_of_c0 P h0, Jac.isZero]
    rfl
  refine ⟨e, ?_⟩
  rintro ⟨q, q', h1, h2, h3, h4⟩
  rw [h1.unique h2 e [] (Or.inl rfl)] at h3
  have h5 : Point.some x y h = -Point.some x y h := Jac.rep_unique h3 h4
  rw [Point.neg_some, Point.some.injEq] at h5
  have h6 : y = -y := by simpa [negY, sw, weier] using h5.2
  have h2' : (2 : Fp2 (Fp P) β) ≠ 0 := fun h => fp_two_ne_zero P (congrArg Quad.c0 h)
  have h7 : 2 * y = 0 := by linear_combination h6
  rcases mul_eq_zero.1 h7 with h | h
  · exact h2' h
  · exact hy h

/-- **C39 does not hold for compressed G2 points** of `mnt4_G2`. -/
theorem C39_projective_g2_wrong (β : Fp P) [Fact (¬ IsSquare β)] (c : FieldCodec (Fp2 (Fp P) β)) (a b : Fp2 (Fp P) β)
    (x y : Fp2 (Fp P) β) (h : (sw a b).Nonsingular x y) (h0 : y.c0 = 0) (hy : y ≠ 0)
    (read : Reader (Coord3 (Fp2 (Fp P) β))) :
    Proj.write binary true c (fp2Lsb P) ⟨x, y, 1⟩ = Proj.write binary true c (fp2Lsb P) ⟨x, -y, 1⟩ ∧
      ¬ ∃ q q', ReadsBack (PointCont binary true) (Proj.write binary true c (fp2Lsb P)) read ⟨x, y, 1⟩ q ∧
        ReadsBack (PointCont binary true) (Proj.write binary true c (fp2Lsb P)) read ⟨x, -y, 1⟩ q' ∧
        ProjRep q (Point.some x y h) ∧ ProjRep q' (-Point.some x y h) := by
  have e1 : ∀ y : Fp2 (Fp P) β, Proj.toAffine ⟨x, y, 1⟩ = .ok ⟨x, y, 1⟩ := fun y => by
    have hz : Proj.isZero (⟨x, y, 1⟩ : Coord3 (Fp2 (Fp P) β)) = false := by simp [Proj.isZero]
    simp [Proj.toAffine, hz, LawfulInverse.inverseO_ne (1 : Fp2 (Fp P) β) one_ne_zero]
  have e : Proj.write binary true c (fp2Lsb P) ⟨x, y, 1⟩ = Proj.write binary true c (fp2Lsb P) ⟨x, -y, 1⟩ := by
    rw [Proj.write, swWrite, swWrite, e1, e1, Outcome.bind_ok, Outcome.bind_ok]
    simp only [writeY, if_true, fp2Lsb_neg_of_c0 P h0, Proj.isZero]
    rfl
  refine ⟨e, ?_⟩
  rintro ⟨q, q', h1, h2, h3, h4⟩
  rw [h1.unique h2 e [] (Or.inl rfl)] at h3
  have h5 : Point.some x y h = -Point.some x y h := Proj.rep_unique h3 h4
  rw [Point.neg_some, Point.some.injEq] at h5
  have h6 : y = -y := by simpa [negY, sw, weier] using h5.2
  have h2' : (2 : Fp2 (Fp P) β) ≠ 0 := fun h => fp_two_ne_zero P (congrArg Quad.c0 h)
  have h7 : 2 * y = 0 := by linear_combination h6
  rcases mul_eq_zero.1 h7 with h | h
  · exact h2' h
  · exact hy h

/-- **C39 does not hold for compressed G2 points** of `mnt6_G2`. -/
theorem C39_projective_g2_fp3_wrong (β : Fp P) [Fact (∀ y : Fp P, y * y * y ≠ β)] (c : FieldCodec (Fp3 (Fp P) β))
    (a b : Fp3 (Fp P) β) (x y : Fp3 (Fp P) β) (h : (sw a b).Nonsingular x y) (h0 : y.c0 = 0) (hy : y ≠ 0)
    (read : Reader (Coord3 (Fp3 (Fp P) β))) :
    Proj.write binary true c (fp3Lsb P) ⟨x, y, 1⟩ = Proj.write binary true c (fp3Lsb P) ⟨x, -y, 1⟩ ∧
      ¬ ∃ q q', ReadsBack (PointCont binary true) (Proj.write binary true c (fp3Lsb P)) read ⟨x, y, 1⟩ q ∧
        ReadsBack (PointCont binary true) (Proj.write binary true c (fp3Lsb P)) read ⟨x, -y, 1⟩ q' ∧
        ProjRep q (Point.some x y h) ∧ ProjRep q' (-Point.some x y h) := by
  have e1 : ∀ y : Fp3 (Fp P) β, Proj.toAffine ⟨x, y, 1⟩ = .ok ⟨x, y, 1⟩ := fun y => by
    have hz : Proj.isZero (⟨x, y, 1⟩ : Coord3 (Fp3 (Fp P) β)) = false := by simp [Proj.isZero]
    simp [Proj.toAffine, hz, LawfulInverse.inverseO_ne (1 : Fp3 (Fp P) β) one_ne_zero]
  have e : Proj.write binary true c (fp3Lsb P) ⟨x, y, 1⟩ = Proj.write binary true c (fp3Lsb P) ⟨x, -y, 1⟩ := by
    rw [Proj.write, swWrite, swWrite, e1, e1, Outcome.bind_ok, Outcome.bind_ok]
    simp only [writeY, if_true, fp3Lsb_neg_of_c0 P h0, Proj.isZero]
    rfl
  refine ⟨e, ?_⟩
  rintro ⟨q, q', h1, h2, h3, h4⟩
  rw [h1.unique h2 e [] (Or.inl rfl)] at h3
  have h5 : Point.some x y h = -Point.some x y h := Proj.rep_unique h3 h4
  rw [Point.neg_some, Point.some.injEq] at h5
  have h6 : y = -y := by simpa [negY, sw, weier] using h5.2
  have h2' : (2 : Fp3 (Fp P) β) ≠ 0 := fun h => fp_two_ne_zero P (congrArg Cubic.c0 h)
  have h7 : 2 * y = 0 := by linear_combination h6
  rcases mul_eq_zero.1 h7 with h | h
  · exact h2' h
  · exact hy h

end Wrong

/-! ## Witnesses: the one limb prime 127, `-1` is not a square -/

/-- Prime 127 in one limb. -/
def w127 : FpParams where
  n := 1
  modulus := [127]
  inv := 9295997013522923649
  Rsquared := [4]
  Rcubed := [8]

instance w127_valid : Fact w127.Valid := ⟨by decide⟩
theorem w127_p : w127.p = 127 := by decide
instance w127_prime : Fact w127.p.Prime := ⟨by rw [w127_p]; norm_num⟩
theorem w127_bits : BitSize w127 7 := ⟨by decide +kernel, by decide +kernel, by decide⟩

theorem w127_neg_one : ¬ IsSquare (-1 : Fp w127) := by
  rintro ⟨y, hy⟩
  have h := congrArg Fp.toZMod hy
  rw [Fp.toZMod_mul, Fp.toZMod_neg, Fp.toZMod_one] at h
  generalize y.toZMod = z at h
  revert z
  rw [show w127.p = 127 from w127_p]
  decide +kernel

instance w127_nonsquare : Fact (¬ IsSquare (-1 : Fp w127)) := ⟨w127_neg_one⟩

/-- `127 - 1 = 2 · 63`. -/
def w127_sqrt : SqrtConsts (Fp w127) := ⟨1, [63], [31], -1, -1⟩

theorem w127_sqrt_valid : w127_sqrt.Valid where
  s_pos := by decide
  card := by rw [Fp.card, w127_p]; rfl
  t_odd := by decide
  nqr := w127_neg_one
  nqrToT := by
    change (-1 : Fp w127) = (-1) ^ 63
    rw [Odd.neg_one_pow (by decide)]

/-- The point `(1, 2)` of `y² = x³ + 3` in Jacobian coordinates with `Z = 2`: `(4 : 16 : 2)`. -/
theorem w127_point : (sw 0 (3 : Fp w127)).Nonsingular 1 2 := by
  rw [Affine.nonsingular_iff]
  refine ⟨weier_equation.2 (by norm_num), Or.inr ?_⟩
  have : (2 : Fp w127) ≠ 0 := fp_two_ne_zero w127
  intro h
  have h' : (2 : Fp w127) * 2 = 0 := by
    have : (2 : Fp w127) = -2 := by simpa [sw, weier] using h
    linear_combination this
  rcases mul_eq_zero.1 h' with h | h <;> exact this h

example : ∃ q, ReadsBack (PointCont false true)
    (Jac.write false true (fpObjCodec false false w127 7) (fpLsb w127))
    (Jac.read false true (fpObjCodec false false w127 7) (fpLsb w127) (fieldSqrt true w127_sqrt 1) 3)
      ⟨4, 16, 2⟩ q ∧ JacRep q (Point.some 1 2 w127_point) ∧ Jac.toAffine ⟨4, 16, 2⟩ = .ok q ∧
      Jac.eq ⟨4, 16, 2⟩ q = true :=
  C39_jacobian_g1 w127 false false true true 7 w127_bits w127_sqrt w127_sqrt_valid 1 le_rfl 3
    ⟨fp_two_ne_zero w127, by norm_num, by norm_num⟩

/-- The compressed text of that point is `0 1 0`. -/
example : Jac.write false true (fpObjCodec false false w127 7) (fpLsb w127) ⟨4, 16, 2⟩ = .ok [48, 32, 49, 32, 48] := by
  decide +kernel

/-- A point with `Y.c0 = 0`: `(1, u)` on `y² = x³ - 2` over `F_127[u]/(u² + 1)`. -/
theorem w127_g2_point : (sw 0 (-2 : Fp2 (Fp w127) (-1))).Nonsingular 1 ⟨0, 1⟩ := by
  have hy : (⟨0, 1⟩ : Fp2 (Fp w127) (-1)) * ⟨0, 1⟩ = -1 := by
    apply Quad.ext <;> simp
  have hy0 : (⟨0, 1⟩ : Fp2 (Fp w127) (-1)) ≠ 0 := fun h => one_ne_zero (congrArg Quad.c1 h)
  have h2 : (2 : Fp2 (Fp w127) (-1)) ≠ 0 := fun h => fp_two_ne_zero w127 (congrArg Quad.c0 h)
  rw [Affine.nonsingular_iff]
  refine ⟨weier_equation.2 (by linear_combination hy), Or.inr ?_⟩
  intro h
  have h' : (2 : Fp2 (Fp w127) (-1)) * ⟨0, 1⟩ = 0 := by
    have : (⟨0, 1⟩ : Fp2 (Fp w127) (-1)) = -⟨0, 1⟩ := by simpa [sw, weier] using h
    linear_combination this
  rcases mul_eq_zero.1 h' with h | h
  · exact h2 h
  · exact hy0 h

example (read : Reader (Coord3 (Fp2 (Fp w127) (-1)))) :=
  C39_jacobian_g2_wrong w127 false (-1) (quadCodec false (fpObjCodec false false w127 7)) (-2) 1 ⟨0, 1⟩ w127_g2_point rfl
    (fun h => one_ne_zero (congrArg Quad.c1 h)) read

end Libff
