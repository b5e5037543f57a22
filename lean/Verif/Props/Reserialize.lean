import Verif.Model.Reserialize
import Verif.Spec.Reserialize
import Verif.Props.CurveIOCurves
import Verif.Props.Canonical
import Verif.Props.Binary

/-!
# C84: writing an object and reading it back at once gives an equal object in a normal form

The generators of all ten groups are admitted with every build option (examples in `Props/CurveIOCurves`).
-/
namespace Libff
open WeierstrassCurve WeierstrassCurve.Affine
set_option synthInstance.maxSize 2000

theorem reserialize_of_readsBack {α : Type} {ok : List Byte → Prop} {w : α → Outcome (List Byte)} {r : Reader α} {x y : α} (h0 : ok [])
    (h : ReadsBack ok w r x y) : reserialize w r x = .ok y := by
  obtain ⟨out, h1, h2⟩ := h
  have h3 := h2 [] h0
  rw [List.append_nil] at h3
  rw [reserialize, h1, Outcome.bind_ok, h3, Outcome.map_ok]

theorem contOk_nil (binary : Bool) : ContOk binary [] := Or.inr (by decide)

/-- **C84.** Whatever has a round trip (fields, containers) is returned exactly as it was. -/
theorem C84_exact {α : Type} {binary : Bool} {valid : α → Prop} {w : α → Outcome (List Byte)} {r : Reader α}
    (h : StreamLaw binary valid w r) (x : α) (hx : valid x) : reserialize w r x = .ok x := by
  obtain ⟨out, h1, h2⟩ := h x hx
  have h3 := h2 [] [] (by simp) (fun _ => rfl) (contOk_nil binary)
  rw [List.nil_append, List.append_nil] at h3
  rw [reserialize, h1, Outcome.bind_ok, h3, Outcome.map_ok]

/-- What is used of a group class: elements denote points, `==` compares them, the bytes depend on the point only and are read back. -/
theorem normalises_of {α Q : Type} {ok : List Byte → Prop} {w : α → Outcome (List Byte)} {r : Reader α} {R : α → Q → Prop} {cond : Q → Prop}
    {eq : α → α → Bool} (h0 : ok []) (hE : ∀ {g h P P'}, R g P → R h P' → (eq g h = true ↔ P = P'))
    (same : ∀ {g h P}, R g P → R h P → w g = w h) (back : ∀ {g P}, R g P → cond P → ∃ q, ReadsBack ok w r g q ∧ R q P)
    {Adm : α → Prop} (hA : ∀ g, Adm g ↔ ∃ P, R g P ∧ cond P) : Normalises Adm eq (reserialize w r) := by
  have key : ∀ {g P}, R g P → cond P → ∃ q, reserialize w r g = .ok q ∧ R q P := fun hg hc =>
    let ⟨q, h1, h2⟩ := back hg hc
    ⟨q, reserialize_of_readsBack h0 h1, h2⟩
  have cong : ∀ {g h P}, R g P → R h P → reserialize w r g = reserialize w r h := fun hg hh => by
    rw [reserialize, reserialize, same hg hh]
  refine ⟨fun g hg => ?_, fun g h hg hh => ?_⟩
  · obtain ⟨P, hg, hc⟩ := (hA g).1 hg
    obtain ⟨q, h1, h2⟩ := key hg hc
    exact ⟨q, h1, (hA q).2 ⟨P, h2, hc⟩, (hE hg h2).2 rfl, by rw [← cong hg h2, h1]⟩
  · obtain ⟨P, hg, hc⟩ := (hA g).1 hg
    obtain ⟨P', hh, hc'⟩ := (hA h).1 hh
    rw [hE hg hh]
    constructor
    · intro e
      obtain ⟨q, h1, h2⟩ := key hg hc
      obtain ⟨q', h1', h2'⟩ := key hh hc'
      rw [h1, h1'] at e
      obtain rfl := Outcome.ok.inj e
      exact (hE h2 h2').1 ((hE h2 h2).2 rfl)
    · rintro rfl
      exact cong hg hh

theorem Identifies.same {α : Type} {ok : List Byte → Prop} {w : α → Outcome (List Byte)} {Den : α → Prop} {S : α → α → Prop} (h0 : ok [])
    (h : Identifies ok w Den S) {g g' : α} (hg : Den g) (hg' : Den g') (hs : S g g') : w g = w g' := by
  obtain ⟨o, ho⟩ := h.1 g hg
  obtain ⟨o', ho'⟩ := h.1 g' hg'
  have := (h.2 g g' o o' [] [] hg hg' ho ho' h0 h0).2 ⟨hs, rfl⟩
  rw [List.append_nil, List.append_nil] at this
  rw [ho, ho', this]


section
variable {K : Type} [Field K] [DecidableEq K] [Squared K] [LawfulSquared K] [InverseO K] [LawfulInverse K]

theorem Jac.affine_of_some {b : K} {g : Coord3 K} {Q : (sw 0 b).Point} (hg : JacRep g Q) {Z : K → Prop}
    (h : ∀ x y h, Q = Point.some x y h → Z y) : ∀ x y, Jac.toAffine g = .ok ⟨x, y, 1⟩ → Z y := by
  intro x y e
  rcases Jac.toAffine_rep hg with ⟨-, e'⟩ | ⟨x', y', h', k, e'⟩ <;> rw [e'] at e
  · exact absurd (congrArg Coord3.Z (Outcome.ok.inj e)) zero_ne_one
  · have e2 : y' = y := congrArg Coord3.Y (Outcome.ok.inj e)
    exact e2 ▸ h _ _ _ k

omit [Squared K] [LawfulSquared K] in
theorem Proj.affine_of_some {a b : K} {g : Coord3 K} {Q : (sw a b).Point} (hg : ProjRep g Q) {Z : K → Prop}
    (h : ∀ x y h, Q = Point.some x y h → Z y) : ∀ x y, Proj.toAffine g = .ok ⟨x, y, 1⟩ → Z y := by
  intro x y e
  rcases Proj.toAffine_rep hg with ⟨-, e'⟩ | ⟨x', y', h', k, e'⟩ <;> rw [e'] at e
  · exact absurd (congrArg Coord3.Z (Outcome.ok.inj e)) zero_ne_one
  · have e2 : y' = y := congrArg Coord3.Y (Outcome.ok.inj e)
    exact e2 ▸ h _ _ _ k

end

theorem edwAdm_iff {K : Type} [Field K] [DecidableEq K] [Squared K] [LawfulSquared K] {mulA mulD : K → K} {a d : K} (hA : ∀ x, mulA x = a * x)
    (hD : ∀ x, mulD x = d * x) (h2 : (2 : K) ≠ 0) (had : a - d ≠ 0) (g : Coord3 K) :
    (Edw.isZero g = true ∨ (Edw.isWellFormed mulA mulD g = true ∧ g.X ≠ 0 ∧ g.Y ≠ 0 ∧ g.Z ≠ 0)) ↔ ∃ Q : (edwW a d).Point, EdwRep g Q := by
  constructor
  · rintro (h | ⟨h, hX, hY, hZ⟩)
    · exact ⟨.zero, (by simpa [Edw.isZero] using h : g.Y = 0 ∧ g.Z = 0)⟩
    · exact (C38_edwards_partial hA hD h2 had g hX hY hZ).2.1 h
  · rintro ⟨Q, h⟩
    have h' := h
    rw [edwRep_iff] at h'
    rcases h' with ⟨-, hY, hZ⟩ | ⟨-, hX, hY, hZ, -⟩
    · exact Or.inl (by simp [Edw.isZero, hY, hZ])
    · exact Or.inr ⟨C38_edwards_complete hA hD h, hX, hY, hZ⟩

theorem Edw.toAffine_ofAffine {K : Type} [Field K] [DecidableEq K] [InverseO K] [LawfulInverse K] {x y : K} (hx : x ≠ 0) (hy : y ≠ 0) :
    Edw.toAffine (Edw.ofAffine x y) = .ok ⟨x, y, 1⟩ := by
  have hz : Edw.isZero (Edw.ofAffine x y) = false := by simp [Edw.isZero, Edw.ofAffine, hx]
  rw [Edw.toAffine, hz]
  simp only [Edw.ofAffine, Bool.false_eq_true, if_false]
  rw [LawfulInverse.inverseO_ne _ (mul_ne_zero hy hx), Outcome.map_ok]
  congr 2 <;> field_simp

section Generic
variable (P : FpParams) [hP : Fact P.Valid] [hp : Fact P.p.Prime] (mont binary compress debug : Bool) (bits : Nat) (hb : BitSize P bits)
include hP hp hb

theorem jacobian_g1_normalises (C : SqrtConsts (Fp P)) (hC : C.Valid) (fuel : Nat) (hf : C.s ≤ fuel)
    (b : Fp P) (h2 : (2 : Fp P) ≠ 0) (h3 : (3 : Fp P) ≠ 0) (hb0 : b ≠ 0) :
    Normalises (fun g => Jac.isWellFormed b g = true) Jac.eq
      (reserialize (Jac.write binary compress (fpObjCodec mont binary P bits) (fpLsb P))
        (Jac.read binary compress (fpObjCodec mont binary P bits) (fpLsb P) (fieldSqrt debug C fuel) b)) := by
  refine normalises_of (R := fun (g : Coord3 (Fp P)) (Q : (sw 0 b).Point) => JacRep g Q) (ok := PointCont binary compress)
    (cond := fun _ => True) (Or.inr (contOk_nil binary)) (fun hg hh => Jac.eq_rep hg hh)
    (fun {g h Q} hg hh => (C75_jacobian_g1 P mont binary compress bits hb b).same (Or.inr (contOk_nil binary)) ⟨Q, hg⟩ ⟨Q, hh⟩
      ((Jac.eq_rep hg hh).2 rfl))
    (fun hg hc => ?_) (fun g => (C38_jacobian h2 h3 hb0 g).trans ⟨fun ⟨Q, h⟩ => ⟨Q, h, trivial⟩, fun ⟨Q, h, _⟩ => ⟨Q, h⟩⟩)
  obtain ⟨q, h1, h2', -, -⟩ := C39_jacobian_g1 P mont binary compress debug bits hb C hC fuel hf b hg
  exact ⟨q, h1, h2'⟩

theorem jacobian_g2_normalises (β : Fp P) [Fact (¬ IsSquare β)] (C : SqrtConsts (Fp2 (Fp P) β)) (hC : C.Valid) (fuel : Nat) (hf : C.s ≤ fuel)
    (b : Fp2 (Fp P) β) (h2 : (2 : Fp2 (Fp P) β) ≠ 0) (h3 : (3 : Fp2 (Fp P) β) ≠ 0) (hb0 : b ≠ 0) :
    Normalises (fun g => Jac.isWellFormed b g = true ∧
      (compress = true → ∀ x y, Jac.toAffine g = .ok ⟨x, y, 1⟩ → y.c0 ≠ 0 ∨ y = 0)) Jac.eq
      (reserialize (Jac.write binary compress (quadCodec binary (fpObjCodec mont binary P bits)) (fp2Lsb P))
        (Jac.read binary compress (quadCodec binary (fpObjCodec mont binary P bits)) (fp2Lsb P) (fieldSqrt debug C fuel) b)) := by
  refine normalises_of (R := fun (g : Coord3 (Fp2 (Fp P) β)) (Q : (sw 0 b).Point) => JacRep g Q) (ok := PointCont binary compress)
    (cond := fun Q => compress = true → ∀ x y h, Q = Point.some x y h → y.c0 ≠ 0 ∨ y = 0) (Or.inr (contOk_nil binary)) (fun hg hh => Jac.eq_rep hg hh)
    (fun {g h Q} hg hh => (C75_jacobian_g2 P mont binary compress bits hb β b).same (Or.inr (contOk_nil binary)) ⟨Q, hg⟩ ⟨Q, hh⟩
      (Or.inl ((Jac.eq_rep hg hh).2 rfl)))
    (fun hg hc => ?_) (fun g => ⟨fun hg => ?_, fun ⟨Q, hg, hc⟩ => ⟨(C38_jacobian h2 h3 hb0 g).2 ⟨Q, hg⟩, fun h => Jac.affine_of_some hg (hc h)⟩⟩)
  rotate_left
  obtain ⟨Q, hQ⟩ := (C38_jacobian h2 h3 hb0 g).1 hg.1
  exact ⟨Q, hQ, fun h => Jac.some_of_affine hQ (hg.2 h)⟩
  obtain ⟨q, h1, h2', -, -⟩ := C39_jacobian_g2 P mont binary compress debug bits hb β C hC fuel hf b hg hc
  exact ⟨q, h1, h2'⟩

theorem projective_g1_normalises (C : SqrtConsts (Fp P)) (hC : C.Valid) (fuel : Nat) (hf : C.s ≤ fuel)
    (a b : Fp P) (h2 : (2 : Fp P) ≠ 0) (hd : 4 * a ^ 3 + 27 * b ^ 2 ≠ 0) :
    Normalises (fun g => Proj.isWellFormed a b g = true) Proj.eq
      (reserialize (Proj.write binary compress (fpObjCodec mont binary P bits) (fpLsb P))
        (Proj.read binary compress (fpObjCodec mont binary P bits) (fpLsb P) (fieldSqrt debug C fuel) a b)) := by
  refine normalises_of (R := fun (g : Coord3 (Fp P)) (Q : (sw a b).Point) => ProjRep g Q) (ok := PointCont binary compress)
    (cond := fun _ => True) (Or.inr (contOk_nil binary)) (fun hg hh => Proj.eq_rep hg hh)
    (fun {g h Q} hg hh => (C75_projective_g1 P mont binary compress bits hb a b).same (Or.inr (contOk_nil binary)) ⟨Q, hg⟩ ⟨Q, hh⟩
      ((Proj.eq_rep hg hh).2 rfl))
    (fun hg hc => ?_) (fun g => (C38_projective h2 hd g).trans ⟨fun ⟨Q, h⟩ => ⟨Q, h, trivial⟩, fun ⟨Q, h, _⟩ => ⟨Q, h⟩⟩)
  obtain ⟨q, h1, h2', -, -⟩ := C39_projective_g1 P mont binary compress debug bits hb C hC fuel hf a b hg
  exact ⟨q, h1, h2'⟩

theorem projective_g2_normalises (β : Fp P) [Fact (¬ IsSquare β)] (C : SqrtConsts (Fp2 (Fp P) β)) (hC : C.Valid) (fuel : Nat) (hf : C.s ≤ fuel)
    (a b : Fp2 (Fp P) β) (h2 : (2 : Fp2 (Fp P) β) ≠ 0) (hd : 4 * a ^ 3 + 27 * b ^ 2 ≠ 0) :
    Normalises (fun g => Proj.isWellFormed a b g = true ∧
      (compress = true → ∀ x y, Proj.toAffine g = .ok ⟨x, y, 1⟩ → y.c0 ≠ 0 ∨ y = 0)) Proj.eq
      (reserialize (Proj.write binary compress (quadCodec binary (fpObjCodec mont binary P bits)) (fp2Lsb P))
        (Proj.read binary compress (quadCodec binary (fpObjCodec mont binary P bits)) (fp2Lsb P) (fieldSqrt debug C fuel) a b)) := by
  refine normalises_of (R := fun (g : Coord3 (Fp2 (Fp P) β)) (Q : (sw a b).Point) => ProjRep g Q) (ok := PointCont binary compress)
    (cond := fun Q => compress = true → ∀ x y h, Q = Point.some x y h → y.c0 ≠ 0 ∨ y = 0) (Or.inr (contOk_nil binary)) (fun hg hh => Proj.eq_rep hg hh)
    (fun {g h Q} hg hh => (C75_projective_g2 P mont binary compress bits hb β a b).same (Or.inr (contOk_nil binary)) ⟨Q, hg⟩ ⟨Q, hh⟩
      (Or.inl ((Proj.eq_rep hg hh).2 rfl)))
    (fun hg hc => ?_) (fun g => ⟨fun hg => ?_, fun ⟨Q, hg, hc⟩ => ⟨(C38_projective h2 hd g).2 ⟨Q, hg⟩, fun h => Proj.affine_of_some hg (hc h)⟩⟩)
  rotate_left
  obtain ⟨Q, hQ⟩ := (C38_projective h2 hd g).1 hg.1
  exact ⟨Q, hQ, fun h => Proj.some_of_affine hQ (hg.2 h)⟩
  obtain ⟨q, h1, h2', -, -⟩ := C39_projective_g2 P mont binary compress debug bits hb β C hC fuel hf a b hg hc
  exact ⟨q, h1, h2'⟩

theorem projective_g2_fp3_normalises (β : Fp P) [Fact (∀ y : Fp P, y * y * y ≠ β)] (C : SqrtConsts (Fp3 (Fp P) β)) (hC : C.Valid) (fuel : Nat) (hf : C.s ≤ fuel)
    (a b : Fp3 (Fp P) β) (h2 : (2 : Fp3 (Fp P) β) ≠ 0) (hd : 4 * a ^ 3 + 27 * b ^ 2 ≠ 0) :
    Normalises (fun g => Proj.isWellFormed a b g = true ∧
      (compress = true → ∀ x y, Proj.toAffine g = .ok ⟨x, y, 1⟩ → y.c0 ≠ 0 ∨ y = 0)) Proj.eq
      (reserialize (Proj.write binary compress (cubicCodec binary (fpObjCodec mont binary P bits)) (fp3Lsb P))
        (Proj.read binary compress (cubicCodec binary (fpObjCodec mont binary P bits)) (fp3Lsb P) (fieldSqrt debug C fuel) a b)) := by
  refine normalises_of (R := fun (g : Coord3 (Fp3 (Fp P) β)) (Q : (sw a b).Point) => ProjRep g Q) (ok := PointCont binary compress)
    (cond := fun Q => compress = true → ∀ x y h, Q = Point.some x y h → y.c0 ≠ 0 ∨ y = 0) (Or.inr (contOk_nil binary)) (fun hg hh => Proj.eq_rep hg hh)
    (fun {g h Q} hg hh => (C75_projective_g2_fp3 P mont binary compress bits hb β a b).same (Or.inr (contOk_nil binary)) ⟨Q, hg⟩ ⟨Q, hh⟩
      (Or.inl ((Proj.eq_rep hg hh).2 rfl)))
    (fun hg hc => ?_) (fun g => ⟨fun hg => ?_, fun ⟨Q, hg, hc⟩ => ⟨(C38_projective h2 hd g).2 ⟨Q, hg⟩, fun h => Proj.affine_of_some hg (hc h)⟩⟩)
  rotate_left
  obtain ⟨Q, hQ⟩ := (C38_projective h2 hd g).1 hg.1
  exact ⟨Q, hQ, fun h => Proj.some_of_affine hQ (hg.2 h)⟩
  obtain ⟨q, h1, h2', -, -⟩ := C39_projective_g2_fp3 P mont binary compress debug bits hb β C hC fuel hf a b hg hc
  exact ⟨q, h1, h2'⟩

theorem edwards_g1_normalises (mixed : Bool) (C : SqrtConsts (Fp P)) (hC : C.Valid) (fuel : Nat) (hf : C.s ≤ fuel)
    (d : Fp P) (had : 1 - d ≠ 0) :
    Normalises (fun g => Edw.isZero g = true ∨ (Edw.isWellFormed (fun x => x) (fun x => d * x) g = true ∧ g.X ≠ 0 ∧ g.Y ≠ 0 ∧ g.Z ≠ 0)) Edw.eq
      (reserialize (Edw.write binary compress (fpObjCodec mont binary P bits) (fpLsb P))
        (Edw.read binary compress (fpObjCodec mont binary P bits) (fpLsb P) (fieldSqrt debug C fuel) debug mixed (fun x => x) (fun x => d * x))) := by
  have h2 : (2 : Fp P) ≠ 0 := (fp_two_ne_zero P)
  refine normalises_of (R := fun (g : Coord3 (Fp P)) (Q : (edwW 1 d).Point) => EdwRep g Q) (ok := PointCont binary compress)
    (cond := fun _ => True) (Or.inr (contOk_nil binary)) (fun hg hh => Edw.eq_rep h2 had hg hh)
    (fun {g h Q} hg hh => (C75_edwards_g1 P mont binary compress bits hb d had).same (Or.inr (contOk_nil binary)) ⟨Q, hg⟩ ⟨Q, hh⟩
      ((Edw.eq_rep h2 had hg hh).2 rfl))
    (fun hg hc => ?_) (fun g => (edwAdm_iff (fun x => (one_mul x).symm) (fun _ => rfl) h2 had g).trans ⟨fun ⟨Q, h⟩ => ⟨Q, h, trivial⟩, fun ⟨Q, h, _⟩ => ⟨Q, h⟩⟩)
  obtain ⟨q, h1, h2', -⟩ := C39_edwards_g1 P mont binary compress debug mixed bits hb C hC fuel hf d had hg
  exact ⟨q, h1, h2'⟩

theorem edwards_g2_normalises (β : Fp P) [Fact (∀ y : Fp P, y * y * y ≠ β)] (mixed : Bool) (C : SqrtConsts (Fp3 (Fp P) β)) (hC : C.Valid) (fuel : Nat) (hf : C.s ≤ fuel)
    {mulA mulD : Fp3 (Fp P) β → Fp3 (Fp P) β} {a d : Fp3 (Fp P) β} (hA : ∀ x, mulA x = a * x)
    (hD : ∀ x, mulD x = d * x) (had : a - d ≠ 0) :
    Normalises (fun g => (Edw.isZero g = true ∨ (Edw.isWellFormed mulA mulD g = true ∧ g.X ≠ 0 ∧ g.Y ≠ 0 ∧ g.Z ≠ 0)) ∧
      (compress = true → ∀ x y, Edw.toAffine g = .ok ⟨x, y, 1⟩ → y.c0 ≠ 0)) Edw.eq
      (reserialize (Edw.write binary compress (cubicCodec binary (fpObjCodec mont binary P bits)) (fp3Lsb P))
        (Edw.read binary compress (cubicCodec binary (fpObjCodec mont binary P bits)) (fp3Lsb P) (fieldSqrt debug C fuel) debug mixed mulA mulD)) := by
  have h2 : (2 : Fp3 (Fp P) β) ≠ 0 := (fun h => fp_two_ne_zero P (congrArg Cubic.c0 h))
  refine normalises_of (R := fun (g : Coord3 (Fp3 (Fp P) β)) (Q : (edwW a d).Point) => EdwRep g Q) (ok := PointCont binary compress)
    (cond := fun Q => compress = true → ∀ x y, EdwPt x y Q → y.c0 ≠ 0) (Or.inr (contOk_nil binary)) (fun hg hh => Edw.eq_rep h2 had hg hh)
    (fun {g h Q} hg hh => (C75_edwards_g2 P mont binary compress bits hb β had).same (Or.inr (contOk_nil binary)) ⟨Q, hg⟩ ⟨Q, hh⟩
      (Or.inl ((Edw.eq_rep h2 had hg hh).2 rfl)))
    (fun hg hc => ?_) (fun g => ⟨fun hg => ?_, fun ⟨Q, hg, hc⟩ => ?_⟩)
  rotate_left
  · obtain ⟨Q, hQ⟩ := (edwAdm_iff hA hD h2 had g).1 hg.1
    refine ⟨Q, hQ, fun h x y hxy => ?_⟩
    rcases Edw.toAffine_rep hQ with ⟨e, -⟩ | ⟨-, e, e'⟩
    · obtain ⟨-, -, -, h', e'⟩ := hxy
      exact absurd (e'.symm.trans e) (Point.some_ne_zero h')
    · rw [(edwPt_inj h2 had hxy e').2]
      exact hg.2 h _ _ e
  · refine ⟨(edwAdm_iff hA hD h2 had g).2 ⟨Q, hg⟩, fun h x y e => ?_⟩
    rcases Edw.toAffine_rep hg with ⟨-, e'⟩ | ⟨-, e', e''⟩ <;> rw [e'] at e
    · have : (1 : Fp3 (Fp P) β) = y := congrArg Coord3.Y (Outcome.ok.inj e)
      rw [← this]
      exact fun h0 => one_ne_zero (α := Fp P) h0
    · have : g.Z / g.Y = y := congrArg Coord3.Y (Outcome.ok.inj e)
      rw [← this]
      exact hc h _ _ e''
  · obtain ⟨q, h1, h2', -⟩ := C39_edwards_g2 P mont binary compress debug mixed bits hb β C hC fuel hf hA hD had hg
      (fun h h0 => by
        rcases Edw.toAffine_rep hg with ⟨e, -⟩ | ⟨-, -, e⟩
        · exact absurd e h0
        · exact hc h _ _ e)
    exact ⟨q, h1, h2'⟩

theorem jacobian_g2_lost (β : Fp P) [Fact (¬ IsSquare β)] (b : Fp2 (Fp P) β) (h2 : (2 : Fp2 (Fp P) β) ≠ 0) (h3 : (3 : Fp2 (Fp P) β) ≠ 0) (hb0 : b ≠ 0) (x y : Fp2 (Fp P) β)
    (hw : Jac.isWellFormed b ⟨x, y, 1⟩ = true) (h0 : y.c0 = 0) (read : Reader (Coord3 (Fp2 (Fp P) β))) :
    Jac.isWellFormed b (Jac.neg ⟨x, y, 1⟩) = true ∧
    reserialize (Jac.write binary true (quadCodec binary (fpObjCodec mont binary P bits)) (fp2Lsb P)) read ⟨x, y, 1⟩ =
      reserialize (Jac.write binary true (quadCodec binary (fpObjCodec mont binary P bits)) (fp2Lsb P)) read (Jac.neg ⟨x, y, 1⟩) := by
  obtain ⟨Q, hQ⟩ := (C38_jacobian h2 h3 hb0 _).1 hw
  have e1 : Jac.toAffine (⟨x, y, 1⟩ : Coord3 (Fp2 (Fp P) β)) = .ok ⟨x, y, 1⟩ := by
    have hz : Jac.isZero (⟨x, y, 1⟩ : Coord3 (Fp2 (Fp P) β)) = false := by simp [Jac.isZero]
    simp [Jac.toAffine, hz, LawfulInverse.inverseO_ne (1 : Fp2 (Fp P) β) one_ne_zero, LawfulSquared.squared_eq]
  have hn := Jac.neg_rep hQ
  refine ⟨(C38_jacobian h2 h3 hb0 _).2 ⟨-Q, hn⟩, ?_⟩
  rw [reserialize, reserialize, (C75_jacobian_g2 P mont binary true bits hb β b).same (Or.inl rfl) ⟨Q, hQ⟩ ⟨-Q, hn⟩
    (Or.inr ⟨rfl, (Jac.eq_rep hQ (Jac.neg_rep hn)).2 (neg_neg Q).symm, x, y, e1, h0⟩)]

theorem projective_g2_lost (β : Fp P) [Fact (¬ IsSquare β)] (a b : Fp2 (Fp P) β) (h2 : (2 : Fp2 (Fp P) β) ≠ 0) (hd : 4 * a ^ 3 + 27 * b ^ 2 ≠ 0) (x y : Fp2 (Fp P) β)
    (hw : Proj.isWellFormed a b ⟨x, y, 1⟩ = true) (h0 : y.c0 = 0) (read : Reader (Coord3 (Fp2 (Fp P) β))) :
    Proj.isWellFormed a b (Proj.neg ⟨x, y, 1⟩) = true ∧
    reserialize (Proj.write binary true (quadCodec binary (fpObjCodec mont binary P bits)) (fp2Lsb P)) read ⟨x, y, 1⟩ =
      reserialize (Proj.write binary true (quadCodec binary (fpObjCodec mont binary P bits)) (fp2Lsb P)) read (Proj.neg ⟨x, y, 1⟩) := by
  obtain ⟨Q, hQ⟩ := (C38_projective h2 hd _).1 hw
  have e1 : Proj.toAffine (⟨x, y, 1⟩ : Coord3 (Fp2 (Fp P) β)) = .ok ⟨x, y, 1⟩ := by
    have hz : Proj.isZero (⟨x, y, 1⟩ : Coord3 (Fp2 (Fp P) β)) = false := by simp [Proj.isZero]
    simp [Proj.toAffine, hz, LawfulInverse.inverseO_ne (1 : Fp2 (Fp P) β) one_ne_zero]
  have hn := Proj.neg_rep hQ
  refine ⟨(C38_projective h2 hd _).2 ⟨-Q, hn⟩, ?_⟩
  rw [reserialize, reserialize, (C75_projective_g2 P mont binary true bits hb β a b).same (Or.inl rfl) ⟨Q, hQ⟩ ⟨-Q, hn⟩
    (Or.inr ⟨rfl, (Proj.eq_rep hQ (Proj.neg_rep hn)).2 (neg_neg Q).symm, x, y, e1, h0⟩)]

theorem projective_g2_fp3_lost (β : Fp P) [Fact (∀ y : Fp P, y * y * y ≠ β)] (a b : Fp3 (Fp P) β) (h2 : (2 : Fp3 (Fp P) β) ≠ 0) (hd : 4 * a ^ 3 + 27 * b ^ 2 ≠ 0) (x y : Fp3 (Fp P) β)
    (hw : Proj.isWellFormed a b ⟨x, y, 1⟩ = true) (h0 : y.c0 = 0) (read : Reader (Coord3 (Fp3 (Fp P) β))) :
    Proj.isWellFormed a b (Proj.neg ⟨x, y, 1⟩) = true ∧
    reserialize (Proj.write binary true (cubicCodec binary (fpObjCodec mont binary P bits)) (fp3Lsb P)) read ⟨x, y, 1⟩ =
      reserialize (Proj.write binary true (cubicCodec binary (fpObjCodec mont binary P bits)) (fp3Lsb P)) read (Proj.neg ⟨x, y, 1⟩) := by
  obtain ⟨Q, hQ⟩ := (C38_projective h2 hd _).1 hw
  have e1 : Proj.toAffine (⟨x, y, 1⟩ : Coord3 (Fp3 (Fp P) β)) = .ok ⟨x, y, 1⟩ := by
    have hz : Proj.isZero (⟨x, y, 1⟩ : Coord3 (Fp3 (Fp P) β)) = false := by simp [Proj.isZero]
    simp [Proj.toAffine, hz, LawfulInverse.inverseO_ne (1 : Fp3 (Fp P) β) one_ne_zero]
  have hn := Proj.neg_rep hQ
  refine ⟨(C38_projective h2 hd _).2 ⟨-Q, hn⟩, ?_⟩
  rw [reserialize, reserialize, (C75_projective_g2_fp3 P mont binary true bits hb β a b).same (Or.inl rfl) ⟨Q, hQ⟩ ⟨-Q, hn⟩
    (Or.inr ⟨rfl, (Proj.eq_rep hQ (Proj.neg_rep hn)).2 (neg_neg Q).symm, x, y, e1, h0⟩)]

theorem edwards_g2_lost (β : Fp P) [Fact (∀ y : Fp P, y * y * y ≠ β)] {mulA mulD : Fp3 (Fp P) β → Fp3 (Fp P) β} {a d : Fp3 (Fp P) β}
    (hA : ∀ x, mulA x = a * x) (hD : ∀ x, mulD x = d * x) (had : a - d ≠ 0) {x y : Fp3 (Fp P) β} (hx : x ≠ 0) (hy : y ≠ 0)
    (h1 : Edw.isWellFormed mulA mulD (Edw.ofAffine x y) = true) (h2 : Edw.isWellFormed mulA mulD (Edw.ofAffine x (-y)) = true)
    (h0 : y.c0 = 0) (read : Reader (Coord3 (Fp3 (Fp P) β))) :
    reserialize (Edw.write binary true (cubicCodec binary (fpObjCodec mont binary P bits)) (fp3Lsb P)) read (Edw.ofAffine x y) =
      reserialize (Edw.write binary true (cubicCodec binary (fpObjCodec mont binary P bits)) (fp3Lsb P)) read (Edw.ofAffine x (-y)) := by
  have rep : ∀ y : Fp3 (Fp P) β, y ≠ 0 → Edw.isWellFormed mulA mulD (Edw.ofAffine x y) = true →
      ∃ Q : (edwW a d).Point, EdwRep (Edw.ofAffine x y) Q := fun y hy h =>
    (edwAdm_iff hA hD (fun h => fp_two_ne_zero P (congrArg Cubic.c0 h)) had _).1 (Or.inr ⟨h, hy, hx, mul_ne_zero hx hy⟩)
  rw [reserialize, reserialize, (C75_edwards_g2 P mont binary true bits hb β had).same (Or.inl rfl) (rep y hy h1) (rep (-y) (neg_ne_zero.2 hy) h2)
    (Or.inr ⟨rfl, x, y, Edw.toAffine_ofAffine hx hy, Edw.toAffine_ofAffine hx (neg_ne_zero.2 hy), h0⟩)]

end Generic

/-! ## Fields -/

section Fields
variable (P : FpParams) (hP : P.Valid) (mont binary : Bool) (bits : Nat) (hb : BitSize P bits)
include hP hb

/-- **C84**, `Fp_model`: the same words come back. -/
theorem C84_fp (l : List Limb) (h : FpStored P l) :
    reserialize (fpCodec mont binary P bits).write (fpCodec mont binary P bits).read l = .ok l :=
  C84_exact (C24_fp P hP mont binary bits hb).stream l h

/-- **C84**, `Fp2_model`. -/
theorem C84_fp2 (nr : List Limb → List Limb) (x : Quad (List Limb) nr) (h : FpStored P x.c0 ∧ FpStored P x.c1) :
    reserialize (quadCodec (nr := nr) binary (fpCodec mont binary P bits)).write
      (quadCodec (nr := nr) binary (fpCodec mont binary P bits)).read x = .ok x :=
  C84_exact (C24_fp2 P hP mont binary bits hb nr).stream x h

/-- **C84**, `Fp3_model`. -/
theorem C84_fp3 (nr : List Limb → List Limb) (x : Cubic (List Limb) nr) (h : FpStored P x.c0 ∧ FpStored P x.c1 ∧ FpStored P x.c2) :
    reserialize (cubicCodec (nr := nr) binary (fpCodec mont binary P bits)).write
      (cubicCodec (nr := nr) binary (fpCodec mont binary P bits)).read x = .ok x :=
  C84_exact (C24_fp3 P hP mont binary bits hb nr).stream x h

/-- **C84**, `Fp4_model`. -/
theorem C84_fp4 (nr : List Limb → List Limb) (nr2 : Quad (List Limb) nr → Quad (List Limb) nr) (x : Quad (Quad (List Limb) nr) nr2)
    (h : (FpStored P x.c0.c0 ∧ FpStored P x.c0.c1) ∧ FpStored P x.c1.c0 ∧ FpStored P x.c1.c1) :
    reserialize (quadCodec (nr := nr2) binary (quadCodec (nr := nr) binary (fpCodec mont binary P bits))).write
      (quadCodec (nr := nr2) binary (quadCodec (nr := nr) binary (fpCodec mont binary P bits))).read x = .ok x :=
  C84_exact (C24_fp4 P hP mont binary bits hb nr nr2).stream x h

/-- **C84**, `Fp6_2over3_model`. -/
theorem C84_fp6_2over3 (nr : List Limb → List Limb) (nr2 : Cubic (List Limb) nr → Cubic (List Limb) nr) (x : Quad (Cubic (List Limb) nr) nr2)
    (h : (FpStored P x.c0.c0 ∧ FpStored P x.c0.c1 ∧ FpStored P x.c0.c2) ∧ FpStored P x.c1.c0 ∧ FpStored P x.c1.c1 ∧ FpStored P x.c1.c2) :
    reserialize (quadCodec (nr := nr2) binary (cubicCodec (nr := nr) binary (fpCodec mont binary P bits))).write
      (quadCodec (nr := nr2) binary (cubicCodec (nr := nr) binary (fpCodec mont binary P bits))).read x = .ok x :=
  C84_exact (C24_fp6_2over3 P hP mont binary bits hb nr nr2).stream x h

/-- **C84**, `Fp12_2over3over2_model` (and, in it, `Fp6_3over2_model`). -/
theorem C84_fp12 (nr : List Limb → List Limb) (nr2 : Quad (List Limb) nr → Quad (List Limb) nr)
    (nr3 : Cubic (Quad (List Limb) nr) nr2 → Cubic (Quad (List Limb) nr) nr2) (x : Quad (Cubic (Quad (List Limb) nr) nr2) nr3)
    (h : ((FpStored P x.c0.c0.c0 ∧ FpStored P x.c0.c0.c1) ∧ (FpStored P x.c0.c1.c0 ∧ FpStored P x.c0.c1.c1) ∧
        FpStored P x.c0.c2.c0 ∧ FpStored P x.c0.c2.c1) ∧
        (FpStored P x.c1.c0.c0 ∧ FpStored P x.c1.c0.c1) ∧ (FpStored P x.c1.c1.c0 ∧ FpStored P x.c1.c1.c1) ∧
        FpStored P x.c1.c2.c0 ∧ FpStored P x.c1.c2.c1) :
    reserialize (quadCodec (nr := nr3) binary (cubicCodec (nr := nr2) binary (quadCodec (nr := nr) binary (fpCodec mont binary P bits)))).write
      (quadCodec (nr := nr3) binary (cubicCodec (nr := nr2) binary (quadCodec (nr := nr) binary (fpCodec mont binary P bits)))).read x = .ok x ∧
    reserialize (cubicCodec (nr := nr2) binary (quadCodec (nr := nr) binary (fpCodec mont binary P bits))).write
      (cubicCodec (nr := nr2) binary (quadCodec (nr := nr) binary (fpCodec mont binary P bits))).read x.c0 = .ok x.c0 :=
  ⟨C84_exact (C24_fp12 P hP mont binary bits hb nr nr2 nr3).stream x h, C84_exact (C24_fp6_3over2 P hP mont binary bits hb nr nr2).stream x.c0 h.1⟩

end Fields

/-- The words of 3 modulo 2^127 - 1 meet the hypothesis. -/
example : reserialize (fpCodec false false w127 7).write (fpCodec false false w127 7).read [12] = .ok [12] :=
  C84_fp w127 w127_valid.out false false 7 w127_bits [12] ⟨by decide, by decide⟩

/-- **C84**, the classes of binary fields. -/
theorem C84_binary : (∀ a : GF32, reserialize (fun a => .ok (GF32.write a)) GF32.read a = .ok a) ∧
    (∀ a : GF64, reserialize (fun a => .ok (GF64.write a)) GF64.read a = .ok a) ∧
    (∀ a : GF128, reserialize (fun a => .ok (GF128.write a)) GF128.read a = .ok a) ∧
    (∀ a : GF192, reserialize (fun a => .ok (GF192.write a)) GF192.read a = .ok a) ∧
    (∀ a : GF256, reserialize (fun a => .ok (GF256.write a)) GF256.read a = .ok a) := by
  refine ⟨fun a => ?_, fun a => ?_, fun a => ?_, fun a => ?_, fun a => ?_⟩
  · have h := C56_gf32_stream a [] (by simp)
    rw [List.append_nil] at h
    rw [reserialize, Outcome.bind_ok, h, Outcome.map_ok]
  · have h := C56_gf64_stream a [] (by simp)
    rw [List.append_nil] at h
    rw [reserialize, Outcome.bind_ok, h, Outcome.map_ok]
  · have h := C56_gf128_stream a [] (by simp)
    rw [List.append_nil] at h
    rw [reserialize, Outcome.bind_ok, h, Outcome.map_ok]
  · have h := C56_gf192_stream a [] (by simp)
    rw [List.append_nil] at h
    rw [reserialize, Outcome.bind_ok, h, Outcome.map_ok]
  · have h := C56_gf256_stream a [] (by simp)
    rw [List.append_nil] at h
    rw [reserialize, Outcome.bind_ok, h, Outcome.map_ok]

/-! ## Groups -/

variable (mont binary compress debug : Bool) (fuel : Nat)

/-- **C84**, `alt_bn128_G1`. -/
theorem C84_alt_bn128_G1 (hf : alt_bn128_Fq_sqrt.s ≤ fuel) :
    Normalises (fun g => Jac.isWellFormed alt_bn128_b g = true) Jac.eq
      (reserialize (Jac.write binary compress (fpObjCodec mont binary alt_bn128_Fq_params alt_bn128_Fq_data.numBits) (fpLsb alt_bn128_Fq_params))
        (Jac.read binary compress (fpObjCodec mont binary alt_bn128_Fq_params alt_bn128_Fq_data.numBits) (fpLsb alt_bn128_Fq_params)
          (fieldSqrt debug alt_bn128_Fq_sqrt fuel) alt_bn128_b)) :=
  jacobian_g1_normalises alt_bn128_Fq_params mont binary compress debug alt_bn128_Fq_data.numBits
    (C52_bit_size alt_bn128_Fq_data C52_alt_bn128_prime_fields.2) alt_bn128_Fq_sqrt alt_bn128_Fq_sqrt_valid fuel hf alt_bn128_b
    (by have h := C52_alt_bn128_G1_generator.1; with_reducible_and_instances exact h)
    (by have h := C52_alt_bn128_G1_generator.2.1; with_reducible_and_instances exact h)
    (by have h := C52_alt_bn128_G1_generator.2.2.1; with_reducible_and_instances exact h)

/-- **C84**, `alt_bn128_G2`; for compressed output without the elements whose affine `Y` has `c0 = 0` and is not zero. -/
theorem C84_alt_bn128_G2 (hf : alt_bn128_Fq2_data.s ≤ fuel) :
    Normalises (fun g => Jac.isWellFormed alt_bn128_twist_b g = true ∧
        (compress = true → ∀ x y, Jac.toAffine g = .ok ⟨x, y, 1⟩ → y.c0 ≠ 0 ∨ y = 0)) Jac.eq
      (reserialize (Jac.write binary compress (quadCodec binary (fpObjCodec mont binary alt_bn128_Fq_params alt_bn128_Fq_data.numBits)) (fp2Lsb alt_bn128_Fq_params))
        (Jac.read binary compress (quadCodec binary (fpObjCodec mont binary alt_bn128_Fq_params alt_bn128_Fq_data.numBits)) (fp2Lsb alt_bn128_Fq_params)
          (fieldSqrt debug (alt_bn128_Fq2_data.sqrtConsts 8 (dec2 Nat.cast : _ → alt_bn128_Fq2)) fuel) alt_bn128_twist_b)) :=
  jacobian_g2_normalises alt_bn128_Fq_params mont binary compress debug alt_bn128_Fq_data.numBits
    (C52_bit_size alt_bn128_Fq_data C52_alt_bn128_prime_fields.2) alt_bn128_β _ C52_alt_bn128_square_roots.1 fuel hf alt_bn128_twist_b
    (by have h := C52_alt_bn128_G2_generator.1; with_reducible_and_instances exact h)
    (by have h := C52_alt_bn128_G2_generator.2.1; with_reducible_and_instances exact h)
    (by have h := C52_alt_bn128_G2_generator.2.2.1; with_reducible_and_instances exact h)

/-- There are such elements: this one and its negative are well formed and different. -/
def alt_bn128_G2_lost : Coord3 alt_bn128_Fq2 :=
  ⟨dec2 Nat.cast (11161263371744170948612641958984674565273994439799910679997480016513227936221, 2),
    dec2 Nat.cast (0, 18127337043531875153454218246218864057855276167243230465787263263660018995022), 1⟩

/-- **C84 does not hold for all of compressed `alt_bn128_G2`**: whatever the reader, the two different elements give the same. -/
theorem C84_alt_bn128_G2_wrong (read : Reader (Coord3 alt_bn128_Fq2)) :
    Jac.isWellFormed alt_bn128_twist_b alt_bn128_G2_lost = true ∧ Jac.isWellFormed alt_bn128_twist_b (Jac.neg alt_bn128_G2_lost) = true ∧
    Jac.eq alt_bn128_G2_lost (Jac.neg alt_bn128_G2_lost) = false ∧
    reserialize (Jac.write binary true (quadCodec binary (fpObjCodec mont binary alt_bn128_Fq_params alt_bn128_Fq_data.numBits)) (fp2Lsb alt_bn128_Fq_params)) read alt_bn128_G2_lost =
      reserialize (Jac.write binary true (quadCodec binary (fpObjCodec mont binary alt_bn128_Fq_params alt_bn128_Fq_data.numBits)) (fp2Lsb alt_bn128_Fq_params)) read (Jac.neg alt_bn128_G2_lost) :=
  have hw : Jac.isWellFormed alt_bn128_twist_b alt_bn128_G2_lost = true := by decide +kernel
  have h := jacobian_g2_lost alt_bn128_Fq_params mont binary alt_bn128_Fq_data.numBits (C52_bit_size alt_bn128_Fq_data C52_alt_bn128_prime_fields.2) alt_bn128_β alt_bn128_twist_b
    (by have h := C52_alt_bn128_G2_generator.1; with_reducible_and_instances exact h)
    (by have h := C52_alt_bn128_G2_generator.2.1; with_reducible_and_instances exact h)
    (by have h := C52_alt_bn128_G2_generator.2.2.1; with_reducible_and_instances exact h) _ _ hw (by decide +kernel) read
  ⟨hw, h.1, by decide +kernel, h.2⟩

/-- **C84**, `bls12_381_G1`. -/
theorem C84_bls12_381_G1 (hf : bls12_381_Fq_sqrt.s ≤ fuel) :
    Normalises (fun g => Jac.isWellFormed bls12_381_b g = true) Jac.eq
      (reserialize (Jac.write binary compress (fpObjCodec mont binary bls12_381_Fq_params bls12_381_Fq_data.numBits) (fpLsb bls12_381_Fq_params))
        (Jac.read binary compress (fpObjCodec mont binary bls12_381_Fq_params bls12_381_Fq_data.numBits) (fpLsb bls12_381_Fq_params)
          (fieldSqrt debug bls12_381_Fq_sqrt fuel) bls12_381_b)) :=
  jacobian_g1_normalises bls12_381_Fq_params mont binary compress debug bls12_381_Fq_data.numBits
    (C52_bit_size bls12_381_Fq_data C52_bls12_381_prime_fields.2) bls12_381_Fq_sqrt bls12_381_Fq_sqrt_valid fuel hf bls12_381_b
    (by have h := C52_bls12_381_G1_generator.1; with_reducible_and_instances exact h)
    (by have h := C52_bls12_381_G1_generator.2.1; with_reducible_and_instances exact h)
    (by have h := C52_bls12_381_G1_generator.2.2.1; with_reducible_and_instances exact h)

/-- **C84**, `bls12_381_G2`; for compressed output without the elements whose affine `Y` has `c0 = 0` and is not zero. -/
theorem C84_bls12_381_G2 (hf : bls12_381_Fq2_data.s ≤ fuel) :
    Normalises (fun g => Jac.isWellFormed bls12_381_twist_b g = true ∧
        (compress = true → ∀ x y, Jac.toAffine g = .ok ⟨x, y, 1⟩ → y.c0 ≠ 0 ∨ y = 0)) Jac.eq
      (reserialize (Jac.write binary compress (quadCodec binary (fpObjCodec mont binary bls12_381_Fq_params bls12_381_Fq_data.numBits)) (fp2Lsb bls12_381_Fq_params))
        (Jac.read binary compress (quadCodec binary (fpObjCodec mont binary bls12_381_Fq_params bls12_381_Fq_data.numBits)) (fp2Lsb bls12_381_Fq_params)
          (fieldSqrt debug (bls12_381_Fq2_data.sqrtConsts 12 (dec2 Nat.cast : _ → bls12_381_Fq2)) fuel) bls12_381_twist_b)) :=
  jacobian_g2_normalises bls12_381_Fq_params mont binary compress debug bls12_381_Fq_data.numBits
    (C52_bit_size bls12_381_Fq_data C52_bls12_381_prime_fields.2) bls12_381_β _ C52_bls12_381_square_roots.1 fuel hf bls12_381_twist_b
    (by have h := C52_bls12_381_G2_generator.1; with_reducible_and_instances exact h)
    (by have h := C52_bls12_381_G2_generator.2.1; with_reducible_and_instances exact h)
    (by have h := C52_bls12_381_G2_generator.2.2.1; with_reducible_and_instances exact h)

/-- There are such elements: this one and its negative are well formed and different. -/
def bls12_381_G2_lost : Coord3 bls12_381_Fq2 :=
  ⟨dec2 Nat.cast (2184658519570371870915833897259459385312129120630600588325620163408151507823055278205417455072252281093083633307056, 2),
    dec2 Nat.cast (0, 397692514941456914752964713713287229409951383820116208193715510509220749946691987588780306958650770122165652670055), 1⟩

/-- **C84 does not hold for all of compressed `bls12_381_G2`**: whatever the reader, the two different elements give the same. -/
theorem C84_bls12_381_G2_wrong (read : Reader (Coord3 bls12_381_Fq2)) :
    Jac.isWellFormed bls12_381_twist_b bls12_381_G2_lost = true ∧ Jac.isWellFormed bls12_381_twist_b (Jac.neg bls12_381_G2_lost) = true ∧
    Jac.eq bls12_381_G2_lost (Jac.neg bls12_381_G2_lost) = false ∧
    reserialize (Jac.write binary true (quadCodec binary (fpObjCodec mont binary bls12_381_Fq_params bls12_381_Fq_data.numBits)) (fp2Lsb bls12_381_Fq_params)) read bls12_381_G2_lost =
      reserialize (Jac.write binary true (quadCodec binary (fpObjCodec mont binary bls12_381_Fq_params bls12_381_Fq_data.numBits)) (fp2Lsb bls12_381_Fq_params)) read (Jac.neg bls12_381_G2_lost) :=
  have hw : Jac.isWellFormed bls12_381_twist_b bls12_381_G2_lost = true := by decide +kernel
  have h := jacobian_g2_lost bls12_381_Fq_params mont binary bls12_381_Fq_data.numBits (C52_bit_size bls12_381_Fq_data C52_bls12_381_prime_fields.2) bls12_381_β bls12_381_twist_b
    (by have h := C52_bls12_381_G2_generator.1; with_reducible_and_instances exact h)
    (by have h := C52_bls12_381_G2_generator.2.1; with_reducible_and_instances exact h)
    (by have h := C52_bls12_381_G2_generator.2.2.1; with_reducible_and_instances exact h) _ _ hw (by decide +kernel) read
  ⟨hw, h.1, by decide +kernel, h.2⟩

/-- **C84**, `mnt4_G1`. -/
theorem C84_mnt4_G1 (hf : mnt4_Fq_sqrt.s ≤ fuel) :
    Normalises (fun g => Proj.isWellFormed mnt4_a mnt4_b g = true) Proj.eq
      (reserialize (Proj.write binary compress (fpObjCodec mont binary mnt4_Fq_params mnt4_Fq_data.numBits) (fpLsb mnt4_Fq_params))
        (Proj.read binary compress (fpObjCodec mont binary mnt4_Fq_params mnt4_Fq_data.numBits) (fpLsb mnt4_Fq_params)
          (fieldSqrt debug mnt4_Fq_sqrt fuel) mnt4_a mnt4_b)) :=
  projective_g1_normalises mnt4_Fq_params mont binary compress debug mnt4_Fq_data.numBits
    (C52_bit_size mnt4_Fq_data C52_mnt4_prime_fields.2) mnt4_Fq_sqrt mnt4_Fq_sqrt_valid fuel hf mnt4_a mnt4_b
    (by have h := C52_mnt4_G1_generator.1; with_reducible_and_instances exact h)
    (by have h := C52_mnt4_G1_generator.2.1; with_reducible_and_instances exact h)

/-- **C84**, `mnt4_G2`; for compressed output without the elements whose affine `Y` has `c0 = 0` and is not zero. -/
theorem C84_mnt4_G2 (hf : mnt4_Fq2_data.s ≤ fuel) :
    Normalises (fun g => Proj.isWellFormed mnt4_twist_a mnt4_twist_b g = true ∧
        (compress = true → ∀ x y, Proj.toAffine g = .ok ⟨x, y, 1⟩ → y.c0 ≠ 0 ∨ y = 0)) Proj.eq
      (reserialize (Proj.write binary compress (quadCodec binary (fpObjCodec mont binary mnt4_Fq_params mnt4_Fq_data.numBits)) (fp2Lsb mnt4_Fq_params))
        (Proj.read binary compress (quadCodec binary (fpObjCodec mont binary mnt4_Fq_params mnt4_Fq_data.numBits)) (fp2Lsb mnt4_Fq_params)
          (fieldSqrt debug (mnt4_Fq2_data.sqrtConsts 10 (dec2 Nat.cast : _ → mnt4_Fq2)) fuel) mnt4_twist_a mnt4_twist_b)) :=
  projective_g2_normalises mnt4_Fq_params mont binary compress debug mnt4_Fq_data.numBits
    (C52_bit_size mnt4_Fq_data C52_mnt4_prime_fields.2) mnt4_β _ C52_mnt4_square_roots.1 fuel hf mnt4_twist_a mnt4_twist_b
    (by have h := C52_mnt4_G2_generator.1; with_reducible_and_instances exact h)
    (by have h := C52_mnt4_G2_generator.2.1; with_reducible_and_instances exact h)

/-- There are such elements: this one and its negative are well formed and different. -/
def mnt4_G2_lost : Coord3 mnt4_Fq2 :=
  ⟨dec2 Nat.cast (399084630594008714718208300072109277802091672501763869954459939842050727473216975402148942, 15),
    dec2 Nat.cast (0, 92926187311862492673578494280900055358654915874539543805148091451192288174661726295063427), 1⟩

/-- **C84 does not hold for all of compressed `mnt4_G2`**: whatever the reader, the two different elements give the same. -/
theorem C84_mnt4_G2_wrong (read : Reader (Coord3 mnt4_Fq2)) :
    Proj.isWellFormed mnt4_twist_a mnt4_twist_b mnt4_G2_lost = true ∧ Proj.isWellFormed mnt4_twist_a mnt4_twist_b (Proj.neg mnt4_G2_lost) = true ∧
    Proj.eq mnt4_G2_lost (Proj.neg mnt4_G2_lost) = false ∧
    reserialize (Proj.write binary true (quadCodec binary (fpObjCodec mont binary mnt4_Fq_params mnt4_Fq_data.numBits)) (fp2Lsb mnt4_Fq_params)) read mnt4_G2_lost =
      reserialize (Proj.write binary true (quadCodec binary (fpObjCodec mont binary mnt4_Fq_params mnt4_Fq_data.numBits)) (fp2Lsb mnt4_Fq_params)) read (Proj.neg mnt4_G2_lost) :=
  have hw : Proj.isWellFormed mnt4_twist_a mnt4_twist_b mnt4_G2_lost = true := by decide +kernel
  have h := projective_g2_lost mnt4_Fq_params mont binary mnt4_Fq_data.numBits (C52_bit_size mnt4_Fq_data C52_mnt4_prime_fields.2) mnt4_β mnt4_twist_a mnt4_twist_b
    (by have h := C52_mnt4_G2_generator.1; with_reducible_and_instances exact h)
    (by have h := C52_mnt4_G2_generator.2.1; with_reducible_and_instances exact h) _ _ hw (by decide +kernel) read
  ⟨hw, h.1, by decide +kernel, h.2⟩

/-- **C84**, `mnt6_G1`. -/
theorem C84_mnt6_G1 (hf : mnt6_Fq_sqrt.s ≤ fuel) :
    Normalises (fun g => Proj.isWellFormed mnt6_a mnt6_b g = true) Proj.eq
      (reserialize (Proj.write binary compress (fpObjCodec mont binary mnt6_Fq_params mnt6_Fq_data.numBits) (fpLsb mnt6_Fq_params))
        (Proj.read binary compress (fpObjCodec mont binary mnt6_Fq_params mnt6_Fq_data.numBits) (fpLsb mnt6_Fq_params)
          (fieldSqrt debug mnt6_Fq_sqrt fuel) mnt6_a mnt6_b)) :=
  projective_g1_normalises mnt6_Fq_params mont binary compress debug mnt6_Fq_data.numBits
    (C52_bit_size mnt6_Fq_data C52_mnt6_prime_fields.2) mnt6_Fq_sqrt mnt6_Fq_sqrt_valid fuel hf mnt6_a mnt6_b
    (by have h := C52_mnt6_G1_generator.1; with_reducible_and_instances exact h)
    (by have h := C52_mnt6_G1_generator.2.1; with_reducible_and_instances exact h)

/-- **C84**, `mnt6_G2`; for compressed output without the elements whose affine `Y` has `c0 = 0` and is not zero. -/
theorem C84_mnt6_G2 (hf : mnt6_Fq3_data.s ≤ fuel) :
    Normalises (fun g => Proj.isWellFormed mnt6_twist_a mnt6_twist_b g = true ∧
        (compress = true → ∀ x y, Proj.toAffine g = .ok ⟨x, y, 1⟩ → y.c0 ≠ 0 ∨ y = 0)) Proj.eq
      (reserialize (Proj.write binary compress (cubicCodec binary (fpObjCodec mont binary mnt6_Fq_params mnt6_Fq_data.numBits)) (fp3Lsb mnt6_Fq_params))
        (Proj.read binary compress (cubicCodec binary (fpObjCodec mont binary mnt6_Fq_params mnt6_Fq_data.numBits)) (fp3Lsb mnt6_Fq_params)
          (fieldSqrt debug (mnt6_Fq3_data.sqrtConsts 15 (dec3 Nat.cast : _ → mnt6_Fq3)) fuel) mnt6_twist_a mnt6_twist_b)) :=
  projective_g2_fp3_normalises mnt6_Fq_params mont binary compress debug mnt6_Fq_data.numBits
    (C52_bit_size mnt6_Fq_data C52_mnt6_prime_fields.2) mnt6_β _ C52_mnt6_square_roots.1 fuel hf mnt6_twist_a mnt6_twist_b
    (by have h := C52_mnt6_G2_generator.1; with_reducible_and_instances exact h)
    (by have h := C52_mnt6_G2_generator.2.1; with_reducible_and_instances exact h)

/-- There are such elements: this one and its negative are well formed and different. -/
def mnt6_G2_lost : Coord3 mnt6_Fq3 :=
  ⟨dec3 Nat.cast (102889192888253633637660609220313571505229730462084554374121745451999834427422190006108837, 451974939176116235050775875182179156920293295596721851524636064948025003489071976462082203, 264644536119365190591462768697249282744011253898805299481892898648236150537946222782636920),
    dec3 Nat.cast (0, 3, 1), 1⟩

/-- **C84 does not hold for all of compressed `mnt6_G2`**: whatever the reader, the two different elements give the same. -/
theorem C84_mnt6_G2_wrong (read : Reader (Coord3 mnt6_Fq3)) :
    Proj.isWellFormed mnt6_twist_a mnt6_twist_b mnt6_G2_lost = true ∧ Proj.isWellFormed mnt6_twist_a mnt6_twist_b (Proj.neg mnt6_G2_lost) = true ∧
    Proj.eq mnt6_G2_lost (Proj.neg mnt6_G2_lost) = false ∧
    reserialize (Proj.write binary true (cubicCodec binary (fpObjCodec mont binary mnt6_Fq_params mnt6_Fq_data.numBits)) (fp3Lsb mnt6_Fq_params)) read mnt6_G2_lost =
      reserialize (Proj.write binary true (cubicCodec binary (fpObjCodec mont binary mnt6_Fq_params mnt6_Fq_data.numBits)) (fp3Lsb mnt6_Fq_params)) read (Proj.neg mnt6_G2_lost) :=
  have hw : Proj.isWellFormed mnt6_twist_a mnt6_twist_b mnt6_G2_lost = true := by decide +kernel
  have h := projective_g2_fp3_lost mnt6_Fq_params mont binary mnt6_Fq_data.numBits (C52_bit_size mnt6_Fq_data C52_mnt6_prime_fields.2) mnt6_β mnt6_twist_a mnt6_twist_b
    (by have h := C52_mnt6_G2_generator.1; with_reducible_and_instances exact h)
    (by have h := C52_mnt6_G2_generator.2.1; with_reducible_and_instances exact h) _ _ hw (by decide +kernel) read
  ⟨hw, h.1, by decide +kernel, h.2⟩

/-- **C84**, `edwards_G1`. -/
theorem C84_edwards_G1 (mixed : Bool) (hf : edwards_Fq_sqrt.s ≤ fuel) :
    Normalises (fun g => Edw.isZero g = true ∨ (Edw.isWellFormed (fun x => x) edwards_G1_mul_by_d g = true ∧ g.X ≠ 0 ∧ g.Y ≠ 0 ∧ g.Z ≠ 0)) Edw.eq
      (reserialize (Edw.write binary compress (fpObjCodec mont binary edwards_Fq_params edwards_Fq_data.numBits) (fpLsb edwards_Fq_params))
        (Edw.read binary compress (fpObjCodec mont binary edwards_Fq_params edwards_Fq_data.numBits) (fpLsb edwards_Fq_params)
          (fieldSqrt debug edwards_Fq_sqrt fuel) debug mixed (fun x => x) edwards_G1_mul_by_d)) :=
  edwards_g1_normalises edwards_Fq_params mont binary compress debug edwards_Fq_data.numBits
    (C52_bit_size edwards_Fq_data C52_edwards_prime_fields.2) mixed edwards_Fq_sqrt edwards_Fq_sqrt_valid fuel hf edwards_d
    (by have h := C52_edwards_G1_generator.2.1; with_reducible_and_instances exact h)

/-- **C84**, `edwards_G2`; for compressed output without the elements whose affine `Y` has `c0 = 0`. -/
theorem C84_edwards_G2 (mixed : Bool) (hf : edwards_Fq3_data.s ≤ fuel) :
    Normalises (fun g => (Edw.isZero g = true ∨
          (Edw.isWellFormed edwards_G2_mul_by_a edwards_G2_mul_by_d g = true ∧ g.X ≠ 0 ∧ g.Y ≠ 0 ∧ g.Z ≠ 0)) ∧
        (compress = true → ∀ x y, Edw.toAffine g = .ok ⟨x, y, 1⟩ → y.c0 ≠ 0)) Edw.eq
      (reserialize (Edw.write binary compress (cubicCodec binary (fpObjCodec mont binary edwards_Fq_params edwards_Fq_data.numBits)) (fp3Lsb edwards_Fq_params))
        (Edw.read binary compress (cubicCodec binary (fpObjCodec mont binary edwards_Fq_params edwards_Fq_data.numBits)) (fp3Lsb edwards_Fq_params)
          (fieldSqrt debug (edwards_Fq3_data.sqrtConsts 9 (dec3 Nat.cast : _ → edwards_Fq3)) fuel) debug mixed
          edwards_G2_mul_by_a edwards_G2_mul_by_d)) :=
  edwards_g2_normalises edwards_Fq_params mont binary compress debug edwards_Fq_data.numBits
    (C52_bit_size edwards_Fq_data C52_edwards_prime_fields.2) edwards_β mixed _ C52_edwards_square_roots.1 fuel hf
    (fun x => (C37_mul_by _ edwards_d x).1) (fun x => (C37_mul_by _ edwards_d x).2.1)
    (by have h := C52_edwards_G2_generator.2.1; rw [edwards_twist_a, edwards_twist_d] at h; with_reducible_and_instances exact h)

/-- An element of `edwards_G2` whose affine `Y` has `c0 = 0`: `(x, y)` … -/
def edwards_lost_x : edwards_Fq3 := dec3 Nat.cast
  (910962161930049580442904776811832957399830937888077470, 1729064788962008737350327714810685685731617547685462476, 1748847999268200788223669409331447766642914601376595801)
def edwards_lost_y : edwards_Fq3 := dec3 Nat.cast (0, 2, 1)

/-- **C84 does not hold for all of compressed `edwards_G2`**: whatever the reader, the different elements `(x, y)` and `(x, -y)` give the same. -/
theorem C84_edwards_G2_wrong (read : Reader (Coord3 edwards_Fq3)) :
    Edw.isWellFormed edwards_G2_mul_by_a edwards_G2_mul_by_d (Edw.ofAffine edwards_lost_x edwards_lost_y) = true ∧
    Edw.isWellFormed edwards_G2_mul_by_a edwards_G2_mul_by_d (Edw.ofAffine edwards_lost_x (-edwards_lost_y)) = true ∧
    Edw.eq (Edw.ofAffine edwards_lost_x edwards_lost_y) (Edw.ofAffine edwards_lost_x (-edwards_lost_y)) = false ∧
    reserialize (Edw.write binary true (cubicCodec binary (fpObjCodec mont binary edwards_Fq_params edwards_Fq_data.numBits)) (fp3Lsb edwards_Fq_params)) read
        (Edw.ofAffine edwards_lost_x edwards_lost_y) =
      reserialize (Edw.write binary true (cubicCodec binary (fpObjCodec mont binary edwards_Fq_params edwards_Fq_data.numBits)) (fp3Lsb edwards_Fq_params)) read
        (Edw.ofAffine edwards_lost_x (-edwards_lost_y)) :=
  have h1 : Edw.isWellFormed edwards_G2_mul_by_a edwards_G2_mul_by_d (Edw.ofAffine edwards_lost_x edwards_lost_y) = true := by decide +kernel
  have h2 : Edw.isWellFormed edwards_G2_mul_by_a edwards_G2_mul_by_d (Edw.ofAffine edwards_lost_x (-edwards_lost_y)) = true := by decide +kernel
  ⟨h1, h2, by decide +kernel, edwards_g2_lost edwards_Fq_params mont binary edwards_Fq_data.numBits
    (C52_bit_size edwards_Fq_data C52_edwards_prime_fields.2) edwards_β
    (fun x => (C37_mul_by _ edwards_d x).1) (fun x => (C37_mul_by _ edwards_d x).2.1)
    (by have h := C52_edwards_G2_generator.2.1; rw [edwards_twist_a, edwards_twist_d] at h; with_reducible_and_instances exact h)
    (by decide +kernel) (by decide +kernel) h1 h2 (by decide +kernel) read⟩

/-- What comes back from the generator of `alt_bn128_G1`, compressed text, is equal to it. -/
example : (∃ q, reserialize (Jac.write false true (fpObjCodec false false alt_bn128_Fq_params alt_bn128_Fq_data.numBits) (fpLsb alt_bn128_Fq_params))
      (Jac.read false true (fpObjCodec false false alt_bn128_Fq_params alt_bn128_Fq_data.numBits) (fpLsb alt_bn128_Fq_params)
        (fieldSqrt true alt_bn128_Fq_sqrt 1) alt_bn128_b) alt_bn128_G1_one = .ok q ∧ Jac.eq alt_bn128_G1_one q = true) :=
  let ⟨q, h1, _, h2, _⟩ := (C84_alt_bn128_G1 false false true true 1 (by decide)).1 _ C38_alt_bn128_generators.1
  ⟨q, h1, h2⟩

end Libff
