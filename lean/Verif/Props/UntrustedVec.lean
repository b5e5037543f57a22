import Verif.Props.UntrustedCurves
import Verif.Props.Bn128

/-!
# C63: vectors of elements, and the groups of bn128, read from an unknown source

A vector is announced by its length. Whatever follows, a vector that is returned has this length and all its elements are what the
reader of the element class can return, so they are valid if that reader returns only valid elements.
-/
namespace Libff
open WeierstrassCurve WeierstrassCurve.Affine
set_option synthInstance.maxSize 2000

theorem readList_sound {α : Type} {read : Reader α} {Good : α → Prop} (hr : ∀ s x rest, read s = .ok (x, rest) → Good x)
    (after : List Byte → Outcome (List Byte)) (k : Nat) (s : List Byte) (v : List α) (rest : List Byte)
    (h : readList read after k s = .ok (v, rest)) : v.length = k ∧ ∀ x ∈ v, Good x := by
  induction k generalizing s v rest with
  | zero =>
    have := congrArg Prod.fst (Outcome.ok.inj h)
    subst this
    simp
  | succ k ih =>
    rw [readList] at h
    obtain ⟨x, hx, h⟩ := Outcome.bind_eq_ok.1 h
    obtain ⟨s1, -, h⟩ := Outcome.bind_eq_ok.1 h
    obtain ⟨q, hq, h⟩ := Outcome.map_eq_ok.1 h
    have e : x.1 :: q.1 = v := congrArg Prod.fst h
    subst e
    obtain ⟨h1, h2⟩ := ih s1 q.1 q.2 hq
    refine ⟨by rw [List.length_cons, h1], fun y hy => ?_⟩
    rcases List.mem_cons.1 hy with rfl | hy
    · exact hr s _ x.2 hx
    · exact h2 y hy

/-- **C63.** Vectors: if the reader of the elements returns only good elements, from any bytes, then the reader of vectors returns
only vectors of good elements, of the length the stream announces. -/
theorem C63_vector {α : Type} {read : Reader α} {Good : α → Prop} (hr : ∀ s x rest, read s = .ok (x, rest) → Good x)
    (binary : Bool) (s : List Byte) (v : List α) (rest : List Byte) (h : vecRead binary read s = .ok (v, rest)) :
    (∃ s', readSize s = .ok (v.length, s')) ∧ ∀ x ∈ v, Good x := by
  rw [vecRead] at h
  obtain ⟨n, hn, h⟩ := Outcome.bind_eq_ok.1 h
  obtain ⟨s1, -, h⟩ := Outcome.bind_eq_ok.1 h
  obtain ⟨h1, h2⟩ := readList_sound hr _ _ _ _ _ h
  exact ⟨⟨n.2, by rw [hn, h1]⟩, h2⟩

/-- **C63.** The vectors of extension field elements, which have a reader of their own. -/
theorem C63_ext_vector {α : Type} {read : Reader α} {Good : α → Prop} (hr : ∀ s x rest, read s = .ok (x, rest) → Good x)
    (s : List Byte) (v : List α) (rest : List Byte) (h : extVecRead read s = .ok (v, rest)) :
    (∃ s', readSize s = .ok (v.length, s')) ∧ ∀ x ∈ v, Good x := by
  rw [extVecRead] at h
  obtain ⟨n, hn, h⟩ := Outcome.bind_eq_ok.1 h
  obtain ⟨s1, -, h⟩ := Outcome.bind_eq_ok.1 h
  obtain ⟨h1, h2⟩ := readList_sound hr _ _ _ _ _ h
  exact ⟨⟨n.2, by rw [hn, h1]⟩, h2⟩

/-- **C63.** Vectors of prime field elements: every element is reduced. -/
theorem C63_fp_vector (P : FpParams) (hP : P.Valid) (binary : Bool) (s : List Byte) (v : List (List Limb)) (rest : List Byte)
    (h : vecRead binary (fpRead false binary P) s = .ok (v, rest)) :
    (∃ s', readSize s = .ok (v.length, s')) ∧ ∀ a ∈ v, a.length = P.n ∧ val a < P.p :=
  C63_vector (fun s a rest => C63_fp_read_valid P hP binary s a rest) binary s v rest h

section
variable {K : Type} [Field K] [DecidableEq K] [Squared K] [LawfulSquared K] [InverseO K] [LawfulInverse K]
  {binary : Bool} {c : FieldCodec K} {lsb : K → Outcome Bool} {sqrt : K → Outcome K} {a b d : K}

/-- **C63.** Vectors of the Jacobian classes: every element passes `is_well_formed` and is in affine form. -/
theorem C63_jacobian_vector (hs : SqrtSound sqrt) {s : List Byte} {v : List (Coord3 K)} {rest : List Byte}
    (h : vecRead binary (Jac.read binary true c lsb sqrt b) s = .ok (v, rest)) :
    (∃ s', readSize s = .ok (v.length, s')) ∧ ∀ p ∈ v, Jac.isWellFormed b p = true ∧ Jac.isSpecial p = true :=
  C63_vector (fun _ _ _ h => C63_jacobian_compressed hs h) binary s v rest h

/-- **C63.** Vectors of the projective classes. -/
theorem C63_projective_vector (hs : SqrtSound sqrt) {s : List Byte} {v : List (Coord3 K)} {rest : List Byte}
    (h : vecRead binary (Proj.read binary true c lsb sqrt a b) s = .ok (v, rest)) :
    (∃ s', readSize s = .ok (v.length, s')) ∧ ∀ p ∈ v, Proj.isWellFormed a b p = true ∧ Proj.isSpecial p = true :=
  C63_vector (fun _ _ _ h => C63_projective_compressed hs h) binary s v rest h

/-- **C63.** Vectors of the Edwards classes. -/
theorem C63_edwards_vector (hs : SqrtSound sqrt) {mulA mulD : K → K} (hA : ∀ x, mulA x = a * x) (hD : ∀ x, mulD x = d * x)
    {debug mixed : Bool} {s : List Byte} {v : List (Coord3 K)} {rest : List Byte}
    (h : vecRead binary (Edw.read binary true c lsb sqrt debug mixed mulA mulD) s = .ok (v, rest)) :
    (∃ s', readSize s = .ok (v.length, s')) ∧ ∀ p ∈ v, Edw.isWellFormed mulA mulD p = true :=
  C63_vector (fun _ _ _ h => (C63_edwards_compressed hs hA hD h).2) binary s v rest h

end

/-! ## bn128 -/

section
variable {K : Type} [Field K] [DecidableEq K] {binary : Bool} {c : FieldCodec K} {lsb : K → Bool} {b : K}

/-- **C63.** `bn128_G1`, `bn128_G2`, compressed format: if what the square root of the class returns is a root, an element that is
returned passes `is_well_formed` and is in affine form, whatever the bytes. -/
theorem C63_bn128_compressed {sq : K → Outcome (Option K)} (hs : ∀ x y, sq x = .ok (some y) → y * y = x) {s : List Byte}
    {p : Coord3 K} {rest : List Byte} (h : Bn128.read binary true c lsb b sq s = .ok (p, rest)) :
    Bn128.isWellFormed b p = true ∧ Bn128.isSpecial p = true := by
  rw [Bn128.read] at h
  obtain ⟨z, -, h⟩ := Outcome.bind_eq_ok.1 h
  obtain ⟨x, -, h⟩ := Outcome.bind_eq_ok.1 h
  rw [if_pos rfl] at h
  obtain ⟨s1, -, h⟩ := Outcome.bind_eq_ok.1 h
  obtain ⟨l, -, h⟩ := Outcome.bind_eq_ok.1 h
  split at h
  · obtain ⟨o, ho, h⟩ := Outcome.bind_eq_ok.1 h
    cases o with
    | none => cases h
    | some y =>
      have hy := hs _ _ ho
      have hp := congrArg Prod.fst (Outcome.ok.inj h)
      dsimp only at hp
      generalize ht : (if (if lsb y = true then 1 else 0) ≠ (l.1 - 48).toNat then -y else y) = t at hp
      have htt : t * t = y * y := by
        rw [← ht]
        generalize (if lsb y = true then 1 else 0 : Nat) = n
        split <;> ring
      subst hp
      refine ⟨?_, by simp [Bn128.isSpecial]⟩
      simp only [Bn128.isWellFormed, Bn128.isZero, one_ne_zero, decide_false, Bool.false_eq_true, if_false, decide_eq_true_eq]
      linear_combination hy + htt
  · have hp : Bn128.zero = p := congrArg Prod.fst (Outcome.ok.inj h)
    subst hp
    constructor <;> simp [Bn128.isWellFormed, Bn128.isSpecial, Bn128.isZero, Bn128.zero]

/-- **C63.** The `sqrt` of the bn128 groups returns only roots, in all builds and also on zero and on non-squares (where it returns
nothing). -/
theorem C63_bn128_sqrt [Fintype K] {s tm : Nat} {z : K} (hs : 0 < s) (hcard : Fintype.card K = 2 ^ s * (2 * tm + 1) + 1)
    (hz : z ^ 2 ^ (s - 1) = -1) (debug : Bool) (fuel : Nat) (hf : s ≤ fuel) (x y : K)
    (h : Bn128.sqrt debug s tm z fuel x = .ok (some y)) : y * y = x ∧ x ≠ 0 := by
  by_cases h0 : x = 0
  · subst h0
    cases debug
    · rw [(Bn128.sqrt_zero s tm z fuel).2] at h; cases h
    · rw [(Bn128.sqrt_zero s tm z fuel).1] at h; cases h
  by_cases hx : IsSquare x
  · obtain ⟨w, h1, h2⟩ := Bn128.sqrt_square hs hcard hz debug x hx h0
    rw [h2 fuel hf] at h
    have := Option.some.inj (Outcome.ok.inj h)
    exact ⟨this ▸ h1, h0⟩
  · cases debug
    · rw [(Bn128.sqrt_nonsquare hs hcard hz fuel x hx).2] at h; cases h
    · rw [(Bn128.sqrt_nonsquare hs hcard hz fuel x hx).1] at h; cases h

end

/-- **C63.** `bn128_G1`: whatever the bytes, an element that is returned is on the curve. -/
theorem C63_bn128_G1 {binary debug : Bool} {fuel : Nat} (hf : bn128_Fq_s ≤ fuel) {c : FieldCodec alt_bn128_Fq}
    {lsb : alt_bn128_Fq → Bool} {s rest : List Byte} {p : Coord3 alt_bn128_Fq}
    (h : Bn128.read binary true c lsb bn128_b (Bn128.sqrtG1 debug fuel) s = .ok (p, rest)) :
    Bn128.isWellFormed bn128_b p = true ∧ Bn128.isSpecial p = true := by
  obtain ⟨h1, h2, h3⟩ := C61_sqrt_constants_g1
  exact C63_bn128_compressed (fun x y e => (C63_bn128_sqrt h1 h2 h3 debug fuel hf x y e).1) h

/-- **C63.** `bn128_G2`. -/
theorem C63_bn128_G2 {binary debug : Bool} {fuel : Nat} (hf : bn128_Fq2_s ≤ fuel) {c : FieldCodec alt_bn128_Fq2}
    {lsb : alt_bn128_Fq2 → Bool} {s rest : List Byte} {p : Coord3 alt_bn128_Fq2}
    (h : Bn128.read binary true c lsb bn128_twist_b (Bn128.sqrtG2 debug fuel) s = .ok (p, rest)) :
    Bn128.isWellFormed bn128_twist_b p = true ∧ Bn128.isSpecial p = true := by
  obtain ⟨h1, h2, h3⟩ := C61_sqrt_constants_g2
  exact C63_bn128_compressed (fun x y e => (C63_bn128_sqrt h1 h2 h3 debug fuel hf x y e).1) h

/-- **C63.** Vectors of `bn128_G1` and `bn128_G2`. -/
theorem C63_bn128_vectors {binary debug : Bool} {fuel : Nat} (hf : bn128_Fq_s ≤ fuel) (hf' : bn128_Fq2_s ≤ fuel)
    {c : FieldCodec alt_bn128_Fq} {c' : FieldCodec alt_bn128_Fq2} {lsb : alt_bn128_Fq → Bool} {lsb' : alt_bn128_Fq2 → Bool}
    {s rest : List Byte} :
    (∀ v, vecRead binary (Bn128.read binary true c lsb bn128_b (Bn128.sqrtG1 debug fuel)) s = .ok (v, rest) →
      (∃ s', readSize s = .ok (v.length, s')) ∧ ∀ p ∈ v, Bn128.isWellFormed bn128_b p = true) ∧
    (∀ v, vecRead binary (Bn128.read binary true c' lsb' bn128_twist_b (Bn128.sqrtG2 debug fuel)) s = .ok (v, rest) →
      (∃ s', readSize s = .ok (v.length, s')) ∧ ∀ p ∈ v, Bn128.isWellFormed bn128_twist_b p = true) :=
  ⟨fun v h => C63_vector (fun _ _ _ h => (C63_bn128_G1 hf h).1) binary s v rest h,
    fun v h => C63_vector (fun _ _ _ h => (C63_bn128_G2 hf' h).1) binary s v rest h⟩

/-- There are bytes that are read as a vector of one non-zero element. -/
example : ∃ s v p, vecRead false (Jac.read false true (fpObjCodec false false alt_bn128_Fq_params 254) (fpLsb alt_bn128_Fq_params)
    (fieldSqrt true alt_bn128_Fq_sqrt 1) alt_bn128_b) s = .ok (v, []) ∧ p ∈ v ∧ Jac.isZero p = false := by
  obtain ⟨P, hP, ho⟩ := C52_alt_bn128_G1_generator.2.2.2.2
  obtain ⟨w, ⟨out, -, h2⟩, h3⟩ := C39_jacobian_g1_vector alt_bn128_Fq_params false false true true 254
    (C52_bit_size alt_bn128_Fq_data C52_alt_bn128_prime_fields.2) alt_bn128_Fq_sqrt alt_bn128_Fq_sqrt_valid 1 (by decide)
    alt_bn128_b (List.Forall₂.cons hP List.Forall₂.nil) (by decide)
  obtain ⟨q, l, hq, hl, rfl⟩ := List.forall₂_cons_right_iff.1 h3
  refine ⟨out, q :: l, q, by simpa using h2 [] trivial, by simp, ?_⟩
  rw [← Bool.not_eq_true, Jac.isZero_rep hq]
  rintro rfl
  rw [addOrderOf_zero] at ho
  exact absurd ho (by decide +kernel)
end Libff
