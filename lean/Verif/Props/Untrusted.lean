import Verif.Lemmas.StreamInt
import Verif.Props.CurveIO
import Verif.Props.FpIO
import Verif.Lemmas.MillerDouble
import Verif.Model.Params

/-!
# C63: what reading guarantees about bytes from an unknown source

The round trip properties (C12, C24, C39) speak about streams that were written by the library. Here the stream is
arbitrary: `s` ranges over all byte lists.
-/
namespace Libff
open WeierstrassCurve WeierstrassCurve.Affine

/-! ## Field elements -/

/-- **C63.** `in >> x` for a prime field element in the default format succeeds exactly on the streams that start with an
integer `v` of at most `n` words. Whatever `v` is, the object then holds the reduced representative of `v mod p`. -/
theorem C63_fp_read (P : FpParams) (hP : P.Valid) (binary : Bool) (s : List Byte) (a : List Limb) (rest : List Byte) :
    fpRead false binary P s = .ok (a, rest) ↔
      ∃ v, StartsWithInt binary P.n s v rest ∧ v < 2 ^ (64 * P.n) ∧ Represents P a (v : ZMod P.p) := by
  have key : ∀ v, v < 2 ^ (64 * P.n) → ∃ r, mulReduce P (limbsOf P.n v) P.Rsquared = .ok r ∧ Represents P r (v : ZMod P.p) := by
    intro v hv
    have hl : (limbsOf P.n v).length = P.n := by simp
    have hval : val (limbsOf P.n v) = v := by rw [val_limbsOf, Nat.mod_eq_of_lt hv]
    have := Represents.mulReduce_raw hP hl hP.r2len (by exact lt_pR hP hl hP.r2_lt) (z := ((v : Nat) : ZMod P.p))
      (by rw [hP.r2_cast, hval]; ring)
    exact this
  rw [fpRead]
  simp only [Bool.false_eq_true, if_false]
  constructor
  · intro h
    cases h' : bigintRead binary P.n s with
    | ok r =>
      obtain ⟨v, h1, h2, h3⟩ := (bigintRead_iff binary P.n s r.1 r.2).1 h'
      rw [h', Outcome.bind_ok, h3] at h
      obtain ⟨a', h4, h5⟩ := key v h2
      rw [h4, Outcome.map_ok] at h
      have h6 := Outcome.ok.inj h
      have h7 : a' = a := congrArg Prod.fst h6
      have h8 : r.2 = rest := congrArg Prod.snd h6
      exact ⟨v, h8 ▸ h1, h2, h7 ▸ h5⟩
    | abort => rw [h'] at h; cases h
    | ub => rw [h'] at h; cases h
  · rintro ⟨v, h1, h2, h3⟩
    obtain ⟨a', h4, h5⟩ := key v h2
    rw [(bigintRead_iff binary P.n s _ rest).2 ⟨v, h1, h2, rfl⟩, Outcome.bind_ok, h4, Outcome.map_ok, h5.inj h3]

/-- The text "5 " is read as 5, the text "x" is refused. -/
example : fpRead false false alt_bn128_Fq_params [53, 32] = .ok (limbsOf 4 (5 * 2 ^ 256 % alt_bn128_Fq_params.p), [32]) ∧
    fpRead false false alt_bn128_Fq_params [120] = .abort := by decide +kernel

/-- **C63.** So what is read is always a valid object. -/
theorem C63_fp_read_valid (P : FpParams) (hP : P.Valid) (binary : Bool) (s : List Byte) (a : List Limb) (rest : List Byte)
    (h : fpRead false binary P s = .ok (a, rest)) : a.length = P.n ∧ val a < P.p := by
  obtain ⟨v, -, -, h3⟩ := (C63_fp_read P hP binary s a rest).1 h
  exact ⟨h3.len, h3.lt⟩

/-- **C63.** Encodings are not unique: `v` and `v + p` are read as the same element, for every `v` with `v + p` below
`2^(64 n)` (which includes every element of a field with a clear top bit). -/
theorem C63_fp_two_encodings (P : FpParams) (hP : P.Valid) (binary : Bool) (v : Nat) (hv : v < P.p) :
    ∃ a, fpRead false binary P (bigintWrite binary (limbsOf P.n v)) = .ok (a, []) ∧
      fpRead false binary P (bigintWrite binary (limbsOf P.n (v + P.p))) = .ok (a, []) ∧
      bigintWrite binary (limbsOf P.n v) ≠ bigintWrite binary (limbsOf P.n (v + P.p)) := by
  have hb := hP.topBit
  have hp := hP.one_lt
  have key : ∀ w, w < 2 ^ (64 * P.n) → ∃ a, fpRead false binary P (bigintWrite binary (limbsOf P.n w)) = .ok (a, []) ∧
      Represents P a (w : ZMod P.p) ∧ bigintRead binary P.n (bigintWrite binary (limbsOf P.n w)) = .ok (limbsOf P.n w, []) := by
    intro w hw
    have h1 := bigintRead_write binary (limbsOf P.n w) [] (Or.inr (by simp [TokenEnd]))
    have hl : (limbsOf P.n w).length = P.n := by simp
    rw [List.append_nil, hl] at h1
    obtain ⟨u, h2, h3, h4⟩ := (bigintRead_iff _ _ _ _ _).1 h1
    have hu : w = u := by
      have := congrArg val h4
      rwa [val_limbsOf, val_limbsOf, Nat.mod_eq_of_lt hw, Nat.mod_eq_of_lt h3] at this
    subst hu
    have hm := Represents.mulReduce_raw hP hl hP.r2len (by exact lt_pR hP hl hP.r2_lt) (z := ((w : Nat) : ZMod P.p))
      (by rw [hP.r2_cast, val_limbsOf, Nat.mod_eq_of_lt hw]; ring)
    obtain ⟨a, -, h6⟩ := hm
    exact ⟨a, (C63_fp_read P hP binary _ _ _).2 ⟨w, h2, hw, h6⟩, h6, h1⟩
  obtain ⟨a, h1, h2, h3⟩ := key v (by omega)
  obtain ⟨a', h4, h5, h6⟩ := key (v + P.p) (by omega)
  have h7 : a' = a := h5.inj (by rw [Nat.cast_add, ZMod.natCast_self, add_zero]; exact h2)
  refine ⟨a, h1, h7 ▸ h4, fun he => ?_⟩
  rw [he, h6] at h3
  have h8 : limbsOf P.n (v + P.p) = limbsOf P.n v := congrArg Prod.fst (Outcome.ok.inj h3)
  have h9 := congrArg val h8
  rw [val_limbsOf, val_limbsOf, Nat.mod_eq_of_lt (by omega), Nat.mod_eq_of_lt (by omega)] at h9
  omega

/-- **C63.** In `MONTGOMERY_OUTPUT` builds the words are stored unchecked: for every valid modulus there is a stream whose
reading succeeds with an object that is not reduced. -/
theorem C63_fp_mont_unchecked (P : FpParams) (hP : P.Valid) (binary : Bool) :
    ∃ s a, fpRead true binary P s = .ok (a, []) ∧ ¬ val a < P.p := by
  have hb := hP.topBit
  have hp := hP.one_lt
  have h1 := bigintRead_write binary (limbsOf P.n P.p) [] (Or.inr (by simp [TokenEnd]))
  rw [List.append_nil, show (limbsOf P.n P.p).length = P.n by simp] at h1
  refine ⟨_, limbsOf P.n P.p, by rw [fpRead, h1, Outcome.bind_ok]; rfl, ?_⟩
  rw [val_limbsOf, Nat.mod_eq_of_lt (by omega)]
  omega

/-! ## Points -/

/-- What `sqrt` returns is a root. -/
def SqrtSound {K : Type} [Mul K] (sqrt : K → Outcome K) : Prop := ∀ a y, sqrt a = .ok y → y * y = a

/-- The square roots of the field classes are sound, in all builds and also on non-squares. -/
theorem fieldSqrt_sound {K : Type} [Field K] [Fintype K] [DecidableEq K] [Squared K] [LawfulSquared K]
    (C : SqrtConsts K) (hC : C.Valid) (debug : Bool) (fuel : Nat) (hf : C.s ≤ fuel) :
    SqrtSound (fieldSqrt debug C fuel) := fun a y h => by
  rw [fieldSqrt] at h
  cases h' : tonelliShanks debug squared C fuel a with
  | ok o =>
    rw [h', Outcome.bind_ok] at h
    cases o with
    | some x =>
      have := Outcome.ok.inj h
      exact this ▸ C10_returned_root_correct C hC debug squared LawfulSquared.squared_eq a x fuel hf h'
    | none => cases h
  | abort => rw [h'] at h; cases h
  | ub => rw [h'] at h; cases h

section
variable {K : Type} [Field K] [DecidableEq K] [Squared K] [LawfulSquared K] [InverseO K] [LawfulInverse K]
  {binary : Bool} {c : FieldCodec K} {lsb : K → Outcome Bool} {sqrt : K → Outcome K} {a b d : K}

omit [DecidableEq K] [Squared K] [LawfulSquared K] [InverseO K] [LawfulInverse K] in
theorem pickRoot_sq {l : Byte} {t y : K} (h : pickRoot lsb l t = .ok y) : y * y = t * t := by
  rw [pickRoot] at h
  cases h' : lsb t with
  | ok v =>
    rw [h', Outcome.map_ok] at h
    have := Outcome.ok.inj h
    rw [← this]
    generalize (if v = true then 1 else 0 : Nat) = n
    split <;> ring
  | abort => rw [h'] at h; cases h
  | ub => rw [h'] at h; cases h

omit [Squared K] [LawfulSquared K] [InverseO K] [LawfulInverse K] in
theorem swRead_compressed (hs : SqrtSound sqrt) {zero : Coord3 K} {rhs : K → K} {s : List Byte} {p : Coord3 K}
    {rest : List Byte} (h : swRead binary true c lsb sqrt zero rhs s = .ok (p, rest)) :
    p = zero ∨ (p.Z = 1 ∧ p.Y * p.Y = rhs p.X) := by
  rw [swRead, if_pos rfl] at h
  obtain ⟨z, -, h⟩ := Outcome.bind_eq_ok.1 h
  obtain ⟨s1, -, h⟩ := Outcome.bind_eq_ok.1 h
  obtain ⟨x, -, h⟩ := Outcome.bind_eq_ok.1 h
  obtain ⟨s2, -, h⟩ := Outcome.bind_eq_ok.1 h
  obtain ⟨l, -, h⟩ := Outcome.bind_eq_ok.1 h
  split at h
  · obtain ⟨t, ht, h⟩ := Outcome.bind_eq_ok.1 h
    obtain ⟨y, hy, h⟩ := Outcome.map_eq_ok.1 h
    have hp : (⟨x.1, y, 1⟩ : Coord3 K) = p := congrArg Prod.fst h
    subst hp
    exact Or.inr ⟨rfl, (pickRoot_sq hy).trans (hs _ _ ht)⟩
  · have hp : zero = p := congrArg Prod.fst (Outcome.ok.inj h)
    exact Or.inl hp.symm

/-- **C63.** Jacobian classes, compressed format: from whatever bytes, an element that is returned passes
`is_well_formed` and is in affine form. -/
theorem C63_jacobian_compressed (hs : SqrtSound sqrt) {s : List Byte} {p : Coord3 K} {rest : List Byte}
    (h : Jac.read binary true c lsb sqrt b s = .ok (p, rest)) :
    Jac.isWellFormed b p = true ∧ Jac.isSpecial p = true := by
  rcases swRead_compressed hs h with rfl | ⟨h1, h2⟩
  · constructor <;> simp [Jac.isWellFormed, Jac.isSpecial, Jac.isZero, Jac.zero]
  · refine ⟨?_, by simp [Jac.isSpecial, h1]⟩
    rw [LawfulSquared.squared_eq] at h2
    simp only [Jac.isWellFormed, Jac.isZero, h1, one_ne_zero, decide_false, Bool.false_eq_true, if_false,
      LawfulSquared.squared_eq, decide_eq_true_eq]
    linear_combination h2

/-- **C63.** The projective classes. -/
theorem C63_projective_compressed (hs : SqrtSound sqrt) {s : List Byte} {p : Coord3 K} {rest : List Byte}
    (h : Proj.read binary true c lsb sqrt a b s = .ok (p, rest)) :
    Proj.isWellFormed a b p = true ∧ Proj.isSpecial p = true := by
  rcases swRead_compressed hs h with rfl | ⟨h1, h2⟩
  · constructor <;> simp [Proj.isWellFormed, Proj.isSpecial, Proj.isZero, Proj.zero]
  · refine ⟨?_, by simp [Proj.isSpecial, h1]⟩
    rw [LawfulSquared.squared_eq] at h2
    simp only [Proj.isWellFormed, Proj.isZero, h1, one_ne_zero, and_false, decide_false, Bool.false_eq_true, if_false,
      LawfulSquared.squared_eq, decide_eq_true_eq]
    linear_combination h2

/-- **C63.** The Edwards classes: the affine coordinates that were read satisfy the curve equation, and the object passes
`is_well_formed`. -/
theorem C63_edwards_compressed (hs : SqrtSound sqrt) {mulA mulD : K → K} (hA : ∀ x, mulA x = a * x) (hD : ∀ x, mulD x = d * x)
    {debug mixed : Bool} {s : List Byte} {p : Coord3 K} {rest : List Byte}
    (h : Edw.read binary true c lsb sqrt debug mixed mulA mulD s = .ok (p, rest)) :
    (∃ x y, Edw.readAffine binary true c lsb sqrt mulA mulD s = .ok ((x, y), rest) ∧ EdwOn a d x y) ∧
      Edw.isWellFormed mulA mulD p = true := by
  rw [Edw.read] at h
  obtain ⟨⟨⟨x, y⟩, r⟩, h1, h⟩ := Outcome.bind_eq_ok.1 h
  have h1' := h1
  rw [Edw.readAffine] at h1
  obtain ⟨x', -, h1⟩ := Outcome.bind_eq_ok.1 h1
  obtain ⟨s1, -, h1⟩ := Outcome.bind_eq_ok.1 h1
  rw [if_pos rfl] at h1
  obtain ⟨l, -, h1⟩ := Outcome.bind_eq_ok.1 h1
  obtain ⟨i, hi, h1⟩ := Outcome.bind_eq_ok.1 h1
  obtain ⟨t, ht, h1⟩ := Outcome.bind_eq_ok.1 h1
  obtain ⟨y', hy, h1⟩ := Outcome.map_eq_ok.1 h1
  have e1 : x'.1 = x := congrArg (fun q => q.1.1) h1
  have e2 : y' = y := congrArg (fun q => q.1.2) h1
  subst e1 e2
  have hyy := (pickRoot_sq hy).trans (hs _ _ ht)
  rw [hA, hD, LawfulSquared.squared_eq] at *
  have hon : EdwOn a d x'.1 y' := by
    by_cases h0 : 1 - d * (x'.1 * x'.1) = 0
    · rw [h0, LawfulInverse.inverseO_zero] at hi; cases hi
    · rw [LawfulInverse.inverseO_ne _ h0] at hi
      have := Outcome.ok.inj hi
      subst this
      rw [EdwOn]
      have h2 : y' * y' * (1 - d * (x'.1 * x'.1)) = 1 - a * (x'.1 * x'.1) := by
        rw [hyy, mul_assoc, inv_mul_cancel₀ h0, mul_one]
      linear_combination h2
  have hon' : a * (x'.1 * x'.1) + y' * y' = 1 + d * (x'.1 * x'.1) * (y' * y') := by
    rw [EdwOn] at hon; linear_combination hon
  have hr : r = rest ∧ Edw.isWellFormed mulA mulD p = true := by
    cases mixed with
    | false =>
      have h := Outcome.ok.inj h
      have e3 : (⟨y', x'.1, x'.1 * y'⟩ : Coord3 K) = p := congrArg Prod.fst h
      refine ⟨congrArg Prod.snd h, ?_⟩
      subst e3
      simp only [Edw.isWellFormed, LawfulSquared.squared_eq, hA, hD]
      split
      · rfl
      · rw [decide_eq_true_eq]
        linear_combination (x'.1 * y') ^ 2 * hon'
    | true =>
      rw [if_pos rfl] at h
      obtain ⟨g, hg, h⟩ := Outcome.map_eq_ok.1 h
      have e3 : g = p := congrArg Prod.fst h
      refine ⟨congrArg Prod.snd h, ?_⟩
      subst e3
      rw [Edw.toSpecial] at hg
      split at hg
      · have := Outcome.ok.inj hg
        subst this
        simp only [Edw.isWellFormed, LawfulSquared.squared_eq, hA, hD]
        split
        · rfl
        · rw [decide_eq_true_eq]
          linear_combination (x'.1 * y') ^ 2 * hon'
      · rename_i hz
        rw [LawfulInverse.inverseO_ne _ hz, Outcome.bind_ok] at hg
        have hz' : x'.1 * y' ≠ 0 := hz
        have hx0 : x'.1 ≠ 0 := left_ne_zero_of_mul hz'
        have hy0 : y' ≠ 0 := right_ne_zero_of_mul hz'
        simp only at hg
        split at hg
        · cases hg
        · have := Outcome.ok.inj hg
          subst this
          simp only [Edw.isWellFormed, LawfulSquared.squared_eq, hA, hD]
          split
          · rfl
          · rw [decide_eq_true_eq]
            field_simp
            linear_combination hon'
  exact ⟨⟨_, _, hr.1 ▸ h1', hon⟩, hr.2⟩

/-- **C63.** Compressed format: an abscissa without a point on the curve yields no element. (In a release build the
square root search does not end, whatever bound `fuel` is set, in a debug build an assertion fails.) -/
theorem C63_off_curve_no_element {K : Type} [Field K] [Fintype K] [DecidableEq K] [Squared K] [LawfulSquared K]
    (C : SqrtConsts K) (hC : C.Valid) (debug : Bool) (fuel : Nat) (a : K) (ha : ¬ IsSquare a) :
    fieldSqrt debug C fuel a = .abort := by
  rw [fieldSqrt]
  cases debug with
  | false => rw [C10_diverges_on_nonsquare C hC squared LawfulSquared.squared_eq a ha]; rfl
  | true => rw [C10_debug_aborts_on_nonsquare C hC squared LawfulSquared.squared_eq a ha]; rfl

/-- **C63.** `NO_PT_COMPRESSION` builds check nothing: every pair of field elements is read as an element, on the curve or
not. -/
theorem C63_uncompressed_unchecked (hc : StreamLaw binary (fun _ => True) c.write c.read) (x y : K) :
    ReadsBack (PointCont binary false) (Jac.write binary false c lsb) (Jac.read binary false c lsb sqrt b) ⟨x, y, 1⟩ ⟨x, y, 1⟩ ∧
    ReadsBack (PointCont binary false) (Proj.write binary false c lsb) (Proj.read binary false c lsb sqrt a b)
      ⟨x, y, 1⟩ ⟨x, y, 1⟩ := by
  have h1 : ∀ (zero : Coord3 K) (rhs : K → K), swRead binary false c lsb sqrt zero rhs =
      swRead binary false c lsb sqrt zero fun _ => y * y := fun _ _ => rfl
  constructor
  · rw [Jac.read, h1]
    exact swRead_swWrite hc (copy := ⟨x, y, 1⟩)
      (by simp [Jac.toAffine, Jac.isZero, LawfulInverse.inverseO_ne _ (one_ne_zero (α := K)), LawfulSquared.squared_eq])
      trivial trivial (Or.inr ⟨by simp [Jac.isZero], rfl, rfl⟩) (fun h => by cases h) (fun h => by cases h)
  · rw [Proj.read, h1]
    exact swRead_swWrite hc (copy := ⟨x, y, 1⟩)
      (by simp [Proj.toAffine, Proj.isZero, LawfulInverse.inverseO_ne _ (one_ne_zero (α := K))])
      trivial trivial (Or.inr ⟨by simp [Proj.isZero], rfl, rfl⟩) (fun h => by cases h) (fun h => by cases h)

/-- **C63.** For instance `(0, 0)`, which is on no curve with `b ≠ 0`. -/
theorem C63_uncompressed_wrong (hc : StreamLaw binary (fun _ => True) c.write c.read) (hb : b ≠ 0) :
    (∃ s p, Jac.read binary false c lsb sqrt b s = .ok (p, []) ∧ Jac.isWellFormed b p = false) ∧
    (∃ s p, Proj.read binary false c lsb sqrt a b s = .ok (p, []) ∧ Proj.isWellFormed a b p = false) := by
  have hr : PointCont binary false [] := Or.inr (Or.inr (by simp [TokenEnd]))
  obtain ⟨⟨o1, -, h1⟩, ⟨o2, -, h2⟩⟩ := C63_uncompressed_unchecked (lsb := lsb) (sqrt := sqrt) (a := a) (b := b) hc 0 0
  refine ⟨⟨o1, _, by simpa using h1 [] hr, ?_⟩, ⟨o2, _, by simpa using h2 [] hr, ?_⟩⟩
  · simp [Jac.isWellFormed, Jac.isZero, LawfulSquared.squared_eq, hb, eq_comm]
  · simp [Proj.isWellFormed, Proj.isZero, LawfulSquared.squared_eq, hb]

end
end Libff
