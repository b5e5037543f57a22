import Verif.Model.CurveIO
import Verif.Spec.CurveIO
import Verif.Lemmas.Containers
import Verif.Lemmas.CurveBatch
import Verif.Lemmas.CurveEdwRep
import Verif.Props.Containers
import Verif.Props.Algorithms

/-! # Reading back written points -/
namespace Libff
open WeierstrassCurve WeierstrassCurve.Affine

theorem writeNat_bool (b : Bool) : ∃ d : Byte, writeNat (if b then 1 else 0) = [d] ∧ (d - 48).toNat = (if b then 1 else 0) ∧
    isSpace d = false := by
  cases b
  · exact ⟨48, by decide, by decide, by decide⟩
  · refine ⟨49, ?_, by decide, by decide⟩
    simp [writeNat, decDigits, digitCode]

theorem consumeOutputSeparator_sep (binary : Bool) (s : List Byte) :
    consumeOutputSeparator binary (outputSeparator binary ++ s) = .ok s := by
  cases binary <;> rfl

theorem readRaw_cons (d : Byte) (s : List Byte) : readRaw (d :: s) = .ok (d, s) := rfl

theorem writeY_true {K : Type} (c : FieldCodec K) {lsb : K → Outcome Bool} {y : K} {b : Bool} (h : lsb y = .ok b) :
    writeY true c lsb y = .ok (writeNat (if b then 1 else 0)) := by
  rw [writeY, if_pos rfl, h, Outcome.map_ok]

theorem writeY_false {K : Type} (c : FieldCodec K) (lsb : K → Outcome Bool) (y : K) :
    writeY false c lsb y = c.write y := rfl

section
variable {K : Type} [Field K]

theorem pickRoot_eq {lsb : K → Outcome Bool} {y t : K} {b : Bool} {d : Byte} (hb : lsb y = .ok b)
    (hs : y = 0 ∨ lsb (-y) = .ok (!b)) (hd : (d - 48).toNat = (if b then 1 else 0)) (ht : t * t = y * y) :
    pickRoot lsb d t = .ok y := by
  have h : (t - y) * (t + y) = 0 := by linear_combination ht
  rcases mul_eq_zero.1 h with h | h
  · have : t = y := sub_eq_zero.1 h
    subst this
    rw [pickRoot, hb, Outcome.map_ok, hd]
    simp
  · have : t = -y := eq_neg_of_add_eq_zero_left h
    subst this
    rcases hs with rfl | hs
    · have hb' : lsb (-0) = .ok b := by rw [neg_zero]; exact hb
      rw [pickRoot, hb']
      simp
    · rw [pickRoot, hs, Outcome.map_ok, hd]
      cases b <;> simp

variable [DecidableEq K] [Squared K] [LawfulSquared K] [InverseO K] [LawfulInverse K]
variable {binary compress : Bool} {c : FieldCodec K} {lsb : K → Outcome Bool} {sqrt : K → Outcome K}

theorem swRead_swWrite {valid : K → Prop} (hc : StreamLaw binary valid c.write c.read)
    {isZero : Coord3 K → Bool} {toAffine : Coord3 K → Outcome (Coord3 K)} {zero : Coord3 K} {rhs : K → K}
    {g copy : Coord3 K} (ha : toAffine g = .ok copy) (hvx : valid copy.X) (hvy : valid copy.Y)
    (hcase : (isZero copy = true ∧ copy = zero) ∨ (isZero copy = false ∧ copy.Z = 1 ∧ rhs copy.X = copy.Y * copy.Y))
    (hs : compress = true → SignBit lsb copy.Y) (hq : compress = true → SqrtLaw sqrt) :
    ReadsBack (PointCont binary compress) (swWrite binary compress c lsb isZero toAffine)
      (swRead binary compress c lsb sqrt zero rhs) g copy := by
  obtain ⟨ox, hox, hrx⟩ := hc _ hvx
  obtain ⟨dz, hdz, hdz', hdz''⟩ := writeNat_bool (isZero copy)
  have hz : dz - 48 = 0 ↔ isZero copy = false := by
    rw [← BitVec.toNat_inj, hdz']
    cases isZero copy <;> simp
  cases compress with
  | true =>
    obtain ⟨b, hb, hsb⟩ := hs rfl
    obtain ⟨db, hdb, hdb', -⟩ := writeNat_bool b
    refine ⟨_, by rw [swWrite, ha, Outcome.bind_ok, hox, Outcome.bind_ok, writeY_true c hb,
      Outcome.map_ok], fun rest _ => ?_⟩
    rw [swRead, if_pos rfl, hdz, hdb]
    simp only [List.append_assoc, List.cons_append, List.nil_append, readRaw_cons, Outcome.bind_ok,
      consumeOutputSeparator_sep]
    rw [show ox ++ (outputSeparator binary ++ db :: rest) = [] ++ (ox ++ (outputSeparator binary ++ db :: rest)) from rfl,
      hrx [] _ (by simp) (fun _ => rfl) (sep_cont _ _)]
    simp only [Outcome.bind_ok, consumeOutputSeparator_sep, readRaw_cons]
    rcases hcase with ⟨h1, h2⟩ | ⟨h1, h2, h3⟩
    · rw [if_neg (by rw [hz, h1]; simp), h2]
    · obtain ⟨t, ht, ht'⟩ := hq rfl copy.Y
      rw [if_pos (hz.2 h1), h3, ht, Outcome.bind_ok, pickRoot_eq hb hsb hdb' ht', Outcome.map_ok, ← h2]
  | false =>
    obtain ⟨oy, hoy, hry⟩ := hc _ hvy
    refine ⟨_, by rw [swWrite, ha, Outcome.bind_ok, hox, Outcome.bind_ok, writeY_false, hoy,
      Outcome.map_ok], fun rest hrest => ?_⟩
    have hcont : ContOk binary rest := by
      rcases hrest with h | h
      · cases h
      · exact h
    rw [swRead, if_neg (by simp), hdz]
    simp only [List.append_assoc, List.cons_append, List.nil_append, readCharSkip]
    rw [List.dropWhile_cons_of_neg (by simp [hdz'']), readRaw_cons, Outcome.bind_ok]
    simp only
    rw [hrx _ _ (sep_space binary) (by rintro rfl; rfl) (sep_cont _ _), Outcome.bind_ok]
    simp only
    rw [hry _ _ (sep_space binary) (by rintro rfl; rfl) hcont, Outcome.map_ok]
    simp only
    rcases hcase with ⟨h1, h2⟩ | ⟨h1, h2, h3⟩
    · rw [if_neg (by rw [hz, h1]; simp), h2]
    · rw [if_pos (hz.2 h1), ← h2]

variable {a b : K}

theorem Jac.read_write {valid : K → Prop} (hv : ∀ x, valid x) (hc : StreamLaw binary valid c.write c.read)
    (hq : compress = true → SqrtLaw sqrt) {p : Coord3 K} {P : (sw 0 b).Point} (hp : JacRep p P)
    (hs : compress = true → (P = 0 → SignBit lsb (1 : K)) ∧ ∀ x y h, P = Point.some x y h → SignBit lsb y) :
    ∃ q, Jac.toAffine p = .ok q ∧ ReadsBack (PointCont binary compress) (Jac.write binary compress c lsb)
      (Jac.read binary compress c lsb sqrt b) p q := by
  rcases Jac.toAffine_rep hp with ⟨h0, e⟩ | ⟨x, y, hP, rfl, e⟩
  · exact ⟨_, e, swRead_swWrite hc e (hv _) (hv _) (Or.inl ⟨by simp [Jac.isZero], rfl⟩) (fun h => (hs h).1 h0) hq⟩
  · refine ⟨_, e, swRead_swWrite hc e (hv _) (hv _) (Or.inr ⟨by simp [Jac.isZero], rfl, ?_⟩)
      (fun h => (hs h).2 x y hP rfl) hq⟩
    have := weier_equation.1 hP.1
    simp only [LawfulSquared.squared_eq]
    linear_combination -this

theorem Proj.read_write {valid : K → Prop} (hv : ∀ x, valid x) (hc : StreamLaw binary valid c.write c.read)
    (hq : compress = true → SqrtLaw sqrt) {p : Coord3 K} {P : (sw a b).Point} (hp : ProjRep p P)
    (hs : compress = true → (P = 0 → SignBit lsb (1 : K)) ∧ ∀ x y h, P = Point.some x y h → SignBit lsb y) :
    ∃ q, Proj.toAffine p = .ok q ∧ ReadsBack (PointCont binary compress) (Proj.write binary compress c lsb)
      (Proj.read binary compress c lsb sqrt a b) p q := by
  rcases Proj.toAffine_rep hp with ⟨h0, e⟩ | ⟨x, y, hP, rfl, e⟩
  · exact ⟨_, e, swRead_swWrite hc e (hv _) (hv _) (Or.inl ⟨by simp [Proj.isZero], rfl⟩) (fun h => (hs h).1 h0) hq⟩
  · refine ⟨_, e, swRead_swWrite hc e (hv _) (hv _) (Or.inr ⟨by simp [Proj.isZero], rfl, ?_⟩)
      (fun h => (hs h).2 x y hP rfl) hq⟩
    have := weier_equation.1 hP.1
    simp only [LawfulSquared.squared_eq]
    linear_combination -this

theorem edwOn_denom {a d x y : K} (hc : a - d ≠ 0) (h : EdwOn a d x y) : 1 - d * (x * x) ≠ 0 := by
  intro h0
  have h' : a * x ^ 2 + y ^ 2 = 1 + d * x ^ 2 * y ^ 2 := h
  have h1 : (a - d) * (x * x) = 0 := by linear_combination h' + (1 - y ^ 2) * h0
  rcases mul_eq_zero.1 h1 with h1 | h1
  · exact hc h1
  · rw [h1] at h0; simp at h0

theorem edwOn_root {a d x y : K} (hc : a - d ≠ 0) (h : EdwOn a d x y) :
    (1 - a * (x * x)) * (1 - d * (x * x))⁻¹ = y * y := by
  have h0 := edwOn_denom hc h
  have h' : a * x ^ 2 + y ^ 2 = 1 + d * x ^ 2 * y ^ 2 := h
  rw [mul_inv_eq_iff_eq_mul₀ h0]
  linear_combination -h'

theorem Edw.readAffine_write {valid : K → Prop} (hv : ∀ x, valid x) (hc : StreamLaw binary valid c.write c.read)
    {mulA mulD : K → K} {d : K} (hA : ∀ x, mulA x = a * x) (hD : ∀ x, mulD x = d * x) (hcad : a - d ≠ 0)
    {g : Coord3 K} {x y : K} (hg : Edw.toAffine g = .ok ⟨x, y, 1⟩) (hon : EdwOn a d x y)
    (hs : compress = true → SignBit lsb y) (hq : compress = true → SqrtLaw sqrt) :
    ∃ out, Edw.write binary compress c lsb g = .ok out ∧ ∀ rest, PointCont binary compress rest →
      Edw.readAffine binary compress c lsb sqrt mulA mulD (out ++ rest) = .ok ((x, y), rest) := by
  obtain ⟨ox, hox, hrx⟩ := hc x (hv x)
  cases compress with
  | true =>
    obtain ⟨b, hb, hsb⟩ := hs rfl
    obtain ⟨db, hdb, hdb', -⟩ := writeNat_bool b
    refine ⟨_, by rw [Edw.write, hg, Outcome.bind_ok, hox, Outcome.bind_ok, writeY_true c hb,
      Outcome.map_ok], fun rest _ => ?_⟩
    rw [Edw.readAffine, hdb]
    simp only [List.append_assoc, List.cons_append, List.nil_append]
    rw [show ox ++ (outputSeparator binary ++ db :: rest) = [] ++ (ox ++ (outputSeparator binary ++ db :: rest)) from rfl,
      hrx [] _ (by simp) (fun _ => rfl) (sep_cont _ _)]
    obtain ⟨t, ht, ht'⟩ := hq rfl y
    simp only [Outcome.bind_ok, consumeOutputSeparator_sep, readRaw_cons, if_true, LawfulSquared.squared_eq, hA, hD,
      LawfulInverse.inverseO_ne _ (edwOn_denom hcad hon), edwOn_root hcad hon, ht, pickRoot_eq hb hsb hdb' ht',
      Outcome.map_ok]
  | false =>
    obtain ⟨oy, hoy, hry⟩ := hc y (hv y)
    refine ⟨_, by rw [Edw.write, hg, Outcome.bind_ok, hox, Outcome.bind_ok, writeY_false, hoy,
      Outcome.map_ok], fun rest hrest => ?_⟩
    have hcont : ContOk binary rest := by
      rcases hrest with h | h
      · cases h
      · exact h
    rw [Edw.readAffine]
    simp only [List.append_assoc]
    rw [show ox ++ (outputSeparator binary ++ (oy ++ rest)) = [] ++ (ox ++ (outputSeparator binary ++ (oy ++ rest))) from rfl,
      hrx [] _ (by simp) (fun _ => rfl) (sep_cont _ _)]
    simp only [Outcome.bind_ok, consumeOutputSeparator_sep, Bool.false_eq_true, if_false]
    rw [show oy ++ rest = [] ++ (oy ++ rest) from rfl, hry [] _ (by simp) (fun _ => rfl) hcont, Outcome.map_ok]

end

/-- Vectors of points. -/
theorem vecRead_readsBack {α : Type} {binary compress : Bool} {write : α → Outcome (List Byte)} {read : Reader α}
    {v w : List α} (h : List.Forall₂ (ReadsBack (PointCont binary compress) write read) v w) (hl : v.length < 2 ^ 64) :
    ReadsBack (fun _ => True) (vecWrite binary write) (vecRead binary read) v w := by
  have key : ∃ out, writeList write (outputNewline binary) v = .ok out ∧
      ∀ rest, readList read (consumeOutputNewline binary) v.length (out ++ rest) = .ok (w, rest) := by
    clear hl
    induction h with
    | nil => exact ⟨[], rfl, fun rest => rfl⟩
    | cons hx _ ih =>
      obtain ⟨a, h1, h2⟩ := hx
      obtain ⟨b, h3, h4⟩ := ih
      refine ⟨a ++ (outputNewline binary ++ b), by rw [writeList, h1, Outcome.bind_ok, h3, Outcome.map_ok],
        fun rest => ?_⟩
      have hcont : PointCont binary compress (outputNewline binary ++ (b ++ rest)) := by
        cases binary with
        | true => exact Or.inr (Or.inl rfl)
        | false => exact Or.inr (Or.inr (newline_tokenEnd _))
      have ha : consumeOutputNewline binary (outputNewline binary ++ (b ++ rest)) = .ok (b ++ rest) := by
        cases binary <;> rfl
      rw [List.length_cons, readList, List.append_assoc, List.append_assoc, h2 _ hcont, Outcome.bind_ok, ha,
        Outcome.bind_ok, h4, Outcome.map_ok]
  obtain ⟨out, h1, h2⟩ := key
  refine ⟨_, by rw [vecWrite, h1, Outcome.map_ok], fun rest _ => ?_⟩
  rw [vecRead]
  simp only [List.append_assoc]
  rw [show writeNat v.length ++ (newline ++ (out ++ rest)) = [] ++ (writeNat v.length ++ (newline ++ (out ++ rest)))
    from rfl, readSize_line _ hl [] _ (by simp), Outcome.bind_ok, consumeNewline_newline, Outcome.bind_ok]
  exact h2 rest

/-! ## The laws for the concrete base fields -/

theorem sqrtLaw_fieldSqrt {K : Type} [Field K] [Fintype K] [DecidableEq K] [Squared K] [LawfulSquared K]
    (C : SqrtConsts K) (hC : C.Valid) (debug : Bool) (fuel : Nat) (hf : C.s ≤ fuel) :
    SqrtLaw (fieldSqrt debug C fuel) := fun y => by
  obtain ⟨x, h1, h2⟩ := C09_sqrt_of_square C hC debug squared LawfulSquared.squared_eq (y * y) ⟨y, rfl⟩
  exact ⟨x, by rw [fieldSqrt, h2 fuel hf, Outcome.bind_ok], h1⟩

section
variable (P : FpParams) [hP : Fact P.Valid]

theorem fpObjCodec_lawful (mont binary : Bool) (bits : Nat) (hb : BitSize P bits) :
    (fpObjCodec mont binary P bits).Lawful binary (fun _ => True) P.n := by
  have h := C24_fp P hP.out mont binary bits hb
  constructor
  · intro x _
    obtain ⟨out, h1, h2⟩ := h.stream x.repr ⟨x.len, x.lt⟩
    refine ⟨out, h1, fun pre rest h3 h4 h5 => ?_⟩
    have h6 : fpRead mont binary P (pre ++ (out ++ rest)) = .ok (x.repr, rest) := h2 pre rest h3 h4 h5
    simp only [fpObjCodec, h6, Outcome.bind_ok]
    rw [dif_pos ⟨x.len, x.lt⟩]
  · intro x old _
    obtain ⟨w, h1, h2, h3⟩ := h.words x.repr old.repr ⟨x.len, x.lt⟩
    refine ⟨w, h1, h2, ?_⟩
    have h6 : fromWords mont P bits w = .ok (x.repr, true) := h3
    simp only [fpObjCodec, h6, Outcome.bind_ok]
    rw [dif_pos ⟨x.len, x.lt⟩]

/-- The low bit of an element is the parity of its canonical representative. -/
theorem fpLsb_eq (y : Fp P) : fpLsb P y = .ok (y.toZMod.val % 2 == 1) := by
  have : NeZero P.p := hP.out.neZero
  obtain ⟨r, h1, h2, h3, h4⟩ := C05_as_bigint P hP.out y.repr _ y.represents
  rw [fpLsb, h1, Outcome.map_ok]
  have hv : y.toZMod.val = val r := by
    rw [← h4, ZMod.val_natCast, Nat.mod_eq_of_lt h3]
  rw [hv]
  cases r with
  | nil => have := hP.out.n_pos; simp at h2; omega
  | cons x r =>
    simp only [List.headD_cons, val, Outcome.ok.injEq]
    have : x.getLsbD 0 = decide (x.toNat % 2 = 1) := by
      rw [BitVec.getLsbD, Nat.testBit_zero]
    rw [this]
    have h64 : (x.toNat + 2 ^ 64 * val r) % 2 = x.toNat % 2 := by omega
    rw [h64]
    rfl

theorem p_odd : P.p % 2 = 1 := by
  have h := hP.out.inv
  by_contra h0
  have h2 : P.p % 2 = 0 := by omega
  have : (P.inv.toNat * P.p + 1) % 2 = 1 := by
    rw [Nat.add_mod, Nat.mul_mod, h2]; simp
  omega

theorem fpLsb_neg (y : Fp P) (hy : y ≠ 0) : fpLsb P (-y) = .ok (!(y.toZMod.val % 2 == 1)) := by
  have hne : NeZero P.p := hP.out.neZero
  have hz : y.toZMod ≠ 0 := fun h => hy (Fp.toZMod_injective (h.trans Fp.toZMod_zero.symm))
  rw [fpLsb_eq, Fp.toZMod_neg]
  have : NeZero y.toZMod := ⟨hz⟩
  rw [ZMod.val_neg_of_ne_zero]
  have h1 := ZMod.val_lt y.toZMod
  have h2 := p_odd P
  congr 1
  rw [Bool.eq_iff_iff]
  simp only [beq_iff_eq, Bool.not_eq_true']
  rw [beq_eq_false_iff_ne]
  omega

theorem fp_signBit (y : Fp P) : SignBit (fpLsb P) y := by
  refine ⟨_, fpLsb_eq P y, ?_⟩
  by_cases h : y = 0
  · exact Or.inl h
  · exact Or.inr (fpLsb_neg P y h)

theorem fp2_signBit {nr : Fp P → Fp P} (y : Quad (Fp P) nr) (h : y.c0 ≠ 0 ∨ y = 0) : SignBit (fp2Lsb P) y := by
  refine ⟨_, fpLsb_eq P y.c0, ?_⟩
  rcases h with h | h
  · exact Or.inr (fpLsb_neg P y.c0 h)
  · exact Or.inl h

theorem fp3_signBit {nr : Fp P → Fp P} (y : Cubic (Fp P) nr) (h : y.c0 ≠ 0 ∨ y = 0) : SignBit (fp3Lsb P) y := by
  refine ⟨_, fpLsb_eq P y.c0, ?_⟩
  rcases h with h | h
  · exact Or.inr (fpLsb_neg P y.c0 h)
  · exact Or.inl h

end
end Libff
