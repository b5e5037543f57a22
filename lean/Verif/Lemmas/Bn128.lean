import Verif.Spec.Bn128
import Verif.Lemmas.CurveBatch
import Verif.Lemmas.CurveIO
import Verif.Lemmas.PairingIO

/-! # The bn128 group classes, given the external operations -/
namespace Libff.Bn128
open WeierstrassCurve Affine

variable {K : Type} [Field K] [DecidableEq K] {b : K} {E : EcOps K}

theorem isZero_eq (p : Coord3 K) : isZero p = Jac.isZero p := rfl

theorem isSpecial_eq (p : Coord3 K) : isSpecial p = Jac.isSpecial p := rfl

section
/-- `square` of the external fields. -/
local instance sqInst : Squared K := ⟨fun x => x * x⟩
local instance sqLaw : LawfulSquared K := ⟨fun _ => rfl⟩
local instance invInst : InverseO K := ⟨fun x => if x = 0 then .abort else .ok x⁻¹⟩
local instance invLaw : LawfulInverse K := ⟨by simp [inverseO], fun x hx => by simp [inverseO, hx]⟩

theorem squared_def (x : K) : squared x = x * x := rfl

theorem eq_eq (p q : Coord3 K) : eq p q = Jac.eq p q := by
  simp only [eq, Jac.eq, isZero_eq, squared_def, mul_comm (q.Z * q.Z) p.X, mul_comm (p.Z * p.Z) q.X,
    mul_comm (q.Z * q.Z) q.Z, mul_comm (p.Z * p.Z) p.Z, mul_comm (q.Z * (q.Z * q.Z)) p.Y, mul_comm (p.Z * (p.Z * p.Z)) q.Y,
    ne_eq, not_not]

theorem toAffine_eq (p : Coord3 K) : Jac.toAffine p = .ok (toAffine p) := by
  unfold Jac.toAffine toAffine
  rw [isZero_eq]
  by_cases hz : p.Z = 0
  · simp [Jac.isZero, hz]
  · have h1 : Jac.isZero p = false := by simpa [Jac.isZero] using hz
    simp only [h1, Bool.false_eq_true, if_false, LawfulInverse.inverseO_ne _ hz, Outcome.map_ok, squared_def]
    congr 2
    rw [mul_comm (p.Z⁻¹ * p.Z⁻¹)]

theorem isWellFormed_eq (p : Coord3 K) : isWellFormed b p = Jac.isWellFormed b p := by
  simp only [isWellFormed, Jac.isWellFormed, isZero_eq, squared_def, mul_comm (p.X * p.X) p.X, mul_comm (p.Z * p.Z) p.Z]

theorem batchProducts_eq (debug : Bool) (vec : List K) (acc : K) :
    batchProducts debug vec acc = Libff.batchProducts debug vec acc := by
  induction vec generalizing acc with
  | nil => rfl
  | cons x vec ih => rw [batchProducts, Libff.batchProducts, ih]

theorem batchBack_eq (l : List (K × K)) (acc : K) : batchBack l acc = Libff.batchBack l acc := by
  induction l generalizing acc with
  | nil => rfl
  | cons x l ih => rw [batchBack, Libff.batchBack, ih]

theorem batchInvert_ok (debug : Bool) (vec : List K) (h : ∀ x ∈ vec, x ≠ 0) :
    batchInvert debug vec = .ok (vec.map (·⁻¹)) := by
  have hp : vec.prod ≠ 0 := List.prod_ne_zero (fun h0 => h 0 h0 rfl)
  unfold batchInvert
  rw [batchProducts_eq, Libff.batchProducts_eq debug vec h, Outcome.map_ok]
  simp only
  rw [batchBack_eq, batchBack_prefProds vec h 1 one_ne_zero]

theorem scaleAll_eq (l : List (Coord3 K)) (zs : List K) : scaleAll l zs = Jac.scaleAll l zs := by
  induction l generalizing zs with
  | nil => cases zs <;> rfl
  | cons p l ih =>
    cases zs with
    | nil => rfl
    | cons z zs => simp only [scaleAll, Jac.scaleAll, ih, squared_def, mul_comm (z * z) z]

theorem isZero_rep {p : Coord3 K} {P : (sw 0 b).Point} (h : JacRep p P) : isZero p = true ↔ P = 0 := Jac.isZero_rep h

theorem eq_rep {p q : Coord3 K} {P Q : (sw 0 b).Point} (hp : JacRep p P) (hq : JacRep q Q) : eq p q = true ↔ P = Q := by
  rw [eq_eq]; exact Jac.eq_rep hp hq

theorem toAffine_rep {p : Coord3 K} {P : (sw 0 b).Point} (h : JacRep p P) :
    (P = 0 ∧ toAffine p = ⟨0, 1, 0⟩) ∨ ∃ x y hP, P = Point.some x y hP ∧ toAffine p = ⟨x, y, 1⟩ := by
  rcases Jac.toAffine_rep h with ⟨h0, e⟩ | ⟨x, y, hP, h0, e⟩ <;> rw [toAffine_eq] at e
  · exact Or.inl ⟨h0, Outcome.ok.inj e⟩
  · exact Or.inr ⟨x, y, hP, h0, Outcome.ok.inj e⟩

theorem isWellFormed_iff (hΔ : (sw 0 b).Δ ≠ 0) (p : Coord3 K) :
    isWellFormed b p = true ↔ ∃ P : (sw 0 b).Point, JacRep p P := by
  rw [isWellFormed_eq]; exact Jac.isWellFormed_iff hΔ p

theorem neg_rep {p : Coord3 K} {P : (sw 0 b).Point} (h : JacRep p P) : JacRep (neg p) (-P) := Jac.neg_rep h

theorem plus_rep (hE : E.Correct b) {p q : Coord3 K} {P Q : (sw 0 b).Point} (hp : JacRep p P) (hq : JacRep q Q) :
    JacRep (plus E p q) (P + Q) := by
  unfold plus
  by_cases h1 : isZero p = true
  · rw [if_pos h1, (isZero_rep hp).1 h1, zero_add]; exact hq
  by_cases h2 : isZero q = true
  · rw [if_neg h1, if_pos h2, (isZero_rep hq).1 h2, add_zero]; exact hp
  rw [if_neg h1, if_neg h2]
  by_cases h3 : eq p q = true
  · rw [if_pos h3, ← (eq_rep hp hq).1 h3]; exact hE.dbl hp
  · rw [if_neg h3]
    exact hE.add hp hq (fun h => h1 ((isZero_rep hp).2 h)) (fun h => h2 ((isZero_rep hq).2 h))
      (fun h => h3 ((eq_rep hp hq).2 h))

theorem sub_rep (hE : E.Correct b) {p q : Coord3 K} {P Q : (sw 0 b).Point} (hp : JacRep p P) (hq : JacRep q Q) :
    JacRep (sub E p q) (P - Q) := by
  rw [sub_eq_add_neg]; exact plus_rep hE hp (neg_rep hq)

theorem mixedAdd_rep (hE : E.Correct b) (h2 : (2 : K) ≠ 0) (debug : Bool) {p q : Coord3 K} {P Q : (sw 0 b).Point}
    (hp : JacRep p P) (hq : JacRep q Q) (hs : isSpecial q = true) :
    ∃ r, mixedAdd E debug p q = .ok r ∧ JacRep r (P + Q) := by
  unfold mixedAdd
  by_cases hz1 : isZero p = true
  · exact ⟨q, by rw [if_pos hz1], by rw [(isZero_rep hp).1 hz1, zero_add]; exact hq⟩
  by_cases hz2 : isZero q = true
  · exact ⟨p, by rw [if_neg hz1, if_pos hz2], by rw [(isZero_rep hq).1 hz2, add_zero]; exact hp⟩
  refine ⟨mixedAddRelease E p q, by rw [if_neg hz1, if_neg hz2, hs]; simp, ?_⟩
  have hZ : q.Z = 1 := by simpa [isSpecial, hz2] using hs
  have hJ := Jac.add_rep h2 hp hq
  have hpz : Jac.isZero p = false := by rw [← isZero_eq]; simpa using hz1
  have hqz : Jac.isZero q = false := by rw [← isZero_eq]; simpa using hz2
  by_cases h : p.X = q.X * (p.Z * p.Z) ∧ p.Y = q.Y * (p.Z * (p.Z * p.Z))
  · have he : eq p q = true := by
      rw [eq_eq]
      simp only [Jac.eq, hpz, hqz, hZ, squared_def, mul_one, Bool.false_eq_true, if_false]
      rw [if_neg (not_not.2 h.1)]
      simpa using h.2
    have : mixedAddRelease E p q = dbl E p := by simp only [mixedAddRelease]; rw [if_pos h]
    rw [this, ← (eq_rep hp hq).1 he]
    exact hE.dbl hp
  · have : mixedAddRelease E p q = Jac.add p q := by
      simp only [mixedAddRelease, Jac.add, hpz, hqz, hZ, squared_def, mul_one, Bool.false_eq_true, if_false]
      rw [if_neg h, if_neg h]
      ext
      · dsimp only; ring
      · dsimp only; ring
      · dsimp only; ring
    rw [this]
    exact hJ

/-- The operations of `bn128_G1` and `bn128_G2`, as the generic algorithms use them. -/
@[reducible] def ops (E : EcOps K) : GroupOps (Coord3 K) := ⟨zero, plus E, sub E, dbl E⟩

theorem implementsRel (hE : E.Correct b) : @ImplementsRel _ _ (ops E) _ (JacRep (W := sw 0 b)) :=
  letI : GroupOps (Coord3 K) := ops E
  { unique := Jac.rep_unique
    zero := rfl
    add := plus_rep hE
    sub := sub_rep hE
    dbl := hE.dbl }

theorem batchToSpecialNZ_rep (debug : Bool) (vec : List (Coord3 K)) (Ps : List (sw 0 b).Point)
    (h : List.Forall₂ JacRep vec Ps) (hnz : ∀ P ∈ Ps, P ≠ 0) :
    ∃ l, batchToSpecialNZ debug vec = .ok l ∧ List.Forall₂ JacRep l Ps ∧ ∀ p ∈ l, isSpecial p = true := by
  obtain ⟨l, h1, h2, h3⟩ := Jac.batchToSpecialNZ_rep debug vec Ps h hnz
  refine ⟨l, ?_, h2, h3⟩
  have hz : ∀ z ∈ vec.map (·.Z), z ≠ 0 := by
    clear h1 h2 h3
    induction h with
    | nil => simp
    | @cons p P ps Ps hp _ ih =>
      intro z hz
      rcases List.mem_cons.1 hz with rfl | hz
      · intro h0
        exact hnz P List.mem_cons_self (Jac.rep_of_Z hp h0)
      · exact ih (fun Q hQ => hnz Q (List.mem_cons_of_mem _ hQ)) z hz
  rw [Jac.batchToSpecialNZ, Libff.batchInvert_ok debug _ hz, Outcome.map_ok] at h1
  rw [batchToSpecialNZ, batchInvert_ok debug _ hz, Outcome.map_ok, scaleAll_eq, h1]

theorem toAffine_spec {p : Coord3 K} {P : (sw 0 b).Point} (h : JacRep p P) :
    JacRep (toAffine p) P ∧ isSpecial (toAffine p) = true := by
  rcases toAffine_rep h with ⟨rfl, e⟩ | ⟨x, y, hP, rfl, e⟩ <;> rw [e]
  · exact ⟨rfl, by simp [isSpecial, isZero]⟩
  · exact ⟨⟨one_ne_zero, by simp, by simp⟩, by simp [isSpecial]⟩

/-- The formulas of libff's own Jacobian classes meet the contract. -/
theorem jac_correct (h2 : (2 : K) ≠ 0) : EcOps.Correct ⟨Jac.add, Jac.dbl⟩ b :=
  ⟨fun hp hq _ _ _ => Jac.add_rep h2 hp hq, fun hp => Jac.dbl_rep h2 hp⟩

end

/-! ## Square roots -/

section
variable [Fintype K] {s tm : Nat} {z : K}

theorem ts_eq (tm : Nat) (a : K) :
    (a * a ^ tm) * a ^ tm = a ^ (2 * tm + 1) ∧ (a * a ^ tm) * (a * a ^ tm) = a * ((a * a ^ tm) * a ^ tm) := by
  constructor <;> ring

theorem charNe (hs : 0 < s) (hcard : Fintype.card K = 2 ^ s * (2 * tm + 1) + 1) : ringChar K ≠ 2 := by
  intro h
  have := FiniteField.even_card_of_char_two h
  rw [hcard] at this
  obtain ⟨k, rfl⟩ : ∃ k, s = k + 1 := ⟨s - 1, by omega⟩
  rw [pow_succ, mul_assoc, mul_left_comm] at this
  omega

theorem half (hs : 0 < s) (hcard : Fintype.card K = 2 ^ s * (2 * tm + 1) + 1) :
    Fintype.card K / 2 = (2 * tm + 1) * 2 ^ (s - 1) := by
  obtain ⟨k, rfl⟩ : ∃ k, s = k + 1 := ⟨s - 1, by omega⟩
  rw [hcard, Nat.add_sub_cancel, pow_succ]
  generalize 2 ^ k = e
  have : e * 2 * (2 * tm + 1) = 2 * ((2 * tm + 1) * e) := by ring
  omega

theorem sqrt_square (hs : 0 < s) (hcard : Fintype.card K = 2 ^ s * (2 * tm + 1) + 1) (hz : z ^ 2 ^ (s - 1) = -1) (debug : Bool)
    (a : K) (ha : IsSquare a) (h0 : a ≠ 0) :
    ∃ x, x * x = a ∧ ∀ fuel, s ≤ fuel → sqrt debug s tm z fuel a = .ok (some x) := by
  obtain ⟨h1, h2⟩ := ts_eq tm a
  have hb : (a * a ^ tm * a ^ tm) ^ 2 ^ (s - 1) = 1 := by
    rw [h1, ← pow_mul, ← half hs hcard]
    exact (FiniteField.isSquare_iff (charNe hs hcard) h0).1 ha
  obtain ⟨y, hy, hl⟩ := tsLoop_square (fun y => y * y) (fun _ => rfl) a s z _ _ hs h2 hb hz
  refine ⟨y, hy, fun fuel hf => ?_⟩
  simp only [sqrt]
  rw [if_neg, hl fuel fuel hf hf]
  rw [tsSquare_eq _ (fun _ => rfl), hb]
  simp

theorem sqrt_nonsquare (hs : 0 < s) (hcard : Fintype.card K = 2 ^ s * (2 * tm + 1) + 1) (hz : z ^ 2 ^ (s - 1) = -1) (fuel : Nat)
    (a : K) (ha : ¬ IsSquare a) : sqrt true s tm z fuel a = .abort ∧ sqrt false s tm z fuel a = .ok none := by
  have h0 : a ≠ 0 := by rintro rfl; exact ha ⟨0, by simp⟩
  obtain ⟨h1, h2⟩ := ts_eq tm a
  have hb : (a * a ^ tm * a ^ tm) ^ 2 ^ (s - 1) = -1 := by
    rw [h1, ← pow_mul, ← half hs hcard]
    rcases FiniteField.pow_dichotomy (charNe hs hcard) h0 with h | h
    · exact absurd ((FiniteField.isSquare_iff (charNe hs hcard) h0).2 h) ha
    · exact h
  have hne := Ring.neg_one_ne_one_of_char_ne_two (charNe hs hcard)
  constructor
  · simp only [sqrt]
    rw [if_pos]
    rw [tsSquare_eq _ (fun _ => rfl), hb]
    exact ⟨trivial, hne⟩
  · simp only [sqrt]
    rw [if_neg (by simp), tsLoop_nonsquare (fun y => y * y) (fun _ => rfl) hne _ _ hs _ _ _ _ hb]
    obtain ⟨k, rfl⟩ : ∃ k, s = k + 1 := ⟨s - 1, by omega⟩
    rw [Nat.add_sub_cancel] at hz
    rw [Nat.pow_succ, pow_mul, hz]
    norm_num

omit [Fintype K] in
theorem tsOrder_zero (fuel m : Nat) : tsOrder (fun y : K => y * y) fuel 0 m = none := by
  induction fuel generalizing m with
  | zero => rfl
  | succ fuel ih => rw [tsOrder, if_neg zero_ne_one, mul_zero, ih]

omit [DecidableEq K] [Fintype K] in
theorem tsSquare_zero (n : Nat) : tsSquare (fun y : K => y * y) n 0 = 0 := by
  induction n with
  | zero => rfl
  | succ n ih => rw [tsSquare, mul_zero, ih]

omit [Fintype K] in
theorem sqrt_zero (s tm : Nat) (z : K) (fuel : Nat) :
    sqrt true s tm z fuel 0 = .abort ∧ sqrt false s tm z fuel 0 = .ok none := by
  constructor
  · simp only [sqrt, zero_mul]
    rw [tsSquare_zero, if_pos ⟨trivial, zero_ne_one⟩]
  · simp only [sqrt, zero_mul]
    rw [if_neg (by simp)]
    cases fuel with
    | zero => rfl
    | succ fuel => rw [tsLoop, if_neg zero_ne_one, tsOrder_zero]

end

/-! ## Streams -/

/-- The square root finds a root of every square other than zero. -/
def SqrtNZ {K : Type} [Zero K] [Mul K] (sqrt : K → Outcome (Option K)) : Prop :=
  ∀ y : K, y ≠ 0 → ∃ x, sqrt (y * y) = .ok (some x) ∧ x * x = y * y

variable {binary compress : Bool} {c : FieldCodec K} {lsb : K → Bool} {sq : K → Outcome (Option K)}

/-- What reading back gives. -/
def normal (p : Coord3 K) : Coord3 K := if isZero p then zero else toAffine p

theorem normal_rep {p : Coord3 K} {P : (sw 0 b).Point} (h : JacRep p P) : JacRep (normal p) P := by
  unfold normal
  by_cases hz : isZero p = true
  · rw [if_pos hz, (isZero_rep h).1 hz]; rfl
  · rw [if_neg hz]; exact (toAffine_spec h).1

omit [DecidableEq K] in
theorem pick {y t : K} (hl : y ≠ 0 → lsb (-y) = !lsb y) (h0 : y ≠ 0) (d : Byte)
    (hd : (d - 48).toNat = (if lsb y then 1 else 0)) (ht : t * t = y * y) :
    (if (if lsb t then 1 else 0 : Nat) ≠ (d - 48).toNat then -t else t) = y := by
  have h : (t - y) * (t + y) = 0 := by linear_combination ht
  rw [hd]
  rcases mul_eq_zero.1 h with h | h
  · rw [sub_eq_zero.1 h]; simp
  · rw [eq_neg_of_add_eq_zero_left h, hl h0]
    cases lsb y <;> simp

theorem read_write (hc : StreamLaw binary (fun _ => True) c.write c.read) {p : Coord3 K} {P : (sw 0 b).Point} (hp : JacRep p P)
    (hq : compress = true → SqrtNZ sq)
    (hy : compress = true → ∀ x y h, P = Point.some x y h → y ≠ 0 ∧ lsb (-y) = !lsb y) :
    ReadsBack (PointCont binary compress) (write binary compress c lsb) (read binary compress c lsb b sq) p (normal p) := by
  obtain ⟨ox, hox, -, hrx, hrx', -⟩ := hc.get (x := (toAffine p).X) trivial
  obtain ⟨dz, hdz, hdz', hdz''⟩ := writeNat_bool (isZero (toAffine p))
  have hz : dz - 48 = 0 ↔ isZero (toAffine p) = false := by
    rw [← BitVec.toNat_inj, hdz']
    cases isZero (toAffine p) <;> simp
  have hcase : (isZero (toAffine p) = true ∧ normal p = zero) ∨ (isZero (toAffine p) = false ∧ normal p = toAffine p ∧
      ∃ x y hP, P = Point.some x y hP ∧ toAffine p = ⟨x, y, 1⟩) := by
    rcases toAffine_rep hp with ⟨h0, e⟩ | ⟨x, y, hP, h0, e⟩
    · refine Or.inl ⟨by simp [e, isZero], by rw [normal, if_pos ((isZero_rep hp).2 h0)]⟩
    · refine Or.inr ⟨by simp [e, isZero], ?_, x, y, hP, h0, e⟩
      rw [normal, if_neg]
      intro hz
      rw [(isZero_rep hp).1 hz] at h0
      cases h0
  cases compress with
  | true =>
    obtain ⟨db, hdb, hdb', -⟩ := writeNat_bool (lsb (toAffine p).Y)
    refine ⟨_, by simp only [write, hox, Outcome.bind_ok, if_true, Outcome.map_ok, hdz]; rfl, fun rest _ => ?_⟩
    rw [read, hdb]
    simp only [List.append_assoc, List.cons_append, List.nil_append, readRaw_cons, Outcome.bind_ok, if_true]
    rw [hrx' _ (sep_cont _ _)]
    simp only [Outcome.bind_ok, consumeOutputSeparator_sep, readRaw_cons]
    rcases hcase with ⟨h1, h2⟩ | ⟨h1, h2, x, y, hP, h3, h4⟩
    · rw [if_neg (by rw [hz, h1]; simp), h2]
    · rw [if_pos (hz.2 h1), h2]
      rw [h4] at hdb' ⊢
      obtain ⟨hy0, hyl⟩ := hy rfl x y hP h3
      obtain ⟨t, ht, ht'⟩ := hq rfl y hy0
      have he : x * x * x + b = y * y := by
        have := weier_equation.1 hP.1
        linear_combination -this
      simp only [he, ht, Outcome.bind_ok]
      rw [pick (fun _ => hyl) hy0 db hdb' ht']
  | false =>
    obtain ⟨oy, hoy, -, hry, hry', -⟩ := hc.get (x := (toAffine p).Y) trivial
    refine ⟨_, by simp only [write, hox, hoy, Outcome.bind_ok, Bool.false_eq_true, if_false, Outcome.map_ok, hdz]; rfl,
      fun rest hrest => ?_⟩
    have hcont : ContOk binary rest := by
      rcases hrest with h | h
      · cases h
      · exact h
    rw [read]
    simp only [List.append_assoc, List.cons_append, List.nil_append, readRaw_cons, Outcome.bind_ok, Bool.false_eq_true, if_false]
    rw [hrx' _ (sep_cont _ _)]
    simp only [Outcome.bind_ok]
    rw [hry' _ hcont]
    simp only [Outcome.map_ok]
    rcases hcase with ⟨h1, h2⟩ | ⟨h1, h2, x, y, hP, h3, h4⟩
    · rw [if_neg (by rw [hz, h1]; simp), h2]
    · rw [if_pos (hz.2 h1), h2, h4]

section
variable {F : Type} {nr : F → F} {c : FieldCodec F}

theorem fp2Codec_stream (hc : StreamLaw binary (fun _ => True) c.write c.read) :
    StreamLaw binary (fun _ => True) (fp2Codec (nr := nr) binary c).write (fp2Codec (nr := nr) binary c).read := by
  rintro ⟨x0, x1⟩ -
  obtain ⟨a, ha, ha', -⟩ := hc.get (x := x0) trivial
  obtain ⟨d, hd, -, -, hd', -⟩ := hc.get (x := x1) trivial
  refine ⟨_, by simp only [fp2Codec, ha, hd, Outcome.bind_ok, Outcome.map_ok]; rfl, fun pre rest hp hbin hr => ?_⟩
  simp only [fp2Codec, List.append_assoc]
  rw [ha' pre _ hp hbin (sep_cont binary _), Outcome.bind_ok]
  simp only
  rw [hd' _ hr, Outcome.map_ok]

theorem readElt_write (hc : StreamLaw binary (fun _ => True) c.write c.read) (x : F) :
    ∃ out, c.write x = .ok out ∧ ∀ rest, readElt binary c (out ++ (outputNewline binary ++ rest)) = .ok (x, rest) := by
  obtain ⟨a, ha, -, ha', -⟩ := hc.get (x := x) trivial
  refine ⟨a, ha, fun rest => ?_⟩
  have hcont : ContOk binary (outputNewline binary ++ rest) := by
    cases binary with
    | true => exact Or.inl rfl
    | false => exact Or.inr (newline_tokenEnd rest)
  rw [readElt, ha' _ hcont, Outcome.bind_ok]
  cases binary <;> rfl

theorem readSix_write (hc : StreamLaw binary (fun _ => True) c.write c.read) (p : Coord3 (Quad F nr)) :
    ∃ out, writeSix binary c p = .ok out ∧ ∀ rest, readSix binary c (out ++ rest) = .ok (p, rest) := by
  obtain ⟨⟨a, b⟩, ⟨d, e⟩, ⟨f, g⟩⟩ := p
  obtain ⟨oa, ha, ha'⟩ := readElt_write hc a
  obtain ⟨ob, hb, hb'⟩ := readElt_write hc b
  obtain ⟨od, hd, hd'⟩ := readElt_write hc d
  obtain ⟨oe, he, he'⟩ := readElt_write hc e
  obtain ⟨of, hf, hf'⟩ := readElt_write hc f
  obtain ⟨og, hg, hg'⟩ := readElt_write hc g
  refine ⟨_, by simp only [writeSix, writeList, ha, hb, hd, he, hf, hg, Outcome.bind_ok, Outcome.map_ok]; rfl, fun rest => ?_⟩
  simp only [readSix, List.append_assoc, ha', hb', hd', he', hf', hg', Outcome.bind_ok, Outcome.map_ok, List.nil_append]

theorem readG1Precomp_write (hc : StreamLaw binary (fun _ => True) c.write c.read) (p : Coord3 F) :
    ∃ out, writeG1Precomp binary c p = .ok out ∧ ∀ old rest, readG1Precomp binary c old (out ++ rest) = .ok (old, rest) := by
  obtain ⟨a, b, d⟩ := p
  obtain ⟨oa, ha, ha'⟩ := readElt_write hc a
  obtain ⟨ob, hb, hb'⟩ := readElt_write hc b
  obtain ⟨od, hd, hd'⟩ := readElt_write hc d
  refine ⟨_, by simp only [writeG1Precomp, writeList, ha, hb, hd, Outcome.bind_ok, Outcome.map_ok]; rfl, fun old rest => ?_⟩
  simp only [readG1Precomp, List.append_assoc, ha', hb', hd', Outcome.bind_ok, Outcome.map_ok, List.nil_append]

theorem readG2Precomp_write (hc : StreamLaw binary (fun _ => True) c.write c.read) (q : G2Precomp F nr)
    (hl : q.coeffs.length < 2 ^ 64) :
    ∃ out, writeG2Precomp binary c q = .ok out ∧
      ∀ old rest, readG2Precomp binary c old (out ++ rest) = .ok (⟨old.Q, q.coeffs⟩, rest) := by
  obtain ⟨oa, ha, ha'⟩ := readSix_write hc q.Q
  obtain ⟨ob, hb, hb'⟩ := readList_write (nl := []) (after := .ok) (write := writeSix (nr := nr) binary c)
    (read := readSix (nr := nr) binary c) q.coeffs (fun x _ => by
      obtain ⟨o, h1, h2⟩ := readSix_write hc x
      exact ⟨o, h1, fun rest => ⟨rest, h2 rest, rfl⟩⟩)
  refine ⟨_, by simp only [writeG2Precomp, ha, hb, Outcome.bind_ok, Outcome.map_ok]; rfl, fun old rest => ?_⟩
  have := readSize_line q.coeffs.length hl [] (ob ++ rest) (by simp)
  rw [List.nil_append] at this
  simp only [readG2Precomp, List.append_assoc, ha', this, consumeNewline_newline, hb', Outcome.bind_ok, Outcome.map_ok]

end

end Libff.Bn128
