import Verif.Spec.Canonical
import Verif.Lemmas.CurveIO
import Verif.Lemmas.Bn128

/-! # Outputs identify elements -/
namespace Libff
open WeierstrassCurve WeierstrassCurve.Affine

/-- A codec that reads back what it writes. -/
theorem StreamLaw.identifies {α : Type} {binary : Bool} {valid : α → Prop} {write : α → Outcome (List Byte)} {read : Reader α}
    (h : StreamLaw binary valid write read) : Identifies (ContOk binary) write valid (fun x y => x = y) := by
  refine ⟨fun p hp => (h p hp).imp fun _ h => h.1, ?_⟩
  rintro p q out out' rest rest' hp hq e e' hr hr'
  refine ⟨fun he => ?_, ?_⟩
  · obtain ⟨o, h1, h2⟩ := h p hp
    obtain ⟨o', h3, h4⟩ := h q hq
    obtain rfl := Outcome.ok.inj (e.symm.trans h1)
    obtain rfl := Outcome.ok.inj (e'.symm.trans h3)
    have h5 := h2 [] rest (by simp) (fun _ => rfl) hr
    have h6 := h4 [] rest' (by simp) (fun _ => rfl) hr'
    rw [List.nil_append, he] at h5
    rw [List.nil_append] at h6
    have h7 := Outcome.ok.inj (h5.symm.trans h6)
    exact ⟨congrArg Prod.fst h7, congrArg Prod.snd h7⟩
  · rintro ⟨rfl, rfl⟩
    rw [Outcome.ok.inj (e.symm.trans e')]

theorem Identifies.congr {α : Type} {ok : List Byte → Prop} {write : α → Outcome (List Byte)} {Den Den' : α → Prop}
    {Same Same' : α → α → Prop} (h : Identifies ok write Den Same) (hd : ∀ p, Den' p → Den p)
    (hs : ∀ p q, Den' p → Den' q → (Same p q ↔ Same' p q)) : Identifies ok write Den' Same' :=
  ⟨fun p hp => h.1 p (hd p hp), fun p q out out' rest rest' hp hq e e' hr hr' => by
    rw [h.2 p q out out' rest rest' (hd p hp) (hd q hq) e e' hr hr', hs p q hp hq]⟩

theorem writeNat_bool_inj {a b : Bool} {s t : List Byte}
    (h : writeNat (if a then 1 else 0) ++ s = writeNat (if b then 1 else 0) ++ t) : a = b ∧ s = t := by
  obtain ⟨d, h1, h2, -⟩ := writeNat_bool a
  obtain ⟨d', h3, h4, -⟩ := writeNat_bool b
  rw [h1, h3] at h
  simp only [List.cons_append, List.nil_append, List.cons.injEq] at h
  obtain ⟨rfl, rfl⟩ := h
  refine ⟨?_, rfl⟩
  rw [h2] at h4
  cases a <;> cases b <;> simp_all

/-- The two halves of a written affine point. -/
theorem pointBytes_iff {K : Type} {binary compress : Bool} {c : FieldCodec K} {lsb : K → Outcome Bool}
    (hc : Identifies (ContOk binary) c.write (fun _ => True) (fun x y => x = y)) {x y x' y' : K} {ox oy ox' oy' : List Byte} {rest rest' : List Byte}
    (hx : c.write x = .ok ox) (hx' : c.write x' = .ok ox') (hy : writeY compress c lsb y = .ok oy) (hy' : writeY compress c lsb y' = .ok oy')
    (hr : PointCont binary compress rest) (hr' : PointCont binary compress rest') :
    ox ++ (outputSeparator binary ++ oy) ++ rest = ox' ++ (outputSeparator binary ++ oy') ++ rest' ↔
      (x = x' ∧ (if compress then lsb y = lsb y' else y = y')) ∧ rest = rest' := by
  simp only [List.append_assoc]
  rw [hc.2 x x' ox ox' _ _ trivial trivial hx hx' (sep_cont _ _) (sep_cont _ _), List.append_cancel_left_eq, and_assoc]
  refine and_congr_right fun _ => ?_
  cases compress with
  | true =>
    simp only [writeY, if_true] at hy hy' ⊢
    cases h : lsb y <;> cases h' : lsb y' <;> simp only [h, h', Outcome.map, Outcome.bind, Outcome.ok.injEq, reduceCtorEq] at hy hy'
    subst hy hy'
    rename_i b b'
    rw [Outcome.ok.injEq]
    refine ⟨writeNat_bool_inj, ?_⟩
    rintro ⟨rfl, rfl⟩
    rfl
  | false =>
    simp only [writeY, if_false, Bool.false_eq_true] at hy hy' ⊢
    have h1 : ContOk binary rest := hr.resolve_left (by simp)
    have h2 : ContOk binary rest' := hr'.resolve_left (by simp)
    exact hc.2 y y' oy oy' _ _ trivial trivial hy hy' h1 h2

section
variable {K : Type} [Field K] [DecidableEq K] [Squared K] [LawfulSquared K] [InverseO K] [LawfulInverse K]
variable {binary compress : Bool} {c : FieldCodec K} {lsb : K → Outcome Bool}

omit [DecidableEq K] [Squared K] [LawfulSquared K] [InverseO K] [LawfulInverse K] in
theorem writeY_total (hc : Identifies (ContOk binary) c.write (fun _ => True) (fun x y => x = y)) (hl : ∀ y, ∃ b, lsb y = .ok b) (y : K) :
    ∃ o, writeY compress c lsb y = .ok o := by
  cases compress with
  | true =>
    obtain ⟨b, hb⟩ := hl y
    exact ⟨_, writeY_true c hb⟩
  | false => exact hc.1 y trivial

/-- `P` and `Q` are equal, or the format is compressed, they are negatives and the low bit does not tell them apart. -/
def SwSame (compress : Bool) (lsb : K → Outcome Bool) {a b : K} (P Q : (sw a b).Point) : Prop :=
  P = Q ∨ (compress = true ∧ P = -Q ∧ ∃ x y h, P = Point.some x y h ∧ lsb (-y) = lsb y)

omit [Squared K] [LawfulSquared K] [InverseO K] [LawfulInverse K] [DecidableEq K] in
theorem swSame_some {a b x y x' y' : K} (h : (sw a b).Nonsingular x y) (h' : (sw a b).Nonsingular x' y') :
    SwSame compress lsb (Point.some x y h) (Point.some x' y' h') ↔ x = x' ∧ (if compress then lsb y = lsb y' else y = y') := by
  rw [SwSame, Point.neg_some]
  simp only [Point.some.injEq]
  have hn : ∀ x y : K, (sw a b).negY x y = -y := fun x y => by simp [negY, sw, weier]
  have hy : x = x' → y' = y ∨ y' = -y := fun e => by
    subst e
    have e1 := weier_equation.1 h.1
    have e2 := weier_equation.1 h'.1
    have : (y' - y) * (y' + y) = 0 := by linear_combination e2 - e1
    rcases mul_eq_zero.1 this with h | h
    · exact Or.inl (sub_eq_zero.1 h)
    · exact Or.inr (eq_neg_of_add_eq_zero_left h)
  constructor
  · rintro (⟨rfl, rfl⟩ | ⟨rfl, ⟨rfl, h1⟩, x1, y1, -, ⟨rfl, rfl⟩, h2⟩)
    · exact ⟨rfl, by split <;> rfl⟩
    · refine ⟨rfl, ?_⟩
      rw [hn] at h1
      have : y' = -y := by rw [h1, neg_neg]
      rw [if_pos rfl, this, h2]
  · rintro ⟨rfl, h1⟩
    rcases hy rfl with rfl | rfl
    · exact Or.inl ⟨rfl, rfl⟩
    · cases compress with
      | false => exact Or.inl ⟨rfl, by simpa using h1⟩
      | true =>
        refine Or.inr ⟨rfl, ⟨rfl, by rw [hn, neg_neg]⟩, x, y, h, ⟨rfl, rfl⟩, ?_⟩
        simpa using h1.symm

omit [Squared K] [LawfulSquared K] [InverseO K] [LawfulInverse K] in
/-- Short Weierstrass writers. -/
theorem swWrite_identifies {a b : K} {Rep : Coord3 K → (sw a b).Point → Prop} {isZero : Coord3 K → Bool}
    {toAffine : Coord3 K → Outcome (Coord3 K)} (hz : isZero ⟨0, 1, 0⟩ = true) (hnz : ∀ x y, isZero ⟨x, y, 1⟩ = false)
    (ha : ∀ p P, Rep p P → (P = 0 ∧ toAffine p = .ok ⟨0, 1, 0⟩) ∨ ∃ x y hP, P = Point.some x y hP ∧ toAffine p = .ok ⟨x, y, 1⟩)
    (hc : Identifies (ContOk binary) c.write (fun _ => True) (fun x y => x = y)) (hl : ∀ y, ∃ b, lsb y = .ok b) :
    (∀ p P, Rep p P → ∃ out, swWrite binary compress c lsb isZero toAffine p = .ok out) ∧
    ∀ p q P Q out out' rest rest', Rep p P → Rep q Q → swWrite binary compress c lsb isZero toAffine p = .ok out →
      swWrite binary compress c lsb isZero toAffine q = .ok out' → PointCont binary compress rest → PointCont binary compress rest' →
      (out ++ rest = out' ++ rest' ↔ SwSame compress lsb P Q ∧ rest = rest') := by
  have key : ∀ p P, Rep p P → ∃ copy ox oy, toAffine p = .ok copy ∧ c.write copy.X = .ok ox ∧ writeY compress c lsb copy.Y = .ok oy ∧
      swWrite binary compress c lsb isZero toAffine p =
        .ok (writeNat (if isZero copy then 1 else 0) ++ (outputSeparator binary ++ (ox ++ (outputSeparator binary ++ oy)))) := by
    intro p P hp
    have : ∃ copy, toAffine p = .ok copy := by
      rcases ha p P hp with ⟨-, e⟩ | ⟨x, y, hP, -, e⟩ <;> exact ⟨_, e⟩
    obtain ⟨copy, e⟩ := this
    obtain ⟨ox, hox⟩ := hc.1 copy.X trivial
    obtain ⟨oy, hoy⟩ := writeY_total (compress := compress) hc hl copy.Y
    exact ⟨copy, ox, oy, e, hox, hoy, by rw [swWrite, e, Outcome.bind_ok, hox, Outcome.bind_ok, hoy, Outcome.map_ok]⟩
  refine ⟨fun p P hp => ?_, ?_⟩
  · obtain ⟨_, _, _, -, -, -, h⟩ := key p P hp
    exact ⟨_, h⟩
  · rintro p q P Q out out' rest rest' hp hq e e' hr hr'
    obtain ⟨u, ox, oy, h1, h2, h3, h4⟩ := key p P hp
    obtain ⟨v, ox', oy', h5, h6, h7, h8⟩ := key q Q hq
    obtain rfl := Outcome.ok.inj (h4.symm.trans e)
    obtain rfl := Outcome.ok.inj (h8.symm.trans e')
    have hpb := pointBytes_iff hc h2 h6 h3 h7 hr hr'
    have step : (writeNat (if isZero u then 1 else 0) ++ (outputSeparator binary ++ (ox ++ (outputSeparator binary ++ oy))) ++ rest =
        writeNat (if isZero v then 1 else 0) ++ (outputSeparator binary ++ (ox' ++ (outputSeparator binary ++ oy'))) ++ rest') ↔
        (isZero u = isZero v ∧ u.X = v.X ∧ (if compress then lsb u.Y = lsb v.Y else u.Y = v.Y)) ∧ rest = rest' := by
      rw [and_assoc, ← hpb]
      simp only [List.append_assoc]
      constructor
      · intro he
        obtain ⟨h9, h10⟩ := writeNat_bool_inj he
        exact ⟨h9, List.append_cancel_left h10⟩
      · rintro ⟨h9, h10⟩
        rw [h9, h10]
    rw [step]
    refine and_congr_left fun _ => ?_
    rcases ha p P hp with ⟨h0, e1⟩ | ⟨x, y, hP, h0, e1⟩ <;> obtain rfl := Outcome.ok.inj (h1.symm.trans e1) <;>
      rcases ha q Q hq with ⟨h0', e2⟩ | ⟨x', y', hQ, h0', e2⟩ <;> obtain rfl := Outcome.ok.inj (h5.symm.trans e2) <;> subst h0 h0'
    · simp only [hz, true_and]
      exact ⟨fun _ => Or.inl rfl, fun _ => by simp⟩
    · simp only [hz, hnz, Bool.true_eq_false, false_and, false_iff]
      rintro (h | ⟨-, h, x1, y1, h11, h12, -⟩)
      · cases h
      · cases h12
    · simp only [hz, hnz, Bool.false_eq_true, false_and, false_iff]
      rintro (h | ⟨-, h, -⟩)
      · cases h
      · rw [neg_zero] at h; cases h
    · simp only [hnz, true_and]
      exact (swSame_some hP hQ).symm

/-- Edwards writers: the same `x`, and the same `y` or two negatives that the low bit does not tell apart. -/
theorem Edw.write_identifies {a d : K}
    (hc : Identifies (ContOk binary) c.write (fun _ => True) (fun x y => x = y)) (hl : ∀ y, ∃ b, lsb y = .ok b)
    (Den : Coord3 K → Prop) (hd : ∀ p, Den p → ∃ P : (edwW a d).Point, EdwRep p P) :
    Identifies (PointCont binary compress) (Edw.write binary compress c lsb) Den (fun p q => ∃ x y y', Edw.toAffine p = .ok ⟨x, y, 1⟩ ∧
      Edw.toAffine q = .ok ⟨x, y', 1⟩ ∧ (if compress then lsb y = lsb y' else y = y')) := by
  have key : ∀ p, Den p → ∃ x y ox oy, Edw.toAffine p = .ok ⟨x, y, 1⟩ ∧ c.write x = .ok ox ∧ writeY compress c lsb y = .ok oy ∧
      Edw.write binary compress c lsb p = .ok (ox ++ (outputSeparator binary ++ oy)) := by
    intro p hp
    obtain ⟨P, hp⟩ := hd p hp
    have : ∃ x y, Edw.toAffine p = .ok ⟨x, y, 1⟩ := by
      rcases Edw.toAffine_rep hp with ⟨-, e⟩ | ⟨-, e, -⟩ <;> exact ⟨_, _, e⟩
    obtain ⟨x, y, e⟩ := this
    obtain ⟨ox, hox⟩ := hc.1 x trivial
    obtain ⟨oy, hoy⟩ := writeY_total (compress := compress) hc hl y
    exact ⟨x, y, ox, oy, e, hox, hoy, by simp only [Edw.write, e, Outcome.bind_ok, hox, hoy, Outcome.map_ok]⟩
  refine ⟨fun p hp => ?_, ?_⟩
  · obtain ⟨_, _, _, _, -, -, -, h⟩ := key p hp
    exact ⟨_, h⟩
  · rintro p q out out' rest rest' hp hq e e' hr hr'
    obtain ⟨x, y, ox, oy, h1, h2, h3, h4⟩ := key p hp
    obtain ⟨x', y', ox', oy', h5, h6, h7, h8⟩ := key q hq
    obtain rfl := Outcome.ok.inj (h4.symm.trans e)
    obtain rfl := Outcome.ok.inj (h8.symm.trans e')
    rw [pointBytes_iff hc h2 h6 h3 h7 hr hr']
    beta_reduce
    rw [h1, h5]
    refine and_congr_left fun _ => ⟨?_, ?_⟩
    · rintro ⟨rfl, h⟩
      exact ⟨x, y, y', rfl, rfl, h⟩
    · rintro ⟨u, v, v', h9, h10, h⟩
      have h9 := Outcome.ok.inj h9
      have h10 := Outcome.ok.inj h10
      simp only [Coord3.mk.injEq, and_true] at h9 h10
      obtain ⟨rfl, rfl⟩ := h9
      obtain ⟨rfl, rfl⟩ := h10
      exact ⟨rfl, h⟩

end

/-- Equal points have the same affine form. -/
theorem Edw.toAffine_congr {K : Type} [Field K] [DecidableEq K] [InverseO K] [LawfulInverse K] (h2 : (2 : K) ≠ 0) {a d : K}
    (had : a - d ≠ 0) {p q : Coord3 K} {P : (edwW a d).Point} (hp : EdwRep p P) (hq : EdwRep q P) : Edw.toAffine p = Edw.toAffine q := by
  rcases Edw.toAffine_rep hp with ⟨h0, e⟩ | ⟨h0, e, h⟩ <;> rcases Edw.toAffine_rep hq with ⟨h0', e'⟩ | ⟨h0', e', h'⟩
  · rw [e, e']
  · exact absurd h0 h0'
  · exact absurd h0' h0
  · obtain ⟨h3, h4⟩ := edwPt_inj h2 had h h'
    rw [e, e', h3, h4]

/-- Vectors. -/
theorem Identifies.vec {α : Type} {binary : Bool} {ok : List Byte → Prop} {write : α → Outcome (List Byte)} {Den : α → Prop}
    {Same : α → α → Prop} (h : Identifies ok write Den Same) (hok : ∀ s, ok (outputNewline binary ++ s)) :
    Identifies (fun _ => True) (vecWrite binary write) (fun v => (∀ p ∈ v, Den p) ∧ v.length < 2 ^ 64) (List.Forall₂ Same) := by
  have tot : ∀ v : List α, (∀ p ∈ v, Den p) → ∃ out, writeList write (outputNewline binary) v = .ok out := by
    intro v hv
    induction v with
    | nil => exact ⟨[], rfl⟩
    | cons x v ih =>
      obtain ⟨o, ho⟩ := h.1 x (hv x (by simp))
      obtain ⟨o', ho'⟩ := ih fun p hp => hv p (by simp [hp])
      exact ⟨o ++ (outputNewline binary ++ o'), by rw [writeList, ho, Outcome.bind_ok, ho', Outcome.map_ok]⟩
  have key : ∀ (v w : List α) (o o' rest rest' : List Byte), v.length = w.length → (∀ p ∈ v, Den p) → (∀ p ∈ w, Den p) →
      writeList write (outputNewline binary) v = .ok o → writeList write (outputNewline binary) w = .ok o' →
      (o ++ rest = o' ++ rest' ↔ List.Forall₂ Same v w ∧ rest = rest') := by
    intro v
    induction v with
    | nil =>
      rintro (_ | ⟨y, w⟩) o o' rest rest' hl - - e e'
      · obtain rfl : [] = o := Outcome.ok.inj e
        obtain rfl : [] = o' := Outcome.ok.inj e'
        simp
      · simp at hl
    | cons x v ih =>
      rintro (_ | ⟨y, w⟩) o o' rest rest' hl hv hw e e'
      · simp at hl
      · have hv' : ∀ p ∈ v, Den p := fun p hp => hv p (by simp [hp])
        have hw' : ∀ p ∈ w, Den p := fun p hp => hw p (by simp [hp])
        obtain ⟨a, ha⟩ := h.1 x (hv x (by simp))
        obtain ⟨b, hb⟩ := h.1 y (hw y (by simp))
        obtain ⟨t, ht⟩ := tot v hv'
        obtain ⟨t', ht'⟩ := tot w hw'
        rw [writeList, ha, Outcome.bind_ok, ht, Outcome.map_ok] at e
        rw [writeList, hb, Outcome.bind_ok, ht', Outcome.map_ok] at e'
        obtain rfl := Outcome.ok.inj e
        obtain rfl := Outcome.ok.inj e'
        rw [List.append_assoc, List.append_assoc, List.append_assoc, List.append_assoc,
          h.2 x y a b _ _ (hv x (by simp)) (hw y (by simp)) ha hb (hok _) (hok _), List.append_cancel_left_eq,
          ih w t t' rest rest' (by simpa using hl) hv' hw' ht ht', List.forall₂_cons, and_assoc]
  refine ⟨fun v hv => ?_, ?_⟩
  · obtain ⟨o, ho⟩ := tot v hv.1
    exact ⟨_, by rw [vecWrite, ho, Outcome.map_ok]⟩
  · rintro v w out out' rest rest' ⟨hv, hlv⟩ ⟨hw, hlw⟩ e e' - -
    obtain ⟨o, ho⟩ := tot v hv
    obtain ⟨o', ho'⟩ := tot w hw
    rw [vecWrite, ho, Outcome.map_ok] at e
    rw [vecWrite, ho', Outcome.map_ok] at e'
    obtain rfl := Outcome.ok.inj e
    obtain rfl := Outcome.ok.inj e'
    simp only [List.append_assoc]
    constructor
    · intro he
      have h1 := readSize_line _ hlv [] (o ++ rest) (by simp)
      have h2 := readSize_line _ hlw [] (o' ++ rest') (by simp)
      rw [List.nil_append, he] at h1
      rw [List.nil_append] at h2
      have h3 := Outcome.ok.inj (h1.symm.trans h2)
      have hlen : v.length = w.length := congrArg Prod.fst h3
      rw [hlen] at he
      exact (key v w o o' rest rest' hlen hv hw ho ho').1 (List.append_cancel_left (List.append_cancel_left he))
    · intro hs
      have hlen := hs.1.length_eq
      rw [hlen, (key v w o o' rest rest' hlen hv hw ho ho').2 hs]

theorem pointCont_newline (binary compress : Bool) (s : List Byte) : PointCont binary compress (outputNewline binary ++ s) := by
  cases binary with
  | true => exact Or.inr (Or.inl rfl)
  | false => exact Or.inr (Or.inr (newline_tokenEnd _))

theorem contOk_newline (binary : Bool) (s : List Byte) : ContOk binary (outputNewline binary ++ s) := by
  cases binary with
  | true => exact Or.inl rfl
  | false => exact Or.inr (newline_tokenEnd _)

/-- `Bn128.write` as an instance of the short Weierstrass writer. -/
theorem Bn128.write_eq {K : Type} [Field K] [DecidableEq K] (binary compress : Bool) (c : FieldCodec K) (lsb : K → Bool) (g : Coord3 K) :
    Bn128.write binary compress c lsb g =
      swWrite binary compress c (fun y => .ok (lsb y)) Bn128.isZero (fun g => .ok (Bn128.toAffine g)) g := by
  cases compress <;> rfl

end Libff
