import Verif.Model.Print
import Verif.Spec.Print
import Verif.Lemmas.Stream

namespace Libff.Print

theorem digitChar_inj {d e : Nat} (hd : d < 16) (he : e < 16) (h : Nat.digitChar d = Nat.digitChar e) : d = e := by
  have : ∀ d e : Fin 16, Nat.digitChar d = Nat.digitChar e → d = e := by decide +kernel
  exact congrArg Fin.val (this ⟨d, hd⟩ ⟨e, he⟩ h)

theorem map_digitChar_inj {ds es : List Nat} (hd : ∀ d ∈ ds, d < 16) (he : ∀ d ∈ es, d < 16)
    (h : ds.map Nat.digitChar = es.map Nat.digitChar) : ds = es := by
  induction ds generalizing es with
  | nil => cases es <;> simp_all
  | cons d ds ih =>
    cases es with
    | nil => simp at h
    | cons e es =>
      simp only [List.map_cons, List.cons.injEq] at h
      rw [digitChar_inj (hd d (by simp)) (he e (by simp)) h.1,
        ih (fun x hx => hd x (by simp [hx])) (fun x hx => he x (by simp [hx])) h.2]

theorem Numeral.inj {b : Nat} {t : List Char} {v w : Nat} (hb : b ≤ 16) (h : Numeral b t v) (h' : Numeral b t w) : v = w := by
  obtain ⟨ds, rfl, hd, -, -, rfl⟩ := h
  obtain ⟨es, e, he, -, -, rfl⟩ := h'
  rw [map_digitChar_inj (fun d h => (hd d h).trans_le hb) (fun d h => (he d h).trans_le hb) e]

theorem HexNumeral.inj {n : Nat} {t : List Char} {v w : Nat} (h : HexNumeral n t v) (h' : HexNumeral n t w) : v = w := by
  obtain ⟨ds, rfl, hd, -, rfl⟩ := h
  obtain ⟨es, e, he, -, rfl⟩ := h'
  rw [map_digitChar_inj hd he e]

theorem foldl_digits (b : Nat) (ds : List Nat) : ds.foldl (fun acc d => acc * b + d) 0 = Nat.ofDigits b ds.reverse := by
  induction ds using List.reverseRecOn with
  | nil => simp
  | append_singleton l x ih =>
    rw [List.foldl_append, List.foldl_cons, List.foldl_nil, ih, List.reverse_append,
      List.reverse_singleton, List.singleton_append, Nat.ofDigits_cons]
    simp [Nat.add_comm, Nat.mul_comm]

theorem number_numeral {b : Nat} (hb : 1 < b) (v : Nat) : Numeral b (number b v) v := by
  rcases Nat.eq_zero_or_pos v with rfl | hv
  · exact ⟨[0], rfl, by simp; omega, by simp, fun _ => rfl, by simp⟩
  · refine ⟨(Nat.digits b v).reverse, by rw [number, if_neg hv.ne'], ?_, ?_, ?_, ?_⟩
    · intro d hd
      exact Nat.digits_lt_base hb (List.mem_reverse.1 hd)
    · simp [Nat.digits_ne_nil_iff_ne_zero, hv.ne']
    · intro h
      rw [List.head?_reverse] at h
      have := Nat.getLast_digit_ne_zero b hv.ne'
      rw [List.getLast?_eq_getLast_of_ne_nil (Nat.digits_ne_nil_iff_ne_zero.2 hv.ne')] at h
      exact absurd (Option.some.inj h) this
    · rw [foldl_digits, List.reverse_reverse, Nat.ofDigits_digits]

theorem number_inj {b : Nat} (h1 : 1 < b) (hb : b ≤ 16) {v w : Nat} (h : number b v = number b w) : v = w :=
  (number_numeral h1 v).inj hb (h ▸ number_numeral h1 w)

theorem number_chars {v : Nat} {c : Char} (hc : c ∈ number 10 v) : c ∈ "0123456789".toList := by
  obtain ⟨ds, e, hd, -⟩ := number_numeral (b := 10) (by norm_num) v
  rw [e] at hc
  obtain ⟨d, h, rfl⟩ := List.mem_map.1 hc
  have : ∀ d : Fin 10, Nat.digitChar d ∈ "0123456789".toList := by decide +kernel
  exact this ⟨d, hd d h⟩

theorem number_chars16 {v : Nat} {c : Char} (hc : c ∈ number 16 v) : c ∈ "0123456789abcdef".toList := by
  obtain ⟨ds, e, hd, -⟩ := number_numeral (b := 16) (by norm_num) v
  rw [e] at hc
  obtain ⟨d, h, rfl⟩ := List.mem_map.1 hc
  have : ∀ d : Fin 16, Nat.digitChar d ∈ "0123456789abcdef".toList := by decide +kernel
  exact this ⟨d, hd d h⟩

theorem foldl_hex (v n acc : Nat) :
    (((List.range n).reverse).map fun i => v / 16 ^ i % 16).foldl (fun acc d => acc * 16 + d) acc = acc * 16 ^ n + v % 16 ^ n := by
  induction n generalizing acc with
  | zero => simp [Nat.mod_one]
  | succ n ih =>
    rw [List.range_succ, List.reverse_append, List.reverse_singleton, List.singleton_append, List.map_cons, List.foldl_cons, ih,
      Nat.mod_pow_succ]
    ring

theorem hex16_numeral (x : BitVec 64) : HexNumeral 16 (hex16 x) x.toNat := by
  refine ⟨((List.range 16).reverse).map fun i => x.toNat / 16 ^ i % 16, by simp [hex16], ?_, by simp, ?_⟩
  · intro d hd
    obtain ⟨i, -, rfl⟩ := List.mem_map.1 hd
    exact Nat.mod_lt _ (by norm_num)
  · rw [foldl_hex, Nat.zero_mul, Nat.zero_add, Nat.mod_eq_of_lt]
    exact x.isLt

theorem foldl_shift (ds : List Nat) (acc : Nat) :
    ds.foldl (fun acc d => acc * 16 + d) acc = acc * 16 ^ ds.length + ds.foldl (fun acc d => acc * 16 + d) 0 := by
  induction ds generalizing acc with
  | nil => simp
  | cons d ds ih => rw [List.foldl_cons, List.foldl_cons, ih, ih (0 * 16 + d), List.length_cons]; ring

theorem HexNumeral.append {m n u v : Nat} {s t : List Char} (h : HexNumeral m s u) (h' : HexNumeral n t v) :
    HexNumeral (m + n) (s ++ t) (u * 16 ^ n + v) := by
  obtain ⟨ds, rfl, hd, rfl, rfl⟩ := h
  obtain ⟨es, rfl, he, rfl, rfl⟩ := h'
  refine ⟨ds ++ es, by simp, ?_, by simp, by rw [List.foldl_append, foldl_shift]⟩
  intro d h
  rcases List.mem_append.1 h with h | h
  · exact hd d h
  · exact he d h

theorem split_at {α : Type*} {c : α} {a a' r r' : List α} (h : c ∉ a) (h' : c ∉ a') (e : a ++ c :: r = a' ++ c :: r') : a = a' ∧ r = r' := by
  induction a generalizing a' with
  | nil =>
    cases a' with
    | nil => simpa using e
    | cons x a' => simp at e h'; exact absurd e.1 h'.1
  | cons x a ih =>
    cases a' with
    | nil => simp at e h; exact absurd e.1.symm h.1
    | cons y a' =>
      simp only [List.cons_append, List.cons.injEq] at e
      simp only [List.mem_cons, not_or] at h h'
      obtain ⟨h1, h2⟩ := ih h.2 h'.2 e.2
      exact ⟨by rw [e.1, h1], h2⟩

/-- Printing never fails and a printed text ends where it ends. -/
def Delim {K : Type*} (f : K → Outcome Text) : Prop :=
  (∀ x, ∃ t, f x = .ok t) ∧ ∀ x y t u r r', f x = .ok t → f y = .ok u → t ++ r = u ++ r' → x = y ∧ r = r'

theorem Delim.tells {K : Type*} {f : K → Outcome Text} (h : Delim f) : Tells f := by
  refine ⟨h.1, fun x y => ⟨fun e => ?_, fun e => by rw [e]⟩⟩
  obtain ⟨t, ht⟩ := h.1 x
  exact (h.2 x y t t [] [] ht (by rw [← e, ht]) rfl).1

theorem Delim.quad {K : Type*} {nr : K → K} {f : K → Outcome Text} (h : Delim f) : Delim (quadPrint (nr := nr) f) := by
  constructor
  · intro x
    obtain ⟨t0, h0⟩ := h.1 x.c0
    obtain ⟨t1, h1⟩ := h.1 x.c1
    exact ⟨_, by rw [quadPrint, h0, Outcome.bind_ok, h1, Outcome.map_ok]⟩
  · intro x y t u r r' hx hy e
    obtain ⟨t0, h0⟩ := h.1 x.c0
    obtain ⟨t1, h1⟩ := h.1 x.c1
    obtain ⟨u0, k0⟩ := h.1 y.c0
    obtain ⟨u1, k1⟩ := h.1 y.c1
    rw [quadPrint, h0, Outcome.bind_ok, h1, Outcome.map_ok] at hx
    rw [quadPrint, k0, Outcome.bind_ok, k1, Outcome.map_ok] at hy
    obtain rfl := Outcome.ok.inj hx
    obtain rfl := Outcome.ok.inj hy
    simp only [List.append_assoc] at e
    obtain ⟨e0, e⟩ := h.2 _ _ _ _ _ _ h0 k0 (List.append_cancel_left e)
    obtain ⟨e1, e⟩ := h.2 _ _ _ _ _ _ h1 k1 e
    exact ⟨Quad.ext e0 e1, e⟩

theorem Delim.cubic {K : Type*} {nr : K → K} {f : K → Outcome Text} (h : Delim f) : Delim (cubicPrint (nr := nr) f) := by
  constructor
  · intro x
    obtain ⟨t0, h0⟩ := h.1 x.c0
    obtain ⟨t1, h1⟩ := h.1 x.c1
    obtain ⟨t2, h2⟩ := h.1 x.c2
    exact ⟨_, by rw [cubicPrint, h0, Outcome.bind_ok, h1, Outcome.bind_ok, h2, Outcome.map_ok]⟩
  · intro x y t u r r' hx hy e
    obtain ⟨t0, h0⟩ := h.1 x.c0
    obtain ⟨t1, h1⟩ := h.1 x.c1
    obtain ⟨t2, h2⟩ := h.1 x.c2
    obtain ⟨u0, k0⟩ := h.1 y.c0
    obtain ⟨u1, k1⟩ := h.1 y.c1
    obtain ⟨u2, k2⟩ := h.1 y.c2
    rw [cubicPrint, h0, Outcome.bind_ok, h1, Outcome.bind_ok, h2, Outcome.map_ok] at hx
    rw [cubicPrint, k0, Outcome.bind_ok, k1, Outcome.bind_ok, k2, Outcome.map_ok] at hy
    obtain rfl := Outcome.ok.inj hx
    obtain rfl := Outcome.ok.inj hy
    simp only [List.append_assoc] at e
    obtain ⟨e0, e⟩ := h.2 _ _ _ _ _ _ h0 k0 (List.append_cancel_left e)
    obtain ⟨e1, e⟩ := h.2 _ _ _ _ _ _ h1 k1 e
    obtain ⟨e2, e⟩ := h.2 _ _ _ _ _ _ h2 k2 e
    exact ⟨Cubic.ext e0 e1 e2, e⟩

section
variable {P : FpParams} [hP : Fact P.Valid]

theorem fp_val_inj {x y : Fp P} (h : x.toZMod.val = y.toZMod.val) : x = y := by
  have := hP.out.neZero
  exact Fp.toZMod_injective (ZMod.val_injective _ h)

theorem fpPrint_eq (x : Fp P) : fpPrint x = .ok (number 10 x.toZMod.val ++ ['\n']) := by
  have := hP.out.neZero
  have hn := hP.out.n_pos
  have hx := x.represents
  have hv1 : val (smallBigint P.n 1) = 1 := by rw [val_smallBigint _ _ hn]; rfl
  obtain ⟨r, hr, hl, hlt, hv⟩ := mulReduce_spec P hP.out (smallBigint P.n 1) x.repr (by simp) x.len (lt_pR hP.out (by simp) x.lt)
  rw [fpPrint, hr, Outcome.map_ok, bigintPrint]
  rw [← ZMod.natCast_eq_natCast_iff, hv1] at hv
  push_cast at hv
  rw [hx.eq, one_mul] at hv
  have h2 : (val r : ZMod P.p) = x.toZMod := hP.out.unitR.mul_right_cancel hv
  rw [← h2, ZMod.val_natCast_of_lt hlt]

theorem fpPrint_delim : Delim (fpPrint (P := P)) := by
  refine ⟨fun x => ⟨_, fpPrint_eq x⟩, fun x y t u r r' hx hy e => ?_⟩
  rw [fpPrint_eq] at hx hy
  obtain rfl := Outcome.ok.inj hx
  obtain rfl := Outcome.ok.inj hy
  simp only [List.append_assoc, List.singleton_append] at e
  have hc : ∀ v, '\n' ∉ number 10 v := fun v h => absurd (number_chars h) (by decide)
  obtain ⟨e1, e2⟩ := split_at (hc _) (hc _) e
  exact ⟨fp_val_inj (number_inj (by norm_num) (by norm_num) e1), e2⟩

theorem coord1_eq (x : Fp P) : coord1 x = .ok (number 10 x.toZMod.val) := by
  have := hP.out.neZero
  have h1 := ZMod.val_lt x.toZMod
  have hb := hP.out.topBit
  rw [coord1, x.represents.asBigint hP.out, Outcome.map_ok, val_limbsOf, Nat.mod_eq_of_lt (by omega)]

theorem coord2_eq {nr : Fp P → Fp P} (x : Quad (Fp P) nr) :
    coord2 x = .ok (number 10 x.c1.toZMod.val ++ "*z + ".toList ++ number 10 x.c0.toZMod.val) := by
  rw [coord2, coord1_eq, Outcome.bind_ok, coord1_eq, Outcome.map_ok]

theorem coord3_eq {nr : Fp P → Fp P} (x : Cubic (Fp P) nr) :
    coord3 x = .ok (number 10 x.c2.toZMod.val ++ "*z^2 + ".toList ++ number 10 x.c1.toZMod.val ++ "*z + ".toList ++
      number 10 x.c0.toZMod.val) := by
  rw [coord3, coord1_eq, Outcome.bind_ok, coord1_eq, Outcome.bind_ok, coord1_eq, Outcome.map_ok]

/-- A coordinate is shown without failing, by a text without the separators of the point formats, and different elements differently. -/
structure Coord {K : Type*} (sh : K → Outcome Text) : Prop where
  ok : ∀ x, ∃ t, sh x = .ok t ∧ ',' ∉ t ∧ ':' ∉ t ∧ ')' ∉ t
  inj : ∀ x y, sh x = sh y → x = y

theorem number_no {c : Char} (hc : c ∉ "0123456789".toList) (v : Nat) : c ∉ number 10 v := fun h => hc (number_chars h)

theorem coord1_coord : Coord (coord1 (P := P)) := by
  refine ⟨fun x => ⟨_, coord1_eq x, number_no (by decide) _, number_no (by decide) _, number_no (by decide) _⟩, fun x y h => ?_⟩
  rw [coord1_eq, coord1_eq] at h
  exact fp_val_inj (number_inj (by norm_num) (by norm_num) (Outcome.ok.inj h))

theorem coord2_coord {nr : Fp P → Fp P} : Coord (coord2 (P := P) (nr := nr)) := by
  refine ⟨fun x => ⟨_, coord2_eq x, ?_, ?_, ?_⟩, fun x y h => ?_⟩
  iterate 3
    simp only [List.mem_append, not_or]
    exact ⟨⟨number_no (by decide) _, by decide⟩, number_no (by decide) _⟩
  rw [coord2_eq, coord2_eq] at h
  have h := Outcome.ok.inj h
  simp only [show "*z + ".toList = '*' :: "z + ".toList from rfl, List.append_assoc, List.cons_append] at h
  obtain ⟨e1, e0⟩ := split_at (number_no (by decide) _) (number_no (by decide) _) h
  have e0 := List.append_cancel_left e0
  exact Quad.ext (fp_val_inj (number_inj (by norm_num) (by norm_num) e0)) (fp_val_inj (number_inj (by norm_num) (by norm_num) e1))

theorem coord3_coord {nr : Fp P → Fp P} : Coord (coord3 (P := P) (nr := nr)) := by
  refine ⟨fun x => ⟨_, coord3_eq x, ?_, ?_, ?_⟩, fun x y h => ?_⟩
  iterate 3
    simp only [List.mem_append, not_or]
    exact ⟨⟨⟨⟨number_no (by decide) _, by decide⟩, number_no (by decide) _⟩, by decide⟩, number_no (by decide) _⟩
  rw [coord3_eq, coord3_eq] at h
  have h := Outcome.ok.inj h
  simp only [show "*z + ".toList = '*' :: "z + ".toList from rfl, show "*z^2 + ".toList = '*' :: "z^2 + ".toList from rfl,
    List.append_assoc, List.cons_append] at h
  obtain ⟨e2, h⟩ := split_at (number_no (by decide) _) (number_no (by decide) _) h
  obtain ⟨e1, h⟩ := split_at (number_no (by decide) _) (number_no (by decide) _) (List.append_cancel_left h)
  have e0 := List.append_cancel_left h
  exact Cubic.ext (fp_val_inj (number_inj (by norm_num) (by norm_num) e0)) (fp_val_inj (number_inj (by norm_num) (by norm_num) e1))
    (fp_val_inj (number_inj (by norm_num) (by norm_num) e2))

end

section Points
variable {K A : Type*} {sh : K → Outcome Text}

/-- The text of an affine point. -/
theorem pointPrint_affine (hs : Coord sh) {isZero : Coord3 K → Bool} {toAffine : Coord3 K → Outcome (Coord3 K)} {p : Coord3 K} {x y z : K}
    (h0 : isZero p = false) (ha : toAffine p = .ok ⟨x, y, z⟩) :
    ∃ s t, sh x = .ok s ∧ sh y = .ok t ∧ pointPrint isZero toAffine sh p = .ok ("(".toList ++ s ++ " , ".toList ++ t ++ ")\n".toList) := by
  obtain ⟨s, h1, -⟩ := hs.ok x
  obtain ⟨t, h2, -⟩ := hs.ok y
  refine ⟨s, t, h1, h2, ?_⟩
  rw [pointPrint, if_neg (by simp [h0]), ha, Outcome.bind_ok]
  simp only [h1, h2, Outcome.bind_ok, Outcome.map_ok]

theorem pointPrint_affine_inj (hs : Coord sh) {x y x' y' : K} {s t s' t' : Text} (h1 : sh x = .ok s) (h2 : sh y = .ok t)
    (h3 : sh x' = .ok s') (h4 : sh y' = .ok t')
    (e : "(".toList ++ s ++ " , ".toList ++ t ++ ")\n".toList = "(".toList ++ s' ++ " , ".toList ++ t' ++ ")\n".toList) :
    x = x' ∧ y = y' := by
  have no : ∀ {x s}, sh x = .ok s → ',' ∉ s ++ [' '] := by
    intro x s h
    obtain ⟨s', h', hc, -⟩ := hs.ok x
    obtain rfl := Outcome.ok.inj (h.symm.trans h')
    simp [hc]
  have e : (s ++ [' ']) ++ ',' :: (' ' :: (t ++ ")\n".toList)) = (s' ++ [' ']) ++ ',' :: (' ' :: (t' ++ ")\n".toList)) := by
    have : '(' :: ((s ++ [' ']) ++ ',' :: (' ' :: (t ++ ")\n".toList))) = '(' :: ((s' ++ [' ']) ++ ',' :: (' ' :: (t' ++ ")\n".toList))) := by
      simpa [List.append_assoc] using e
    exact (List.cons.inj this).2
  obtain ⟨e1, e2⟩ := split_at (no h1) (no h3) e
  have e1 := List.append_cancel_right e1
  have e2 := List.append_cancel_right (List.cons.inj e2).2
  subst e1 e2
  exact ⟨hs.inj _ _ (h1.trans h3.symm), hs.inj _ _ (h2.trans h4.symm)⟩

/-- Printing points tells them apart, if `to_affine_coordinates` gives the same coordinates exactly for the same points. -/
theorem pointPrint_tells [Zero A] (hs : Coord sh) {isZero : Coord3 K → Bool} {toAffine : Coord3 K → Outcome (Coord3 K)}
    {Rep : Coord3 K → A → Prop} (hz : ∀ p P, Rep p P → (isZero p = true ↔ P = 0))
    (ha : ∀ p P, Rep p P → P ≠ 0 → ∃ x y z, toAffine p = .ok ⟨x, y, z⟩)
    (hi : ∀ p q P, Rep p P → Rep q P → toAffine p = toAffine q)
    (hj : ∀ p q P Q x y z z', Rep p P → Rep q Q → P ≠ 0 → Q ≠ 0 → toAffine p = .ok ⟨x, y, z⟩ → toAffine q = .ok ⟨x, y, z'⟩ → P = Q) :
    TellsDenoted Rep (pointPrint isZero toAffine sh) ∧
      ∀ p P, Rep p P → (pointPrint isZero toAffine sh p = .ok "O\n".toList ↔ P = 0) := by
  have zero : ∀ p, isZero p = true → pointPrint isZero toAffine sh p = .ok "O\n".toList := fun p h => by rw [pointPrint, if_pos h]
  have nz : ∀ p P, Rep p P → P ≠ 0 → isZero p = false := fun p P h h0 => by
    rw [← Bool.not_eq_true, hz p P h]; exact h0
  have no : ∀ p P, Rep p P → P ≠ 0 → pointPrint isZero toAffine sh p ≠ .ok "O\n".toList := by
    intro p P h h0 e
    obtain ⟨x, y, z, h1⟩ := ha p P h h0
    obtain ⟨s, t, -, -, h2⟩ := pointPrint_affine hs (nz p P h h0) h1
    have := Outcome.ok.inj (h2.symm.trans e)
    simp at this
  have iff : ∀ p P, Rep p P → (pointPrint isZero toAffine sh p = .ok "O\n".toList ↔ P = 0) := fun p P h =>
    ⟨fun e => by_contra fun h0 => no p P h h0 e, fun e => zero p ((hz p P h).2 e)⟩
  refine ⟨⟨fun p P h => ?_, fun p q P Q hp hq => ?_⟩, iff⟩
  · by_cases h0 : P = 0
    · exact ⟨_, zero p ((hz p P h).2 h0)⟩
    · obtain ⟨x, y, z, h1⟩ := ha p P h h0
      obtain ⟨s, t, -, -, h2⟩ := pointPrint_affine hs (nz p P h h0) h1
      exact ⟨_, h2⟩
  · constructor
    · intro e
      by_cases h0 : P = 0
      · rw [(iff p P hp).2 h0] at e
        rw [h0, (iff q Q hq).1 e.symm]
      · have h0' : Q ≠ 0 := fun h => no p P hp h0 (e.trans ((iff q Q hq).2 h))
        obtain ⟨x, y, z, h1⟩ := ha p P hp h0
        obtain ⟨x', y', z', h1'⟩ := ha q Q hq h0'
        obtain ⟨s, t, k1, k2, h2⟩ := pointPrint_affine hs (nz p P hp h0) h1
        obtain ⟨s', t', k1', k2', h2'⟩ := pointPrint_affine hs (nz q Q hq h0') h1'
        rw [h2, h2'] at e
        obtain ⟨rfl, rfl⟩ := pointPrint_affine_inj hs k1 k2 k1' k2' (Outcome.ok.inj e)
        exact hj p q P Q _ _ _ _ hp hq h0 h0' h1 h1'
    · rintro rfl
      have : isZero p = isZero q := by rw [Bool.eq_iff_iff, hz p P hp, hz q P hq]
      rw [pointPrint, pointPrint, this, hi p q P hp hq]

/-- `print_coordinates` shows the stored coordinates. -/
theorem pointPrintCoordinates_iff (hs : Coord sh) {isZero : Coord3 K → Bool} (p q : Coord3 K) :
    (∃ t, pointPrintCoordinates isZero sh p = .ok t) ∧
    (pointPrintCoordinates isZero sh p = pointPrintCoordinates isZero sh q ↔
      (isZero p = true ∧ isZero q = true) ∨ (isZero p = false ∧ isZero q = false ∧ p = q)) := by
  have key : ∀ p : Coord3 K, isZero p = false → ∃ s t u, sh p.X = .ok s ∧ sh p.Y = .ok t ∧ sh p.Z = .ok u ∧
      pointPrintCoordinates isZero sh p = .ok ("(".toList ++ s ++ " : ".toList ++ t ++ " : ".toList ++ u ++ ")\n".toList) := by
    intro p h0
    obtain ⟨s, h1, -⟩ := hs.ok p.X
    obtain ⟨t, h2, -⟩ := hs.ok p.Y
    obtain ⟨u, h3, -⟩ := hs.ok p.Z
    refine ⟨s, t, u, h1, h2, h3, ?_⟩
    rw [pointPrintCoordinates, if_neg (by simp [h0])]
    simp only [h1, h2, h3, Outcome.bind_ok, Outcome.map_ok]
  have zero : ∀ p : Coord3 K, isZero p = true → pointPrintCoordinates isZero sh p = .ok "O\n".toList := fun p h => by
    rw [pointPrintCoordinates, if_pos h]
  constructor
  · cases h0 : isZero p with
    | true => exact ⟨_, zero p h0⟩
    | false => obtain ⟨s, t, u, -, -, -, h⟩ := key p h0; exact ⟨_, h⟩
  · cases h0 : isZero p with
    | true =>
      cases h0' : isZero q with
      | true => simp [zero p h0, zero q h0']
      | false =>
        obtain ⟨s, t, u, -, -, -, h⟩ := key q h0'
        rw [zero p h0, h]
        simp
    | false =>
      obtain ⟨s, t, u, h1, h2, h3, h⟩ := key p h0
      cases h0' : isZero q with
      | true => rw [zero q h0', h]; simp
      | false =>
        obtain ⟨s', t', u', h1', h2', h3', h'⟩ := key q h0'
        refine ⟨fun e => Or.inr ⟨rfl, rfl, ?_⟩, fun e => ?_⟩
        · rw [h, h'] at e
          have no : ∀ {x s}, sh x = .ok s → ':' ∉ s ++ [' '] := by
            intro x s h
            obtain ⟨s', h', -, hc, -⟩ := hs.ok x
            obtain rfl := Outcome.ok.inj (h.symm.trans h')
            simp [hc]
          have e : '(' :: ((s ++ [' ']) ++ ':' :: (' ' :: ((t ++ [' ']) ++ ':' :: (' ' :: (u ++ ")\n".toList))))) =
              '(' :: ((s' ++ [' ']) ++ ':' :: (' ' :: ((t' ++ [' ']) ++ ':' :: (' ' :: (u' ++ ")\n".toList))))) := by
            simpa [List.append_assoc] using Outcome.ok.inj e
          obtain ⟨e1, e⟩ := split_at (no h1) (no h1') (List.cons.inj e).2
          obtain ⟨e2, e⟩ := split_at (no h2) (no h2') (List.cons.inj e).2
          have e1 := List.append_cancel_right e1
          have e2 := List.append_cancel_right e2
          have e3 := List.append_cancel_right (List.cons.inj e).2
          subst e1 e2 e3
          have i1 := hs.inj _ _ (h1.trans h1'.symm)
          have i2 := hs.inj _ _ (h2.trans h2'.symm)
          have i3 := hs.inj _ _ (h3.trans h3'.symm)
          cases p; cases q
          simp_all
        · rcases e with ⟨e, -⟩ | ⟨-, -, e⟩
          · exact absurd e (by simp)
          · rw [e]

end Points

end Libff.Print
