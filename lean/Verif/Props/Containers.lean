import Verif.Lemmas.Containers
import Verif.Props.FpIO

/-!
# Serialization of extension fields (C24) and of containers (C47)

Vocabulary (`Verif/Spec/Containers.lean`): `StreamLaw binary valid write read` says every valid value is written and
read back, from a stream in which white space may precede it (text builds) and in which any continuation that ends
a token may follow; `FieldCodec.Lawful` adds the `to_words`/`from_words` round trip.
-/
namespace Libff

/-! ## C24 -/

/-- A stored `Fp_model` object. -/
def FpStored (P : FpParams) (l : List Limb) : Prop := l.length = P.n ∧ val l < P.p

/-- C24, base case: `Fp_model`. -/
theorem C24_fp (P : FpParams) (hP : P.Valid) (mont binary : Bool) (bits : Nat) (hb : BitSize P bits) :
    (fpCodec mont binary P bits).Lawful binary (FpStored P) P.n := by
  constructor
  · rintro l ⟨h1, h2⟩
    have hrep := Represents.exists_val hP h1 h2
    obtain ⟨out, hw, _⟩ := C12_roundtrip P hP mont binary l _ hrep [] (Or.inr (by decide))
    refine ⟨out, hw, fun pre rest hp hbin hr => ?_⟩
    obtain ⟨out', hw', hread⟩ := C12_roundtrip P hP mont binary l _ hrep rest hr
    rw [show out' = out from by simpa using hw'.symm.trans hw] at hread
    have hskip : fpRead mont binary P (pre ++ (out ++ rest)) = fpRead mont binary P (out ++ rest) := by
      unfold fpRead bigintRead
      cases binary with
      | true => rw [hbin rfl, List.nil_append]
      | false =>
        have : readToken (pre ++ (out ++ rest)) = readToken (out ++ rest) := by
          unfold readToken
          rw [List.dropWhile_append_of_pos hp]
        simp only [Bool.false_eq_true, if_false, this]
    exact hskip.trans hread
  · rintro l old ⟨h1, h2⟩
    have hrep := Represents.exists_val hP h1 h2
    have hrt := C13_roundtrip P hP mont bits hb l _ hrep
    cases hw : toWords mont P l with
    | abort => rw [hw] at hrt; cases hrt
    | ub => rw [hw] at hrt; cases hrt
    | ok w =>
      rw [hw, Outcome.bind_ok] at hrt
      refine ⟨w, hw, ?_, hrt⟩
      cases mont with
      | true =>
        simp only [toWords, bigintRepr, if_true, Outcome.ok.injEq] at hw
        rw [← hw]; exact h1
      | false =>
        obtain ⟨r, hr, hl, _⟩ := C05_as_bigint P hP l _ hrep
        simp only [toWords, bigintRepr, Bool.false_eq_true, if_false, hr, Outcome.ok.injEq] at hw
        rw [← hw]; exact hl

section
variable (P : FpParams) (hP : P.Valid) (mont binary : Bool) (bits : Nat) (hb : BitSize P bits)
include hP hb

/-- C24, `Fp2_model`. -/
theorem C24_fp2 (nr : List Limb → List Limb) :
    (quadCodec (nr := nr) binary (fpCodec mont binary P bits)).Lawful binary
      (fun x => FpStored P x.c0 ∧ FpStored P x.c1) (2 * P.n) :=
  (C24_fp P hP mont binary bits hb).quad nr

/-- C24, `Fp3_model`. -/
theorem C24_fp3 (nr : List Limb → List Limb) :
    (cubicCodec (nr := nr) binary (fpCodec mont binary P bits)).Lawful binary
      (fun x => FpStored P x.c0 ∧ FpStored P x.c1 ∧ FpStored P x.c2) (3 * P.n) :=
  (C24_fp P hP mont binary bits hb).cubic nr

/-- C24, `Fp4_model`. -/
theorem C24_fp4 (nr : List Limb → List Limb) (nr2 : Quad (List Limb) nr → Quad (List Limb) nr) :
    (quadCodec (nr := nr2) binary (quadCodec (nr := nr) binary (fpCodec mont binary P bits))).Lawful binary
      (fun x => (FpStored P x.c0.c0 ∧ FpStored P x.c0.c1) ∧ FpStored P x.c1.c0 ∧ FpStored P x.c1.c1)
      (2 * (2 * P.n)) :=
  (C24_fp2 P hP mont binary bits hb nr).quad nr2

/-- C24, `Fp6_2over3_model`. -/
theorem C24_fp6_2over3 (nr : List Limb → List Limb) (nr2 : Cubic (List Limb) nr → Cubic (List Limb) nr) :
    (quadCodec (nr := nr2) binary (cubicCodec (nr := nr) binary (fpCodec mont binary P bits))).Lawful binary
      (fun x => (FpStored P x.c0.c0 ∧ FpStored P x.c0.c1 ∧ FpStored P x.c0.c2) ∧
        FpStored P x.c1.c0 ∧ FpStored P x.c1.c1 ∧ FpStored P x.c1.c2) (2 * (3 * P.n)) :=
  (C24_fp3 P hP mont binary bits hb nr).quad nr2

/-- C24, `Fp6_3over2_model`. -/
theorem C24_fp6_3over2 (nr : List Limb → List Limb) (nr2 : Quad (List Limb) nr → Quad (List Limb) nr) :
    (cubicCodec (nr := nr2) binary (quadCodec (nr := nr) binary (fpCodec mont binary P bits))).Lawful binary
      (fun x => (FpStored P x.c0.c0 ∧ FpStored P x.c0.c1) ∧ (FpStored P x.c1.c0 ∧ FpStored P x.c1.c1) ∧
        FpStored P x.c2.c0 ∧ FpStored P x.c2.c1) (3 * (2 * P.n)) :=
  (C24_fp2 P hP mont binary bits hb nr).cubic nr2

/-- C24, `Fp12_2over3over2_model`. -/
theorem C24_fp12 (nr : List Limb → List Limb) (nr2 : Quad (List Limb) nr → Quad (List Limb) nr)
    (nr3 : Cubic (Quad (List Limb) nr) nr2 → Cubic (Quad (List Limb) nr) nr2) :
    (quadCodec (nr := nr3) binary (cubicCodec (nr := nr2) binary (quadCodec (nr := nr) binary
      (fpCodec mont binary P bits)))).Lawful binary
      (fun x => ((FpStored P x.c0.c0.c0 ∧ FpStored P x.c0.c0.c1) ∧ (FpStored P x.c0.c1.c0 ∧ FpStored P x.c0.c1.c1) ∧
        FpStored P x.c0.c2.c0 ∧ FpStored P x.c0.c2.c1) ∧
        (FpStored P x.c1.c0.c0 ∧ FpStored P x.c1.c0.c1) ∧ (FpStored P x.c1.c1.c0 ∧ FpStored P x.c1.c1.c1) ∧
        FpStored P x.c1.c2.c0 ∧ FpStored P x.c1.c2.c1) (2 * (3 * (2 * P.n))) :=
  (C24_fp6_3over2 P hP mont binary bits hb nr nr2).quad nr3

end

/-- C24. The words of a quadratic element are those of `c0` followed by those of `c1`. -/
theorem C24_words_quad {α : Type} {nr : α → α} (binary : Bool) (c : FieldCodec α) (x0 x1 : α) (w0 w1 : List Limb)
    (h0 : c.toWords x0 = .ok w0) (h1 : c.toWords x1 = .ok w1) :
    (quadCodec (nr := nr) binary c).toWords ⟨x0, x1⟩ = .ok (w0 ++ w1) := by
  simp only [quadCodec, h0, h1, Outcome.bind_ok, Outcome.map_ok]

/-- C24. The words of a cubic element are those of `c0`, `c1` and `c2`. -/
theorem C24_words_cubic {α : Type} {nr : α → α} (binary : Bool) (c : FieldCodec α) (x0 x1 x2 : α)
    (w0 w1 w2 : List Limb) (h0 : c.toWords x0 = .ok w0) (h1 : c.toWords x1 = .ok w1) (h2 : c.toWords x2 = .ok w2) :
    (cubicCodec (nr := nr) binary c).toWords ⟨x0, x1, x2⟩ = .ok (w0 ++ w1 ++ w2) := by
  simp only [cubicCodec, h0, h1, h2, Outcome.bind_ok, Outcome.map_ok, List.append_assoc]

/-- C24. `from_words` of a quadratic class on two halves: the flag is the conjunction, and a rejected first half
leaves `c1` unchanged. -/
theorem C24_from_words_quad {α : Type} {nr : α → α} (binary : Bool) (c : FieldCodec α) (old : Quad α nr)
    (w0 w1 : List Limb) (hl : w0.length = w1.length) (y0 y1 : α) (f0 f1 : Bool)
    (h0 : c.fromWords old.c0 w0 = .ok (y0, f0)) (h1 : c.fromWords old.c1 w1 = .ok (y1, f1)) :
    (quadCodec binary c).fromWords old (w0 ++ w1) = .ok (⟨y0, if f0 then y1 else old.c1⟩, f0 && f1) := by
  have hm : (w0 ++ w1).length / 2 = w0.length := by rw [List.length_append]; omega
  simp only [quadCodec, quadFromWords, hm, List.take_left, List.drop_left, h0, Outcome.bind_ok]
  cases f0 <;> simp [h1]

/-- C24. Vectors of extension field elements (`operator>>` of Fp2, Fp3, Fp6_3over2 and Fp12): every vector is read
back. In text builds the newline after the last element stays in the stream. -/
theorem C24_vector {α : Type} {binary : Bool} {valid : α → Prop} {write : α → Outcome (List Byte)} {read : Reader α}
    (h : StreamLaw binary valid write read) (v : List α) (hv : ∀ x ∈ v, valid x) (hl : v.length < 2 ^ 64) :
    ∃ out, vecWrite binary write v = .ok out ∧ ∀ rest,
      extVecRead read (out ++ rest) = .ok (v, (if v = [] then [] else outputNewline binary) ++ rest) := by
  obtain ⟨out, h1, h2⟩ := readList_skip h v hv
  refine ⟨_, by rw [vecWrite, h1, Outcome.map_ok], fun rest => ?_⟩
  rw [extVecRead]
  simp only [List.append_assoc]
  rw [show writeNat v.length ++ (newline ++ (out ++ rest)) = [] ++ (writeNat v.length ++ (newline ++ (out ++ rest)))
    from rfl, readSize_line _ hl [] _ (by simp), Outcome.bind_ok, consumeNewline_newline, Outcome.bind_ok]
  exact h2 [] rest (by simp) (fun _ => rfl)

/-! ## C47 -/

/-- C47. Bools. -/
theorem C47_bool (debug b : Bool) (rest : List Byte) : inputBool debug (outputBool b ++ rest) = .ok (b, rest) :=
  inputBool_output debug b [] rest (by simp)

/-- C47. Bool vectors. -/
theorem C47_bool_vector (debug : Bool) (v : List Bool) (hl : v.length < 2 ^ 64) (rest : List Byte) :
    inputBoolVector debug (outputBoolVector v ++ rest) = .ok (v, rest) := by
  have hw : ∀ v : List Bool, writeList (fun b => .ok (outputBool b)) [] v = .ok (v.flatMap outputBool) := fun v => by
    induction v with
    | nil => rfl
    | cons b v ih => rw [writeList, Outcome.bind_ok, ih, Outcome.map_ok]; rfl
  obtain ⟨out, h1, h2⟩ := readList_write (write := fun b => .ok (outputBool b)) (read := inputBool debug) (nl := [])
    (after := .ok) v (fun b _ => ⟨_, rfl, fun rest => ⟨_, inputBool_output debug b [] _ (by simp), rfl⟩⟩)
  rw [hw] at h1
  obtain rfl : v.flatMap outputBool = out := by simpa using h1
  rw [inputBoolVector, outputBoolVector]
  simp only [List.append_assoc]
  rw [show writeNat v.length ++ (newline ++ (v.flatMap outputBool ++ rest)) =
    [] ++ (writeNat v.length ++ (newline ++ (v.flatMap outputBool ++ rest))) from rfl,
    readSize_line _ hl [] _ (by simp), Outcome.bind_ok, consumeNewline_newline, Outcome.bind_ok, h2]

/-- C47. `serialize_bit_vector` / `deserialize_bit_vector`: the vector comes back; the last newline stays in the
stream. -/
theorem C47_bit_vector (v : List Bool) (hl : v.length < 2 ^ 64) (rest : List Byte) :
    deserializeBitVector (serializeBitVector v ++ rest) = .ok (v, newline ++ rest) := by
  have hone : ∀ (b : Bool) (rest : List Byte),
      readBool (newline ++ (writeNat (if b then 1 else 0) ++ (newline ++ rest))) = .ok (b, newline ++ rest) := by
    intro b rest
    rw [readBool, readSize_line _ (bool_nat_lt b) _ _ newline_space, Outcome.bind_ok]
    cases b <;> simp
  have hall : ∀ (v : List Bool) (rest : List Byte), readList readBool .ok v.length
      (newline ++ ((v.flatMap fun b => writeNat (if b then 1 else 0) ++ newline) ++ rest)) = .ok (v, newline ++ rest) := by
    intro v
    induction v with
    | nil => intro rest; rfl
    | cons b v ih =>
      intro rest
      rw [List.flatMap_cons, List.length_cons, readList]
      simp only [List.append_assoc]
      rw [hone, Outcome.bind_ok, Outcome.bind_ok, ih, Outcome.map_ok]
  rw [deserializeBitVector, serializeBitVector]
  simp only [List.append_assoc]
  rw [← List.nil_append (writeNat v.length ++ _), readSize_line _ hl [] _ (by simp), Outcome.bind_ok, hall]

/-- C47. Vectors of any serializable type, nested ones included: the law of the elements gives the law of the
vectors (of representable length). -/
theorem C47_vector {α : Type} {binary : Bool} {valid : α → Prop} {write : α → Outcome (List Byte)} {read : Reader α}
    (h : StreamLaw binary valid write read) :
    StreamLaw binary (fun v => v.length < 2 ^ 64 ∧ ∀ x ∈ v, valid x) (vecWrite binary write) (vecRead binary read) := by
  rintro v ⟨hl, hv⟩
  obtain ⟨out, h1, h2⟩ := readList_write (read := read) (nl := outputNewline binary)
    (after := consumeOutputNewline binary) v (fun x hx => by
      obtain ⟨o, ho, ho'⟩ := h x (hv x hx)
      refine ⟨o, ho, fun rest => ⟨outputNewline binary ++ rest, ho' [] _ (by simp) (fun _ => rfl) ?_, ?_⟩⟩
      · cases binary with
        | true => exact Or.inl rfl
        | false => exact Or.inr (newline_tokenEnd rest)
      · cases binary <;> rfl)
  refine ⟨_, by rw [vecWrite, h1, Outcome.map_ok], fun pre rest hp _ _ => ?_⟩
  rw [vecRead]
  simp only [List.append_assoc]
  rw [readSize_line _ hl pre _ hp, Outcome.bind_ok, consumeNewline_newline, Outcome.bind_ok, h2]

/-- C47. Maps (as the list of entries in increasing order of keys, for any comparison `lt`), nested ones included. -/
theorem C47_map {κ β : Type} {binary : Bool} {validK : κ → Prop} {validV : β → Prop} {wk : κ → Outcome (List Byte)}
    {wv : β → Outcome (List Byte)} {rk : Reader κ} {rv : Reader β} (lt : κ → κ → Bool)
    (hlt : ∀ a b, lt a b = true → lt b a = false)
    (hk : StreamLaw binary validK wk rk) (hv : StreamLaw binary validV wv rv) :
    StreamLaw binary (fun m => m.length < 2 ^ 64 ∧ (m.Pairwise fun a b => lt a.1 b.1 = true) ∧
      ∀ e ∈ m, validK e.1 ∧ validV e.2) (mapWrite wk wv) (mapRead lt rk rv) := by
  rintro m ⟨hl, hs, hm⟩
  obtain ⟨out, h1, h2⟩ := mapReadLoop_write hlt m (fun e he => hk.before_newline e.1 (hm e he).1)
    (fun e he => hv.before_newline e.2 (hm e he).2) [] hs
  refine ⟨_, by rw [mapWrite, h1, Outcome.map_ok], fun pre rest hp _ _ => ?_⟩
  rw [mapRead]
  simp only [List.append_assoc]
  rw [readSize_line _ hl pre _ hp, Outcome.bind_ok, consumeNewline_newline, Outcome.bind_ok, h2, List.nil_append]

/-- C47. Sets. -/
theorem C47_set {κ : Type} {binary : Bool} {valid : κ → Prop} {w : κ → Outcome (List Byte)} {r : Reader κ}
    (lt : κ → κ → Bool) (hlt : ∀ a b, lt a b = true → lt b a = false) (h : StreamLaw binary valid w r) :
    StreamLaw binary (fun m => m.length < 2 ^ 64 ∧ (m.Pairwise fun a b => lt a b = true) ∧ ∀ e ∈ m, valid e)
      (setWrite w) (setRead lt r) := by
  rintro m ⟨hl, hs, hm⟩
  obtain ⟨out, h1, h2⟩ := setReadLoop_write hlt m (fun e he => h.before_newline e (hm e he)) [] hs
  refine ⟨_, by rw [setWrite, h1, Outcome.map_ok], fun pre rest hp _ _ => ?_⟩
  rw [setRead]
  simp only [List.append_assoc]
  rw [readSize_line _ hl pre _ hp, Outcome.bind_ok, consumeNewline_newline, Outcome.bind_ok, h2, List.nil_append]

/-- C47. Whatever the stream contains (unsorted or repeated keys included), a map that was read has strictly
increasing keys. -/
theorem C47_map_sorted {κ β : Type} {rk : Reader κ} {rv : Reader β} (lt : κ → κ → Bool)
    (htr : ∀ a b c, lt a b = true → lt b c = true → lt a c = true) (s s' : List Byte) (m : List (κ × β))
    (h : mapRead lt rk rv s = .ok (m, s')) : m.Pairwise fun a b => lt a.1 b.1 = true := by
  have hloop : ∀ (i : Nat) (acc : List (κ × β)) (s : List Byte), (acc.Pairwise fun a b => lt a.1 b.1 = true) →
      mapReadLoop lt rk rv i acc s = .ok (m, s') → m.Pairwise fun a b => lt a.1 b.1 = true := by
    intro i
    induction i with
    | zero =>
      intro acc s ha h
      rw [mapReadLoop, Outcome.ok.injEq, Prod.mk.injEq] at h
      rw [← h.1]; exact ha
    | succ i ih =>
      intro acc s ha h
      rw [mapReadLoop] at h
      cases hk : rk s with
      | abort => rw [hk] at h; cases h
      | ub => rw [hk] at h; cases h
      | ok k =>
        rw [hk, Outcome.bind_ok] at h
        cases h1 : consumeNewline k.2 with
        | abort => rw [h1] at h; cases h
        | ub => rw [h1] at h; cases h
        | ok s1 =>
          rw [h1, Outcome.bind_ok] at h
          cases hv : rv s1 with
          | abort => rw [hv] at h; cases h
          | ub => rw [hv] at h; cases h
          | ok v =>
            rw [hv, Outcome.bind_ok] at h
            cases h2 : consumeNewline v.2 with
            | abort => rw [h2] at h; cases h
            | ub => rw [h2] at h; cases h
            | ok s2 =>
              rw [h2, Outcome.bind_ok] at h
              exact ih _ _ (mapAssign_sorted lt htr _ _ _ ha) h
  rw [mapRead] at h
  cases hz : readSize s with
  | abort => rw [hz] at h; cases h
  | ub => rw [hz] at h; cases h
  | ok z =>
    rw [hz, Outcome.bind_ok] at h
    cases h1 : consumeNewline z.2 with
    | abort => rw [h1] at h; cases h
    | ub => rw [h1] at h; cases h
    | ok s1 =>
      rw [h1, Outcome.bind_ok] at h
      exact hloop _ _ _ List.Pairwise.nil h

/-- C47. Numbers (`size_t`) themselves satisfy the law in text builds, so the theorems above apply to vectors, maps
and sets of numbers. -/
theorem C47_size : StreamLaw false (fun k => k < 2 ^ 64) (fun k => .ok (writeNat k)) readSize := by
  intro k hk
  refine ⟨_, rfl, fun pre rest hp _ hr => readSize_write k hk pre rest hp ?_⟩
  rcases hr with h | h
  · cases h
  · intro c hc
    have := h c hc
    simp only [isSpace, Bool.or_eq_true, beq_iff_eq, Bool.and_eq_true, decide_eq_true_eq] at this
    simp only [isDigit, Bool.and_eq_false_iff, decide_eq_false_iff_not]
    omega

/-! ## Concrete cases -/

example : ∃ out, (quadCodec (nr := id) false (fpCodec false false m127 127)).write ⟨limbsOf 2 6, limbsOf 2 0⟩ =
    .ok out ∧ (quadCodec (nr := id) false (fpCodec false false m127 127)).read (out ++ [10]) =
      .ok (⟨limbsOf 2 6, limbsOf 2 0⟩, [10]) := by
  obtain ⟨out, h1, h2⟩ := (C24_fp2 m127 (by decide) false false 127 m127_bits id).stream ⟨limbsOf 2 6, limbsOf 2 0⟩
    (by unfold FpStored; decide +kernel)
  exact ⟨out, h1, h2 [] [10] (by simp) (by simp) (Or.inr (by decide))⟩

/-- `"2\n3 0\n0 3\n"`. -/
example : vecWrite false (quadCodec (nr := id) false (fpCodec false false m127 127)).write
    [⟨limbsOf 2 6, limbsOf 2 0⟩, ⟨limbsOf 2 0, limbsOf 2 6⟩] = .ok [50, 10, 51, 32, 48, 10, 48, 32, 51, 10] := by
  rfl

example : mapRead (fun a b : Nat => decide (a < b)) readSize readSize
    [50, 10, 55, 10, 49, 10, 53, 10, 50, 10] = .ok ([(5, 2), (7, 1)], []) := by rfl

example : ∃ out, mapWrite (fun k => .ok (writeNat k)) (vecWrite false fun k => .ok (writeNat k)) [(1, [2, 3]), (4, [])] =
    .ok out ∧ mapRead (fun a b : Nat => decide (a < b)) readSize (vecRead false readSize) (out ++ []) =
      .ok ([(1, [2, 3]), (4, [])], []) := by
  obtain ⟨out, h1, h2⟩ := C47_map (fun a b : Nat => decide (a < b)) (by simp; omega) C47_size
    (C47_vector C47_size) [(1, [2, 3]), (4, [])] (by refine ⟨by decide, by decide, by decide⟩)
  exact ⟨out, h1, h2 [] [] (by simp) (by simp) (Or.inr (by decide))⟩

example : deserializeBitVector (serializeBitVector [true, false] ++ []) = .ok ([true, false], [10]) :=
  C47_bit_vector [true, false] (by decide) []

end Libff
