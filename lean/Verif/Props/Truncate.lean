import Verif.Lemmas.FieldsEdwards
import Verif.Lemmas.Truncate
import Verif.Props.CurveIO
import Verif.Props.PairingIO
import Verif.Props.Bn128

/-!
# C65: a writer that is stopped half-way never leaves a file that reads as another object

Vocabulary (`Verif/Spec/Truncate.lean`): `CutDetected out read` says that no proper prefix of `out` is read successfully;
`CutSafe valid write read` that this holds of the output of every valid object, which itself is read back. The crash point ranges
over every position of the output.

It holds of all objects in `BINARY_OUTPUT` builds and, in text builds, of all objects whose last character is not part of a decimal
number. For the others it is false (`C65_fp_text_wrong`, `C65_ext_vector_text_wrong`).
-/
namespace Libff
open WeierstrassCurve WeierstrassCurve.Affine

theorem cutSafe_of {α : Type} {binary : Bool} {valid : α → Prop} {write : α → Outcome (List Byte)} {read : Reader α}
    (hs : StreamLaw binary valid write read) (hl : LocalIf true read) : CutSafe valid write read := by
  intro x hx
  obtain ⟨out, h1, h2⟩ := hs x hx
  have h3 := h2 [] [] (by simp) (fun _ => rfl) (Or.inr fun c hc => by cases hc)
  rw [List.nil_append, List.append_nil] at h3
  exact ⟨out, h1, h3, hl.cutDetected h3⟩

theorem fpCodec_prompt (mont binary : Bool) (P : FpParams) (bits : Nat) : Prompt binary (fpCodec mont binary P bits).read :=
  fpRead_prompt mont binary P

theorem extVec_cutSafe {α : Type} {valid : α → Prop} {write : α → Outcome (List Byte)} {read : Reader α}
    (hs : StreamLaw true valid write read) (hl : LocalIf true read) :
    CutSafe (fun v => v.length < 2 ^ 64 ∧ ∀ x ∈ v, valid x) (vecWrite true write) (extVecRead read) := by
  rintro v ⟨hv, hx⟩
  obtain ⟨out, h1, h2⟩ := C24_vector hs v hx hv
  have h3 := h2 []
  rw [List.append_nil, show (if v = [] then [] else outputNewline true) ++ [] = ([] : List Byte) by split <;> rfl] at h3
  exact ⟨out, h1, h3, (extVecRead_local hl).cutDetected h3⟩

section
variable (P : FpParams) (hP : P.Valid) (mont : Bool) (bits : Nat) (hb : BitSize P bits)
include hP hb

/-- **C65**, `Fp_model`: elements in the binary format, vectors in both formats. -/
theorem C65_fp : CutSafe (FpStored P) (fpWrite mont true P) (fpRead mont true P) ∧
    ∀ binary, CutSafe (fun v => v.length < 2 ^ 64 ∧ ∀ x ∈ v, FpStored P x) (vecWrite binary (fpWrite mont binary P))
      (vecRead binary (fpRead mont binary P)) :=
  ⟨cutSafe_of (C24_fp P hP mont true bits hb).stream (fpRead_prompt mont true P).loc,
    fun binary => cutSafe_of (C47_vector (C24_fp P hP mont binary bits hb).stream) (vecRead_local (fpRead_prompt mont binary P).loc)⟩

/-- **C65**, `Fp2_model`: elements and vectors in the binary format. -/
theorem C65_fp2 (nr : List Limb → List Limb) :
    CutSafe (fun x => FpStored P x.c0 ∧ FpStored P x.c1) (quadCodec (nr := nr) true (fpCodec mont true P bits)).write
      (quadCodec (nr := nr) true (fpCodec mont true P bits)).read ∧
    CutSafe (fun v => v.length < 2 ^ 64 ∧ ∀ x ∈ v, FpStored P x.c0 ∧ FpStored P x.c1)
      (vecWrite true (quadCodec (nr := nr) true (fpCodec mont true P bits)).write)
      (extVecRead (quadCodec (nr := nr) true (fpCodec mont true P bits)).read) :=
  have hl := (quad_prompt (nr := nr) (fpCodec_prompt mont true P bits)).loc
  have hs := (C24_fp2 P hP mont true bits hb nr).stream
  ⟨cutSafe_of hs hl, extVec_cutSafe hs hl⟩

/-- **C65**, `Fp3_model`. -/
theorem C65_fp3 (nr : List Limb → List Limb) :
    CutSafe (fun x => FpStored P x.c0 ∧ FpStored P x.c1 ∧ FpStored P x.c2)
      (cubicCodec (nr := nr) true (fpCodec mont true P bits)).write (cubicCodec (nr := nr) true (fpCodec mont true P bits)).read ∧
    CutSafe (fun v => v.length < 2 ^ 64 ∧ ∀ x ∈ v, FpStored P x.c0 ∧ FpStored P x.c1 ∧ FpStored P x.c2)
      (vecWrite true (cubicCodec (nr := nr) true (fpCodec mont true P bits)).write)
      (extVecRead (cubicCodec (nr := nr) true (fpCodec mont true P bits)).read) :=
  have hl := (cubic_prompt (nr := nr) (fpCodec_prompt mont true P bits)).loc
  have hs := (C24_fp3 P hP mont true bits hb nr).stream
  ⟨cutSafe_of hs hl, extVec_cutSafe hs hl⟩

/-- **C65**, `Fp4_model`: elements in the binary format, vectors (which use the generic operators) in both formats. -/
theorem C65_fp4 (nr : List Limb → List Limb) (nr2 : Quad (List Limb) nr → Quad (List Limb) nr) :
    CutSafe (fun x => (FpStored P x.c0.c0 ∧ FpStored P x.c0.c1) ∧ FpStored P x.c1.c0 ∧ FpStored P x.c1.c1)
      (quadCodec (nr := nr2) true (quadCodec (nr := nr) true (fpCodec mont true P bits))).write
      (quadCodec (nr := nr2) true (quadCodec (nr := nr) true (fpCodec mont true P bits))).read ∧
    ∀ binary, CutSafe (fun v => v.length < 2 ^ 64 ∧ ∀ x ∈ v, (FpStored P x.c0.c0 ∧ FpStored P x.c0.c1) ∧
        FpStored P x.c1.c0 ∧ FpStored P x.c1.c1)
      (vecWrite binary (quadCodec (nr := nr2) binary (quadCodec (nr := nr) binary (fpCodec mont binary P bits))).write)
      (vecRead binary (quadCodec (nr := nr2) binary (quadCodec (nr := nr) binary (fpCodec mont binary P bits))).read) :=
  have hl := fun binary => (quad_prompt (nr := nr2) (quad_prompt (nr := nr) (fpCodec_prompt mont binary P bits))).loc
  have hs := fun binary => (C24_fp4 P hP mont binary bits hb nr nr2).stream
  ⟨cutSafe_of (hs true) (hl true), fun binary => cutSafe_of (C47_vector (hs binary)) (vecRead_local (hl binary))⟩

/-- **C65**, `Fp6_2over3_model`. -/
theorem C65_fp6_2over3 (nr : List Limb → List Limb) (nr2 : Cubic (List Limb) nr → Cubic (List Limb) nr) :
    CutSafe (fun x => (FpStored P x.c0.c0 ∧ FpStored P x.c0.c1 ∧ FpStored P x.c0.c2) ∧
        FpStored P x.c1.c0 ∧ FpStored P x.c1.c1 ∧ FpStored P x.c1.c2)
      (quadCodec (nr := nr2) true (cubicCodec (nr := nr) true (fpCodec mont true P bits))).write
      (quadCodec (nr := nr2) true (cubicCodec (nr := nr) true (fpCodec mont true P bits))).read ∧
    ∀ binary, CutSafe (fun v => v.length < 2 ^ 64 ∧ ∀ x ∈ v, (FpStored P x.c0.c0 ∧ FpStored P x.c0.c1 ∧ FpStored P x.c0.c2) ∧
        FpStored P x.c1.c0 ∧ FpStored P x.c1.c1 ∧ FpStored P x.c1.c2)
      (vecWrite binary (quadCodec (nr := nr2) binary (cubicCodec (nr := nr) binary (fpCodec mont binary P bits))).write)
      (vecRead binary (quadCodec (nr := nr2) binary (cubicCodec (nr := nr) binary (fpCodec mont binary P bits))).read) :=
  have hl := fun binary => (quad_prompt (nr := nr2) (cubic_prompt (nr := nr) (fpCodec_prompt mont binary P bits))).loc
  have hs := fun binary => (C24_fp6_2over3 P hP mont binary bits hb nr nr2).stream
  ⟨cutSafe_of (hs true) (hl true), fun binary => cutSafe_of (C47_vector (hs binary)) (vecRead_local (hl binary))⟩

/-- **C65**, `Fp6_3over2_model`. -/
theorem C65_fp6_3over2 (nr : List Limb → List Limb) (nr2 : Quad (List Limb) nr → Quad (List Limb) nr) :
    CutSafe (fun x => (FpStored P x.c0.c0 ∧ FpStored P x.c0.c1) ∧ (FpStored P x.c1.c0 ∧ FpStored P x.c1.c1) ∧
        FpStored P x.c2.c0 ∧ FpStored P x.c2.c1)
      (cubicCodec (nr := nr2) true (quadCodec (nr := nr) true (fpCodec mont true P bits))).write
      (cubicCodec (nr := nr2) true (quadCodec (nr := nr) true (fpCodec mont true P bits))).read ∧
    CutSafe (fun v => v.length < 2 ^ 64 ∧ ∀ x ∈ v, (FpStored P x.c0.c0 ∧ FpStored P x.c0.c1) ∧
        (FpStored P x.c1.c0 ∧ FpStored P x.c1.c1) ∧ FpStored P x.c2.c0 ∧ FpStored P x.c2.c1)
      (vecWrite true (cubicCodec (nr := nr2) true (quadCodec (nr := nr) true (fpCodec mont true P bits))).write)
      (extVecRead (cubicCodec (nr := nr2) true (quadCodec (nr := nr) true (fpCodec mont true P bits))).read) :=
  have hl := (cubic_prompt (nr := nr2) (quad_prompt (nr := nr) (fpCodec_prompt mont true P bits))).loc
  have hs := (C24_fp6_3over2 P hP mont true bits hb nr nr2).stream
  ⟨cutSafe_of hs hl, extVec_cutSafe hs hl⟩

/-- **C65**, `Fp12_2over3over2_model`. -/
theorem C65_fp12 (nr : List Limb → List Limb) (nr2 : Quad (List Limb) nr → Quad (List Limb) nr)
    (nr3 : Cubic (Quad (List Limb) nr) nr2 → Cubic (Quad (List Limb) nr) nr2) :
    CutSafe (fun x => ((FpStored P x.c0.c0.c0 ∧ FpStored P x.c0.c0.c1) ∧ (FpStored P x.c0.c1.c0 ∧ FpStored P x.c0.c1.c1) ∧
        FpStored P x.c0.c2.c0 ∧ FpStored P x.c0.c2.c1) ∧
        (FpStored P x.c1.c0.c0 ∧ FpStored P x.c1.c0.c1) ∧ (FpStored P x.c1.c1.c0 ∧ FpStored P x.c1.c1.c1) ∧
        FpStored P x.c1.c2.c0 ∧ FpStored P x.c1.c2.c1)
      (quadCodec (nr := nr3) true (cubicCodec (nr := nr2) true (quadCodec (nr := nr) true (fpCodec mont true P bits)))).write
      (quadCodec (nr := nr3) true (cubicCodec (nr := nr2) true (quadCodec (nr := nr) true (fpCodec mont true P bits)))).read ∧
    CutSafe (fun v => v.length < 2 ^ 64 ∧ ∀ x ∈ v, ((FpStored P x.c0.c0.c0 ∧ FpStored P x.c0.c0.c1) ∧
        (FpStored P x.c0.c1.c0 ∧ FpStored P x.c0.c1.c1) ∧ FpStored P x.c0.c2.c0 ∧ FpStored P x.c0.c2.c1) ∧
        (FpStored P x.c1.c0.c0 ∧ FpStored P x.c1.c0.c1) ∧ (FpStored P x.c1.c1.c0 ∧ FpStored P x.c1.c1.c1) ∧
        FpStored P x.c1.c2.c0 ∧ FpStored P x.c1.c2.c1)
      (vecWrite true (quadCodec (nr := nr3) true (cubicCodec (nr := nr2) true (quadCodec (nr := nr) true
        (fpCodec mont true P bits)))).write)
      (extVecRead (quadCodec (nr := nr3) true (cubicCodec (nr := nr2) true (quadCodec (nr := nr) true
        (fpCodec mont true P bits)))).read) :=
  have hl := (quad_prompt (nr := nr3) (cubic_prompt (nr := nr2) (quad_prompt (nr := nr) (fpCodec_prompt mont true P bits)))).loc
  have hs := (C24_fp12 P hP mont true bits hb nr nr2 nr3).stream
  ⟨cutSafe_of hs hl, extVec_cutSafe hs hl⟩

end

/-! ## What happens at the cut

`CutDetected` alone leaves it open whether the read fails or is undefined. In binary builds it fails; in text builds it can be
undefined, because the empty string is handed to `mpn_set_str`. -/

section
variable (P : FpParams) (hP : P.Valid) (mont : Bool) (bits : Nat)
include hP

/-- **C65.** In binary builds reading field elements and vectors of them is defined on every input, so a cut stream is reported. -/
theorem C65_fields_defined (nr : List Limb → List Limb) (nr4 : Quad (List Limb) nr → Quad (List Limb) nr)
    (nr6 : Cubic (List Limb) nr → Cubic (List Limb) nr)
    (nr12 : Cubic (Quad (List Limb) nr) nr4 → Cubic (Quad (List Limb) nr) nr4) :
    let fp := fpCodec mont true P bits
    let fp2 := quadCodec (nr := nr) true fp
    let fp3 := cubicCodec (nr := nr) true fp
    let fp4 := quadCodec (nr := nr4) true fp2
    let fp6_2over3 := quadCodec (nr := nr6) true fp3
    let fp6_3over2 := cubicCodec (nr := nr4) true fp2
    let fp12 := quadCodec (nr := nr12) true fp6_3over2
    (ReaderDefined fp.read ∧ ReaderDefined fp2.read ∧ ReaderDefined fp3.read ∧ ReaderDefined fp4.read ∧
      ReaderDefined fp6_2over3.read ∧ ReaderDefined fp6_3over2.read ∧ ReaderDefined fp12.read) ∧
    ReaderDefined (vecRead true fp.read) ∧ ReaderDefined (extVecRead fp2.read) ∧ ReaderDefined (extVecRead fp3.read) ∧
      ReaderDefined (vecRead true fp4.read) ∧ ReaderDefined (vecRead true fp6_2over3.read) ∧
      ReaderDefined (extVecRead fp6_3over2.read) ∧ ReaderDefined (extVecRead fp12.read) := by
  intro fp fp2 fp3 fp4 fp6_2over3 fp6_3over2 fp12
  have h : ReaderDefined fp.read := fpRead_binary_defined mont hP
  have h2 : ReaderDefined fp2.read := quad_defined h
  have h3 : ReaderDefined fp3.read := cubic_defined h
  have h4 : ReaderDefined fp4.read := quad_defined h2
  have h6 : ReaderDefined fp6_2over3.read := quad_defined h3
  have h6' : ReaderDefined fp6_3over2.read := cubic_defined h2
  have h12 : ReaderDefined fp12.read := quad_defined h6'
  exact ⟨⟨h, h2, h3, h4, h6, h6', h12⟩, vecRead_defined h, extVecRead_defined h2, extVecRead_defined h3, vecRead_defined h4,
    vecRead_defined h6, extVecRead_defined h6', extVecRead_defined h12⟩

omit hP in
/-- **Finding.** In text builds a stream that ends where a field element is expected is not reported: the behaviour is undefined. -/
theorem C65_text_cut_undefined (k : Nat) (hk : k + 1 < 2 ^ 64) :
    fpRead mont false P [] = .ub ∧ vecRead false (fpRead mont false P) (writeNat (k + 1) ++ newline) = .ub := by
  refine ⟨rfl, ?_⟩
  have h := readSize_write (k + 1) hk [] newline (by simp) (newline_not_digit [])
  rw [List.nil_append] at h
  rw [vecRead, h, Outcome.bind_ok]
  rfl

end

/-- **C65.** In binary builds with the default (non-Montgomery) format reading points of the Weierstrass classes over Fp, Fp2 and Fp3
is defined on every input. -/
theorem C65_points_defined (P : FpParams) [hP : Fact P.Valid] [hp : Fact P.p.Prime] (compress debug : Bool) (bits : Nat)
    (C : SqrtConsts (Fp P)) (fuel : Nat) (a b : Fp P) (β : Fp P) (C2 : SqrtConsts (Fp2 (Fp P) β)) (a2 b2 : Fp2 (Fp P) β)
    (C3 : SqrtConsts (Fp3 (Fp P) β)) (a3 b3 : Fp3 (Fp P) β) :
    ReaderDefined (Jac.read true compress (fpObjCodec false true P bits) (fpLsb P) (fieldSqrt debug C fuel) b) ∧
    ReaderDefined (Proj.read true compress (fpObjCodec false true P bits) (fpLsb P) (fieldSqrt debug C fuel) a b) ∧
    ReaderDefined (Jac.read true compress (quadCodec true (fpObjCodec false true P bits)) (fp2Lsb P) (fieldSqrt debug C2 fuel) b2) ∧
    ReaderDefined (Proj.read true compress (quadCodec true (fpObjCodec false true P bits)) (fp2Lsb P) (fieldSqrt debug C2 fuel) a2 b2) ∧
    ReaderDefined (Proj.read true compress (cubicCodec true (fpObjCodec false true P bits)) (fp3Lsb P) (fieldSqrt debug C3 fuel) a3 b3) := by
  have h := fpObjCodec_binary_defined hP.out bits
  have hl := fpLsb_ne_ub P hP.out
  exact ⟨swRead_defined h hl (fieldSqrt_ne_ub _ _ _) _ _, swRead_defined h hl (fieldSqrt_ne_ub _ _ _) _ _,
    swRead_defined (quad_defined h) (fun y => hl y.c0) (fieldSqrt_ne_ub _ _ _) _ _,
    swRead_defined (quad_defined h) (fun y => hl y.c0) (fieldSqrt_ne_ub _ _ _) _ _,
    swRead_defined (cubic_defined h) (fun y => hl y.c0) (fieldSqrt_ne_ub _ _ _) _ _⟩

theorem edwRead_defined {K : Type} [Field K] [DecidableEq K] [Squared K] [InverseO K] [LawfulInverse K] {binary compress : Bool}
    {c : FieldCodec K} {lsb : K → Outcome Bool} {sqrt : K → Outcome K} (h : ReaderDefined c.read) (hl : ∀ y, lsb y ≠ .ub)
    (hs : ∀ a, sqrt a ≠ .ub) (debug mixed : Bool) (mulA mulD : K → K) :
    ReaderDefined (Edw.read binary compress c lsb sqrt debug mixed mulA mulD) := by
  have hi : ∀ x : K, inverseO x ≠ .ub := fun x => by
    by_cases hx : x = 0
    · rw [hx, LawfulInverse.inverseO_zero]; exact fun h => by cases h
    · rw [LawfulInverse.inverseO_ne _ hx]; exact fun h => by cases h
  intro s
  rw [Edw.read]
  refine bind_ne_ub ?_ fun r _ => ?_
  · rw [Edw.readAffine]
    refine bind_ne_ub (h _) fun _ _ => bind_ne_ub (consumeOutputSeparator_ne_ub _ _) fun _ _ => ?_
    split
    · exact bind_ne_ub (readRaw_defined _) fun _ _ => bind_ne_ub (hi _) fun _ _ => bind_ne_ub (hs _) fun _ _ => map_ne_ub (map_ne_ub (hl _))
    · exact map_ne_ub (h _)
  · dsimp only
    split
    · refine map_ne_ub ?_
      rw [Edw.toSpecial]
      split
      · exact fun h => by cases h
      · refine bind_ne_ub (hi _) fun _ _ => ?_
        dsimp only
        split <;> exact fun h => by cases h
    · exact fun h => by cases h

/-- **C65.** The same for the Edwards classes over Fp and Fp3. -/
theorem C65_edwards_points_defined (P : FpParams) [hP : Fact P.Valid] [hp : Fact P.p.Prime] (compress debug mixed : Bool) (bits : Nat)
    (C : SqrtConsts (Fp P)) (fuel : Nat) (mulA mulD : Fp P → Fp P) (β : Fp P) [Fact (∀ y : Fp P, y * y * y ≠ β)]
    (C3 : SqrtConsts (Fp3 (Fp P) β)) (mulA3 mulD3 : Fp3 (Fp P) β → Fp3 (Fp P) β) :
    ReaderDefined (Edw.read true compress (fpObjCodec false true P bits) (fpLsb P) (fieldSqrt debug C fuel) debug mixed mulA mulD) ∧
    ReaderDefined (Edw.read true compress (cubicCodec true (fpObjCodec false true P bits)) (fp3Lsb P) (fieldSqrt debug C3 fuel) debug mixed
      mulA3 mulD3) := by
  have h := fpObjCodec_binary_defined hP.out bits
  have hl := fpLsb_ne_ub P hP.out
  exact ⟨edwRead_defined h hl (fieldSqrt_ne_ub _ _ _) _ _ _ _, edwRead_defined (cubic_defined h) (fun y => hl y.c0) (fieldSqrt_ne_ub _ _ _) _ _ _ _⟩

/-- The hypotheses are met by the field of edwards. -/
example : Fact edwards_Fq_params.Valid ∧ Fact edwards_Fq_params.p.Prime ∧ Fact (∀ y : edwards_Fq, y * y * y ≠ edwards_β) :=
  ⟨inferInstance, inferInstance, inferInstance⟩

/-! ## Bools and bit vectors -/

/-- **C65**, bools and vectors of bools (`output_bool`, `output_bool_vector`). -/
theorem C65_bool (debug : Bool) : CutSafe (fun _ => True) (fun b => .ok (outputBool b)) (inputBool debug) ∧
    CutSafe (fun v => v.length < 2 ^ 64) (fun v => .ok (outputBoolVector v)) (inputBoolVector debug) := by
  constructor
  · intro b _
    have h := C47_bool debug b []
    rw [List.append_nil] at h
    exact ⟨_, rfl, h, (inputBool_local debug).cutDetected h⟩
  · intro v hv
    have h := C47_bool_vector debug v hv []
    rw [List.append_nil] at h
    exact ⟨_, rfl, h, (inputBoolVector_local debug).cutDetected h⟩

/-! ## Maps and sets -/

/-- **C65**, maps from field elements to vectors of field elements and sets of field elements, both formats, for any order. -/
theorem C65_map_set (P : FpParams) (hP : P.Valid) (mont binary : Bool) (bits : Nat) (hb : BitSize P bits)
    (lt : List Limb → List Limb → Bool) (hlt : ∀ a b, lt a b = true → lt b a = false) :
    CutSafe (fun m => m.length < 2 ^ 64 ∧ (m.Pairwise fun a b => lt a.1 b.1 = true) ∧
        ∀ e ∈ m, FpStored P e.1 ∧ (e.2.length < 2 ^ 64 ∧ ∀ x ∈ e.2, FpStored P x))
      (mapWrite (fpWrite mont binary P) (vecWrite binary (fpWrite mont binary P)))
      (mapRead lt (fpRead mont binary P) (vecRead binary (fpRead mont binary P))) ∧
    CutSafe (fun m => m.length < 2 ^ 64 ∧ (m.Pairwise fun a b => lt a b = true) ∧ ∀ e ∈ m, FpStored P e)
      (setWrite (fpWrite mont binary P)) (setRead lt (fpRead mont binary P)) :=
  have hs := (C24_fp P hP mont binary bits hb).stream
  have hl := (fpRead_prompt mont binary P).loc
  ⟨cutSafe_of (C47_map lt hlt hs (C47_vector hs)) (mapRead_local hl (vecRead_local hl)),
    cutSafe_of (C47_set lt hlt hs) (setRead_local hl)⟩

/-! ## Points -/

/-- What is claimed of a point: it is written, read back as a representative `q` of the same point, and no proper prefix is read. -/
def PointCutSafe {K α : Type} (Rep : Coord3 K → α → Prop) (write : Coord3 K → Outcome (List Byte)) (read : Reader (Coord3 K))
    (g : Coord3 K) (Q : α) : Prop :=
  ∃ out q, write g = .ok out ∧ read out = .ok (q, []) ∧ Rep q Q ∧ CutDetected out read

theorem ReadsBack.cut {K α : Type} {Rep : Coord3 K → α → Prop} {ok : List Byte → Prop} {write : Coord3 K → Outcome (List Byte)}
    {read : Reader (Coord3 K)} {g q : Coord3 K} {Q : α} (h : ReadsBack ok write read g q) (h0 : ok []) (hq : Rep q Q)
    (hl : LocalIf true read) : PointCutSafe Rep write read g Q := by
  obtain ⟨out, h1, h2⟩ := h
  have h3 := h2 [] h0
  rw [List.append_nil] at h3
  exact ⟨out, q, h1, h3, hq, hl.cutDetected h3⟩

theorem pointCont_nil (binary compress : Bool) : PointCont binary compress [] := Or.inr (Or.inr fun c hc => by cases hc)

section G1
variable (P : FpParams) [hP : Fact P.Valid] [hp : Fact P.p.Prime] (mont binary compress debug mixed : Bool) (bits : Nat)
  (hb : BitSize P bits) (C : SqrtConsts (Fp P)) (hC : C.Valid) (fuel : Nat) (hf : C.s ≤ fuel) (hbc : (binary || compress) = true)
include hP hp hb hC hf hbc

/-- **C65**, `alt_bn128_G1` and `bls12_381_G1`, unless the build is `NO_PT_COMPRESSION` without `BINARY_OUTPUT`. -/
theorem C65_jacobian_g1 (b : Fp P) {g : Coord3 (Fp P)} {Q : (sw 0 b).Point} (hg : JacRep g Q) :
    PointCutSafe JacRep (Jac.write binary compress (fpObjCodec mont binary P bits) (fpLsb P))
      (Jac.read binary compress (fpObjCodec mont binary P bits) (fpLsb P) (fieldSqrt debug C fuel) b) g Q := by
  obtain ⟨q, h1, h2, -⟩ := C39_jacobian_g1 P mont binary compress debug bits hb C hC fuel hf b hg
  exact h1.cut (pointCont_nil _ _) h2 (hbc ▸ swRead_local (fpObjCodec_prompt mont binary P bits) _ _)

/-- **C65**, `mnt4_G1` and `mnt6_G1`. -/
theorem C65_projective_g1 (a b : Fp P) {g : Coord3 (Fp P)} {Q : (sw a b).Point} (hg : ProjRep g Q) :
    PointCutSafe ProjRep (Proj.write binary compress (fpObjCodec mont binary P bits) (fpLsb P))
      (Proj.read binary compress (fpObjCodec mont binary P bits) (fpLsb P) (fieldSqrt debug C fuel) a b) g Q := by
  obtain ⟨q, h1, h2, -⟩ := C39_projective_g1 P mont binary compress debug bits hb C hC fuel hf a b hg
  exact h1.cut (pointCont_nil _ _) h2 (hbc ▸ swRead_local (fpObjCodec_prompt mont binary P bits) _ _)

/-- **C65**, `edwards_G1`. -/
theorem C65_edwards_g1 (d : Fp P) (hd : 1 - d ≠ 0) {g : Coord3 (Fp P)} {Q : (edwW 1 d).Point} (hg : EdwRep g Q) :
    PointCutSafe EdwRep (Edw.write binary compress (fpObjCodec mont binary P bits) (fpLsb P))
      (Edw.read binary compress (fpObjCodec mont binary P bits) (fpLsb P) (fieldSqrt debug C fuel) debug mixed
        (fun x => x) (fun x => d * x)) g Q := by
  obtain ⟨q, h1, h2, -⟩ := C39_edwards_g1 P mont binary compress debug mixed bits hb C hC fuel hf d hd hg
  exact h1.cut (pointCont_nil _ _) h2 (hbc ▸ Edw.read_local (fpObjCodec_prompt mont binary P bits) _ _ _ _)

end G1

theorem LocalIf.toBinary {α : Type} {binary b : Bool} {R : Reader α} (h : LocalIf (binary || b) R) : LocalIf binary R :=
  fun s y r hs hb u => h s y r hs (hb.imp (fun e => by rw [e]; rfl) id) u

/-- What is claimed of a vector of points. -/
def PointsCutSafe {K α : Type} (Rep : Coord3 K → α → Prop) (write : List (Coord3 K) → Outcome (List Byte))
    (read : Reader (List (Coord3 K))) (v : List (Coord3 K)) (Qs : List α) : Prop :=
  ∃ out w, write v = .ok out ∧ read out = .ok (w, []) ∧ List.Forall₂ Rep w Qs ∧ CutDetected out read

theorem ReadsBack.cutVec {K α : Type} {Rep : Coord3 K → α → Prop} {write : List (Coord3 K) → Outcome (List Byte)}
    {read : Reader (List (Coord3 K))} {v w : List (Coord3 K)} {Qs : List α} (h : ReadsBack (fun _ => True) write read v w)
    (hw : List.Forall₂ Rep w Qs) (hl : LocalIf true read) : PointsCutSafe Rep write read v Qs := by
  obtain ⟨out, h1, h2⟩ := h
  have h3 := h2 [] trivial
  rw [List.append_nil] at h3
  exact ⟨out, w, h1, h3, hw, hl.cutDetected h3⟩

section G1vec
variable (P : FpParams) [hP : Fact P.Valid] [hp : Fact P.p.Prime] (mont binary compress debug mixed : Bool) (bits : Nat)
  (hb : BitSize P bits) (C : SqrtConsts (Fp P)) (hC : C.Valid) (fuel : Nat) (hf : C.s ≤ fuel)
include hP hp hb hC hf

/-- **C65**, vectors of `alt_bn128_G1`, `bls12_381_G1`, in all builds. -/
theorem C65_jacobian_g1_vector (b : Fp P) {v : List (Coord3 (Fp P))} {Qs : List (sw 0 b).Point}
    (hv : List.Forall₂ JacRep v Qs) (hl : v.length < 2 ^ 64) :
    PointsCutSafe JacRep (vecWrite binary (Jac.write binary compress (fpObjCodec mont binary P bits) (fpLsb P)))
      (vecRead binary (Jac.read binary compress (fpObjCodec mont binary P bits) (fpLsb P) (fieldSqrt debug C fuel) b)) v Qs := by
  obtain ⟨w, h1, h2⟩ := C39_jacobian_g1_vector P mont binary compress debug bits hb C hC fuel hf b hv hl
  exact h1.cutVec h2 (vecRead_local (swRead_local (fpObjCodec_prompt mont binary P bits) _ _).toBinary)

/-- **C65**, vectors of `mnt4_G1`, `mnt6_G1`. -/
theorem C65_projective_g1_vector (a b : Fp P) {v : List (Coord3 (Fp P))} {Qs : List (sw a b).Point}
    (hv : List.Forall₂ ProjRep v Qs) (hl : v.length < 2 ^ 64) :
    PointsCutSafe ProjRep (vecWrite binary (Proj.write binary compress (fpObjCodec mont binary P bits) (fpLsb P)))
      (vecRead binary (Proj.read binary compress (fpObjCodec mont binary P bits) (fpLsb P) (fieldSqrt debug C fuel) a b)) v Qs := by
  obtain ⟨w, h1, h2⟩ := C39_projective_g1_vector P mont binary compress debug bits hb C hC fuel hf a b hv hl
  exact h1.cutVec h2 (vecRead_local (swRead_local (fpObjCodec_prompt mont binary P bits) _ _).toBinary)

/-- **C65**, vectors of `edwards_G1`. -/
theorem C65_edwards_g1_vector (d : Fp P) (hd : 1 - d ≠ 0) {v : List (Coord3 (Fp P))} {Qs : List (edwW 1 d).Point}
    (hv : List.Forall₂ EdwRep v Qs) (hl : v.length < 2 ^ 64) :
    PointsCutSafe EdwRep (vecWrite binary (Edw.write binary compress (fpObjCodec mont binary P bits) (fpLsb P)))
      (vecRead binary (Edw.read binary compress (fpObjCodec mont binary P bits) (fpLsb P) (fieldSqrt debug C fuel) debug mixed
        (fun x => x) (fun x => d * x))) v Qs := by
  obtain ⟨w, h1, h2⟩ := C39_edwards_g1_vector P mont binary compress debug mixed bits hb C hC fuel hf d hd hv hl
  exact h1.cutVec h2 (vecRead_local (Edw.read_local (fpObjCodec_prompt mont binary P bits) _ _ _ _).toBinary)

end G1vec

section G2
variable (P : FpParams) [hP : Fact P.Valid] [hp : Fact P.p.Prime] (mont binary compress debug mixed : Bool) (bits : Nat)
  (hb : BitSize P bits) (β : Fp P) (hbc : (binary || compress) = true)
include hP hp hb hbc

/-- **C65**, `alt_bn128_G2` and `bls12_381_G2`, for the points that C39 shows to be read back. -/
theorem C65_jacobian_g2 [Fact (¬ IsSquare β)] (C : SqrtConsts (Fp2 (Fp P) β)) (hC : C.Valid) (fuel : Nat)
    (hf : C.s ≤ fuel) (b : Fp2 (Fp P) β) {g : Coord3 (Fp2 (Fp P) β)} {Q : (sw 0 b).Point} (hg : JacRep g Q)
    (hy : compress = true → ∀ x y h, Q = Point.some x y h → y.c0 ≠ 0 ∨ y = 0) :
    PointCutSafe JacRep (Jac.write binary compress (quadCodec binary (fpObjCodec mont binary P bits)) (fp2Lsb P))
      (Jac.read binary compress (quadCodec binary (fpObjCodec mont binary P bits)) (fp2Lsb P) (fieldSqrt debug C fuel) b) g Q := by
  obtain ⟨q, h1, h2, -⟩ := C39_jacobian_g2 P mont binary compress debug bits hb β C hC fuel hf b hg hy
  exact h1.cut (pointCont_nil _ _) h2 (hbc ▸ swRead_local (quad_prompt (fpObjCodec_prompt mont binary P bits)) _ _)

/-- **C65**, `mnt4_G2`. -/
theorem C65_projective_g2 [Fact (¬ IsSquare β)] (C : SqrtConsts (Fp2 (Fp P) β)) (hC : C.Valid) (fuel : Nat)
    (hf : C.s ≤ fuel) (a b : Fp2 (Fp P) β) {g : Coord3 (Fp2 (Fp P) β)} {Q : (sw a b).Point} (hg : ProjRep g Q)
    (hy : compress = true → ∀ x y h, Q = Point.some x y h → y.c0 ≠ 0 ∨ y = 0) :
    PointCutSafe ProjRep (Proj.write binary compress (quadCodec binary (fpObjCodec mont binary P bits)) (fp2Lsb P))
      (Proj.read binary compress (quadCodec binary (fpObjCodec mont binary P bits)) (fp2Lsb P) (fieldSqrt debug C fuel) a b) g Q := by
  obtain ⟨q, h1, h2, -⟩ := C39_projective_g2 P mont binary compress debug bits hb β C hC fuel hf a b hg hy
  exact h1.cut (pointCont_nil _ _) h2 (hbc ▸ swRead_local (quad_prompt (fpObjCodec_prompt mont binary P bits)) _ _)

/-- **C65**, `mnt6_G2`. -/
theorem C65_projective_g2_fp3 [Fact (∀ y : Fp P, y * y * y ≠ β)] (C : SqrtConsts (Fp3 (Fp P) β)) (hC : C.Valid)
    (fuel : Nat) (hf : C.s ≤ fuel) (a b : Fp3 (Fp P) β) {g : Coord3 (Fp3 (Fp P) β)} {Q : (sw a b).Point}
    (hg : ProjRep g Q) (hy : compress = true → ∀ x y h, Q = Point.some x y h → y.c0 ≠ 0 ∨ y = 0) :
    PointCutSafe ProjRep (Proj.write binary compress (cubicCodec binary (fpObjCodec mont binary P bits)) (fp3Lsb P))
      (Proj.read binary compress (cubicCodec binary (fpObjCodec mont binary P bits)) (fp3Lsb P) (fieldSqrt debug C fuel) a b) g Q := by
  obtain ⟨q, h1, h2, -⟩ := C39_projective_g2_fp3 P mont binary compress debug bits hb β C hC fuel hf a b hg hy
  exact h1.cut (pointCont_nil _ _) h2 (hbc ▸ swRead_local (cubic_prompt (fpObjCodec_prompt mont binary P bits)) _ _)

/-- **C65**, `edwards_G2`. -/
theorem C65_edwards_g2 [Fact (∀ y : Fp P, y * y * y ≠ β)] (C : SqrtConsts (Fp3 (Fp P) β)) (hC : C.Valid)
    (fuel : Nat) (hf : C.s ≤ fuel) {mulA mulD : Fp3 (Fp P) β → Fp3 (Fp P) β} {a d : Fp3 (Fp P) β}
    (hA : ∀ x, mulA x = a * x) (hD : ∀ x, mulD x = d * x) (had : a - d ≠ 0) {g : Coord3 (Fp3 (Fp P) β)}
    {Q : (edwW a d).Point} (hg : EdwRep g Q) (hy : compress = true → Q ≠ 0 → (g.Z / g.Y).c0 ≠ 0) :
    PointCutSafe EdwRep (Edw.write binary compress (cubicCodec binary (fpObjCodec mont binary P bits)) (fp3Lsb P))
      (Edw.read binary compress (cubicCodec binary (fpObjCodec mont binary P bits)) (fp3Lsb P) (fieldSqrt debug C fuel) debug mixed
        mulA mulD) g Q := by
  obtain ⟨q, h1, h2, -⟩ := C39_edwards_g2 P mont binary compress debug mixed bits hb β C hC fuel hf hA hD had hg hy
  exact h1.cut (pointCont_nil _ _) h2 (hbc ▸ Edw.read_local (cubic_prompt (fpObjCodec_prompt mont binary P bits)) _ _ _ _)

end G2

section G2vec
variable (P : FpParams) [hP : Fact P.Valid] [hp : Fact P.p.Prime] (mont binary compress debug mixed : Bool) (bits : Nat)
  (hb : BitSize P bits) (β : Fp P)
include hP hp hb

/-- **C65**, vectors of `alt_bn128_G2`, `bls12_381_G2`, in all builds. -/
theorem C65_jacobian_g2_vector [Fact (¬ IsSquare β)] (C : SqrtConsts (Fp2 (Fp P) β)) (hC : C.Valid) (fuel : Nat)
    (hf : C.s ≤ fuel) (b : Fp2 (Fp P) β) {v : List (Coord3 (Fp2 (Fp P) β))} {Qs : List (sw 0 b).Point}
    (hv : List.Forall₂ JacRep v Qs) (hl : v.length < 2 ^ 64)
    (hy : compress = true → ∀ Q ∈ Qs, ∀ x y h, Q = Point.some x y h → y.c0 ≠ 0 ∨ y = 0) :
    PointsCutSafe JacRep (vecWrite binary (Jac.write binary compress (quadCodec binary (fpObjCodec mont binary P bits)) (fp2Lsb P)))
      (vecRead binary (Jac.read binary compress (quadCodec binary (fpObjCodec mont binary P bits)) (fp2Lsb P)
        (fieldSqrt debug C fuel) b)) v Qs := by
  obtain ⟨w, h1, h2⟩ := C39_jacobian_g2_vector P mont binary compress debug bits hb β C hC fuel hf b hv hl hy
  exact h1.cutVec h2 (vecRead_local (swRead_local (quad_prompt (fpObjCodec_prompt mont binary P bits)) _ _).toBinary)

/-- **C65**, vectors of `mnt4_G2`. -/
theorem C65_projective_g2_vector [Fact (¬ IsSquare β)] (C : SqrtConsts (Fp2 (Fp P) β)) (hC : C.Valid) (fuel : Nat)
    (hf : C.s ≤ fuel) (a b : Fp2 (Fp P) β) {v : List (Coord3 (Fp2 (Fp P) β))} {Qs : List (sw a b).Point}
    (hv : List.Forall₂ ProjRep v Qs) (hl : v.length < 2 ^ 64)
    (hy : compress = true → ∀ Q ∈ Qs, ∀ x y h, Q = Point.some x y h → y.c0 ≠ 0 ∨ y = 0) :
    PointsCutSafe ProjRep (vecWrite binary (Proj.write binary compress (quadCodec binary (fpObjCodec mont binary P bits)) (fp2Lsb P)))
      (vecRead binary (Proj.read binary compress (quadCodec binary (fpObjCodec mont binary P bits)) (fp2Lsb P)
        (fieldSqrt debug C fuel) a b)) v Qs := by
  obtain ⟨w, h1, h2⟩ := C39_projective_g2_vector P mont binary compress debug bits hb β C hC fuel hf a b hv hl hy
  exact h1.cutVec h2 (vecRead_local (swRead_local (quad_prompt (fpObjCodec_prompt mont binary P bits)) _ _).toBinary)

/-- **C65**, vectors of `mnt6_G2`. -/
theorem C65_projective_g2_fp3_vector [Fact (∀ y : Fp P, y * y * y ≠ β)] (C : SqrtConsts (Fp3 (Fp P) β))
    (hC : C.Valid) (fuel : Nat) (hf : C.s ≤ fuel) (a b : Fp3 (Fp P) β) {v : List (Coord3 (Fp3 (Fp P) β))}
    {Qs : List (sw a b).Point} (hv : List.Forall₂ ProjRep v Qs) (hl : v.length < 2 ^ 64)
    (hy : compress = true → ∀ Q ∈ Qs, ∀ x y h, Q = Point.some x y h → y.c0 ≠ 0 ∨ y = 0) :
    PointsCutSafe ProjRep (vecWrite binary (Proj.write binary compress (cubicCodec binary (fpObjCodec mont binary P bits)) (fp3Lsb P)))
      (vecRead binary (Proj.read binary compress (cubicCodec binary (fpObjCodec mont binary P bits)) (fp3Lsb P)
        (fieldSqrt debug C fuel) a b)) v Qs := by
  obtain ⟨w, h1, h2⟩ := C39_projective_g2_fp3_vector P mont binary compress debug bits hb β C hC fuel hf a b hv hl hy
  exact h1.cutVec h2 (vecRead_local (swRead_local (cubic_prompt (fpObjCodec_prompt mont binary P bits)) _ _).toBinary)

/-- **C65**, vectors of `edwards_G2`. -/
theorem C65_edwards_g2_vector [Fact (∀ y : Fp P, y * y * y ≠ β)] (C : SqrtConsts (Fp3 (Fp P) β)) (hC : C.Valid)
    (fuel : Nat) (hf : C.s ≤ fuel) {mulA mulD : Fp3 (Fp P) β → Fp3 (Fp P) β} {a d : Fp3 (Fp P) β}
    (hA : ∀ x, mulA x = a * x) (hD : ∀ x, mulD x = d * x) (had : a - d ≠ 0) {v : List (Coord3 (Fp3 (Fp P) β))}
    {Qs : List (edwW a d).Point}
    (hv : List.Forall₂ (fun g Q => EdwRep g Q ∧ (compress = true → Q ≠ 0 → (g.Z / g.Y).c0 ≠ 0)) v Qs)
    (hl : v.length < 2 ^ 64) :
    PointsCutSafe EdwRep (vecWrite binary (Edw.write binary compress (cubicCodec binary (fpObjCodec mont binary P bits)) (fp3Lsb P)))
      (vecRead binary (Edw.read binary compress (cubicCodec binary (fpObjCodec mont binary P bits)) (fp3Lsb P)
        (fieldSqrt debug C fuel) debug mixed mulA mulD)) v Qs := by
  obtain ⟨w, h1, h2⟩ := C39_edwards_g2_vector P mont binary compress debug mixed bits hb β C hC fuel hf hA hD had hv hl
  exact h1.cutVec h2 (vecRead_local (Edw.read_local (cubic_prompt (fpObjCodec_prompt mont binary P bits)) _ _ _ _).toBinary)

end G2vec

/-! ## Precomputed pairing arguments -/

section
variable (P : FpParams) [hP : Fact P.Valid] [hp : Fact P.p.Prime] (mont : Bool) (bits : Nat) (hb : BitSize P bits) (β : Fp P)
include hP hp hb

/-- **C65**, alt_bn128 and bls12_381: G1 precomputations in the binary format, G2 precomputations in both. -/
theorem C65_precomp12 :
    CutSafe (fun _ => True) (AteG1Precomp.write true (fpObjCodec mont true P bits))
      (AteG1Precomp.read true (fpObjCodec mont true P bits)) ∧
    ∀ binary, CutSafe (fun q : AteG2Precomp (Fp2 (Fp P) β) => q.coeffs.length < 2 ^ 64)
      (AteG2Precomp.write binary (quadCodec binary (fpObjCodec mont binary P bits)))
      (AteG2Precomp.read binary (quadCodec binary (fpObjCodec mont binary P bits))) :=
  ⟨cutSafe_of (C58_curves12 P mont true bits hb β).1 (AteG1Precomp.read_local (fpObjCodec_prompt mont true P bits)),
    fun binary => cutSafe_of (C58_curves12 P mont binary bits hb β).2
      (AteG2Precomp.read_local (quad_prompt (fpObjCodec_prompt mont binary P bits)))⟩

/-- **C65**, mnt4. -/
theorem C65_precomp_mnt4 :
    CutSafe (fun _ : MntG1Precomp (Fp P) (Fp2 (Fp P) β) => True)
      (MntG1Precomp.write true (fpObjCodec mont true P bits) (quadCodec true (fpObjCodec mont true P bits)))
      (MntG1Precomp.read true (fpObjCodec mont true P bits) (quadCodec true (fpObjCodec mont true P bits))) ∧
    ∀ binary, CutSafe (fun q : MntG2Precomp (Fp2 (Fp P) β) => q.dbl_coeffs.length < 2 ^ 64 ∧ q.add_coeffs.length < 2 ^ 64)
      (MntG2Precomp.write binary (quadCodec binary (fpObjCodec mont binary P bits)))
      (MntG2Precomp.read binary (quadCodec binary (fpObjCodec mont binary P bits))) :=
  ⟨cutSafe_of (C58_mnt4 P mont true bits hb β).1
      (MntG1Precomp.read_local (fpObjCodec_prompt mont true P bits) (quad_prompt (fpObjCodec_prompt mont true P bits))),
    fun binary => cutSafe_of (C58_mnt4 P mont binary bits hb β).2
      (MntG2Precomp.read_local (quad_prompt (fpObjCodec_prompt mont binary P bits)))⟩

/-- **C65**, mnt6. -/
theorem C65_precomp_mnt6 :
    CutSafe (fun _ : MntG1Precomp (Fp P) (Fp3 (Fp P) β) => True)
      (MntG1Precomp.write true (fpObjCodec mont true P bits) (cubicCodec true (fpObjCodec mont true P bits)))
      (MntG1Precomp.read true (fpObjCodec mont true P bits) (cubicCodec true (fpObjCodec mont true P bits))) ∧
    ∀ binary, CutSafe (fun q : MntG2Precomp (Fp3 (Fp P) β) => q.dbl_coeffs.length < 2 ^ 64 ∧ q.add_coeffs.length < 2 ^ 64)
      (MntG2Precomp.write binary (cubicCodec binary (fpObjCodec mont binary P bits)))
      (MntG2Precomp.read binary (cubicCodec binary (fpObjCodec mont binary P bits))) :=
  ⟨cutSafe_of (C58_mnt6 P mont true bits hb β).1
      (MntG1Precomp.read_local (fpObjCodec_prompt mont true P bits) (cubic_prompt (fpObjCodec_prompt mont true P bits))),
    fun binary => cutSafe_of (C58_mnt6 P mont binary bits hb β).2
      (MntG2Precomp.read_local (cubic_prompt (fpObjCodec_prompt mont binary P bits)))⟩

/-- **C65**, edwards: `edwards_ate_G1_precomp` and `edwards_tate_G2_precomp` in the binary format, the lists of conics in both. -/
theorem C65_precomp_edwards :
    CutSafe (fun _ => True) (EdwG1Precomp.write true (fpObjCodec mont true P bits)) (EdwG1Precomp.read (fpObjCodec mont true P bits)) ∧
    CutSafe (fun _ : EdwTateG2Precomp (Fp3 (Fp P) β) => True)
      (EdwTateG2Precomp.write true (cubicCodec true (fpObjCodec mont true P bits)))
      (EdwTateG2Precomp.read true (cubicCodec true (fpObjCodec mont true P bits))) ∧
    ∀ binary, CutSafe (fun l : List (ConicCoeffs (Fp3 (Fp P) β)) => l.length < 2 ^ 64)
        (conicsWrite binary (cubicCodec binary (fpObjCodec mont binary P bits)))
        (conicsRead binary (cubicCodec binary (fpObjCodec mont binary P bits))) ∧
      CutSafe (fun l : List (ConicCoeffs (Fp P)) => l.length < 2 ^ 64)
        (conicsWrite binary (fpObjCodec mont binary P bits)) (conicsRead binary (fpObjCodec mont binary P bits)) :=
  ⟨cutSafe_of (C58_edwards P mont true bits hb β).1 (EdwG1Precomp.read_local (fpObjCodec_prompt mont true P bits)),
    cutSafe_of (C58_edwards P mont true bits hb β).2.2.2
      (EdwTateG2Precomp.read_local (cubic_prompt (fpObjCodec_prompt mont true P bits))),
    fun binary => ⟨cutSafe_of (C58_edwards P mont binary bits hb β).2.1
        (conicsRead_local (cubic_prompt (fpObjCodec_prompt mont binary P bits))),
      cutSafe_of (C58_edwards P mont binary bits hb β).2.2.1 (conicsRead_local (fpObjCodec_prompt mont binary P bits))⟩⟩

end

/-! ## Bit vectors: only the last newline can be lost -/

theorem readList_nil {α : Type} {R : Reader α} {after : List Byte → Outcome (List Byte)} (h : Needs R) {k : Nat}
    {y : List α} {r : List Byte} (hr : readList R after k [] = .ok (y, r)) : k = 0 ∧ y = [] := by
  cases k with
  | zero => exact ⟨rfl, (congrArg Prod.fst (Outcome.ok.inj hr)).symm⟩
  | succ k => exact absurd hr (needs_bind h _)

theorem readBool_needs : Needs readBool := needs_bind readSize_needs

theorem readBool_digit (b : Bool) (pre rest : List Byte) (hp : ∀ c ∈ pre, isSpace c = true)
    (hr : ∀ c ∈ rest.head?, isDigit c = false) : readBool (pre ++ (writeNat (if b then 1 else 0) ++ rest)) = .ok (b, rest) := by
  rw [readBool, readSize_write _ (by cases b <;> decide) pre rest hp hr, Outcome.bind_ok]
  cases b <;> simp

theorem readBools_cut : ∀ (v : List Bool) (t u : List Byte), (v.flatMap fun b => writeNat (if b then 1 else 0) ++ newline) = t ++ u →
    ∀ y r, readList readBool .ok v.length (newline ++ t) = .ok (y, r) → y = v
  | [], t, u, _, y, r, h => (congrArg Prod.fst (Outcome.ok.inj h)).symm
  | b :: v, t, u, ho, y, r, h => by
    obtain ⟨d, hd⟩ : ∃ d, writeNat (if b then 1 else 0) = [d] := by cases b <;> exact ⟨_, rfl⟩
    rw [List.length_cons, readList] at h
    obtain ⟨⟨b', r1⟩, h1, h2⟩ := Outcome.bind_eq_ok.1 h
    rw [Outcome.bind_ok] at h2
    obtain ⟨⟨v', r2⟩, h3, h4⟩ := Outcome.map_eq_ok.1 h2
    have e1 : b' :: v' = y := congrArg Prod.fst h4
    rw [List.flatMap_cons, hd, List.singleton_append] at ho
    match t, ho with
    | [], _ => exact absurd h1 (by simp [readBool, readSize, newline, isSpace])
    | [c], ho =>
      have hc : d = c := (List.cons.inj ho).1
      have h5 := readBool_digit b newline [] (by simp [newline, isSpace]) (by simp)
      rw [List.append_nil, hd, hc] at h5
      rw [h5] at h1
      have h6 := Outcome.ok.inj h1
      have e2 : b = b' := congrArg Prod.fst h6
      have e3 : [] = r1 := congrArg Prod.snd h6
      subst e2 e3
      obtain ⟨h7, h8⟩ := readList_nil readBool_needs h3
      rw [← e1, h8, List.eq_nil_of_length_eq_zero h7]
    | c :: c' :: t, ho =>
      obtain ⟨hc, ho⟩ := List.cons.inj ho
      obtain ⟨hc', ho⟩ := List.cons.inj ho
      have h5 := readBool_digit b newline (newline ++ t) (by simp [newline, isSpace]) (newline_not_digit t)
      rw [hd] at h5
      have h6 : newline ++ c :: c' :: t = newline ++ ([d] ++ (newline ++ t)) := by rw [hc, ← hc']; rfl
      rw [h6, h5] at h1
      have h7 := Outcome.ok.inj h1
      have e2 : b = b' := congrArg Prod.fst h7
      have e3 : newline ++ t = r1 := congrArg Prod.snd h7
      subst e2 e3
      rw [← e1, readBools_cut v t u ho v' r2 h3]

theorem writeNat_snoc {n : Nat} (hn : 10 ≤ n) : writeNat n = writeNat (n / 10) ++ [digitCode (n % 10)] := by
  have h1 : decDigits n = decDigits (n / 10) ++ [n % 10] := by
    rw [decDigits, decDigits, if_neg (by omega), if_neg (by omega), Nat.digits_def' (by norm_num) (by omega), List.reverse_cons]
  rw [writeNat, h1, List.map_append]
  rfl

theorem writeNat_small {n : Nat} (hn : n < 10) : ∃ c, writeNat n = [c] := by
  rw [writeNat, decDigits]
  split
  · exact ⟨_, rfl⟩
  · rename_i h
    rw [Nat.digits_of_lt 10 n h hn]
    exact ⟨_, rfl⟩

/-- A nonempty prefix of a decimal number is a decimal number. -/
theorem writeNat_prefix (a : List Byte) : ∀ (n : Nat) (t : List Byte), writeNat n = t ++ a → t ≠ [] →
    ∃ m, t = writeNat m ∧ m ≤ n ∧ (m = 0 → n = 0) ∧ (a ≠ [] → m < n) := by
  induction a using List.reverseRecOn with
  | nil => exact fun n t h _ => ⟨n, by rw [h, List.append_nil], le_refl n, id, fun h => absurd rfl h⟩
  | append_singleton a c ih =>
    intro n t h ht
    by_cases hn : n < 10
    · obtain ⟨d, hd⟩ := writeNat_small hn
      rw [hd, ← List.append_assoc] at h
      have h1 := (List.append_inj' (s₁ := []) h rfl).1
      exact absurd (List.append_eq_nil_iff.1 h1.symm).1 ht
    · rw [writeNat_snoc (by omega), ← List.append_assoc] at h
      obtain ⟨m, h1, h2, h3, -⟩ := ih (n / 10) t (List.append_inj' h rfl).1 ht
      exact ⟨m, h1, by omega, fun h0 => by have := h3 h0; omega, fun _ => by omega⟩

/-- **C65**, `serialize_bit_vector`: a proper prefix is not read, or it lacks only the last newline and gives the same vector. -/
theorem C65_bit_vector (v : List Bool) (hv : v.length < 2 ^ 64) : CutHarmless (serializeBitVector v) deserializeBitVector v := by
  intro t u ho _ y r h
  rw [serializeBitVector, List.append_assoc] at ho
  rw [deserializeBitVector] at h
  rcases List.append_eq_append_iff.1 ho with ⟨a, h1, h2⟩ | ⟨a, h1, h2⟩
  · subst h1
    cases a with
    | nil =>
      have h3 := readSize_write v.length hv [] [] (by simp) (by simp)
      rw [List.nil_append] at h3
      rw [h3, Outcome.bind_ok] at h
      obtain ⟨h4, h5⟩ := readList_nil readBool_needs h
      rw [h5, List.eq_nil_of_length_eq_zero h4]
    | cons c a =>
      obtain ⟨hc, h2⟩ := List.cons.inj h2
      have h3 := readSize_write v.length hv [] (newline ++ a) (by simp) (newline_not_digit a)
      rw [List.nil_append] at h3
      rw [← hc, show (10 : Byte) :: a = newline ++ a from rfl, h3, Outcome.bind_ok] at h
      exact readBools_cut v a u h2 y r h
  · by_cases ht : t = []
    · subst ht
      cases h
    · obtain ⟨m, rfl, h4, h5, -⟩ := writeNat_prefix a v.length t h1 ht
      have h3 := readSize_write m (by omega) [] [] (by simp) (by simp)
      rw [List.nil_append, List.append_nil] at h3
      rw [h3, Outcome.bind_ok] at h
      obtain ⟨h6, h7⟩ := readList_nil readBool_needs h
      rw [h7, List.eq_nil_of_length_eq_zero (h5 h6)]

/-! ## Objects ending in a decimal number -/

/-- A number below the modulus is what some stored element is written as. -/
theorem fp_of_text (P : FpParams) (hP : P.Valid) (mont : Bool) {m : Nat} (hm : m < P.p) :
    ∃ b, FpStored P b ∧ fpWrite mont false P b = .ok (writeNat m) := by
  have := hP.neZero
  cases mont with
  | true =>
    have hb := hP.topBit
    have hv : val (limbsOf P.n m) = m := by rw [val_limbsOf, Nat.mod_eq_of_lt (by omega)]
    refine ⟨limbsOf P.n m, ⟨by simp, by omega⟩, ?_⟩
    rw [fpWrite, bigintRepr, if_pos rfl, Outcome.map_ok, bigintWrite, if_neg (by decide), bigintToMpz_eq, hv]
  | false =>
    have h := Represents.exists_repr hP ((m : ℕ) : ZMod P.p)
    refine ⟨_, ⟨h.len, h.lt⟩, ?_⟩
    rw [C12_plain_text P hP _ _ h, ZMod.val_natCast_of_lt hm]

theorem fp_text (P : FpParams) (hP : P.Valid) (mont : Bool) {a : List Limb} (ha : FpStored P a) :
    ∃ n, n < P.p ∧ fpWrite mont false P a = .ok (writeNat n) := by
  have := hP.neZero
  cases mont with
  | true =>
    refine ⟨val a, ha.2, ?_⟩
    rw [fpWrite, bigintRepr, if_pos rfl, Outcome.map_ok, bigintWrite, if_neg (by decide), bigintToMpz_eq]
  | false =>
    exact ⟨_, ZMod.val_lt _, C12_plain_text P hP _ _ (Represents.exists_val hP ha.1 ha.2)⟩

theorem writeNat_inj {m n : Nat} (h : writeNat m = writeNat n) : m = n := by
  have h1 : ∀ k, (writeNat k).map (fun c => c.toNat - 48) = decDigits k := fun k => by
    rw [writeNat, List.map_map]
    conv_rhs => rw [← List.map_id (decDigits k)]
    exact List.map_congr_left fun d hd => (isDigit_digitCode d (decDigits_lt k d hd)).2
  rw [← setStrVal_decDigits m, ← setStrVal_decDigits n, ← h1 m, ← h1 n, h]

theorem fp_text_prefix (P : FpParams) (hP : P.Valid) (mont : Bool) {a : List Limb} (ha : FpStored P a) {t u : List Byte}
    (h1 : fpWrite mont false P a = .ok (t ++ u)) (ht : t ≠ []) (hu : u ≠ []) :
    ∃ b, fpWrite mont false P b = .ok t ∧ FpStored P b ∧ b ≠ a := by
  obtain ⟨n, hn, h0⟩ := fp_text P hP mont ha
  obtain ⟨m, rfl, h2, -, h3⟩ := writeNat_prefix u n t (Outcome.ok.inj (h0.symm.trans h1)) ht
  obtain ⟨b, hb, h4⟩ := fp_of_text P hP mont (show m < P.p by omega)
  refine ⟨b, h4, hb, ?_⟩
  rintro rfl
  have h7 := writeNat_inj (Outcome.ok.inj (h4.symm.trans h0))
  have := h3 hu
  omega

/-- **Finding.** In text builds every nonempty proper prefix of a written field element is read, without any error, as a
different element. -/
theorem C65_fp_text_wrong (P : FpParams) (hP : P.Valid) (mont : Bool) (a : List Limb) (ha : FpStored P a) :
    ∃ out, fpWrite mont false P a = .ok out ∧ ∀ t u, out = t ++ u → t ≠ [] → u ≠ [] →
      ∃ b, fpRead mont false P t = .ok (b, []) ∧ FpStored P b ∧ b ≠ a := by
  obtain ⟨n, hn, h1⟩ := fp_text P hP mont ha
  refine ⟨_, h1, fun t u ho ht hu => ?_⟩
  rw [ho] at h1
  obtain ⟨b, h4, hb, hne⟩ := fp_text_prefix P hP mont ha h1 ht hu
  obtain ⟨o, h5, h6⟩ := C12_roundtrip P hP mont false b _ (Represents.exists_val hP hb.1 hb.2) [] (Or.inr (by decide))
  rw [← Outcome.ok.inj (h4.symm.trans h5), List.append_nil] at h6
  exact ⟨b, h6, hb, hne⟩

/-- **Finding.** In text builds a vector of `Fp2_model` elements whose last number lost digits is read, without any error, as a
different vector: its operator does not consume the newline after the last element. (`Fp3_model`, `Fp6_3over2_model` and
`Fp12_2over3over2_model` have the same operator; the vectors of the other classes are protected.) -/
theorem C65_ext_vector_text_wrong (P : FpParams) (hP : P.Valid) (mont : Bool) (bits : Nat) (hb : BitSize P bits)
    (nr : List Limb → List Limb) (a0 a1 : List Limb) (h0 : FpStored P a0) (h1 : FpStored P a1) {out1 t u : List Byte}
    (hw : fpWrite mont false P a1 = .ok out1) (ho : out1 = t ++ u) (ht : t ≠ []) (hu : u ≠ []) :
    ∃ pre b, vecWrite false (quadCodec (nr := nr) false (fpCodec mont false P bits)).write [⟨a0, a1⟩] =
        .ok (pre ++ (t ++ (u ++ newline))) ∧
      extVecRead (quadCodec (nr := nr) false (fpCodec mont false P bits)).read (pre ++ t) = .ok ([⟨a0, b⟩], []) ∧
      FpStored P b ∧ b ≠ a1 := by
  subst ho
  obtain ⟨b, h2, h3, h4⟩ := fp_text_prefix P hP mont h1 hw ht hu
  obtain ⟨w0, -, h5⟩ := fp_text P hP mont h0
  obtain ⟨o, h6, h7⟩ := (C24_fp2 P hP mont false bits hb nr).stream ⟨a0, b⟩ ⟨h0, h3⟩
  have hq : ∀ x w, fpWrite mont false P x = .ok w → (quadCodec (nr := nr) false (fpCodec mont false P bits)).write ⟨a0, x⟩ =
      .ok (writeNat w0 ++ (outputSeparator false ++ w)) := fun x w hx => by
    simp only [quadCodec, fpCodec, h5, hx, Outcome.bind_ok, Outcome.map_ok]
  rw [hq b t h2] at h6
  have h6 := Outcome.ok.inj h6
  subst h6
  refine ⟨writeNat 1 ++ (newline ++ (writeNat w0 ++ outputSeparator false)), b, ?_, ?_, h3, h4⟩
  · rw [vecWrite, writeList, hq a1 _ hw, Outcome.bind_ok, writeList, Outcome.map_ok, Outcome.map_ok]
    simp only [List.length_singleton, List.append_assoc, List.append_nil]
    rfl
  · have h8 := h7 [] [] (by simp) (fun _ => rfl) (Or.inr fun c hc => by cases hc)
    rw [List.nil_append, List.append_nil] at h8
    have h9 := readSize_write 1 (by norm_num) [] (newline ++ (writeNat w0 ++ (outputSeparator false ++ t))) (by simp)
      (newline_not_digit _)
    rw [List.nil_append] at h9
    rw [extVecRead]
    simp only [List.append_assoc]
    rw [h9, Outcome.bind_ok, consumeNewline_newline, Outcome.bind_ok, readList, h8, Outcome.bind_ok, Outcome.bind_ok, readList,
      Outcome.map_ok]

/-! ## Concrete cases -/

/-- The 16 bytes of an element of the field with 2^127 − 1 elements, cut anywhere. -/
example : ∃ out, fpWrite false true m127 (limbsOf 2 6) = .ok out ∧ out.length = 16 ∧
    ∀ k < 16, ∀ y rest, fpRead false true m127 (out.take k) ≠ .ok (y, rest) := by
  obtain ⟨out, h1, -, h3⟩ := (C65_fp m127 (by decide) false 127 m127_bits).1 (limbsOf 2 6) (by unfold FpStored; decide +kernel)
  have hl : out.length = 16 := by
    have h4 : fpWrite false true m127 (limbsOf 2 6) = .ok [3, 0, 0, 0, 0, 0, 0, 0, 0, 0, 0, 0, 0, 0, 0, 0] := by rfl
    rw [Outcome.ok.inj (h1.symm.trans h4)]
    rfl
  exact ⟨out, h1, hl, fun k hk => h3 _ (out.drop k) (List.take_append_drop k out).symm
    (fun h => by have := congrArg List.length h; simp only [List.length_drop, List.length_nil] at this; omega)⟩

/-- `"2\n3\n0\n"` without its last newline is not read. -/
example : vecRead false (fpRead false false m127) [50, 10, 51, 10, 48] = .abort := by rfl

/-- The element with the number 14 is written `"14"`; `"1"` is read as the element 1. -/
example : ∃ b, fpRead true false m127 [49] = .ok (b, []) ∧ b ≠ limbsOf 2 14 := by
  have hs : FpStored m127 (limbsOf 2 14) := by unfold FpStored; decide +kernel
  obtain ⟨out, h1, h2⟩ := C65_fp_text_wrong m127 (by decide) true (limbsOf 2 14) hs
  have h4 : fpWrite true false m127 (limbsOf 2 14) = .ok [49, 52] := by rfl
  have h5 := Outcome.ok.inj (h1.symm.trans h4)
  obtain ⟨b, h6, -, h7⟩ := h2 [49] [52] h5 (by simp) (by simp)
  exact ⟨b, h6, h7⟩

example : deserializeBitVector (serializeBitVector [true, false]).dropLast = .ok ([true, false], []) := by rfl

end Libff
