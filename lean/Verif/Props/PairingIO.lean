import Verif.Lemmas.PairingIO

/-!
# C58: precomputed pairing arguments survive a stream

`StreamLaw` (Spec/Containers.lean) for the stream operators of every class of precomputed pairing arguments, over the fields of
the library: any prime field `Fp P` with the parameters of `Fp_model`, its extensions of degree 2 and 3 for any non-residue, text
and binary builds, with and without `MONTGOMERY_OUTPUT`. A Miller loop run on what was read therefore is the Miller loop run on
what was written.
-/
namespace Libff

section
variable {K T : Type} {binary : Bool} {c : FieldCodec K} {cT : FieldCodec T} {v : K → Prop} {w : T → Prop}

/-- **C58**, `alt_bn128_ate_G1_precomp`, `bls12_381_ate_G1_precomp`. -/
theorem C58_ate_G1 (h : StreamLaw binary v c.write c.read) :
    StreamLaw binary (fun p => v p.PX ∧ v p.PY) (AteG1Precomp.write binary c) (AteG1Precomp.read binary c) := by
  rintro ⟨x, y⟩ ⟨hx, hy⟩
  obtain ⟨a, a1, a2, a3, a4, a5, a6⟩ := h.get hx
  obtain ⟨b, b1, b2, b3, b4, b5, b6⟩ := h.get hy
  refine ⟨_, by simp only [AteG1Precomp.write, a1, b1, Outcome.bind_ok, Outcome.map_ok]; rfl, fun pre rest hp hbin hr => ?_⟩
  simp only [AteG1Precomp.read, List.append_assoc]
  rw [a2 pre _ hp hbin (sep_cont binary _), Outcome.bind_ok, b4 _ hr, Outcome.map_ok]

/-- **C58**, `alt_bn128_ate_ell_coeffs`, `bls12_381_ate_ell_coeffs`. -/
theorem C58_ell_coeffs (h : StreamLaw binary v c.write c.read) :
    StreamLaw binary (fun p => v p.ell_0 ∧ v p.ell_VW ∧ v p.ell_VV) (EllCoeffs.write binary c) (EllCoeffs.read binary c) := by
  rintro ⟨x, y, z⟩ ⟨hx, hy, hz⟩
  obtain ⟨a, a1, a2, a3, a4, a5, a6⟩ := h.get hx
  obtain ⟨b, b1, b2, b3, b4, b5, b6⟩ := h.get hy
  obtain ⟨d, d1, d2, d3, d4, d5, d6⟩ := h.get hz
  refine ⟨_, by simp only [EllCoeffs.write, a1, b1, d1, Outcome.bind_ok, Outcome.map_ok]; rfl, fun pre rest hp hbin hr => ?_⟩
  simp only [EllCoeffs.read, List.append_assoc]
  rw [a2 pre _ hp hbin (sep_cont binary _), Outcome.bind_ok, b4 _ (sep_cont binary _), Outcome.bind_ok, d4 _ hr, Outcome.map_ok]

/-- **C58**, `alt_bn128_ate_G2_precomp`, `bls12_381_ate_G2_precomp`: any coefficient vector, not only those a precomputation
produces. -/
theorem C58_ate_G2 (h : StreamLaw binary v c.write c.read) :
    StreamLaw binary (fun q => v q.QX ∧ v q.QY ∧ q.coeffs.length < 2 ^ 64 ∧
        ∀ e ∈ q.coeffs, v e.ell_0 ∧ v e.ell_VW ∧ v e.ell_VV)
      (AteG2Precomp.write binary c) (AteG2Precomp.read binary c) := by
  rintro ⟨x, y, z⟩ ⟨hx, hy, hl, hz⟩
  obtain ⟨a, a1, a2, a3, a4, a5, a6⟩ := h.get hx
  obtain ⟨b, b1, b2, b3, b4, b5, b6⟩ := h.get hy
  obtain ⟨d, d1, d2, d3, d4, d5, d6⟩ := (C47_vector (C58_ell_coeffs h)).get (x := z) ⟨hl, hz⟩
  refine ⟨_, by simp only [AteG2Precomp.write, a1, b1, d1, Outcome.bind_ok, Outcome.map_ok]; rfl, fun pre rest hp hbin hr => ?_⟩
  simp only [AteG2Precomp.read, List.append_assoc]
  rw [a2 pre _ hp hbin (sep_cont binary _), Outcome.bind_ok, b4 _ (newline_cont binary _), Outcome.bind_ok, d6 _ hr, Outcome.map_ok]

/-- **C58**, `mnt4_ate_G1_precomp`, `mnt6_ate_G1_precomp`. -/
theorem C58_mnt_G1 (h : StreamLaw binary v c.write c.read) (hT : StreamLaw binary w cT.write cT.read) :
    StreamLaw binary (fun p => v p.PX ∧ v p.PY ∧ w p.PX_twist ∧ w p.PY_twist) (MntG1Precomp.write binary c cT)
      (MntG1Precomp.read binary c cT) := by
  rintro ⟨x, y, z, t⟩ ⟨hx, hy, hz, ht⟩
  obtain ⟨a, a1, a2, a3, a4, a5, a6⟩ := h.get hx
  obtain ⟨b, b1, b2, b3, b4, b5, b6⟩ := h.get hy
  obtain ⟨d, d1, d2, d3, d4, d5, d6⟩ := hT.get hz
  obtain ⟨e, e1, e2, e3, e4, e5, e6⟩ := hT.get ht
  refine ⟨_, by simp only [MntG1Precomp.write, a1, b1, d1, e1, Outcome.bind_ok, Outcome.map_ok]; rfl,
    fun pre rest hp hbin hr => ?_⟩
  simp only [MntG1Precomp.read, List.append_assoc]
  rw [a2 pre _ hp hbin (sep_cont binary _), Outcome.bind_ok, b4 _ (sep_cont binary _), Outcome.bind_ok,
    d4 _ (sep_cont binary _), Outcome.bind_ok, e4 _ hr, Outcome.map_ok]

/-- **C58**, `mnt4_ate_dbl_coeffs`, `mnt6_ate_dbl_coeffs`. -/
theorem C58_mnt_dbl_coeffs (hT : StreamLaw binary w cT.write cT.read) :
    StreamLaw binary (fun p => w p.c_H ∧ w p.c_4C ∧ w p.c_J ∧ w p.c_L) (MntDblCoeffs.write binary cT)
      (MntDblCoeffs.read binary cT) := by
  rintro ⟨x, y, z, t⟩ ⟨hx, hy, hz, ht⟩
  obtain ⟨a, a1, a2, a3, a4, a5, a6⟩ := hT.get hx
  obtain ⟨b, b1, b2, b3, b4, b5, b6⟩ := hT.get hy
  obtain ⟨d, d1, d2, d3, d4, d5, d6⟩ := hT.get hz
  obtain ⟨e, e1, e2, e3, e4, e5, e6⟩ := hT.get ht
  refine ⟨_, by simp only [MntDblCoeffs.write, a1, b1, d1, e1, Outcome.bind_ok, Outcome.map_ok]; rfl,
    fun pre rest hp hbin hr => ?_⟩
  simp only [MntDblCoeffs.read, List.append_assoc]
  rw [a2 pre _ hp hbin (sep_cont binary _), Outcome.bind_ok, b4 _ (sep_cont binary _), Outcome.bind_ok,
    d4 _ (sep_cont binary _), Outcome.bind_ok, e4 _ hr, Outcome.map_ok]

/-- **C58**, `mnt4_ate_add_coeffs`, `mnt6_ate_add_coeffs`. -/
theorem C58_mnt_add_coeffs (hT : StreamLaw binary w cT.write cT.read) :
    StreamLaw binary (fun p => w p.c_L1 ∧ w p.c_RZ) (MntAddCoeffs.write binary cT) (MntAddCoeffs.read binary cT) := by
  rintro ⟨x, y⟩ ⟨hx, hy⟩
  obtain ⟨a, a1, a2, a3, a4, a5, a6⟩ := hT.get hx
  obtain ⟨b, b1, b2, b3, b4, b5, b6⟩ := hT.get hy
  refine ⟨_, by simp only [MntAddCoeffs.write, a1, b1, Outcome.bind_ok, Outcome.map_ok]; rfl, fun pre rest hp hbin hr => ?_⟩
  simp only [MntAddCoeffs.read, List.append_assoc]
  rw [a2 pre _ hp hbin (sep_cont binary _), Outcome.bind_ok, b4 _ hr, Outcome.map_ok]

/-- **C58**, `mnt4_ate_G2_precomp`, `mnt6_ate_G2_precomp`. -/
theorem C58_mnt_G2 (hT : StreamLaw binary w cT.write cT.read) :
    StreamLaw binary (fun q => (w q.QX ∧ w q.QY ∧ w q.QY2 ∧ w q.QX_over_twist ∧ w q.QY_over_twist) ∧
        (q.dbl_coeffs.length < 2 ^ 64 ∧ ∀ e ∈ q.dbl_coeffs, w e.c_H ∧ w e.c_4C ∧ w e.c_J ∧ w e.c_L) ∧
        q.add_coeffs.length < 2 ^ 64 ∧ ∀ e ∈ q.add_coeffs, w e.c_L1 ∧ w e.c_RZ)
      (MntG2Precomp.write binary cT) (MntG2Precomp.read binary cT) := by
  rintro ⟨x, y, z, t, u, ds, as⟩ ⟨⟨hx, hy, hz, ht, hu⟩, hds, has⟩
  obtain ⟨a, a1, a2, a3, a4, a5, a6⟩ := hT.get hx
  obtain ⟨b, b1, b2, b3, b4, b5, b6⟩ := hT.get hy
  obtain ⟨d, d1, d2, d3, d4, d5, d6⟩ := hT.get hz
  obtain ⟨e, e1, e2, e3, e4, e5, e6⟩ := hT.get ht
  obtain ⟨f, f1, f2, f3, f4, f5, f6⟩ := hT.get hu
  obtain ⟨g, g1, g2⟩ := vecRead_vecWrite_any (C58_mnt_dbl_coeffs hT) ds hds.1 hds.2
  obtain ⟨k, k1, k2, k3, k4, k5, k6⟩ := (C47_vector (C58_mnt_add_coeffs hT)).get (x := as) has
  refine ⟨_, by simp only [MntG2Precomp.write, a1, b1, d1, e1, f1, g1, k1, Outcome.bind_ok, Outcome.map_ok]; rfl,
    fun pre rest hp hbin hr => ?_⟩
  simp only [MntG2Precomp.read, List.append_assoc]
  rw [a2 pre _ hp hbin (sep_cont binary _), Outcome.bind_ok, b4 _ (sep_cont binary _), Outcome.bind_ok,
    d4 _ (sep_cont binary _), Outcome.bind_ok, e4 _ (sep_cont binary _), Outcome.bind_ok, f4 _ (newline_cont binary _),
    Outcome.bind_ok, readLn, consumeNewline_newline, Outcome.bind_ok, g2, Outcome.bind_ok, k3 _ hr, Outcome.map_ok]

/-- **C58**, `edwards_Fq_conic_coefficients`, `edwards_Fq3_conic_coefficients`. -/
theorem C58_conic (h : StreamLaw binary v c.write c.read) :
    StreamLaw binary (fun p => v p.c_ZZ ∧ v p.c_XY ∧ v p.c_XZ) (ConicCoeffs.write binary c) (ConicCoeffs.read binary c) := by
  rintro ⟨x, y, z⟩ ⟨hx, hy, hz⟩
  obtain ⟨a, a1, a2, a3, a4, a5, a6⟩ := h.get hx
  obtain ⟨b, b1, b2, b3, b4, b5, b6⟩ := h.get hy
  obtain ⟨d, d1, d2, d3, d4, d5, d6⟩ := h.get hz
  refine ⟨_, by simp only [ConicCoeffs.write, a1, b1, d1, Outcome.bind_ok, Outcome.map_ok]; rfl, fun pre rest hp hbin hr => ?_⟩
  simp only [ConicCoeffs.read, List.append_assoc]
  rw [a2 pre _ hp hbin (sep_cont binary _), Outcome.bind_ok, b4 _ (sep_cont binary _), Outcome.bind_ok, d4 _ hr, Outcome.map_ok]

/-- **C58**, `edwards_tate_G1_precomp`, `edwards_ate_G2_precomp`. -/
theorem C58_conics (h : StreamLaw binary v c.write c.read) :
    StreamLaw binary (fun l => l.length < 2 ^ 64 ∧ ∀ p ∈ l, v p.c_ZZ ∧ v p.c_XY ∧ v p.c_XZ) (conicsWrite binary c)
      (conicsRead binary c) :=
  C47_vector (C58_conic h)

/-- **C58**, `edwards_tate_G2_precomp`. -/
theorem C58_edwards_tate_G2 (hT : StreamLaw binary w cT.write cT.read) :
    StreamLaw binary (fun p => w p.y0 ∧ w p.eta) (EdwTateG2Precomp.write binary cT) (EdwTateG2Precomp.read binary cT) := by
  rintro ⟨x, y⟩ ⟨hx, hy⟩
  obtain ⟨a, a1, a2, a3, a4, a5, a6⟩ := hT.get hx
  obtain ⟨b, b1, b2, b3, b4, b5, b6⟩ := hT.get hy
  refine ⟨_, by simp only [EdwTateG2Precomp.write, a1, b1, Outcome.bind_ok, Outcome.map_ok]; rfl, fun pre rest hp hbin hr => ?_⟩
  simp only [EdwTateG2Precomp.read, List.append_assoc]
  rw [a2 pre _ hp hbin (sep_cont binary _), Outcome.bind_ok, b4 _ hr, Outcome.map_ok]

/-- **C58**, `edwards_ate_G1_precomp`, although its reader skips no separator. -/
theorem C58_edwards_ate_G1 (h : StreamLaw binary v c.write c.read) :
    StreamLaw binary (fun p => v p.P_XY ∧ v p.P_XZ ∧ v p.P_ZZplusYZ) (EdwG1Precomp.write binary c) (EdwG1Precomp.read c) := by
  rintro ⟨x, y, z⟩ ⟨hx, hy, hz⟩
  obtain ⟨a, a1, a2, a3, a4, a5, a6⟩ := h.get hx
  obtain ⟨b, b1, b2, b3, b4, b5, b6⟩ := h.get hy
  obtain ⟨d, d1, d2, d3, d4, d5, d6⟩ := h.get hz
  refine ⟨_, by simp only [EdwG1Precomp.write, a1, b1, d1, Outcome.bind_ok, Outcome.map_ok]; rfl, fun pre rest hp hbin hr => ?_⟩
  simp only [EdwG1Precomp.read, List.append_assoc]
  rw [a2 pre _ hp hbin (sep_cont binary _), Outcome.bind_ok, b5 _ (sep_cont binary _), Outcome.bind_ok, d5 _ hr, Outcome.map_ok]

end

/-! ## The classes of the library -/

section
variable (P : FpParams) [Fact P.Valid] [Fact P.p.Prime] (mont binary : Bool) (bits : Nat) (hb : BitSize P bits) (β : Fp P)
include hb

theorem fp_stream : StreamLaw binary (fun _ => True) (fpObjCodec mont binary P bits).write (fpObjCodec mont binary P bits).read :=
  (fpObjCodec_lawful P mont binary bits hb).stream

theorem fp2_stream : StreamLaw binary (fun _ : Fp2 (Fp P) β => True) (quadCodec binary (fpObjCodec mont binary P bits)).write
    (quadCodec binary (fpObjCodec mont binary P bits)).read :=
  fun x _ => ((fpObjCodec_lawful P mont binary bits hb).quad _).stream x ⟨trivial, trivial⟩

theorem fp3_stream : StreamLaw binary (fun _ : Fp3 (Fp P) β => True) (cubicCodec binary (fpObjCodec mont binary P bits)).write
    (cubicCodec binary (fpObjCodec mont binary P bits)).read :=
  fun x _ => ((fpObjCodec_lawful P mont binary bits hb).cubic _).stream x ⟨trivial, trivial, trivial⟩

/-- **C58**, alt_bn128 and bls12_381: every G1 and every G2 precomputation (with fewer than 2^64 coefficients) is read back. -/
theorem C58_curves12 :
    StreamLaw binary (fun _ => True) (AteG1Precomp.write binary (fpObjCodec mont binary P bits))
      (AteG1Precomp.read binary (fpObjCodec mont binary P bits)) ∧
    StreamLaw binary (fun q : AteG2Precomp (Fp2 (Fp P) β) => q.coeffs.length < 2 ^ 64)
      (AteG2Precomp.write binary (quadCodec binary (fpObjCodec mont binary P bits)))
      (AteG2Precomp.read binary (quadCodec binary (fpObjCodec mont binary P bits))) :=
  ⟨fun x _ => C58_ate_G1 (fp_stream P mont binary bits hb) x ⟨trivial, trivial⟩,
    fun q hq => C58_ate_G2 (fp2_stream P mont binary bits hb β) q ⟨trivial, trivial, hq, fun _ _ => ⟨trivial, trivial, trivial⟩⟩⟩

/-- **C58**, mnt4. -/
theorem C58_mnt4 :
    StreamLaw binary (fun _ : MntG1Precomp (Fp P) (Fp2 (Fp P) β) => True)
      (MntG1Precomp.write binary (fpObjCodec mont binary P bits) (quadCodec binary (fpObjCodec mont binary P bits)))
      (MntG1Precomp.read binary (fpObjCodec mont binary P bits) (quadCodec binary (fpObjCodec mont binary P bits))) ∧
    StreamLaw binary (fun q : MntG2Precomp (Fp2 (Fp P) β) => q.dbl_coeffs.length < 2 ^ 64 ∧ q.add_coeffs.length < 2 ^ 64)
      (MntG2Precomp.write binary (quadCodec binary (fpObjCodec mont binary P bits)))
      (MntG2Precomp.read binary (quadCodec binary (fpObjCodec mont binary P bits))) :=
  ⟨fun x _ => C58_mnt_G1 (fp_stream P mont binary bits hb) (fp2_stream P mont binary bits hb β) x
      ⟨trivial, trivial, trivial, trivial⟩,
    fun q hq => C58_mnt_G2 (fp2_stream P mont binary bits hb β) q ⟨⟨trivial, trivial, trivial, trivial, trivial⟩,
      ⟨hq.1, fun _ _ => ⟨trivial, trivial, trivial, trivial⟩⟩, hq.2, fun _ _ => ⟨trivial, trivial⟩⟩⟩

/-- **C58**, mnt6. -/
theorem C58_mnt6 :
    StreamLaw binary (fun _ : MntG1Precomp (Fp P) (Fp3 (Fp P) β) => True)
      (MntG1Precomp.write binary (fpObjCodec mont binary P bits) (cubicCodec binary (fpObjCodec mont binary P bits)))
      (MntG1Precomp.read binary (fpObjCodec mont binary P bits) (cubicCodec binary (fpObjCodec mont binary P bits))) ∧
    StreamLaw binary (fun q : MntG2Precomp (Fp3 (Fp P) β) => q.dbl_coeffs.length < 2 ^ 64 ∧ q.add_coeffs.length < 2 ^ 64)
      (MntG2Precomp.write binary (cubicCodec binary (fpObjCodec mont binary P bits)))
      (MntG2Precomp.read binary (cubicCodec binary (fpObjCodec mont binary P bits))) :=
  ⟨fun x _ => C58_mnt_G1 (fp_stream P mont binary bits hb) (fp3_stream P mont binary bits hb β) x
      ⟨trivial, trivial, trivial, trivial⟩,
    fun q hq => C58_mnt_G2 (fp3_stream P mont binary bits hb β) q ⟨⟨trivial, trivial, trivial, trivial, trivial⟩,
      ⟨hq.1, fun _ _ => ⟨trivial, trivial, trivial, trivial⟩⟩, hq.2, fun _ _ => ⟨trivial, trivial⟩⟩⟩

/-- **C58**, edwards: the arguments of the ate pairing and those of the Tate pairing. -/
theorem C58_edwards :
    StreamLaw binary (fun _ => True) (EdwG1Precomp.write binary (fpObjCodec mont binary P bits))
      (EdwG1Precomp.read (fpObjCodec mont binary P bits)) ∧
    StreamLaw binary (fun l : List (ConicCoeffs (Fp3 (Fp P) β)) => l.length < 2 ^ 64)
      (conicsWrite binary (cubicCodec binary (fpObjCodec mont binary P bits)))
      (conicsRead binary (cubicCodec binary (fpObjCodec mont binary P bits))) ∧
    StreamLaw binary (fun l : List (ConicCoeffs (Fp P)) => l.length < 2 ^ 64)
      (conicsWrite binary (fpObjCodec mont binary P bits)) (conicsRead binary (fpObjCodec mont binary P bits)) ∧
    StreamLaw binary (fun _ : EdwTateG2Precomp (Fp3 (Fp P) β) => True)
      (EdwTateG2Precomp.write binary (cubicCodec binary (fpObjCodec mont binary P bits)))
      (EdwTateG2Precomp.read binary (cubicCodec binary (fpObjCodec mont binary P bits))) :=
  ⟨fun x _ => C58_edwards_ate_G1 (fp_stream P mont binary bits hb) x ⟨trivial, trivial, trivial⟩,
    fun l hl => C58_conics (fp3_stream P mont binary bits hb β) l ⟨hl, fun _ _ => ⟨trivial, trivial, trivial⟩⟩,
    fun l hl => C58_conics (fp_stream P mont binary bits hb) l ⟨hl, fun _ _ => ⟨trivial, trivial, trivial⟩⟩,
    fun x _ => C58_edwards_tate_G2 (fp3_stream P mont binary bits hb β) x ⟨trivial, trivial⟩⟩

end

/-! ## Concrete cases -/

/-- `"3 0\n2\n0 3 0\n3 3 3\n"`: a precomputation with two coefficients, over the field with 2^127 − 1 elements. -/
example : AteG2Precomp.write false (fpCodec false false m127 127)
    ⟨limbsOf 2 6, limbsOf 2 0, [⟨limbsOf 2 0, limbsOf 2 6, limbsOf 2 0⟩, ⟨limbsOf 2 6, limbsOf 2 6, limbsOf 2 6⟩]⟩ =
    .ok [51, 32, 48, 10, 50, 10, 48, 32, 51, 32, 48, 10, 51, 32, 51, 32, 51, 10] := by rfl

example : ∃ out, AteG2Precomp.write false (fpCodec false false m127 127) ⟨limbsOf 2 6, limbsOf 2 0, []⟩ = .ok out ∧
    AteG2Precomp.read false (fpCodec false false m127 127) (out ++ []) = .ok (⟨limbsOf 2 6, limbsOf 2 0, []⟩, []) := by
  obtain ⟨out, h1, h2⟩ := C58_ate_G2 (C24_fp m127 (by decide) false false 127 m127_bits).stream ⟨limbsOf 2 6, limbsOf 2 0, []⟩
    (by unfold FpStored; decide +kernel)
  exact ⟨out, h1, h2 [] [] (by simp) (by simp) (Or.inr (by decide))⟩

end Libff
