import Verif.Model.CurveIO
import Verif.Model.Pairing12
import Verif.Model.PairingMnt
import Verif.Model.PairingEdwards

/-!
# Stream operators of precomputed pairing arguments

`c`, `cT` are the stream operators of the fields of the members. As in `Verif/Model/Containers.lean`, `binary = true` is a build
with `BINARY_OUTPUT` and a read that puts the stream in its fail state is `abort`. The loops over the coefficient vectors have the
text of the generic operators for vectors, so they are `vecWrite` and `vecRead`.
-/
namespace Libff

/-- `consume_OUTPUT_SEPARATOR(in); in >> x;` -/
def readSep {α : Type} (binary : Bool) (read : Reader α) : Reader α := fun s => (consumeOutputSeparator binary s).bind read

/-- `consume_newline(in); in >> x;` -/
def readLn {α : Type} (read : Reader α) : Reader α := fun s => (consumeNewline s).bind read

section
variable {K T : Type} (binary : Bool) (c : FieldCodec K) (cT : FieldCodec T)

/-! ## alt_bn128, bls12_381 -/

/-- `operator<<(ostream, ate_G1_precomp)`, alt_bn128_pairing.cpp:26-31, bls12_381_pairing.cpp:26-31. -/
def AteG1Precomp.write (p : AteG1Precomp K) : Outcome (List Byte) :=
  (c.write p.PX).bind fun x => (c.write p.PY).map fun y => x ++ (outputSeparator binary ++ y)

/-- `operator>>(istream, ate_G1_precomp)`, alt_bn128_pairing.cpp:33-40, bls12_381_pairing.cpp:33-40. -/
def AteG1Precomp.read : Reader (AteG1Precomp K) := fun s =>
  (c.read s).bind fun x => (readSep binary c.read x.2).map fun y => (⟨x.1, y.1⟩, y.2)

/-- `operator<<(ostream, ate_ell_coeffs)`, alt_bn128_pairing.cpp:49-53, bls12_381_pairing.cpp:49-53. -/
def EllCoeffs.write (e : EllCoeffs K) : Outcome (List Byte) :=
  (c.write e.ell_0).bind fun a => (c.write e.ell_VW).bind fun b => (c.write e.ell_VV).map fun d =>
    a ++ (outputSeparator binary ++ (b ++ (outputSeparator binary ++ d)))

/-- `operator>>(istream, ate_ell_coeffs)`, alt_bn128_pairing.cpp:55-64, bls12_381_pairing.cpp:55-64. -/
def EllCoeffs.read : Reader (EllCoeffs K) := fun s =>
  (c.read s).bind fun a => (readSep binary c.read a.2).bind fun b => (readSep binary c.read b.2).map fun d =>
    (⟨a.1, b.1, d.1⟩, d.2)

/-- `operator<<(ostream, ate_G2_precomp)`, alt_bn128_pairing.cpp:73-82, bls12_381_pairing.cpp:73-83. -/
def AteG2Precomp.write (q : AteG2Precomp K) : Outcome (List Byte) :=
  (c.write q.QX).bind fun x => (c.write q.QY).bind fun y => (vecWrite binary (EllCoeffs.write binary c) q.coeffs).map fun v =>
    x ++ (outputSeparator binary ++ (y ++ (newline ++ v)))

/-- `operator>>(istream, ate_G2_precomp)`, alt_bn128_pairing.cpp:84-108, bls12_381_pairing.cpp:85-109. -/
def AteG2Precomp.read : Reader (AteG2Precomp K) := fun s =>
  (c.read s).bind fun x => (readSep binary c.read x.2).bind fun y =>
  (readLn (vecRead binary (EllCoeffs.read binary c)) y.2).map fun v => (⟨x.1, y.1, v.1⟩, v.2)

/-! ## mnt4, mnt6 (line numbers of mnt4_pairing.cpp; mnt6_pairing.cpp has the same text, two lines further down from 96 on) -/

/-- `operator<<(ostream, ate_G1_precomp)`, mnt4_pairing.cpp:35-40. -/
def MntG1Precomp.write (p : MntG1Precomp K T) : Outcome (List Byte) :=
  (c.write p.PX).bind fun a => (c.write p.PY).bind fun b => (cT.write p.PX_twist).bind fun d => (cT.write p.PY_twist).map fun e =>
    a ++ (outputSeparator binary ++ (b ++ (outputSeparator binary ++ (d ++ (outputSeparator binary ++ e)))))

/-- `operator>>(istream, ate_G1_precomp)`, mnt4_pairing.cpp:42-53. -/
def MntG1Precomp.read : Reader (MntG1Precomp K T) := fun s =>
  (c.read s).bind fun a => (readSep binary c.read a.2).bind fun b => (readSep binary cT.read b.2).bind fun d =>
  (readSep binary cT.read d.2).map fun e => (⟨a.1, b.1, d.1, e.1⟩, e.2)

/-- `operator<<(ostream, ate_dbl_coeffs)`, mnt4_pairing.cpp:63-67. -/
def MntDblCoeffs.write (p : MntDblCoeffs T) : Outcome (List Byte) :=
  (cT.write p.c_H).bind fun a => (cT.write p.c_4C).bind fun b => (cT.write p.c_J).bind fun d => (cT.write p.c_L).map fun e =>
    a ++ (outputSeparator binary ++ (b ++ (outputSeparator binary ++ (d ++ (outputSeparator binary ++ e)))))

/-- `operator>>(istream, ate_dbl_coeffs)`, mnt4_pairing.cpp:69-80. -/
def MntDblCoeffs.read : Reader (MntDblCoeffs T) := fun s =>
  (cT.read s).bind fun a => (readSep binary cT.read a.2).bind fun b => (readSep binary cT.read b.2).bind fun d =>
  (readSep binary cT.read d.2).map fun e => (⟨a.1, b.1, d.1, e.1⟩, e.2)

/-- `operator<<(ostream, ate_add_coeffs)`, mnt4_pairing.cpp:88-92. -/
def MntAddCoeffs.write (p : MntAddCoeffs T) : Outcome (List Byte) :=
  (cT.write p.c_L1).bind fun x => (cT.write p.c_RZ).map fun y => x ++ (outputSeparator binary ++ y)

/-- `operator>>(istream, ate_add_coeffs)`, mnt4_pairing.cpp:94-100. -/
def MntAddCoeffs.read : Reader (MntAddCoeffs T) := fun s =>
  (cT.read s).bind fun x => (readSep binary cT.read x.2).map fun y => (⟨x.1, y.1⟩, y.2)

/-- `operator<<(ostream, ate_G2_precomp)`, mnt4_pairing.cpp:113-132. -/
def MntG2Precomp.write (q : MntG2Precomp T) : Outcome (List Byte) :=
  (cT.write q.QX).bind fun a => (cT.write q.QY).bind fun b => (cT.write q.QY2).bind fun d =>
  (cT.write q.QX_over_twist).bind fun e => (cT.write q.QY_over_twist).bind fun f =>
  (vecWrite binary (MntDblCoeffs.write binary cT) q.dbl_coeffs).bind fun v =>
  (vecWrite binary (MntAddCoeffs.write binary cT) q.add_coeffs).map fun w =>
    a ++ (outputSeparator binary ++ (b ++ (outputSeparator binary ++ (d ++ (outputSeparator binary ++ (e ++
      (outputSeparator binary ++ (f ++ (newline ++ (v ++ w))))))))))

/-- `operator>>(istream, ate_G2_precomp)`, mnt4_pairing.cpp:134-175. -/
def MntG2Precomp.read : Reader (MntG2Precomp T) := fun s =>
  (cT.read s).bind fun a => (readSep binary cT.read a.2).bind fun b => (readSep binary cT.read b.2).bind fun d =>
  (readSep binary cT.read d.2).bind fun e => (readSep binary cT.read e.2).bind fun f =>
  (readLn (vecRead binary (MntDblCoeffs.read binary cT)) f.2).bind fun v =>
  (vecRead binary (MntAddCoeffs.read binary cT) v.2).map fun w => (⟨a.1, b.1, d.1, e.1, f.1, v.1, w.1⟩, w.2)

/-! ## edwards -/

/-- `operator<<(ostream, edwards_Fq_conic_coefficients)`, edwards_pairing.cpp:27-31; `edwards_Fq3_conic_coefficients`, lines
102-106. -/
def ConicCoeffs.write (e : ConicCoeffs K) : Outcome (List Byte) :=
  (c.write e.c_ZZ).bind fun a => (c.write e.c_XY).bind fun b => (c.write e.c_XZ).map fun d =>
    a ++ (outputSeparator binary ++ (b ++ (outputSeparator binary ++ d)))

/-- `operator>>(istream, edwards_Fq_conic_coefficients)`, edwards_pairing.cpp:33-41; `edwards_Fq3_conic_coefficients`, lines
108-116. -/
def ConicCoeffs.read : Reader (ConicCoeffs K) := fun s =>
  (c.read s).bind fun a => (readSep binary c.read a.2).bind fun b => (readSep binary c.read b.2).map fun d =>
    (⟨a.1, b.1, d.1⟩, d.2)

/-- `operator<<(ostream, edwards_tate_G1_precomp)`, edwards_pairing.cpp:43-52; `edwards_ate_G2_precomp`, lines 118-127. -/
def conicsWrite (v : List (ConicCoeffs K)) : Outcome (List Byte) := vecWrite binary (ConicCoeffs.write binary c) v

/-- `operator>>(istream, edwards_tate_G1_precomp)`, edwards_pairing.cpp:54-73; `edwards_ate_G2_precomp`, lines 129-149. -/
def conicsRead : Reader (List (ConicCoeffs K)) := vecRead binary (ConicCoeffs.read binary c)

/-- `operator<<(ostream, edwards_tate_G2_precomp)`, edwards_pairing.cpp:81-85. -/
def EdwTateG2Precomp.write (p : EdwTateG2Precomp T) : Outcome (List Byte) :=
  (cT.write p.y0).bind fun x => (cT.write p.eta).map fun y => x ++ (outputSeparator binary ++ y)

/-- `operator>>(istream, edwards_tate_G2_precomp)`, edwards_pairing.cpp:87-93. -/
def EdwTateG2Precomp.read : Reader (EdwTateG2Precomp T) := fun s =>
  (cT.read s).bind fun x => (readSep binary cT.read x.2).map fun y => (⟨x.1, y.1⟩, y.2)

/-- `operator<<(ostream, edwards_ate_G1_precomp)`, edwards_pairing.cpp:158-163. -/
def EdwG1Precomp.write (p : EdwG1Precomp K) : Outcome (List Byte) :=
  (c.write p.P_XY).bind fun a => (c.write p.P_XZ).bind fun b => (c.write p.P_ZZplusYZ).map fun d =>
    a ++ (outputSeparator binary ++ (b ++ (outputSeparator binary ++ d)))

/-- `operator>>(istream, edwards_ate_G1_precomp)`, edwards_pairing.cpp:165-170: the separators are left to the white space
skipping of `operator>>`. -/
def EdwG1Precomp.read : Reader (EdwG1Precomp K) := fun s =>
  (c.read s).bind fun a => (c.read a.2).bind fun b => (c.read b.2).map fun d => (⟨a.1, b.1, d.1⟩, d.2)

end
end Libff
