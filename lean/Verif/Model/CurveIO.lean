import Verif.Model.Curve
import Verif.Model.Containers
import Verif.Model.Algorithms
import Verif.Lemmas.FpType

/-!
# Stream operators of curve points

`binary = true` is a build with `BINARY_OUTPUT`, `compress = false` a build with `NO_PT_COMPRESSION`. As in
`Verif/Model/Stream.lean` a read that puts the stream in its fail state is `abort`.

The operators are modelled over an arbitrary base field: `c` are its stream operators, `lsb` is
`Y.as_bigint().data[0] & 1` (`Y.c0.as_bigint().data[0] & 1` in a G2) and `sqrt` its square root.
The Jacobian classes have them at alt_bn128_g1.cpp:367-428, alt_bn128_g2.cpp:383-443, bls12_381_g1.cpp:351-412,
bls12_381_g2.cpp:369-429, the projective ones at mnt4_g1.cpp:396-457, mnt4_g2.cpp:419-480, mnt6_g1.cpp:396-457,
mnt6_g2.cpp:425-486. The operators for vectors (alt_bn128_g1.cpp:430-460, ..., only in G1 classes; vectors of G2
points use serialization.tcc:100-130) have the text of `vecWrite` and `vecRead`.
-/
namespace Libff

/-- `in.read(&c, 1)`. -/
def readRaw : Reader Byte
  | [] => .abort
  | c :: s => .ok (c, s)

/-- `in >> c` for a `char`: white space is skipped first. -/
def readCharSkip : Reader Byte := fun s => readRaw (s.dropWhile isSpace)

/-- `consume_OUTPUT_SEPARATOR`, serialization.tcc:40-49. -/
def consumeOutputSeparator (binary : Bool) (s : List Byte) : Outcome (List Byte) :=
  if binary then .ok s else consumeNewline s

/-- `sqrt()` of the field classes (fp.tcc:769-773, fp2.tcc:238-242, fp3.tcc:236-240). A computation that does not
finish is reported as `abort`; `Verif/Props/Algorithms.lean` shows this concerns non-squares only. -/
def fieldSqrt {K : Type} [DecidableEq K] [Mul K] [One K] [Zero K] [Squared K] (debug : Bool) (C : SqrtConsts K)
    (fuel : Nat) (a : K) : Outcome K :=
  (tonelliShanks debug squared C fuel a).bind fun
    | some x => .ok x
    | none => .abort

section
variable {K : Type} [Zero K] [One K] [Add K] [Sub K] [Neg K] [Mul K] [DecidableEq K] [Squared K] [InverseO K]
variable (binary compress : Bool) (c : FieldCodec K) (lsb : K → Outcome Bool) (sqrt : K → Outcome K)

/-- The second half of a written point: `Y`, or its low bit. -/
def writeY (y : K) : Outcome (List Byte) :=
  if compress then (lsb y).map fun b => writeNat (if b then 1 else 0) else c.write y

/-- Of the two square roots `±tY` the one with the low bit that was stored; alt_bn128_g1.cpp:409-412. -/
def pickRoot (Y_lsb : Byte) (tY : K) : Outcome K :=
  (lsb tY).map fun b => if (if b then 1 else 0 : Nat) ≠ (Y_lsb - 48).toNat then -tY else tY

/-- `operator<<` of a short Weierstrass class, alt_bn128_g1.cpp:367-381, mnt4_g1.cpp:396-410. -/
def swWrite (isZero : Coord3 K → Bool) (toAffine : Coord3 K → Outcome (Coord3 K)) (g : Coord3 K) :
    Outcome (List Byte) :=
  (toAffine g).bind fun copy => (c.write copy.X).bind fun x => (writeY compress c lsb copy.Y).map fun y =>
    writeNat (if isZero copy then 1 else 0) ++ (outputSeparator binary ++ (x ++ (outputSeparator binary ++ y)))

/-- `operator>>` of a short Weierstrass class, alt_bn128_g1.cpp:383-428, mnt4_g1.cpp:412-457. `rhs` computes `tY2`
from `tX`. -/
def swRead (zero : Coord3 K) (rhs : K → K) : Reader (Coord3 K) := fun s =>
  if compress then
    (readRaw s).bind fun z => (consumeOutputSeparator binary z.2).bind fun s => (c.read s).bind fun x =>
    (consumeOutputSeparator binary x.2).bind fun s => (readRaw s).bind fun l =>
      if z.1 - 48 = 0 then
        (sqrt (rhs x.1)).bind fun tY => (pickRoot lsb l.1 tY).map fun tY => (⟨x.1, tY, 1⟩, l.2)
      else .ok (zero, l.2)
  else
    (readCharSkip s).bind fun z => (c.read z.2).bind fun x => (c.read x.2).map fun y =>
      if z.1 - 48 = 0 then (⟨x.1, y.1, 1⟩, y.2) else (zero, y.2)

/-- `operator<<` of the Jacobian classes. -/
def Jac.write : Coord3 K → Outcome (List Byte) := swWrite binary compress c lsb Jac.isZero Jac.toAffine

/-- `operator>>` of the Jacobian classes; `tY2 = tX2*tX + b`, alt_bn128_g1.cpp:405-406. -/
def Jac.read (b : K) : Reader (Coord3 K) :=
  swRead binary compress c lsb sqrt Jac.zero fun x => squared x * x + b

/-- `operator<<` of the projective classes. -/
def Proj.write : Coord3 K → Outcome (List Byte) := swWrite binary compress c lsb Proj.isZero Proj.toAffine

/-- `operator>>` of the projective classes; `tY2 = (tX2 + a) * tX + b`, mnt4_g1.cpp:434-435. -/
def Proj.read (a b : K) : Reader (Coord3 K) :=
  swRead binary compress c lsb sqrt Proj.zero fun x => (squared x + a) * x + b

/-- `operator<<` of the Edwards classes, edwards_g1.cpp:303-315, edwards_g2.cpp:333-344. -/
def Edw.write (g : Coord3 K) : Outcome (List Byte) :=
  (Edw.toAffine g).bind fun copy => (c.write copy.X).bind fun x => (writeY compress c lsb copy.Y).map fun y =>
    x ++ (outputSeparator binary ++ y)

/-- The affine coordinates `tX, tY` read by `operator>>`, edwards_g1.cpp:319-346. -/
def Edw.readAffine (mulA mulD : K → K) : Reader (K × K) := fun s =>
  (c.read s).bind fun x => (consumeOutputSeparator binary x.2).bind fun s =>
    if compress then
      (readRaw s).bind fun l =>
        let tX2 := squared x.1
        (inverseO (1 - mulD tX2)).bind fun i => (sqrt ((1 - mulA tX2) * i)).bind fun tY =>
        (pickRoot lsb l.1 tY).map fun tY => ((x.1, tY), l.2)
    else (c.read s).map fun y => ((x.1, y.1), y.2)

/-- `operator>>` of the Edwards classes, edwards_g1.cpp:317-358 (`mulA` the identity), edwards_g2.cpp:346-388.
`mixed = true` is a build with `USE_MIXED_ADDITION`. -/
def Edw.read (debug mixed : Bool) (mulA mulD : K → K) : Reader (Coord3 K) := fun s =>
  (Edw.readAffine binary compress c lsb sqrt mulA mulD s).bind fun r =>
    let g : Coord3 K := ⟨r.1.2, r.1.1, r.1.1 * r.1.2⟩
    if mixed then (Edw.toSpecial debug g).map fun g => (g, r.2) else .ok (g, r.2)

end

/-- `fpCodec` on objects that hold a reduced representative. A read object that does not (only possible in
`MONTGOMERY_OUTPUT` builds, which store what they read) is outside the type `Fp P` and reported as `ub`. -/
def fpObjCodec (mont binary : Bool) (P : FpParams) (bits : Nat) : FieldCodec (Fp P) where
  write := fun x => fpWrite mont binary P x.repr
  read := fun s => (fpRead mont binary P s).bind fun r =>
    if h : r.1.length = P.n ∧ val r.1 < P.p then .ok (⟨r.1, h.1, h.2⟩, r.2) else .ub
  toWords := fun x => toWords mont P x.repr
  fromWords := fun _ w => (fromWords mont P bits w).bind fun r =>
    if h : r.1.length = P.n ∧ val r.1 < P.p then .ok (⟨r.1, h.1, h.2⟩, r.2) else .ub

/-- `y.as_bigint().data[0] & 1`. -/
def fpLsb (P : FpParams) (y : Fp P) : Outcome Bool := (fpAsBigint P y.repr).map fun l => (l.headD 0).getLsbD 0

/-- `y.c0.as_bigint().data[0] & 1`, y in Fp2 (alt_bn128_g2.cpp:392). -/
def fp2Lsb (P : FpParams) {nr : Fp P → Fp P} (y : Quad (Fp P) nr) : Outcome Bool := fpLsb P y.c0

/-- `y.c0.as_bigint().data[0] & 1`, y in Fp3 (mnt6_g2.cpp:435, edwards_g2.cpp:341). -/
def fp3Lsb (P : FpParams) {nr : Fp P → Fp P} (y : Cubic (Fp P) nr) : Outcome Bool := fpLsb P y.c0

end Libff
