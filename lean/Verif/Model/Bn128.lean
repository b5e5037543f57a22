import Verif.Model.PairingIO
import Mathlib.Algebra.Field.Defs

/-!
# bn128 (libff/algebra/curves/bn128)

The classes of this curve wrap the external library ate-pairing, whose source is not part of the repository. What libff's own text
does is modelled here; what it calls is a parameter:

* `bn::Fp`, `bn::Fp2` are a field `K`: `mul`, `square`, `add`, `sub`, `neg`, `inverse`, `==`, `isZero` and `mie::power` are the
  operations of the field;
* `bn::ecop::ECAdd` and `bn::ecop::ECDouble` are the members of `EcOps`;
* the stream operators of `bn::Fp` (text) and its bytes in memory (binary) are a `FieldCodec`, and the low bit of the first byte of
  an element in memory is a function `lsb`.

`bn128_g1.cpp` and `bn128_g2.cpp` have the same text up to the name of the field and the places mentioned below; line numbers are
those of `bn128_g1.cpp`.
-/
namespace Libff
namespace Bn128

/-- The functions of `bn::ecop` the group classes call. -/
structure EcOps (K : Type) where
  ecAdd : Coord3 K → Coord3 K → Coord3 K
  ecDouble : Coord3 K → Coord3 K

section
variable {K : Type} [Field K] [DecidableEq K] (E : EcOps K)

/-- `G1_zero`, bn128_init.cpp:43-45, `G2_zero`, bn128_init.cpp:109-111, returned by `zero()`, bn128_g1.cpp:346-349. -/
def zero : Coord3 K := ⟨1, 1, 0⟩

/-- `is_zero`, bn128_g1.cpp:144-147. -/
def isZero (p : Coord3 K) : Bool := p.Z = 0

/-- `to_affine_coordinates`, bn128_g1.cpp:113-132, and `to_special`, bn128_g1.cpp:134-137. -/
def toAffine (p : Coord3 K) : Coord3 K :=
  if isZero p then ⟨0, 1, 0⟩
  else
    let r := p.Z⁻¹
    let Z := r * r
    let X := p.X * Z
    let r := r * Z
    let Y := p.Y * r
    ⟨X, Y, 1⟩

/-- `is_special`, bn128_g1.cpp:139-142. -/
def isSpecial (p : Coord3 K) : Bool := isZero p || p.Z = 1

/-- `operator==`, bn128_g1.cpp:149-181. -/
def eq (p q : Coord3 K) : Bool :=
  if isZero p then isZero q
  else if isZero q then false
  else
    let Z1sq := p.Z * p.Z
    let Z2sq := q.Z * q.Z
    if Z2sq * p.X ≠ Z1sq * q.X then false
    else
      let Z1cubed := Z1sq * p.Z
      let Z2cubed := Z2sq * q.Z
      Z2cubed * p.Y = Z1cubed * q.Y

/-- `dbl`, bn128_g1.cpp:326-338. -/
def dbl (p : Coord3 K) : Coord3 K := E.ecDouble p

/-- The member function `add`, bn128_g1.cpp:224-237. -/
def add (p q : Coord3 K) : Coord3 K := E.ecAdd p q

/-- `operator+`, bn128_g1.cpp:188-210. -/
def plus (p q : Coord3 K) : Coord3 K :=
  if isZero p then q
  else if isZero q then p
  else if eq p q then dbl E p
  else add E p q

/-- unary `operator-`, bn128_g1.cpp:212-217. -/
def neg (p : Coord3 K) : Coord3 K := ⟨p.X, -p.Y, p.Z⟩

/-- `operator-`, bn128_g1.cpp:219-222. -/
def sub (p q : Coord3 K) : Coord3 K := plus E p (neg q)

/-- `mixed_add` after its debug assertion, bn128_g1.cpp:269-323. -/
def mixedAddRelease (p q : Coord3 K) : Coord3 K :=
  let Z1Z1 := p.Z * p.Z
  let U1 := p.X
  let U2 := q.X * Z1Z1
  let Z1_cubed := p.Z * Z1Z1
  let S1 := p.Y
  let S2 := q.Y * Z1_cubed
  if U1 = U2 ∧ S1 = S2 then dbl E p
  else
    let H := U2 - p.X
    let HH := H * H
    let tmp := HH + HH
    let I := tmp + tmp
    let J := H * I
    let tmp := S2 - p.Y
    let r := tmp + tmp
    let V := p.X * I
    let X3 := r * r
    let X3 := X3 - J
    let X3 := X3 - V
    let X3 := X3 - V
    let tmp := V - X3
    let Y3 := r * tmp
    let tmp := p.Y * J
    let Y3 := Y3 - tmp
    let Y3 := Y3 - tmp
    let tmp := p.Z + H
    let Z3 := tmp * tmp
    let Z3 := Z3 - Z1Z1
    let Z3 := Z3 - HH
    ⟨X3, Y3, Z3⟩

/-- `mixed_add`, bn128_g1.cpp:239-324. The assertion, compiled in with `DEBUG`, comes after the two tests for zero. -/
def mixedAdd (debug : Bool) (p q : Coord3 K) : Outcome (Coord3 K) :=
  if isZero p then .ok q
  else if isZero q then .ok p
  else if debug && !isSpecial q then .abort
  else .ok (mixedAddRelease E p q)

/-- `bn128_G1::mul_by_cofactor`, bn128_g1.cpp:340-344. -/
def mulByCofactorG1 (p : Coord3 K) : Coord3 K := p

/-- `is_well_formed`, bn128_g1.cpp:390-416 (with `bn128_twist_coeff_b` in `bn128_G2`, bn128_g2.cpp:345-371). -/
def isWellFormed (b : K) (p : Coord3 K) : Bool :=
  if isZero p then true
  else
    let X2 := p.X * p.X
    let Y2 := p.Y * p.Y
    let Z2 := p.Z * p.Z
    let X3 := X2 * p.X
    let Z3 := Z2 * p.Z
    let Z6 := Z3 * Z3
    Y2 = X3 + b * Z6

/-- The first loop of `bn_batch_invert`, bn_utils.tcc:21-26: the products of the elements before each element, and of all. `debug`
tells whether `assert` is active. -/
def batchProducts (debug : Bool) : List K → K → Outcome (List K × K)
  | [], acc => .ok ([], acc)
  | el :: vec, acc =>
    if debug ∧ el = 0 then .abort else (batchProducts debug vec (acc * el)).map fun r => (acc :: r.1, r.2)

/-- The second loop of `bn_batch_invert`, bn_utils.tcc:31-36, on the pairs `(vec[i], prod[i])` from the last to the first. -/
def batchBack : List (K × K) → K → List K
  | [], _ => []
  | (old, p) :: rest, accInv => (accInv * p) :: batchBack rest (accInv * old)

/-- `bn_batch_invert(vec)`, bn_utils.tcc:13-37; returns the new contents of `vec`. -/
def batchInvert (debug : Bool) (vec : List K) : Outcome (List K) :=
  (batchProducts debug vec 1).map fun r => (batchBack (vec.zip r.1).reverse r.2⁻¹).reverse

/-- The second loop of `batch_to_special_all_non_zeros`, bn128_g1.cpp:521-530. -/
def scaleAll : List (Coord3 K) → List K → List (Coord3 K)
  | p :: ps, zi :: zs =>
    let Z2 := zi * zi
    let Z3 := Z2 * zi
    ⟨p.X * Z2, p.Y * Z3, 1⟩ :: scaleAll ps zs
  | _, _ => []

/-- `batch_to_special_all_non_zeros`, bn128_g1.cpp:508-531. -/
def batchToSpecialNZ (debug : Bool) (vec : List (Coord3 K)) : Outcome (List (Coord3 K)) :=
  (batchInvert debug (vec.map (·.Z))).map (scaleAll vec)

/-- `sqrt`, bn128_g1.cpp:27-75: `s`, `tm`, `z` are `bn128_Fq_s`, `bn128_Fq_t_minus_1_over_2`, `bn128_Fq_nqr_to_t`
(`bn128_Fq2_...` in `bn128_G2`). Unlike `tonelli_shanks_sqrt` of the field classes it does not treat zero separately. The loops
have the text of `tsLoop`. `ok none`: the loops have not finished after `fuel` rounds. -/
def sqrt (debug : Bool) (s tm : Nat) (z : K) (fuel : Nat) (el : K) : Outcome (Option K) :=
  let w := el ^ tm
  let x := el * w
  let b := x * w
  if debug ∧ tsSquare (fun y => y * y) (s - 1) b ≠ 1 then .abort
  else .ok (tsLoop (fun y => y * y) fuel fuel s z b x)

/-! ## Stream operators -/

variable (binary compress : Bool) (c : FieldCodec K) (lsb : K → Bool)

/-- `operator<<`, bn128_g1.cpp:361-388. -/
def write (g : Coord3 K) : Outcome (List Byte) :=
  let gcopy := toAffine g
  (c.write gcopy.X).bind fun x =>
  (if compress then .ok (writeNat (if lsb gcopy.Y then 1 else 0)) else c.write gcopy.Y).map fun y =>
    writeNat (if isZero gcopy then 1 else 0) ++ (outputSeparator binary ++ (x ++ (outputSeparator binary ++ y)))

/-- `operator>>`, bn128_g1.cpp:418-477; `sqrt` is the square root with the constants of the class. A square root that is never
found is reported as `abort`. -/
def read (b : K) (sqrt : K → Outcome (Option K)) : Reader (Coord3 K) := fun s =>
  (readRaw s).bind fun z => (readSep binary c.read z.2).bind fun x =>
    if compress then
      (consumeOutputSeparator binary x.2).bind fun s => (readRaw s).bind fun l =>
        if z.1 - 48 = 0 then
          (sqrt (x.1 * x.1 * x.1 + b)).bind fun
          | none => .abort
          | some y =>
            let y := if (if lsb y then 1 else 0 : Nat) ≠ (l.1 - 48).toNat then -y else y
            .ok (⟨x.1, y, 1⟩, l.2)
        else .ok (zero, l.2)
    else
      (readSep binary c.read x.2).map fun y => if z.1 - 48 = 0 then (⟨x.1, y.1, 1⟩, y.2) else (zero, y.2)

end

section
variable {F : Type} {nr : F → F} (binary : Bool) (c : FieldCodec F) (lsb : F → Bool)

/-- How `bn128_G2` writes and reads an element of `bn::Fp2` (members `a_`, `b_`): `out << x.a_ << OUTPUT_SEPARATOR << x.b_` and
`in >> x.a_; consume_OUTPUT_SEPARATOR(in); in >> x.b_`, bn128_g2.cpp:398-413, 431-455. Words are not used. -/
def fp2Codec : FieldCodec (Quad F nr) where
  write := fun x => (c.write x.c0).bind fun a => (c.write x.c1).map fun b => a ++ (outputSeparator binary ++ b)
  read := fun s => (c.read s).bind fun r0 => (readSep binary c.read r0.2).map fun r1 => (⟨r0.1, r1.1⟩, r1.2)
  toWords := fun _ => .ub
  fromWords := fun _ _ => .ub

/-- `((unsigned char*)&y.a_)[0] & 1`, bn128_g2.cpp:415 and 471. -/
def fp2Lsb (y : Quad F nr) : Bool := lsb y.c0

/-- `x << "\n"` and `in >> x; consume_newline(in)` in text builds, the bare bytes in binary ones; bn128_pairing.cpp:35-39,
48-53. -/
def readElt : Reader F := fun s => (c.read s).bind fun r => (consumeOutputNewline binary r.2).map fun s => (r.1, s)

/-- `operator<<(ostream, bn128_ate_G1_precomp)`, bn128_pairing.cpp:31-42; the array `P[3]` is a `Coord3`. -/
def writeG1Precomp (p : Coord3 F) : Outcome (List Byte) := writeList c.write (outputNewline binary) [p.X, p.Y, p.Z]

/-- `operator>>(istream, bn128_ate_G1_precomp)`, bn128_pairing.cpp:44-56, on an object with the contents `old`. The loop variable of
`for (auto p : prec_P.P)` is a copy of the array element: what is read goes into the copy. -/
def readG1Precomp (old : Coord3 F) : Reader (Coord3 F) := fun s =>
  (readElt binary c s).bind fun _p0 => (readElt binary c _p0.2).bind fun _p1 => (readElt binary c _p1.2).map fun _p2 => (old, _p2.2)

/-- `bn128_ate_G2_precomp`, bn128_pairing.hpp:31-38. The members `a_`, `b_`, `c_` of a coefficient (`bn::Fp6`) are `X`, `Y`, `Z`. -/
@[ext] structure G2Precomp (F : Type) (nr : F → F) where
  Q : Coord3 (Quad F nr)
  coeffs : List (Coord3 (Quad F nr))

/-- Six elements of `bn::Fp`, bn128_pairing.cpp:85-94 and 98-115. -/
def writeSix (p : Coord3 (Quad F nr)) : Outcome (List Byte) :=
  writeList c.write (outputNewline binary) [p.X.c0, p.X.c1, p.Y.c0, p.Y.c1, p.Z.c0, p.Z.c1]

/-- Reading them, bn128_pairing.cpp:122-133 and 141-161. -/
def readSix : Reader (Coord3 (Quad F nr)) := fun s =>
  (readElt binary c s).bind fun a => (readElt binary c a.2).bind fun b => (readElt binary c b.2).bind fun d =>
  (readElt binary c d.2).bind fun e => (readElt binary c e.2).bind fun f => (readElt binary c f.2).map fun g =>
    (⟨⟨a.1, b.1⟩, ⟨d.1, e.1⟩, ⟨f.1, g.1⟩⟩, g.2)

/-- `operator<<(ostream, bn128_ate_G2_precomp)`, bn128_pairing.cpp:83-118. -/
def writeG2Precomp (q : G2Precomp F nr) : Outcome (List Byte) :=
  (writeSix binary c q.Q).bind fun a => (writeList (writeSix binary c) [] q.coeffs).map fun b =>
    a ++ (writeNat q.coeffs.length ++ (newline ++ b))

/-- `operator>>(istream, bn128_ate_G2_precomp)`, bn128_pairing.cpp:120-164, on an object with the contents `old`. The coefficients
are read into the object; `for (auto q : prec_Q.Q)` again reads into copies. -/
def readG2Precomp (old : G2Precomp F nr) : Reader (G2Precomp F nr) := fun s =>
  (readSix binary (nr := nr) c s).bind fun _q => (readSize _q.2).bind fun count => (consumeNewline count.2).bind fun s =>
  (readList (readSix binary c) .ok count.1 s).map fun v => (⟨old.Q, v.1⟩, v.2)

end

section
variable {F : Type} {nr : F → F}

/-- `bn128_GT::unitary_inverse`, bn128_gt.cpp:35-40 (`bn::Fp12` has members `a_`, `b_`). -/
def unitaryInverse [Neg F] (x : Quad F nr) : Quad F nr := ⟨x.c0, -x.c1⟩

/-- `operator<<(ostream, bn128_GT)`, bn128_gt.cpp:47-56; `c` writes and reads `bn::Fp6`. -/
def writeGT (binary : Bool) (c : FieldCodec F) (x : Quad F nr) : Outcome (List Byte) := (fp2Codec binary c).write x

/-- `operator>>(istream, bn128_GT)`, bn128_gt.cpp:58-69. -/
def readGT (binary : Bool) (c : FieldCodec F) : Reader (Quad F nr) := (fp2Codec binary c).read

end
end Bn128
end Libff
