import Verif.Spec.Codec
import Verif.Model.Bigint
import Mathlib.Data.Nat.Digits.Defs

/-!
# Stream input and output (libff/common/serialization.{hpp,tcc}, stream operators of bigint and Fp)

`binary = true` is a build with `BINARY_OUTPUT`.  A read that runs out of input puts the C++ stream in
its fail state and leaves (part of) the object unchanged; the model reports `abort` for it.
The only theorems about such reads are those of `Verif/Props/Truncate.lean`, which say when they happen.
-/
namespace Libff

/-- `in >> std::string`: skip white space, then take the maximal run of non-space characters. -/
def readToken (s : List Byte) : List Byte × List Byte :=
  let s' := s.dropWhile isSpace
  (s'.takeWhile (fun c => !isSpace c), s'.dropWhile (fun c => !isSpace c))

/-- Decimal digits, most significant first, as printed for an integer (`0` prints one digit). -/
def decDigits (v : Nat) : List Nat := if v = 0 then [0] else (Nat.digits 10 v).reverse

/-- ASCII code of a decimal digit. -/
def digitCode (d : Nat) : Byte := BitVec.ofNat 8 (48 + d)

/-- `out << v` for a non-negative integer (`mpz_t` or `size_t`). -/
def writeNat (v : Nat) : List Byte := (decDigits v).map digitCode

/-- Little-endian bytes of a limb (`out.write((char*)data, 8)` on x86-64). -/
def limbBytes (x : Limb) : List Byte := (List.range 8).map fun i => BitVec.ofNat 8 (x.toNat / 256 ^ i)

/-- Little-endian value of bytes. -/
def bytesVal : List Byte → Nat
  | [] => 0
  | b :: bs => b.toNat + 256 * bytesVal bs

/-- `operator<<(ostream, bigint<n>)`, bigint.tcc:210-224. -/
def bigintWrite (binary : Bool) (a : List Limb) : List Byte :=
  if binary then a.flatMap limbBytes else writeNat (bigintToMpz a)

/-- `in.read((char*)data, 8*n)`, limb by limb. -/
def readLimbs : Nat → Reader (List Limb)
  | 0, s => .ok ([], s)
  | n + 1, s =>
    if s.length < 8 then .abort
    else (readLimbs n (s.drop 8)).map fun r => (BitVec.ofNat 64 (bytesVal (s.take 8)) :: r.1, r.2)

/-- `operator>>(istream, bigint<n>)`, bigint.tcc:227-254. -/
def bigintRead (binary : Bool) (n : Nat) : Reader (List Limb) := fun s =>
  if binary then readLimbs n s
  else
    let t := readToken s
    (bigintOfString n t.1).map fun l => (l, t.2)

/-- `Fp_model::bigint_repr`, fp.tcc:827-836. `mont = true` is a build with `MONTGOMERY_OUTPUT`. -/
def bigintRepr (mont : Bool) (P : FpParams) (a : List Limb) : Outcome (List Limb) :=
  if mont then .ok a else fpAsBigint P a

/-- `operator<<(ostream, Fp_model)`, fp.tcc:810-814. -/
def fpWrite (mont binary : Bool) (P : FpParams) (a : List Limb) : Outcome (List Byte) :=
  (bigintRepr mont P a).map (bigintWrite binary)

/-- `operator>>(istream, Fp_model)`, fp.tcc:817-824. -/
def fpRead (mont binary : Bool) (P : FpParams) : Reader (List Limb) := fun s =>
  (bigintRead binary P.n s).bind fun r =>
    if mont then .ok r else (mulReduce P r.1 P.Rsquared).map fun l => (l, r.2)

/-- `Fp_model::to_words`, fp.tcc:775-785. -/
def toWords (mont : Bool) (P : FpParams) (a : List Limb) : Outcome (List Limb) := bigintRepr mont P a

/-- The integer that `from_words` reads (fp.tcc:794-803): the last `n` words with the top
`bit_offset` bits of the last one cleared.  `bits` is `ceil_size_in_bits()`.
A copied range longer than `n` words would overrun `mont_repr.data`. -/
def fromWordsInt (n bits : Nat) (words : List Limb) : Outcome (List Limb) :=
  -- fp.tcc:795-796
  if words.length * 64 < bits then .abort
  else
    let startBit := words.length * 64 - bits
    let startWord := startBit / 64
    let bitOffset := startBit % 64
    let d := words.drop startWord
    if d.length = n ∧ 0 < n then
      let top := d.getD (n - 1) 0
      .ok (d.set (n - 1) ((top <<< bitOffset) >>> bitOffset))
    else .ub

/-- `Fp_model::from_words`, fp.tcc:788-807; returns the new stored value and the returned flag. -/
def fromWords (mont : Bool) (P : FpParams) (bits : Nat) (words : List Limb) :
    Outcome (List Limb × Bool) :=
  (fromWordsInt P.n bits words).bind fun d =>
    if mont then .ok (d, bigintLt d P.modulus)
    else (mulReduce P d P.Rsquared).map fun r => (r, bigintLt r P.modulus)

end Libff
