import Verif.Model.Stream
import Verif.Model.Ext

/-!
# Serialization of extension field elements and of containers

(libff/common/serialization.{hpp,tcc}, libff/common/utils.cpp, stream operators and `to_words`/`from_words` of
libff/algebra/fields/prime_extension/*.tcc)

`binary = true` is a build with `BINARY_OUTPUT`. As in `Verif/Model/Stream.lean` a read that puts the stream in
its fail state is `abort`. Writers return an `Outcome` because the writer of `Fp_model` runs a Montgomery
reduction.
-/
namespace Libff

/-- `"\n"`. -/
def newline : List Byte := [10]

/-- `OUTPUT_NEWLINE`, serialization.hpp:63-69. -/
def outputNewline (binary : Bool) : List Byte := if binary then [] else [10]

/-- `OUTPUT_SEPARATOR`, serialization.hpp:63-69. -/
def outputSeparator (binary : Bool) : List Byte := if binary then [] else [32]

/-- `consume_newline`, serialization.tcc:23-27: drops one character, whatever it is. -/
def consumeNewline : List Byte → Outcome (List Byte)
  | [] => .abort
  | _ :: s => .ok s

/-- `consume_OUTPUT_NEWLINE`, serialization.tcc:29-38. -/
def consumeOutputNewline (binary : Bool) (s : List Byte) : Outcome (List Byte) :=
  if binary then .ok s else consumeNewline s

def isDigit (c : Byte) : Bool := 48 ≤ c.toNat && c.toNat ≤ 57

/-- `in >> size` for a `size_t` (decimal, "C" locale): skip white space, take the maximal run of digits. A value
that does not fit puts the stream in the fail state. Signs are not modelled (treated as failure). -/
def readSize : Reader Nat := fun s =>
  let s := s.dropWhile isSpace
  let ds := s.takeWhile isDigit
  if ds = [] then .abort
  else
    let v := setStrVal (ds.map fun c => c.toNat - 48)
    if 2 ^ 64 ≤ v then .abort else .ok (v, s.dropWhile isDigit)

/-! ## bool and bool vectors -/

/-- `output_bool`, serialization.tcc:51-54. -/
def outputBool (b : Bool) : List Byte := writeNat (if b then 1 else 0) ++ newline

/-- `input_bool`, serialization.tcc:56-64. -/
def inputBool (debug : Bool) : Reader Bool := fun s =>
  (readSize s).bind fun r => (consumeNewline r.2).bind fun s =>
    if debug ∧ ¬ (r.1 = 0 ∨ r.1 = 1) then .abort else .ok (r.1 == 1, s)

/-- `output_bool_vector`, serialization.tcc:66-73. -/
def outputBoolVector (v : List Bool) : List Byte := writeNat v.length ++ newline ++ v.flatMap outputBool

/-- `k` elements, each read by `read` and then followed by what `after` consumes. -/
def readList {α : Type} (read : Reader α) (after : List Byte → Outcome (List Byte)) : Nat → Reader (List α)
  | 0, s => .ok ([], s)
  | k + 1, s => (read s).bind fun r => (after r.2).bind fun s => (readList read after k s).map fun q => (r.1 :: q.1, q.2)

/-- `input_bool_vector`, serialization.tcc:75-87. -/
def inputBoolVector (debug : Bool) : Reader (List Bool) := fun s =>
  (readSize s).bind fun r => (consumeNewline r.2).bind fun s => readList (inputBool debug) .ok r.1 s

/-- `serialize_bit_vector`, utils.cpp:129-136 (`out << bool` prints 0 or 1). -/
def serializeBitVector (v : List Bool) : List Byte :=
  writeNat v.length ++ newline ++ v.flatMap fun b => writeNat (if b then 1 else 0) ++ newline

/-- `in >> b` for a `bool`: a number, which must be 0 or 1. -/
def readBool : Reader Bool := fun s =>
  (readSize s).bind fun r => if r.1 = 0 then .ok (false, r.2) else if r.1 = 1 then .ok (true, r.2) else .abort

/-- `deserialize_bit_vector`, utils.cpp:138-149: newlines are only skipped as leading white space. -/
def deserializeBitVector : Reader (List Bool) := fun s =>
  (readSize s).bind fun r => readList readBool .ok r.1 r.2

/-! ## vectors, maps, sets -/

/-- The elements, each followed by `nl`. -/
def writeList {α : Type} (write : α → Outcome (List Byte)) (nl : List Byte) : List α → Outcome (List Byte)
  | [] => .ok []
  | x :: v => (write x).bind fun a => (writeList write nl v).map fun b => a ++ (nl ++ b)

/-- `operator<<(ostream, vector<T>)`, serialization.tcc:100-110 (and the copies for vectors of extension field
elements, e.g. fp2.tcc:279-289). -/
def vecWrite {α : Type} (binary : Bool) (write : α → Outcome (List Byte)) (v : List α) : Outcome (List Byte) :=
  (writeList write (outputNewline binary) v).map fun b => writeNat v.length ++ (newline ++ b)

/-- `operator>>(istream, vector<T>)`, serialization.tcc:112-130. -/
def vecRead {α : Type} (binary : Bool) (read : Reader α) : Reader (List α) := fun s =>
  (readSize s).bind fun r => (consumeNewline r.2).bind fun s => readList read (consumeOutputNewline binary) r.1 s

/-- `operator>>(istream, vector<Fp2_model>)`, fp2.tcc:291-312; the same text for Fp3 (fp3.tcc:293-314),
Fp6_3over2 (fp6_3over2.tcc:308-329) and Fp12 (fp12_2over3over2.tcc:548-569). Unlike the generic one it does not
consume the newline after each element. -/
def extVecRead {α : Type} (read : Reader α) : Reader (List α) := fun s =>
  (readSize s).bind fun r => (consumeNewline r.2).bind fun s => readList read .ok r.1 s

section
variable {κ β : Type} (lt : κ → κ → Bool)

/-- `m[k] = v` on a `std::map`, kept as the list of entries in increasing order of keys. -/
def mapAssign (k : κ) (v : β) : List (κ × β) → List (κ × β)
  | [] => [(k, v)]
  | e :: m => if lt k e.1 then (k, v) :: e :: m else if lt e.1 k then e :: mapAssign k v m else (e.1, v) :: m

/-- `s.insert(k)` on a `std::set`. -/
def setInsert (k : κ) : List κ → List κ
  | [] => [k]
  | e :: m => if lt k e then k :: e :: m else if lt e k then e :: setInsert k m else e :: m

/-- `operator<<(ostream, map)`, serialization.tcc:132-144. -/
def mapWrite (wk : κ → Outcome (List Byte)) (wv : β → Outcome (List Byte)) (m : List (κ × β)) : Outcome (List Byte) :=
  (writeList (fun e => (wk e.1).bind fun a => (wv e.2).map fun b => a ++ (newline ++ b)) newline m).map
    fun b => writeNat m.length ++ (newline ++ b)

/-- The loop of `operator>>(istream, map)`, serialization.tcc:154-163. -/
def mapReadLoop (rk : Reader κ) (rv : Reader β) : Nat → List (κ × β) → Reader (List (κ × β))
  | 0, m, s => .ok (m, s)
  | i + 1, m, s => (rk s).bind fun k => (consumeNewline k.2).bind fun s =>
      (rv s).bind fun v => (consumeNewline v.2).bind fun s => mapReadLoop rk rv i (mapAssign lt k.1 v.1 m) s

/-- `operator>>(istream, map)`, serialization.tcc:146-166. -/
def mapRead (rk : Reader κ) (rv : Reader β) : Reader (List (κ × β)) := fun s =>
  (readSize s).bind fun r => (consumeNewline r.2).bind fun s => mapReadLoop lt rk rv r.1 [] s

/-- `operator<<(ostream, set)`, serialization.tcc:168-179. -/
def setWrite (w : κ → Outcome (List Byte)) (m : List κ) : Outcome (List Byte) :=
  (writeList w newline m).map fun b => writeNat m.length ++ (newline ++ b)

/-- The loop of `operator>>(istream, set)`, serialization.tcc:190-196. -/
def setReadLoop (r : Reader κ) : Nat → List κ → Reader (List κ)
  | 0, m, s => .ok (m, s)
  | i + 1, m, s => (r s).bind fun k => (consumeNewline k.2).bind fun s => setReadLoop r i (setInsert lt k.1 m) s

/-- `operator>>(istream, set)`, serialization.tcc:182-199. -/
def setRead (r : Reader κ) : Reader (List κ) := fun s =>
  (readSize s).bind fun k => (consumeNewline k.2).bind fun s => setReadLoop lt r k.1 [] s

end

/-! ## Field towers -/

/-- The four serialization functions of a field class. `fromWords` takes the old value of the object: it is a
member function that overwrites the coefficients it gets to. -/
structure FieldCodec (α : Type) where
  write : α → Outcome (List Byte)
  read : Reader α
  toWords : α → Outcome (List Limb)
  fromWords : α → List Limb → Outcome (α × Bool)

/-- The functions of `Fp_model` (`Verif/Model/Stream.lean`), objects being the stored limbs. -/
def fpCodec (mont binary : Bool) (P : FpParams) (bits : Nat) : FieldCodec (List Limb) where
  write := fpWrite mont binary P
  read := fpRead mont binary P
  toWords := toWords mont P
  fromWords := fun _ => fromWords mont P bits

section
variable {α : Type} {nr : α → α} (binary : Bool) (c : FieldCodec α)

/-- `from_words` of the quadratic classes: `&&` does not touch `c1` when `c0` was rejected. -/
def quadFromWords (old : Quad α nr) (words : List Limb) : Outcome (Quad α nr × Bool) :=
  let mid := words.length / 2
  (c.fromWords old.c0 (words.take mid)).bind fun r =>
    if r.2 then (c.fromWords old.c1 (words.drop mid)).map fun q => (⟨r.1, q.1⟩, q.2)
    else .ok (⟨r.1, old.c1⟩, false)

/-- Fp2 (fp2.tcc:245-277), Fp4 (fp4.tcc:324-356), Fp6_2over3 (fp6_2over3.tcc:351-383) and Fp12
(fp12_2over3over2.tcc:502-534). -/
def quadCodec : FieldCodec (Quad α nr) where
  write := fun x => (c.write x.c0).bind fun a => (c.write x.c1).map fun b => a ++ (outputSeparator binary ++ b)
  read := fun s => (c.read s).bind fun r0 => (c.read r0.2).map fun r1 => (⟨r0.1, r1.1⟩, r1.2)
  toWords := fun x => (c.toWords x.c0).bind fun a => (c.toWords x.c1).map fun b => a ++ b
  fromWords := quadFromWords c

/-- `from_words` of the cubic classes. -/
def cubicFromWords (old : Cubic α nr) (words : List Limb) : Outcome (Cubic α nr × Bool) :=
  let c1 := words.length / 3
  let c2 := 2 * words.length / 3
  (c.fromWords old.c0 (words.take c1)).bind fun r =>
    if r.2 then (c.fromWords old.c1 ((words.take c2).drop c1)).bind fun q =>
      if q.2 then (c.fromWords old.c2 (words.drop c2)).map fun t => (⟨r.1, q.1, t.1⟩, t.2)
      else .ok (⟨r.1, q.1, old.c2⟩, false)
    else .ok (⟨r.1, old.c1, old.c2⟩, false)

/-- Fp3 (fp3.tcc:243-279) and Fp6_3over2 (fp6_3over2.tcc:258-294). -/
def cubicCodec : FieldCodec (Cubic α nr) where
  write := fun x => (c.write x.c0).bind fun a => (c.write x.c1).bind fun b => (c.write x.c2).map fun d =>
    a ++ (outputSeparator binary ++ (b ++ (outputSeparator binary ++ d)))
  read := fun s => (c.read s).bind fun r0 => (c.read r0.2).bind fun r1 => (c.read r1.2).map fun r2 =>
    (⟨r0.1, r1.1, r2.1⟩, r2.2)
  toWords := fun x => (c.toWords x.c0).bind fun a => (c.toWords x.c1).bind fun b => (c.toWords x.c2).map fun d =>
    a ++ (b ++ d)
  fromWords := cubicFromWords c

end
end Libff
