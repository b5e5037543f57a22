import Verif.Model.Algorithms
import Verif.Model.Stream

/-!
# Binary fields (libff/algebra/fields/binary/gf{32,64,128,192,256}.{hpp,cpp})

A `uint64_t` is a `BitVec 64`, a `uint32_t` a `BitVec 32`.  The member functions that change `*this`
return the new value; `a.mul b` is the new value of `a` after `a *= b`.  No function writes to `this->value_`
before its last read of `other.value_`, so `a *= a` (used by `square`) is `a.mul a` (proved on memory: C78).

`mul` is the portable code (compiled without `USE_ASM`); `mulAsm` is the code with `USE_ASM`, in terms of the
SSE intrinsics defined first.  The op-count code (`PROFILE_OP_COUNTS`) is left out.
-/
namespace Libff

/-! ## SSE2 / PCLMULQDQ intrinsics

The meaning of the intrinsics as given in Intel's manual; this is not code of the library. -/

/-- `__m128i`. -/
@[ext] structure M128 where
  lo : BitVec 64
  hi : BitVec 64
  deriving DecidableEq

namespace M128
/-- `_mm_loadl_epi64`: the low half from memory, zero above. -/
def loadl (x : BitVec 64) : M128 := ⟨x, 0⟩
/-- `_mm_set_epi64x(e1, e0)`: the first argument is the high half. -/
def set (e1 e0 : BitVec 64) : M128 := ⟨e0, e1⟩
/-- `_mm_xor_si128`. -/
def xor (a b : M128) : M128 := ⟨a.lo ^^^ b.lo, a.hi ^^^ b.hi⟩
/-- `_mm_slli_si128(a, 8)`: shift left by 8 bytes. -/
def slli8 (a : M128) : M128 := ⟨0, a.lo⟩
/-- `_mm_srli_si128(a, 8)`: shift right by 8 bytes. -/
def srli8 (a : M128) : M128 := ⟨a.hi, 0⟩
/-- The carry-less product of two 64-bit words: the exclusive or of `b << i` for the set bits `i` of `a`. -/
def clmul64 (a b : BitVec 64) : M128 :=
  let v : BitVec 128 := (List.range 64).foldl
    (fun acc i => if a.getLsbD i then acc ^^^ (b.zeroExtend 128 <<< i) else acc) 0
  ⟨v.extractLsb' 0 64, v.extractLsb' 64 64⟩
/-- `_mm_clmulepi64_si128(a, b, imm8)`: bit 0 of `imm8` selects the half of `a`, bit 4 the half of `b`. -/
def clmul (a b : M128) (imm8 : BitVec 8) : M128 :=
  clmul64 (if imm8.getLsbD 0 then a.hi else a.lo) (if imm8.getLsbD 4 then b.hi else b.lo)
end M128

/-! ## Code shared by the classes -/

/-- `for (size_t j = 0; j < n; ++j) b.square();` -/
def gfSquareN {K : Type*} [Mul K] (n : Nat) (b : K) : K := (List.range n).foldl (fun b _ => b * b) b

/-- One round of the inversion loop on `(a, result)`: gf32.cpp:176-196, gf128.cpp:214-234,
gf192.cpp:259-277 (without `prev_result`), gf256.cpp:338-356. -/
def gfInvRound {K : Type*} [Mul K] (st : K × K) (i : Nat) : K × K :=
  let b := gfSquareN (1 <<< i) st.1
  (st.1 * b, if i = 0 then b else st.2 * b)

/-- The inversion loop `for (i = 0; i <= last; ++i)` from `a = el`, `result = 0`: gf32.cpp:172-198,
gf128.cpp:211-236, gf256.cpp:334-359. -/
def gfInvLoop {K : Type*} [Mul K] [Zero K] (last : Nat) (el : K) : K :=
  ((List.range (last + 1)).foldl gfInvRound (el, 0)).2

/-- `in >> x` for an unsigned integer of `w` bits in decimal: skip white space, read the digits; a value that
does not fit sets the fail state.  (A sign, which the C++ stream also accepts, is reported as a failure
here; no theorem is about such input.) -/
def readUInt (w : Nat) : Reader (BitVec w) := fun s =>
  let s' := s.dropWhile isSpace
  let isDigit := fun c : Byte => decide (48 ≤ c.toNat ∧ c.toNat ≤ 57)
  let ds := s'.takeWhile isDigit
  let v := ds.foldl (fun acc c => acc * 10 + (c.toNat - 48)) 0
  if ds = [] ∨ 2 ^ w ≤ v then .abort else .ok (BitVec.ofNat w v, s'.dropWhile isDigit)

/-- `words[i]` of a vector: undefined past the end. -/
def wordAt (ws : List (BitVec 64)) (i : Nat) : Outcome (BitVec 64) :=
  match ws[i]? with
  | some w => .ok w
  | none => .ub

/-- `out << " "`. -/
def spaceByte : Byte := 32

/-! ## gf32 -/

/-- gf32.hpp:19-96. -/
@[ext] structure GF32 where
  value : BitVec 32
  deriving DecidableEq

namespace GF32
/-- `modulus_`, gf32.hpp:31. -/
def modulus : BitVec 64 := 0b10000000000000000000111
/-- gf32.cpp:43-50. -/
def add (a b : GF32) : GF32 := ⟨a.value ^^^ b.value⟩
/-- gf32.cpp:52-59. -/
def sub (a b : GF32) : GF32 := ⟨a.value ^^^ b.value⟩
/-- gf32.cpp:130-134. -/
def neg (a : GF32) : GF32 := a
/-- The body of the loop, gf32.cpp:76-89, on `(result, shifted)`; the operands are promoted to 64 bits. -/
def mulStep (other : BitVec 32) (st : BitVec 32 × BitVec 32) (i : Nat) : BitVec 32 × BitVec 32 :=
  let result := if bitAt (other.zeroExtend 64) i then st.1 ^^^ st.2 else st.1
  let shifted :=
    if bitAt (st.2.zeroExtend 64) 31 then (((st.2 <<< 1).zeroExtend 64) ^^^ modulus).truncate 32
    else st.2 <<< 1
  (result, shifted)
/-- gf32.cpp:62-96. -/
def mul (a b : GF32) : GF32 := ⟨((List.range 32).foldl (mulStep b.value) (0, a.value)).1⟩
/-- `zero()`, gf32.cpp:235-238. -/
def zero : GF32 := ⟨0⟩
/-- `one()`, gf32.cpp:240-243. -/
def one : GF32 := ⟨1⟩
instance instZero : Zero GF32 := ⟨zero⟩
instance instOne : One GF32 := ⟨one⟩
instance instAdd : Add GF32 := ⟨add⟩
instance instSub : Sub GF32 := ⟨sub⟩
instance instNeg : Neg GF32 := ⟨neg⟩
instance instMul : Mul GF32 := ⟨mul⟩
/-- `operator==`, gf32.cpp:215-218. -/
def eq (a b : GF32) : Bool := a.value == b.value
/-- gf32.cpp:230-233. -/
def isZero (a : GF32) : Bool := a.value == 0
/-- gf32.cpp:147-152 (and `square`, 102-110). -/
def squared (a : GF32) : GF32 := a * a
/-- gf32.cpp:162-198. -/
def inverse (debug : Bool) (a : GF32) : Outcome GF32 :=
  if debug ∧ a.isZero then .abort else .ok (gfInvLoop 4 a)
/-- gf32.cpp:200-203. -/
def sqrt (a : GF32) : GF32 := powerBigint a (limbsOf 1 2147483648)
/-- `multiplicative_generator`, gf32.cpp:22. -/
def generator : GF32 := ⟨2⟩
/-- gf32.cpp:32-35. -/
def toWords (a : GF32) : List (BitVec 64) := [a.value.zeroExtend 64]
/-- gf32.cpp:37-41. -/
def fromWords (ws : List (BitVec 64)) : Outcome (GF32 × Bool) :=
  (wordAt ws 0).map fun w => (⟨w.truncate 32⟩, true)
/-- `operator<<`, gf32.cpp:252-256. -/
def write (a : GF32) : List Byte := writeNat a.value.toNat
/-- `operator>>`, gf32.cpp:258-262. -/
def read : Reader GF32 := fun s => (readUInt 32 s).map fun r => (⟨r.1⟩, r.2)
/-- `num_bits`, gf32.hpp:32, and `extension_degree()`. -/
def numBits : Nat := 32
end GF32

/-! ## gf64 -/

/-- gf64.hpp:19-97. -/
@[ext] structure GF64 where
  value : BitVec 64
  deriving DecidableEq

namespace GF64
/-- `modulus_`, gf64.hpp:32. -/
def modulus : BitVec 64 := 0b11011
/-- gf64.cpp:43-50. -/
def add (a b : GF64) : GF64 := ⟨a.value ^^^ b.value⟩
/-- gf64.cpp:52-59. -/
def sub (a b : GF64) : GF64 := ⟨a.value ^^^ b.value⟩
/-- gf64.cpp:147-151. -/
def neg (a : GF64) : GF64 := a
/-- The body of the loop, gf64.cpp:92-105, on `(result, shifted)`. -/
def mulStep (other : BitVec 64) (st : BitVec 64 × BitVec 64) (i : Nat) : BitVec 64 × BitVec 64 :=
  let result := if bitAt other i then st.1 ^^^ st.2 else st.1
  let shifted := if bitAt st.2 63 then (st.2 <<< 1) ^^^ modulus else st.2 <<< 1
  (result, shifted)
/-- gf64.cpp:62-68, 87-111. -/
def mul (a b : GF64) : GF64 := ⟨((List.range 64).foldl (mulStep b.value) (0, a.value)).1⟩
/-- gf64.cpp:69-86. -/
def mulAsm (a b : GF64) : GF64 :=
  let modulus := M128.loadl modulus
  let mul128 := M128.clmul (M128.loadl a.value) (M128.loadl b.value) 0
  let mul96 := M128.clmul modulus mul128 0x10
  let rem := M128.xor mul128 mul96
  let mul64 := M128.clmul modulus mul96 0x10
  let rem := M128.xor rem mul64
  ⟨rem.lo⟩
/-- `zero()`, gf64.cpp:276-279. -/
def zero : GF64 := ⟨0⟩
/-- `one()`, gf64.cpp:281-284. -/
def one : GF64 := ⟨1⟩
instance instZero : Zero GF64 := ⟨zero⟩
instance instOne : One GF64 := ⟨one⟩
instance instAdd : Add GF64 := ⟨add⟩
instance instSub : Sub GF64 := ⟨sub⟩
instance instNeg : Neg GF64 := ⟨neg⟩
instance instMul : Mul GF64 := ⟨mul⟩
/-- `operator==`, gf64.cpp:256-259. -/
def eq (a b : GF64) : Bool := a.value == b.value
/-- gf64.cpp:271-274. -/
def isZero (a : GF64) : Bool := a.value == 0
/-- gf64.cpp:164-169 (and `square`, 119-127). -/
def squared (a : GF64) : GF64 := a * a
/-- The addition chain, gf64.cpp:192-238. -/
def invChain (a : GF64) : GF64 :=
  let t0 := a
  let t1 := t0 * t0
  let t2 := t1 * t0
  let t0 := t2 * t2
  let t0 := gfSquareN 1 t0
  let t1 := t1 * t0
  let t2 := t2 * t0
  let t0 := t2 * t2
  let t0 := gfSquareN 3 t0
  let t1 := t1 * t0
  let t2 := t2 * t0
  let t0 := t2 * t2
  let t0 := gfSquareN 7 t0
  let t1 := t1 * t0
  let t2 := t2 * t0
  let t0 := t2 * t2
  let t0 := gfSquareN 15 t0
  let t1 := t1 * t0
  let t0 := t0 * t2
  let t0 := gfSquareN 32 t0
  let t0 := t0 * t1
  t0
/-- gf64.cpp:184-239. -/
def inverse (debug : Bool) (a : GF64) : Outcome GF64 :=
  if debug ∧ a.isZero then .abort else .ok (invChain a)
/-- gf64.cpp:241-244. -/
def sqrt (a : GF64) : GF64 := powerBigint a (limbsOf 1 9223372036854775808)
/-- `multiplicative_generator`, gf64.cpp:22. -/
def generator : GF64 := ⟨2⟩
/-- gf64.cpp:32-35. -/
def toWords (a : GF64) : List (BitVec 64) := [a.value]
/-- gf64.cpp:37-41. -/
def fromWords (ws : List (BitVec 64)) : Outcome (GF64 × Bool) :=
  (wordAt ws 0).map fun w => (⟨w⟩, true)
/-- `operator<<`, gf64.cpp:293-297. -/
def write (a : GF64) : List Byte := writeNat a.value.toNat
/-- `operator>>`, gf64.cpp:299-303. -/
def read : Reader GF64 := fun s => (readUInt 64 s).map fun r => (⟨r.1⟩, r.2)
/-- `num_bits`, gf64.hpp:33, and `extension_degree()`. -/
def numBits : Nat := 64
end GF64

/-! ## gf128 -/

/-- gf128.hpp:19-100; `value_` is little-endian. -/
@[ext] structure GF128 where
  v0 : BitVec 64
  v1 : BitVec 64
  deriving DecidableEq

namespace GF128
/-- `modulus_`, gf128.hpp:31. -/
def modulus : BitVec 64 := 0b10000111
/-- gf128.cpp:49-57. -/
def add (a b : GF128) : GF128 := ⟨a.v0 ^^^ b.v0, a.v1 ^^^ b.v1⟩
/-- gf128.cpp:59-67. -/
def sub (a b : GF128) : GF128 := ⟨a.v0 ^^^ b.v0, a.v1 ^^^ b.v1⟩
/-- `gf128(value_high, value_low)`, gf128.cpp:33-35. -/
def mk2 (high low : BitVec 64) : GF128 := ⟨low, high⟩
/-- gf128.cpp:178-181. -/
def neg (a : GF128) : GF128 := mk2 a.v1 a.v0
/-- The body of the inner loop, gf128.cpp:119-133, for the word `other.value_[i]`, on `(result, shifted)`. -/
def mulStep (word : BitVec 64) (st : GF128 × GF128) (j : Nat) : GF128 × GF128 :=
  let result := if bitAt word j then GF128.mk (st.1.v0 ^^^ st.2.v0) (st.1.v1 ^^^ st.2.v1) else st.1
  let shifted :=
    if bitAt st.2.v1 63 then
      GF128.mk ((st.2.v0 <<< 1) ^^^ modulus) ((st.2.v1 <<< 1) ||| (st.2.v0 >>> 63))
    else GF128.mk (st.2.v0 <<< 1) ((st.2.v1 <<< 1) ||| (st.2.v0 >>> 63))
  (result, shifted)
/-- gf128.cpp:69-75, 109-142. -/
def mul (a b : GF128) : GF128 :=
  ([b.v0, b.v1].foldl (fun st word => (List.range 64).foldl (mulStep word) st) (⟨0, 0⟩, a)).1
/-- gf128.cpp:76-108. -/
def mulAsm (a b : GF128) : GF128 :=
  let a := M128.mk a.v0 a.v1
  let b := M128.mk b.v0 b.v1
  let modulus := M128.loadl modulus
  let high := M128.clmul a b 0x11
  let low := M128.clmul a b 0x00
  let mid1 := M128.clmul a b 0x01
  let mid2 := M128.clmul a b 0x10
  let mid := M128.xor mid1 mid2
  let high := M128.xor high mid.srli8
  let low := M128.xor low mid.slli8
  let tmp := M128.clmul high modulus 0x01
  let low := M128.xor low tmp.slli8
  let high := M128.xor high tmp.srli8
  let tmp := M128.clmul high modulus 0x00
  let low := M128.xor low tmp
  ⟨low.lo, low.hi⟩
/-- `zero()`, gf128.cpp:282-285. -/
def zero : GF128 := ⟨0, 0⟩
/-- `one()`, gf128.cpp:287-290. -/
def one : GF128 := ⟨1, 0⟩
instance instZero : Zero GF128 := ⟨zero⟩
instance instOne : One GF128 := ⟨one⟩
instance instAdd : Add GF128 := ⟨add⟩
instance instSub : Sub GF128 := ⟨sub⟩
instance instNeg : Neg GF128 := ⟨neg⟩
instance instMul : Mul GF128 := ⟨mul⟩
/-- `operator==`, gf128.cpp:255-258. -/
def eq (a b : GF128) : Bool := a.v0 == b.v0 && a.v1 == b.v1
/-- gf128.cpp:265-268. -/
def isZero (a : GF128) : Bool := a.v0 == 0 && a.v1 == 0
/-- gf128.cpp:194-199 (and `square`, 150-158). -/
def squared (a : GF128) : GF128 := a * a
/-- gf128.cpp:203-237. -/
def inverse (debug : Bool) (a : GF128) : Outcome GF128 :=
  if debug ∧ a.isZero then .abort else .ok (gfInvLoop 6 a)
/-- gf128.cpp:239-242. -/
def sqrt (a : GF128) : GF128 := powerBigint a (limbsOf 2 170141183460469231731687303715884105728)
/-- `multiplicative_generator`, gf128.cpp:22. -/
def generator : GF128 := ⟨2, 0⟩
/-- gf128.cpp:37-40. -/
def toWords (a : GF128) : List (BitVec 64) := [a.v0, a.v1]
/-- gf128.cpp:42-47. -/
def fromWords (ws : List (BitVec 64)) : Outcome (GF128 × Bool) :=
  (wordAt ws 0).bind fun w0 => (wordAt ws 1).map fun w1 => (⟨w0, w1⟩, true)
/-- `operator<<`, gf128.cpp:292-296. -/
def write (a : GF128) : List Byte := writeNat a.v0.toNat ++ spaceByte :: writeNat a.v1.toNat
/-- `operator>>`, gf128.cpp:298-302. -/
def read : Reader GF128 := fun s =>
  (readUInt 64 s).bind fun r0 => (readUInt 64 r0.2).map fun r1 => (⟨r0.1, r1.1⟩, r1.2)
/-- `num_bits`, gf128.hpp:32, and `extension_degree()`. -/
def numBits : Nat := 128
end GF128

/-! ## gf192 -/

/-- gf192.hpp:19-100; `value_` is little-endian. -/
@[ext] structure GF192 where
  v0 : BitVec 64
  v1 : BitVec 64
  v2 : BitVec 64
  deriving DecidableEq

namespace GF192
/-- `modulus_`, gf192.hpp:31. -/
def modulus : BitVec 64 := 0b10000111
/-- gf192.cpp:50-59. -/
def add (a b : GF192) : GF192 := ⟨a.v0 ^^^ b.v0, a.v1 ^^^ b.v1, a.v2 ^^^ b.v2⟩
/-- gf192.cpp:61-70. -/
def sub (a b : GF192) : GF192 := ⟨a.v0 ^^^ b.v0, a.v1 ^^^ b.v1, a.v2 ^^^ b.v2⟩
/-- gf192.cpp:220-223. -/
def neg (a : GF192) : GF192 := a
/-- The body of the inner loop, gf192.cpp:157-173, for the word `other.value_[i]`, on `(result, shifted)`. -/
def mulStep (word : BitVec 64) (st : GF192 × GF192) (j : Nat) : GF192 × GF192 :=
  let result :=
    if bitAt word j then GF192.mk (st.1.v0 ^^^ st.2.v0) (st.1.v1 ^^^ st.2.v1) (st.1.v2 ^^^ st.2.v2) else st.1
  let shifted :=
    if bitAt st.2.v2 63 then
      GF192.mk ((st.2.v0 <<< 1) ^^^ modulus) ((st.2.v1 <<< 1) ||| (st.2.v0 >>> 63))
        ((st.2.v2 <<< 1) ||| (st.2.v1 >>> 63))
    else
      GF192.mk (st.2.v0 <<< 1) ((st.2.v1 <<< 1) ||| (st.2.v0 >>> 63)) ((st.2.v2 <<< 1) ||| (st.2.v1 >>> 63))
  (result, shifted)
/-- gf192.cpp:72-78, 145-184. -/
def mul (a b : GF192) : GF192 :=
  ([b.v0, b.v1, b.v2].foldl (fun st word => (List.range 64).foldl (mulStep word) st) (⟨0, 0, 0⟩, a)).1
/-- gf192.cpp:79-144. -/
def mulAsm (a b : GF192) : GF192 :=
  let ab0 := M128.set a.v0 b.v0
  let ab1 := M128.set a.v1 b.v1
  let ab2 := M128.set a.v2 b.v2
  let modulus := M128.loadl modulus
  let c0 := M128.clmul ab0 ab0 0x01
  let c4 := M128.clmul ab2 ab2 0x01
  let t := M128.clmul ab1 ab1 0x01
  let xor01 := M128.xor ab0 ab1
  let c1 := M128.clmul xor01 xor01 0x01
  let c1 := M128.xor (M128.xor c1 c0) t
  let xor12 := M128.xor ab1 ab2
  let c3 := M128.clmul xor12 xor12 0x01
  let c3 := M128.xor (M128.xor c3 c4) t
  let xor02 := M128.xor ab0 ab2
  let c2 := M128.clmul xor02 xor02 0x01
  let c2 := M128.xor (M128.xor (M128.xor c2 c0) c4) t
  let d0 := M128.xor c0 c1.slli8
  let d2 := M128.xor c4 c3.srli8
  let d1 := M128.xor (M128.xor c2 c1.srli8) c3.slli8
  let tmp := M128.clmul d2 modulus 0x01
  let d1 := M128.xor d1 tmp
  let tmp := M128.clmul d2 modulus 0x00
  let d1 := M128.xor d1 tmp.srli8
  let d0 := M128.xor d0 tmp.slli8
  let tmp := M128.clmul d1 modulus 0x01
  let d0 := M128.xor d0 tmp
  ⟨d0.lo, d0.hi, d1.lo⟩
/-- `zero()`, gf192.cpp:336-339. -/
def zero : GF192 := ⟨0, 0, 0⟩
/-- `one()`, gf192.cpp:341-344. -/
def one : GF192 := ⟨1, 0, 0⟩
instance instZero : Zero GF192 := ⟨zero⟩
instance instOne : One GF192 := ⟨one⟩
instance instAdd : Add GF192 := ⟨add⟩
instance instSub : Sub GF192 := ⟨sub⟩
instance instNeg : Neg GF192 := ⟨neg⟩
instance instMul : Mul GF192 := ⟨mul⟩
/-- `operator==`, gf192.cpp:307-312. -/
def eq (a b : GF192) : Bool := a.v0 == b.v0 && a.v1 == b.v1 && a.v2 == b.v2
/-- gf192.cpp:319-322. -/
def isZero (a : GF192) : Bool := a.v0 == 0 && a.v1 == 0 && a.v2 == 0
/-- gf192.cpp:236-241 (and `square`, 192-200). -/
def squared (a : GF192) : GF192 := a * a
/-- The loop body with `prev_result`, gf192.cpp:257-278, on `(a, result, prev_result)`. -/
def invRound (st : GF192 × GF192 × GF192) (i : Nat) : GF192 × GF192 × GF192 :=
  let b := gfSquareN (1 <<< i) st.1
  (st.1 * b, if i = 0 then b else st.2.1 * b, st.2.1)
/-- gf192.cpp:253-287. -/
def invChain (el : GF192) : GF192 :=
  let st := (List.range 7).foldl invRound (el, 0, 0)
  let result := gfSquareN 64 st.2.1
  let prev := gfSquareN 1 st.2.2
  result * prev * el.squared
/-- gf192.cpp:245-288. -/
def inverse (debug : Bool) (a : GF192) : Outcome GF192 :=
  if debug ∧ a.isZero then .abort else .ok (invChain a)
/-- gf192.cpp:290-293. -/
def sqrt (a : GF192) : GF192 :=
  powerBigint a (limbsOf 3 3138550867693340381917894711603833208051177722232017256448)
/-- `multiplicative_generator`, gf192.cpp:22. -/
def generator : GF192 := ⟨2, 0, 0⟩
/-- gf192.cpp:37-40. -/
def toWords (a : GF192) : List (BitVec 64) := [a.v0, a.v1, a.v2]
/-- gf192.cpp:42-48. -/
def fromWords (ws : List (BitVec 64)) : Outcome (GF192 × Bool) :=
  (wordAt ws 0).bind fun w0 => (wordAt ws 1).bind fun w1 => (wordAt ws 2).map fun w2 => (⟨w0, w1, w2⟩, true)
/-- `operator<<`, gf192.cpp:346-350. -/
def write (a : GF192) : List Byte :=
  writeNat a.v0.toNat ++ spaceByte :: (writeNat a.v1.toNat ++ spaceByte :: writeNat a.v2.toNat)
/-- `operator>>`, gf192.cpp:352-356. -/
def read : Reader GF192 := fun s =>
  (readUInt 64 s).bind fun r0 => (readUInt 64 r0.2).bind fun r1 => (readUInt 64 r1.2).map fun r2 =>
    (⟨r0.1, r1.1, r2.1⟩, r2.2)
/-- `num_bits`, gf192.hpp:32, and `extension_degree()`. -/
def numBits : Nat := 192
end GF192

/-! ## gf256 -/

/-- gf256.hpp:20-102; `value_` is little-endian. -/
@[ext] structure GF256 where
  v0 : BitVec 64
  v1 : BitVec 64
  v2 : BitVec 64
  v3 : BitVec 64
  deriving DecidableEq

namespace GF256
/-- `modulus_`, gf256.hpp:32. -/
def modulus : BitVec 64 := 0b10000100101
/-- gf256.cpp:52-62. -/
def add (a b : GF256) : GF256 := ⟨a.v0 ^^^ b.v0, a.v1 ^^^ b.v1, a.v2 ^^^ b.v2, a.v3 ^^^ b.v3⟩
/-- gf256.cpp:64-74. -/
def sub (a b : GF256) : GF256 := ⟨a.v0 ^^^ b.v0, a.v1 ^^^ b.v1, a.v2 ^^^ b.v2, a.v3 ^^^ b.v3⟩
/-- gf256.cpp:301-304. -/
def neg (a : GF256) : GF256 := a
/-- The body of the inner loop, gf256.cpp:235-254, for the word `other.value_[i]`, on `(result, shifted)`. -/
def mulStep (word : BitVec 64) (st : GF256 × GF256) (j : Nat) : GF256 × GF256 :=
  let result :=
    if bitAt word j then
      GF256.mk (st.1.v0 ^^^ st.2.v0) (st.1.v1 ^^^ st.2.v1) (st.1.v2 ^^^ st.2.v2) (st.1.v3 ^^^ st.2.v3)
    else st.1
  let reduce := bitAt st.2.v3 63
  let s3 := (st.2.v3 <<< 1) ||| (st.2.v2 >>> 63)
  let s2 := (st.2.v2 <<< 1) ||| (st.2.v1 >>> 63)
  let s1 := (st.2.v1 <<< 1) ||| (st.2.v0 >>> 63)
  let s0 := st.2.v0 <<< 1
  let s0 := if reduce then s0 ^^^ modulus else s0
  (result, GF256.mk s0 s1 s2 s3)
/-- gf256.cpp:76-82, 225-265. -/
def mul (a b : GF256) : GF256 :=
  ([b.v0, b.v1, b.v2, b.v3].foldl (fun st word => (List.range 64).foldl (mulStep word) st)
    (⟨0, 0, 0, 0⟩, a)).1
/-- The merging and reduction common to both multiplications, gf256.cpp:190-224, from `c0`, …, `c6`. -/
def asmReduce (c0 c1 c2 c3 c4 c5 c6 modulus : M128) : GF256 :=
  let d0 := M128.xor c0 c1.slli8
  let d1 := M128.xor (M128.xor c2 c1.srli8) c3.slli8
  let d2 := M128.xor (M128.xor c4 c3.srli8) c5.slli8
  let d3 := M128.xor c6 c5.srli8
  let tmp := M128.clmul d3 modulus 0x01
  let d2 := M128.xor d2 tmp.srli8
  let d1 := M128.xor d1 tmp.slli8
  let tmp := M128.clmul d3 modulus 0x00
  let d1 := M128.xor d1 tmp
  let tmp := M128.clmul d2 modulus 0x01
  let d1 := M128.xor d1 tmp.srli8
  let d0 := M128.xor d0 tmp.slli8
  let tmp := M128.clmul d2 modulus 0x00
  let d0 := M128.xor d0 tmp
  ⟨d0.lo, d0.hi, d1.lo, d1.hi⟩
/-- With `ASM_MINIMIZE_CLMULS`, gf256.cpp:94-151. -/
def mulAsmKaratsuba (a b : GF256) : GF256 :=
  let ab0 := M128.set a.v0 b.v0
  let ab1 := M128.set a.v1 b.v1
  let ab2 := M128.set a.v2 b.v2
  let ab3 := M128.set a.v3 b.v3
  let modulus := M128.loadl modulus
  let c0 := M128.clmul ab0 ab0 0x01
  let c6 := M128.clmul ab3 ab3 0x01
  let t := M128.clmul ab1 ab1 0x01
  let u := M128.clmul ab2 ab2 0x01
  let xor01 := M128.xor ab0 ab1
  let c1 := M128.clmul xor01 xor01 0x01
  let xor_c0_t := M128.xor c0 t
  let c1 := M128.xor c1 xor_c0_t
  let xor02 := M128.xor ab0 ab2
  let c2 := M128.clmul xor02 xor02 0x01
  let c2 := M128.xor (M128.xor c2 xor_c0_t) u
  let xor23 := M128.xor ab2 ab3
  let c5 := M128.clmul xor23 xor23 0x01
  let xor_c6_u := M128.xor c6 u
  let c5 := M128.xor c5 xor_c6_u
  let xor13 := M128.xor ab1 ab3
  let c4 := M128.clmul xor13 xor13 0x01
  let c4 := M128.xor (M128.xor c4 xor_c6_u) t
  let xor0123 := M128.xor xor02 xor13
  let c3 := M128.clmul xor0123 xor0123 0x01
  let c3 := M128.xor (M128.xor (M128.xor (M128.xor (M128.xor (M128.xor c3 c0) c1) c2) c4) c5) c6
  asmReduce c0 c1 c2 c3 c4 c5 c6 modulus
/-- Without `ASM_MINIMIZE_CLMULS`, gf256.cpp:153-186. -/
def mulAsm (a b : GF256) : GF256 :=
  let a_low := M128.mk a.v0 a.v1
  let a_high := M128.mk a.v2 a.v3
  let b_low := M128.mk b.v0 b.v1
  let b_high := M128.mk b.v2 b.v3
  let modulus := M128.loadl modulus
  let m00 := M128.clmul a_low b_low 0x00
  let m01 := M128.clmul a_low b_low 0x10
  let m10 := M128.clmul a_low b_low 0x01
  let m11 := M128.clmul a_low b_low 0x11
  let m20 := M128.clmul a_high b_low 0x00
  let m21 := M128.clmul a_high b_low 0x10
  let m30 := M128.clmul a_high b_low 0x01
  let m31 := M128.clmul a_high b_low 0x11
  let m02 := M128.clmul a_low b_high 0x00
  let m03 := M128.clmul a_low b_high 0x10
  let m12 := M128.clmul a_low b_high 0x01
  let m13 := M128.clmul a_low b_high 0x11
  let m22 := M128.clmul a_high b_high 0x00
  let m23 := M128.clmul a_high b_high 0x10
  let m32 := M128.clmul a_high b_high 0x01
  let m33 := M128.clmul a_high b_high 0x11
  let c0 := m00
  let c1 := M128.xor m01 m10
  let c2 := M128.xor (M128.xor m02 m11) m20
  let c3 := M128.xor (M128.xor (M128.xor m03 m12) m21) m30
  let c4 := M128.xor (M128.xor m13 m22) m31
  let c5 := M128.xor m23 m32
  let c6 := m33
  asmReduce c0 c1 c2 c3 c4 c5 c6 modulus
/-- `zero()`, gf256.cpp:413-416. -/
def zero : GF256 := ⟨0, 0, 0, 0⟩
/-- `one()`, gf256.cpp:418-421. -/
def one : GF256 := ⟨1, 0, 0, 0⟩
instance instZero : Zero GF256 := ⟨zero⟩
instance instOne : One GF256 := ⟨one⟩
instance instAdd : Add GF256 := ⟨add⟩
instance instSub : Sub GF256 := ⟨sub⟩
instance instNeg : Neg GF256 := ⟨neg⟩
instance instMul : Mul GF256 := ⟨mul⟩
/-- `operator==`, gf256.cpp:380-386. -/
def eq (a b : GF256) : Bool := a.v0 == b.v0 && a.v1 == b.v1 && a.v2 == b.v2 && a.v3 == b.v3
/-- gf256.cpp:393-397. -/
def isZero (a : GF256) : Bool := a.v0 == 0 && a.v1 == 0 && a.v2 == 0 && a.v3 == 0
/-- gf256.cpp:317-322 (and `square`, 273-281). -/
def squared (a : GF256) : GF256 := a * a
/-- gf256.cpp:326-360. -/
def inverse (debug : Bool) (a : GF256) : Outcome GF256 :=
  if debug ∧ a.isZero then .abort else .ok (gfInvLoop 7 a)
/-- gf256.cpp:362-365. -/
def sqrt (a : GF256) : GF256 :=
  powerBigint a (limbsOf 4 57896044618658097711785492504343953926634992332820282019728792003956564819968)
/-- `multiplicative_generator`, gf256.cpp:22. -/
def generator : GF256 := ⟨2, 0, 0, 0⟩
/-- gf256.cpp:38-41. -/
def toWords (a : GF256) : List (BitVec 64) := [a.v0, a.v1, a.v2, a.v3]
/-- gf256.cpp:43-50. -/
def fromWords (ws : List (BitVec 64)) : Outcome (GF256 × Bool) :=
  (wordAt ws 0).bind fun w0 => (wordAt ws 1).bind fun w1 => (wordAt ws 2).bind fun w2 =>
    (wordAt ws 3).map fun w3 => (⟨w0, w1, w2, w3⟩, true)
/-- `operator<<`, gf256.cpp:423-427. -/
def write (a : GF256) : List Byte :=
  writeNat a.v0.toNat ++ spaceByte :: (writeNat a.v1.toNat ++ spaceByte ::
    (writeNat a.v2.toNat ++ spaceByte :: writeNat a.v3.toNat))
/-- `operator>>`, gf256.cpp:429-433. -/
def read : Reader GF256 := fun s =>
  (readUInt 64 s).bind fun r0 => (readUInt 64 r0.2).bind fun r1 => (readUInt 64 r1.2).bind fun r2 =>
    (readUInt 64 r2.2).map fun r3 => (⟨r0.1, r1.1, r2.1, r3.1⟩, r3.2)
/-- `num_bits`, gf256.hpp:33, and `extension_degree()`. -/
def numBits : Nat := 256
end GF256

end Libff
