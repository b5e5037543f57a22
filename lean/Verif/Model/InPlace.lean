import Verif.Spec.InPlace
import Verif.Model.Binary
import Verif.Model.FpAsm
import Verif.Model.Ext

/-!
# The assigning operators as programs on memory

The definitions of the other files return the new value of `*this`. Here the operators read and write memory, so `this` and `&other` can be the
same address. Every read of `other.value_[i]` is a read of the memory as it is at that moment. Files are those of
libff/algebra/fields/binary unless a path is given. Local variables are not memory.
-/
namespace Libff

namespace Heap
variable {W : Type}

/-- `*p = w`. -/
def put (p : Nat) (w : W) (h : Heap W) : Heap W := fun c => if c = p then w else h c

/-- `mpn_copyi(p, w, n)`, and stores of several words. -/
def copy : Nat → List W → Heap W → Heap W
  | _, [], h => h
  | p, w :: ws, h => copy (p + 1) ws (h.put p w)

end Heap

/-! ## Binary fields -/

section
variable {n : Nat}

/-- `this->value_[i] ^= other.value_[i]`, e.g. gf128.cpp:54. -/
def xorWord (this other i : Nat) (h : Heap (BitVec n)) : Heap (BitVec n) := h.put (this + i) (h (this + i) ^^^ h (other + i))

end

namespace GF32
/-- `operator+=`, `operator-=`, gf32.cpp:43-59. -/
def addTo (this other : Nat) (h : Heap (BitVec 32)) : Outcome (Heap (BitVec 32)) := .ok (xorWord this other 0 h)
/-- `operator*=`, gf32.cpp:62-94. -/
def mulTo (this other : Nat) (h : Heap (BitVec 32)) : Outcome (Heap (BitVec 32)) :=
  let st := (List.range 32).foldl (fun st i => mulStep (h other) st i) (0, h this)
  .ok (h.put this st.1)
/-- `square`, gf32.cpp:102-110. -/
def square (this : Nat) (h : Heap (BitVec 32)) : Outcome (Heap (BitVec 32)) := mulTo this this h
/-- What an object holds. -/
def cells (x : GF32) : List (BitVec 32) := [x.value]
end GF32

namespace GF64
/-- `operator+=`, `operator-=`, gf64.cpp:43-59. -/
def addTo (this other : Nat) (h : Heap (BitVec 64)) : Outcome (Heap (BitVec 64)) := .ok (xorWord this other 0 h)
/-- `operator*=`, gf64.cpp:62-68, 87-111. -/
def mulTo (this other : Nat) (h : Heap (BitVec 64)) : Outcome (Heap (BitVec 64)) :=
  let st := (List.range 64).foldl (fun st i => mulStep (h other) st i) (0, h this)
  .ok (h.put this st.1)
/-- `operator*=` with `USE_ASM`, gf64.cpp:69-86. -/
def mulToAsm (this other : Nat) (h : Heap (BitVec 64)) : Outcome (Heap (BitVec 64)) :=
  .ok (h.put this (mulAsm ⟨h this⟩ ⟨h other⟩).value)
/-- `square`, gf64.cpp:119-127, with either multiplication. -/
def square (asm : Bool) (this : Nat) (h : Heap (BitVec 64)) : Outcome (Heap (BitVec 64)) :=
  if asm then mulToAsm this this h else mulTo this this h
/-- What an object holds. -/
def cells (x : GF64) : List (BitVec 64) := [x.value]
end GF64

namespace GF128
/-- `operator+=`, `operator-=`, gf128.cpp:49-67. -/
def addTo (this other : Nat) (h : Heap (BitVec 64)) : Outcome (Heap (BitVec 64)) :=
  let h := xorWord this other 0 h
  let h := xorWord this other 1 h
  .ok h
/-- `operator*=`, gf128.cpp:69-75, 109-142. -/
def mulTo (this other : Nat) (h : Heap (BitVec 64)) : Outcome (Heap (BitVec 64)) :=
  let shifted : GF128 := ⟨h this, h (this + 1)⟩
  let st := (List.range 2).foldl (fun st i => (List.range 64).foldl (fun st j => mulStep (h (other + i)) st j) st) (⟨0, 0⟩, shifted)
  let h := h.put this st.1.v0
  let h := h.put (this + 1) st.1.v1
  .ok h
/-- `operator*=` with `USE_ASM`, gf128.cpp:76-108. -/
def mulToAsm (this other : Nat) (h : Heap (BitVec 64)) : Outcome (Heap (BitVec 64)) :=
  let r := mulAsm ⟨h this, h (this + 1)⟩ ⟨h other, h (other + 1)⟩
  .ok (h.copy this [r.v0, r.v1])
/-- `square`, gf128.cpp:150-158. -/
def square (asm : Bool) (this : Nat) (h : Heap (BitVec 64)) : Outcome (Heap (BitVec 64)) :=
  if asm then mulToAsm this this h else mulTo this this h
/-- What an object holds. -/
def cells (x : GF128) : List (BitVec 64) := [x.v0, x.v1]
end GF128

namespace GF192
/-- `operator+=`, `operator-=`, gf192.cpp:50-70. -/
def addTo (this other : Nat) (h : Heap (BitVec 64)) : Outcome (Heap (BitVec 64)) :=
  let h := xorWord this other 0 h
  let h := xorWord this other 1 h
  let h := xorWord this other 2 h
  .ok h
/-- `operator*=`, gf192.cpp:72-78, 145-184. -/
def mulTo (this other : Nat) (h : Heap (BitVec 64)) : Outcome (Heap (BitVec 64)) :=
  let shifted : GF192 := ⟨h this, h (this + 1), h (this + 2)⟩
  let st := (List.range 3).foldl (fun st i => (List.range 64).foldl (fun st j => mulStep (h (other + i)) st j) st) (⟨0, 0, 0⟩, shifted)
  let h := h.put this st.1.v0
  let h := h.put (this + 1) st.1.v1
  let h := h.put (this + 2) st.1.v2
  .ok h
/-- `operator*=` with `USE_ASM`, gf192.cpp:79-144: two stores, of two words and of one. -/
def mulToAsm (this other : Nat) (h : Heap (BitVec 64)) : Outcome (Heap (BitVec 64)) :=
  let r := mulAsm ⟨h this, h (this + 1), h (this + 2)⟩ ⟨h other, h (other + 1), h (other + 2)⟩
  let h := h.copy this [r.v0, r.v1]
  .ok (h.copy (this + 2) [r.v2])
/-- `square`, gf192.cpp:192-200. -/
def square (asm : Bool) (this : Nat) (h : Heap (BitVec 64)) : Outcome (Heap (BitVec 64)) :=
  if asm then mulToAsm this this h else mulTo this this h
/-- What an object holds. -/
def cells (x : GF192) : List (BitVec 64) := [x.v0, x.v1, x.v2]
end GF192

namespace GF256
/-- `operator+=`, `operator-=`, gf256.cpp:52-74. -/
def addTo (this other : Nat) (h : Heap (BitVec 64)) : Outcome (Heap (BitVec 64)) :=
  let h := xorWord this other 0 h
  let h := xorWord this other 1 h
  let h := xorWord this other 2 h
  let h := xorWord this other 3 h
  .ok h
/-- `operator*=`, gf256.cpp:76-82, 225-265. -/
def mulTo (this other : Nat) (h : Heap (BitVec 64)) : Outcome (Heap (BitVec 64)) :=
  let shifted : GF256 := ⟨h this, h (this + 1), h (this + 2), h (this + 3)⟩
  let st := (List.range 4).foldl (fun st i => (List.range 64).foldl (fun st j => mulStep (h (other + i)) st j) st) (⟨0, 0, 0, 0⟩, shifted)
  let h := h.put this st.1.v0
  let h := h.put (this + 1) st.1.v1
  let h := h.put (this + 2) st.1.v2
  let h := h.put (this + 3) st.1.v3
  .ok h
/-- `operator*=` with `USE_ASM`, gf256.cpp:83-224; `karatsuba` says whether `ASM_MINIMIZE_CLMULS` is defined. Two stores of two words. -/
def mulToAsm (karatsuba : Bool) (this other : Nat) (h : Heap (BitVec 64)) : Outcome (Heap (BitVec 64)) :=
  let a : GF256 := ⟨h this, h (this + 1), h (this + 2), h (this + 3)⟩
  let b : GF256 := ⟨h other, h (other + 1), h (other + 2), h (other + 3)⟩
  let r := if karatsuba then mulAsmKaratsuba a b else mulAsm a b
  let h := h.copy this [r.v0, r.v1]
  .ok (h.copy (this + 2) [r.v2, r.v3])
/-- `square`, gf256.cpp:273-281. -/
def square (asm karatsuba : Bool) (this : Nat) (h : Heap (BitVec 64)) : Outcome (Heap (BitVec 64)) :=
  if asm then mulToAsm karatsuba this this h else mulTo this this h
/-- What an object holds. -/
def cells (x : GF256) : List (BitVec 64) := [x.v0, x.v1, x.v2, x.v3]
end GF256

/-! ## Prime fields -/

namespace FpMem
open X86

/-- `operator+=`, portable path, libff/algebra/fields/prime_base/fp.tcc:419-435. -/
def addTo (P : FpParams) (this other : Nat) (h : Heap Limb) : Outcome (Heap Limb) :=
  (addAssign P (h.words this P.n) (h.words other P.n)).map fun r => h.copy this r

/-- `operator-=`, portable path, fp.tcc:509-530. -/
def subTo (P : FpParams) (this other : Nat) (h : Heap Limb) : Outcome (Heap Limb) :=
  (subAssign P (h.words this P.n) (h.words other P.n)).map fun r => h.copy this r

/-- `operator*=` = `mul_reduce(other.mont_repr)`, portable path, fp.tcc:164-193, 534-543. -/
def mulTo (P : FpParams) (this other : Nat) (h : Heap Limb) : Outcome (Heap Limb) :=
  (mulReduce P (h.words this P.n) (h.words other P.n)).map fun r => h.copy this r

/-- One `asm` statement that works on `*this`, `other` and the static `modulus` (at `q`) where they are: all three are written back as the
statement leaves them. -/
def asmOn (P : FpParams) (J : Junk) (prog : List Instr) (q this other : Nat) (h : Heap Limb) : Outcome (Heap Limb) :=
  (exec (asmEnv (decide (this = other)) 0) prog none
    (J.start [] (asmMem (h.words this P.n) (h.words other P.n) (h.words q P.n) []))).map fun s =>
  let h := h.copy q (s.mem 2)
  let h := if this = other then h else h.copy other (s.mem 1)
  h.copy this (s.mem 0)

/-- `operator+=` with `USE_ASM`, fp.tcc:324-439. -/
def addToAsm (P : FpParams) (J : Junk) (q this other : Nat) (h : Heap Limb) : Outcome (Heap Limb) :=
  if P.n = 3 then asmOn P J addProg3 q this other h else if P.n = 4 then asmOn P J addProg4 q this other h
  else if P.n = 5 then asmOn P J addProg5 q this other h else addTo P this other h

/-- `operator-=` with `USE_ASM`, fp.tcc:441-533. -/
def subToAsm (P : FpParams) (J : Junk) (q this other : Nat) (h : Heap Limb) : Outcome (Heap Limb) :=
  if P.n = 3 then asmOn P J subProg3 q this other h else if P.n = 4 then asmOn P J subProg4 q this other h
  else if P.n = 5 then asmOn P J subProg5 q this other h else subTo P this other h

/-- `operator*=` with `USE_ASM`, fp.tcc:25-195, 534-543: the statements write to a local array (`FpAsm`), which is then copied. -/
def mulToAsm (P : FpParams) (J J2 J3 : Junk) (t : List Limb) (this other : Nat) (h : Heap Limb) : Outcome (Heap Limb) :=
  (asmMulReduce P J J2 J3 t (decide (this = other)) (h.words this P.n) (h.words other P.n)).map fun r => h.copy this r

end FpMem

/-! ## Extension fields -/

/-- How an object of an extension field lies in memory with one cell for each coefficient in the prime field, and its copy assignment,
which assigns one member after the other. -/
structure Layout (W α : Type) where
  size : Nat
  load : Nat → Heap W → α
  assign : Nat → α → Heap W → Heap W
  cells : α → List W

namespace Layout
variable {W α : Type} {nr : α → α}

/-- An object of the prime field. -/
def cell : Layout W W := ⟨1, fun p h => h p, fun p x h => h.put p x, fun x => [x]⟩

/-- `c0`, `c1`: fp2.hpp:56, fp4.hpp:56, fp6_2over3.hpp:59, fp12_2over3over2.hpp:60 in libff/algebra/fields/prime_extension. -/
def quad (L : Layout W α) : Layout W (Quad α nr) where
  size := 2 * L.size
  load := fun p h => ⟨L.load p h, L.load (p + L.size) h⟩
  assign := fun p x h => L.assign (p + L.size) x.c1 (L.assign p x.c0 h)
  cells := fun x => L.cells x.c0 ++ L.cells x.c1

/-- `c0`, `c1`, `c2`: fp3.hpp:57, fp6_3over2.hpp:59. -/
def cubic (L : Layout W α) : Layout W (Cubic α nr) where
  size := 3 * L.size
  load := fun p h => ⟨L.load p h, L.load (p + L.size) h, L.load (p + 2 * L.size) h⟩
  assign := fun p x h => L.assign (p + 2 * L.size) x.c2 (L.assign (p + L.size) x.c1 (L.assign p x.c0 h))
  cells := fun x => L.cells x.c0 ++ (L.cells x.c1 ++ L.cells x.c2)

/-- `(*this) = *this + other` and the like: `operator+=`, `-=`, `*=` of fp2.tcc:127-145, fp3.tcc:134-152, fp4.tcc:175-193,
fp6_2over3.tcc:161-179, fp6_3over2.tcc:150-168, fp12_2over3over2.tcc:158-176. -/
def opTo (L : Layout W α) (f : α → α → α) (this other : Nat) (h : Heap W) : Outcome (Heap W) :=
  .ok (L.assign this (f (L.load this h) (L.load other h)) h)

/-- `(*this) = squared()` and the like: `square`, `invert`, `operator^=`, e.g. fp2.tcc:148-173, 225-229. -/
def replace (L : Layout W α) (f : α → Outcome α) (this : Nat) (h : Heap W) : Outcome (Heap W) :=
  (f (L.load this h)).map fun r => L.assign this r h

end Layout
end Libff
