import Verif.Model.Bn128
import Verif.Model.Group

/-!
# The operation counters of the group classes (`PROFILE_OP_COUNTS`)

Each group class has two static counters, `add_cnt` and `dbl_cnt` (alt_bn128_g1.hpp:23-26).  The functions below are the ones of
`Model/Curve.lean` and `Model/Bn128.lean` with the counters as an explicit state; where a branch runs formulas without touching a
counter, its value is the one computed by the function without counters in the same branch.

Simplification: the counters are `long long`; they are integers here, so an overflow after `2^63` operations is not modelled.
-/
namespace Libff

/-- `add_cnt` and `dbl_cnt`, alt_bn128_g1.hpp:24-25. -/
@[ext] structure GCnt where
  add_cnt : Int
  dbl_cnt : Int
  deriving DecidableEq

namespace GCnt

/-- `add_cnt++`. -/
def bumpAdd (s : GCnt) : GCnt := { s with add_cnt := s.add_cnt + 1 }

/-- `dbl_cnt++`. -/
def bumpDbl (s : GCnt) : GCnt := { s with dbl_cnt := s.dbl_cnt + 1 }

end GCnt

/-- The members of a group class the generic algorithms call, with counters. -/
structure CountedOps (G : Type) where
  zero : G
  add : G → G → GCnt → G × GCnt
  sub : G → G → GCnt → G × GCnt
  dbl : G → GCnt → G × GCnt

section
variable {K : Type} [Zero K] [One K] [Add K] [Sub K] [Neg K] [Mul K] [DecidableEq K] [Squared K]

namespace Jac

/-- `dbl`, alt_bn128_g1.cpp:285-318, bls12_381_g1.cpp:274-307: counts at entry, also for zero. -/
def dblC (p : Coord3 K) (s : GCnt) : Coord3 K × GCnt := (dbl p, s.bumpDbl)

/-- `operator+`, alt_bn128_g1.cpp:141-201 with `counted`, bls12_381_g1.cpp:130-186 without: there is no `add_cnt++` in it. -/
def addC (counted : Bool) (p q : Coord3 K) (s : GCnt) : Coord3 K × GCnt :=
  if isZero p then (q, s)
  else if isZero q then (p, s)
  else
    let Z1Z1 := squared p.Z
    let Z2Z2 := squared q.Z
    let U1 := p.X * Z2Z2
    let U2 := q.X * Z1Z1
    let Z1_cubed := p.Z * Z1Z1
    let Z2_cubed := q.Z * Z2Z2
    let S1 := p.Y * Z2_cubed
    let S2 := q.Y * Z1_cubed
    if U1 = U2 ∧ S1 = S2 then dblC p s
    else
      let s := if counted then s.bumpAdd else s
      (add p q, s)

/-- `operator-`, alt_bn128_g1.cpp:209-212, bls12_381_g1.cpp:195-198. -/
def subC (counted : Bool) (p q : Coord3 K) (s : GCnt) : Coord3 K × GCnt := addC counted p (neg q) s

/-- `mixed_add`, alt_bn128_g1.cpp:225-283, bls12_381_g1.cpp:205-272, after the debug assertion: both classes count here. -/
def mixedAddC (p q : Coord3 K) (s : GCnt) : Coord3 K × GCnt :=
  if isZero p then (q, s)
  else if isZero q then (p, s)
  else
    let Z1Z1 := squared p.Z
    let U1 := p.X
    let U2 := q.X * Z1Z1
    let Z1_cubed := p.Z * Z1Z1
    let S1 := p.Y
    let S2 := q.Y * Z1_cubed
    if U1 = U2 ∧ S1 = S2 then dblC p s
    else
      let s := s.bumpAdd
      (mixedAddRelease p q, s)

/-- The classes of alt_bn128 (`counted`) and of bls12_381. -/
@[reducible] def opsC (counted : Bool) : CountedOps (Coord3 K) := ⟨zero, addC counted, subC counted, dblC⟩

end Jac

namespace Proj
variable (mulA : K → K)

/-- `dbl`, mnt4_g1.cpp:322-350. -/
def dblC (p : Coord3 K) (s : GCnt) : Coord3 K × GCnt := (dbl mulA p, s.bumpDbl)

/-- `operator+`, mnt4_g1.cpp:141-214: addition and doubling are inlined, without a counter. -/
def plusC (p q : Coord3 K) (s : GCnt) : Coord3 K × GCnt := (plus mulA p q, s)

/-- `operator-`, mnt4_g1.cpp:222-225. -/
def subC (p q : Coord3 K) (s : GCnt) : Coord3 K × GCnt := plusC mulA p (neg q) s

/-- `add`, mnt4_g1.cpp:227-270. -/
def addC (p q : Coord3 K) (s : GCnt) : Coord3 K × GCnt :=
  if isZero p then (q, s)
  else if isZero q then (p, s)
  else if eq p q then dblC mulA p s
  else
    let s := s.bumpAdd
    (add mulA p q, s)

/-- `mixed_add`, mnt4_g1.cpp:272-320: `add_cnt++` comes first. -/
def mixedAddC (debug : Bool) (p q : Coord3 K) (s : GCnt) : Outcome (Coord3 K × GCnt) :=
  let s := s.bumpAdd
  if isZero p then .ok (q, s)
  else if isZero q then .ok (p, s)
  else if debug && !isSpecial q then .abort
  else
    let X1Z2 := p.X
    let X2Z1 := p.Z * q.X
    let Y1Z2 := p.Y
    let Y2Z1 := p.Z * q.Y
    if X1Z2 = X2Z1 ∧ Y1Z2 = Y2Z1 then .ok (dblC mulA p s)
    else (mixedAdd mulA debug p q).map (·, s)

/-- The classes of mnt4 and mnt6. -/
@[reducible] def opsC : CountedOps (Coord3 K) := ⟨zero, plusC mulA, subC mulA, dblC mulA⟩

end Proj

namespace Edw
variable (mulA mulD : K → K)

/-- `dbl`, edwards_g2.cpp:261-285. -/
def dblC (p : Coord3 K) (s : GCnt) : Coord3 K × GCnt := (dbl mulA mulD p, s.bumpDbl)

/-- `dbl`, edwards_g1.cpp:239-262. -/
def dbl1C (p : Coord3 K) (s : GCnt) : Coord3 K × GCnt := (dbl1 mulD p, s.bumpDbl)

/-- `add`, edwards_g1.cpp:180-200, edwards_g2.cpp:202-222: counts at entry. -/
def addC (p q : Coord3 K) (s : GCnt) : Coord3 K × GCnt := (add mulA mulD p q, s.bumpAdd)

/-- `operator+`, edwards_g1.cpp:153-167. -/
def plusC (p q : Coord3 K) (s : GCnt) : Coord3 K × GCnt :=
  if isZero p then (q, s) else if isZero q then (p, s) else addC mulA mulD p q s

/-- `operator-`, edwards_g1.cpp:175-178. -/
def subC (p q : Coord3 K) (s : GCnt) : Coord3 K × GCnt := plusC mulA mulD p (neg q) s

/-- `mixed_add`, edwards_g1.cpp:202-237, edwards_g2.cpp:224-259: `add_cnt++` comes first. -/
def mixedAddC (debug : Bool) (p q : Coord3 K) (s : GCnt) : Outcome (Coord3 K × GCnt) :=
  let s := s.bumpAdd
  (mixedAdd mulA mulD debug p q).map (·, s)

/-- `edwards_G2`. -/
@[reducible] def opsC : CountedOps (Coord3 K) := ⟨zero, plusC mulA mulD, subC mulA mulD, dblC mulA mulD⟩

/-- `edwards_G1`. -/
@[reducible] def ops1C : CountedOps (Coord3 K) := ⟨zero, plusC (fun x => x) mulD, subC (fun x => x) mulD, dbl1C mulD⟩

end Edw
end

namespace Bn128
variable {K : Type} [Field K] [DecidableEq K] (E : EcOps K)

/-- `dbl`, bn128_g1.cpp:326-338. -/
def dblC (p : Coord3 K) (s : GCnt) : Coord3 K × GCnt := (dbl E p, s.bumpDbl)

/-- The member function `add`, bn128_g1.cpp:224-237. -/
def addC (p q : Coord3 K) (s : GCnt) : Coord3 K × GCnt := (add E p q, s.bumpAdd)

/-- `operator+`, bn128_g1.cpp:188-210. -/
def plusC (p q : Coord3 K) (s : GCnt) : Coord3 K × GCnt :=
  if isZero p then (q, s)
  else if isZero q then (p, s)
  else if eq p q then dblC E p s
  else addC E p q s

/-- `operator-`, bn128_g1.cpp:219-222. -/
def subC (p q : Coord3 K) (s : GCnt) : Coord3 K × GCnt := plusC E p (neg q) s

/-- `mixed_add`, bn128_g1.cpp:239-324, with the debug assertion off. -/
def mixedAddC (p q : Coord3 K) (s : GCnt) : Coord3 K × GCnt :=
  if isZero p then (q, s)
  else if isZero q then (p, s)
  else
    let Z1Z1 := p.Z * p.Z
    let U1 := p.X
    let U2 := q.X * Z1Z1
    let Z1_cubed := p.Z * Z1Z1
    let S1 := p.Y
    let S2 := q.Y * Z1_cubed
    if U1 = U2 ∧ S1 = S2 then dblC E p s
    else
      let s := s.bumpAdd
      (mixedAddRelease E p q, s)

/-- The classes of bn128. -/
@[reducible] def opsC : CountedOps (Coord3 K) := ⟨zero, plusC E, subC E, dblC E⟩

end Bn128

section
variable {G : Type} (C : CountedOps G)

/-- The loop of `scalar_mul`, curve_utils.tcc:19-32, with counters. -/
def scalarMulLoopC (base : G) (e : List Limb) : Nat → Bool × G → GCnt → G × GCnt
  | 0, st, s => (st.2, s)
  | i + 1, (found, result), s =>
    let r := if found then C.dbl result s else (result, s)
    if testBit e i then
      let t := C.add r.1 base r.2
      scalarMulLoopC base e i (true, t.1) t.2
    else scalarMulLoopC base e i (found, r.1) r.2

/-- `scalar_mul(base, scalar)`, curve_utils.tcc:14-35, with counters. -/
def scalarMulC (base : G) (e : List Limb) (s : GCnt) : G × GCnt :=
  scalarMulLoopC C base e (bigintMaxBits e) (false, C.zero) s

end
end Libff
