import Verif.Spec.Limbs

/-!
# GMP low-level functions

Executable versions of the `mpn_*` functions libff calls, following GMP's documented contract
(GMP manual, "Low-level Functions").  GMP itself is not part of /repo; these are the trusted
reading of its documentation.  All operands are little-endian limb lists; sizes are list lengths.
-/
namespace Libff

/-- ripple-carry addition with carry in; used for `mpn_add_n` (sizes equal). -/
def addC : List Limb → List Limb → Bool → List Limb × Bool
  | a :: as, b :: bs, c =>
    let s := a.toNat + b.toNat + c.toNat
    let r := addC as bs (decide (2 ^ 64 ≤ s))
    (BitVec.ofNat 64 s :: r.1, r.2)
  | _, _, c => ([], c)

/-- `mpn_add_n(rp, ap, bp, n)`: returns the limbs of the sum and the carry. -/
def mpn_add_n (a b : List Limb) : List Limb × Bool := addC a b false

/-- ripple-borrow subtraction with borrow in. -/
def subB : List Limb → List Limb → Bool → List Limb × Bool
  | a :: as, b :: bs, c =>
    let r := subB as bs (decide (a.toNat < b.toNat + c.toNat))
    (BitVec.ofNat 64 (2 ^ 64 + a.toNat - (b.toNat + c.toNat)) :: r.1, r.2)
  | _, _, c => ([], c)

/-- `mpn_sub_n(rp, ap, bp, n)`: returns the limbs of the difference and the borrow. -/
def mpn_sub_n (a b : List Limb) : List Limb × Bool := subB a b false

/-- `mpn_add_1(rp, sp, n, b)`: adds the single limb `b`, returns carry (0 or 1; `b` itself if `n = 0`). -/
def mpn_add_1 : List Limb → Limb → List Limb × Limb
  | [], b => ([], b)
  | a :: as, b =>
    let s := a.toNat + b.toNat
    let r := mpn_add_1 as (BitVec.ofNat 64 (s / 2 ^ 64))
    (BitVec.ofNat 64 s :: r.1, r.2)

/-- `mpn_sub_1(rp, sp, n, b)`. -/
def mpn_sub_1 : List Limb → Limb → List Limb × Limb
  | [], b => ([], b)
  | a :: as, b =>
    let r := mpn_sub_1 as (if a.toNat < b.toNat then 1 else 0)
    ((a - b) :: r.1, r.2)

/-- `mpn_sub(rp, s1p, s1n, s2p, s2n)` with `s1n ≥ s2n`: subtract the shorter operand,
propagate the borrow through the rest of the longer one. -/
def mpn_sub (a b : List Limb) : List Limb × Limb :=
  let lo := mpn_sub_n (a.take b.length) b
  let hi := mpn_sub_1 (a.drop b.length) (if lo.2 then 1 else 0)
  (lo.1 ++ hi.1, hi.2)

/-- `mpn_addmul_1(rp, s1p, n, k)`: `r += a*k`, with running carry limb `c`. -/
def addmulC : List Limb → List Limb → Limb → Limb → List Limb × Limb
  | r :: rs, a :: as, k, c =>
    let t := r.toNat + a.toNat * k.toNat + c.toNat
    let q := addmulC rs as k (BitVec.ofNat 64 (t / 2 ^ 64))
    (BitVec.ofNat 64 t :: q.1, q.2)
  | _, _, _, c => ([], c)

/-- `mpn_addmul_1`. -/
def mpn_addmul_1 (r a : List Limb) (k : Limb) : List Limb × Limb := addmulC r a k 0

/-- schoolbook multiplication producing `a.length + b.length` limbs: `mpn_mul_n`/`mpn_mul`. -/
def mpn_mul : List Limb → List Limb → List Limb
  | [], b => List.replicate b.length 0
  | a :: as, b =>
    -- 2^64 * (as * b) + a * b
    let rest := (0 : Limb) :: mpn_mul as b
    let lo := mpn_addmul_1 (rest.take b.length) b a
    lo.1 ++ (mpn_add_1 (rest.drop b.length) lo.2).1

/-- `mpn_cmp(ap, bp, n)`: most significant limb decides. -/
def mpn_cmp : List Limb → List Limb → Ordering
  | a :: as, b :: bs =>
    match mpn_cmp as bs with
    | .eq => compare a.toNat b.toNat
    | o => o
  | _, _ => .eq

end Libff
